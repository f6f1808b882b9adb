import Verif.Props.Understood
import Verif.Props.ShippedTexts
import Verif.Lemmas.Inline
/-!
# C61: offsets that are refused

`u since 2000-01-01` where `u` is not a multiple of the second.
-/

namespace Verif

theorem get_filter_ids {l : List Str} {k : Str} (hk : k ∈ l) : ∀ refs : List (Str × Ref),
    Dict.get k (refs.filter fun p => decide (p.1 ∈ l)) = Dict.get k refs := by
  intro refs
  induction refs with
  | nil => rfl
  | cons p refs ih =>
    obtain ⟨n, r⟩ := p
    by_cases hn : n ∈ l
    · rw [List.filter_cons_of_pos (by simpa using hn), Dict.get_cons, Dict.get_cons, ih]
    · rw [List.filter_cons_of_neg (by simpa using hn), Dict.get_cons, ih, if_neg (fun h => hn (by subst h; exact hk))]

theorem Gets.restrict {look : Str → Py Ref} {e e' : Node} {refs : List (Str × Ref)} (h : Gets look e refs)
    (hs : ∀ n ∈ e'.identifiers, n ∈ e.identifiers) : Gets look e' (refs.filter fun p => decide (p.1 ∈ e'.identifiers)) := by
  refine ⟨fun n hn => ?_, fun k a hka => ?_⟩
  · obtain ⟨r, h1, h2⟩ := h.1 n (hs n hn)
    exact ⟨r, h1, by rw [get_filter_ids hn, h2]⟩
  · rw [List.mem_filter] at hka
    have hk : k ∈ e'.identifiers := by simpa using hka.2
    exact ⟨hk, by rw [get_filter_ids hk]; exact (h.2 k a hka.1).2⟩

theorem occurs_ids {a e : Node} (h : Occurs a e) : ∀ n ∈ a.identifiers, n ∈ e.identifiers := by
  induction h with
  | here => exact fun n hn => hn
  | _ _ ih => intro n hn; simp [Node.identifiers, mem_setUnion, ih n hn]

open Spec (Query after Denotes Reading Scale dimOf ShippedUnit)

/-- **C61** (refused dates). `u since …` with a date instead of a number, where `u` denotes anything that is not a time, raises
`ValueError` — whatever the scale of `u`, whatever was asked before. -/
theorem C61_date_of_no_time_refused (strict : Bool) (o q : List Str → List Str) (ho : ∀ l, (o l).Perm l) (hq : ∀ l, (q l).Perm l)
    (s : System) (hs : parseSystem strict q Db.unitSystem = .ok s) (hist : List Query) (limit : Nat) (hlim : 9 ≤ limit)
    (text : Str) (e : Node) (raw : Str) (hp : parse text = .ok (.shift e (.unhandled raw))) (σ : Scale) (c : Rat) (P : Str → Int)
    (h : Denotes e σ c P) (hd : ¬ ∀ b, dimOf P b = if b = c!"second" then 1 else 0) :
    (System.unit ⟨parse, o⟩ limit text (after ⟨parse, o⟩ hist s)).1 = .error .nonNumericShift := by
  obtain ⟨pf, hpf⟩ : ∃ pf, pf = parse := ⟨_, rfl⟩
  rw [← hpf]
  rw [← hpf] at hp
  have hlook := fun n u (hr : Reading n u) => Db.lookup_reading hpf ho hq hs hr
  obtain ⟨refs, h1, h2⟩ := Db.collect (look := Spec.lookup ⟨pf, o⟩ s 9) (e := .shift e (.unhandled raw))
    (fun n hn => by
      obtain ⟨u, hu⟩ := denotes_ids h n ((ids_shift' e raw n).2 hn)
      obtain ⟨r, hr, _⟩ := hlook n u hu
      exact ⟨r, hr⟩) ho
  obtain ⟨⟨u, u1, _, u3, u4, u5, u6⟩, s1, mk, _⟩ := denotes_row hlook h (h2.congr (ids_shift' e raw))
  have hnt : (Ref.unit none e refs).isTimeUnit = .ok false := not_time u1 s1 fun h' => hd fun b => by
    rw [← h' b]; unfold dimOf ShippedUnit.dim; rw [u6]
  have hadm : Adm refs e := adm_iff.2 (mkUnit_iff.1 mk).2
  obtain ⟨r, hr⟩ := (normalise_ok_iff refs e).2 hadm
  have hid := normalise_id refs e hr
  obtain ⟨d, hdd, hdt⟩ : ∃ d, defnDims refs e = .ok d ∧ Dims.isTime d = false := by
    simp only [Ref.isTimeUnit, bind, Except.bind] at hnt
    rw [dims_unit] at hnt
    cases hdd : defnDims refs e with
    | error x => rw [hdd] at hnt; cases hnt
    | ok d => rw [hdd] at hnt; exact ⟨d, rfl, Except.ok.inj hnt⟩
  have hmk : mkUnit none (.shift e (.unhandled raw)) refs = .error .nonNumericShift := by
    simp only [mkUnit, normalisedNode, normalise, bind, Except.bind, hr, hid, hdd, hdt, Bool.false_eq_true, if_false]
  have hun : Spec.unit ⟨pf, o⟩ s 9 text = .error .nonNumericShift := by
    unfold Spec.unit
    simp only [bind, Except.bind] at h1 ⊢
    simp only [hp, h1, unitFromExpr, mk, hnt, hmk, bind, Except.bind, Bool.false_eq_true, if_false]
  obtain ⟨_, _, _, _, _, hpr, hcf⟩ := Db.loaded hq hs
  rw [Db.unit_after (env := ⟨pf, o⟩) hpr hcf hist hlim text (by rw [hun]; simp), hun]

/-- **C61** (dates inside). A text in which a time is shifted (`s @ 3`, `s since 2000-01-01`) anywhere but at the top — inside a product, a
power, a logarithm or another shift — raises, if its words have a meaning: there are no units made of dates. -/
theorem C61_inner_date_refused (strict : Bool) (o q : List Str → List Str) (ho : ∀ l, (o l).Perm l) (hq : ∀ l, (q l).Perm l)
    (s : System) (hs : parseSystem strict q Db.unitSystem = .ok s) (hist : List Query) (limit : Nat) (hlim : 9 ≤ limit)
    (text : Str) (e : Node) (hp : parse text = .ok e) (hw : ∀ n ∈ e.identifiers, ∃ w, Reading n w)
    (a f : Node) (ha : Occurs (.shift a f) e) (hne : e ≠ .shift a f) (σ : Scale) (c : Rat) (P : Str → Int)
    (h : Denotes a σ c P) (hd : ∀ b, dimOf P b = if b = c!"second" then 1 else 0) :
    ∃ x, (System.unit ⟨parse, o⟩ limit text (after ⟨parse, o⟩ hist s)).1 = .error x ∧ x ≠ .recursionError := by
  obtain ⟨pf, hpf⟩ : ∃ pf, pf = parse := ⟨_, rfl⟩
  rw [← hpf]
  rw [← hpf] at hp
  have hlook := fun n u (hr : Reading n u) => Db.lookup_reading hpf ho hq hs hr
  obtain ⟨refs, h1, h2⟩ := Db.collect (look := Spec.lookup ⟨pf, o⟩ s 9) (e := e)
    (fun n hn => by
      obtain ⟨u, hu⟩ := hw n hn
      obtain ⟨r, hr, _⟩ := hlook n u hu
      exact ⟨r, hr⟩) ho
  have hsub : ∀ n ∈ a.identifiers, n ∈ e.identifiers := fun n hn =>
    occurs_ids ha n (by simp [Node.identifiers, mem_setUnion, hn])
  obtain ⟨⟨u, u1, _, u3, u4, u5, u6⟩, s1, _, _⟩ := denotes_row hlook h (h2.restrict hsub)
  have hit : (Ref.unit none a refs).isTimeUnit = .ok true := by
    rw [← is_time u1 s1 fun b => by rw [← hd b]; unfold dimOf ShippedUnit.dim; rw [u6]]
    simp only [Ref.isTimeUnit, dims_unit]
    rw [Inl.defnDims_congr fun k hk => (get_filter_ids hk refs).symm]
  have bad : ∀ {names e'}, Occurs (.shift a f) e' → ∀ r, mkUnit names e' refs ≠ .ok r := by
    intro names e' ho r hr
    have := ((mkUnit_iff.1 hr).2.1 a f ho).2
    rw [hit] at this; cases this
  have hun : ∀ A, Verif.unitFromExpr e refs ≠ .ok A := by
    intro A hA
    cases A with
    | unit r => exact bad ha r ((C24_date_unit_iff e refs).2 r |>.1 hA)
    | date w ref =>
      obtain ⟨t, g, rfl, hm, hg⟩ : ∃ t g, e = .shift t g ∧ (∃ r, mkUnit none t refs = .ok r) ∧ ((∃ v raw, g = .number v raw) ∨ ∃ raw, g = .unhandled raw) := by
        cases e with
        | shift t g =>
          refine ⟨t, g, rfl, ?_, ?_⟩
          · cases hm : mkUnit none t refs with
            | ok r => exact ⟨r, rfl⟩
            | error x => simp only [unitFromExpr, hm, bind, Except.bind] at hA; cases hA
          · cases g with
            | number v raw => exact .inl ⟨v, raw, rfl⟩
            | unhandled raw => exact .inr ⟨raw, rfl⟩
            | _ =>
              exfalso
              simp only [unitFromExpr, bind, Except.bind] at hA
              repeat' split at hA
              all_goals cases hA
        | _ =>
          exfalso
          simp only [unitFromExpr, bind, Except.bind] at hA
          split at hA <;> cases hA
      obtain ⟨r, hm⟩ := hm
      cases ha with
      | here => exact hne rfl
      | shiftU h' => exact bad h' r hm
      | shiftF h' => rcases hg with ⟨v, raw, rfl⟩ | ⟨raw, rfl⟩ <;> cases h'
  cases hx : unitFromExpr e refs with
  | ok A => exact absurd hx (hun A)
  | error x =>
    have hsu : Spec.unit ⟨pf, o⟩ s 9 text = .error x := by
      unfold Spec.unit
      simp only [bind, Except.bind] at h1 ⊢
      simp only [hp, h1, hx]
    have hxr : x ≠ .recursionError := by
      rintro rfl; exact clean_unitFromExpr e refs _ hx
    obtain ⟨_, _, _, _, _, hpr, hcf⟩ := Db.loaded hq hs
    exact ⟨x, by rw [Db.unit_after (env := ⟨pf, o⟩) hpr hcf hist hlim text (by rw [hsu]; exact fun h => hxr (Except.error.inj h)), hsu], hxr⟩

/-- `m since 2000-01-01` meets the hypotheses. -/
example : ∃ e raw, parse c!"m since 2000-01-01" = .ok (.shift e (.unhandled raw)) ∧ Denotes e .linear 1 Db.metre.power ∧
    ¬ ∀ b, dimOf Db.metre.power b = if b = c!"second" then 1 else 0 :=
  ⟨.ident c!"m", c!"2000-01-01", by decide +kernel, .spelling (.plain Db.spells_m), fun h => absurd (h c!"second") (by decide)⟩

/-- `m (s @ 3)` meets the hypotheses of the second theorem. -/
example : ∃ e v raw, parse c!"m (s @ 3)" = .ok e ∧ Occurs (.shift (.ident c!"s") (.number v raw)) e ∧
    e ≠ .shift (.ident c!"s") (.number v raw) ∧ (∀ n ∈ e.identifiers, ∃ w, Reading n w) ∧
    Denotes (.ident c!"s") .linear 1 Db.second.power ∧ ∀ b, dimOf Db.second.power b = if b = c!"second" then 1 else 0 := by
  refine ⟨.mul (.ident c!"m") (.shift (.ident c!"s") (.number (.int 3) (some c!"3"))), .int 3, some c!"3", by decide +kernel,
    .mulR .here, by simp, ?_, .spelling (.plain Db.spells_s), fun b => ?_⟩
  · intro n hn
    have : n = c!"m" ∨ n = c!"s" := by simpa [Node.identifiers, mem_setUnion] using hn
    rcases this with rfl | rfl
    · exact ⟨_, .plain Db.spells_m⟩
    · exact ⟨_, .plain Db.spells_s⟩
  · by_cases h : b = c!"second"
    · subst h; decide
    · rw [if_neg h]
      unfold dimOf ShippedUnit.power Db.second
      split
      · rfl
      · rw [Dict.get_cons, if_neg (fun h' => h (by simpa using h'.symm))]; rfl

end Verif
