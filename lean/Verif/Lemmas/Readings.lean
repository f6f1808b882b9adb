import Verif.Lemmas.Texts
import Verif.Lemmas.ReadingsCheck
import Verif.Spec.Readings
import Verif.Props.ShippedUnits
import Verif.Props.Expanded
/-!
# Spellings and texts over the shipped database
-/

namespace Verif
open Spec (ShippedUnit Scale Reading Spells UnitProduct Denotes evalQ direct Same Query after dimOf withEntries)

/-- every basis unit of the dimensionality that is a time unit is the second -/
def Ref.OnlySeconds (r : Ref) : Prop := r.BasesIn fun b => b.isTime = decide (b.ref = c!"second")

namespace Db

theorem onlySeconds {pf : Str → Py Node} {o : List Str → List Str} {s0 : System} (ht : ∀ n, tree.find (enc n) = direct s0 n)
    {d : Nat} {n : Str} {r : Ref} (h : Spec.lookup ⟨pf, o⟩ s0 d n = .ok r) : r.OnlySeconds := by
  refine lookup_basesIn (fun m a hm => ?_) d n r h
  rw [← ht, show Db.tree = .ofList (allClaims (withEntries 0 Db.decls)) .leaf from rfl, Tree.find_ofList] at hm
  cases hg : Dict.get m (allClaims (withEntries 0 decls)) with
  | none => rw [hg] at hm; cases hm
  | some x =>
    rw [hg] at hm
    have hx : x = .unit a := Option.some.inj hm
    have := List.all_eq_true.1 time_ok _ (Dict.get_mem hg)
    rw [hx] at this
    cases a with
    | pre p => exact basesIn_pre p
    | unit n e rs => cases this
    | basis b =>
      simp only [beq_iff_eq] at this
      intro d hd q hq
      rw [Ref.dims?] at hd
      have hd' := Option.some.inj (Except.ok.inj hd)
      rw [← hd'] at hq
      split at hq
      · cases hq
      · rw [List.mem_singleton] at hq
        rw [hq]; exact this

theorem prefix_mem {p : Str} {v : Rat} (h : (p, v) ∈ Spec.prefixTable) : v ≠ 0 ∧ ∃ pre, (p, pre) ∈ pres ∧ preRat pre = some v := by
  refine ⟨by simpa using List.all_eq_true.1 prefixes_nonzero _ h, ?_⟩
  have h1 : (p, some v) ∈ Spec.prefixTable.map fun x => (x.1, some x.2) := List.mem_map.2 ⟨_, h, rfl⟩
  rw [← pres_table] at h1
  obtain ⟨x, h2, h3⟩ := List.mem_map.1 h1
  obtain ⟨q, pre⟩ := x
  cases h3' : (Prod.mk.inj h3).1
  exact ⟨pre, h2, (Prod.mk.inj h3).2⟩

theorem pre_lin {pre : Prefix} {v : Rat} (h : preRat pre = some v) (hv : v ≠ 0) : (Ref.pre pre).Lin v (fun _ => 0) (fun _ => 0) := by
  unfold preRat at h
  cases hd : Dec.parse pre.value with
  | error e => rw [hd] at h; cases h
  | ok d =>
    rw [hd] at h
    have hx : d.toRat = v := Option.some.inj h
    refine ⟨.number (.dec d) (some pre.value), Mono.ofRat d.toRat, ?_, trivial, ?_, hx, hv, fun b => rfl, .inr ⟨⟨_, rfl⟩, fun _ => rfl⟩⟩
    · rw [Ref.expand, Prefix.expand]; simp only [hd, bind, Except.bind]
    · simp only [Node.toMono, Num.toRat, bind, Except.bind]

/-- the lookup of a prefix followed by a spelling of the table, with the sets in the order of the file -/
theorem lookup_split {pf : Str → Py Node} {s0 : System} (ht : ∀ n, tree.find (enc n) = direct s0 n)
    (hp : s0.prefixNames ++ s0.prefixSymbols = pres) {p n : Str} {pre : Prefix} {u : ShippedUnit} {r : Ref} (hpre : (p, pre) ∈ pres)
    (hu : u ∈ Spec.shipped) (hn : n ∈ u.spellings) (hr : Spec.lookup ⟨pf, id⟩ s0 9 n = .ok r) (hcl : ¬ Claimed (p ++ n))
    (e1 : (p, n) ≠ (c!"d", c!"au")) (e2 : (p, n) ≠ (c!"d", c!"at")) :
    Spec.lookup ⟨pf, id⟩ s0 9 (p ++ n) =
      .ok (.unit none (.mul (.ident p) (.ident n)) (Dict.set n r (Dict.set p (.pre pre) []))) := by
  have hdn : ∃ e, direct s0 n = some e := by
    have h := List.all_eq_true.1 (List.all_eq_true.1 spellings_registered u hu) n hn
    rw [ht] at h
    exact Option.isSome_iff_exists.1 h
  obtain ⟨e, he⟩ := hdn
  have hnone : direct s0 (p ++ n) = none := by
    cases hx : direct s0 (p ++ n) with
    | none => rfl
    | some x =>
      exfalso
      rw [← ht, show Db.tree = .ofList (allClaims (withEntries 0 Db.decls)) .leaf from rfl, Tree.find_ofList] at hx
      cases hg : Dict.get (p ++ n) (allClaims (withEntries 0 decls)) with
      | none => rw [hg] at hx; cases hx
      | some y => exact hcl (claimed_of_mem (Dict.get_mem hg))
  have hent : Spec.entry ⟨pf, id⟩ s0 (Spec.lookup ⟨pf, id⟩ s0 8) e = .ok r := by
    change Spec.step _ _ _ _ = _ at hr
    unfold Spec.step at hr
    rw [he] at hr
    exact hr
  obtain ⟨before, after, hba⟩ := List.append_of_mem hpre
  have hsplit : Spec.firstSplit s0 (p ++ n) (s0.prefixNames ++ s0.prefixSymbols) = some (p, pre, n, e) := by
    rw [hp, hba]
    refine firstSplit_of rfl he before after fun q hq rest hrest => ?_
    rw [← ht]
    exact earlier_sound earlier_ok before p pre after hba n (List.mem_flatMap.2 ⟨u, hu, hn⟩) e1 e2 q.1
      (.inr (List.mem_map.2 ⟨q, hq, rfl⟩)) rest hrest
  change Spec.step _ _ _ _ = _
  unfold Spec.step
  simp only [hnone, hsplit, hent, bind, Except.bind]
  exact mkUnit_shiftFree none _ _ ⟨trivial, trivial⟩

/-- what a reading resolves to, in the fixed registry -/
theorem lookup_reading {pf : Str → Py Node} (hpf : pf = parse) {o q : List Str → List Str} (ho : ∀ l, (o l).Perm l)
    (hq : ∀ l, (q l).Perm l) {strict : Bool} {s : System} (hs : parseSystem strict q Db.unitSystem = .ok s)
    {n : Str} {u : ShippedUnit} (hr : Reading n u) :
    ∃ r, Spec.lookup ⟨pf, o⟩ s 9 n = .ok r ∧ r.IsRow u ∧ (u.scale = .linear → r.Straight) ∧ r.OnlySeconds ∧ u.factor ≠ 0 := by
  obtain ⟨s0, hl, ht, hp, hh, hpr, hcf⟩ := Db.base
  have hs0 := hl strict
  rcases system_order strict id q (fun _ => .refl _) hq Db.unitSystem Db.free with ⟨e, e2, _⟩ | ⟨s0', s', e2, e3, hsame⟩
  · rw [hl] at e2; cases e2
  rw [hl] at e2
  have e2' := Except.ok.inj e2
  subst e2'
  rw [hs] at e3
  have e3' := Except.ok.inj e3
  subst e3'
  have transfer : ∀ {n r} {u : ShippedUnit}, Spec.lookup ⟨pf, id⟩ s0 9 n = .ok r → r.IsRow u → (u.scale = .linear → r.Straight) →
      ∃ r, Spec.lookup ⟨pf, o⟩ s 9 n = .ok r ∧ r.IsRow u ∧ (u.scale = .linear → r.Straight) ∧ r.OnlySeconds := by
    intro n r u hr hrow hstr
    obtain ⟨r2, hr2, hsm⟩ := spec_lookup_same (env1 := ⟨pf, id⟩) (env2 := ⟨pf, o⟩) hsame.sysSame rfl (fun _ => .refl _) ho 9 n r hr
    have hos := onlySeconds ht hr
    obtain ⟨d, m, g1, g2, g3, g4, g5⟩ := hrow
    refine ⟨r2, hr2, ⟨d, m, by rw [← hsm.dims?]; exact g1, g2, (hsm.symDef _).1 g3, g4, g5⟩, fun hl => ?_, ?_⟩
    · obtain ⟨e, e1, e2⟩ := hstr hl
      exact ⟨e, (hsm.expand e).1 e1, e2⟩
    · intro d hd
      exact hos d (by rw [hsm.dims?]; exact hd)
  cases hr with
  | plain h =>
    obtain ⟨hu, hn, h1, h2⟩ := h
    obtain ⟨r, hr, hrow, hstr⟩ := spec_lookup_row hpf (o := id) (fun _ => .refl _) (fun _ => .refl _) hs0 hu hn h1 h2
    obtain ⟨r', a1, a2, a3, a4⟩ := transfer hr hrow hstr
    exact ⟨r', a1, a2, a3, a4, row_factor hu⟩
  | @prefixed p n v u hp1 h hlin hpn hcl e1 e2 =>
    obtain ⟨hu, hn, h1, h2⟩ := h
    obtain ⟨r, hr, hrow, hstr⟩ := spec_lookup_row hpf (o := id) (fun _ => .refl _) (fun _ => .refl _) hs0 hu hn h1 h2
    obtain ⟨hv, pre, hpre, hval⟩ := prefix_mem hp1
    have hlook := lookup_split ht hp hpre hu hn hr hcl e1 e2
    have hset : Dict.set n r (Dict.set p (.pre pre) []) = [(p, .pre pre), (n, r)] := by
      simp [Dict.set, hpn]
    rw [hset] at hlook
    obtain ⟨hlp, hdp⟩ := lin_product (refs := [(p, .pre pre), (n, r)]) (e := .mul (.ident p) (.ident n))
      (c := fun k => if k = p then v else u.factor) (P := fun k b => if k = p then 0 else u.power b)
      (D := fun k b => if k = p then 0 else u.dim b) ⟨trivial, trivial⟩
      (by
        intro k a hka
        rcases List.mem_cons.1 hka with hka | hka
        · cases hka
          exact ⟨by simp [countedIds], by rw [Dict.get_cons, if_pos rfl]⟩
        · rw [List.mem_singleton] at hka
          cases hka
          exact ⟨by simp [countedIds], by rw [Dict.get_cons, if_neg (fun h => hpn (by simpa using h)), Dict.get_cons, if_pos rfl]⟩)
      (by
        intro k hk
        simp only [countedIds, List.cons_append, List.nil_append, List.mem_cons, List.not_mem_nil, or_false] at hk
        rcases hk with rfl | rfl
        · refine ⟨.pre pre, by rw [Dict.get_cons, if_pos rfl], ?_⟩
          simp only [if_true]
          exact pre_lin hval hv
        · refine ⟨r, by rw [Dict.get_cons, if_neg (fun h => hpn (by simpa using h)), Dict.get_cons, if_pos rfl], ?_⟩
          have hne : k ≠ p := fun h => hpn h.symm
          simp only [if_neg hne]
          exact lin_of_row hrow hlin (hstr hlin) (row_factor hu)) none
    have hne : n ≠ p := fun h => hpn h.symm
    obtain ⟨w, w1, w2, w3, w4, w5, w6⟩ := row_of_lin hlp hdp (by
      intro b
      simp only [degree, if_true, if_neg hne]
      unfold ShippedUnit.dim
      split <;> simp)
    have hrow' : (Ref.unit none (.mul (.ident p) (.ident n)) [(p, .pre pre), (n, r)]).IsRow ⟨[], .linear, v * u.factor, u.powers⟩ := by
      obtain ⟨d, m, g1, g2, g3, g4, g5⟩ := w1
      have hpow : ∀ b, w.power b = u.power b := fun b => by
        rw [w6]; simp [degree, hne]
      refine ⟨d, m, g1, fun b => ?_, ?_, ?_, fun b => ?_⟩
      · rw [g2]; unfold ShippedUnit.dim; rw [hpow]; rfl
      · rw [g3, w3]
      · rw [g4, w4]; simp [evalQ, hne]
      · rw [g5, hpow]; rfl
    obtain ⟨r', a1, a2, a3, a4⟩ := transfer hlook hrow' fun _ => w2
    exact ⟨r', a1, a2, a3, a4, mul_ne_zero hv (row_factor hu)⟩

end Db

theorem product_ids {e : Node} (h : UnitProduct e) : ∀ n ∈ e.identifiers, n ∈ countedIds e := by
  induction e with
  | number => intro n hn; cases hn
  | ident m => intro n hn; exact hn
  | unhandled => exact h.elim
  | mul l r hl hr =>
    intro n hn
    simp only [Node.identifiers, mem_setUnion, List.not_mem_nil, false_or] at hn
    exact List.mem_append.2 (hn.imp (hl h.1 n) (hr h.2 n))
  | div l r hl hr =>
    intro n hn
    simp only [Node.identifiers, mem_setUnion, List.not_mem_nil, false_or] at hn
    exact List.mem_append.2 (hn.imp (hl h.1 n) (hr h.2 n))
  | raise l r hl hr =>
    intro n hn
    obtain ⟨h1, i, raw, rfl⟩ := h
    simp only [Node.identifiers, mem_setUnion, List.not_mem_nil, false_or, or_false] at hn
    exact hl h1 n hn
  | shift => exact h.elim
  | log => exact h.elim

theorem degree_zero (e : Node) : degree (fun _ => 0) e = 0 := by
  induction e with
  | raise l r hl hr =>
    cases r with
    | number v raw => cases v <;> simp [degree, hl]
    | _ => rfl
  | _ => simp_all [degree]

/-- the references a text gets: one for each identifier, from `look` -/
def Gets (look : Str → Py Ref) (e : Node) (refs : List (Str × Ref)) : Prop :=
  (∀ n ∈ e.identifiers, ∃ r, look n = .ok r ∧ Dict.get n refs = some r) ∧
  ∀ k a, (k, a) ∈ refs → k ∈ e.identifiers ∧ Dict.get k refs = some a

theorem Gets.congr {look : Str → Py Ref} {e e' : Node} {refs : List (Str × Ref)} (h : Gets look e refs)
    (hi : ∀ n, n ∈ e'.identifiers ↔ n ∈ e.identifiers) : Gets look e' refs :=
  ⟨fun n hn => h.1 n ((hi n).1 hn), fun k a hk => ⟨(hi k).2 (h.2 k a hk).1, (h.2 k a hk).2⟩⟩

theorem ids_shift (e : Node) (v : Num) (raw : Option Str) (n : Str) :
    n ∈ e.identifiers ↔ n ∈ (Node.shift e (.number v raw)).identifiers := by
  simp [Node.identifiers, mem_setUnion]

theorem ids_shift' (e : Node) (raw : Str) (n : Str) :
    n ∈ e.identifiers ↔ n ∈ (Node.shift e (.unhandled raw)).identifiers := by
  simp [Node.identifiers, mem_setUnion]

theorem ids_log (e : Node) (fn : Str) (n : Str) : n ∈ e.identifiers ↔ n ∈ (Node.log fn e).identifiers := by
  simp [Node.identifiers, mem_setUnion]

theorem denotes_ids {e : Node} {σ : Scale} {c : Rat} {P : Str → Int} (h : Denotes e σ c P) :
    ∀ n ∈ e.identifiers, ∃ u, Reading n u := by
  induction h with
  | spelling h => intro n hn; rw [Node.identifiers, List.mem_singleton] at hn; subst hn; exact ⟨_, h⟩
  | product _ h => intro n hn; exact ⟨_, (h n hn).1⟩
  | shift h _ _ ih => intro n hn; exact ih n ((ids_shift _ _ _ n).2 hn)
  | log h _ ih => intro n hn; exact ih n ((ids_log _ _ n).2 hn)

/-- a single name: the unit has the meaning of what the name stands for -/
theorem isRow_ident' {r : Ref} {u : ShippedUnit} (h : r.IsRow u) {n : Str} {refs : List (Str × Ref)} (hg : Dict.get n refs = some r)
    (hex : ∃ es, Ref.expandList refs = .ok es) :
    (Ref.unit none (.ident n) refs).IsRow u ∧ (r.Straight → (Ref.unit none (.ident n) refs).Straight) := by
  obtain ⟨d, m, h1, h2, h3, h4, h5⟩ := h
  obtain ⟨es, hes⟩ := hex
  obtain ⟨x, x1, x2⟩ := get_expandList hes hg
  have hexp : (Ref.unit none (.ident n) refs).expand = .ok x := by
    rw [Ref.expand]; simp only [bind, Except.bind, hes, Node.substitute, x2]
  refine ⟨?_, ?_⟩
  · obtain ⟨d', e1, e2⟩ := C09_dimensionality_of_identifier none refs n r hg d (dims_of_some h1)
    refine ⟨d', m, ?_, fun s => (e2 s).trans (h2 s), ?_, h4, h5⟩
    · rw [dims_unit] at e1
      rw [Ref.dims?]
      change (do let d ← defnDims refs (.ident n); .ok (some d) : Py (Option Dims)) = _
      simp only [bind, Except.bind, e1]
    · unfold Ref.symDef at h3 ⊢
      rw [x1] at h3; rw [hexp]; exact h3
  · rintro ⟨y, y1, y2⟩
    rw [x1] at y1; cases y1
    exact ⟨x, hexp, y2⟩

theorem logs_ok {fn : Str} {σ : Scale} (h : (fn, σ) ∈ [(c!"lb", Scale.log2), (c!"lg", .log10), (c!"ln", .ln), (c!"log", .ln)]) :
    ∃ b, logBase fn = .ok b ∧ scaleOps σ = [.log b] := by
  simp only [List.mem_cons, Prod.mk.injEq, List.not_mem_nil, or_false] at h
  rcases h with ⟨rfl, rfl⟩ | ⟨rfl, rfl⟩ | ⟨rfl, rfl⟩ | ⟨rfl, rfl⟩ <;> exact ⟨_, rfl, rfl⟩

/-- not a time unit, if the dimensionality is not the second -/
theorem not_time {e : Node} {refs : List (Str × Ref)} {u : ShippedUnit} (h : (Ref.unit none e refs).IsRow u)
    (hs : (Ref.unit none e refs).OnlySeconds) (hn : ¬ ∀ b, u.dim b = if b = c!"second" then 1 else 0) :
    (Ref.unit none e refs).isTimeUnit = .ok false := by
  obtain ⟨d, m, h1, h2, _⟩ := h
  cases ht : (Ref.unit none e refs).isTimeUnit with
  | error x =>
    exfalso
    simp only [Ref.isTimeUnit, dims_of_some h1, bind, Except.bind] at ht
    cases ht
  | ok b =>
    cases b with
    | false => rfl
    | true =>
      exfalso
      obtain ⟨d', b, g1, g2, g3, g4⟩ := (C24_time_unit_iff none e refs).1 ht
      rw [dims_of_some h1] at g1
      have hd : d = d' := Except.ok.inj g1
      subst hd
      have hb : b.isTime = decide (b.ref = c!"second") := hs d h1 _ g2
      rw [g3] at hb
      have hb' : b.ref = c!"second" := of_decide_eq_true hb.symm
      apply hn
      intro n
      rw [← h2, g4, hb']

theorem is_time {e : Node} {refs : List (Str × Ref)} {u : ShippedUnit} (h : (Ref.unit none e refs).IsRow u)
    (hs : (Ref.unit none e refs).OnlySeconds) (hn : ∀ b, u.dim b = if b = c!"second" then 1 else 0) :
    (Ref.unit none e refs).isTimeUnit = .ok true := by
  obtain ⟨d, m, h1, h2, _⟩ := h
  have hp : Dims.power c!"second" d = 1 := by rw [h2, hn, if_pos rfl]
  rw [C24_time_unit_iff]
  have hget : ∃ b, (b, 1) ∈ d ∧ b.ref = c!"second" := by
    unfold Dims.power at hp
    cases hg : Dims.get? c!"second" d with
    | none => rw [hg] at hp; cases hp
    | some v =>
      rw [hg] at hp
      have hv : v = 1 := hp
      subst hv
      have : ∀ (l : Dims), Dims.get? c!"second" l = some 1 → ∃ b, (b, 1) ∈ l ∧ b.ref = c!"second" := by
        intro l
        induction l with
        | nil => intro h; cases h
        | cons x l ih =>
          obtain ⟨b, k⟩ := x
          intro h
          unfold Dims.get? at h
          split at h
          · rename_i heq; cases h; exact ⟨b, List.mem_cons_self .., heq⟩
          · obtain ⟨b', i1, i2⟩ := ih h; exact ⟨b', List.mem_cons_of_mem _ i1, i2⟩
      exact this d hg
  obtain ⟨b, b1, b2⟩ := hget
  refine ⟨d, b, dims_of_some h1, b1, ?_, fun n => ?_⟩
  · rw [hs d h1 _ b1, b2]; rfl
  · rw [h2, hn, b2]

/-- The unit built for a text, in a context where the spellings mean what the table says. -/
theorem denotes_row {look : Str → Py Ref}
    (hlook : ∀ n u, Reading n u → ∃ r, look n = .ok r ∧ r.IsRow u ∧ (u.scale = .linear → r.Straight) ∧ r.OnlySeconds ∧ u.factor ≠ 0)
    {e : Node} {σ : Scale} {c : Rat} {P : Str → Int} (h : Denotes e σ c P) {refs : List (Str × Ref)} (hg : Gets look e refs) :
    (∃ u, (Ref.unit none e refs).IsRow u ∧ (σ = .linear → (Ref.unit none e refs).Straight) ∧
      u.scale = σ ∧ u.factor = c ∧ c ≠ 0 ∧ ∀ b, u.power b = P b) ∧
    (Ref.unit none e refs).OnlySeconds ∧ mkUnit none e refs = .ok (.unit none e refs) ∧
    unitFromExpr e refs = .ok (.unit (.unit none e refs)) := by
  have hsec : ∀ {e}, (∀ n ∈ e.identifiers, ∃ u, Reading n u) → Gets look e refs → (Ref.unit none e refs).OnlySeconds := by
    intro e hi hg
    refine basesIn_unit fun n a ha => ?_
    obtain ⟨u, hu⟩ := hi n (hg.2 _ _ (Dict.get_mem ha)).1
    obtain ⟨r, r1, _, _, r2, _⟩ := hlook n u hu
    obtain ⟨r', r3, r4⟩ := hg.1 n (hg.2 _ _ (Dict.get_mem ha)).1
    rw [r1] at r3; cases r3
    rw [ha] at r4; cases r4
    exact r2
  induction h with
  | @spelling n u h =>
    obtain ⟨r, r1, r2, r3, r4, r5⟩ := hlook n u h
    obtain ⟨r', g1, g2⟩ := hg.1 n (List.mem_singleton.2 rfl)
    rw [r1] at g1; cases g1
    have hex : ∃ es, Ref.expandList refs = .ok es := expandList_total fun k a ha => by
      obtain ⟨h1, h2⟩ := hg.2 k a ha
      rw [Node.identifiers, List.mem_singleton] at h1
      subst h1
      rw [g2] at h2; cases h2
      obtain ⟨d, m, _, _, hsd, _⟩ := r2
      unfold Ref.symDef at hsd
      cases hx : r.expand with
      | error x => rw [hx] at hsd; cases hsd
      | ok x => exact ⟨x, rfl⟩
    obtain ⟨i1, i2⟩ := isRow_ident' r2 g2 hex
    have hmk := mkUnit_shiftFree none refs (.ident n) trivial
    exact ⟨⟨u, i1, fun hl => i2 (r3 hl), rfl, rfl, r5, fun b => rfl⟩, hsec (denotes_ids (.spelling h)) hg, hmk,
      by simp only [unitFromExpr, hmk, bind, Except.bind]⟩
  | @product e unit hp hr =>
    have hmk := mkUnit_shiftFree none refs e (product_shiftFree hp)
    obtain ⟨l1, l2⟩ := lin_product (refs := refs) (c := fun n => (unit n).factor) (P := fun n => (unit n).power)
      (D := fun n => (unit n).dim) hp
      (fun k a ha => ⟨product_ids hp k (hg.2 k a ha).1, (hg.2 k a ha).2⟩)
      (fun n hn => by
        have hn' := countedIds_sub n hn
        obtain ⟨h1, h2⟩ := hr n hn'
        obtain ⟨r, r1, r2, r3, r4, r5⟩ := hlook n _ h1
        obtain ⟨r', g1, g2⟩ := hg.1 n hn'
        rw [r1] at g1; cases g1
        exact ⟨r, g2, lin_of_row r2 h2 (r3 h2) r5⟩) none
    obtain ⟨w, w1, w2, w3, w4, w5, w6⟩ := row_of_lin l1 l2 (by
      intro b
      by_cases hb : b = c!"radian"
      · rw [if_pos hb]
        have : (fun n => (unit n).dim b) = fun _ => (0 : Int) := by funext n; unfold ShippedUnit.dim; rw [if_pos hb]
        rw [this]; exact degree_zero e
      · rw [if_neg hb]
        have : (fun n => (unit n).dim b) = fun n => (unit n).power b := by funext n; unfold ShippedUnit.dim; rw [if_neg hb]
        rw [this])
    refine ⟨⟨w, w1, fun _ => w2, w3, w4, w5, w6⟩, hsec (fun n hn => ⟨_, (hr n hn).1⟩) hg, hmk, ?_⟩
    cases e with
    | shift => exact hp.elim
    | _ => simp only [unitFromExpr, hmk, bind, Except.bind]
  | @shift e c P v raw q h hq hn ih =>
    obtain ⟨⟨u, u1, u2, u3, u4, u5, u6⟩, s1, mk, _⟩ := ih (hg.congr (ids_shift e v raw))
    have hdim : ¬ ∀ b, u.dim b = if b = c!"second" then 1 else 0 := by
      intro h'
      apply hn
      intro b
      rw [← h' b]; unfold dimOf ShippedUnit.dim; rw [u6]
    have hnt := not_time u1 s1 hdim
    have hmk : mkUnit none (.shift e (.number v raw)) refs = .ok (.unit none (.shift e (.number v raw)) refs) := by
      have hadm : Adm refs (.shift e (.number v raw)) := ⟨adm_iff.2 (mkUnit_iff.1 mk).2, ⟨_, _, rfl⟩, hnt⟩
      exact mkUnit_iff.2 ⟨rfl, adm_iff.1 hadm⟩
    refine ⟨⟨{ u with scale := .offset q }, row_shift u1 (u2 rfl) u3 hq, ?_, rfl, u4, u5, u6⟩, ?_, hmk, ?_⟩
    · intro h; cases h
    · exact hsec (denotes_ids (.shift h hq hn)) hg
    · simp only [unitFromExpr, mk, hnt, hmk, bind, Except.bind]
      rfl
  | @log e c P fn σ h hf ih =>
    obtain ⟨⟨u, u1, u2, u3, u4, u5, u6⟩, s1, mk, _⟩ := ih (hg.congr (ids_log e fn))
    obtain ⟨b, b1, b2⟩ := logs_ok hf
    have hadm0 : Adm refs e := adm_iff.2 (mkUnit_iff.1 mk).2
    have hadm : Adm refs (.log fn e) := hadm0
    have hmk : mkUnit none (.log fn e) refs = .ok (.unit none (.log fn e) refs) := mkUnit_iff.2 ⟨rfl, adm_iff.1 hadm⟩
    refine ⟨⟨{ u with scale := σ }, row_log u1 (u2 rfl) u3 b1 b2, ?_, rfl, u4, u5, u6⟩, ?_, hmk, ?_⟩
    · rintro rfl; simp [scaleOps] at b2
    · exact hsec (denotes_ids (.log h hf)) hg
    · simp only [unitFromExpr, hmk, bind, Except.bind]

namespace Db

/-- the references `unit` collects for a text all of whose identifiers are readable -/
theorem collect {look : Str → Py Ref} {e : Node} (hi : ∀ n ∈ e.identifiers, ∃ r, look n = .ok r) {o : List Str → List Str}
    (ho : ∀ l, (o l).Perm l) :
    ∃ refs, ((o e.identifiers).mapM fun n => do .ok (n, ← look n) : Py (List (Str × Ref))) = .ok refs ∧ Gets look e refs := by
  obtain ⟨f, hf⟩ : ∃ f : Str → Ref, ∀ n ∈ e.identifiers, look n = .ok (f n) := by
    refine ⟨fun n => (look n).toOption.getD (.pre ⟨[], [], []⟩), fun n hn => ?_⟩
    obtain ⟨r, hr⟩ := hi n hn
    simp only [hr]; rfl
  refine ⟨_, mapM_lookup (f := f) (o e.identifiers) fun n hn => hf n ((ho _).mem_iff.1 hn), fun n hn => ⟨f n, hf n hn, ?_⟩,
    fun k a hk => ?_⟩
  · rw [get_map_pair, if_pos ((ho _).mem_iff.2 hn)]
  · obtain ⟨n, h1, h2⟩ := List.mem_map.1 hk
    cases h2
    exact ⟨(ho _).mem_iff.1 h1, by rw [get_map_pair, if_pos h1]⟩

/-- `unit(text)` after any history, from the fixed registry -/
theorem unit_of_spec {pf : Str → Py Node} {o q : List Str → List Str}
    (hq : ∀ l, (q l).Perm l) {strict : Bool} {s : System} (hs : parseSystem strict q Db.unitSystem = .ok s)
    {text : Str} {A : UObj} (h : Spec.unit ⟨pf, o⟩ s 9 text = .ok A) (hist : List Query) (limit : Nat) (hlim : 9 ≤ limit) :
    (System.unit ⟨pf, o⟩ limit text (after ⟨pf, o⟩ hist s)).1 = .ok A := by
  obtain ⟨s', hs', hpr', hcf', _⟩ := C38_shipped_database_loads strict q hq
  rw [hs] at hs'
  have e := Except.ok.inj hs'
  subst e
  have hsim := (sim_unit hcf' limit text _ (inv_after hcf' hist (Inv.init ⟨pf, o⟩ hpr'))).2.2
  have := Le.trans (spec_unit_mono ⟨pf, o⟩ s text hlim) hsim
  simp only [h] at this
  exact this.ok

/-- `unit(text)` on the shipped database -/
theorem unit_text {pf : Str → Py Node} (hpf : pf = parse) {o q : List Str → List Str} (ho : ∀ l, (o l).Perm l)
    (hq : ∀ l, (q l).Perm l) {strict : Bool} {s : System} (hs : parseSystem strict q Db.unitSystem = .ok s)
    {text : Str} {e : Node} (hp : pf text = .ok e) {σ : Scale} {c : Rat} {P : Str → Int} (h : Denotes e σ c P)
    (hist : List Query) (limit : Nat) (hlim : 9 ≤ limit) :
    ∃ refs u, (System.unit ⟨pf, o⟩ limit text (after ⟨pf, o⟩ hist s)).1 = .ok (.unit (.unit none e refs)) ∧
      (Ref.unit none e refs).IsRow u ∧ u.scale = σ ∧ u.factor = c ∧ c ≠ 0 ∧ ∀ b, u.power b = P b := by
  have hlook := fun n u (hr : Reading n u) => lookup_reading hpf ho hq hs hr
  obtain ⟨refs, h1, h2⟩ := collect (look := Spec.lookup ⟨pf, o⟩ s 9) (e := e)
    (fun n hn => by
      obtain ⟨u, hu⟩ := denotes_ids h n hn
      obtain ⟨r, hr, _⟩ := hlook n u hu
      exact ⟨r, hr⟩) ho
  obtain ⟨⟨u, u1, _, u3⟩, _, _, h3⟩ := denotes_row hlook h h2
  refine ⟨refs, u, unit_of_spec hq hs ?_ hist limit hlim, u1, u3⟩
  unfold Spec.unit
  simp only [bind, Except.bind] at h1 ⊢
  simp only [hp, h1, h3]

/-- `unit("… since …")` on the shipped database -/
theorem date_text {pf : Str → Py Node} (hpf : pf = parse) {o q : List Str → List Str} (ho : ∀ l, (o l).Perm l)
    (hq : ∀ l, (q l).Perm l) {strict : Bool} {s : System} (hs : parseSystem strict q Db.unitSystem = .ok s)
    {text : Str} {e f : Node} (hp : pf text = .ok (.shift e f)) {c : Rat} {P : Str → Int} (h : Denotes e .linear c P)
    {ref : Option Str} (hf : (∃ v, f = .number v ref) ∨ ∃ raw, ref = some raw ∧ f = .unhandled raw)
    (hd : ∀ b, dimOf P b = if b = c!"second" then 1 else 0)
    (hist : List Query) (limit : Nat) (hlim : 9 ≤ limit) :
    ∃ refs u, (System.unit ⟨pf, o⟩ limit text (after ⟨pf, o⟩ hist s)).1 = .ok (.date (.unit none e refs) ref) ∧
      (Ref.unit none e refs).IsRow u ∧ u.scale = .linear ∧ u.factor = c ∧ c ≠ 0 ∧ ∀ b, u.power b = P b := by
  have hlook := fun n u (hr : Reading n u) => lookup_reading hpf ho hq hs hr
  have hids : ∀ n, n ∈ e.identifiers ↔ n ∈ (Node.shift e f).identifiers := by
    rcases hf with ⟨v, rfl⟩ | ⟨raw, _, rfl⟩
    · exact ids_shift e v ref
    · exact ids_shift' e raw
  obtain ⟨refs, h1, h2⟩ := collect (look := Spec.lookup ⟨pf, o⟩ s 9) (e := .shift e f)
    (fun n hn => by
      obtain ⟨u, hu⟩ := denotes_ids h n ((hids n).2 hn)
      obtain ⟨r, hr, _⟩ := hlook n u hu
      exact ⟨r, hr⟩) ho
  obtain ⟨⟨u, u1, _, u3, u4, u5, u6⟩, s1, mk, _⟩ := denotes_row hlook h (h2.congr hids)
  have hit := is_time u1 s1 fun b => by rw [← hd b]; unfold dimOf ShippedUnit.dim; rw [u6]
  refine ⟨refs, u, unit_of_spec hq hs ?_ hist limit hlim, u1, u3, u4, u5, u6⟩
  unfold Spec.unit
  simp only [bind, Except.bind] at h1 ⊢
  simp only [hp, h1]
  rcases hf with ⟨v, rfl⟩ | ⟨raw, rfl, rfl⟩
  · simp only [unitFromExpr, mk, hit, bind, Except.bind, mkDate, if_true]
  · simp only [unitFromExpr, mk, hit, bind, Except.bind, mkDate, if_true]

end Db
end Verif
