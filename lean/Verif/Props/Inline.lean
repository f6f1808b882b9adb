import Verif.Lemmas.InlineUnits
import Verif.Lemmas.Build
/-!
# C77: a name stands for its definition
-/

namespace Verif
open Spec

theorem spec_unit_ok {env : Env} {s : System} {F : Nat} {text : Str} {u : UObj} (h : Spec.unit env s F text = .ok u) :
    ∃ e refs, env.parse text = .ok e ∧
      (env.order e.identifiers).mapM (fun n => (do .ok (n, ← Spec.lookup env s F n) : Py (Str × Ref))) = .ok refs ∧
      unitFromExpr e refs = .ok u := by
  unfold Spec.unit at h
  cases h1 : env.parse text with
  | error e => rw [h1] at h; cases h
  | ok e =>
    rw [h1] at h
    cases h2 : (env.order e.identifiers).mapM (fun n => (do .ok (n, ← Spec.lookup env s F n) : Py (Str × Ref))) with
    | error x => simp only [bind, Except.bind] at h h2; rw [h2] at h; cases h
    | ok refs =>
      refine ⟨e, refs, rfl, h2, ?_⟩
      simp only [bind, Except.bind] at h h2
      rw [h2] at h
      exact h

theorem lookup_agree {env : Env} {s : System} {F G : Nat} {n : Str} {a b : Ref} (ha : Spec.lookup env s F n = .ok a)
    (hb : Spec.lookup env s G n = .ok b) : a = b := by
  have h1 := Spec.lookup_mono env s (Nat.le_max_left F G) n
  have h2 := Spec.lookup_mono env s (Nat.le_max_right F G) n
  rw [ha] at h1
  rw [hb] at h2
  rcases h1 with h1 | h1
  · cases h1
  · rcases h2 with h2 | h2
    · cases h2
    · rw [← h1] at h2; cases h2; rfl

theorem lookup_up {env : Env} {s : System} {F G : Nat} {n : Str} {a : Ref} (ha : Spec.lookup env s F n = .ok a) (h : F ≤ G) :
    Spec.lookup env s G n = .ok a := by
  have h1 := Spec.lookup_mono env s h n
  rw [ha] at h1
  rcases h1 with h1 | h1
  · cases h1
  · exact h1.symm

/-- looking up a lazily defined spelling reads its definition -/
theorem lookup_defined {env : Env} {s : System} {F : Nat} {x D : Str} {r : Ref} (hx : DefinedAs s x D)
    (h : Spec.lookup env s F x = .ok r) :
    ∃ G nm t refs, F = G + 1 ∧ env.parse D = .ok t ∧
      (env.order t.identifiers).mapM (fun n => (do .ok (n, ← Spec.lookup env s G n) : Py (Str × Ref))) = .ok refs ∧
      Admissible refs t ∧ r = .unit (some nm) t refs := by
  obtain ⟨id, o, h1, h2, h3⟩ := hx
  cases F with
  | zero => cases h
  | succ G =>
    unfold Spec.lookup Spec.step at h
    rw [h1] at h
    simp only [Spec.entry, Spec.resolve, h2, h3] at h
    cases h4 : env.parse D with
    | error e => rw [h4] at h; cases h
    | ok t =>
      rw [h4] at h
      cases h5 : (env.order t.identifiers).mapM (fun n => (do .ok (n, ← Spec.lookup env s G n) : Py (Str × Ref))) with
      | error e => simp only [bind, Except.bind] at h h5; rw [h5] at h; cases h
      | ok refs =>
        refine ⟨G, o.names, t, refs, rfl, rfl, h5, ?_⟩
        simp only [bind, Except.bind] at h h5
        rw [h5] at h
        have := mkUnit_iff.1 h
        exact ⟨this.2, this.1⟩

theorem refs_of_mapM {env : Env} (hord : ∀ l, (env.order l).Perm l) {look : Str → Py Ref} {e : Node} {refs : List (Str × Ref)}
    (h : (env.order e.identifiers).mapM (fun n => (do .ok (n, ← look n) : Py (Str × Ref))) = .ok refs) :
    (∀ n a, (n, a) ∈ refs → n ∈ e.identifiers ∧ Dict.get n refs = some a) ∧
    ∀ n ∈ e.identifiers, ∃ a, look n = .ok a ∧ Dict.get n refs = some a := by
  obtain ⟨hk, hg⟩ := mapM_refs_ok h
  have hnd : (Dict.keys refs).Nodup := by rw [hk]; exact (hord _).nodup_iff.2 (identifiers_nodup e)
  refine ⟨fun n a hm => ⟨?_, ?_⟩, fun n hn => hg n ((hord _).mem_iff.2 hn)⟩
  · have : n ∈ Dict.keys refs := List.mem_map.2 ⟨(n, a), hm, rfl⟩
    rw [hk] at this
    exact (hord _).mem_iff.1 this
  · exact Dict.get_of_mem_nodup hnd hm

/-- **C77.** In a system filled with lazily defined units, none of whose spellings were taken over: if `x` is registered with
the definition text `d`, then `unit(x)` and `unit(d)` — after whatever queries — are interchangeable: the same expansion, the
same dimensionality, and every conversion to or from any other unit comes out the same.  `==` never says they differ (it can
only raise, if the definition has no symbolic form), and neither is a date. -/
theorem C77_name_is_its_definition (env : Env) (hord : ∀ l, (env.order l).Perm l) (s : System) (hp : Pristine s) (hc : ConflictFree s)
    (x d : Str) (hx : DefinedAs s x d) (hpx : env.parse x = .ok (.ident x)) (h1 h2 : List Query) (l1 l2 : Nat) (u v : UObj)
    (hu : (System.unit env l1 x (after env h1 s)).1 = .ok u) (hv : (System.unit env l2 d (after env h2 s)).1 = .ok v) :
    ∃ a b : Ref, u = .unit a ∧ v = .unit b ∧ Interchangeable u v ∧ a.dimObj = b.dimObj ∧ a.isTimeUnit = b.isTimeUnit ∧
      (∀ q, Ref.eq a b = .ok q → q = true) ∧ ((∃ q, a.symDef = .ok q) → Ref.eq a b = .ok true) := by
  obtain ⟨F, hF⟩ := (sim_unit hc l1 x _ (inv_after hc h1 (Inv.init env hp))).2.1
  obtain ⟨G, hG⟩ := (sim_unit hc l2 d _ (inv_after hc h2 (Inv.init env hp))).2.1
  rw [hu] at hF
  rw [hv] at hG
  replace hF := (hF.resolve_left (by intro h; cases h)).symm
  replace hG := (hG.resolve_left (by intro h; cases h)).symm
  obtain ⟨e, refs1, p1, m1, b1⟩ := spec_unit_ok hF
  rw [hpx] at p1; cases p1
  obtain ⟨k1, g1⟩ := refs_of_mapM hord m1
  obtain ⟨r, hr, hget⟩ := g1 x (by simp [Node.identifiers])
  obtain ⟨F', nm, t, refsT, rfl, pT, mT, aT, rfl⟩ := lookup_defined hx hr
  obtain ⟨t', refs2, p2, m2, b2⟩ := spec_unit_ok hG
  rw [pT] at p2; cases p2
  have hrefs : refs2 = refsT := by
    obtain ⟨kk1, gg1⟩ := mapM_refs_ok m2
    obtain ⟨kk2, gg2⟩ := mapM_refs_ok mT
    have up1 : (env.order t.identifiers).mapM (fun n => (do .ok (n, ← Spec.lookup env s (max F' G) n) : Py (Str × Ref))) = .ok refs2 :=
      mapM_ok_mono (fun n r hr => by
        cases hq : Spec.lookup env s G n with
        | error e => rw [hq] at hr; cases hr
        | ok z => rw [hq] at hr; rw [lookup_up hq (Nat.le_max_right _ _)]; exact hr) _ _ m2
    have up2 : (env.order t.identifiers).mapM (fun n => (do .ok (n, ← Spec.lookup env s (max F' G) n) : Py (Str × Ref))) = .ok refsT :=
      mapM_ok_mono (fun n r hr => by
        cases hq : Spec.lookup env s F' n with
        | error e => rw [hq] at hr; cases hr
        | ok z => rw [hq] at hr; rw [lookup_up hq (Nat.le_max_left _ _)]; exact hr) _ _ mT
    rw [up1] at up2; cases up2; rfl
  subst hrefs
  have hm : mkUnit none t refs2 = .ok (.unit none t refs2) := mkUnit_iff.2 ⟨rfl, aT⟩
  have hv' : v = .unit (.unit none t refs2) := by
    have := ((C24_date_unit_iff t refs2).2 _).2 hm
    rw [b2] at this; cases this; rfl
  have hu' : u = .unit (.unit none (.ident x) refs1) := by
    have hm1 : mkUnit none (.ident x) refs1 = .ok (.unit none (.ident x) refs1) := rfl
    have := ((C24_date_unit_iff (.ident x) refs1).2 _).2 hm1
    rw [b1] at this; cases this; rfl
  have hS : Inl.Setup x t (.ident x) refs2 refs1 refs2 (some nm) := by
    obtain ⟨kT, gT⟩ := refs_of_mapM hord m2
    exact ⟨k1, by simpa [Node.inline] using kT, kT, fun _ => hget,
      fun n hn hne => absurd (by simpa [Node.identifiers] using hn) hne, fun _ n _ => rfl⟩
  have hexp := Inl.expand_eq hS none none
  rw [show (Node.ident x).inline x t = t by simp [Node.inline]] at hexp
  have hdims : (Ref.unit none (.ident x) refs1).dims = (Ref.unit none t refs2).dims := by
    rw [dims_unit, dims_unit, Inl.defnDims_ident hget]
  have hobj : (Ref.unit none (.ident x) refs1).dimObj = (Ref.unit none t refs2).dimObj := by
    simp only [Ref.dimObj, hdims]
  exact ⟨_, _, hu', hv', by rw [hu', hv']; exact Inl.interchangeable' hdims hobj hexp, hobj,
    by simp only [Ref.isTimeUnit, hdims], Inl.eq_of_expand hexp,
    fun ⟨q, hq⟩ => Inl.eq_true_of_expand hexp hq⟩

/-- **C77** (both readings exist). If `unit(x)` gives a unit, so does `unit(d)`, given enough stack. -/
theorem C77_definition_reads (env : Env) (s : System) (hp : Pristine s) (hc : ConflictFree s)
    (x d : Str) (hx : DefinedAs s x d) (hpx : env.parse x = .ok (.ident x)) (hord : ∀ l, (env.order l).Perm l)
    (h1 : List Query) (l1 : Nat) (u : UObj) (hu : (System.unit env l1 x (after env h1 s)).1 = .ok u) :
    ∃ L, ∀ l ≥ L, ∀ h2 : List Query, ∃ b, (System.unit env l d (after env h2 s)).1 = .ok (.unit b) := by
  obtain ⟨F, hF⟩ := (sim_unit hc l1 x _ (inv_after hc h1 (Inv.init env hp))).2.1
  rw [hu] at hF
  replace hF := (hF.resolve_left (by intro h; cases h)).symm
  obtain ⟨e, refs1, p1, m1, b1⟩ := spec_unit_ok hF
  rw [hpx] at p1; cases p1
  obtain ⟨k1, g1⟩ := refs_of_mapM hord m1
  obtain ⟨r, hr, hget⟩ := g1 x (by simp [Node.identifiers])
  obtain ⟨G, nm, t, refsT, rfl, pT, mT, aT, rfl⟩ := lookup_defined hx hr
  have hm : mkUnit none t refsT = .ok (.unit none t refsT) := mkUnit_iff.2 ⟨rfl, aT⟩
  have hspec : Spec.unit env s G d = .ok (.unit (.unit none t refsT)) := by
    unfold Spec.unit
    rw [pT]
    simp only [bind, Except.bind] at mT ⊢
    rw [mT]
    exact ((C24_date_unit_iff t refsT).2 _).2 hm
  refine ⟨G, fun l hl h2 => ⟨.unit none t refsT, ?_⟩⟩
  have hs := spec_unit_mono env s d hl
  simp only at hs
  rw [hspec] at hs
  have hs' := (hs.resolve_left (by intro h; cases h)).symm
  have := (sim_unit hc l d _ (inv_after hc h2 (Inv.init env hp))).2.2
  simp only at this
  rw [hs'] at this
  exact (this.resolve_left (by intro h; cases h)).symm

/-- **C77** (inside an expression). Let `x` be registered with the definition text `d`, which parses to `t`; let one text parse to
`e`, and another to `e` with every `x` in it replaced by `t` (that is, `d` in brackets).  If both texts give units then these
are interchangeable — provided `t` has no shift and no logarithm, or `x` is not inside a product, quotient or power. -/
theorem C77_inline (env : Env) (hord : ∀ l, (env.order l).Perm l) (s : System) (hp : Pristine s) (hc : ConflictFree s)
    (x d : Str) (t : Node) (hx : DefinedAs s x d) (ht : env.parse d = .ok t)
    (t1 t2 : Str) (e : Node) (he1 : env.parse t1 = .ok e) (he2 : env.parse t2 = .ok (e.inline x t)) (hm : MayInline x t e)
    (h1 h2 : List Query) (l1 l2 : Nat) (a b : Ref) (w : Dims)
    (ha : (System.unit env l1 t1 (after env h1 s)).1 = .ok (.unit a))
    (hb : (System.unit env l2 t2 (after env h2 s)).1 = .ok (.unit b)) (hw : a.dims = .ok w) :
    Interchangeable (.unit a) (.unit b) ∧ ∀ q, Ref.eq a b = .ok q → q = true := by
  obtain ⟨F, hF⟩ := (sim_unit hc l1 t1 _ (inv_after hc h1 (Inv.init env hp))).2.1
  obtain ⟨G, hG⟩ := (sim_unit hc l2 t2 _ (inv_after hc h2 (Inv.init env hp))).2.1
  rw [ha] at hF
  rw [hb] at hG
  replace hF := (hF.resolve_left (by intro h; cases h)).symm
  replace hG := (hG.resolve_left (by intro h; cases h)).symm
  obtain ⟨e', refs1, p1, m1, b1⟩ := spec_unit_ok hF
  rw [he1] at p1; cases p1
  obtain ⟨k1, g1⟩ := refs_of_mapM hord m1
  obtain ⟨e', refs2, p2, m2, b2⟩ := spec_unit_ok hG
  rw [he2] at p2; cases p2
  obtain ⟨k2, g2⟩ := refs_of_mapM hord m2
  have ha' : a = .unit none e refs1 := (mkUnit_iff.1 (((C24_date_unit_iff e refs1).2 _).1 b1)).1
  have hb' : b = .unit none (e.inline x t) refs2 := (mkUnit_iff.1 (((C24_date_unit_iff _ refs2).2 _).1 b2)).1
  have hother : ∀ n ∈ e.identifiers, n ≠ x → Dict.get n refs2 = Dict.get n refs1 := by
    intro n hn hne
    obtain ⟨y, y1, y2⟩ := g1 n hn
    obtain ⟨z, z1, z2⟩ := g2 n (Inl.identifiers_inline_sub e n hn hne)
    rw [y2, z2, lookup_agree z1 y1]
  obtain ⟨nm, refsT, S⟩ : ∃ nm refsT, Inl.Setup x t e refsT refs1 refs2 nm := by
    by_cases hmem : x ∈ e.identifiers
    · obtain ⟨r, hr, hget⟩ := g1 x hmem
      obtain ⟨F', nm, t', refsT, rfl, pT, mT, aT, rfl⟩ := lookup_defined hx hr
      rw [ht] at pT; cases pT
      obtain ⟨kT, gT⟩ := refs_of_mapM hord mT
      refine ⟨some nm, refsT, k1, k2, kT, fun _ => hget, hother, fun _ n hn => ?_⟩
      obtain ⟨y, y1, y2⟩ := gT n hn
      obtain ⟨z, z1, z2⟩ := g2 n (Inl.identifiers_inline_def e hmem n hn)
      rw [y2, z2, lookup_agree z1 y1]
    · exact ⟨none, [], k1, k2, fun n a h => absurd h (by simp), fun h => absurd h hmem, hother, fun h => absurd h hmem⟩
  subst ha'
  subst hb'
  have hexp := Inl.expand_eq S none none
  rw [dims_unit] at hw
  obtain ⟨w', hw', hpow⟩ := Inl.dims_eq S hm hw
  exact ⟨Inl.interchangeable rfl rfl (by rw [dims_unit]; exact hw) (by rw [dims_unit]; exact hw') (fun y => (hpow y).symm) hexp,
    Inl.eq_of_expand hexp⟩

theorem admissible_plain {refs : List (Str × Ref)} {e : Node} (h : Plain e) : Admissible refs e := by
  induction e with
  | number => exact ⟨fun u f h => (by cases h), fun raw h => (by cases h)⟩
  | ident => exact ⟨fun u f h => (by cases h), fun raw h => (by cases h)⟩
  | unhandled => exact absurd h (by simp [Plain])
  | mul l r hl hr =>
    obtain ⟨a1, a2⟩ := hl h.1
    obtain ⟨b1, b2⟩ := hr h.2
    refine ⟨fun u f h => ?_, fun raw h => ?_⟩
    · cases h with
      | mulL h => exact a1 u f h
      | mulR h => exact b1 u f h
    · cases h with
      | mulL h => exact a2 raw h
      | mulR h => exact b2 raw h
  | div l r hl hr =>
    obtain ⟨a1, a2⟩ := hl h.1
    obtain ⟨b1, b2⟩ := hr h.2
    refine ⟨fun u f h => ?_, fun raw h => ?_⟩
    · cases h with
      | divL h => exact a1 u f h
      | divR h => exact b1 u f h
    · cases h with
      | divL h => exact a2 raw h
      | divR h => exact b2 raw h
  | raise l r hl hr =>
    obtain ⟨h1, i, raw, rfl⟩ := h
    obtain ⟨a1, a2⟩ := hl h1
    refine ⟨fun u f h => ?_, fun raw h => ?_⟩
    · cases h with
      | raiseL h => exact a1 u f h
      | raiseR h => cases h
    · cases h with
      | raiseL h => exact a2 raw h
      | raiseR h => cases h
  | shift => exact absurd h (by simp [Plain])
  | log => exact absurd h (by simp [Plain])

/-- **C77** (the second reading exists). For products, quotients and powers: if the text with the name gives a unit, so does the
text with the definition written out, given enough stack. -/
theorem C77_inline_reads (env : Env) (hord : ∀ l, (env.order l).Perm l) (s : System) (hp : Pristine s) (hc : ConflictFree s)
    (x d : Str) (t : Node) (hx : DefinedAs s x d) (ht : env.parse d = .ok t)
    (t1 t2 : Str) (e : Node) (he1 : env.parse t1 = .ok e) (he2 : env.parse t2 = .ok (e.inline x t)) (he : Plain e) (hpt : Plain t)
    (h1 : List Query) (l1 : Nat) (u : UObj) (hu : (System.unit env l1 t1 (after env h1 s)).1 = .ok u) :
    ∃ L, ∀ l ≥ L, ∀ h2 : List Query, ∃ b, (System.unit env l t2 (after env h2 s)).1 = .ok (.unit b) := by
  obtain ⟨F, hF⟩ := (sim_unit hc l1 t1 _ (inv_after hc h1 (Inv.init env hp))).2.1
  rw [hu] at hF
  replace hF := (hF.resolve_left (by intro h; cases h)).symm
  obtain ⟨e', refs1, p1, m1, b1⟩ := spec_unit_ok hF
  rw [he1] at p1; cases p1
  obtain ⟨k1, g1⟩ := refs_of_mapM hord m1
  have hall : ∀ n ∈ (e.inline x t).identifiers, ∃ r, Spec.lookup env s F n = .ok r := by
    intro n hn
    rcases Inl.identifiers_inline e n hn with ⟨a, _⟩ | ⟨a, b⟩
    · obtain ⟨y, hy, _⟩ := g1 n a
      exact ⟨y, hy⟩
    · obtain ⟨r, hr, _⟩ := g1 x a
      obtain ⟨G, nm, t', refsT, rfl, pT, mT, aT, rfl⟩ := lookup_defined hx hr
      rw [ht] at pT; cases pT
      obtain ⟨y, hy, _⟩ := (refs_of_mapM hord mT).2 n b
      exact ⟨y, lookup_up hy (Nat.le_succ G)⟩
  obtain ⟨refs2, m2⟩ := mapM_refs_total (ids := env.order (e.inline x t).identifiers)
    fun n hn => hall n ((hord _).mem_iff.1 hn)
  have hm : mkUnit none (e.inline x t) refs2 = .ok (.unit none (e.inline x t) refs2) :=
    mkUnit_iff.2 ⟨rfl, admissible_plain (Inl.plain_inline he hpt)⟩
  have hspec : Spec.unit env s F t2 = .ok (.unit (.unit none (e.inline x t) refs2)) := by
    unfold Spec.unit
    rw [he2]
    simp only [bind, Except.bind] at m2 ⊢
    rw [m2]
    exact ((C24_date_unit_iff _ refs2).2 _).2 hm
  refine ⟨F, fun l hl h2 => ⟨.unit none (e.inline x t) refs2, ?_⟩⟩
  have hs := spec_unit_mono env s t2 hl
  simp only at hs
  rw [hspec] at hs
  have hs' := (hs.resolve_left (by intro h; cases h)).symm
  have := (sim_unit hc l t2 _ (inv_after hc h2 (Inv.init env hp))).2.2
  simp only at this
  rw [hs'] at this
  exact (this.resolve_left (by intro h; cases h)).symm

/-! ## concrete cases -/

def Demo.minuteDef : Node := .mul (.number (.int 60) (some c!"60")) (.ident c!"s")
def Demo.celsiusDef : Node := .shift (.ident c!"K") (.number (.dec ⟨false, 27315, -2⟩) (some c!"273.15"))

theorem Demo.minute_definedAs : DefinedAs Demo.sys c!"min" c!"60 s" :=
  ⟨0, ⟨c!"60 s", Demo.minuteRef, none⟩, by decide +kernel, by decide +kernel, rfl⟩
theorem Demo.celsius_definedAs : DefinedAs Demo.sys c!"celsius" c!"K @ 273.15" :=
  ⟨2, ⟨c!"K @ 273.15", Demo.celsiusRef, none⟩, by decide +kernel, by decide +kernel, rfl⟩

/-- Non-vacuity of C77: `celsius` and its definition, both of which give units. -/
example : DefinedAs Demo.sys c!"celsius" c!"K @ 273.15" ∧ Demo.env.parse c!"celsius" = .ok (.ident c!"celsius") ∧
    (∃ a, (System.unit Demo.env 5 c!"celsius" Demo.sys).1 = .ok (.unit a)) ∧
    ∃ b, (System.unit Demo.env 5 c!"K @ 273.15" Demo.sys).1 = .ok (.unit b) :=
  ⟨Demo.celsius_definedAs, by decide +kernel,
    ⟨.unit none (.ident c!"celsius") [(c!"celsius", .unit (some Demo.celsiusRef) Demo.celsiusDef [(c!"K", .basis Demo.kelvin)])], by decide +kernel⟩,
    ⟨.unit none Demo.celsiusDef [(c!"K", .basis Demo.kelvin)], by decide +kernel⟩⟩

/-- Non-vacuity of C77 in an expression: `m/min2` and `m/(60 s)2`, and — below a logarithm — `lg(re celsius)`. -/
example : (∃ e, Demo.env.parse c!"m/min2" = .ok e ∧ Demo.env.parse c!"m/(60 s)2" = .ok (e.inline c!"min" Demo.minuteDef) ∧
      MayInline c!"min" Demo.minuteDef e ∧ Plain e) ∧
    (∃ a d, (System.unit Demo.env 5 c!"m/min2" Demo.sys).1 = .ok (.unit a) ∧ a.dims = .ok d) ∧
    (∃ e, Demo.env.parse c!"lg(re celsius)" = .ok e ∧ Demo.env.parse c!"lg(re (K @ 273.15))" = .ok (e.inline c!"celsius" Demo.celsiusDef) ∧
      MayInline c!"celsius" Demo.celsiusDef e) := by
  have p : Plain (.div (.ident c!"m") (.raise (.ident c!"min") (.number (.int 2) (some c!"2")))) :=
    ⟨trivial, trivial, 2, some c!"2", rfl⟩
  refine ⟨⟨.div (.ident c!"m") (.raise (.ident c!"min") (.number (.int 2) (some c!"2"))), by decide +kernel, by decide +kernel,
      .inr ⟨p, trivial, trivial⟩, p⟩,
    ⟨.unit none (.div (.ident c!"m") (.raise (.ident c!"min") (.number (.int 2) (some c!"2"))))
        [(c!"m", .basis Demo.metre), (c!"min", .unit (some Demo.minuteRef) Demo.minuteDef [(c!"s", .basis Demo.second)])],
      [(Demo.metre, 1), (Demo.second, -2)], by decide +kernel, by decide +kernel⟩,
    ⟨.log c!"lg" (.ident c!"celsius"), by decide +kernel, by decide +kernel, .inl rfl⟩⟩

/-- **C77** does not extend to products with a shifted unit: with `celsius` defined as `K @ 273.15`, the unit `celsius m` is not
`(K @ 273.15) m` — the second one has the dimensionality of a temperature. -/
theorem C77_inline_shift_refuted :
    ∃ (e : Node) (a b w : Ref), DefinedAs Demo.sys c!"celsius" c!"K @ 273.15" ∧ Demo.env.parse c!"K @ 273.15" = .ok Demo.celsiusDef ∧
      Demo.env.parse c!"celsius m" = .ok e ∧ Demo.env.parse c!"(K @ 273.15) m" = .ok (e.inline c!"celsius" Demo.celsiusDef) ∧
      (System.unit Demo.env 5 c!"celsius m" Demo.sys).1 = .ok (.unit a) ∧
      (System.unit Demo.env 5 c!"(K @ 273.15) m" Demo.sys).1 = .ok (.unit b) ∧
      (System.unit Demo.env 5 c!"K" Demo.sys).1 = .ok (.unit w) ∧
      (UObj.unit a).isConvertibleTo (.unit w) = .ok false ∧ (UObj.unit b).isConvertibleTo (.unit w) = .ok true ∧
      ¬ Interchangeable (.unit a) (.unit b) := by
  have key : ∃ (e : Node) (a b w : Ref), Demo.env.parse c!"K @ 273.15" = .ok Demo.celsiusDef ∧
      Demo.env.parse c!"celsius m" = .ok e ∧ Demo.env.parse c!"(K @ 273.15) m" = .ok (e.inline c!"celsius" Demo.celsiusDef) ∧
      (System.unit Demo.env 5 c!"celsius m" Demo.sys).1 = .ok (.unit a) ∧
      (System.unit Demo.env 5 c!"(K @ 273.15) m" Demo.sys).1 = .ok (.unit b) ∧
      (System.unit Demo.env 5 c!"K" Demo.sys).1 = .ok (.unit w) ∧
      (UObj.unit a).isConvertibleTo (.unit w) = .ok false ∧ (UObj.unit b).isConvertibleTo (.unit w) = .ok true :=
    ⟨.mul (.ident c!"celsius") (.ident c!"m"),
      .unit none (.mul (.ident c!"celsius") (.ident c!"m"))
        [(c!"celsius", .unit (some Demo.celsiusRef) Demo.celsiusDef [(c!"K", .basis Demo.kelvin)]), (c!"m", .basis Demo.metre)],
      .unit none (.mul Demo.celsiusDef (.ident c!"m")) [(c!"K", .basis Demo.kelvin), (c!"m", .basis Demo.metre)],
      .unit none (.ident c!"K") [(c!"K", .basis Demo.kelvin)],
      by decide +kernel, by decide +kernel, by decide +kernel, by decide +kernel, by decide +kernel, by decide +kernel,
      by decide +kernel, by decide +kernel⟩
  obtain ⟨e, a, b, w, h1, h2, h3, h4, h5, h6, h7, h8⟩ := key
  refine ⟨e, a, b, w, Demo.celsius_definedAs, h1, h2, h3, h4, h5, h6, h7, h8, fun h => ?_⟩
  have := h.convertibleTo (.unit w)
  rw [h7, h8] at this
  cases this

end Verif
