import Verif.Lemmas.Algebra
import Verif.Props.Inline
/-!
# C78: the laws of arithmetic hold for unit expressions
-/

namespace Verif
open Spec

/-- **C78.** In a system filled with lazily defined units, none of whose spellings were taken over: let two texts parse to expressions
that are equal by ordinary arithmetic — `m.s` and `s.m`, `kg/m/s2` and `kg/(m.s^2)`, `km^2` and `km.km` … —, and let
`unit(text1)` and `unit(text2)`, after whatever queries, be free of shifts and logarithms and usable at all (each can be converted to
itself).  Then they are the same unit: `==` says so, and they convert every value to and from every unit alike. -/
theorem C78_same_arithmetic_same_unit (env : Env) (hord : ∀ l, (env.order l).Perm l) (s : System) (hp : Pristine s) (hc : ConflictFree s)
    (t1 t2 : Str) (e1 e2 : Node) (p1 : env.parse t1 = .ok e1) (p2 : env.parse t2 = .ok e2) (hs : SameArithmetic e1 e2)
    (h1 h2 : List Query) (l1 l2 : Nat) (a b : Ref)
    (ha : (System.unit env l1 t1 (after env h1 s)).1 = .ok (.unit a))
    (hb : (System.unit env l2 t2 (after env h2 s)).1 = .ok (.unit b))
    (ma : Multiplicative a) (mb : Multiplicative b)
    (ca : Constructible (.unit a) (.unit a)) (cb : Constructible (.unit b) (.unit b)) : SameUnit a b := by
  obtain ⟨F, hF⟩ := (sim_unit hc l1 t1 _ (inv_after hc h1 (Inv.init env hp))).2.1
  obtain ⟨G, hG⟩ := (sim_unit hc l2 t2 _ (inv_after hc h2 (Inv.init env hp))).2.1
  rw [ha] at hF
  rw [hb] at hG
  replace hF := (hF.resolve_left (by intro h; cases h)).symm
  replace hG := (hG.resolve_left (by intro h; cases h)).symm
  obtain ⟨e', refs1, q1, m1, b1⟩ := spec_unit_ok hF
  rw [p1] at q1; cases q1
  obtain ⟨k1, g1⟩ := refs_of_mapM hord m1
  obtain ⟨e', refs2, q2, m2, b2⟩ := spec_unit_ok hG
  rw [p2] at q2; cases q2
  obtain ⟨k2, g2⟩ := refs_of_mapM hord m2
  have ha' : a = .unit none e1 refs1 := (mkUnit_iff.1 (((C24_date_unit_iff e1 refs1).2 _).1 b1)).1
  have hb' : b = .unit none e2 refs2 := (mkUnit_iff.1 (((C24_date_unit_iff e2 refs2).2 _).1 b2)).1
  subst ha'
  subst hb'
  refine Alg.sameUnit_of_same ma mb (fun n hn1 hn2 => ?_) hs ca cb
  obtain ⟨y, y1, y2⟩ := g1 n hn1
  obtain ⟨z, z1, z2⟩ := g2 n hn2
  rw [y2, z2, lookup_agree z1 y1]

/-- **C78** (the second reading exists). If the second expression is a product, quotient or power mentioning nothing new, the second text
gives a unit when the first does, given enough stack; and it is free of shifts and logarithms when the first is. -/
theorem C78_rewritten_text_reads (env : Env) (hord : ∀ l, (env.order l).Perm l) (s : System) (hp : Pristine s) (hc : ConflictFree s)
    (t1 t2 : Str) (e1 e2 : Node) (p1 : env.parse t1 = .ok e1) (p2 : env.parse t2 = .ok e2) (he : Plain e2)
    (hsub : ∀ n ∈ e2.identifiers, n ∈ e1.identifiers) (h1 : List Query) (l1 : Nat) (a : Ref)
    (ha : (System.unit env l1 t1 (after env h1 s)).1 = .ok (.unit a)) (ma : Multiplicative a) :
    ∃ L, ∀ l ≥ L, ∀ h2 : List Query, ∃ b, (System.unit env l t2 (after env h2 s)).1 = .ok (.unit b) ∧ Multiplicative b := by
  obtain ⟨F, hF⟩ := (sim_unit hc l1 t1 _ (inv_after hc h1 (Inv.init env hp))).2.1
  rw [ha] at hF
  replace hF := (hF.resolve_left (by intro h; cases h)).symm
  obtain ⟨e', refs1, q1, m1, b1⟩ := spec_unit_ok hF
  rw [p1] at q1; cases q1
  obtain ⟨k1, g1⟩ := refs_of_mapM hord m1
  have ha' : a = .unit none e1 refs1 := (mkUnit_iff.1 (((C24_date_unit_iff e1 refs1).2 _).1 b1)).1
  subst ha'
  obtain ⟨refs2, m2⟩ := mapM_refs_total (ids := env.order e2.identifiers)
    fun n hn => by
      obtain ⟨y, hy, _⟩ := g1 n (hsub n ((hord _).mem_iff.1 hn))
      exact ⟨y, hy⟩
  have hm : mkUnit none e2 refs2 = .ok (.unit none e2 refs2) := mkUnit_iff.2 ⟨rfl, admissible_plain he⟩
  have hspec : Spec.unit env s F t2 = .ok (.unit (.unit none e2 refs2)) := by
    unfold Spec.unit
    rw [p2]
    simp only [bind, Except.bind] at m2 ⊢
    rw [m2]
    exact ((C24_date_unit_iff _ refs2).2 _).2 hm
  obtain ⟨k2, g2⟩ := refs_of_mapM hord m2
  have hmb : Multiplicative (.unit none e2 refs2) := by
    refine .unit _ _ _ he fun n r hr => ?_
    have hn := (k2 n r (Dict.get_mem hr)).1
    obtain ⟨y, y1, y2⟩ := g1 n (hsub n hn)
    obtain ⟨z, z1, z2⟩ := g2 n hn
    rw [hr] at z2; cases z2
    rw [lookup_agree z1 y1]
    cases ma with
    | unit _ _ _ _ h => exact h n y y2
  refine ⟨F, fun l hl h2 => ⟨.unit none e2 refs2, ?_, hmb⟩⟩
  have hs := spec_unit_mono env s t2 hl
  simp only at hs
  rw [hspec] at hs
  have hs' := (hs.resolve_left (by intro h; cases h)).symm
  have := (sim_unit hc l t2 _ (inv_after hc h2 (Inv.init env hp))).2.2
  simp only at this
  rw [hs'] at this
  exact (this.resolve_left (by intro h; cases h)).symm

/-- **C78** (two units made from the same references). The same, for two units built from expressions over the same units by hand. -/
theorem C78_same_arithmetic (names1 names2 : Option UnitReference) (e1 e2 : Node) (refs : List (Str × Ref)) (hs : SameArithmetic e1 e2)
    (p1 : Plain e1) (p2 : Plain e2) (hr : ∀ n r, Dict.get n refs = some r → Multiplicative r)
    (ca : Constructible (.unit (.unit names1 e1 refs)) (.unit (.unit names1 e1 refs)))
    (cb : Constructible (.unit (.unit names2 e2 refs)) (.unit (.unit names2 e2 refs))) :
    SameUnit (.unit names1 e1 refs) (.unit names2 e2 refs) :=
  Alg.sameUnit_of_same (.unit _ _ _ p1 hr) (.unit _ _ _ p2 hr) (fun _ _ _ => rfl) hs ca cb

/-! ## the laws -/

/-- the power of an expression -/
def Node.toThe (e : Node) (i : Int) : Node := .raise e (.number (.int i) none)

/-- **C78** (what is equal by arithmetic). The laws one would use: factors commute and associate, quotients combine, powers
distribute over products and quotients and multiply; an exponent written out; the powers of one name add up; and any of
these inside a larger expression. -/
theorem C78_laws (x y z x' y' : Node) (i j : Int) (n : Str) :
    SameArithmetic (.mul x y) (.mul y x) ∧
    SameArithmetic (.mul (.mul x y) z) (.mul x (.mul y z)) ∧
    SameArithmetic (.div (.div x y) z) (.div x (.mul y z)) ∧
    SameArithmetic (.div x (.div y z)) (.div (.mul x z) y) ∧
    SameArithmetic (.mul (.div x y) z) (.div (.mul x z) y) ∧
    SameArithmetic (.div x y) (.mul x (y.toThe (-1))) ∧
    SameArithmetic ((Node.mul x y).toThe i) (.mul (x.toThe i) (y.toThe i)) ∧
    SameArithmetic ((Node.div x y).toThe i) (.div (x.toThe i) (y.toThe i)) ∧
    SameArithmetic ((x.toThe i).toThe j) (x.toThe (i * j)) ∧
    SameArithmetic (x.toThe 1) x ∧
    SameArithmetic (x.toThe 2) (.mul x x) ∧
    SameArithmetic (.mul ((Node.ident n).toThe i) ((Node.ident n).toThe j)) ((Node.ident n).toThe (i + j)) ∧
    SameArithmetic (.mul x (.div (.ident n) (.ident n))) x ∧
    (SameArithmetic x x' → SameArithmetic y y' →
      SameArithmetic (.mul x y) (.mul x' y') ∧ SameArithmetic (.div x y) (.div x' y') ∧ SameArithmetic (x.toThe i) (x'.toThe i)) := by
  refine ⟨fun σ h => ?_, fun σ h => ?_, fun σ h => ?_, fun σ h => ?_, fun σ h => ?_, fun σ h => ?_, fun σ h => ?_, fun σ h => ?_,
    fun σ h => ?_, fun σ h => ?_, fun σ h => ?_, fun σ h => ?_, fun σ h => ?_, fun h1 h2 => ⟨fun σ h => ?_, fun σ h => ?_, fun σ h => ?_⟩⟩ <;>
    simp only [Node.toThe, evalNode]
  · exact mul_comm _ _
  · exact mul_assoc _ _ _
  · exact div_div _ _ _
  · rw [div_div_eq_mul_div]
  · rw [div_mul_eq_mul_div]
  · rw [zpow_neg_one, div_eq_mul_inv]
  · exact mul_zpow _ _ _
  · exact div_zpow _ _ _
  · exact (zpow_mul _ _ _).symm
  · exact zpow_one _
  · exact zpow_two _
  · exact (zpow_add₀ (h n) _ _).symm
  · rw [div_self (h n), mul_one]
  · rw [h1 σ h, h2 σ h]
  · rw [h1 σ h, h2 σ h]
  · rw [h1 σ h]

/-! ## concrete cases -/

/-- Non-vacuity: `m/min2` and `min-2 m`, whose readings meet every hypothesis of C78. -/
example : ∃ e1 e2 a b, Demo.env.parse c!"m/min2" = .ok e1 ∧ Demo.env.parse c!"min-2 m" = .ok e2 ∧ SameArithmetic e1 e2 ∧
    (System.unit Demo.env 5 c!"m/min2" Demo.sys).1 = .ok (.unit a) ∧ (System.unit Demo.env 5 c!"min-2 m" Demo.sys).1 = .ok (.unit b) ∧
    Multiplicative a ∧ Multiplicative b ∧ Constructible (.unit a) (.unit a) ∧ Constructible (.unit b) (.unit b) := by
  have hmin : Multiplicative (.unit (some Demo.minuteRef) Demo.minuteDef [(c!"s", .basis Demo.second)]) :=
    .unit _ _ _ ⟨trivial, trivial⟩ fun n r h => by
      simp only [Dict.get] at h
      split at h
      · cases h; exact .basis _
      · cases h
  have hrefs : ∀ (n : Str) (r : Ref), Dict.get n [(c!"m", Ref.basis Demo.metre),
      (c!"min", .unit (some Demo.minuteRef) Demo.minuteDef [(c!"s", .basis Demo.second)])] = some r → Multiplicative r := by
    intro n r h
    simp only [Dict.get] at h
    split at h
    · cases h; exact .basis _
    · split at h
      · cases h; exact hmin
      · cases h
  have hrefs' : ∀ (n : Str) (r : Ref), Dict.get n [(c!"min", Ref.unit (some Demo.minuteRef) Demo.minuteDef [(c!"s", .basis Demo.second)]),
      (c!"m", .basis Demo.metre)] = some r → Multiplicative r := by
    intro n r h
    simp only [Dict.get] at h
    split at h
    · cases h; exact hmin
    · split at h
      · cases h; exact .basis _
      · cases h
  refine ⟨.div (.ident c!"m") (.raise (.ident c!"min") (.number (.int 2) (some c!"2"))),
    .mul (.raise (.ident c!"min") (.number (.int (-2)) (some c!"-2"))) (.ident c!"m"),
    .unit none (.div (.ident c!"m") (.raise (.ident c!"min") (.number (.int 2) (some c!"2"))))
        [(c!"m", .basis Demo.metre), (c!"min", .unit (some Demo.minuteRef) Demo.minuteDef [(c!"s", .basis Demo.second)])],
    .unit none (.mul (.raise (.ident c!"min") (.number (.int (-2)) (some c!"-2"))) (.ident c!"m"))
        [(c!"min", .unit (some Demo.minuteRef) Demo.minuteDef [(c!"s", .basis Demo.second)]), (c!"m", .basis Demo.metre)],
    by decide +kernel, by decide +kernel, fun σ h => ?_, by decide +kernel, by decide +kernel,
    .unit _ _ _ ⟨trivial, trivial, 2, some c!"2", rfl⟩ hrefs, .unit _ _ _ ⟨⟨trivial, -2, some c!"-2", rfl⟩, trivial⟩ hrefs', ?_, ?_⟩
  · simp only [evalNode]
    rw [zpow_neg, div_eq_mul_inv, mul_comm]
  · exact ⟨[.scale ⟨1, []⟩], by decide +kernel⟩
  · exact ⟨[.scale ⟨1, []⟩], by decide +kernel⟩

/-- **C78** needs units free of shifts: `celsius` and `celsius/1` are equal by arithmetic, yet `==` tells them apart, and 0 of the first
are 273.15 of the second. -/
theorem C78_shifted_refuted :
    ∃ e1 e2 a b, Demo.env.parse c!"celsius" = .ok e1 ∧ Demo.env.parse c!"celsius/1" = .ok e2 ∧ SameArithmetic e1 e2 ∧
      (System.unit Demo.env 5 c!"celsius" Demo.sys).1 = .ok (.unit a) ∧ (System.unit Demo.env 5 c!"celsius/1" Demo.sys).1 = .ok (.unit b) ∧
      Ref.eq a b = .ok false ∧ convert (.unit a) (.unit b) 0 = .ok 273.15 := by
  refine ⟨.ident c!"celsius", .div (.ident c!"celsius") (.number (.int 1) (some c!"1")),
    .unit none (.ident c!"celsius") [(c!"celsius", .unit (some Demo.celsiusRef) Demo.celsiusDef [(c!"K", .basis Demo.kelvin)])],
    .unit none (.div (.ident c!"celsius") (.number (.int 1) (some c!"1")))
      [(c!"celsius", .unit (some Demo.celsiusRef) Demo.celsiusDef [(c!"K", .basis Demo.kelvin)])],
    by decide +kernel, by decide +kernel, fun σ h => ?_, by decide +kernel, by decide +kernel, by decide +kernel, ?_⟩
  · simp [evalNode, numVal, Num.toRat]
  · rw [convert_runs (ops := [.add (27315/100), .scale ⟨1, []⟩])
      (ops' := [.scale ⟨1, []⟩, .add (27315/100), .scale ⟨1, []⟩])
      (by decide +kernel) (by decide +kernel) (by decide +kernel)]
    simp [runOps, COp.run, bind, Except.bind]
    norm_num

end Verif
