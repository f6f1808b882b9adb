import Verif.Lemmas.Dims
import Verif.Props.Demo
/-!
# C09–C14: dimensional analysis
-/

namespace Verif

/-! ## C09 -/

/-- The power of a basis unit in the dimensionality of the object an identifier refers to
(0 for a prefix). -/
def HasPower (refs : List (Str × Ref)) (x : Str) (n : Str) (k : Int) : Prop :=
  ∃ r, Dict.get n refs = some r ∧
    ((∃ p, r = .pre p) ∧ k = 0 ∨ ∃ d, r.dims = .ok d ∧ k = Dims.power x d)

theorem refPower_of_hasPower {refs : List (Str × Ref)} {x n : Str} {k : Int} (h : HasPower refs x n k) :
    refPower refs x n = k := by
  obtain ⟨r, h1, h2⟩ := h
  unfold refPower
  rw [h1]
  rcases h2 with ⟨⟨p, rfl⟩, rfl⟩ | ⟨d, hd, rfl⟩
  · rfl
  · unfold Ref.dims at hd
    simp only
    cases hq : r.dims? with
    | error e => rw [hq] at hd; cases hd
    | ok o =>
      rw [hq] at hd
      cases o with
      | none => cases hd
      | some d' => cases hd; exact (Dims.power_eq_total (dims?_wf hq).1).symm

theorem degree_congr {P Q : Str → Int} {n : Node} (h : ∀ k ∈ countedIds n, P k = Q k) :
    degree P n = degree Q n := by
  induction n with
  | number v r => rfl
  | ident m => exact h m (by simp [countedIds])
  | unhandled r => rfl
  | mul l r hl hr =>
    rw [degree, degree, hl fun k hk => h k (by simp [countedIds, hk]), hr fun k hk => h k (by simp [countedIds, hk])]
  | div l r hl hr =>
    rw [degree, degree, hl fun k hk => h k (by simp [countedIds, hk]), hr fun k hk => h k (by simp [countedIds, hk])]
  | raise l r hl hr =>
    have := hl fun k hk => h k (by simp [countedIds, hk])
    cases r with
    | number v raw => cases v <;> simp [degree, this]
    | _ => simp [degree]
  | shift u f hu hf => rw [degree, degree, hu fun k hk => h k (by simp [countedIds, hk])]
  | log fn t ht => rw [degree, degree, ht fun k hk => h k (by simp [countedIds, hk])]

/-- **C09**, general form: the dimensionality of a unit whose definition has no shift and no logarithm
is the degree computed on paper from the dimensionalities of the units it mentions. -/
theorem C09_dimensionality_is_degree (names : Option UnitReference) (refs : List (Str × Ref)) (defn : Node)
    (h : Plain defn) (x : Str) (P : Str → Int) (hP : ∀ n ∈ countedIds defn, HasPower refs x n (P n)) :
    ∃ d, (Ref.unit names defn refs).dims = .ok d ∧ Dims.power x d = degree P defn := by
  have hok : RefsOk refs (countedIds defn) := by
    intro n hn
    obtain ⟨r, h1, h2⟩ := hP n hn
    rcases h2 with ⟨⟨p, rfl⟩, _⟩ | ⟨d, hd, _⟩
    · exact ⟨_, none, h1, rfl⟩
    · unfold Ref.dims at hd
      cases hq : r.dims? with
      | error e => rw [hq] at hd; cases hd
      | ok o => exact ⟨r, o, h1, hq⟩
  obtain ⟨d, h1, h2⟩ := defnDims_plain h hok
  refine ⟨d, by rw [dims_unit]; exact h1, ?_⟩
  rw [h2]
  exact degree_congr fun k hk => refPower_of_hasPower (hP k hk)

/-- **C09**, products: `a·b` has a dimensionality exactly when both factors have, and then powers add. -/
theorem C09_dimensionality_of_product (names : Option UnitReference) (refs : List (Str × Ref)) (a b : Node)
    (ha : Plain a) (hb : Plain b) :
    ((∃ d, (Ref.unit names (.mul a b) refs).dims = .ok d) ↔
      (∃ d, (Ref.unit names a refs).dims = .ok d) ∧ (∃ d, (Ref.unit names b refs).dims = .ok d)) ∧
    ∀ d d1 d2, (Ref.unit names (.mul a b) refs).dims = .ok d → (Ref.unit names a refs).dims = .ok d1 →
      (Ref.unit names b refs).dims = .ok d2 → ∀ x, Dims.power x d = Dims.power x d1 + Dims.power x d2 := by
  have hab : Plain (.mul a b) := ⟨ha, hb⟩
  simp only [dims_unit]
  refine ⟨⟨?_, ?_⟩, ?_⟩
  · rintro ⟨d, hd⟩
    obtain ⟨h1, _⟩ := defnDims_plain_inv hab hd
    obtain ⟨d1, e1, _⟩ := defnDims_plain (refs := refs) ha fun n hn => h1 n (by simp [countedIds, hn])
    obtain ⟨d2, e2, _⟩ := defnDims_plain (refs := refs) hb fun n hn => h1 n (by simp [countedIds, hn])
    exact ⟨⟨d1, e1⟩, ⟨d2, e2⟩⟩
  · rintro ⟨⟨d1, e1⟩, ⟨d2, e2⟩⟩
    have h1 := (defnDims_plain_inv ha e1).1
    have h2 := (defnDims_plain_inv hb e2).1
    obtain ⟨d, e, _⟩ := defnDims_plain (refs := refs) hab (by
      intro n hn
      rw [countedIds, List.mem_append] at hn
      rcases hn with hn | hn
      · exact h1 n hn
      · exact h2 n hn)
    exact ⟨d, e⟩
  · intro d d1 d2 e e1 e2 x
    rw [(defnDims_plain_inv hab e).2, (defnDims_plain_inv ha e1).2, (defnDims_plain_inv hb e2).2, degree]

/-- **C09**, quotients: powers subtract. -/
theorem C09_dimensionality_of_quotient (names : Option UnitReference) (refs : List (Str × Ref)) (a b : Node)
    (ha : Plain a) (hb : Plain b) :
    ((∃ d, (Ref.unit names (.div a b) refs).dims = .ok d) ↔
      (∃ d, (Ref.unit names a refs).dims = .ok d) ∧ (∃ d, (Ref.unit names b refs).dims = .ok d)) ∧
    ∀ d d1 d2, (Ref.unit names (.div a b) refs).dims = .ok d → (Ref.unit names a refs).dims = .ok d1 →
      (Ref.unit names b refs).dims = .ok d2 → ∀ x, Dims.power x d = Dims.power x d1 - Dims.power x d2 := by
  have hab : Plain (.div a b) := ⟨ha, hb⟩
  simp only [dims_unit]
  refine ⟨⟨?_, ?_⟩, ?_⟩
  · rintro ⟨d, hd⟩
    obtain ⟨h1, _⟩ := defnDims_plain_inv hab hd
    obtain ⟨d1, e1, _⟩ := defnDims_plain (refs := refs) ha fun n hn => h1 n (by simp [countedIds, hn])
    obtain ⟨d2, e2, _⟩ := defnDims_plain (refs := refs) hb fun n hn => h1 n (by simp [countedIds, hn])
    exact ⟨⟨d1, e1⟩, ⟨d2, e2⟩⟩
  · rintro ⟨⟨d1, e1⟩, ⟨d2, e2⟩⟩
    have h1 := (defnDims_plain_inv ha e1).1
    have h2 := (defnDims_plain_inv hb e2).1
    obtain ⟨d, e, _⟩ := defnDims_plain (refs := refs) hab (by
      intro n hn
      rw [countedIds, List.mem_append] at hn
      rcases hn with hn | hn
      · exact h1 n hn
      · exact h2 n hn)
    exact ⟨d, e⟩
  · intro d d1 d2 e e1 e2 x
    rw [(defnDims_plain_inv hab e).2, (defnDims_plain_inv ha e1).2, (defnDims_plain_inv hb e2).2, degree]

/-- **C09**, integer powers: powers are multiplied by the exponent. -/
theorem C09_dimensionality_of_power (names : Option UnitReference) (refs : List (Str × Ref)) (a : Node)
    (ha : Plain a) (i : Int) (raw : Option Str) :
    ((∃ d, (Ref.unit names (.raise a (.number (.int i) raw)) refs).dims = .ok d) ↔
      (∃ d, (Ref.unit names a refs).dims = .ok d)) ∧
    ∀ d d1, (Ref.unit names (.raise a (.number (.int i) raw)) refs).dims = .ok d →
      (Ref.unit names a refs).dims = .ok d1 → ∀ x, Dims.power x d = i * Dims.power x d1 := by
  have hp : Plain (.raise a (.number (.int i) raw)) := ⟨ha, i, raw, rfl⟩
  simp only [dims_unit]
  refine ⟨⟨?_, ?_⟩, ?_⟩
  · rintro ⟨d, hd⟩
    obtain ⟨d1, e1, _⟩ := defnDims_plain (refs := refs) ha (defnDims_plain_inv hp hd).1
    exact ⟨d1, e1⟩
  · rintro ⟨d1, e1⟩
    obtain ⟨d, e, _⟩ := defnDims_plain (refs := refs) hp (defnDims_plain_inv ha e1).1
    exact ⟨d, e⟩
  · intro d d1 e e1 x
    rw [(defnDims_plain_inv hp e).2, (defnDims_plain_inv ha e1).2, degree]

/-- **C09**, a single identifier has the dimensionality of what it refers to. -/
theorem C09_dimensionality_of_identifier (names : Option UnitReference) (refs : List (Str × Ref)) (n : Str)
    (r : Ref) (h : Dict.get n refs = some r) (d : Dims) (hd : r.dims = .ok d) :
    ∃ d', (Ref.unit names (.ident n) refs).dims = .ok d' ∧ ∀ x, Dims.power x d' = Dims.power x d := by
  have hok : RefsOk refs (countedIds (.ident n)) := by
    intro m hm
    simp [countedIds] at hm
    subst hm
    unfold Ref.dims at hd
    cases hq : r.dims? with
    | error e => rw [hq] at hd; cases hd
    | ok o => exact ⟨r, o, h, hq⟩
  obtain ⟨d', h1, h2⟩ := defnDims_plain (refs := refs) (n := .ident n) trivial hok
  refine ⟨d', by rw [dims_unit]; exact h1, fun x => ?_⟩
  rw [h2, degree, refPower_of_hasPower ⟨r, h, Or.inr ⟨d, hd, rfl⟩⟩]

/-- Parsed `m^2/s`: its refs and its dimensionality. -/
def Demo.refs : List (Str × Ref) :=
  [(c!"m", .basis Demo.metre), (c!"s", .basis Demo.second), (c!"K", .basis Demo.kelvin), (c!"rad", .basis Demo.radian)]
example : (parse c!"m^2/s").map (fun e => decide (e =
    .div (.raise (.ident c!"m") (.number (.int 2) (some c!"2"))) (.ident c!"s"))) = .ok true := by decide +kernel
example : Plain (.div (.raise (.ident c!"m") (.number (.int 2) (some c!"2"))) (.ident c!"s")) :=
  ⟨⟨trivial, 2, some c!"2", rfl⟩, trivial⟩
example : (Ref.unit none (.div (.raise (.ident c!"m") (.number (.int 2) (some c!"2"))) (.ident c!"s")) Demo.refs).dims
    = .ok [(Demo.metre, 2), (Demo.second, -1)] := by decide +kernel
example : HasPower Demo.refs c!"metre" c!"m" 1 :=
  ⟨_, rfl, Or.inr ⟨[(Demo.metre, 1)], by decide +kernel, by decide +kernel⟩⟩

/-- **C09** (refuted without the "no shifts or logarithms" hypothesis): in `(K @ 10) m` the second
factor's dimension is lost. -/
theorem C09_product_with_shift_refuted :
    ¬ ∀ (refs : List (Str × Ref)) (a b : Node) (d d1 d2 : Dims),
        (Ref.unit none (.mul a b) refs).dims = .ok d → (Ref.unit none a refs).dims = .ok d1 →
        (Ref.unit none b refs).dims = .ok d2 → ∀ x, Dims.power x d = Dims.power x d1 + Dims.power x d2 := by
  intro h
  have := h Demo.refs (.shift (.ident c!"K") (.number (.int 10) none)) (.ident c!"m")
    [(Demo.kelvin, 1)] [(Demo.kelvin, 1)] [(Demo.metre, 1)] (by decide +kernel) (by decide +kernel)
    (by decide +kernel) c!"metre"
  revert this
  decide +kernel

/-! ## C10 -/

/-- **C10.** A dimensionality never lists a basis unit twice nor with power zero. -/
theorem C10_no_zero_no_duplicate (r : Ref) (d : Dims) (h : r.dims = .ok d) :
    (d.map fun q => q.1.ref).Nodup ∧ ∀ q ∈ d, q.2 ≠ 0 := dims_wf h

/-- **C10.** `is_dimensionless` is true exactly when the power of every basis unit is zero. -/
theorem C10_dimensionless_iff (r : Ref) (d : Dims) (h : r.dims = .ok d) :
    (UObj.unit r).isDimensionless = .ok true ↔ ∀ x, Dims.power x d = 0 := by
  have hw := dims_wf h
  rw [← Dims.isEmpty_iff hw.1 hw.2]
  simp only [UObj.isDimensionless, h]
  change (Except.ok d.isEmpty : Py Bool) = .ok true ↔ _
  constructor
  · intro e; exact Except.ok.inj e
  · intro e; rw [e]

/-- `m/m·rad` is dimensionless -/
example : (UObj.unit (.unit none (.mul (.div (.ident c!"m") (.ident c!"m")) (.ident c!"rad")) Demo.refs)).isDimensionless
    = .ok true := by decide +kernel

/-! ## C11 -/

/-- **C11.** Shifting a unit keeps its dimensionality (including whether it is defined). -/
theorem C11_shift_keeps_dimensionality (names : Option UnitReference) (refs : List (Str × Ref)) (u f : Node) :
    (Ref.unit names (.shift u f) refs).dims = (Ref.unit names u refs).dims := by
  rw [dims_unit, dims_unit]
  exact unitDims_shift _ _ _

/-- **C11.** A logarithmic unit has the dimensionality of its reference level. -/
theorem C11_log_keeps_dimensionality (names : Option UnitReference) (refs : List (Str × Ref)) (fn : Str) (t : Node) :
    (Ref.unit names (.log fn t) refs).dims = (Ref.unit names t refs).dims := by
  rw [dims_unit, dims_unit]
  exact unitDims_log _ _ _

example : (Ref.unit none (.log c!"lg" (.shift (.ident c!"K") (.number (.int 3) none))) Demo.refs).dims
    = .ok [(Demo.kelvin, 1)] := by decide +kernel

/-! ## C12, C13 -/

theorem isConvertibleTo_eq {n1 n2 : Option UnitReference} {e1 e2 : Node} {r1 r2 : List (Str × Ref)} {d1 d2 : Dims}
    (h1 : (Ref.unit n1 e1 r1).dims = .ok d1) (h2 : (Ref.unit n2 e2 r2).dims = .ok d2) :
    (UObj.unit (.unit n1 e1 r1)).isConvertibleTo (.unit (.unit n2 e2 r2)) =
      .ok (Dims.eq d1 d2 || Dims.eq d1.inverted d2) := by
  simp only [UObj.isConvertibleTo, Ref.dimObj, h1, h2]
  show (if Dims.eq d1 d2 then .ok true else .ok (Dims.eq d1.inverted d2) : Py Bool) = _
  by_cases h : Dims.eq d1 d2 = true
  · rw [if_pos h, h]; rfl
  · rw [if_neg h]
    cases hq : Dims.eq d1 d2 with
    | true => exact absurd hq h
    | false => simp

/-- `.dimensionality()` of a `Unit` object (not a bare basis unit) -/
def UnitWithDims (u : Ref) (d : Dims) : Prop := (∃ n e r, u = .unit n e r) ∧ u.dims = .ok d

theorem convertible_iff {u v : Ref} {d1 d2 : Dims} (hu : UnitWithDims u d1) (hv : UnitWithDims v d2) :
    (UObj.unit u).isConvertibleTo (.unit v) = .ok true ↔
      (∀ x, Dims.power x d1 = Dims.power x d2) ∨ (∀ x, Dims.power x d1 = - Dims.power x d2) := by
  obtain ⟨⟨n1, e1, r1, rfl⟩, h1⟩ := hu
  obtain ⟨⟨n2, e2, r2, rfl⟩, h2⟩ := hv
  rw [isConvertibleTo_eq h1 h2]
  have w1 := dims_wf h1
  have w2 := dims_wf h2
  have a := Dims.eq_iff w1.1 w1.2 w2.1 w2.2
  have b := Dims.eq_iff (Dims.inverted_nodup w1.1) (Dims.inverted_noZero w1.2) w2.1 w2.2
  have c : (∀ x, Dims.power x d1 = - Dims.power x d2) ↔ ∀ x, Dims.power x d1.inverted = Dims.power x d2 := by
    constructor
    · intro h x; rw [Dims.power_inverted, h x, Int.neg_neg]
    · intro h x; rw [← h x, Dims.power_inverted, Int.neg_neg]
  rw [c, ← a, ← b]
  constructor
  · intro h; exact Bool.or_eq_true_iff.1 (Except.ok.inj h)
  · intro h; rw [Bool.or_eq_true_iff.2 h]

/-- **C12.** Convertibility is reflexive. -/
theorem C12_convertible_refl {u : Ref} {d : Dims} (hu : UnitWithDims u d) :
    (UObj.unit u).isConvertibleTo (.unit u) = .ok true :=
  (convertible_iff hu hu).2 (Or.inl fun _ => rfl)

/-- **C12.** Convertibility is symmetric: both directions give the same answer (and neither raises). -/
theorem C12_convertible_symm {u v : Ref} {d1 d2 : Dims} (hu : UnitWithDims u d1) (hv : UnitWithDims v d2) :
    (UObj.unit u).isConvertibleTo (.unit v) = (UObj.unit v).isConvertibleTo (.unit u) := by
  have key : (UObj.unit u).isConvertibleTo (.unit v) = .ok true ↔ (UObj.unit v).isConvertibleTo (.unit u) = .ok true := by
    rw [convertible_iff hu hv, convertible_iff hv hu]
    constructor
    · rintro (h | h)
      · exact Or.inl fun x => (h x).symm
      · exact Or.inr fun x => by rw [h x, Int.neg_neg]
    · rintro (h | h)
      · exact Or.inl fun x => (h x).symm
      · exact Or.inr fun x => by rw [h x, Int.neg_neg]
  obtain ⟨⟨n1, e1, r1, rfl⟩, h1⟩ := hu
  obtain ⟨⟨n2, e2, r2, rfl⟩, h2⟩ := hv
  rw [isConvertibleTo_eq h1 h2, isConvertibleTo_eq h2 h1] at key ⊢
  cases ha : (Dims.eq d1 d2 || Dims.eq d1.inverted d2) <;> cases hb : (Dims.eq d2 d1 || Dims.eq d2.inverted d1)
  · rfl
  · rw [ha, hb] at key; cases key.2 rfl
  · rw [ha, hb] at key; cases key.1 rfl
  · rfl

/-- **C12.** Convertibility is transitive. -/
theorem C12_convertible_trans {u v w : Ref} {d1 d2 d3 : Dims} (hu : UnitWithDims u d1) (hv : UnitWithDims v d2)
    (hw : UnitWithDims w d3) (h1 : (UObj.unit u).isConvertibleTo (.unit v) = .ok true)
    (h2 : (UObj.unit v).isConvertibleTo (.unit w) = .ok true) :
    (UObj.unit u).isConvertibleTo (.unit w) = .ok true := by
  rw [convertible_iff hu hv] at h1
  rw [convertible_iff hv hw] at h2
  rw [convertible_iff hu hw]
  rcases h1 with h1 | h1 <;> rcases h2 with h2 | h2
  · exact Or.inl fun x => (h1 x).trans (h2 x)
  · exact Or.inr fun x => (h1 x).trans (h2 x)
  · exact Or.inr fun x => by rw [h1 x, h2 x]
  · exact Or.inl fun x => by rw [h1 x, h2 x, Int.neg_neg]

/-- **C13.** Two units are convertible exactly when their powers agree on every basis unit, or are
opposite on every basis unit. -/
theorem C13_convertible_iff_same_or_opposite {u v : Ref} {d1 d2 : Dims} (hu : UnitWithDims u d1)
    (hv : UnitWithDims v d2) :
    ((UObj.unit u).isConvertibleTo (.unit v) = .ok true ↔
      (∀ x, Dims.power x d1 = Dims.power x d2) ∨ (∀ x, Dims.power x d1 = - Dims.power x d2)) ∧
    ∃ b, (UObj.unit u).isConvertibleTo (.unit v) = .ok b := by
  refine ⟨convertible_iff hu hv, ?_⟩
  obtain ⟨⟨n1, e1, r1, rfl⟩, h1⟩ := hu
  obtain ⟨⟨n2, e2, r2, rfl⟩, h2⟩ := hv
  exact ⟨_, isConvertibleTo_eq h1 h2⟩

example : UnitWithDims (.unit none (.div (.ident c!"m") (.ident c!"s")) Demo.refs) [(Demo.metre, 1), (Demo.second, -1)] :=
  ⟨⟨_, _, _, rfl⟩, by decide +kernel⟩
example : (UObj.unit (.unit none (.div (.ident c!"m") (.ident c!"s")) Demo.refs)).isConvertibleTo
    (.unit (.unit none (.div (.ident c!"s") (.ident c!"m")) Demo.refs)) = .ok true := by decide +kernel
example : (UObj.unit (.unit none (.ident c!"m") Demo.refs)).isConvertibleTo
    (.unit (.unit none (.ident c!"s") Demo.refs)) = .ok false := by decide +kernel

/-! ## C14 -/

/-- **C14**, dimension part: a prefixed spelling has the dimensionality of the unit it prefixes,
provided the prefix and the unit are not spelled alike. -/
theorem C14_prefix_keeps_dimensionality {p rest : Str} {pre : Prefix} {u r : Ref} {d : Dims} (hne : p ≠ rest)
    (hr : prefixed p pre rest u = .ok r) (hd : u.dims = .ok d) :
    ∃ d', r.dims = .ok d' ∧ ∀ x, Dims.power x d' = Dims.power x d := by
  unfold prefixed at hr
  have hr' : r = .unit none (.mul (.ident p) (.ident rest)) (Dict.set rest u (Dict.set p (.pre pre) [])) := by
    unfold mkUnit at hr
    cases hn : normalisedNode (Dict.set rest u (Dict.set p (.pre pre) [])) (.mul (.ident p) (.ident rest)) with
    | error e => rw [hn] at hr; cases hr
    | ok q => rw [hn] at hr; cases hr; rfl
  subst hr'
  have key : ∀ x, ∃ d', (Ref.unit none (.mul (.ident p) (.ident rest))
      (Dict.set rest u (Dict.set p (.pre pre) []))).dims = .ok d' ∧ Dims.power x d' = Dims.power x d := by
    intro x
    obtain ⟨d', h1, h2⟩ := C09_dimensionality_is_degree none (Dict.set rest u (Dict.set p (.pre pre) []))
      (.mul (.ident p) (.ident rest)) ⟨trivial, trivial⟩ x (fun n => if n = p then 0 else Dims.power x d) (by
        intro n hn
        simp only [countedIds, List.mem_append, List.mem_singleton] at hn
        rcases hn with rfl | rfl
        · refine ⟨.pre pre, ?_, Or.inl ⟨⟨pre, rfl⟩, by simp⟩⟩
          rw [Dict.get_set_ne hne]; simp
        · refine ⟨u, by simp, Or.inr ⟨d, hd, by simp [Ne.symm hne]⟩⟩)
    refine ⟨d', h1, ?_⟩
    rw [h2]
    simp [degree, Ne.symm hne]
  obtain ⟨d', h1, _⟩ := key []
  refine ⟨d', h1, fun x => ?_⟩
  obtain ⟨d'', h1', h2'⟩ := key x
  rw [h1] at h1'; cases h1'; exact h2'

example : (prefixed c!"k" Demo.kilo c!"m" (.basis Demo.metre)).bind Ref.dims = .ok [(Demo.metre, 1)] := by decide +kernel

/-- **C14** (refuted when the spellings coincide): "mm" — milli and metre both spelled `m` — resolves to
a unit of dimension metre squared. -/
theorem C14_alike_spellings_refuted :
    ¬ ∀ (p rest : Str) (pre : Prefix) (u r : Ref) (d d' : Dims),
        prefixed p pre rest u = .ok r → u.dims = .ok d → r.dims = .ok d' →
        ∀ x, Dims.power x d' = Dims.power x d := by
  intro h
  have := h c!"m" c!"m" Demo.milli (.basis Demo.metre)
    (.unit none (.mul (.ident c!"m") (.ident c!"m")) [(c!"m", .basis Demo.metre)])
    [(Demo.metre, 1)] [(Demo.metre, 2)] (by decide +kernel) (by decide +kernel) (by decide +kernel) c!"metre"
  revert this
  decide +kernel

/-- …and this is what looking up `mm` does in a system built with API calls only. -/
theorem C14_mm_in_reachable_system_refuted : Spec.Reachable Demo.env Demo.sys ∧
    ((unitByNameOrSymbol Demo.env 5 c!"mm" Demo.sys).1.bind Ref.dims) = .ok [(Demo.metre, 2)] :=
  ⟨Demo.sys_reachable, by decide +kernel⟩

end Verif
