import Verif.Lemmas.Same
import Verif.Spec.Dims
import Mathlib.Tactic.Ring
import Mathlib.Data.List.Perm.Subperm
import Mathlib.Tactic.Linarith
/-!
# Dimensional analysis as linear algebra over the integers
-/

namespace Verif

/-! ## `Dims` as a finite map -/

/-- distinct basis units -/
def Dims.Nodup (d : Dims) : Prop := (d.map fun q => q.1.ref).Nodup

/-- no zero power listed -/
def Dims.NoZero (d : Dims) : Prop := ∀ q ∈ d, q.2 ≠ 0

/-- sum of all powers listed for a basis unit -/
def Dims.total (r : Str) : Dims → Int
  | [] => 0
  | (b, v) :: d => (if b.ref = r then v else 0) + total r d

theorem Dims.total_eq_zero {r : Str} {d : Dims} (h : ∀ q ∈ d, q.1.ref ≠ r) : Dims.total r d = 0 := by
  induction d with
  | nil => rfl
  | cons q d ih =>
    obtain ⟨b, v⟩ := q
    have h1 : b.ref ≠ r := h (b, v) (List.mem_cons_self ..)
    simp [Dims.total, h1, ih fun q hq => h q (List.mem_cons_of_mem _ hq)]

theorem Dims.nodup_cons {b : Basis} {v : Int} {d : Dims} :
    Dims.Nodup ((b, v) :: d) ↔ (∀ q ∈ d, q.1.ref ≠ b.ref) ∧ Dims.Nodup d := by
  unfold Dims.Nodup
  simp only [List.map_cons, List.nodup_cons, List.mem_map, not_exists, not_and]

theorem Dims.power_cons (r : Str) (b : Basis) (v : Int) (d : Dims) :
    Dims.power r ((b, v) :: d) = if b.ref = r then v else Dims.power r d := by
  unfold Dims.power
  simp only [Dims.get?]
  split <;> rfl

theorem Dims.power_eq_total {r : Str} {d : Dims} (h : d.Nodup) : Dims.power r d = Dims.total r d := by
  induction d with
  | nil => rfl
  | cons q d ih =>
    obtain ⟨b, v⟩ := q
    obtain ⟨h1, h2⟩ := Dims.nodup_cons.1 h
    rw [Dims.power_cons, Dims.total]
    split
    · rename_i hb
      rw [Dims.total_eq_zero (by rw [← hb]; exact h1)]; simp
    · rw [ih h2]; simp

theorem Dims.power_set (r : Str) (b : Basis) (v : Int) (d : Dims) :
    Dims.power r (Dims.set b v d) = if b.ref = r then v else Dims.power r d := by
  induction d with
  | nil => rw [Dims.set, Dims.power_cons]
  | cons q d ih =>
    obtain ⟨b', v'⟩ := q
    rw [Dims.set]
    by_cases hb : b'.ref = b.ref
    · rw [if_pos hb, Dims.power_cons, Dims.power_cons, hb]
      split <;> rfl
    · rw [if_neg hb, Dims.power_cons, Dims.power_cons, ih]
      by_cases h1 : b'.ref = r
      · rw [if_pos h1, if_neg (fun h => hb (h1.trans h.symm)), if_pos h1]
      · rw [if_neg h1]
        split <;> rfl

theorem Dims.mem_set {b : Basis} {v : Int} {d : Dims} {q : Basis × Int} (h : q ∈ Dims.set b v d) :
    q.1.ref = b.ref ∨ q ∈ d := by
  induction d with
  | nil => rw [Dims.set] at h; simp at h; subst h; exact Or.inl rfl
  | cons p d ih =>
    obtain ⟨b', v'⟩ := p
    rw [Dims.set] at h
    split at h
    · rename_i hb
      rcases List.mem_cons.1 h with rfl | h
      · exact Or.inl hb
      · exact Or.inr (List.mem_cons_of_mem _ h)
    · rcases List.mem_cons.1 h with rfl | h
      · exact Or.inr (List.mem_cons_self ..)
      · rcases ih h with h | h
        · exact Or.inl h
        · exact Or.inr (List.mem_cons_of_mem _ h)

theorem Dims.nodup_set {b : Basis} {v : Int} {d : Dims} (h : d.Nodup) : (Dims.set b v d).Nodup := by
  induction d with
  | nil => rw [Dims.set]; simp [Dims.Nodup]
  | cons p d ih =>
    obtain ⟨b', v'⟩ := p
    obtain ⟨h1, h2⟩ := Dims.nodup_cons.1 h
    rw [Dims.set]
    split
    · exact Dims.nodup_cons.2 ⟨h1, h2⟩
    · rename_i hb
      refine Dims.nodup_cons.2 ⟨?_, ih h2⟩
      intro q hq
      rcases Dims.mem_set hq with h | h
      · rw [h]; exact fun h => hb h.symm
      · exact h1 q h

theorem Dims.nodup_filter {d : Dims} (h : d.Nodup) (p : Basis × Int → Bool) : Dims.Nodup (d.filter p) :=
  List.Nodup.sublist (List.Sublist.map _ List.filter_sublist) h

theorem Dims.dropZero_nodup {d : Dims} (h : d.Nodup) : (Dims.dropZero d).Nodup := Dims.nodup_filter h _

theorem Dims.dropZero_noZero (d : Dims) : (Dims.dropZero d).NoZero := by
  intro q hq
  have := (List.mem_filter.1 hq).2
  simpa using this

theorem Dims.power_dropZero {d : Dims} (h : d.Nodup) (r : Str) :
    Dims.power r (Dims.dropZero d) = Dims.power r d := by
  rw [Dims.power_eq_total h, Dims.power_eq_total (Dims.dropZero_nodup h)]
  clear h
  induction d with
  | nil => rfl
  | cons q d ih =>
    obtain ⟨b, v⟩ := q
    have e : Dims.dropZero ((b, v) :: d) = if v ≠ 0 then (b, v) :: Dims.dropZero d else Dims.dropZero d := by
      unfold Dims.dropZero
      by_cases hv : v = 0
      · simp [hv]
      · simp [hv]
    rw [e]
    by_cases hv : v = 0
    · simp [hv, Dims.total, ih]
    · simp [hv, Dims.total, ih]

theorem Dims.get?_eq_some {r : Str} {v : Int} {d : Dims} (h : Dims.get? r d = some v) :
    ∃ b, b.ref = r ∧ (b, v) ∈ d := by
  induction d with
  | nil => cases h
  | cons q d ih =>
    obtain ⟨b, v'⟩ := q
    rw [Dims.get?] at h
    split at h
    · rename_i hb; cases h; exact ⟨b, hb, List.mem_cons_self ..⟩
    · obtain ⟨b', h1, h2⟩ := ih h
      exact ⟨b', h1, List.mem_cons_of_mem _ h2⟩

theorem Dims.get?_of_mem {d : Dims} (hd : d.Nodup) {q : Basis × Int} (h : q ∈ d) :
    Dims.get? q.1.ref d = some q.2 := by
  induction d with
  | nil => cases h
  | cons p d ih =>
    obtain ⟨b, v⟩ := p
    obtain ⟨h1, h2⟩ := Dims.nodup_cons.1 hd
    rw [Dims.get?]
    rcases List.mem_cons.1 h with rfl | h
    · simp
    · rw [if_neg (fun hb => h1 q h hb.symm)]
      exact ih h2 h

theorem Dims.mem_iff_power {d : Dims} (hd : d.Nodup) (hz : d.NoZero) (r : Str) :
    (∃ q ∈ d, q.1.ref = r) ↔ Dims.power r d ≠ 0 := by
  constructor
  · rintro ⟨q, hq, rfl⟩
    unfold Dims.power
    rw [Dims.get?_of_mem hd hq]
    exact hz q hq
  · intro h
    unfold Dims.power at h
    cases hg : Dims.get? r d with
    | none => rw [hg] at h; exact absurd rfl h
    | some v =>
      obtain ⟨b, hb, hm⟩ := Dims.get?_eq_some hg
      exact ⟨_, hm, hb⟩

theorem Dims.isEmpty_iff {d : Dims} (hd : d.Nodup) (hz : d.NoZero) :
    d.isEmpty = true ↔ ∀ r, Dims.power r d = 0 := by
  constructor
  · intro h r
    cases d with
    | nil => rfl
    | cons q d => cases h
  · intro h
    cases d with
    | nil => rfl
    | cons q d =>
      have := (Dims.mem_iff_power hd hz q.1.ref).1 ⟨q, List.mem_cons_self .., rfl⟩
      exact absurd (h _) this

theorem Dims.eq_iff {a b : Dims} (ha : a.Nodup) (hza : a.NoZero) (hb : b.Nodup) (hzb : b.NoZero) :
    Dims.eq a b = true ↔ ∀ r, Dims.power r a = Dims.power r b := by
  unfold Dims.eq
  simp only [Bool.and_eq_true, beq_iff_eq, List.all_eq_true]
  constructor
  · rintro ⟨hlen, hall⟩ r
    -- keys of a ⊆ keys of b, same length, nodup ⇒ same keys
    have hsub : (a.map fun q => q.1.ref) ⊆ (b.map fun q => q.1.ref) := by
      intro x hx
      obtain ⟨q, hq, rfl⟩ := List.mem_map.1 hx
      obtain ⟨b', h1, h2⟩ := Dims.get?_eq_some (hall q hq)
      exact List.mem_map.2 ⟨_, h2, h1⟩
    have hperm : (a.map fun q => q.1.ref).Perm (b.map fun q => q.1.ref) :=
      List.Subperm.perm_of_length_le (List.subperm_of_subset ha hsub) (by simp [hlen])
    by_cases h0 : ∃ q ∈ a, q.1.ref = r
    · obtain ⟨q, hq, rfl⟩ := h0
      unfold Dims.power
      rw [Dims.get?_of_mem ha hq, hall q hq]
    · have hb0 : ¬ ∃ q ∈ b, q.1.ref = r := by
        rintro ⟨q, hq, rfl⟩
        have : q.1.ref ∈ (a.map fun q => q.1.ref) := hperm.symm.subset (List.mem_map.2 ⟨q, hq, rfl⟩)
        obtain ⟨q', hq', h⟩ := List.mem_map.1 this
        exact h0 ⟨q', hq', h⟩
      have e1 : Dims.power r a = 0 := by
        apply Classical.byContradiction
        intro h
        exact h0 ((Dims.mem_iff_power ha hza r).2 h)
      have e2 : Dims.power r b = 0 := by
        apply Classical.byContradiction
        intro h
        exact hb0 ((Dims.mem_iff_power hb hzb r).2 h)
      rw [e1, e2]
  · intro h
    have sub : ∀ {a b : Dims}, a.Nodup → a.NoZero → b.Nodup → b.NoZero → (∀ r, Dims.power r a = Dims.power r b) →
        (a.map fun q => q.1.ref) ⊆ (b.map fun q => q.1.ref) := by
      intro a b ha hza hb hzb h x hx
      obtain ⟨q, hq, rfl⟩ := List.mem_map.1 hx
      have := (Dims.mem_iff_power ha hza q.1.ref).1 ⟨q, hq, rfl⟩
      rw [h] at this
      obtain ⟨q', hq', h'⟩ := (Dims.mem_iff_power hb hzb _).2 this
      exact List.mem_map.2 ⟨q', hq', h'⟩
    constructor
    · have l1 := (List.subperm_of_subset ha (sub ha hza hb hzb h)).length_le
      have l2 := (List.subperm_of_subset hb (sub hb hzb ha hza fun r => (h r).symm)).length_le
      simp at l1 l2
      omega
    · intro q hq
      have hk : q.1.ref ∈ (b.map fun q => q.1.ref) := sub ha hza hb hzb h (List.mem_map.2 ⟨q, hq, rfl⟩)
      obtain ⟨q', hq', h'⟩ := List.mem_map.1 hk
      have e := h q.1.ref
      unfold Dims.power at e
      rw [Dims.get?_of_mem ha hq, ← h', Dims.get?_of_mem hb hq'] at e
      rw [← h', Dims.get?_of_mem hb hq']
      simp at e
      rw [e]

theorem Dims.power_inverted (r : Str) (d : Dims) : Dims.power r d.inverted = - Dims.power r d := by
  unfold Dims.inverted
  induction d with
  | nil => rfl
  | cons q d ih =>
    obtain ⟨b, v⟩ := q
    rw [List.map_cons, Dims.power_cons, Dims.power_cons, ih]
    split <;> rfl

theorem Dims.inverted_nodup {d : Dims} (h : d.Nodup) : d.inverted.Nodup := by
  unfold Dims.Nodup Dims.inverted
  rw [List.map_map]
  exact h

theorem Dims.inverted_noZero {d : Dims} (h : d.NoZero) : d.inverted.NoZero := by
  intro q hq
  unfold Dims.inverted at hq
  obtain ⟨q', hq', rfl⟩ := List.mem_map.1 hq
  exact Int.neg_ne_zero.2 (h q' hq')

/-! ## The loops of `Unit.dimensionality` -/

theorem dimsAddAll_int (o : Int) (l : List (Basis × Int)) : ∀ r : Dims, r.Nodup →
    ∃ r', dimsAddAll (.int o) l r = .ok r' ∧ r'.Nodup ∧
      ∀ x, Dims.power x r' = Dims.power x r + o * Dims.total x l := by
  induction l with
  | nil => intro r hr; exact ⟨r, rfl, hr, fun x => by simp [Dims.total]⟩
  | cons q l ih =>
    obtain ⟨b, k⟩ := q
    intro r hr
    obtain ⟨r', h1, h2, h3⟩ := ih (Dims.set b (Dims.power b.ref r + k * o) r) (Dims.nodup_set hr)
    refine ⟨r', h1, h2, ?_⟩
    intro x
    rw [h3, Dims.power_set, Dims.total]
    split
    · rename_i hb; subst hb; ring
    · ring

/-- value of an order known to be an integer -/
def PyVal.toInt : PyVal → Int
  | .int i => i
  | .str _ => 0

/-- the power of basis unit `x` in the dimensionality of a reference (0 for a prefix, or if undefined) -/
def refPower (refs : List (Str × Ref)) (x : Str) (n : Str) : Int :=
  match Dict.get n refs with
  | some r => match r.dims? with
    | .ok (some d) => Dims.total x d
    | _ => 0
  | none => 0

/-- `Σ order · power` over the items of an identifier count -/
def linear (P : Str → Int) : List (Str × PyVal) → Int
  | [] => 0
  | (n, o) :: l => o.toInt * P n + linear P l

/-- all orders are integers -/
def AllInt (l : List (Str × PyVal)) : Prop := ∀ q ∈ l, ∃ i, q.2 = .int i

/-- every identifier of the list refers to something with a dimensionality -/
def RefsOk (refs : List (Str × Ref)) (ids : List Str) : Prop :=
  ∀ n ∈ ids, ∃ r o, Dict.get n refs = some r ∧ r.dims? = .ok o

theorem dimsLoop_ok (refs : List (Str × Ref)) (items : List (Str × PyVal)) : ∀ r : Dims, r.Nodup →
    AllInt items → RefsOk refs (Dict.keys items) →
    ∃ r', dimsLoop (fun n => Dict.get n (Ref.dimsList refs)) items r = .ok r' ∧ r'.Nodup ∧
      ∀ x, Dims.power x r' = Dims.power x r + linear (refPower refs x) items := by
  induction items with
  | nil => intro r hr _ _; exact ⟨r, rfl, hr, fun x => by simp [linear]⟩
  | cons q items ih =>
    obtain ⟨n, o⟩ := q
    intro r hr hi hok
    obtain ⟨i, hi'⟩ := hi (n, o) (List.mem_cons_self ..)
    simp only at hi'
    subst hi'
    have hi2 : AllInt items := fun q hq => hi q (List.mem_cons_of_mem _ hq)
    have hok2 : RefsOk refs (Dict.keys items) := fun m hm => hok m (List.mem_cons_of_mem _ hm)
    obtain ⟨ref, od, hg, hd⟩ := hok n (List.mem_cons_self ..)
    simp only [dimsLoop]
    rw [get_dimsList, hg]
    simp only [Option.map_some]
    rw [hd]
    cases od with
    | none =>
      obtain ⟨r', h1, h2, h3⟩ := ih r hr hi2 hok2
      refine ⟨r', h1, h2, fun x => ?_⟩
      rw [h3, linear]
      simp [refPower, hg, hd]
    | some ud =>
      obtain ⟨r1, a1, a2, a3⟩ := dimsAddAll_int i ud r hr
      obtain ⟨r', h1, h2, h3⟩ := ih r1 a2 hi2 hok2
      refine ⟨r', ?_, h2, fun x => ?_⟩
      · show (do let r' ← dimsAddAll (.int i) ud r; dimsLoop _ items r' : Py Dims) = .ok r'
        rw [a1]; exact h1
      · rw [h3, a3, linear]
        simp only [refPower, hg, hd, PyVal.toInt]
        ring

/-- Conversely, a successful loop has met only defined references. -/
theorem dimsLoop_refsOk (refs : List (Str × Ref)) (items : List (Str × PyVal)) : ∀ r r' : Dims,
    dimsLoop (fun n => Dict.get n (Ref.dimsList refs)) items r = .ok r' → RefsOk refs (Dict.keys items) := by
  induction items with
  | nil => intro _ _ _ n hn; simp [Dict.keys] at hn
  | cons q items ih =>
    obtain ⟨n, o⟩ := q
    intro r r' h
    simp only [dimsLoop] at h
    rw [get_dimsList] at h
    cases hg : Dict.get n refs with
    | none => rw [hg] at h; cases h
    | some ref =>
      rw [hg] at h
      simp only [Option.map_some] at h
      cases hd : ref.dims? with
      | error e => rw [hd] at h; cases h
      | ok od =>
        rw [hd] at h
        have rest : RefsOk refs (Dict.keys items) := by
          cases od with
          | none => exact ih _ _ h
          | some ud =>
            change (do let r' ← dimsAddAll o ud r; dimsLoop _ items r' : Py Dims) = _ at h
            cases ha : dimsAddAll o ud r with
            | error e => rw [ha] at h; cases h
            | ok r1 => rw [ha] at h; exact ih _ _ h
        intro m hm
        rcases List.mem_cons.1 hm with rfl | hm
        · exact ⟨ref, od, hg, hd⟩
        · exact rest m hm

theorem dimsAddAll_nodup (o : PyVal) (l : List (Basis × Int)) : ∀ r r' : Dims, r.Nodup →
    dimsAddAll o l r = .ok r' → r'.Nodup := by
  induction l with
  | nil => intro r r' hr h; cases h; exact hr
  | cons q l ih =>
    obtain ⟨b, k⟩ := q
    intro r r' hr h
    simp only [dimsAddAll] at h
    cases hp : PyVal.mul (.int k) o with
    | error e => rw [hp] at h; cases h
    | ok p =>
      rw [hp] at h
      change (do
        let v ← PyVal.add (.int (Dims.power b.ref r)) p
        match v with
        | .int i => dimsAddAll o l (Dims.set b i r)
        | .str _ => .error .typeError : Py Dims) = _ at h
      cases hv : PyVal.add (.int (Dims.power b.ref r)) p with
      | error e => rw [hv] at h; cases h
      | ok v =>
        rw [hv] at h
        cases v with
        | int i => exact ih _ _ (Dims.nodup_set hr) h
        | str s => cases h

theorem dimsLoop_nodup (look : Str → Option (Py (Option Dims))) (items : List (Str × PyVal)) :
    ∀ r r' : Dims, r.Nodup → dimsLoop look items r = .ok r' → r'.Nodup := by
  induction items with
  | nil => intro r r' hr h; cases h; exact hr
  | cons q items ih =>
    obtain ⟨n, o⟩ := q
    intro r r' hr h
    simp only [dimsLoop] at h
    cases hl : look n with
    | none => rw [hl] at h; cases h
    | some p =>
      rw [hl] at h
      simp only at h
      cases hp : p with
      | error e => rw [hp] at h; cases h
      | ok od =>
        rw [hp] at h
        cases od with
        | none => exact ih _ _ hr h
        | some ud =>
          change (do let r' ← dimsAddAll o ud r; dimsLoop look items r' : Py Dims) = _ at h
          cases ha : dimsAddAll o ud r with
          | error e => rw [ha] at h; cases h
          | ok r1 => rw [ha] at h; exact ih _ _ (dimsAddAll_nodup _ _ _ _ hr ha) h

/-- Every computed dimensionality is a proper map without zeros. -/
theorem unitDims_wf {look : Str → Option (Py (Option Dims))} {n : Node} {d : Dims}
    (h : unitDims look n = .ok d) : d.Nodup ∧ d.NoZero := by
  unfold unitDims at h
  cases hs : n.split true with
  | error e => rw [hs] at h; cases h
  | ok q =>
    obtain ⟨t, b⟩ := q
    rw [hs] at h
    change (do
      let r ← b.dimCount
      let result ← dimsLoop look r []
      .ok (Dims.dropZero result) : Py Dims) = _ at h
    cases hc : b.dimCount with
    | error e => rw [hc] at h; cases h
    | ok items =>
      rw [hc] at h
      change (do
        let result ← dimsLoop look items []
        .ok (Dims.dropZero result) : Py Dims) = _ at h
      cases hl : dimsLoop look items [] with
      | error e => rw [hl] at h; cases h
      | ok r =>
        rw [hl] at h
        cases h
        have hn := dimsLoop_nodup look items [] r (by simp [Dims.Nodup]) hl
        exact ⟨Dims.dropZero_nodup hn, Dims.dropZero_noZero r⟩

theorem dims?_wf {r : Ref} {d : Dims} (h : r.dims? = .ok (some d)) : d.Nodup ∧ d.NoZero := by
  cases r with
  | basis b =>
    rw [Ref.dims?] at h
    cases h
    split
    · exact ⟨by simp [Dims.Nodup], by intro q hq; cases hq⟩
    · exact ⟨by simp [Dims.Nodup], by intro q hq; simp at hq; subst hq; simp⟩
  | pre p => rw [Ref.dims?] at h; cases h
  | unit names defn refs =>
    rw [Ref.dims?] at h
    cases hu : unitDims (fun n => Dict.get n (Ref.dimsList refs)) defn with
    | error e => rw [hu] at h; cases h
    | ok d' => rw [hu] at h; cases h; exact unitDims_wf hu

theorem dims_wf {r : Ref} {d : Dims} (h : r.dims = .ok d) : d.Nodup ∧ d.NoZero := by
  unfold Ref.dims at h
  cases hd : r.dims? with
  | error e => rw [hd] at h; cases h
  | ok o =>
    rw [hd] at h
    cases o with
    | none => cases h
    | some d' => cases h; exact dims?_wf hd

/-! ## Counting identifiers -/

theorem plain_split {n : Node} (h : Plain n) : ∀ root, n.split root = .ok (none, n) := by
  induction n with
  | number v r => intro _; rfl
  | ident n => intro _; rfl
  | unhandled r => exact absurd h (by simp [Plain])
  | mul l r hl hr => intro _; simp only [Node.split, hl h.1, hr h.2]; rfl
  | div l r hl hr => intro _; simp only [Node.split, hl h.1, hr h.2]; rfl
  | raise l r hl hr =>
    obtain ⟨h1, i, raw, rfl⟩ := h
    intro _; simp only [Node.split, hl h1]; rfl
  | shift u f => exact absurd h (by simp [Plain])
  | log fn t => exact absurd h (by simp [Plain])

theorem linear_set (P : Str → Int) (k : Str) (i : Int) {scope : Dict Str PyVal} (hn : Dict.Nodup scope) :
    linear P (Dict.set k (.int i) scope) =
      linear P scope + (i - ((Dict.get k scope).getD (.int 0)).toInt) * P k := by
  induction scope with
  | nil => simp [Dict.set, linear, Dict.get, PyVal.toInt]
  | cons q scope ih =>
    obtain ⟨k', v⟩ := q
    have hn' : Dict.Nodup scope := by
      unfold Dict.Nodup Dict.keys at hn ⊢
      simp only [List.map_cons, List.nodup_cons] at hn
      exact hn.2
    rw [Dict.set, Dict.get_cons]
    by_cases hk : k' = k
    · subst hk
      simp only [if_true, linear, Option.getD_some, PyVal.toInt]; ring
    · simp only [hk, if_false, linear]
      rw [ih hn']; ring

theorem allInt_set {k : Str} {i : Int} {scope : Dict Str PyVal} (h : AllInt scope) :
    AllInt (Dict.set k (.int i) scope) := by
  induction scope with
  | nil => intro q hq; simp [Dict.set] at hq; subst hq; exact ⟨i, rfl⟩
  | cons p scope ih =>
    obtain ⟨k', v⟩ := p
    rw [Dict.set]
    split
    · intro q hq
      rcases List.mem_cons.1 hq with rfl | hq
      · exact ⟨i, rfl⟩
      · exact h q (List.mem_cons_of_mem _ hq)
    · intro q hq
      rcases List.mem_cons.1 hq with rfl | hq
      · exact h _ (List.mem_cons_self ..)
      · exact ih (fun q hq => h q (List.mem_cons_of_mem _ hq)) q hq

theorem allInt_getD {k : Str} {scope : Dict Str PyVal} (h : AllInt scope) :
    ∃ i, (Dict.get k scope).getD (.int 0) = .int i := by
  cases hg : Dict.get k scope with
  | none => exact ⟨0, rfl⟩
  | some v => exact h (k, v) (Dict.get_mem hg)

theorem dimMerge_ok (P : Str → Int) (op : PyVal → PyVal → Py PyVal) (sgn : Int)
    (hop : ∀ a b, op (.int a) (.int b) = .ok (.int (a + sgn * b))) (items : List (Str × PyVal)) :
    ∀ scope : Dict Str PyVal, AllInt items → AllInt scope → Dict.Nodup scope →
      ∃ s', dimMerge op items scope = .ok s' ∧ AllInt s' ∧ Dict.Nodup s' ∧
        linear P s' = linear P scope + sgn * linear P items ∧
        (∀ k, k ∈ Dict.keys s' ↔ k ∈ Dict.keys scope ∨ k ∈ Dict.keys items) := by
  induction items with
  | nil => intro scope _ hs hn; exact ⟨scope, rfl, hs, hn, by simp [linear], by simp [Dict.keys]⟩
  | cons q items ih =>
    obtain ⟨k, o⟩ := q
    intro scope hi hs hn
    obtain ⟨i, hi'⟩ := hi (k, o) (List.mem_cons_self ..)
    simp only at hi'
    subst hi'
    obtain ⟨a, ha⟩ := allInt_getD (k := k) hs
    obtain ⟨s', h1, h2, h3, h4, h5⟩ := ih (Dict.set k (.int (a + sgn * i)) scope)
      (fun q hq => hi q (List.mem_cons_of_mem _ hq)) (allInt_set hs) (Dict.nodup_set _ _ hn)
    refine ⟨s', ?_, h2, h3, ?_, ?_⟩
    · simp only [dimMerge, ha, hop]
      exact h1
    · rw [h4, linear_set P k _ hn, ha, linear]
      simp only [PyVal.toInt]; ring
    · intro x
      rw [h5, Dict.keys_set]
      show _ ↔ _ ∨ x ∈ k :: Dict.keys items
      rw [List.mem_cons]
      split
      · rename_i hk
        constructor
        · rintro (h | h)
          · exact Or.inl h
          · exact Or.inr (Or.inr h)
        · rintro (h | rfl | h)
          · exact Or.inl h
          · exact Or.inl hk
          · exact Or.inr h
      · rw [List.mem_append, List.mem_singleton, or_assoc]

theorem dimScale_ok (P : Str → Int) (i : Int) (scope : Dict Str PyVal) (hs : AllInt scope) :
    ∃ s', dimScale (.int i) scope = .ok s' ∧ AllInt s' ∧ Dict.keys s' = Dict.keys scope ∧
      linear P s' = i * linear P scope := by
  induction scope with
  | nil => exact ⟨[], rfl, hs, rfl, by simp [linear]⟩
  | cons q scope ih =>
    obtain ⟨k, o⟩ := q
    obtain ⟨j, hj⟩ := hs (k, o) (List.mem_cons_self ..)
    simp only at hj
    subst hj
    obtain ⟨s', h1, h2, h3, h4⟩ := ih fun q hq => hs q (List.mem_cons_of_mem _ hq)
    refine ⟨(k, .int (j * i)) :: s', ?_, ?_, ?_, ?_⟩
    · rw [dimScale, h1]; rfl
    · intro q hq
      rcases List.mem_cons.1 hq with rfl | hq
      · exact ⟨_, rfl⟩
      · exact h2 q hq
    · show k :: Dict.keys s' = k :: Dict.keys scope
      rw [h3]
    · simp only [linear, h4, PyVal.toInt]; ring

/-- the identifiers counted by `DimensionalityCounter` -/
def countedIds : Node → List Str
  | .ident n => [n]
  | .mul l r | .div l r => countedIds l ++ countedIds r
  | .raise l _ => countedIds l
  | .shift u _ => countedIds u
  | .log _ t => countedIds t
  | _ => []

theorem dimCount_plain (P : Str → Int) {n : Node} (h : Plain n) :
    ∃ s, n.dimCount = .ok s ∧ AllInt s ∧ Dict.Nodup s ∧ linear P s = degree P n ∧
      ∀ k, k ∈ Dict.keys s ↔ k ∈ countedIds n := by
  induction n with
  | number v r =>
    exact ⟨[], rfl, (by intro q hq; cases hq), by simp [Dict.Nodup, Dict.keys], rfl, by simp [Dict.keys, countedIds]⟩
  | ident n =>
    refine ⟨[(n, .int 1)], rfl, ?_, by simp [Dict.Nodup, Dict.keys], by simp [linear, degree, PyVal.toInt],
      by simp [Dict.keys, countedIds]⟩
    intro q hq
    simp at hq; subst hq; exact ⟨1, rfl⟩
  | unhandled r => exact absurd h (by simp [Plain])
  | mul l r hl hr =>
    obtain ⟨s1, a1, a2, a3, a4, a5⟩ := hl h.1
    obtain ⟨s2, b1, b2, b3, b4, b5⟩ := hr h.2
    obtain ⟨s', c1, c2, c3, c4, c5⟩ := dimMerge_ok P PyVal.add 1 (fun a b => by simp [PyVal.add]) s2 s1 b2 a2 a3
    refine ⟨s', ?_, c2, c3, ?_, ?_⟩
    · simp only [Node.dimCount, a1, b1]; exact c1
    · rw [c4, a4, b4, degree]; ring
    · intro k; rw [c5, a5, b5, countedIds, List.mem_append]
  | div l r hl hr =>
    obtain ⟨s1, a1, a2, a3, a4, a5⟩ := hl h.1
    obtain ⟨s2, b1, b2, b3, b4, b5⟩ := hr h.2
    obtain ⟨s', c1, c2, c3, c4, c5⟩ := dimMerge_ok P PyVal.sub (-1)
      (fun a b => by simp [PyVal.sub, Int.sub_eq_add_neg]) s2 s1 b2 a2 a3
    refine ⟨s', ?_, c2, c3, ?_, ?_⟩
    · simp only [Node.dimCount, a1, b1]; exact c1
    · rw [c4, a4, b4, degree]; ring
    · intro k; rw [c5, a5, b5, countedIds, List.mem_append]
  | raise l r hl hr =>
    obtain ⟨h1, i, raw, rfl⟩ := h
    obtain ⟨s1, a1, a2, a3, a4, a5⟩ := hl h1
    obtain ⟨s', c1, c2, c3, c4⟩ := dimScale_ok P i s1 a2
    refine ⟨s', ?_, c2, ?_, ?_, ?_⟩
    · simp only [Node.dimCount, a1]; exact c1
    · unfold Dict.Nodup; rw [c3]; exact a3
    · rw [c4, a4, degree]
    · intro k; rw [c3, a5, countedIds]
  | shift u f => exact absurd h (by simp [Plain])
  | log fn t => exact absurd h (by simp [Plain])

/-- Dimensionality of a plain definition. -/
theorem defnDims_plain {refs : List (Str × Ref)} {n : Node} (h : Plain n) (hok : RefsOk refs (countedIds n)) :
    ∃ d, defnDims refs n = .ok d ∧ ∀ x, Dims.power x d = degree (refPower refs x) n := by
  obtain ⟨s, h1, h2, h3, _, h5⟩ := dimCount_plain (fun _ => 0) h
  obtain ⟨r, l1, l2, l3⟩ := dimsLoop_ok refs s [] (by simp [Dims.Nodup]) h2
    (fun k hk => hok k ((h5 k).1 hk))
  refine ⟨Dims.dropZero r, ?_, ?_⟩
  · unfold defnDims unitDims
    rw [plain_split h true]
    show (do
      let r ← n.dimCount
      let result ← dimsLoop _ r []
      .ok (Dims.dropZero result) : Py Dims) = _
    rw [h1]
    show (do
      let result ← dimsLoop _ s []
      .ok (Dims.dropZero result) : Py Dims) = _
    rw [l1]; rfl
  · intro x
    obtain ⟨s', h1', _, _, h4', _⟩ := dimCount_plain (refPower refs x) h
    rw [h1] at h1'; cases h1'
    rw [Dims.power_dropZero l2, l3, h4']
    simp [Dims.power, Dims.get?]

/-- …and conversely it is defined only if every identifier is. -/
theorem defnDims_plain_inv {refs : List (Str × Ref)} {n : Node} (h : Plain n) {d : Dims}
    (hd : defnDims refs n = .ok d) :
    RefsOk refs (countedIds n) ∧ ∀ x, Dims.power x d = degree (refPower refs x) n := by
  obtain ⟨s, h1, h2, h3, _, h5⟩ := dimCount_plain (fun _ => 0) h
  have hok : RefsOk refs (countedIds n) := by
    have hd' := hd
    unfold defnDims unitDims at hd'
    rw [plain_split h true] at hd'
    change (do
      let r ← n.dimCount
      let result ← dimsLoop _ r []
      .ok (Dims.dropZero result) : Py Dims) = _ at hd'
    rw [h1] at hd'
    change (do
      let result ← dimsLoop _ s []
      .ok (Dims.dropZero result) : Py Dims) = _ at hd'
    cases hl : dimsLoop (fun n => Dict.get n (Ref.dimsList refs)) s [] with
    | error e => rw [hl] at hd'; cases hd'
    | ok r =>
      have := dimsLoop_refsOk refs s [] r hl
      intro k hk
      exact this k ((h5 k).2 hk)
  obtain ⟨d', e1, e2⟩ := defnDims_plain h hok
  rw [hd] at e1; cases e1
  exact ⟨hok, e2⟩

theorem dims_unit (names : Option UnitReference) (defn : Node) (refs : List (Str × Ref)) :
    (Ref.unit names defn refs).dims = defnDims refs defn := by
  unfold Ref.dims defnDims
  rw [Ref.dims?]
  cases unitDims (fun n => Dict.get n (Ref.dimsList refs)) defn <;> rfl

/-- `SplitExpr` finds the same definition at the root and below it. -/
theorem split_root (n : Node) :
    (n.split true).map (fun q => q.2) = (n.split false).map (fun q => q.2) := by
  cases n with
  | shift u f =>
    simp only [Node.split]
    cases u.split false <;> rfl
  | _ => rfl

theorem unitDims_of_split (look : Str → Option (Py (Option Dims))) (n : Node) :
    unitDims look n = (do
      let d ← (n.split true).map (fun q => q.2)
      let r ← d.dimCount
      let result ← dimsLoop look r []
      .ok (Dims.dropZero result)) := by
  unfold unitDims
  cases n.split true <;> rfl

theorem unitDims_shift (look : Str → Option (Py (Option Dims))) (u f : Node) :
    unitDims look (.shift u f) = unitDims look u := by
  rw [unitDims_of_split, unitDims_of_split, split_root u]
  simp only [Node.split]
  cases u.split false <;> rfl

theorem unitDims_log (look : Str → Option (Py (Option Dims))) (fn : Str) (t : Node) :
    unitDims look (.log fn t) = unitDims look t := by
  rw [unitDims_of_split, unitDims_of_split, split_root t]
  simp only [Node.split]
  cases t.split false <;> rfl

end Verif
