import Verif.Spec.Inline
import Verif.Lemmas.Dims
import Verif.Lemmas.Symbolic
import Verif.Lemmas.ConvertErr
import Verif.Lemmas.Order
import Verif.Props.Dims
/-! Lemmas for C77. -/
namespace Verif.Inl

theorem identifiers_inline_sub {x : Str} {t : Node} : ∀ (e : Node) (n : Str), n ∈ e.identifiers → n ≠ x →
    n ∈ (e.inline x t).identifiers := by
  intro e
  induction e with
  | ident m =>
    intro n hn hx
    simp only [Node.identifiers, List.mem_singleton] at hn
    subst hn
    simp [Node.inline, hx, Node.identifiers]
  | number => intro n hn; simp [Node.identifiers] at hn
  | unhandled => intro n hn; simp [Node.identifiers] at hn
  | mul l r hl hr | div l r hl hr | raise l r hl hr | shift l r hl hr =>
    intro n hn hx
    simp only [Node.identifiers, Node.inline, mem_setUnion, List.not_mem_nil, false_or] at hn ⊢
    exact hn.imp (fun h => hl n h hx) (fun h => hr n h hx)
  | log fn u hu =>
    intro n hn hx
    simp only [Node.identifiers, Node.inline, mem_setUnion, List.not_mem_nil, false_or] at hn ⊢
    exact hu n hn hx

theorem identifiers_inline_def {x : Str} {t : Node} : ∀ (e : Node), x ∈ e.identifiers → ∀ n ∈ t.identifiers,
    n ∈ (e.inline x t).identifiers := by
  intro e
  induction e with
  | ident m =>
    intro hx n hn
    simp only [Node.identifiers, List.mem_singleton] at hx
    subst hx
    simpa [Node.inline] using hn
  | number => intro hx; simp [Node.identifiers] at hx
  | unhandled => intro hx; simp [Node.identifiers] at hx
  | mul l r hl hr | div l r hl hr | raise l r hl hr | shift l r hl hr =>
    intro hx n hn
    simp only [Node.identifiers, Node.inline, mem_setUnion, List.not_mem_nil, false_or] at hx ⊢
    exact hx.imp (fun h => hl h n hn) (fun h => hr h n hn)
  | log fn u hu =>
    intro hx n hn
    simp only [Node.identifiers, Node.inline, mem_setUnion, List.not_mem_nil, false_or] at hx ⊢
    exact hu hx n hn

theorem identifiers_inline {x : Str} {t : Node} : ∀ (e : Node) (n : Str), n ∈ (e.inline x t).identifiers →
    (n ∈ e.identifiers ∧ n ≠ x) ∨ (x ∈ e.identifiers ∧ n ∈ t.identifiers) := by
  intro e
  induction e with
  | ident m =>
    intro n hn
    by_cases hm : m = x
    · subst hm
      simp only [Node.inline, if_true] at hn
      exact .inr ⟨by simp [Node.identifiers], hn⟩
    · simp only [Node.inline, if_neg hm] at hn
      refine .inl ⟨hn, ?_⟩
      simp only [Node.identifiers, List.mem_singleton] at hn
      rw [hn]; exact hm
  | number => intro n hn; simp [Node.identifiers, Node.inline] at hn
  | unhandled => intro n hn; simp [Node.identifiers, Node.inline] at hn
  | mul l r hl hr | div l r hl hr | raise l r hl hr | shift l r hl hr =>
    intro n hn
    simp only [Node.identifiers, Node.inline, mem_setUnion, List.not_mem_nil, false_or] at hn ⊢
    rcases hn with h | h
    · rcases hl n h with ⟨a, b⟩ | ⟨a, b⟩
      · exact .inl ⟨.inl a, b⟩
      · exact .inr ⟨.inl a, b⟩
    · rcases hr n h with ⟨a, b⟩ | ⟨a, b⟩
      · exact .inl ⟨.inr a, b⟩
      · exact .inr ⟨.inr a, b⟩
  | log fn u hu =>
    intro n hn
    simp only [Node.identifiers, Node.inline, mem_setUnion, List.not_mem_nil, false_or] at hn ⊢
    exact hu n hn

/-- the references of the two units: `x` refers to the unit defined by `t` -/
structure Setup (x : Str) (t e : Node) (refsT refs1 refs2 : List (Str × Ref)) (nm : Option UnitReference) : Prop where
  k1 : ∀ n a, (n, a) ∈ refs1 → n ∈ e.identifiers ∧ Dict.get n refs1 = some a
  k2 : ∀ n a, (n, a) ∈ refs2 → n ∈ (e.inline x t).identifiers ∧ Dict.get n refs2 = some a
  kT : ∀ n a, (n, a) ∈ refsT → n ∈ t.identifiers ∧ Dict.get n refsT = some a
  hx : x ∈ e.identifiers → Dict.get x refs1 = some (.unit nm t refsT)
  other : ∀ n ∈ e.identifiers, n ≠ x → Dict.get n refs2 = Dict.get n refs1
  inner : x ∈ e.identifiers → ∀ n ∈ t.identifiers, Dict.get n refs2 = Dict.get n refsT

variable {x : Str} {t e : Node} {refsT refs1 refs2 : List (Str × Ref)} {nm : Option UnitReference}

theorem substitute_congr_ids {s1 s2 : Dict Str Node} : ∀ (n : Node), (∀ k ∈ n.identifiers, Dict.get k s1 = Dict.get k s2) →
    n.substitute s1 = n.substitute s2 := by
  intro n
  induction n with
  | ident m => intro h; simp only [Node.substitute]; rw [h m (by simp [Node.identifiers])]
  | number => intro _; rfl
  | unhandled => intro _; rfl
  | mul l r hl hr | div l r hl hr | raise l r hl hr | shift l r hl hr =>
    intro h
    simp only [Node.identifiers, mem_setUnion, List.not_mem_nil, false_or] at h
    simp only [Node.substitute]
    rw [hl fun k hk => h k (.inl hk), hr fun k hk => h k (.inr hk)]
  | log fn u hu =>
    intro h
    simp only [Node.identifiers, mem_setUnion, List.not_mem_nil, false_or] at h
    simp only [Node.substitute]
    rw [hu h]

theorem inline_substitute {x : Str} {t : Node} {s1 s2 sT : Dict Str Node} : ∀ (e : Node),
    (∀ k ∈ e.identifiers, k ≠ x → Dict.get k s2 = Dict.get k s1) →
    (x ∈ e.identifiers → Dict.get x s1 = some (t.substitute sT) ∧ ∀ k ∈ t.identifiers, Dict.get k s2 = Dict.get k sT) →
    (e.inline x t).substitute s2 = e.substitute s1 := by
  intro e
  induction e with
  | ident m =>
    intro h1 h2
    by_cases hm : m = x
    · subst hm
      obtain ⟨a, b⟩ := h2 (by simp [Node.identifiers])
      simp only [Node.inline, if_true, Node.substitute, a]
      exact substitute_congr_ids t b
    · simp only [Node.inline, if_neg hm, Node.substitute]
      rw [h1 m (by simp [Node.identifiers]) hm]
  | number => intro _ _; rfl
  | unhandled => intro _ _; rfl
  | mul l r hl hr | div l r hl hr | raise l r hl hr | shift l r hl hr =>
    intro h1 h2
    simp only [Node.identifiers, mem_setUnion, List.not_mem_nil, false_or] at h1 h2
    simp only [Node.inline, Node.substitute]
    rw [hl (fun k hk => h1 k (.inl hk)) (fun hk => h2 (.inl hk)), hr (fun k hk => h1 k (.inr hk)) (fun hk => h2 (.inr hk))]
  | log fn u hu =>
    intro h1 h2
    simp only [Node.identifiers, mem_setUnion, List.not_mem_nil, false_or] at h1 h2
    simp only [Node.inline, Node.substitute]
    rw [hu h1 h2]

theorem expand_unit {nm : Option UnitReference} {e : Node} {refs : List (Str × Ref)} :
    (Ref.unit nm e refs).expand = (Ref.expandList refs).map fun es => e.substitute es := by
  rw [Ref.expand]
  cases Ref.expandList refs <;> rfl

theorem expandList_cases (l : List (Str × Ref)) : (∃ es, Ref.expandList l = .ok es) ∨ Ref.expandList l = .error .invalidOperation := by
  cases h : Ref.expandList l with
  | ok es => exact .inl ⟨es, rfl⟩
  | error e => rw [expandList_err l h]; exact .inr rfl

theorem expandList_iff {l : List (Str × Ref)} (hk : ∀ n a, (n, a) ∈ l → Dict.get n l = some a) :
    (∃ es, Ref.expandList l = .ok es) ↔ ∀ n a, Dict.get n l = some a → ∃ y, a.expand = .ok y := by
  constructor
  · rintro ⟨es, h⟩ n a ha
    obtain ⟨y, hy, _⟩ := get_expandList h ha
    exact ⟨y, hy⟩
  · intro h
    exact expandList_total fun n a ha => h n a (hk n a ha)

theorem mem_of_get {l : List (Str × Ref)} {n : Str} {a : Ref} (h : Dict.get n l = some a) : (n, a) ∈ l := by
  induction l with
  | nil => cases h
  | cons q l ih =>
    obtain ⟨k, b⟩ := q
    rw [Dict.get_cons] at h
    by_cases hk : k = n
    · rw [if_pos hk] at h; cases h; subst hk; simp
    · rw [if_neg hk] at h; exact List.mem_cons_of_mem _ (ih h)

theorem expand_eq (S : Setup x t e refsT refs1 refs2 nm) (n1 n2 : Option UnitReference) :
    (Ref.unit n1 e refs1).expand = (Ref.unit n2 (e.inline x t) refs2).expand := by
  have hiff : (∃ es, Ref.expandList refs1 = .ok es) ↔ (∃ es, Ref.expandList refs2 = .ok es) := by
    rw [expandList_iff fun n a h => (S.k1 n a h).2, expandList_iff fun n a h => (S.k2 n a h).2]
    constructor
    · intro h n a ha
      rcases identifiers_inline e n (S.k2 n a (mem_of_get ha)).1 with ⟨h1, h2⟩ | ⟨h1, h2⟩
      · rw [S.other n h1 h2] at ha; exact h n a ha
      · rw [S.inner h1 n h2] at ha
        obtain ⟨y, hy⟩ := h x _ (S.hx h1)
        rw [expand_unit] at hy
        rcases expandList_cases refsT with ⟨es, hes⟩ | hes
        · obtain ⟨z, hz, _⟩ := get_expandList hes ha
          exact ⟨z, hz⟩
        · rw [hes] at hy; cases hy
    · intro h n a ha
      have hm := (S.k1 n a (mem_of_get ha)).1
      by_cases hx : n = x
      · subst hx
        rw [S.hx hm] at ha
        cases ha
        rw [expand_unit]
        obtain ⟨es, hes⟩ := (expandList_iff fun k b hb => (S.kT k b hb).2).2 fun k b hb =>
          h k b (by rw [S.inner hm k (S.kT k b (mem_of_get hb)).1]; exact hb)
        rw [hes]; exact ⟨_, rfl⟩
      · exact h n a (by rw [S.other n hm hx]; exact ha)
  rw [expand_unit, expand_unit]
  rcases expandList_cases refs1 with ⟨s1, h1⟩ | h1
  · obtain ⟨s2, h2⟩ := hiff.1 ⟨s1, h1⟩
    rw [h1, h2]
    refine congrArg Except.ok (Eq.symm ?_)
    have hget : ∀ {l : List (Str × Ref)} {es : List (Str × Node)} {l' : List (Str × Ref)} {es' : List (Str × Node)} (n : Str),
        Ref.expandList l = .ok es → Ref.expandList l' = .ok es' → Dict.get n l = Dict.get n l' → Dict.get n es = Dict.get n es' := by
      intro l es l' es' n h h' hg
      cases hn : Dict.get n l with
      | none => rw [get_expandList_none h hn, get_expandList_none h' (hg ▸ hn)]
      | some a =>
        obtain ⟨y, y1, y2⟩ := get_expandList h hn
        obtain ⟨z, z1, z2⟩ := get_expandList h' (hg ▸ hn)
        rw [y1] at z1; cases z1
        rw [y2, z2]
    by_cases hx : x ∈ e.identifiers
    · obtain ⟨y, y1, y2⟩ := get_expandList h1 (S.hx hx)
      rw [expand_unit] at y1
      rcases expandList_cases refsT with ⟨sT, hT⟩ | hT
      · rw [hT] at y1
        cases y1
        exact inline_substitute (sT := sT) e (fun k hk hne => hget k h2 h1 (S.other k hk hne))
          (fun _ => ⟨y2, fun k hk => hget k h2 hT (S.inner hx k hk)⟩)
      · rw [hT] at y1; cases y1
    · exact inline_substitute (sT := []) e (fun k hk hne => hget k h2 h1 (S.other k hk hne)) (fun h => absurd h hx)
  · rcases expandList_cases refs2 with h2 | h2
    · obtain ⟨s1, h1'⟩ := hiff.2 h2
      rw [h1] at h1'; cases h1'
    · rw [h1, h2]; rfl

/-! ## dimensionality -/

theorem dims_some {nm : Option UnitReference} {e : Node} {refs : List (Str × Ref)} :
    (Ref.unit nm e refs).dims? = (defnDims refs e).map some := by
  rw [Ref.dims?]
  show _ = Except.map some (unitDims _ e)
  cases unitDims (fun n => Dict.get n (Ref.dimsList refs)) e <;> rfl

theorem defnDims_core (refs : List (Str × Ref)) (e : Node) : defnDims refs e = defnDims refs e.core := by
  induction e with
  | shift u f hu _ => rw [show (Node.shift u f).core = u.core from rfl, ← hu]; exact unitDims_shift _ u f
  | log fn u hu => rw [show (Node.log fn u).core = u.core from rfl, ← hu]; exact unitDims_log _ fn u
  | _ => rfl

theorem core_sub (e : Node) : ∀ n ∈ e.core.identifiers, n ∈ e.identifiers := by
  induction e with
  | shift u f hu _ => intro n h; simp only [Node.identifiers, mem_setUnion]; exact .inl (.inr (hu n h))
  | log fn u hu => intro n h; simp only [Node.identifiers, mem_setUnion]; exact .inr (hu n h)
  | _ => intro n h; exact h

theorem core_inline (e : Node) : (e.inline x t).core = (e.core.inline x t).core := by
  induction e with
  | shift u f hu _ => exact hu
  | log fn u hu => exact hu
  | _ => rfl

theorem plain_core (h : Plain t) : t.core = t := by
  cases t <;> first | rfl | exact absurd h (by simp [Plain])

theorem plain_inline {e : Node} (he : Plain e) (ht : Plain t) : Plain (e.inline x t) := by
  induction e with
  | ident m =>
    by_cases hm : m = x
    · simpa [Node.inline, hm] using ht
    · simp [Node.inline, hm, Plain]
  | number => trivial
  | unhandled => exact he
  | mul l r hl hr => exact ⟨hl he.1, hr he.2⟩
  | div l r hl hr => exact ⟨hl he.1, hr he.2⟩
  | raise l r hl hr => obtain ⟨h1, i, raw, rfl⟩ := he; exact ⟨hl h1, i, raw, rfl⟩
  | shift => exact absurd he (by simp [Plain])
  | log => exact absurd he (by simp [Plain])

theorem degree_inline {P Q R : Str → Int} {e : Node} (he : Plain e)
    (h1 : ∀ k ∈ countedIds e, k ≠ x → Q k = P k) (h2 : x ∈ countedIds e → P x = degree R t ∧ ∀ k ∈ countedIds t, Q k = R k) :
    degree Q (e.inline x t) = degree P e := by
  induction e with
  | ident m =>
    by_cases hm : m = x
    · subst hm
      obtain ⟨a, b⟩ := h2 (by simp [countedIds])
      simp only [Node.inline, if_true, degree, a]
      exact degree_congr b
    · simp only [Node.inline, if_neg hm, degree]
      exact h1 m (by simp [countedIds]) hm
  | number => rfl
  | unhandled => rfl
  | mul l r hl hr =>
    simp only [countedIds, List.mem_append] at h1 h2
    simp only [Node.inline, degree]
    rw [hl he.1 (fun k hk => h1 k (.inl hk)) (fun hk => h2 (.inl hk)), hr he.2 (fun k hk => h1 k (.inr hk)) (fun hk => h2 (.inr hk))]
  | div l r hl hr =>
    simp only [countedIds, List.mem_append] at h1 h2
    simp only [Node.inline, degree]
    rw [hl he.1 (fun k hk => h1 k (.inl hk)) (fun hk => h2 (.inl hk)), hr he.2 (fun k hk => h1 k (.inr hk)) (fun hk => h2 (.inr hk))]
  | raise l r hl hr =>
    obtain ⟨he1, i, raw, rfl⟩ := he
    simp only [countedIds] at h1 h2
    simp only [Node.inline, degree]
    rw [hl he1 h1 h2]
  | shift => exact absurd he (by simp [Plain])
  | log => exact absurd he (by simp [Plain])

theorem counted_inline : ∀ (e : Node) (n : Str), n ∈ countedIds (e.inline x t) →
    (n ∈ countedIds e ∧ n ≠ x) ∨ (x ∈ countedIds e ∧ n ∈ countedIds t) := by
  intro e
  induction e with
  | ident m =>
    intro n hn
    by_cases hm : m = x
    · subst hm
      simp only [Node.inline, if_true] at hn
      exact .inr ⟨by simp [countedIds], hn⟩
    · simp only [Node.inline, if_neg hm] at hn
      refine .inl ⟨hn, ?_⟩
      simp only [countedIds, List.mem_singleton] at hn
      rw [hn]; exact hm
  | number => intro n hn; simp [countedIds, Node.inline] at hn
  | unhandled => intro n hn; simp [countedIds, Node.inline] at hn
  | mul l r hl hr | div l r hl hr =>
    intro n hn
    simp only [countedIds, Node.inline, List.mem_append] at hn ⊢
    rcases hn with h | h
    · rcases hl n h with ⟨a, b⟩ | ⟨a, b⟩
      · exact .inl ⟨.inl a, b⟩
      · exact .inr ⟨.inl a, b⟩
    · rcases hr n h with ⟨a, b⟩ | ⟨a, b⟩
      · exact .inl ⟨.inr a, b⟩
      · exact .inr ⟨.inr a, b⟩
  | raise l r hl hr =>
    intro n hn
    simp only [countedIds, Node.inline] at hn ⊢
    exact hl n hn
  | shift l r hl hr =>
    intro n hn
    simp only [countedIds, Node.inline] at hn ⊢
    exact hl n hn
  | log fn u hu =>
    intro n hn
    simp only [countedIds, Node.inline] at hn ⊢
    exact hu n hn

theorem dims_plain (Shx : x ∈ e.identifiers → Dict.get x refs1 = some (.unit nm t refsT))
    (Sother : ∀ n ∈ e.identifiers, n ≠ x → Dict.get n refs2 = Dict.get n refs1)
    (Sinner : x ∈ e.identifiers → ∀ n ∈ t.identifiers, Dict.get n refs2 = Dict.get n refsT) (he : Plain e) (ht : Plain t) {d : Dims} (hd : defnDims refs1 e = .ok d) :
    ∃ d', defnDims refs2 (e.inline x t) = .ok d' ∧ ∀ y, Dims.power y d' = Dims.power y d := by
  obtain ⟨hok, hp⟩ := defnDims_plain_inv he hd
  have hT : x ∈ countedIds e → ∃ dT, defnDims refsT t = .ok dT := by
    intro hx
    obtain ⟨r, o, h1, h2⟩ := hok x hx
    rw [Shx (countedIds_sub x hx)] at h1
    cases h1
    rw [dims_some] at h2
    cases h3 : defnDims refsT t with
    | ok dT => exact ⟨dT, rfl⟩
    | error e => rw [h3] at h2; cases h2
  have hok2 : RefsOk refs2 (countedIds (e.inline x t)) := by
    intro n hn
    rcases counted_inline e n hn with ⟨h1, h2⟩ | ⟨h1, h2⟩
    · rw [Sother n (countedIds_sub n h1) h2]
      exact hok n h1
    · rw [Sinner (countedIds_sub x h1) n (countedIds_sub n h2)]
      obtain ⟨dT, hdT⟩ := hT h1
      exact (defnDims_plain_inv ht hdT).1 n h2
  obtain ⟨d', hd', hp'⟩ := defnDims_plain (plain_inline he ht) hok2
  refine ⟨d', hd', fun y => ?_⟩
  rw [hp', hp]
  refine degree_inline (R := refPower refsT y) he ?_ ?_
  · intro k hk hne
    unfold refPower
    rw [Sother k (countedIds_sub k hk) hne]
  · intro hx
    obtain ⟨dT, hdT⟩ := hT hx
    have hi := defnDims_plain_inv ht hdT
    constructor
    · rw [← hi.2 y]
      show (match Dict.get x refs1 with
        | some r => match r.dims? with
          | .ok (some d) => Dims.total y d
          | _ => 0
        | none => 0 : Int) = _
      rw [Shx (countedIds_sub x hx)]
      have hs : (Ref.unit nm t refsT).dims? = .ok (some dT) := by rw [dims_some, hdT]; rfl
      simp only [hs]
      exact (Dims.power_eq_total (dims?_wf hs).1).symm
    · intro k hk
      unfold refPower
      rw [Sinner (countedIds_sub x hx) k (countedIds_sub k hk)]

theorem get?_append {r : Str} {a b : Dims} (h : ∀ q ∈ a, q.1.ref ≠ r) : Dims.get? r (a ++ b) = Dims.get? r b := by
  induction a with
  | nil => rfl
  | cons q a ih =>
    obtain ⟨b', v⟩ := q
    simp only [List.cons_append, Dims.get?]
    rw [if_neg (h (b', v) (by simp)), ih fun q hq => h q (List.mem_cons_of_mem _ hq)]

theorem set_append {b : Basis} {v : Int} {a : Dims} (h : ∀ q ∈ a, q.1.ref ≠ b.ref) : Dims.set b v a = a ++ [(b, v)] := by
  induction a with
  | nil => rfl
  | cons q a ih =>
    obtain ⟨b', v'⟩ := q
    simp only [Dims.set]
    rw [if_neg (h (b', v') (by simp)), ih fun q hq => h q (List.mem_cons_of_mem _ hq)]
    rfl

theorem addAll_one : ∀ (l a : Dims), (a ++ l).Nodup → dimsAddAll (.int 1) l a = .ok (a ++ l) := by
  intro l
  induction l with
  | nil => intro a _; rw [List.append_nil]; rfl
  | cons q l ih =>
    intro a h
    obtain ⟨b, k⟩ := q
    have hn : ∀ q ∈ a, q.1.ref ≠ b.ref := by
      intro q hq he
      unfold Dims.Nodup at h
      rw [List.map_append, List.nodup_append] at h
      exact h.2.2 q.1.ref (List.mem_map.2 ⟨q, hq, rfl⟩) b.ref (by simp) he
    have hp : Dims.power b.ref a = 0 := by
      unfold Dims.power
      have := get?_append (b := []) hn
      rw [List.append_nil] at this
      rw [this]; rfl
    simp only [dimsAddAll, PyVal.mul, PyVal.add, bind, Except.bind, hp, Int.mul_one, Int.zero_add]
    rw [set_append hn, ih (a ++ [(b, k)]) (by rw [List.append_assoc]; exact h), List.append_assoc]
    rfl

theorem dropZero_noop {d : Dims} (h : d.NoZero) : Dims.dropZero d = d := by
  unfold Dims.dropZero
  rw [List.filter_eq_self]
  intro q hq
  exact decide_eq_true (h q hq)

/-- a unit that is just another unit -/
theorem defnDims_ident {refs : List (Str × Ref)} (h : Dict.get x refs = some (.unit nm t refsT)) :
    defnDims refs (.ident x) = defnDims refsT t := by
  have hs := dims_some (nm := nm) (e := t) (refs := refsT)
  generalize hD : defnDims refsT t = D at hs ⊢
  unfold defnDims unitDims
  simp only [Node.split, Node.dimCount, bind, Except.bind, dimsLoop, get_dimsList, h, Option.map_some]
  rw [hs]
  cases D with
  | error e => rfl
  | ok d =>
    have hw := dims?_wf (r := .unit nm t refsT) (d := d) (by rw [hs]; rfl)
    simp only [Except.map]
    rw [addAll_one d [] hw.1]
    simp only [List.nil_append]
    rw [dropZero_noop hw.2]

theorem split_ids (n : Node) : ∀ {root : Bool} {q : Option Trans × Node}, n.split root = .ok q →
    ∀ k ∈ q.2.identifiers, k ∈ n.identifiers := by
  induction n with
  | number => intro _ q h; cases h; exact fun k h => h
  | ident => intro _ q h; cases h; exact fun k h => h
  | unhandled => intro _ q h; cases h; exact fun k h => h
  | shift u f hu hf =>
    intro root q h k hk
    simp only [Node.split] at h
    cases h1 : u.split false with
    | error x => rw [h1] at h; cases h
    | ok q1 =>
      rw [h1] at h
      have : q.2 = q1.2 := by cases root <;> (cases h; rfl)
      simp only [Node.identifiers, mem_setUnion]
      exact .inl (.inr (hu h1 k (this ▸ hk)))
  | log fn u hu =>
    intro root q h k hk
    simp only [Node.split] at h
    cases h1 : u.split false with
    | error x => rw [h1] at h; cases h
    | ok q1 =>
      rw [h1] at h
      cases h
      simp only [Node.identifiers, mem_setUnion]
      exact .inr (hu h1 k hk)
  | raise l r hl hr =>
    intro root q h k hk
    simp only [Node.split] at h
    cases h1 : l.split false with
    | error x => rw [h1] at h; cases h
    | ok q1 =>
      rw [h1] at h
      cases h2 : r.split false with
      | error x => simp only [bind, Except.bind, h2] at h; cases h
      | ok q2 =>
        simp only [bind, Except.bind, h2] at h
        split at h
        · cases h
        · cases h
          simp only [Node.identifiers, mem_setUnion, List.not_mem_nil, false_or] at hk ⊢
          exact hk.imp (hl h1 k) (hr h2 k)
  | mul l r hl hr =>
    intro root q h k hk
    simp only [Node.split] at h
    cases h1 : l.split false with
    | error x => rw [h1] at h; cases h
    | ok q1 =>
      rw [h1] at h
      cases h2 : r.split false with
      | error x => simp only [bind, Except.bind, h2] at h; cases h
      | ok q2 =>
        obtain ⟨t1, d1⟩ := q1
        obtain ⟨t2, d2⟩ := q2
        simp only [bind, Except.bind, h2] at h
        simp only [Node.identifiers, mem_setUnion, List.not_mem_nil, false_or]
        cases t1 <;> cases t2 <;> cases h
        · simp only [Node.identifiers, mem_setUnion, List.not_mem_nil, false_or] at hk
          exact hk.imp (hl h1 k) (hr h2 k)
        · exact .inr (hr h2 k hk)
        · exact .inl (hl h1 k hk)
  | div l r hl hr =>
    intro root q h k hk
    simp only [Node.split] at h
    cases h1 : l.split false with
    | error x => rw [h1] at h; cases h
    | ok q1 =>
      rw [h1] at h
      cases h2 : r.split false with
      | error x => simp only [bind, Except.bind, h2] at h; cases h
      | ok q2 =>
        obtain ⟨t1, d1⟩ := q1
        obtain ⟨t2, d2⟩ := q2
        simp only [bind, Except.bind, h2] at h
        simp only [Node.identifiers, mem_setUnion, List.not_mem_nil, false_or]
        cases t1 <;> cases t2 <;> cases h <;>
        · simp only [Node.identifiers, mem_setUnion, List.not_mem_nil, false_or] at hk
          exact hk.imp (hl h1 k) (hr h2 k)

theorem mem_dict_set {k : Str} {v : PyVal} {d : Dict Str PyVal} {q : Str × PyVal} (h : q ∈ Dict.set k v d) : q = (k, v) ∨ q ∈ d := by
  induction d with
  | nil => exact .inl (by simpa [Dict.set] using h)
  | cons a d ih =>
    obtain ⟨k', v'⟩ := a
    simp only [Dict.set] at h
    split at h
    · rename_i hk
      rcases List.mem_cons.1 h with h | h
      · exact .inl (by rw [h, hk])
      · exact .inr (by simp [h])
    · rcases List.mem_cons.1 h with h | h
      · exact .inr (by simp [h])
      · exact (ih h).imp id (by intro h; simp [h])

theorem dimMerge_keys (op : PyVal → PyVal → Py PyVal) : ∀ (items : List (Str × PyVal)) (scope r : Dict Str PyVal),
    dimMerge op items scope = .ok r → ∀ q ∈ r, (∃ v, (q.1, v) ∈ items) ∨ ∃ v, (q.1, v) ∈ scope := by
  intro items
  induction items with
  | nil => intro scope r h q hq; cases h; exact .inr ⟨q.2, hq⟩
  | cons a items ih =>
    obtain ⟨ut, order⟩ := a
    intro scope r h q hq
    simp only [dimMerge] at h
    cases h1 : op ((Dict.get ut scope).getD (.int 0)) order with
    | error e => rw [h1] at h; cases h
    | ok v =>
      rw [h1] at h
      rcases ih _ _ h q hq with ⟨w, hw⟩ | ⟨w, hw⟩
      · exact .inl ⟨w, by simp [hw]⟩
      · rcases mem_dict_set hw with h2 | h2
        · have : q.1 = ut := congrArg Prod.fst h2
          exact .inl ⟨order, by rw [this]; simp⟩
        · exact .inr ⟨w, h2⟩

theorem dimScale_keys (n : Num) : ∀ (scope r : Dict Str PyVal), dimScale n scope = .ok r → ∀ q ∈ r, ∃ v, (q.1, v) ∈ scope := by
  intro scope
  induction scope with
  | nil => intro r h q hq; cases h; cases hq
  | cons a scope ih =>
    obtain ⟨ut, order⟩ := a
    intro r h q hq
    simp only [dimScale] at h
    cases h1 : n.asPyVal with
    | error e => rw [h1] at h; cases h
    | ok k =>
      rw [h1] at h
      cases h2 : PyVal.mul order k with
      | error e => simp only [bind, Except.bind, h2] at h; cases h
      | ok v =>
        cases h3 : dimScale n scope with
        | error e => simp only [bind, Except.bind, h2, h3] at h; cases h
        | ok rest =>
          simp only [bind, Except.bind, h2, h3] at h
          cases h
          rcases List.mem_cons.1 hq with rfl | hq
          · exact ⟨order, by simp⟩
          · obtain ⟨v, hv⟩ := ih rest h3 q hq
            exact ⟨v, by simp [hv]⟩

theorem dimCount_ids (n : Node) : ∀ {r : Dict Str PyVal}, n.dimCount = .ok r → ∀ q ∈ r, q.1 ∈ n.identifiers := by
  induction n with
  | number => intro r h q hq; cases h; cases hq
  | ident => intro r h q hq; cases h; simp only [List.mem_singleton] at hq; subst hq; simp [Node.identifiers]
  | unhandled => intro r h; cases h
  | mul l r hl hr | div l r hl hr =>
    intro s h q hq
    simp only [Node.dimCount] at h
    cases h1 : l.dimCount with
    | error x => rw [h1] at h; cases h
    | ok q1 =>
      rw [h1] at h
      cases h2 : r.dimCount with
      | error x => simp only [bind, Except.bind, h2] at h; cases h
      | ok q2 =>
        simp only [bind, Except.bind, h2] at h
        simp only [Node.identifiers, mem_setUnion, List.not_mem_nil, false_or]
        rcases dimMerge_keys _ _ _ _ h q hq with ⟨v, hv⟩ | ⟨v, hv⟩
        · exact .inr (hr h2 (q.1, v) hv)
        · exact .inl (hl h1 (q.1, v) hv)
  | raise l r hl hr =>
    intro s h q hq
    cases r with
    | number n raw =>
      simp only [Node.dimCount] at h
      cases h1 : l.dimCount with
      | error x => rw [h1] at h; cases h
      | ok q1 =>
        rw [h1] at h
        obtain ⟨v, hv⟩ := dimScale_keys n q1 s h q hq
        simp only [Node.identifiers, mem_setUnion, List.not_mem_nil, false_or]
        exact .inl (hl h1 (q.1, v) hv)
    | _ => cases h
  | shift u f hu hf =>
    intro s h q hq
    simp only [Node.identifiers, mem_setUnion, List.not_mem_nil, false_or]
    exact .inl (hu h q hq)
  | log fn u hu =>
    intro s h q hq
    simp only [Node.identifiers, mem_setUnion, List.not_mem_nil, false_or]
    exact hu h q hq

theorem dimsLoop_congr {look look' : Str → Option (Py (Option Dims))} : ∀ (items : List (Str × PyVal)) (r : Dims),
    (∀ q ∈ items, look q.1 = look' q.1) → dimsLoop look items r = dimsLoop look' items r := by
  intro items
  induction items with
  | nil => intro r _; rfl
  | cons a items ih =>
    obtain ⟨n, o⟩ := a
    intro r h
    simp only [dimsLoop]
    rw [h (n, o) (by simp)]
    cases look' n with
    | none => rfl
    | some p =>
      cases p with
      | error e => rfl
      | ok y =>
        simp only [bind, Except.bind]
        cases y with
        | none => exact ih r fun q hq => h q (by simp [hq])
        | some ud =>
          simp only
          cases dimsAddAll o ud r with
          | error e => rfl
          | ok r' => exact ih r' fun q hq => h q (by simp [hq])

theorem defnDims_congr {refs refs' : List (Str × Ref)} {n : Node} (h : ∀ k ∈ n.identifiers, Dict.get k refs = Dict.get k refs') :
    defnDims refs n = defnDims refs' n := by
  unfold defnDims unitDims
  cases h1 : n.split true with
  | error e => rfl
  | ok q =>
    obtain ⟨t1, d⟩ := q
    simp only [bind, Except.bind]
    cases h2 : d.dimCount with
    | error e => rfl
    | ok items =>
      simp only
      rw [dimsLoop_congr items [] fun q hq => ?_]
      simp only [get_dimsList]
      rw [h q.1 (split_ids n h1 q.1 (dimCount_ids d h2 q hq))]

/-- the same powers for every basis unit -/
theorem dims_eq (S : Setup x t e refsT refs1 refs2 nm) (h : MayInline x t e) {d : Dims} (hd : defnDims refs1 e = .ok d) :
    ∃ d', defnDims refs2 (e.inline x t) = .ok d' ∧ ∀ y, Dims.power y d' = Dims.power y d := by
  rw [defnDims_core refs2, core_inline]
  rw [defnDims_core refs1] at hd
  rcases h with h | ⟨h, ht⟩
  · have hx : x ∈ e.identifiers := core_sub e x (by rw [h]; simp [Node.identifiers])
    rw [h, defnDims_ident (S.hx hx)] at hd
    rw [h]
    simp only [Node.inline, if_true]
    rw [← defnDims_core refs2, defnDims_congr (S.inner hx)]
    exact ⟨d, hd, fun _ => rfl⟩
  · rw [plain_core (plain_inline h ht)]
    exact dims_plain (fun hx => S.hx (core_sub e x hx)) (fun n hn => S.other n (core_sub e n hn))
      (fun hx => S.inner (core_sub e x hx)) h ht hd

end Verif.Inl
