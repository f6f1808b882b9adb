import Verif.Spec.Rebase
import Verif.Lemmas.Convert
import Verif.Lemmas.Units
/-!
# Redefining a basis unit: expansions and symbolic definitions
-/

namespace Verif.Rebase
open Verif

variable {b : Str} {R : Node} {M : Mono}

/-! ## Expansion -/

/-- the same replacement in every expansion of a table -/
def inlineAll (b : Str) (R : Node) : List (Str × Node) → List (Str × Node)
  | [] => []
  | (n, e) :: rest => (n, e.inline b R) :: inlineAll b R rest

theorem keys_inlineAll : ∀ l : List (Str × Node), Dict.keys (inlineAll b R l) = Dict.keys l
  | [] => rfl
  | (n, e) :: rest => by
    have := keys_inlineAll rest
    simp only [Dict.keys] at this
    simp only [inlineAll, Dict.keys, List.map_cons, this]

theorem get_inlineAll (k : Str) : ∀ l : List (Str × Node), Dict.get k (inlineAll b R l) = (Dict.get k l).map (·.inline b R)
  | [] => rfl
  | (n, e) :: rest => by
    simp only [inlineAll, Dict.get]
    by_cases h : n = k
    · simp only [h, if_true]; rfl
    · simp only [h, if_false]; exact get_inlineAll k rest

theorem substitute_inline {s : List (Str × Node)} : ∀ e : Node, (∀ n ∈ e.identifiers, n ∈ Dict.keys s) →
    (e.substitute s).inline b R = e.substitute (inlineAll b R s) := by
  intro e
  induction e with
  | ident m =>
    intro h
    have := h m (by simp [Node.identifiers])
    rw [← Dict.get_isSome_iff] at this
    obtain ⟨y, hy⟩ := Option.isSome_iff_exists.1 this
    simp only [Node.substitute, get_inlineAll, hy, Option.map_some]
  | number => intro _; rfl
  | unhandled => intro _; rfl
  | mul l r hl hr | div l r hl hr | raise l r hl hr | shift l r hl hr =>
    intro h
    simp only [Node.identifiers, mem_setUnion, List.not_mem_nil, false_or] at h
    simp only [Node.substitute, Node.inline]
    rw [hl fun k hk => h k (.inl hk), hr fun k hk => h k (.inr hk)]
  | log fn u hu =>
    intro h
    simp only [Node.identifiers, mem_setUnion, List.not_mem_nil, false_or] at h
    simp only [Node.substitute, Node.inline]
    rw [hu h]

theorem keys_expandList : ∀ (l : List (Str × Ref)) {es : List (Str × Node)}, Ref.expandList l = .ok es → Dict.keys es = Dict.keys l
  | [], es, h => by rw [Ref.expandList] at h; cases h; rfl
  | (n, r) :: rest, es, h => by
    rw [Ref.expandList] at h
    cases h1 : r.expand with
    | error e => rw [h1] at h; cases h
    | ok e =>
      rw [h1] at h
      cases h2 : Ref.expandList rest with
      | error e => simp only [bind, Except.bind, h2] at h; cases h
      | ok es' =>
        simp only [bind, Except.bind, h2] at h; cases h
        have := keys_expandList rest h2
        simp only [Dict.keys] at this
        simp only [Dict.keys, List.map_cons, this]

mutual
theorem expand_rebase {r : Ref} (hr : r.expand = .ok R) : ∀ (a : Ref) {E : Node}, a.Closed → a.expand = .ok E →
    (a.rebase b r).expand = .ok (E.inline b R)
  | .basis b', E, _, h => by
    rw [Ref.expand] at h; cases h
    rw [Ref.rebase]
    by_cases hb : b'.ref = b
    · rw [if_pos hb, hr]; simp only [Node.inline, hb, if_true]
    · rw [if_neg hb, Ref.expand]; simp only [Node.inline, hb, if_false]
  | .pre p, E, _, h => by
    rw [Ref.expand] at h
    rw [Ref.rebase, Ref.expand, h]
    unfold Prefix.expand at h
    cases hd : Dec.parse p.value with
    | error e => rw [hd] at h; cases h
    | ok d => rw [hd] at h; cases h; rfl
  | .unit n e refs, E, hc, h => by
    rw [Ref.Closed] at hc
    rw [Ref.expand] at h
    cases h1 : Ref.expandList refs with
    | error x => rw [h1] at h; cases h
    | ok es =>
      rw [h1] at h; cases h
      rw [Ref.rebase, Ref.expand, expandList_rebase hr refs hc.2 h1]
      change Except.ok _ = _
      rw [substitute_inline e (by rw [keys_expandList refs h1]; exact hc.1)]
theorem expandList_rebase {r : Ref} (hr : r.expand = .ok R) : ∀ (l : List (Str × Ref)) {es : List (Str × Node)}, Ref.ClosedAll l →
    Ref.expandList l = .ok es → Ref.expandList (Ref.rebaseAll b l r) = .ok (inlineAll b R es)
  | [], es, _, h => by rw [Ref.expandList] at h; cases h; rfl
  | (n, a) :: rest, es, hc, h => by
    rw [Ref.ClosedAll] at hc
    rw [Ref.expandList] at h
    cases h1 : a.expand with
    | error e => rw [h1] at h; cases h
    | ok e =>
      rw [h1] at h
      cases h2 : Ref.expandList rest with
      | error e => simp only [bind, Except.bind, h2] at h; cases h
      | ok es' =>
        simp only [bind, Except.bind, h2] at h; cases h
        rw [Ref.rebaseAll, Ref.expandList, expand_rebase hr a hc.1 h1, expandList_rebase hr rest hc.2 h2]
        rfl
end

/-! ## Splitting -/

/-- the replacement in a value transformation -/
def transInline (b : Str) (R : Node) : Trans → Trans
  | .value => .value
  | .shift t f => .shift (transInline b R t) (f.inline b R)
  | .mulR t d => .mulR (transInline b R t) (d.inline b R)
  | .mulL d t => .mulL (d.inline b R) (transInline b R t)
  | .log fn t => .log fn (transInline b R t)

theorem orValue_inline (t : Option Trans) : Trans.orValue (t.map (transInline b R)) = transInline b R (Trans.orValue t) := by
  cases t <;> rfl

theorem split_inline (hR : ∀ root, R.split root = .ok (none, R)) : ∀ (e : Node) (root : Bool) {t : Option Trans} {d : Node},
    e.split root = .ok (t, d) → (e.inline b R).split root = .ok (t.map (transInline b R), d.inline b R) := by
  intro e
  induction e with
  | ident m =>
    intro root t d h
    rw [Node.split] at h; cases h
    simp only [Node.inline]
    by_cases hm : m = b
    · simp only [hm, if_true]; rw [hR]; rfl
    · simp only [hm, if_false]; rfl
  | number => intro root t d h; rw [Node.split] at h; cases h; rfl
  | unhandled => intro root t d h; rw [Node.split] at h; cases h; rfl
  | mul l r hl hr =>
    intro root t d h
    rw [Node.split] at h
    cases h1 : l.split false with
    | error x => rw [h1] at h; cases h
    | ok q1 =>
      obtain ⟨t1, d1⟩ := q1
      rw [h1] at h
      cases h2 : r.split false with
      | error x => simp only [bind, Except.bind, h2] at h; cases h
      | ok q2 =>
        obtain ⟨t2, d2⟩ := q2
        simp only [bind, Except.bind, h2] at h
        simp only [Node.inline]
        rw [Node.split, hl _ h1, hr _ h2]
        simp only [bind, Except.bind]
        cases t1 <;> cases t2 <;> cases h <;> rfl
  | div l r hl hr =>
    intro root t d h
    rw [Node.split] at h
    cases h1 : l.split false with
    | error x => rw [h1] at h; cases h
    | ok q1 =>
      obtain ⟨t1, d1⟩ := q1
      rw [h1] at h
      cases h2 : r.split false with
      | error x => simp only [bind, Except.bind, h2] at h; cases h
      | ok q2 =>
        obtain ⟨t2, d2⟩ := q2
        simp only [bind, Except.bind, h2] at h
        simp only [Node.inline]
        rw [Node.split, hl _ h1, hr _ h2]
        simp only [bind, Except.bind]
        cases t1 <;> cases t2 <;> cases h <;> rfl
  | raise l r hl hr =>
    intro root t d h
    rw [Node.split] at h
    cases h1 : l.split false with
    | error x => rw [h1] at h; cases h
    | ok q1 =>
      obtain ⟨t1, d1⟩ := q1
      rw [h1] at h
      cases h2 : r.split false with
      | error x => simp only [bind, Except.bind, h2] at h; cases h
      | ok q2 =>
        obtain ⟨t2, d2⟩ := q2
        simp only [bind, Except.bind, h2] at h
        simp only [Node.inline]
        rw [Node.split, hl _ h1, hr _ h2]
        simp only [bind, Except.bind]
        cases t2 <;> cases h <;> rfl
  | shift l r hl hr =>
    intro root t d h
    rw [Node.split] at h
    cases h1 : l.split false with
    | error x => rw [h1] at h; cases h
    | ok q1 =>
      obtain ⟨t1, d1⟩ := q1
      rw [h1] at h
      simp only [bind, Except.bind] at h
      simp only [Node.inline]
      rw [Node.split, hl _ h1]
      simp only [bind, Except.bind, orValue_inline]
      cases root <;> cases h <;> rfl
  | log fn u hu =>
    intro root t d h
    rw [Node.split] at h
    cases h1 : u.split false with
    | error x => rw [h1] at h; cases h
    | ok q1 =>
      obtain ⟨t1, d1⟩ := q1
      rw [h1] at h
      simp only [bind, Except.bind] at h
      cases h
      simp only [Node.inline]
      rw [Node.split, hu _ h1]
      simp only [bind, Except.bind, orValue_inline]
      rfl

/-! ## Monomials -/

/-- `m'` is `m` with `M` for the symbol `b` -/
structure Sub (b : Str) (M m m' : Mono) : Prop where
  coef : m'.coef = m.coef * M.coef ^ m.exp b
  exp : ∀ s, m'.exp s = (if s = b then 0 else m.exp s) + m.exp b * M.exp s

theorem exp_zero {m : Mono} (w : m.WF) (h : m.coef = 0) (s : Str) : m.exp s = 0 := by
  unfold Mono.exp; rw [w.zero h]; rfl

theorem Sub.zero_iff {m m' : Mono} (hM : M.coef ≠ 0) (h : Sub b M m m') : m'.coef = 0 ↔ m.coef = 0 := by
  rw [h.coef, mul_eq_zero]
  exact ⟨fun h => h.resolve_right (zpow_ne_zero _ hM), .inl⟩

theorem sub_zero {m m' : Mono} (w : m.WF) (w' : m'.WF) (h : m.coef = 0) (h' : m'.coef = 0) : Sub b M m m' :=
  ⟨by rw [h, h', zero_mul], fun s => by rw [exp_zero w h, exp_zero w h, exp_zero w' h']; simp⟩

theorem sub_mul (hM : M.coef ≠ 0) {x x' y y' : Mono} (wx : x.WF) (wx' : x'.WF) (wy : y.WF) (wy' : y'.WF) (hx : Sub b M x x')
    (hy : Sub b M y y') : Sub b M (x.mul y) (x'.mul y') := by
  by_cases cx : x.coef = 0
  · exact sub_zero (Mono.wf_mul _ wx) (Mono.wf_mul _ wx') (by rw [Mono.coef_mul, cx, zero_mul])
      (by rw [Mono.coef_mul, (hx.zero_iff hM).2 cx, zero_mul])
  by_cases cy : y.coef = 0
  · exact sub_zero (Mono.wf_mul _ wx) (Mono.wf_mul _ wx') (by rw [Mono.coef_mul, cy, mul_zero])
      (by rw [Mono.coef_mul, (hy.zero_iff hM).2 cy, mul_zero])
  have cx' := mt (hx.zero_iff hM).1 cx
  have cy' := mt (hy.zero_iff hM).1 cy
  constructor
  · rw [Mono.coef_mul, Mono.coef_mul, Mono.exp_mul wx wy cx cy, hx.coef, hy.coef, zpow_add₀ hM]; ring
  · intro s
    rw [Mono.exp_mul wx' wy' cx' cy', Mono.exp_mul wx wy cx cy, Mono.exp_mul wx wy cx cy, hx.exp, hy.exp]
    split <;> ring

theorem sub_inv (hM : M.coef ≠ 0) {x x' k : Mono} (wx : x.WF) (wx' : x'.WF) (hx : Sub b M x x') (h : x.inv = .ok k) :
    ∃ k', x'.inv = .ok k' ∧ Sub b M k k' := by
  obtain ⟨i1, i2, i3, i4, i5⟩ := Mono.inv_spec wx h
  have cx' := mt (hx.zero_iff hM).1 i1
  refine ⟨_, Mono.inv_ok cx', ?_⟩
  obtain ⟨j1, j2, j3, j4, j5⟩ := Mono.inv_spec wx' (Mono.inv_ok cx')
  constructor
  · rw [j2, i2, i5, hx.coef, mul_inv, ← zpow_neg]
  · intro s
    rw [j5, i5, i5, hx.exp]
    split <;> ring

theorem sub_div (hM : M.coef ≠ 0) {x x' y y' k : Mono} (wx : x.WF) (wx' : x'.WF) (wy : y.WF) (wy' : y'.WF) (hx : Sub b M x x')
    (hy : Sub b M y y') (h : x.div y = .ok k) : ∃ k', x'.div y' = .ok k' ∧ Sub b M k k' := by
  unfold Mono.div at h
  cases hi : y.inv with
  | error e => rw [hi] at h; cases h
  | ok i =>
    rw [hi] at h; cases h
    obtain ⟨i', hi', hs⟩ := sub_inv hM wy wy' hy hi
    refine ⟨x'.mul i', by unfold Mono.div; rw [hi']; rfl, ?_⟩
    exact sub_mul hM wx wx' (Mono.inv_spec wy hi).2.2.2.1 (Mono.inv_spec wy' hi').2.2.2.1 hx hs

theorem wf_nil {q : Rat} : (⟨q, []⟩ : Mono).WF := Mono.wf_ofRat q

theorem sub_pow (hM : M.coef ≠ 0) {x x' k : Mono} (wx : x.WF) (wx' : x'.WF) (hx : Sub b M x x') {n : Int} (h : x.pow n = .ok k) :
    ∃ k', x'.pow n = .ok k' ∧ Sub b M k k' := by
  by_cases cx : x.coef = 0
  · have cx' := (hx.zero_iff hM).2 cx
    have e : x = x' := by
      cases x with | mk c e => cases x' with | mk c' e' =>
      have h1 := wx.zero cx; have h2 := wx'.zero cx'
      simp only at h1 h2 cx cx'
      subst h1 h2 cx cx'; rfl
    subst e
    refine ⟨k, h, ?_⟩
    have he : k.exps = [] := by
      cases n with
      | ofNat j =>
        unfold Mono.pow at h
        simp only at h
        have := Except.ok.inj h
        rw [← this]
        unfold Mono.norm
        rw [wx.zero cx]
        split <;> rfl
      | negSucc j =>
        unfold Mono.pow at h
        simp only [Mono.inv, cx, if_true] at h
        cases h
    have hz : ∀ s, k.exp s = 0 := fun s => by unfold Mono.exp; rw [he]; rfl
    exact ⟨by rw [hz]; simp, fun s => by rw [hz, hz]; simp⟩
  · have cx' := mt (hx.zero_iff hM).1 cx
    obtain ⟨k', hk'⟩ : ∃ k', x'.pow n = .ok k' := by
      cases n with
      | ofNat j => exact ⟨_, rfl⟩
      | negSucc j => unfold Mono.pow; rw [Mono.inv_ok cx']; exact ⟨_, rfl⟩
    obtain ⟨p1, p2, p3⟩ := Mono.pow_spec wx h
    obtain ⟨q1, q2, q3⟩ := Mono.pow_spec wx' hk'
    refine ⟨k', hk', ?_, ?_⟩
    · rw [q2, p2, p3 cx, hx.coef, mul_zpow, ← zpow_mul, mul_comm (x.exp b)]
    · intro s
      rw [q3 cx', p3 cx, p3 cx, hx.exp]
      split <;> ring

theorem asExponent_inline {e : Node} {i : Int} (h : e.asExponent = .ok i) : (e.inline b R).asExponent = .ok i := by
  cases e with
  | number v raw => exact h
  | _ => cases h

theorem toMono_inline (hM : M.coef ≠ 0) (hR : R.toMono = .ok M) : ∀ (e : Node) {m : Mono}, e.toMono = .ok m →
    ∃ m', (e.inline b R).toMono = .ok m' ∧ Sub b M m m' := by
  intro e
  induction e with
  | ident n =>
    intro m h
    simp only [Node.toMono] at h; cases h
    simp only [Node.inline]
    by_cases hn : n = b
    · subst hn
      simp only [if_true]
      refine ⟨M, hR, ?_, ?_⟩
      · simp [Mono.sym, Mono.exp, Dict.get]
      · intro s
        by_cases hs : s = n
        · subst hs; simp [Mono.sym, Mono.exp, Dict.get]
        · simp [Mono.sym, Mono.exp, Dict.get, hs, Ne.symm hs]
    · simp only [hn, if_false]
      refine ⟨_, rfl, ?_, ?_⟩
      · simp [Mono.sym, Mono.exp, Dict.get, hn]
      · intro s
        by_cases hs : s = b
        · subst hs; simp [Mono.sym, Mono.exp, Dict.get, hn]
        · simp [Mono.sym, Mono.exp, Dict.get, hs, hn]
  | number v raw =>
    intro m h
    refine ⟨m, h, ?_⟩
    have hz : ∀ s, m.exp s = 0 := by
      simp only [Node.toMono] at h
      cases hv : v.toRat with
      | error e => rw [hv] at h; cases h
      | ok q => rw [hv] at h; cases h; intro s; rfl
    exact ⟨by rw [hz]; simp, fun s => by rw [hz, hz]; simp⟩
  | unhandled => intro m h; cases h
  | mul l r hl hr =>
    intro m h
    simp only [Node.toMono] at h
    cases h1 : l.toMono with
    | error e => rw [h1] at h; cases h
    | ok x =>
      rw [h1] at h
      cases h2 : r.toMono with
      | error e => simp only [bind, Except.bind, h2] at h; cases h
      | ok y =>
        simp only [bind, Except.bind, h2] at h; cases h
        obtain ⟨x', e1, s1⟩ := hl h1
        obtain ⟨y', e2, s2⟩ := hr h2
        refine ⟨x'.mul y', by simp only [Node.inline, Node.toMono, e1, e2]; rfl, ?_⟩
        exact sub_mul hM (toMono_wf h1) (toMono_wf e1) (toMono_wf h2) (toMono_wf e2) s1 s2
  | div l r hl hr =>
    intro m h
    simp only [Node.toMono] at h
    cases h1 : l.toMono with
    | error e => rw [h1] at h; cases h
    | ok x =>
      rw [h1] at h
      cases h2 : r.toMono with
      | error e => simp only [bind, Except.bind, h2] at h; cases h
      | ok y =>
        simp only [bind, Except.bind, h2] at h
        obtain ⟨x', e1, s1⟩ := hl h1
        obtain ⟨y', e2, s2⟩ := hr h2
        obtain ⟨k', hk, hs⟩ := sub_div hM (toMono_wf h1) (toMono_wf e1) (toMono_wf h2) (toMono_wf e2) s1 s2 h
        exact ⟨k', by simp only [Node.inline, Node.toMono, e1, e2]; exact hk, hs⟩
  | raise l r hl hr =>
    intro m h
    simp only [Node.toMono] at h
    cases h1 : l.toMono with
    | error e => rw [h1] at h; cases h
    | ok x =>
      rw [h1] at h
      cases h2 : r.asExponent with
      | error e => simp only [bind, Except.bind, h2] at h; cases h
      | ok i =>
        simp only [bind, Except.bind, h2] at h
        obtain ⟨x', e1, s1⟩ := hl h1
        obtain ⟨k', hk, hs⟩ := sub_pow hM (toMono_wf h1) (toMono_wf e1) s1 h
        exact ⟨k', by simp only [Node.inline, Node.toMono, e1, asExponent_inline h2]; exact hk, hs⟩
  | shift => intro m h; cases h
  | log => intro m h; cases h

/-! ## Value transformations -/

/-- related steps -/
inductive SubOp (b : Str) (M : Mono) : TOp → TOp → Prop
  | scale {m m' : Mono} : Sub b M m m' → SubOp b M (.scale m) (.scale m')
  | sub (q : Rat) : SubOp b M (.sub q) (.sub q)
  | log (k : Option Nat) : SubOp b M (.log k) (.log k)

theorem mkScale_sub (hM : M.coef ≠ 0) {m m' : Mono} {o : TOp} (hs : Sub b M m m') (h : TOp.mkScale m = .ok o) :
    ∃ o', TOp.mkScale m' = .ok o' ∧ SubOp b M o o' := by
  unfold TOp.mkScale at h ⊢
  by_cases hc : m.coef = 0
  · rw [if_pos hc] at h; cases h
  · rw [if_neg hc] at h; cases h
    rw [if_neg (mt (hs.zero_iff hM).1 hc)]
    exact ⟨_, rfl, .scale hs⟩

theorem ops_inline (hM : M.coef ≠ 0) (hR : R.toMono = .ok M) : ∀ (t : Trans) {l : List TOp}, t.ops = .ok l →
    ∃ l', (transInline b R t).ops = .ok l' ∧ List.Forall₂ (SubOp b M) l l' := by
  intro t
  induction t with
  | value => intro l h; cases h; exact ⟨[], rfl, .nil⟩
  | shift t f ih =>
    intro l h
    simp only [Trans.ops] at h
    cases h1 : t.ops with
    | error e => rw [h1] at h; cases h
    | ok o =>
      rw [h1] at h
      simp only [bind, Except.bind] at h
      obtain ⟨o', e1, f1⟩ := ih h1
      cases f with
      | number v raw =>
        simp only at h
        cases hv : v.toRat with
        | error e => rw [hv] at h; cases h
        | ok q =>
          rw [hv] at h; cases h
          refine ⟨o' ++ [.sub q], ?_, List.rel_append f1 (.cons (.sub q) .nil)⟩
          simp only [transInline, Node.inline, Trans.ops, e1, hv, bind, Except.bind]
      | _ => cases h
  | mulR t d ih =>
    intro l h
    simp only [Trans.ops] at h
    cases h1 : t.ops with
    | error e => rw [h1] at h; cases h
    | ok o =>
      rw [h1] at h
      cases h2 : d.toMono with
      | error e => simp only [bind, Except.bind, h2] at h; cases h
      | ok m =>
        simp only [bind, Except.bind, h2] at h
        cases h3 : TOp.mkScale m with
        | error e => rw [h3] at h; cases h
        | ok s =>
          rw [h3] at h; cases h
          obtain ⟨o', e1, f1⟩ := ih h1
          obtain ⟨m', e2, f2⟩ := toMono_inline (b := b) hM hR d h2
          obtain ⟨s', e3, f3⟩ := mkScale_sub hM f2 h3
          refine ⟨o' ++ [s'], ?_, List.rel_append f1 (.cons f3 .nil)⟩
          simp only [transInline, Trans.ops, e1, e2, e3, bind, Except.bind]
  | mulL d t ih =>
    intro l h
    simp only [Trans.ops] at h
    cases h2 : d.toMono with
    | error e => rw [h2] at h; cases h
    | ok m =>
      rw [h2] at h
      cases h1 : t.ops with
      | error e => simp only [bind, Except.bind, h1] at h; cases h
      | ok o =>
        simp only [bind, Except.bind, h1] at h
        cases h3 : TOp.mkScale m with
        | error e => rw [h3] at h; cases h
        | ok s =>
          rw [h3] at h; cases h
          obtain ⟨o', e1, f1⟩ := ih h1
          obtain ⟨m', e2, f2⟩ := toMono_inline (b := b) hM hR d h2
          obtain ⟨s', e3, f3⟩ := mkScale_sub hM f2 h3
          refine ⟨o' ++ [s'], ?_, List.rel_append f1 (.cons f3 .nil)⟩
          simp only [transInline, Trans.ops, e1, e2, e3, bind, Except.bind]
  | log fn t ih =>
    intro l h
    simp only [Trans.ops] at h
    cases h2 : logBase fn with
    | error e => rw [h2] at h; cases h
    | ok k =>
      rw [h2] at h
      cases h1 : t.ops with
      | error e => simp only [bind, Except.bind, h1] at h; cases h
      | ok o =>
        simp only [bind, Except.bind, h1] at h
        cases h
        obtain ⟨o', e1, f1⟩ := ih h1
        refine ⟨o' ++ [.log k], ?_, List.rel_append f1 (.cons (.log k) .nil)⟩
        simp only [transInline, Trans.ops, e1, h2, bind, Except.bind]

theorem symDef_inline (hM : M.coef ≠ 0) (hR : R.toMono = .ok M) (hs : ∀ root, R.split root = .ok (none, R)) {e : Node} {t : List TOp}
    {d : Mono} (h : e.symDef = .ok (t, d)) :
    ∃ t' d', (e.inline b R).symDef = .ok (t', d') ∧ List.Forall₂ (SubOp b M) t t' ∧ Sub b M d d' := by
  obtain ⟨ot, n, h1, h2, h3⟩ := symDef_iff.1 h
  obtain ⟨d', e3, f3⟩ := toMono_inline (b := b) hM hR n h3
  have e1 := split_inline (b := b) hs e true h1
  cases ot with
  | none =>
    cases h2
    exact ⟨[], d', symDef_iff.2 ⟨none, _, e1, rfl, e3⟩, .nil, f3⟩
  | some tr =>
    obtain ⟨l', e2, f2⟩ := ops_inline (b := b) hM hR tr h2
    exact ⟨l', d', symDef_iff.2 ⟨_, _, e1, e2, e3⟩, f2, f3⟩

/-! ## Running -/

/-- a value that carries the exponents `w`, when `M` stands for `b` -/
structure SubVal (b : Str) (M : Mono) (w : Str → Int) (y : ℝ) (w' : Str → Int) (y' : ℝ) : Prop where
  val : y' = y * (M.coef : ℝ) ^ w b
  exp : ∀ s, w' s = (if s = b then 0 else w s) + w b * M.exp s

theorem subVal_zero {y : ℝ} : SubVal b M (fun _ => 0) y (fun _ => 0) y := ⟨by simp, fun s => by simp⟩

theorem SubVal.of_zero {y y' : ℝ} {w' : Str → Int} (h : SubVal b M (fun _ => 0) y w' y') : w' = (fun _ => 0) ∧ y' = y :=
  ⟨funext fun s => by rw [h.exp]; simp, by rw [h.val]; simp⟩

/-- related steps of a conversion -/
inductive SubC (b : Str) (M : Mono) : COp → COp → Prop
  | scale {m m' : Mono} : Sub b M m m' → SubC b M (.scale m) (.scale m')
  | same {o : COp} : (∀ m, o ≠ .scale m) → o ≠ .recip → SubC b M o o

theorem invert_sub (hM : M.coef ≠ 0) {o o' : TOp} (g : o.Good) (g' : o'.Good) (h : SubOp b M o o') {c : COp} (hc : o.invert = .ok c) :
    ∃ c', o'.invert = .ok c' ∧ SubC b M c c' := by
  cases h with
  | scale hs =>
    rename_i m m'
    simp only [TOp.invert] at hc
    cases hi : m.inv with
    | error e => rw [hi] at hc; cases hc
    | ok k =>
      rw [hi] at hc; cases hc
      obtain ⟨k', e1, s1⟩ := sub_inv hM g.1 g'.1 hs hi
      exact ⟨.scale k', by simp only [TOp.invert, e1]; rfl, .scale s1⟩
  | sub q => cases hc; exact ⟨_, rfl, .same (by intro m h; cases h) (by intro h; cases h)⟩
  | log k => cases hc; exact ⟨_, rfl, .same (by intro m h; cases h) (by intro h; cases h)⟩

theorem invertAll_sub (hM : M.coef ≠ 0) {t t' : List TOp} (h : List.Forall₂ (SubOp b M) t t') (g : ∀ o ∈ t, o.Good)
    (g' : ∀ o ∈ t', o.Good) : ∀ {l : List COp}, invertAll t = .ok l → ∃ l', invertAll t' = .ok l' ∧ List.Forall₂ (SubC b M) l l' := by
  induction h with
  | nil => intro l hl; cases hl; exact ⟨[], rfl, .nil⟩
  | cons ho _ ih =>
    rename_i o o' t t' _
    intro l hl
    simp only [invertAll] at hl
    cases h1 : invertAll t with
    | error e => rw [h1] at hl; cases hl
    | ok rest =>
      rw [h1] at hl
      cases h2 : o.invert with
      | error e => simp only [bind, Except.bind, h2] at hl; cases hl
      | ok c =>
        simp only [bind, Except.bind, h2] at hl; cases hl
        obtain ⟨rest', e1, f1⟩ := ih (fun o ho => g o (List.mem_cons_of_mem _ ho)) (fun o ho => g' o (List.mem_cons_of_mem _ ho)) h1
        obtain ⟨c', e2, f2⟩ := invert_sub hM (g _ (List.mem_cons_self ..)) (g' _ (List.mem_cons_self ..)) ho h2
        exact ⟨rest' ++ [c'], by simp only [invertAll, e1, e2, bind, Except.bind], List.rel_append f1 (.cons f2 .nil)⟩

theorem run_sub (hM : M.coef ≠ 0) {l l' : List COp} (h : List.Forall₂ (SubC b M) l l') : ∀ {w w1 v : Str → Int} {x y u : ℝ},
    Flow w l w1 → run1 l x = .ok y → SubVal b M w x v u → ∃ w1' y', Flow v l' w1' ∧ run1 l' u = .ok y' ∧ SubVal b M w1 y w1' y' := by
  have hMr : (M.coef : ℝ) ≠ 0 := by exact_mod_cast hM
  induction h with
  | nil =>
    intro w w1 v x y u hf hr hv
    cases hr
    have hf' : w = w1 := hf
    subst hf'
    exact ⟨v, u, rfl, rfl, hv⟩
  | cons ho _ ih =>
    rename_i o o' l l' _
    intro w w1 v x y u hf hr hv
    cases ho with
    | scale hs =>
      rename_i m m'
      have hf' : Flow (fun s => w s + m.exp s) l w1 := hf
      have hr' : run1 l ((m.coef : ℝ) * x) = .ok y := hr
      have hv' : SubVal b M (fun s => w s + m.exp s) ((m.coef : ℝ) * x) (fun s => v s + m'.exp s) ((m'.coef : ℝ) * u) := by
        constructor
        · rw [hs.coef, hv.val, zpow_add₀ hMr]; push_cast; ring
        · intro s
          simp only [hv.exp, hs.exp]
          split <;> ring
      obtain ⟨w1', y', a1, a2, a3⟩ := ih hf' hr' hv'
      exact ⟨w1', y', a1, a2, a3⟩
    | same h1 h2 =>
      cases o with
      | scale m => exact absurd rfl (h1 m)
      | recip => exact absurd rfl h2
      | _ =>
        obtain ⟨hw, hf'⟩ := hf
        subst hw
        obtain ⟨rfl, rfl⟩ := hv.of_zero
        rw [run1] at hr
        cases hz : COp.run1 _ u with
        | error e => rw [hz] at hr; cases hr
        | ok z =>
          rw [hz] at hr
          obtain ⟨w1', y', a1, a2, a3⟩ := ih hf' (show run1 l z = .ok y from hr) subVal_zero
          refine ⟨w1', y', ⟨rfl, a1⟩, ?_, a3⟩
          rw [run1, hz]; exact a2

/-- The quantity denoted, when `r` stands for the basis unit `b`. -/
theorem base_rebase {r : Ref} (hr : r.expand = .ok R) (hp : ∀ root, R.split root = .ok (none, R)) (hR : R.toMono = .ok M)
    (hM : M.coef ≠ 0) {a : Ref} (hc : a.Closed) {x q : ℝ} {E : Str → Int} (h : Base (.unit a) x q E) :
    ∃ E', Base (.unit (a.rebase b r)) x (q * (M.coef : ℝ) ^ E b) E' ∧ ∀ s, E' s = (if s = b then 0 else E s) + E b * M.exp s := by
  have hMr : (M.coef : ℝ) ≠ 0 := by exact_mod_cast hM
  obtain ⟨t, d, l, w, y, h1, h2, h3, h4, h5, h6, h7⟩ := h
  have h1' : a.symDef = .ok (t, d) := h1
  have hg := obj_symDef_good h1
  unfold Ref.symDef at h1'
  cases he : a.expand with
  | error e => rw [he] at h1'; cases h1'
  | ok e =>
    rw [he] at h1'
    obtain ⟨t', d', e1, f1, f2⟩ := symDef_inline (b := b) hM hR hp (show e.symDef = .ok (t, d) from h1')
    have e1' : (UObj.unit (a.rebase b r)).symDef = .ok (t', d') := by
      change (a.rebase b r).symDef = _
      unfold Ref.symDef
      rw [expand_rebase hr a hc he]; exact e1
    have hg' := obj_symDef_good e1'
    obtain ⟨l', e3, f3⟩ := invertAll_sub hM f1 hg.1 hg'.1 h3
    obtain ⟨w', y', e4, e5, f4⟩ := run_sub hM f3 h4 h5 subVal_zero
    refine ⟨fun s => w' s + d'.exp s, ⟨t', d', l', w', y', e1', mt (f2.zero_iff hM).1 h2, e3, e4, e5, ?_, rfl⟩, ?_⟩
    · rw [h6, f4.val, f2.coef, h7]; push_cast; rw [zpow_add₀ hMr]; ring
    · intro s; subst h7; simp only [f4.exp, f2.exp]; split <;> ring

end Verif.Rebase
