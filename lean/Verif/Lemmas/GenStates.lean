import Verif.Lemmas.GenSim
/-!
# Going on from a state of the generated parser's automaton
-/

namespace Verif.PSim
open ParserTable
set_option maxRecDepth 100000

/-- whether a state is the end of a rule, and its transitions -/
def At (p : Nat) (b : Bool) (trs : List ATrans) : Prop :=
  (atn.states[p]?).map (fun st => (st.isRuleStop, st.trans)) = some (b, trs)

theorem At.get {p : Nat} {b : Bool} {trs : List ATrans} (h : At p b trs) :
    ∃ st, atn.states[p]? = some st ∧ st.isRuleStop = b ∧ st.trans = trs := by
  unfold At at h
  cases e : atn.states[p]? with
  | none => rw [e] at h; cases h
  | some st =>
    rw [e] at h
    simp only [Option.map_some, Option.some.injEq, Prod.mk.injEq] at h
    exact ⟨st, rfl, h.1, h.2⟩

theorem acc_iff {p : Nat} {trs : List ATrans} (h : At p false trs) {γ : List Nat} {w : List Int} :
    AtnAccepts atn p γ w ↔
      (∃ tr ∈ trs, ∃ q, tr.silent = some q ∧ AtnAccepts atn q γ w) ∨
      (∃ q r k f, ATrans.rule q r k f ∈ trs ∧ AtnAccepts atn q (f :: γ) w) ∨
      (∃ tr ∈ trs, ∃ t q w', w = t :: w' ∧ tr.reachable t = some q ∧ AtnAccepts atn q γ w') := by
  obtain ⟨st, hst, hs, rfl⟩ := h.get
  constructor
  · intro ha
    cases ha with
    | done h1 h2 => rw [hst] at h1; cases h1; rw [hs] at h2; cases h2
    | ret h1 h2 => rw [hst] at h1; cases h1; rw [hs] at h2; cases h2
    | silent h1 h2 h3 h4 => rw [hst] at h1; cases h1; exact Or.inl ⟨_, h2, _, h3, h4⟩
    | call h1 h2 h3 => rw [hst] at h1; cases h1; exact Or.inr (Or.inl ⟨_, _, _, _, h2, h3⟩)
    | tok h1 h2 h3 h4 => rw [hst] at h1; cases h1; exact Or.inr (Or.inr ⟨_, h2, _, _, _, rfl, h3, h4⟩)
  · rintro (⟨tr, h1, q, h2, h3⟩ | ⟨q, r, k, f, h1, h2⟩ | ⟨tr, h1, t, q, w', rfl, h2, h3⟩)
    · exact .silent hst h1 h2 h3
    · exact .call hst h1 h2
    · exact .tok hst h1 h2 h3

theorem V_alts {p : Nat} {qs : List Nat} (h : At p false (qs.map .epsilon)) {γ : List Nat} {ts : List Token} :
    V p γ ts ↔ ∃ q ∈ qs, V q γ ts := by
  unfold V
  rw [acc_iff h]
  constructor
  · rintro (⟨tr, h1, q, h2, h3⟩ | ⟨q, r, k, f, h1, h2⟩ | ⟨tr, h1, t, q, w', _, h2, h3⟩)
    · obtain ⟨q', hq, rfl⟩ := List.mem_map.1 h1
      cases h2
      exact ⟨_, hq, h3⟩
    · obtain ⟨q', _, h⟩ := List.mem_map.1 h1; cases h
    · obtain ⟨q', _, rfl⟩ := List.mem_map.1 h1; cases h2
  · rintro ⟨q, hq, h⟩
    exact Or.inl ⟨_, List.mem_map.2 ⟨q, hq, rfl⟩, q, rfl, h⟩

theorem V_eps {p q : Nat} (h : At p false [.epsilon q]) : V p = V q := by
  funext γ ts; apply propext
  rw [V_alts (qs := [q]) h]; simp

theorem V_two {p a b : Nat} (h : At p false [.epsilon a, .epsilon b]) : V p = orW (V a) (V b) := by
  funext γ ts; apply propext
  rw [V_alts (qs := [a, b]) h]; simp [orW]

theorem V_three {p a b c : Nat} (h : At p false [.epsilon a, .epsilon b, .epsilon c]) :
    V p = orW (V a) (orW (V b) (V c)) := by
  funext γ ts; apply propext
  rw [V_alts (qs := [a, b, c]) h]; simp [orW]

theorem V_four {p a b c d : Nat} (h : At p false [.epsilon a, .epsilon b, .epsilon c, .epsilon d]) :
    V p = orW (V a) (orW (V b) (orW (V c) (V d))) := by
  funext γ ts; apply propext
  rw [V_alts (qs := [a, b, c, d]) h]; simp [orW]

theorem V_five {p a b c d e : Nat} (h : At p false [.epsilon a, .epsilon b, .epsilon c, .epsilon d, .epsilon e]) :
    V p = orW (V a) (orW (V b) (orW (V c) (orW (V d) (V e)))) := by
  funext γ ts; apply propext
  rw [V_alts (qs := [a, b, c, d, e]) h]; simp [orW]

theorem V_act {p q : Nat} {a b : Int} (h : At p false [.action q a b]) : V p = V q := by
  funext γ ts; apply propext
  unfold V
  rw [acc_iff h]
  simp [ATrans.silent, ATrans.reachable]

theorem V_prec {p q : Nat} {k : Int} (h : At p false [.precedence q k]) (hk : 0 ≤ k) : V p = V q := by
  funext γ ts; apply propext
  unfold V
  rw [acc_iff h]
  simp [ATrans.silent, ATrans.reachable, hk]

theorem V_call {p q f : Nat} {r k : Int} (h : At p false [.rule q r k f]) : V p = fun γ => V q (f :: γ) := by
  funext γ ts; apply propext
  unfold V
  rw [acc_iff h]
  constructor
  · rintro (⟨tr, h1, q', h2, h3⟩ | ⟨q', r', k', f', h1, h2⟩ | ⟨tr, h1, t, q', w', _, h2, h3⟩)
    · rw [List.mem_singleton] at h1; subst h1; cases h2
    · rw [List.mem_singleton] at h1
      cases h1; exact h2
    · rw [List.mem_singleton] at h1; subst h1; cases h2
  · intro h
    exact Or.inr (Or.inl ⟨q, r, k, f, List.mem_singleton.2 rfl, h⟩)

theorem V_stop {p : Nat} (h : At p true []) (f : Nat) : (fun γ => V p (f :: γ)) = V f := by
  obtain ⟨st, hst, hs, ht⟩ := h.get
  funext γ ts; apply propext
  unfold V
  constructor
  · generalize word ts = w
    intro ha
    cases ha with
    | ret h1 h2 h3 => exact h3
    | silent h1 h2 => rw [hst] at h1; cases h1; rw [ht] at h2; cases h2
    | call h1 h2 => rw [hst] at h1; cases h1; rw [ht] at h2; cases h2
    | tok h1 h2 => rw [hst] at h1; cases h1; rw [ht] at h2; cases h2
  · intro ha
    exact .ret hst hs ha

theorem V_atom {p q : Nat} {l : Int} (kd : Kind) (h : At p false [.atom q l]) (hk : kd.id = l) : V p = tokW kd (V q) := by
  funext γ ts; apply propext
  unfold V tokW
  rw [acc_iff h]
  constructor
  · rintro (⟨tr, h1, q', h2, h3⟩ | ⟨q', r', k', f', h1, h2⟩ | ⟨tr, h1, t, q', w', hw, h2, h3⟩)
    · rw [List.mem_singleton] at h1; subst h1; cases h2
    · rw [List.mem_singleton] at h1; cases h1
    · rw [List.mem_singleton] at h1; subst h1
      simp only [ATrans.reachable] at h2
      split at h2
      next e =>
        cases h2
        subst e
        cases ts with
        | nil =>
          simp only [word, List.map_nil, List.nil_append, List.cons.injEq] at hw
          have := Kind.id_pos kd
          omega
        | cons x xs =>
          simp only [word, List.map_cons, List.cons_append, List.cons.injEq] at hw
          refine ⟨x, xs, rfl, Kind.id_inj (hw.1.trans hk.symm), ?_⟩
          show AtnAccepts atn q γ (word xs)
          unfold word
          rw [hw.2]; exact h3
      · cases h2
  · rintro ⟨t, ts', rfl, rfl, h⟩
    exact Or.inr (Or.inr ⟨_, List.mem_singleton.2 rfl, t.kind.id, q, word ts', rfl, by simp [ATrans.reachable, hk], h⟩)

theorem V_set2 {p q : Nat} {rs : List (Int × Int)} (k1 k2 : Kind) (h : At p false [.set q rs]) (hn : inIntervals (-1) rs = false)
    (hk : ∀ kd : Kind, inIntervals kd.id rs = true ↔ kd = k1 ∨ kd = k2) : V p = orW (tokW k1 (V q)) (tokW k2 (V q)) := by
  funext γ ts; apply propext
  unfold V orW tokW
  rw [acc_iff h]
  constructor
  · rintro (⟨tr, h1, q', h2, h3⟩ | ⟨q', r', k', f', h1, h2⟩ | ⟨tr, h1, t, q', w', hw, h2, h3⟩)
    · rw [List.mem_singleton] at h1; subst h1; cases h2
    · rw [List.mem_singleton] at h1; cases h1
    · rw [List.mem_singleton] at h1; subst h1
      simp only [ATrans.reachable] at h2
      split at h2
      next e =>
        cases h2
        cases ts with
        | nil =>
          simp only [word, List.map_nil, List.nil_append, List.cons.injEq] at hw
          rw [← hw.1, hn] at e; cases e
        | cons x xs =>
          simp only [word, List.map_cons, List.cons_append, List.cons.injEq] at hw
          rw [← hw.1] at e
          have h3' : AtnAccepts atn q γ (word xs) := by unfold word; rw [hw.2]; exact h3
          rcases (hk _).1 e with e | e
          · exact Or.inl ⟨x, xs, rfl, e, h3'⟩
          · exact Or.inr ⟨x, xs, rfl, e, h3'⟩
      · cases h2
  · have key : ∀ t ts', ts = t :: ts' → (t.kind = k1 ∨ t.kind = k2) → AtnAccepts atn q γ (word ts') →
        ∃ tr ∈ [ATrans.set q rs], ∃ t q w', word ts = t :: w' ∧ tr.reachable t = some q ∧ AtnAccepts atn q γ w' := by
      rintro t ts' rfl hkd h
      exact ⟨_, List.mem_singleton.2 rfl, t.kind.id, q, word ts', rfl, by simp [ATrans.reachable, (hk _).2 hkd], h⟩
    rintro (⟨t, ts', e, hkd, h⟩ | ⟨t, ts', e, hkd, h⟩)
    · exact Or.inr (Or.inr (key t ts' e (Or.inl hkd) h))
    · exact Or.inr (Or.inr (key t ts' e (Or.inr hkd) h))

/-! ## First tokens -/

def nextsOf (p : Nat) : List Int := nexts.getD p []

def checkNext (p : Nat) (st : AState) : Bool :=
  if st.isRuleStop then (follows atn st.rule).all fun f => (nextsOf f).all fun t => decide (t ∈ nextsOf p)
  else st.trans.all fun tr => match tr with
    | .rule q _ _ _ => (nextsOf q).all fun t => decide (t ∈ nextsOf p)
    | .atom _ l => decide (l ∈ nextsOf p)
    | .set _ rs => rs.all fun (a, b) => (List.range (b - a + 1).toNat).all fun k => decide (a + (k : Int) ∈ nextsOf p)
    | .epsilon q | .action q _ _ | .precedence q _ => (nextsOf q).all fun t => decide (t ∈ nextsOf p)
    | _ => false

theorem check_next : (atn.states.zipIdx.all fun (st, p) => checkNext p st) = true := by decide +kernel

theorem next_of_acc {p : Nat} {γ : List Nat} {w : List Int} (h : AtnAccepts atn p γ w) :
    TypedStack atn (ruleOf atn p) γ → ∀ t w', w = t :: w' → t ∈ nextsOf p := by
  induction h with
  | done => intro _ t w' h; cases h
  | @ret p st f γ w hst hs _ ih =>
    intro hty t w' hw
    have hc := List.all_eq_true.1 check_next _ (mem_states hst)
    simp only [checkNext, hs, if_true] at hc
    rw [ruleOf_eq hst] at hty
    have := List.all_eq_true.1 (List.all_eq_true.1 hc f hty.1) t (ih hty.2 t w' hw)
    simpa using this
  | @silent p st tr q γ w hst hm hsil _ ih =>
    intro hty t w' hw
    have hns : st.isRuleStop = false := by
      cases e : st.isRuleStop with
      | false => rfl
      | true => rw [(good.stop hst e).1] at hm; simp at hm
    have hc := List.all_eq_true.1 check_next _ (mem_states hst)
    simp only [checkNext, hns, Bool.false_eq_true, if_false] at hc
    have hc' := List.all_eq_true.1 hc tr hm
    have hq := ih (by rw [(good.silent hst hm hsil).2.1, ← ruleOf_eq hst]; exact hty) t w' hw
    cases tr with
    | epsilon q' => cases hsil; simpa using List.all_eq_true.1 hc' t hq
    | action q' a b => cases hsil; simpa using List.all_eq_true.1 hc' t hq
    | precedence q' k =>
      simp only [ATrans.silent] at hsil
      split at hsil
      · cases hsil; simpa using List.all_eq_true.1 hc' t hq
      · cases hsil
    | _ => cases hsil
  | @call p st q r k f γ w hst hm _ ih =>
    intro hty t w' hw
    have hns : st.isRuleStop = false := by
      cases e : st.isRuleStop with
      | false => rfl
      | true => rw [(good.stop hst e).1] at hm; simp at hm
    have hc := List.all_eq_true.1 check_next _ (mem_states hst)
    simp only [checkNext, hns, Bool.false_eq_true, if_false] at hc
    have hc' := List.all_eq_true.1 hc _ hm
    have hG := good.call hst hm
    have hq := ih ⟨hG.2.2.1, by rw [hG.2.1, ← ruleOf_eq hst]; exact hty⟩ t w' hw
    simpa using List.all_eq_true.1 hc' t hq
  | @tok p st tr t q γ w hst hm hr _ _ =>
    intro _ t' w' hw
    obtain ⟨rfl, rfl⟩ := List.cons.inj hw
    have hns : st.isRuleStop = false := by
      cases e : st.isRuleStop with
      | false => rfl
      | true => rw [(good.stop hst e).1] at hm; simp at hm
    have hc := List.all_eq_true.1 check_next _ (mem_states hst)
    simp only [checkNext, hns, Bool.false_eq_true, if_false] at hc
    have hc' := List.all_eq_true.1 hc _ hm
    cases tr with
    | atom q' l =>
      simp only [ATrans.reachable] at hr
      split at hr
      next e => subst e; simpa using hc'
      · cases hr
    | set q' rs =>
      simp only [ATrans.reachable] at hr
      split at hr
      next e =>
        simp only [inIntervals, List.any_eq_true] at e
        obtain ⟨⟨a, b⟩, hab, e⟩ := e
        simp only [Bool.and_eq_true, decide_eq_true_eq] at e
        have := List.all_eq_true.1 hc' _ hab
        have := List.all_eq_true.1 this (t - a).toNat (by rw [List.mem_range]; omega)
        simp only [decide_eq_true_eq] at this
        have e2 : a + ((t - a).toNat : Int) = t := by omega
        rw [e2] at this; exact this
      · cases hr
    | _ => first | cases hr | cases hc'

/-- the tokens that can come next in a state -/
theorem fst_V {p : Nat} {r : Int} (hr : ruleOf atn p = r) : Fst r (V p) (nextsOf p) := by
  intro γ ts hty h
  obtain ⟨w, hw⟩ := word_eq ts
  exact next_of_acc h (by rw [hr]; exact hty) _ w hw

end Verif.PSim
