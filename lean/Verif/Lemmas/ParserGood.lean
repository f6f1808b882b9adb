import Verif.Lemmas.ParserTable
import Verif.Lemmas.Prediction
/-!
# The kernel checks the automaton of the generated parser
-/

namespace Verif.PSim
open ParserTable
set_option maxRecDepth 100000

theorem parser_atn : deserialize parserAtnData = some atn := by decide +kernel

def rank (p : Nat) : Nat := ranks.getD p 0

theorem mem_states {A : Atn} {p : Nat} {st : AState} (h : A.states[p]? = some st) : (st, p) ∈ A.states.zipIdx := by
  rw [List.mem_zipIdx_iff_getElem?]; exact h

/-- what is checked of a transition -/
def checkTrans (p : Nat) (st : AState) : ATrans → Bool
  | .epsilon q => rank q < rank p && ruleOf atn q == st.rule && q != 26 && (q != 1 || p == 26)
  | .action q _ _ => rank q < rank p && ruleOf atn q == st.rule && q != 26 && (q != 1 || p == 26)
  | .precedence q k => decide (0 ≤ k) && rank q < rank p && ruleOf atn q == st.rule && q != 26 && (q != 1 || p == 26)
  | .rule q _ _ f => rank q < rank p && ruleOf atn f == st.rule && decide (f ∈ follows atn (ruleOf atn q)) && q != 26 && q != 1
  | .atom q l => ruleOf atn q == st.rule && q != 1 && ((q == 26) == (l == -1))
  | .set q rs => ruleOf atn q == st.rule && q != 1 && q != 26 && !inIntervals (-1) rs
  | _ => false

theorem check_trans : (atn.states.zipIdx.all fun (st, p) => st.trans.all (checkTrans p st)) = true := by decide +kernel

theorem trans_ok {p : Nat} {st : AState} {tr : ATrans} (h : atn.states[p]? = some st) (hm : tr ∈ st.trans) :
    checkTrans p st tr = true := by
  have := List.all_eq_true.1 check_trans _ (mem_states h)
  exact List.all_eq_true.1 this tr hm

/-- what is checked of the end of a rule -/
def checkStop (p : Nat) (st : AState) : Bool :=
  !st.isRuleStop || (st.trans == [] && (st.rule != 0 || p == 1) &&
    ((follows atn st.rule).all fun f => rank f < rank p && f != 26 && f != 1) && (p == 1 || follows atn st.rule != []))

theorem check_stop : (atn.states.zipIdx.all fun (st, p) => checkStop p st) = true := by decide +kernel

theorem stop_ok {p : Nat} {st : AState} (h : atn.states[p]? = some st) (hs : st.isRuleStop = true) :
    st.trans = [] ∧ (st.rule = 0 → p = 1) ∧ (∀ f ∈ follows atn st.rule, rank f < rank p ∧ f ≠ 26 ∧ f ≠ 1) ∧
      (p ≠ 1 → follows atn st.rule ≠ []) := by
  have := List.all_eq_true.1 check_stop _ (mem_states h)
  simp only [checkStop, hs, Bool.not_true, Bool.false_or, Bool.and_eq_true, beq_iff_eq, Bool.or_eq_true, bne_iff_ne,
    List.all_eq_true, decide_eq_true_eq] at this
  obtain ⟨⟨⟨h1, h2⟩, h3⟩, h4⟩ := this
  refine ⟨h1, fun e => ?_, fun f hf => ⟨(h3 f hf).1.1, (h3 f hf).1.2, (h3 f hf).2⟩, fun e => ?_⟩
  · rcases h2 with h | h
    · exact absurd e h
    · exact h
  · rcases h4 with h | h
    · exact absurd h e
    · exact h

theorem check_loop : (atn.states.zipIdx.all fun (st, _) => st.type != 10 ||
    (follows atn st.rule).all fun f => ruleOf atn f != st.rule) = true := by decide +kernel

theorem check_rank : (ranks.all fun r => r < closureFuel atn) = true := by decide +kernel

/-- the automaton of the generated parser has the properties used -/
theorem good : Good atn rank where
  rk_lt p := by
    unfold rank
    rw [List.getD_eq_getElem?_getD]
    cases h : ranks[p]? with
    | none => exact Nat.succ_pos _
    | some r => simpa using List.all_eq_true.1 check_rank r (List.mem_of_getElem? h)
  kinds h hm := by
    have := trans_ok h hm
    rename_i tr
    cases tr with
    | precedence q k =>
      simp only [checkTrans, Bool.and_eq_true, decide_eq_true_eq] at this
      refine ⟨fun _ => Or.inl ?_, by intro h; cases h⟩
      simp only [ATrans.silent, this.1.1.1.1, if_true, Option.isSome_some]
    | rule q r k f => exact ⟨fun _ => Or.inr ⟨q, r, k, f, rfl⟩, by intro h; cases h⟩
    | epsilon q => exact ⟨fun _ => Or.inl rfl, by intro h; cases h⟩
    | action q a b => exact ⟨fun _ => Or.inl rfl, by intro h; cases h⟩
    | atom q l => exact ⟨(by intro h; cases h), fun _ => rfl⟩
    | set q l => exact ⟨(by intro h; cases h), fun _ => rfl⟩
    | _ => cases this
  silent h hm hs := by
    have := trans_ok h hm
    rename_i p st tr q
    cases tr with
    | epsilon q' =>
      simp only [ATrans.silent, Option.some.injEq] at hs; subst hs
      simp only [checkTrans, Bool.and_eq_true, decide_eq_true_eq, beq_iff_eq, bne_iff_ne, Bool.or_eq_true] at this
      exact ⟨this.1.1.1, this.1.1.2, this.1.2, fun e => this.2.resolve_left (fun h => h e)⟩
    | action q' a b =>
      simp only [ATrans.silent, Option.some.injEq] at hs; subst hs
      simp only [checkTrans, Bool.and_eq_true, decide_eq_true_eq, beq_iff_eq, bne_iff_ne, Bool.or_eq_true] at this
      exact ⟨this.1.1.1, this.1.1.2, this.1.2, fun e => this.2.resolve_left (fun h => h e)⟩
    | precedence q' k =>
      simp only [checkTrans, Bool.and_eq_true, decide_eq_true_eq, beq_iff_eq, bne_iff_ne, Bool.or_eq_true] at this
      simp only [ATrans.silent, this.1.1.1.1, if_true, Option.some.injEq] at hs; subst hs
      exact ⟨this.1.1.1.2, this.1.1.2, this.1.2, fun e => this.2.resolve_left (fun h => h e)⟩
    | _ => cases hs
  call h hm := by
    have := trans_ok h hm
    simp only [checkTrans, Bool.and_eq_true, decide_eq_true_eq, beq_iff_eq, bne_iff_ne] at this
    exact ⟨this.1.1.1.1, this.1.1.1.2, this.1.1.2, this.1.2, this.2⟩
  tok h hm hr := by
    have := trans_ok h hm
    rename_i p st tr t q
    cases tr with
    | atom q' l =>
      simp only [ATrans.reachable] at hr
      split at hr
      next e =>
        simp only [Option.some.injEq] at hr; subst hr
        simp only [checkTrans, Bool.and_eq_true, beq_iff_eq, bne_iff_ne] at this
        refine ⟨this.1.1, this.1.2, ?_⟩
        have h2 := this.2
        rw [Bool.eq_iff_iff, beq_iff_eq, beq_iff_eq] at h2
        rw [h2, e]
      · cases hr
    | set q' rs =>
      simp only [ATrans.reachable] at hr
      split at hr
      next e =>
        simp only [Option.some.injEq] at hr; subst hr
        simp only [checkTrans, Bool.and_eq_true, beq_iff_eq, bne_iff_ne, Bool.not_eq_true'] at this
        refine ⟨this.1.1.1, this.1.1.2, fun h => absurd h this.1.2, fun h => ?_⟩
        rw [h, this.2] at e; cases e
      · cases hr
    | epsilon q' => cases hr
    | action q' a b => cases hr
    | precedence q' k => cases hr
    | rule q' a b c => cases hr
    | _ => cases this
  stop h hs := ⟨(stop_ok h hs).1, (stop_ok h hs).2.1⟩
  follow h hs hf := (stop_ok h hs).2.2.1 _ hf
  stop_follow h hs hp := (stop_ok h hs).2.2.2 hp
  loop h ht hf := by
    have := List.all_eq_true.1 check_loop _ (mem_states h)
    simp only [ht, bne_self_eq_false, Bool.false_or, List.all_eq_true, bne_iff_ne] at this
    exact this _ hf
  no_follow := by decide +kernel
  last := ⟨⟨1, 0, 0, false, false, [.epsilon 1]⟩, rfl, rfl, rfl, rfl, by decide⟩
  final := ⟨⟨7, 0, 0, false, false, []⟩, rfl, rfl, rfl⟩

/-- the states of the decisions that are predicted -/
def stateAt (p : Nat) : AState := (atn.states[p]?).getD ⟨0, 0, 0, false, false, []⟩

theorem targets_ok {st : AState} (h : (altTargets st).all (fun (q, _) => ATrans.epsilon q ∈ st.trans) = true) :
    ∀ q i, (q, i) ∈ altTargets st → ATrans.epsilon q ∈ st.trans := by
  intro q i hm
  simpa using List.all_eq_true.1 h _ hm

theorem decision48 : GoodDecision atn 48 (stateAt 48) :=
  ⟨rfl, by decide, targets_ok (by decide +kernel), by intro h; exact absurd h (by decide +kernel)⟩
theorem decision68 : GoodDecision atn 68 (stateAt 68) :=
  ⟨rfl, by decide, targets_ok (by decide +kernel), by intro h; exact absurd h (by decide +kernel)⟩
theorem decision84 : GoodDecision atn 84 (stateAt 84) :=
  ⟨rfl, by decide, targets_ok (by decide +kernel), by intro h; exact absurd h (by decide +kernel)⟩
theorem decision147 : GoodDecision atn 147 (stateAt 147) :=
  ⟨rfl, by decide, targets_ok (by decide +kernel), by intro h; exact absurd h (by decide +kernel)⟩
theorem decision70 : GoodDecision atn 70 (stateAt 70) :=
  ⟨rfl, by decide, targets_ok (by decide +kernel), fun _ => by decide +kernel⟩

end Verif.PSim
