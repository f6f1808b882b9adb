import Verif.Model.ParserDepth
import Verif.Spec.Depth
import Verif.Lemmas.ParseAlone
/-!
# The visitor's frames: what it needs, and that this is linear in the number of tokens
-/

namespace Verif.PSim
open ParserTable
set_option maxRecDepth 100000

mutual
/-- the frames the visitor needs for a tree -/
def PTree.frames : PTree → Nat
  | .term _ _ => 2
  | .rule idx ts => if idx = 8 then 2 else 4 + PTree.framesAll ts
def PTree.framesAll : List PTree → Nat
  | [] => 0
  | t :: ts => max t.frames (PTree.framesAll ts)
end

mutual
theorem visitLim_eq (L : Nat) : ∀ (t : PTree) (v : Val), visit t = .ok v →
    (t.frames ≤ L → visitLim L t = .ok v) ∧ (L < t.frames → visitLim L t = .error .recursionError)
  | .term k c, v, h => by
    simp only [visit] at h
    rw [PTree.frames, visitLim]
    exact ⟨fun hL => by rw [if_neg (by omega)]; exact h, fun hL => by rw [if_pos hL]⟩
  | .rule idx ts, v, h => by
    simp only [visit] at h
    rw [PTree.frames, visitLim]
    by_cases h8 : idx = 8
    · simp only [h8, if_true] at h ⊢
      exact ⟨fun hL => by rw [if_neg (by omega)]; exact h, fun hL => by rw [if_pos hL]⟩
    · simp only [h8, if_false] at h ⊢
      by_cases hL : L < 4
      · exact ⟨fun h => (by omega), fun _ => by rw [if_pos hL]⟩
      · rw [if_neg hL]
        cases hv : visitAll ts with
        | error e => rw [hv] at h; cases h
        | ok vs =>
          rw [hv] at h
          obtain ⟨h1, h2⟩ := visitAllLim_eq (L - 4) ts vs hv
          exact ⟨fun hf => by rw [h1 (by omega)]; exact h, fun hf => by rw [h2 (by omega)]⟩
theorem visitAllLim_eq (L : Nat) : ∀ (ts : List PTree) (vs : List Val), visitAll ts = .ok vs →
    (PTree.framesAll ts ≤ L → visitAllLim L ts = .ok vs) ∧
      (L < PTree.framesAll ts → visitAllLim L ts = .error .recursionError)
  | [], vs, h => by
    simp only [visitAll] at h
    rw [PTree.framesAll, visitAllLim]
    exact ⟨fun _ => h, fun h => (by omega)⟩
  | t :: ts, vs, h => by
    simp only [visitAll] at h
    cases hv : visit t with
    | error e => rw [hv] at h; cases h
    | ok v =>
      rw [hv] at h
      dsimp only at h
      cases hw : visitAll ts with
      | error e => rw [hw] at h; cases h
      | ok ws =>
        rw [hw] at h
        cases h
        obtain ⟨a1, a2⟩ := visitLim_eq L t v hv
        obtain ⟨b1, b2⟩ := visitAllLim_eq L ts ws hw
        rw [PTree.framesAll, visitAllLim]
        refine ⟨fun hL => by rw [a1 (by omega), b1 (by omega)], fun hL => ?_⟩
        by_cases h1 : t.frames ≤ L
        · rw [a1 h1, b2 (by omega)]
        · rw [a2 (by omega)]
end

/-- the visitor raises no `SyntaxError` -/
theorem visitTerm_syntax (k : Int) (c : Str) : visitTerm k c ≠ .error .syntaxError := by
  unfold visitTerm
  repeat' split
  all_goals exact fun h => by cases h

theorem visitRule_syntax (idx : Nat) (vs : List Val) : visitRule idx vs ≠ .error .syntaxError := by
  unfold visitRule
  split
  · unfold visitUnit; split <;> exact fun h => by cases h
  · unfold visitShift; split <;> exact fun h => by cases h
  · unfold visitProduct; split <;> exact fun h => by cases h
  · unfold visitPower; split <;> exact fun h => by cases h
  · unfold visitLogarithm; split <;> exact fun h => by cases h
  · exact fun h => by cases h

mutual
theorem visit_syntax : ∀ t : PTree, visit t ≠ .error .syntaxError
  | .term k c => by simp only [visit]; exact visitTerm_syntax k c
  | .rule idx ts => by
    simp only [visit]
    split
    · exact fun h => by cases h
    · cases hv : visitAll ts with
      | error e => exact fun h => visitAll_syntax ts (by cases h; exact hv)
      | ok vs => exact visitRule_syntax idx vs
theorem visitAll_syntax : ∀ ts : List PTree, visitAll ts ≠ .error .syntaxError
  | [] => by simp only [visitAll]; exact fun h => by cases h
  | t :: ts => by
    simp only [visitAll]
    cases hv : visit t with
    | error e => exact fun h => visit_syntax t (by cases h; exact hv)
    | ok v =>
      cases hw : visitAll ts with
      | error e => exact fun h => visitAll_syntax ts (by cases h; exact hw)
      | ok vs => exact fun h => by cases h
end

/-! ## The expression is no deeper than the tree -/

mutual
/-- the depth of a value -/
def Val.depth : Val → Nat
  | .none | .str _ => 0
  | .node n => n.depth
  | .list vs => Val.depthAll vs
def Val.depthAll : List Val → Nat
  | [] => 0
  | v :: vs => max v.depth (Val.depthAll vs)
end

theorem unwrap_depth : ∀ v : Val, v.unwrap.depth ≤ v.depth := by
  intro v
  fun_induction Val.unwrap v with
  | case1 v ih => simp only [Val.depth, Val.depthAll]; omega
  | case2 v h => exact Nat.le_refl _

theorem filter_depth (p : Val → Bool) : ∀ vs : List Val, Val.depthAll (vs.filter p) ≤ Val.depthAll vs
  | [] => Nat.le_refl _
  | v :: vs => by
    have := filter_depth p vs
    rw [List.filter_cons]
    split <;> simp only [Val.depthAll] <;> omega

theorem aggregate_depth (vs : List Val) : (aggregate vs).depth ≤ Val.depthAll vs := by
  unfold aggregate
  refine Nat.le_trans (unwrap_depth _) ?_
  rw [Val.depth]
  exact filter_depth _ vs

theorem rule_depth {idx : Nat} {vs : List Val} {v : Val} (h : visitRule idx vs = .ok v) : v.depth ≤ Val.depthAll vs + 1 := by
  have ha := aggregate_depth vs
  unfold visitRule at h
  generalize aggregate vs = a at h ha
  split at h
  · unfold visitUnit at h
    split at h <;> cases h <;> first | omega | (simp only [Val.depth, Node.depth]; omega)
  · unfold visitShift at h
    split at h <;> cases h <;> first | omega | (simp only [Val.depth, Val.depthAll, Node.depth] at ha ⊢; omega)
  · unfold visitProduct at h
    split at h <;> cases h <;> first | omega | (simp only [Val.depth, Val.depthAll, Node.depth] at ha ⊢; omega)
  · unfold visitPower at h
    split at h <;> cases h <;> first | omega | (simp only [Val.depth, Val.depthAll, Node.depth] at ha ⊢; omega)
  · unfold visitLogarithm at h
    split at h <;> cases h <;> first | omega | (simp only [Val.depth, Val.depthAll, Node.depth] at ha ⊢; omega)
  · cases h; omega

theorem term_depth {k : Int} {c : Str} {v : Val} (h : visitTerm k c = .ok v) : v.depth = 0 := by
  unfold visitTerm at h
  have hf : ∀ {n}, floatNode c = some n → n.depth = 0 := by
    intro n h
    unfold floatNode at h
    revert h
    cases Dec.parse c <;> intro h <;> cases h
    rfl
  have hi : ∀ {n}, intNode c = some n → n.depth = 0 := by
    intro n h
    unfold intNode at h
    revert h
    cases parseInt? c <;> intro h <;> cases h
    rfl
  repeat' split at h
  all_goals first
    | (cases h; done)
    | (cases h; rfl)
    | (cases h; exact hf ‹_›)
    | (cases h; exact hi ‹_›)

mutual
theorem visit_depth : ∀ (t : PTree) (v : Val), visit t = .ok v → 4 * v.depth ≤ t.frames
  | .term k c, v, h => by
    simp only [visit] at h
    rw [term_depth h, PTree.frames]
    omega
  | .rule idx ts, v, h => by
    simp only [visit] at h
    rw [PTree.frames]
    split at h
    next h8 => cases h; rw [if_pos h8]; simp only [Val.depth, Node.depth]; omega
    next h8 =>
      rw [if_neg h8]
      cases hv : visitAll ts with
      | error e => rw [hv] at h; cases h
      | ok vs =>
        rw [hv] at h
        have := visitAll_depth ts vs hv
        have := rule_depth h
        omega
theorem visitAll_depth : ∀ (ts : List PTree) (vs : List Val), visitAll ts = .ok vs → 4 * Val.depthAll vs ≤ PTree.framesAll ts
  | [], vs, h => by simp only [visitAll] at h; cases h; exact Nat.le_refl _
  | t :: ts, vs, h => by
    simp only [visitAll] at h
    cases hv : visit t with
    | error e => rw [hv] at h; cases h
    | ok v =>
      rw [hv] at h
      dsimp only at h
      cases hw : visitAll ts with
      | error e => rw [hw] at h; cases h
      | ok ws =>
        rw [hw] at h
        cases h
        have := visit_depth t v hv
        have := visitAll_depth ts ws hw
        rw [Val.depthAll, PTree.framesAll]
        omega
end

/-! ## The trees of the parser -/

/-- whatever the reads see, the result satisfies `Q` -/
def Leaves {α : Type} (Q : α → Prop) : CProg α → Prop
  | .done a => Q a
  | .read _ c => ∀ v, Leaves Q (c v)
  | .write _ _ c => Leaves Q c

theorem Leaves.bind {α β : Type} {Q : α → Prop} {Q' : β → Prop} {f : α → CProg β} (h : ∀ a, Q a → Leaves Q' (f a)) :
    ∀ {p : CProg α}, Leaves Q p → Leaves Q' (p.bind f) := by
  intro p
  induction p with
  | done a => exact h a
  | read k c ih => exact fun hp v => ih v (hp v)
  | write k v c ih => exact fun hp => ih hp

theorem Leaves.any {α : Type} : ∀ (p : CProg α), Leaves (fun _ => True) p := by
  intro p
  induction p with
  | done a => trivial
  | read k c ih => exact fun v => ih v
  | write k v c ih => exact ih

/-- the condition on an outcome: nothing is asked of errors -/
def GRes.Sat {τ : Type} (Q : τ → Toks → Prop) : GRes τ → Prop
  | .ok a s => Q a s
  | _ => True

/-- whatever is predicted: if the method returns from tokens `s`, then `Q s` holds of what it returns and the tokens left -/
def Ret {τ : Type} (g : G τ) (Q : Toks → τ → Toks → Prop) : Prop :=
  ∀ (R : Run) (c : GCtx) (s : Toks), Leaves (GRes.Sat (Q s)) (g R c s)

section
variable {τ τ' : Type} {g g' : G τ} {f : τ → G τ'} {Q : Toks → τ → Toks → Prop} {Q' : Toks → τ' → Toks → Prop}

theorem ret_bind {P : Toks → τ → Toks → Prop} (h : Ret g P)
    (hf : ∀ a, Ret (f a) fun s1 b s2 => ∀ s, P s a s1 → Q' s b s2) : Ret (g >>= f) Q' := by
  intro R c s
  refine Leaves.bind (Q := GRes.Sat (P s)) ?_ (h R c s)
  intro r hr
  cases r with
  | syntaxError => exact trivial
  | stuck => exact trivial
  | ok a s1 =>
    have := hf a R c s1
    show Leaves _ (f a R c s1)
    generalize f a R c s1 = p at this
    revert this
    induction p with
    | done x => intro h; cases x <;> first | trivial | exact h s hr
    | read k c ih => exact fun h v => ih v (h v)
    | write k v c ih => exact fun h => ih h

theorem Ret.mono {P : Toks → τ → Toks → Prop} (h : Ret g P) (hi : ∀ s a s', P s a s' → Q s a s') : Ret g Q := by
  intro R c s
  have := h R c s
  generalize g R c s = p at this
  revert this
  induction p with
  | done x => intro h; cases x <;> first | trivial | exact hi _ _ _ h
  | read k c ih => exact fun h v => ih v (h v)
  | write k v c ih => exact fun h => ih h

theorem ret_pure {a : τ} (h : ∀ s, Q s a s) : Ret (pure a : G τ) Q := fun _ _ s => h s
theorem ret_fail : Ret (G.fail : G τ) Q := fun _ _ _ => trivial
theorem ret_stuck : Ret (G.stuck : G τ) Q := fun _ _ _ => trivial
theorem ret_ite {b : Prop} [Decidable b] (h : Ret g Q) (h' : Ret g' Q) : Ret (if b then g else g') Q := by
  split <;> assumption
theorem ret_call {n : Nat} (h : Ret g Q) : Ret (G.call n g) Q := fun R c s => h R _ s
theorem ret_withPrec {n : Int} (h : Ret g Q) : Ret (G.withPrec n g) Q := fun R c s => h R _ s
theorem ret_remaining {f : Nat → G τ} (h : ∀ n, Ret (f n) Q) : Ret (G.remaining f) Q := fun R c s => h _ R c s

/-- the same tokens are left -/
def Keeps (s : Toks) (_ : τ) (s' : Toks) : Prop := s' = s
end

theorem ret_la : Ret G.la Keeps := fun _ _ _ => rfl
theorem ret_sync {n : Nat} : Ret (G.sync n) Keeps := fun R _ s => by
  show GRes.Sat _ _
  split <;> first | trivial | rfl
theorem ret_precpred {n : Int} : Ret (G.precpred n) Keeps := fun R _ s => by
  show GRes.Sat _ _
  split <;> first | trivial | rfl
theorem ret_predict {n : Nat} : Ret (G.predict n) Keeps := fun R c s => by
  refine Leaves.bind (Q := fun _ => True) ?_ (Leaves.any _)
  intro r _
  show GRes.Sat _ (G.predicted s r)
  match r with
  | some (some a) => rfl
  | some none => trivial
  | none => trivial

/-- a leaf for a token -/
def Leaf (s : Toks) (t : PTree) (s' : Toks) : Prop := t.frames = 2 ∧ s.length = s'.length + 1

theorem ret_tokIn {ks : List Int} : Ret (G.tokIn ks) Leaf := fun R _ s => by
  cases s with
  | nil => trivial
  | cons t ts =>
    show GRes.Sat _ (if _ then _ else _)
    split <;> first | trivial | exact ⟨by rw [PTree.frames], rfl⟩
theorem ret_tok {k : Int} (hk : k ≠ -1) : Ret (G.tok k) Leaf := fun R _ s => by
  cases s with
  | nil => show GRes.Sat _ (if _ then _ else _); rw [if_neg hk]; trivial
  | cons t ts =>
    show GRes.Sat _ (if _ then _ else _)
    split <;> first | trivial | exact ⟨by rw [PTree.frames], rfl⟩
theorem ret_eof : Ret (G.tok (-1)) fun s t s' => t.frames = 2 ∧ s'.length ≤ s.length := fun R _ s => by
  cases s with
  | nil => exact ⟨by rw [PTree.frames], Nat.le_refl _⟩
  | cons t ts =>
    show GRes.Sat _ (if _ then _ else _)
    split <;> first | trivial | exact ⟨by rw [PTree.frames], Nat.le_succ _⟩

end Verif.PSim
