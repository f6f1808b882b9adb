import Verif.Model.Expander
import Verif.Spec.Expand
import Verif.Lemmas.Numbers
/-!
# Expanding products: sorting, values, normal form
-/

namespace Verif
open Spec

/-! ### The order of strings and keys -/

theorem strLe_total (a b : Str) : strLe a b = true ∨ strLe b a = true := by
  induction a generalizing b with
  | nil => left; rfl
  | cons x a ih =>
    cases b with
    | nil => right; rfl
    | cons y b =>
      simp only [strLe, cond_eq_ite, Nat.blt_eq]
      by_cases h1 : x.toNat < y.toNat
      · simp [h1]
      · by_cases h2 : y.toNat < x.toNat
        · simp [h2]
        · simp only [h1, h2, if_false]; exact ih b

theorem strLe_trans {a b c : Str} (h1 : strLe a b = true) (h2 : strLe b c = true) : strLe a c = true := by
  induction a generalizing b c with
  | nil => rfl
  | cons x a ih =>
    cases b with
    | nil => cases h1
    | cons y b =>
      cases c with
      | nil => cases h2
      | cons z c =>
        simp only [strLe, cond_eq_ite, Nat.blt_eq] at h1 h2 ⊢
        split at h1
        · rename_i hxy
          split at h2
          · rw [if_pos (by omega)]
          · split at h2
            · cases h2
            · rw [if_pos (by omega)]
        · split at h1
          · cases h1
          · split at h2
            · rw [if_pos (by omega)]
            · split at h2
              · cases h2
              · rw [if_neg (by omega), if_neg (by omega)]; exact ih h1 h2

theorem strLe_antisymm {a b : Str} (h1 : strLe a b = true) (h2 : strLe b a = true) : a = b := by
  induction a generalizing b with
  | nil => cases b with
    | nil => rfl
    | cons y b => cases h2
  | cons x a ih =>
    cases b with
    | nil => cases h1
    | cons y b =>
      simp only [strLe, cond_eq_ite, Nat.blt_eq] at h1 h2
      by_cases hxy : x.toNat < y.toNat
      · rw [if_neg (by omega), if_pos hxy] at h2; cases h2
      · by_cases hyx : y.toNat < x.toNat
        · rw [if_neg hxy, if_pos hyx] at h1; cases h1
        · rw [if_neg hxy, if_neg hyx] at h1
          rw [if_neg hyx, if_neg hxy] at h2
          have hx : x = y := Char.toNat_inj.1 (by omega)
          rw [ih h1 h2, hx]

theorem strLe_refl (a : Str) : strLe a a = true := (strLe_total a a).elim id id

theorem keyLe_total (a b : Str × Str) : keyLe a b = true ∨ keyLe b a = true := by
  unfold keyLe
  by_cases h : a.1 = b.1
  · rw [if_pos h, if_pos h.symm]; exact strLe_total _ _
  · rw [if_neg h, if_neg (fun e => h e.symm)]; exact strLe_total _ _

theorem keyLe_trans {a b c : Str × Str} (h1 : keyLe a b = true) (h2 : keyLe b c = true) : keyLe a c = true := by
  unfold keyLe at *
  by_cases hab : a.1 = b.1
  · rw [if_pos hab] at h1
    by_cases hbc : b.1 = c.1
    · rw [if_pos hbc] at h2
      rw [if_pos (hab.trans hbc)]; exact strLe_trans h1 h2
    · rw [if_neg hbc] at h2
      rw [if_neg (by rw [hab]; exact hbc), hab]; exact h2
  · rw [if_neg hab] at h1
    by_cases hbc : b.1 = c.1
    · rw [if_pos hbc] at h2
      rw [if_neg (by rw [← hbc]; exact hab), ← hbc]; exact h1
    · rw [if_neg hbc] at h2
      by_cases hac : a.1 = c.1
      · exfalso
        rw [← hac] at h2
        exact hab (strLe_antisymm h1 h2)
      · rw [if_neg hac]; exact strLe_trans h1 h2

theorem keyLe_ne {a b : Str × Str} (h : a.1 ≠ b.1) : keyLe a b = strLe a.1 b.1 := if_neg h

/-! ### Sorting -/

def itemLe (a b : Node × PyVal) : Prop := keyLe (sortKey a.1) (sortKey b.1) = true

theorem insertItem_perm (x : Node × PyVal) (c : Chain) : (insertItem x c).Perm (x :: c) := by
  induction c with
  | nil => exact .refl _
  | cons y c ih =>
    unfold insertItem
    cases keyLe (sortKey x.1) (sortKey y.1) with
    | true => exact .refl _
    | false => exact (ih.cons y).trans (.swap x y c)

theorem sortItems_perm (c : Chain) : (sortItems c).Perm c := by
  induction c with
  | nil => exact .refl _
  | cons x c ih => exact (insertItem_perm x _).trans (ih.cons x)

theorem insertItem_sorted (x : Node × PyVal) {c : Chain} (h : c.Pairwise itemLe) : (insertItem x c).Pairwise itemLe := by
  induction c with
  | nil => simp [insertItem]
  | cons y c ih =>
    unfold insertItem
    obtain ⟨h1, h2⟩ := List.pairwise_cons.1 h
    cases hk : keyLe (sortKey x.1) (sortKey y.1) with
    | true =>
      refine List.pairwise_cons.2 ⟨?_, h⟩
      intro z hz
      rcases List.mem_cons.1 hz with rfl | hz
      · exact hk
      · exact keyLe_trans hk (h1 z hz)
    | false =>
      refine List.pairwise_cons.2 ⟨?_, ih h2⟩
      intro z hz
      rcases List.mem_cons.1 ((insertItem_perm x c).mem_iff.1 hz) with rfl | hz
      · rcases keyLe_total (sortKey z.1) (sortKey y.1) with h | h
        · rw [hk] at h; cases h
        · exact h
      · exact h1 z hz

theorem sortItems_sorted (c : Chain) : (sortItems c).Pairwise itemLe := by
  induction c with
  | nil => exact .nil
  | cons x c ih => exact insertItem_sorted x ih

theorem sortedChain_perm (c : Chain) : (sortedChain c).Perm c := (sortItems_perm _).trans c.reverse_perm

theorem sortedChain_sorted (c : Chain) : (sortedChain c).Pairwise itemLe := sortItems_sorted _

/-! ### Weights -/

section Weights
variable {G : Type} [CommGroup G]

/-- numbers and identifiers -/
def IsTerm : Node → Prop
  | .number (.int _) _ | .number (.dec _) _ | .ident _ => True
  | _ => False

/-- a weight of terminals that is respected by everything the expander does with them -/
structure Weight (T : Node → Prop) (w : Node → G) : Prop where
  term : ∀ n, T n → IsTerm n
  eq : ∀ a b, T a → T b → termEq a b = true → w a = w b
  mul : ∀ v r v' r' k u, T (.number v r) → T (.number v' r') → termEq (.number v r) (.number v' r') = false →
    v.mulPow v' k = .ok u → T (.number u none) ∧ w (.number u none) = w (.number v r) * w (.number v' r') ^ k

/-- the weight of a term -/
def termW (w : Node → G) : Node → G
  | .raise n (.number (.int e) _) => w n ^ e
  | t => w t

/-- a term of an expansion -/
def TermOk (T : Node → Prop) (t : Node) : Prop := T t ∨ ∃ n e, t = .raise n (.number (.int e) none) ∧ T n

theorem termW_term {T : Node → Prop} (hT : ∀ n, T n → IsTerm n) {w : Node → G} {t : Node} (h : T t) : termW w t = w t := by
  have := hT t h
  cases t <;> first | rfl | cases this

theorem powTerm_ok {T : Node → Prop} (hT : ∀ n, T n → IsTerm n) {w : Node → G} {n : Node} (h : T n) (k : Int) :
    TermOk T (powTerm n (.int k)) ∧ termW w (powTerm n (.int k)) = w n ^ k := by
  unfold powTerm
  split
  · rename_i hk
    cases hk
    exact ⟨Or.inl h, by rw [termW_term hT h, zpow_one]⟩
  · exact ⟨Or.inr ⟨n, k, rfl, h⟩, rfl⟩

theorem combined_ok {T : Node → Prop} (hT : ∀ n, T n → IsTerm n) {w : Node → G} {n : Node} (h : T n) (k : Int) {rest : List Node}
    (hr : ∀ t ∈ rest, TermOk T t) :
    (∀ t ∈ combined n (.int k) rest, TermOk T t) ∧
      ((combined n (.int k) rest).map (termW w)).prod = w n ^ k * (rest.map (termW w)).prod := by
  unfold combined
  split
  · rename_i hk
    cases hk
    exact ⟨hr, by rw [zpow_zero, one_mul]⟩
  · obtain ⟨h1, h2⟩ := powTerm_ok hT (w := w) h k
    refine ⟨?_, by rw [List.map_cons, List.prod_cons, h2]⟩
    intro t ht
    rcases List.mem_cons.1 ht with rfl | ht
    · exact h1
    · exact hr t ht

/-- one step keeps the weight, unless it multiplies two numbers -/
theorem expandStep_cases {T : Node → Prop} (hT : ∀ n, T n → IsTerm n) {w : Node → G}
    (heq : ∀ a b, T a → T b → termEq a b = true → w a = w b) {terms terms' : List Node} {node : Node} {k : Int}
    (ht : ∀ t ∈ terms, TermOk T t) (hn : T node) (h : expandStep terms node (.int k) = .ok terms') :
    ((∀ t ∈ terms', TermOk T t) ∧ (terms'.map (termW w)).prod = (terms.map (termW w)).prod * w node ^ k) ∨
    ∃ v r v' r' j u rest, terms = .number v r :: rest ∧ node = .number v' r' ∧ k = ((j + 1 : Nat) : Int) ∧ T (.number v r) ∧
      termEq (.number v r) (.number v' r') = false ∧ v.mulPow v' (j + 1) = .ok u ∧ terms' = .number u none :: rest := by
  unfold expandStep at h
  split at h
  · rename_i hk
    cases hk; cases h
    exact Or.inl ⟨ht, by rw [zpow_zero, mul_one]⟩
  · have hp := powTerm_ok hT (w := w) hn k
    cases terms with
    | nil =>
      cases h
      refine Or.inl ⟨?_, by simp [hp.2]⟩
      intro t h'; rw [List.mem_singleton.1 h']; exact hp.1
    | cons last rest =>
      have hrest : ∀ t ∈ rest, TermOk T t := fun t h' => ht t (List.mem_cons_of_mem _ h')
      have hlast := ht last (List.mem_cons_self ..)
      have hpush : (∀ t ∈ powTerm node (.int k) :: last :: rest, TermOk T t) ∧
          ((powTerm node (.int k) :: last :: rest).map (termW w)).prod = ((last :: rest).map (termW w)).prod * w node ^ k := by
        refine ⟨?_, by rw [List.map_cons, List.prod_cons, hp.2, mul_comm]⟩
        intro t h'
        rcases List.mem_cons.1 h' with rfl | h'
        · exact hp.1
        · exact ht t h'
      simp only at h
      split at h
      · rename_i hc
        rw [Bool.and_eq_true] at hc
        simp only [PyVal.add, bind, Except.bind] at h
        cases h
        have hl : T last := by
          rcases hlast with hl | ⟨n, e, rfl, _⟩
          · exact hl
          · cases hc.1
        obtain ⟨g1, g2⟩ := combined_ok hT (w := w) hn (k + 1) hrest
        refine Or.inl ⟨g1, ?_⟩
        rw [g2, List.map_cons, List.prod_cons, termW_term hT hl, heq last node hl hn hc.2, zpow_add, zpow_one]
        rw [mul_comm (w node ^ k), mul_assoc, mul_assoc, mul_comm (w node ^ k)]
      · rename_i hc
        split at h
        · -- two numbers
          rename_i v r v' r' j hk
          split at h
          · have hl : T (.number v r) := by
              rcases hlast with hl | ⟨n, e, h', _⟩
              · exact hl
              · cases h'
            simp only [bind, Except.bind] at h
            cases hm : v.mulPow v' (j + 1) with
            | error e => rw [hm] at h; cases h
            | ok u =>
              rw [hm] at h
              cases h
              have hne : termEq (.number v r) (.number v' r') = false := by
                cases he : termEq (.number v r) (.number v' r') with
                | false => rfl
                | true => exact absurd (by simp [Node.isTerminal, he]) hc
              exact Or.inr ⟨v, r, v', r', j, u, rest, rfl, rfl, PyVal.int.inj hk, hl, hne, hm, rfl⟩
          · cases h; exact Or.inl hpush
        · -- a^n · a^m
          rename_i node _ _ _ lhs e raw
          have hl : ∃ i, e = .int i ∧ raw = none ∧ T lhs := by
            rcases hlast with hl | ⟨n, i, h', hn'⟩
            · exact absurd (hT _ hl) (by simp [IsTerm])
            · cases h'; exact ⟨i, rfl, rfl, hn'⟩
          obtain ⟨i, rfl, rfl, hl⟩ := hl
          split at h
          · rename_i he
            simp only [Num.asPyVal, PyVal.add, bind, Except.bind] at h
            have hlw : w lhs = w node := heq lhs node hl hn he
            have hcalc : ((Node.raise lhs (.number (.int i) none) :: rest).map (termW w)).prod * w node ^ k =
                w node ^ (i + k) * (rest.map (termW w)).prod := by
              rw [List.map_cons, List.prod_cons, termW, hlw, zpow_add, mul_assoc, mul_assoc, mul_comm (w node ^ k)]
            rw [hcalc]
            left
            split at h
            · rename_i h1
              have h1 : i + k = 1 := PyVal.int.inj h1
              cases h
              refine ⟨?_, by rw [List.map_cons, List.prod_cons, termW_term hT hl, hlw, h1, zpow_one]⟩
              intro t h'
              rcases List.mem_cons.1 h' with rfl | h'
              · exact Or.inl hl
              · exact hrest t h'
            · cases h
              exact combined_ok hT hn (i + k) hrest
          · cases h; exact Or.inl hpush
        · cases h; exact Or.inl hpush

theorem expandStep_weight {T : Node → Prop} {w : Node → G} (hw : Weight T w) {terms terms' : List Node} {node : Node} {k : Int}
    (ht : ∀ t ∈ terms, TermOk T t) (hn : T node) (h : expandStep terms node (.int k) = .ok terms') :
    (∀ t ∈ terms', TermOk T t) ∧ (terms'.map (termW w)).prod = (terms.map (termW w)).prod * w node ^ k := by
  rcases expandStep_cases hw.term hw.eq ht hn h with h' | ⟨v, r, v', r', j, u, rest, rfl, rfl, rfl, hl, hne, hm, rfl⟩
  · exact h'
  · obtain ⟨g1, g2⟩ := hw.mul v r v' r' (j + 1) u hl hn hne hm
    refine ⟨?_, ?_⟩
    · intro t h'
      rcases List.mem_cons.1 h' with rfl | h'
      · exact Or.inl g1
      · exact ht t (List.mem_cons_of_mem _ h')
    · rw [List.map_cons, List.prod_cons, List.map_cons, List.prod_cons, termW_term hw.term g1, termW_term hw.term hl, g2, zpow_natCast]
      rw [mul_assoc, mul_comm (w (Node.number v' r') ^ (j + 1)), ← mul_assoc]

/-- a chain of terminals with integer powers -/
def ChainOk (T : Node → Prop) (c : Chain) : Prop := ∀ x ∈ c, T x.1 ∧ ∃ k, x.2 = .int k

/-- the weight of a chain -/
def chainW (w : Node → G) : Chain → G
  | [] => 1
  | (n, .int k) :: c => w n ^ k * chainW w c
  | (_, .str _) :: c => chainW w c

theorem chainW_append (w : Node → G) (a b : Chain) : chainW w (a ++ b) = chainW w a * chainW w b := by
  induction a with
  | nil => simp [chainW]
  | cons x a ih =>
    obtain ⟨n, k⟩ := x
    cases k with
    | int k => simp [chainW, ih, mul_assoc]
    | str s => simp [chainW, ih]

theorem chainW_perm (w : Node → G) {a b : Chain} (h : a.Perm b) : chainW w a = chainW w b := by
  have hmap : ∀ c : Chain, chainW w c = (c.map fun x => chainW w [x]).prod := by
    intro c
    induction c with
    | nil => rfl
    | cons x c ih =>
      have : chainW w (x :: c) = chainW w ([x] ++ c) := rfl
      rw [this, chainW_append, List.map_cons, List.prod_cons, ih]
  rw [hmap, hmap]
  exact (h.map _).prod_eq

theorem expandLoop_weight {T : Node → Prop} {w : Node → G} (hw : Weight T w) {c : Chain} (hc : ChainOk T c)
    {terms terms' : List Node} (ht : ∀ t ∈ terms, TermOk T t) (h : expandLoop c terms = .ok terms') :
    (∀ t ∈ terms', TermOk T t) ∧ (terms'.map (termW w)).prod = (terms.map (termW w)).prod * chainW w c := by
  induction c generalizing terms with
  | nil => rw [expandLoop] at h; cases h; exact ⟨ht, by simp [chainW]⟩
  | cons x c ih =>
    obtain ⟨node, k⟩ := x
    obtain ⟨hn, k, rfl⟩ := hc _ (List.mem_cons_self ..)
    rw [expandLoop] at h
    simp only [bind, Except.bind] at h
    cases hs : expandStep terms node (.int k) with
    | error e => rw [hs] at h; cases h
    | ok t1 =>
      rw [hs] at h
      obtain ⟨g1, g2⟩ := expandStep_weight hw ht hn hs
      obtain ⟨g3, g4⟩ := ih (fun x hx => hc x (List.mem_cons_of_mem _ hx)) g1 h
      refine ⟨g3, ?_⟩
      rw [g4, g2, chainW, mul_assoc]

/-- the terms of a chain have its weight -/
theorem terms_weight {T : Node → Prop} {w : Node → G} (hw : Weight T w) {c : Chain} (hc : ChainOk T c) {r : Node}
    (h : Chain.terms c = .ok r) :
    ∃ ts, r = productOf ts ∧ (∀ t ∈ ts, TermOk T t) ∧ (ts.map (termW w)).prod = chainW w c := by
  unfold Chain.terms at h
  simp only [bind, Except.bind] at h
  cases hl : expandLoop (sortedChain c) [] with
  | error e => rw [hl] at h; cases h
  | ok ts =>
    rw [hl] at h
    cases h
    have hc' : ChainOk T (sortedChain c) := fun x hx => hc x ((sortedChain_perm c).mem_iff.1 hx)
    obtain ⟨g1, g2⟩ := expandLoop_weight hw hc' (by simp) hl
    exact ⟨ts, rfl, g1, by rw [g2]; simp [chainW_perm w (sortedChain_perm c)]⟩

/-- the weight of a product expression -/
def nodeW (w : Node → G) : Node → G
  | .mul l r => nodeW w l * nodeW w r
  | .div l r => nodeW w l / nodeW w r
  | .raise l (.number (.int i) _) => nodeW w l ^ i
  | t => w t

theorem nodeW_term {T : Node → Prop} (hT : ∀ n, T n → IsTerm n) {w : Node → G} {t : Node} (h : TermOk T t) : nodeW w t = termW w t := by
  have key : ∀ n, T n → nodeW w n = w n := by
    intro n hn
    have := hT n hn
    cases n <;> first | rfl | cases this
  rcases h with h | ⟨n, e, rfl, h⟩
  · rw [key t h, termW_term hT h]
  · rw [nodeW, termW, key n h]

theorem nodeW_productOf {T : Node → Prop} (hT : ∀ n, T n → IsTerm n) {w : Node → G} (h1 : w (.number (.int 1) none) = 1) {ts : List Node}
    (ht : ∀ t ∈ ts, TermOk T t) : nodeW w (productOf ts) = (ts.map (termW w)).prod := by
  have key : ∀ (ts : List Node) (acc : Node), (∀ t ∈ ts, TermOk T t) →
      nodeW w (ts.foldl (fun acc t => .mul t acc) acc) = nodeW w acc * (ts.map (termW w)).prod := by
    intro ts
    induction ts with
    | nil => intro acc _; simp
    | cons t ts ih =>
      intro acc ht
      rw [List.foldl_cons, ih _ (fun t h => ht t (List.mem_cons_of_mem _ h)), nodeW, nodeW_term hT (ht t (List.mem_cons_self ..)),
        List.map_cons, List.prod_cons, mul_comm (termW w t), mul_assoc]
  cases ts with
  | nil => exact h1
  | cons t ts =>
    rw [productOf, key _ _ (fun t h => ht t (List.mem_cons_of_mem _ h)), nodeW_term hT (ht t (List.mem_cons_self ..)),
      List.map_cons, List.prod_cons]

/-- all numbers and identifiers of an expression satisfy `T` -/
def AllT (T : Node → Prop) (e : Node) : Prop := (∀ q ∈ literals e, T (.number q.1 q.2)) ∧ ∀ n, T (.ident n)

theorem chainNeg_ok {T : Node → Prop} (w : Node → G) {c : Chain} (hc : ChainOk T c) :
    ∃ c', chainNeg c = .ok c' ∧ ChainOk T c' ∧ chainW w c' = (chainW w c)⁻¹ := by
  induction c with
  | nil => exact ⟨[], rfl, (by intro x hx; cases hx), by simp [chainW]⟩
  | cons x c ih =>
    obtain ⟨n, k⟩ := x
    obtain ⟨hn, k, rfl⟩ := hc _ (List.mem_cons_self ..)
    obtain ⟨c', h1, h2, h3⟩ := ih fun x hx => hc x (List.mem_cons_of_mem _ hx)
    refine ⟨(n, .int (-k)) :: c', by simp [chainNeg, h1, bind, Except.bind], ?_, ?_⟩
    · intro x hx
      rcases List.mem_cons.1 hx with rfl | hx
      · exact ⟨hn, _, rfl⟩
      · exact h2 x hx
    · rw [chainW, chainW, h3, mul_inv, zpow_neg]

theorem chainScale_ok {T : Node → Prop} (w : Node → G) (i : Int) {c : Chain} (hc : ChainOk T c) :
    ∃ c', chainScale (.int i) c = .ok c' ∧ ChainOk T c' ∧ chainW w c' = chainW w c ^ i := by
  induction c with
  | nil => exact ⟨[], rfl, (by intro x hx; cases hx), by simp [chainW]⟩
  | cons x c ih =>
    obtain ⟨n, k⟩ := x
    obtain ⟨hn, k, rfl⟩ := hc _ (List.mem_cons_self ..)
    obtain ⟨c', h1, h2, h3⟩ := ih fun x hx => hc x (List.mem_cons_of_mem _ hx)
    refine ⟨(n, .int (k * i)) :: c', by simp [chainScale, h1, bind, Except.bind, Num.asPyVal, PyVal.mul], ?_, ?_⟩
    · intro x hx
      rcases List.mem_cons.1 hx with rfl | hx
      · exact ⟨hn, _, rfl⟩
      · exact h2 x hx
    · rw [chainW, chainW, h3, mul_zpow, zpow_mul]

/-- what the visitor collects from a product expression -/
theorem expandChains_product {T : Node → Prop} (w : Node → G) {e : Node} (hp : Product e) (ht : AllT T e) :
    ∃ c, expandChains e = .ok (c, []) ∧ ChainOk T c ∧ chainW w c = nodeW w e := by
  induction e with
  | number v raw =>
    refine ⟨_, rfl, ?_, by simp [chainW, nodeW]⟩
    intro x hx
    rw [List.mem_singleton.1 hx]
    exact ⟨ht.1 (v, raw) (List.mem_singleton.2 rfl), 1, rfl⟩
  | ident n =>
    refine ⟨_, rfl, ?_, by simp [chainW, nodeW]⟩
    intro x hx
    rw [List.mem_singleton.1 hx]
    exact ⟨ht.2 n, 1, rfl⟩
  | unhandled s => exact hp.elim
  | mul l r ihl ihr =>
    obtain ⟨c1, a1, a2, a3⟩ := ihl hp.1 ⟨fun q h => ht.1 q (List.mem_append_left _ h), ht.2⟩
    obtain ⟨c2, b1, b2, b3⟩ := ihr hp.2 ⟨fun q h => ht.1 q (List.mem_append_right _ h), ht.2⟩
    refine ⟨c1 ++ c2, by simp [expandChains, a1, b1, bind, Except.bind], ?_, by rw [chainW_append, a3, b3, nodeW]⟩
    intro x hx
    rcases List.mem_append.1 hx with hx | hx
    · exact a2 x hx
    · exact b2 x hx
  | div l r ihl ihr =>
    obtain ⟨c1, a1, a2, a3⟩ := ihl hp.1 ⟨fun q h => ht.1 q (List.mem_append_left _ h), ht.2⟩
    obtain ⟨c2, b1, b2, b3⟩ := ihr hp.2 ⟨fun q h => ht.1 q (List.mem_append_right _ h), ht.2⟩
    obtain ⟨c3, d1, d2, d3⟩ := chainNeg_ok w b2
    refine ⟨c1 ++ c3, by simp [expandChains, a1, b1, d1, bind, Except.bind], ?_,
      by rw [chainW_append, a3, d3, b3, nodeW, div_eq_mul_inv]⟩
    intro x hx
    rcases List.mem_append.1 hx with hx | hx
    · exact a2 x hx
    · exact d2 x hx
  | raise l r ihl _ =>
    obtain ⟨hl, i, raw, rfl⟩ := hp
    obtain ⟨c1, a1, a2, a3⟩ := ihl hl ⟨ht.1, ht.2⟩
    obtain ⟨c2, b1, b2, b3⟩ := chainScale_ok w i a2
    exact ⟨c2, by simp [expandChains, a1, b1, bind, Except.bind, chainScale], b2, by rw [b3, a3, nodeW]⟩
  | shift u f _ _ => exact hp.elim
  | log b t _ => exact hp.elim

/-- the result of expanding a product expression -/
theorem expander_weight {T : Node → Prop} {w : Node → G} (hw : Weight T w) (h1 : w (.number (.int 1) none) = 1) {e r : Node}
    (hp : Product e) (ht : AllT T e) (h : expand e = .ok r) :
    nodeW w r = nodeW w e ∧ ∃ ts, r = productOf ts ∧ ∀ t ∈ ts, TermOk T t := by
  obtain ⟨c, hc, hok, hcw⟩ := expandChains_product w hp ht
  unfold expand expandWith at h
  simp only [hc, bind, Except.bind, List.nil_append, if_true] at h
  cases htm : Chain.terms c with
  | error e => rw [htm] at h; cases h
  | ok t =>
    rw [htm] at h
    have hr : t = r := Except.ok.inj h
    subst hr
    obtain ⟨ts, rfl, h2, h3⟩ := terms_weight hw hok htm
    exact ⟨by rw [nodeW_productOf hw.term h1 h2, h3, hcw], ts, rfl, h2⟩

end Weights

/-! ### Totality -/

/-- two numbers that satisfy `T` and differ can be multiplied -/
def MulOk (T : Node → Prop) : Prop :=
  ∀ v r v' r' k, T (.number v r) → T (.number v' r') → termEq (.number v r) (.number v' r') = false → v.sameType v' = true →
    ∃ u, v.mulPow v' k = .ok u

theorem expandStep_total {T : Node → Prop} (hw : Weight (G := Multiplicative Int) T fun _ => 1) (hm : MulOk T) {terms : List Node}
    {node : Node} {k : Int} (ht : ∀ t ∈ terms, TermOk T t) (hn : T node) : ∃ ts, expandStep terms node (.int k) = .ok ts := by
  unfold expandStep
  split
  · exact ⟨_, rfl⟩
  · cases terms with
    | nil => exact ⟨_, rfl⟩
    | cons last rest =>
      have hlast := ht last (List.mem_cons_self ..)
      simp only
      split
      · exact ⟨_, rfl⟩
      · rename_i hc
        split
        · rename_i v r v' r' j heq
          split
          · rename_i hs
            have hl : T (.number v r) := by
              rcases hlast with hl | ⟨n, e, h', _⟩
              · exact hl
              · cases h'
            have hne : termEq (.number v r) (.number v' r') = false := by
              cases he : termEq (.number v r) (.number v' r') with
              | false => rfl
              | true => exact absurd (by simp [Node.isTerminal, he]) hc
            obtain ⟨u, hu⟩ := hm v r v' r' (j + 1) hl hn hne hs
            exact ⟨.number u none :: rest, by simp only [hu, bind, Except.bind]⟩
          · exact ⟨_, rfl⟩
        · rename_i node _ _ _ lhs e raw
          have hl : ∃ i, e = .int i := by
            rcases hlast with hl | ⟨n, i, h', hn'⟩
            · exact absurd (hw.term _ hl) (by simp [IsTerm])
            · cases h'; exact ⟨i, rfl⟩
          obtain ⟨i, rfl⟩ := hl
          split
          · exact ⟨_, rfl⟩
          · exact ⟨_, rfl⟩
        · exact ⟨_, rfl⟩

theorem expandLoop_total {T : Node → Prop} (hw : Weight (G := Multiplicative Int) T fun _ => 1) (hm : MulOk T) {c : Chain}
    (hc : ChainOk T c) {terms : List Node} (ht : ∀ t ∈ terms, TermOk T t) : ∃ ts, expandLoop c terms = .ok ts := by
  induction c generalizing terms with
  | nil => exact ⟨_, rfl⟩
  | cons x c ih =>
    obtain ⟨node, k⟩ := x
    obtain ⟨hn, k, rfl⟩ := hc _ (List.mem_cons_self ..)
    obtain ⟨t1, h1⟩ := expandStep_total hw hm (k := k) ht hn
    obtain ⟨ts, h2⟩ := ih (fun x hx => hc x (List.mem_cons_of_mem _ hx)) (expandStep_weight hw ht hn h1).1
    exact ⟨ts, by rw [expandLoop]; simp only [h1, bind, Except.bind]; exact h2⟩

theorem expander_total {T : Node → Prop} (hw : Weight (G := Multiplicative Int) T fun _ => 1) (hm : MulOk T) {e : Node}
    (hp : Product e) (ht : AllT T e) : ∃ r, expand e = .ok r := by
  obtain ⟨c, hc, hok, -⟩ := expandChains_product (G := Multiplicative Int) (fun _ => 1) hp ht
  have hc' : ChainOk T (sortedChain c) := fun x hx => hok x ((sortedChain_perm c).mem_iff.1 hx)
  obtain ⟨ts, h⟩ := expandLoop_total hw hm hc' (terms := []) (by simp)
  exact ⟨productOf ts, by simp [expand, expandWith, hc, bind, Except.bind, Chain.terms, h]⟩

/-! ### The value -/

theorem numEq_toRat {a b : Dec} (h : a.numEq b = true) : a.toRat = b.toRat := by
  rw [decToRat, decToRat]
  unfold Dec.numEq at h
  simp only [beq_iff_eq] at h
  have key : ∀ d : Dec, min a.exp b.exp ≤ d.exp →
      (if d.neg then -1 else 1) * (d.coeff : Rat) * (10 : Rat) ^ d.exp =
        (((if d.neg then -1 else 1) * (d.coeff : Int) * 10 ^ (d.exp - min a.exp b.exp).toNat : Int) : Rat) *
          (10 : Rat) ^ (min a.exp b.exp) := by
    intro d hd
    have h10 : (10 : Rat) ≠ 0 := by norm_num
    have : (10 : Rat) ^ d.exp = (10 : Rat) ^ (d.exp - min a.exp b.exp).toNat * (10 : Rat) ^ (min a.exp b.exp) := by
      rw [← zpow_natCast, ← zpow_add₀ h10]
      congr 1; omega
    rw [this]
    push_cast
    cases d.neg <;> simp <;> ring
  rw [key a (min_le_left ..), key b (min_le_right ..), h]

theorem numVal_pyEq {a b : Num} (ha : IsTerm (.number a none)) (hb : IsTerm (.number b none)) (h : a.pyEq b = true) :
    numVal a = numVal b := by
  have key : ∀ (i : Int) (d : Dec), Dec.numEq ⟨decide (i < 0), i.natAbs, 0⟩ d = true → ((i : Rat) : ℝ) = (d.toRat : ℝ) := by
    intro i d h
    have h1 := numEq_toRat h
    rw [← h1, decToRat]
    congr 1
    by_cases hi : i < 0
    · simp only [hi, decide_true, if_true, zpow_zero, mul_one]
      have : ((i.natAbs : Int) : Rat) = -i := by
        rw [← Int.cast_neg]; congr 1; omega
      rw [← Int.cast_natCast, this]; ring
    · simp only [hi, decide_false, zpow_zero, mul_one, one_mul, Bool.false_eq_true, if_false]
      rw [← Int.cast_natCast]; congr 1; omega
  cases a with
  | int i =>
    cases b with
    | int j => simp only [Num.pyEq, beq_iff_eq] at h; rw [h]
    | dec d => exact key i d h
    | str s => exact hb.elim
  | dec d =>
    cases b with
    | int j => exact (key j d h).symm
    | dec d' =>
      have := numEq_toRat h
      simp only [numVal, Num.toRat, this]
    | str s => exact hb.elim
  | str s => exact ha.elim


theorem TermOk.product {T : Node → Prop} (hT : ∀ n, T n → IsTerm n) {t : Node} (h : TermOk T t) :
    Product t ∧ ∀ q ∈ literals t, T (.number q.1 q.2) := by
  have key : ∀ n, T n → Product n ∧ ∀ q ∈ literals n, T (.number q.1 q.2) := by
    intro n hn
    have := hT n hn
    cases n with
    | number v raw =>
      refine ⟨?_, ?_⟩
      · cases v <;> first | trivial | cases this
      · intro q hq
        rw [List.mem_singleton.1 hq]; exact hn
    | ident n => exact ⟨trivial, fun q hq => by cases hq⟩
    | _ => cases this
  rcases h with h | ⟨n, e, rfl, h⟩
  · exact key t h
  · exact ⟨⟨(key n h).1, e, none, rfl⟩, (key n h).2⟩

theorem productOf_product {T : Node → Prop} (hT : ∀ n, T n → IsTerm n) (h1 : T (.number (.int 1) none)) {ts : List Node}
    (ht : ∀ t ∈ ts, TermOk T t) : Product (productOf ts) ∧ ∀ q ∈ literals (productOf ts), T (.number q.1 q.2) := by
  have key : ∀ (ts : List Node) (acc : Node), (Product acc ∧ ∀ q ∈ literals acc, T (.number q.1 q.2)) → (∀ t ∈ ts, TermOk T t) →
      Product (ts.foldl (fun acc t => .mul t acc) acc) ∧
        ∀ q ∈ literals (ts.foldl (fun acc t => .mul t acc) acc), T (.number q.1 q.2) := by
    intro ts
    induction ts with
    | nil => intro acc h _; exact h
    | cons t ts ih =>
      intro acc h ht
      have h2 := (ht t (List.mem_cons_self ..)).product hT
      refine ih _ ⟨⟨h2.1, h.1⟩, ?_⟩ (fun t h => ht t (List.mem_cons_of_mem _ h))
      intro q hq
      rcases List.mem_append.1 hq with hq | hq
      · exact h2.2 q hq
      · exact h.2 q hq
  cases ts with
  | nil => exact ⟨trivial, fun q hq => by rw [List.mem_singleton.1 hq]; exact h1⟩
  | cons t ts =>
    exact key ts t ((ht t (List.mem_cons_self ..)).product hT) (fun t h => ht t (List.mem_cons_of_mem _ h))

/-- the terminals whose value is not zero; the decimals are those of the expression -/
def ValT (e : Node) : Node → Prop
  | .ident _ => True
  | .number (.int i) _ => i ≠ 0
  | .number (.dec d) raw => (Num.dec d, raw) ∈ literals e ∧ numVal (.dec d) ≠ 0
  | _ => False

/-- their values -/
noncomputable def valW (σ : Str → ℝ) (hσ : ∀ n, σ n ≠ 0) : Node → ℝˣ
  | .ident n => Units.mk0 (σ n) (hσ n)
  | .number v _ => if h : numVal v = 0 then 1 else Units.mk0 (numVal v) h
  | _ => 1

theorem numVal_int (i : Int) : numVal (.int i) = (i : ℝ) := by simp [numVal, Num.toRat]

theorem valT_numVal {e : Node} {v : Num} {raw : Option Str} (h : ValT e (.number v raw)) : numVal v ≠ 0 := by
  cases v with
  | int i => rw [numVal_int]; exact Int.cast_ne_zero.2 h
  | dec d => exact h.2
  | str s => exact h.elim

theorem valW_number {σ : Str → ℝ} {hσ : ∀ n, σ n ≠ 0} {e : Node} {v : Num} {raw : Option Str} (h : ValT e (.number v raw)) :
    (valW σ hσ (.number v raw) : ℝ) = numVal v := by
  simp only [valW, dif_neg (valT_numVal h), Units.val_mk0]

theorem valT_isTerm {e n : Node} (h : ValT e n) : IsTerm n := by
  cases n with
  | number v raw => cases v <;> first | trivial | cases h
  | ident n => trivial
  | _ => cases h

theorem valT_weight {e : Node} (h1 : OneDecimal e) (σ : Str → ℝ) (hσ : ∀ n, σ n ≠ 0) : Weight (ValT e) (valW σ hσ) where
  term n h := valT_isTerm h
  eq a b ha hb h := by
    cases a with
    | number v raw =>
      cases b with
      | number v' raw' =>
        simp only [termEq, Bool.and_eq_true] at h
        apply Units.ext
        rw [valW_number ha, valW_number hb]
        have hv := valT_isTerm ha
        have hv' := valT_isTerm hb
        refine numVal_pyEq ?_ ?_ h.1
        · cases v <;> first | trivial | cases hv
        · cases v' <;> first | trivial | cases hv'
      | _ => cases h
    | ident n =>
      cases b with
      | ident m => simp only [termEq, beq_iff_eq] at h; rw [h]
      | _ => cases h
    | _ => cases ha
  mul v r v' r' k u ha hb hne h := by
    cases v with
    | int i =>
      cases v' with
      | int j =>
        cases h
        have hi : i ≠ 0 := ha
        have hj : j ≠ 0 := hb
        have hu : ValT e (.number (.int (i * j ^ k)) none) := mul_ne_zero hi (pow_ne_zero _ hj)
        refine ⟨hu, Units.ext ?_⟩
        rw [Units.val_mul, Units.val_pow_eq_pow_val, valW_number hu, valW_number ha, valW_number hb, numVal_int, numVal_int, numVal_int]
        push_cast; rfl
      | _ => cases h
    | dec d =>
      cases v' with
      | dec d' =>
        obtain ⟨rfl, rfl⟩ := h1 d r d' r' ha.1 hb.1
        have hself : ∀ d : Dec, Dec.numEq d d = true := fun d => by simp [Dec.numEq]
        simp [termEq, Num.pyEq, hself] at hne
      | _ => cases h
    | str s => exact ha.elim

theorem valT_mulOk {e : Node} (h1 : OneDecimal e) : MulOk (ValT e) := by
  intro v r v' r' k ha hb hne hs
  cases v with
  | int i =>
    cases v' with
    | int j => exact ⟨_, rfl⟩
    | _ => cases hs
  | dec d =>
    cases v' with
    | dec d' =>
      obtain ⟨rfl, rfl⟩ := h1 d r d' r' ha.1 hb.1
      have hself : ∀ d : Dec, Dec.numEq d d = true := fun d => by simp [Dec.numEq]
      simp [termEq, Num.pyEq, hself] at hne
    | _ => cases hs
  | str s => exact ha.elim

theorem nodeW_eval {σ : Str → ℝ} {hσ : ∀ n, σ n ≠ 0} {e₀ e : Node} (hp : Product e) (ht : ∀ q ∈ literals e, ValT e₀ (.number q.1 q.2)) :
    ((nodeW (valW σ hσ) e : ℝˣ) : ℝ) = evalNode σ e := by
  induction e with
  | number v raw => exact valW_number (ht (v, raw) (List.mem_singleton.2 rfl))
  | ident n => simp [nodeW, valW, evalNode]
  | unhandled s => exact hp.elim
  | mul l r ihl ihr =>
    rw [nodeW, evalNode, Units.val_mul, ihl hp.1 (fun q h => ht q (List.mem_append_left _ h)),
      ihr hp.2 (fun q h => ht q (List.mem_append_right _ h))]
  | div l r ihl ihr =>
    rw [nodeW, evalNode, Units.val_div_eq_div_val, ihl hp.1 (fun q h => ht q (List.mem_append_left _ h)),
      ihr hp.2 (fun q h => ht q (List.mem_append_right _ h))]
  | raise l r ihl _ =>
    obtain ⟨hl, i, raw, rfl⟩ := hp
    rw [nodeW, evalNode, Units.val_zpow_eq_zpow_val, ihl hl ht]
  | shift u f _ _ => exact hp.elim
  | log b t _ => exact hp.elim

theorem product_int_dec {e : Node} (hp : Product e) : ∀ q ∈ literals e, IsTerm (.number q.1 q.2) := by
  induction e with
  | number v raw =>
    intro q hq
    rw [List.mem_singleton.1 hq]
    cases v <;> first | trivial | cases hp
  | mul l r ihl ihr | div l r ihl ihr =>
    intro q hq
    rcases List.mem_append.1 hq with hq | hq
    · exact ihl hp.1 q hq
    · exact ihr hp.2 q hq
  | raise l r ihl _ => exact ihl hp.1
  | _ => intro q hq; cases hq

theorem nonzero_allT {σ : Str → ℝ} {e : Node} (hp : Product e) (hz : NonZero σ e) : AllT (ValT e) e := by
  refine ⟨fun q hq => ?_, fun n => trivial⟩
  have h1 := product_int_dec hp q hq
  have h2 := hz.1 q hq
  obtain ⟨v, raw⟩ := q
  cases v with
  | int i => rw [numVal_int] at h2; exact Int.cast_ne_zero.1 h2
  | dec d => exact ⟨hq, h2⟩
  | str s => exact h1.elim

theorem weight_one {T : Node → Prop} {G : Type} [CommGroup G] {w : Node → G} (hw : Weight T w) :
    Weight (G := Multiplicative Int) T fun _ => 1 where
  term := hw.term
  eq _ _ _ _ _ := rfl
  mul v r v' r' k u ha hb hne h := ⟨(hw.mul v r v' r' k u ha hb hne h).1, by simp⟩

/-- expanding keeps the value -/
theorem expander_value {σ : Str → ℝ} {e : Node} (hp : Product e) (h1 : OneDecimal e) (hz : NonZero σ e) :
    ∃ r, expand e = .ok r ∧ Product r ∧ evalNode σ r = evalNode σ e := by
  have ht := nonzero_allT hp hz
  have hw := valT_weight h1 σ hz.2
  obtain ⟨r, hr⟩ := expander_total (weight_one hw) (valT_mulOk h1) hp ht
  have hT : ValT e (.number (.int 1) none) := one_ne_zero
  have hone : valW σ hz.2 (.number (.int 1) none) = 1 := by
    apply Units.ext; rw [valW_number hT, numVal_int]; simp
  obtain ⟨g1, ts, rfl, g2⟩ := expander_weight hw hone hp ht hr
  obtain ⟨g3, g4⟩ := productOf_product hw.term hT g2
  refine ⟨_, hr, g3, ?_⟩
  rw [← nodeW_eval (hσ := hz.2) g3 g4, ← nodeW_eval (hσ := hz.2) hp ht.1, g1]

/-! ### The exponents -/

/-- the exponent of one identifier -/
def expW (n : Str) : Node → Multiplicative Int
  | .ident m => Multiplicative.ofAdd (if m = n then 1 else 0)
  | _ => 1

theorem isTerm_weight (n : Str) : Weight IsTerm (expW n) where
  term _ h := h
  eq a b ha hb h := by
    cases a with
    | ident m =>
      cases b with
      | ident m' => simp only [termEq, beq_iff_eq] at h; rw [h]
      | _ => cases h
    | number v raw =>
      cases b with
      | number v' raw' => rfl
      | _ => cases h
    | _ => cases ha
  mul v r v' r' k u ha hb hne h := by
    refine ⟨?_, by simp [expW]⟩
    cases v with
    | int i =>
      cases v' with
      | int j => cases h; trivial
      | _ => cases h
    | dec d =>
      cases v' with
      | dec d' =>
        simp only [Num.mulPow, bind, Except.bind] at h
        cases hp : d'.powCtx k with
        | error e => rw [hp] at h; cases h
        | ok x => rw [hp] at h; cases h; trivial
      | _ => cases h
    | str s => exact ha.elim

theorem nodeW_exponent {n : Str} {e : Node} (hp : Product e) : nodeW (expW n) e = Multiplicative.ofAdd (exponentOf n e) := by
  unfold exponentOf
  induction e with
  | number v raw => simp [nodeW, expW, degree]
  | ident m => simp [nodeW, expW, degree]
  | unhandled s => exact hp.elim
  | mul l r ihl ihr => rw [nodeW, degree, ihl hp.1, ihr hp.2, ofAdd_add]
  | div l r ihl ihr => rw [nodeW, degree, ihl hp.1, ihr hp.2, ofAdd_sub]
  | raise l r ihl _ =>
    obtain ⟨hl, i, raw, rfl⟩ := hp
    rw [nodeW, degree, ihl hl, ← ofAdd_zsmul, smul_eq_mul]
  | shift u f _ _ => exact hp.elim
  | log b t _ => exact hp.elim

/-- expanding keeps the exponents -/
theorem expander_exponents {e r : Node} (hp : Product e) (h : expand e = .ok r) : Product r ∧ ∀ n, exponentOf n r = exponentOf n e := by
  have ht : AllT IsTerm e := ⟨product_int_dec hp, fun _ => trivial⟩
  have h0 := expander_weight (isTerm_weight []) rfl hp ht h
  obtain ⟨-, ts, rfl, g2⟩ := h0
  have hpr := (productOf_product (fun _ h => h) trivial g2).1
  refine ⟨hpr, fun n => ?_⟩
  have h1 := (expander_weight (isTerm_weight n) rfl hp ht h).1
  rw [nodeW_exponent hp, nodeW_exponent hpr] at h1
  exact Multiplicative.ofAdd.injective h1


/-! ### The normal form -/

/-- the base of a term is a number -/
def NumBase (t : Node) : Prop := TermOk (fun n => ∃ v raw, n = .number v raw ∧ IsTerm n) t

/-- the term of a name and an exponent -/
def nameTerm (x : Str × Int) : Node := powTerm (.ident x.1) (.int x.2)

/-- strictly descending names, no exponent zero -/
def Desc (l : List (Str × Int)) : Prop := l.Pairwise (fun a b => strLe b.1 a.1 = true ∧ a.1 ≠ b.1) ∧ ∀ x ∈ l, x.2 ≠ 0

/-- adding one more name -/
def addName (n : Str) (k : Int) (l : List (Str × Int)) : List (Str × Int) :=
  if k = 0 then l else
  match l with
  | [] => [(n, k)]
  | (m, j) :: rest => if m = n then (if j + k = 0 then rest else (n, j + k) :: rest) else (n, k) :: (m, j) :: rest

theorem expandStep_name {l : List (Str × Int)} {tn : List Node} (htn : ∀ t ∈ tn, NumBase t) (n : Str) (k : Int) :
    expandStep (l.map nameTerm ++ tn) (.ident n) (.int k) = .ok ((addName n k l).map nameTerm ++ tn) := by
  unfold expandStep addName
  by_cases hk : k = 0
  · subst hk; simp
  · rw [if_neg (by simpa using hk), if_neg hk]
    cases l with
    | nil =>
      cases tn with
      | nil => rfl
      | cons t tn =>
        simp only [List.map_nil, List.nil_append, List.map_cons, List.cons_append]
        rcases htn t (List.mem_cons_self ..) with ⟨v, raw, rfl, -⟩ | ⟨-, e, rfl, v, raw, rfl, -⟩
        · simp [termEq, Node.isTerminal, nameTerm]
        · simp [termEq, Node.isTerminal, nameTerm]
    | cons x l =>
      obtain ⟨m, j⟩ := x
      simp only [List.map_cons, List.cons_append]
      by_cases hj : j = 1
      · subst hj
        have hx : nameTerm (m, 1) = .ident m := rfl
        rw [hx]
        by_cases hm : m = n
        · subst hm
          simp only [Node.isTerminal, termEq, beq_self_eq_true, Bool.and_self, if_true, PyVal.add, bind, Except.bind, combined,
            PyVal.int.injEq]
          by_cases h0 : k + 1 = 0
          · rw [if_pos h0, if_pos (by omega)]
          · rw [if_neg h0, if_neg (by omega), Int.add_comm k 1]; rfl
        · have : (Node.ident m).isTerminal = true := rfl
          simp only [termEq, beq_iff_eq, this, Bool.true_and, hm, if_false]
          rw [List.map_cons, List.map_cons, hx]; rfl
      · have hx : nameTerm (m, j) = .raise (.ident m) (.number (.int j) none) := by
          unfold nameTerm powTerm; rw [if_neg (by simpa using hj)]; rfl
        rw [hx]
        by_cases hm : m = n
        · subst hm
          simp only [Node.isTerminal, termEq, beq_self_eq_true, Bool.false_and, Bool.false_eq_true, if_false, if_true, Num.asPyVal,
            PyVal.add, bind, Except.bind, combined, PyVal.int.injEq]
          by_cases h0 : j + k = 0
          · rw [if_neg (by omega), if_pos h0, if_pos h0]
          · rw [if_neg h0, if_neg h0]
            by_cases h1 : j + k = 1
            · rw [if_pos h1, h1]; rfl
            · rw [if_neg h1]; rfl
        · have : (Node.raise (.ident m) (.number (.int j) none)).isTerminal = false := rfl
          simp only [termEq, beq_iff_eq, this, Bool.false_and, hm, if_false, Bool.false_eq_true]
          rw [List.map_cons, List.map_cons, hx]; rfl

theorem addName_desc {n : Str} {k : Int} {l : List (Str × Int)} (h : Desc l) (hle : ∀ x ∈ l, strLe x.1 n = true) :
    Desc (addName n k l) ∧ ∀ x ∈ addName n k l, strLe x.1 n = true := by
  unfold addName
  split
  · exact ⟨h, hle⟩
  · rename_i hk
    cases l with
    | nil =>
      refine ⟨⟨by simp, ?_⟩, ?_⟩
      · intro x hx; rw [List.mem_singleton.1 hx]; exact hk
      · intro x hx; rw [List.mem_singleton.1 hx]; exact strLe_refl n
    | cons x l =>
      obtain ⟨m, j⟩ := x
      obtain ⟨h1, h2⟩ := List.pairwise_cons.1 h.1
      simp only
      split
      · rename_i hm
        subst hm
        have hl : Desc l := ⟨h2, fun x hx => h.2 x (List.mem_cons_of_mem _ hx)⟩
        split
        · exact ⟨hl, fun x hx => hle x (List.mem_cons_of_mem _ hx)⟩
        · rename_i h0
          refine ⟨⟨List.pairwise_cons.2 ⟨h1, h2⟩, ?_⟩, ?_⟩
          · intro x hx
            rcases List.mem_cons.1 hx with rfl | hx
            · exact h0
            · exact hl.2 x hx
          · intro x hx
            rcases List.mem_cons.1 hx with rfl | hx
            · exact strLe_refl _
            · exact hle x (List.mem_cons_of_mem _ hx)
      · rename_i hm
        refine ⟨⟨List.pairwise_cons.2 ⟨?_, h.1⟩, ?_⟩, ?_⟩
        · intro x hx
          refine ⟨hle x hx, ?_⟩
          rintro rfl
          rcases List.mem_cons.1 hx with rfl | hx
          · exact hm rfl
          · have ha := (h1 x hx).1
            have hb := hle (m, j) (List.mem_cons_self ..)
            exact (h1 x hx).2 (strLe_antisymm hb ha)
        · intro x hx
          rcases List.mem_cons.1 hx with rfl | hx
          · exact hk
          · exact h.2 x hx
        · intro x hx
          rcases List.mem_cons.1 hx with rfl | hx
          · exact strLe_refl _
          · exact hle x hx

/-- the second phase: names -/
theorem expandLoop_names {c : Chain} (hc : ∀ x ∈ c, ∃ n k, x = (.ident n, .int k)) (hs : c.Pairwise itemLe) {l : List (Str × Int)}
    {tn : List Node} (htn : ∀ t ∈ tn, NumBase t) (hd : Desc l) (hle : ∀ y ∈ c, ∀ x ∈ l, keyLe (sortKey (.ident x.1)) (sortKey y.1) = true) :
    ∃ l', expandLoop c (l.map nameTerm ++ tn) = .ok (l'.map nameTerm ++ tn) ∧ Desc l' := by
  induction c generalizing l with
  | nil => exact ⟨l, rfl, hd⟩
  | cons y c ih =>
    obtain ⟨n, k, rfl⟩ := hc y (List.mem_cons_self ..)
    obtain ⟨s1, s2⟩ := List.pairwise_cons.1 hs
    have hle' : ∀ x ∈ l, strLe x.1 n = true := fun x hx => hle _ (List.mem_cons_self ..) x hx
    obtain ⟨d1, d2⟩ := addName_desc (k := k) hd hle'
    obtain ⟨l', g1, g2⟩ := ih (fun x hx => hc x (List.mem_cons_of_mem _ hx)) s2 d1 (by
      intro z hz x hx
      exact keyLe_trans (show keyLe (sortKey (.ident x.1)) (sortKey (.ident n)) = true from d2 x hx) (s1 z hz))
    refine ⟨l', ?_, g2⟩
    rw [expandLoop, expandStep_name htn n k]
    exact g1

theorem expandLoop_append (a b : Chain) (ts : List Node) :
    expandLoop (a ++ b) ts = (expandLoop a ts >>= fun ts' => expandLoop b ts') := by
  induction a generalizing ts with
  | nil => rfl
  | cons x a ih =>
    obtain ⟨n, k⟩ := x
    rw [List.cons_append, expandLoop, expandLoop]
    cases expandStep ts n k with
    | error e => rfl
    | ok t => exact ih t

theorem numBase_weight : Weight (G := Multiplicative Int) (fun n => ∃ v raw, n = .number v raw ∧ IsTerm n) (fun _ => 1) where
  term n h := by obtain ⟨v, raw, -, h⟩ := h; exact h
  eq _ _ _ _ _ := rfl
  mul v r v' r' k u ha hb hne h := by
    obtain ⟨-, -, -, ha⟩ := ha
    obtain ⟨-, -, -, hb⟩ := hb
    exact ⟨⟨u, none, rfl, ((isTerm_weight []).mul v r v' r' k u ha hb hne h).1⟩, by simp⟩

/-- a sorted chain of terminals is numbers, then names -/
theorem sorted_split {c : Chain} (hc : ChainOk IsTerm c) (hs : c.Pairwise itemLe) :
    ∃ cn ci, c = cn ++ ci ∧ ChainOk (fun n => ∃ v raw, n = .number v raw ∧ IsTerm n) cn ∧
      (∀ x ∈ ci, ∃ n k, x = (Node.ident n, PyVal.int k)) ∧ ci.Pairwise itemLe := by
  induction c with
  | nil => exact ⟨[], [], rfl, (by intro x hx; cases hx), (by intro x hx; cases hx), .nil⟩
  | cons x c ih =>
    obtain ⟨s1, s2⟩ := List.pairwise_cons.1 hs
    obtain ⟨cn, ci, rfl, h1, h2, h3⟩ := ih (fun x hx => hc x (List.mem_cons_of_mem _ hx)) s2
    obtain ⟨hx, k, hk⟩ := hc x (List.mem_cons_self ..)
    obtain ⟨t, k'⟩ := x
    simp only at hx hk
    subst hk
    cases t with
    | number v raw =>
      refine ⟨(.number v raw, .int k) :: cn, ci, rfl, ?_, h2, h3⟩
      intro y hy
      rcases List.mem_cons.1 hy with rfl | hy
      · exact ⟨⟨v, raw, rfl, hx⟩, k, rfl⟩
      · exact h1 y hy
    | ident n =>
      cases cn with
      | nil =>
        refine ⟨[], (.ident n, .int k) :: ci, rfl, (by intro x hx; cases hx), ?_, hs⟩
        intro y hy
        rcases List.mem_cons.1 hy with rfl | hy
        · exact ⟨n, k, rfl⟩
        · exact h2 y hy
      | cons y cn =>
        exfalso
        obtain ⟨⟨v, raw, hy, hv⟩, -⟩ := h1 y (List.mem_cons_self ..)
        have hle := s1 y (List.mem_cons_self ..)
        unfold itemLe at hle
        rw [hy] at hle hv
        cases v with
        | int i => exact absurd hle (by rw [keyLe_ne (by simp only [sortKey]; decide)]; simp only [sortKey]; decide)
        | dec d => exact absurd hle (by rw [keyLe_ne (by simp only [sortKey]; decide)]; simp only [sortKey]; decide)
        | str s => exact hv.elim
    | _ => cases hx

/-- the terms of a chain: descending names above terms of numbers -/
theorem terms_shape {c : Chain} (hc : ChainOk IsTerm c) {r : Node} (h : Chain.terms c = .ok r) :
    ∃ l tn, r = productOf (l.map nameTerm ++ tn) ∧ Desc l ∧ (∀ t ∈ tn, NumBase t) ∧
      ((∀ x ∈ c, ∃ n, x.1 = Node.ident n) → tn = []) := by
  unfold Chain.terms at h
  simp only [bind, Except.bind] at h
  have hc' : ChainOk IsTerm (sortedChain c) := fun x hx => hc x ((sortedChain_perm c).mem_iff.1 hx)
  obtain ⟨cn, ci, hsplit, h1, h2, h3⟩ := sorted_split hc' (sortedChain_sorted c)
  rw [hsplit, expandLoop_append] at h
  simp only [bind, Except.bind] at h
  cases hn : expandLoop cn [] with
  | error e => rw [hn] at h; cases h
  | ok tn =>
    rw [hn] at h
    obtain ⟨g1, -⟩ := expandLoop_weight numBase_weight h1 (by simp) hn
    obtain ⟨l, g2, g3⟩ := expandLoop_names (l := []) h2 h3 g1 ⟨.nil, by simp⟩ (by simp)
    simp only [List.map_nil, List.nil_append] at g2
    simp only [g2] at h
    refine ⟨l, tn, (Except.ok.inj h).symm, g3, g1, ?_⟩
    intro hid
    have : cn = [] := by
      cases cn with
      | nil => rfl
      | cons y cn =>
        exfalso
        obtain ⟨⟨v, raw, hy, -⟩, -⟩ := h1 y (List.mem_cons_self ..)
        have hm : y ∈ sortedChain c := by rw [hsplit]; simp
        obtain ⟨n, hn'⟩ := hid y ((sortedChain_perm c).mem_iff.1 hm)
        rw [hn'] at hy; cases hy
    subst this
    exact (Except.ok.inj hn).symm

theorem occurrences_productOf (n : Str) (ts : List Node) :
    occurrences n (productOf ts) = (ts.map (occurrences n)).sum := by
  have key : ∀ (ts : List Node) (acc : Node), occurrences n (ts.foldl (fun acc t => .mul t acc) acc) =
      occurrences n acc + (ts.map (occurrences n)).sum := by
    intro ts
    induction ts with
    | nil => intro acc; simp
    | cons t ts ih => intro acc; rw [List.foldl_cons, ih, occurrences, List.map_cons, List.sum_cons]; omega
  cases ts with
  | nil => rfl
  | cons t ts => rw [productOf, key, List.map_cons, List.sum_cons]

theorem exponent_productOf (n : Str) (ts : List Node) :
    exponentOf n (productOf ts) = (ts.map (exponentOf n)).sum := by
  have key : ∀ (ts : List Node) (acc : Node), exponentOf n (ts.foldl (fun acc t => .mul t acc) acc) =
      exponentOf n acc + (ts.map (exponentOf n)).sum := by
    intro ts
    induction ts with
    | nil => intro acc; simp
    | cons t ts ih =>
      intro acc
      have : exponentOf n (.mul t acc) = exponentOf n t + exponentOf n acc := rfl
      rw [List.foldl_cons, ih, this, List.map_cons, List.sum_cons]; omega
  cases ts with
  | nil => rfl
  | cons t ts => rw [productOf, key, List.map_cons, List.sum_cons]

theorem nameTerm_occurrences (n : Str) (x : Str × Int) : occurrences n (nameTerm x) = if x.1 = n then 1 else 0 := by
  unfold nameTerm powTerm
  split
  · rfl
  · simp [PyVal.toNode, occurrences]

theorem nameTerm_exponent (n : Str) (x : Str × Int) : exponentOf n (nameTerm x) = if x.1 = n then x.2 else 0 := by
  unfold nameTerm powTerm
  split
  · rename_i h
    rw [PyVal.int.inj h]; rfl
  · simp [PyVal.toNode, exponentOf, degree]

theorem numBase_occurrences {t : Node} (h : NumBase t) (n : Str) : occurrences n t = 0 ∧ exponentOf n t = 0 := by
  rcases h with ⟨v, raw, rfl, -⟩ | ⟨-, e, rfl, v, raw, rfl, -⟩
  · exact ⟨rfl, rfl⟩
  · exact ⟨rfl, by simp [exponentOf, degree]⟩

/-- the exponent of a name in a list -/
def listExp (n : Str) (l : List (Str × Int)) : Int := (l.map fun x => if x.1 = n then x.2 else 0).sum

theorem listExp_absent {n : Str} {l : List (Str × Int)} (h : ∀ x ∈ l, x.1 ≠ n) :
    listExp n l = 0 ∧ (l.map fun x => if x.1 = n then 1 else 0).sum = 0 := by
  induction l with
  | nil => exact ⟨rfl, rfl⟩
  | cons x l ih =>
    obtain ⟨a, b⟩ := ih fun y hy => h y (List.mem_cons_of_mem _ hy)
    have hx := h x (List.mem_cons_self ..)
    unfold listExp at *
    rw [List.map_cons, List.sum_cons, List.map_cons, List.sum_cons, if_neg hx, if_neg hx, a, b]
    exact ⟨rfl, rfl⟩

theorem desc_count {n : Str} {l : List (Str × Int)} (h : Desc l) :
    (l.map fun x => if x.1 = n then 1 else 0).sum = if listExp n l = 0 then 0 else 1 := by
  induction l with
  | nil => rfl
  | cons x l ih =>
    obtain ⟨h1, h2⟩ := List.pairwise_cons.1 h.1
    have hl : Desc l := ⟨h2, fun y hy => h.2 y (List.mem_cons_of_mem _ hy)⟩
    by_cases hx : x.1 = n
    · have habs : ∀ y ∈ l, y.1 ≠ n := fun y hy e => (h1 y hy).2 (hx.trans e.symm)
      obtain ⟨a, b⟩ := listExp_absent habs
      have : listExp n (x :: l) = x.2 := by
        unfold listExp at *; rw [List.map_cons, List.sum_cons, if_pos hx, a]; omega
      rw [this, if_neg (h.2 x (List.mem_cons_self ..)), List.map_cons, List.sum_cons, if_pos hx, b]
    · have : listExp n (x :: l) = listExp n l := by
        unfold listExp; rw [List.map_cons, List.sum_cons, if_neg hx]; omega
      rw [this, List.map_cons, List.sum_cons, if_neg hx, ih hl]; omega

theorem desc_mem {l : List (Str × Int)} (h : Desc l) {x : Str × Int} (hx : x ∈ l) : listExp x.1 l = x.2 := by
  induction l with
  | nil => cases hx
  | cons y l ih =>
    obtain ⟨h1, h2⟩ := List.pairwise_cons.1 h.1
    have hl : Desc l := ⟨h2, fun y hy => h.2 y (List.mem_cons_of_mem _ hy)⟩
    unfold listExp
    rw [List.map_cons, List.sum_cons]
    rcases List.mem_cons.1 hx with rfl | hx
    · have := (listExp_absent (n := x.1) (l := l) fun y hy e => (h1 y hy).2 e.symm).1
      unfold listExp at this
      rw [this, if_pos rfl]; omega
    · have := ih hl hx
      unfold listExp at this
      rw [this, if_neg (h1 x hx).2]; omega

theorem desc_unique {l l' : List (Str × Int)} (h : Desc l) (h' : Desc l') (he : ∀ n, listExp n l = listExp n l') : l = l' := by
  have hmem : ∀ {l l' : List (Str × Int)}, Desc l → Desc l' → (∀ n, listExp n l = listExp n l') → ∀ x ∈ l, ∃ y ∈ l', y.1 = x.1 := by
    intro l l' h h' he x hx
    apply Classical.byContradiction
    intro hn
    have h0 := (listExp_absent (n := x.1) (l := l') fun y hy e => hn ⟨y, hy, e⟩).1
    rw [← he, desc_mem h hx] at h0
    exact h.2 x hx h0
  induction l generalizing l' with
  | nil =>
    cases l' with
    | nil => rfl
    | cons y l' => obtain ⟨z, hz, -⟩ := hmem h' h (fun n => (he n).symm) y (List.mem_cons_self ..); cases hz
  | cons x l ih =>
    cases l' with
    | nil => obtain ⟨z, hz, -⟩ := hmem h h' he x (List.mem_cons_self ..); cases hz
    | cons y l' =>
      obtain ⟨h1, h2⟩ := List.pairwise_cons.1 h.1
      obtain ⟨h1', h2'⟩ := List.pairwise_cons.1 h'.1
      have hl : Desc l := ⟨h2, fun y hy => h.2 y (List.mem_cons_of_mem _ hy)⟩
      have hl' : Desc l' := ⟨h2', fun y hy => h'.2 y (List.mem_cons_of_mem _ hy)⟩
      have hxy : x.1 = y.1 := by
        obtain ⟨z, hz, hzx⟩ := hmem h h' he x (List.mem_cons_self ..)
        obtain ⟨z', hz', hzy⟩ := hmem h' h (fun n => (he n).symm) y (List.mem_cons_self ..)
        have a : strLe x.1 y.1 = true := by
          rcases List.mem_cons.1 hz with rfl | hz
          · rw [hzx]; exact strLe_refl _
          · rw [← hzx]; exact (h1' z hz).1
        have b : strLe y.1 x.1 = true := by
          rcases List.mem_cons.1 hz' with rfl | hz'
          · rw [hzy]; exact strLe_refl _
          · rw [← hzy]; exact (h1 z' hz').1
        exact strLe_antisymm a b
      have h2e : x.2 = y.2 := by
        rw [← desc_mem h (List.mem_cons_self ..), ← desc_mem h' (List.mem_cons_self ..), he, hxy]
      have hxy' : x = y := Prod.ext hxy h2e
      subst hxy'
      rw [ih hl hl' (fun n => ?_)]
      have := he n
      unfold listExp at this ⊢
      rw [List.map_cons, List.sum_cons, List.map_cons, List.sum_cons] at this
      omega

theorem shape_exponent {l : List (Str × Int)} {tn : List Node} (htn : ∀ t ∈ tn, NumBase t) (n : Str) :
    exponentOf n (productOf (l.map nameTerm ++ tn)) = listExp n l ∧
    occurrences n (productOf (l.map nameTerm ++ tn)) = (l.map fun x => if x.1 = n then 1 else 0).sum := by
  rw [exponent_productOf, occurrences_productOf]
  simp only [List.map_append, List.sum_append, List.map_map]
  have h0 : (tn.map (exponentOf n)).sum = 0 ∧ (tn.map (occurrences n)).sum = 0 := by
    induction tn with
    | nil => exact ⟨rfl, rfl⟩
    | cons t tn ih =>
      obtain ⟨a, b⟩ := ih fun t h => htn t (List.mem_cons_of_mem _ h)
      obtain ⟨c, d⟩ := numBase_occurrences (htn t (List.mem_cons_self ..)) n
      simp [a, b, c, d]
  rw [h0.1, h0.2]
  refine ⟨?_, ?_⟩
  · unfold listExp
    rw [Int.add_zero]; congr 1
    exact List.map_congr_left fun x _ => nameTerm_exponent n x
  · rw [Nat.add_zero]; congr 1
    exact List.map_congr_left fun x _ => nameTerm_occurrences n x

theorem expander_terms {e : Node} (hp : Product e) :
    ∃ c, expandChains e = .ok (c, []) ∧ ChainOk IsTerm c ∧ ∀ r, expand e = .ok r → Chain.terms c = .ok r := by
  obtain ⟨c, hc, hok, -⟩ := expandChains_product (expW []) hp ⟨product_int_dec hp, fun _ => trivial⟩
  refine ⟨c, hc, hok, ?_⟩
  intro r h
  unfold expand expandWith at h
  simp only [hc, bind, Except.bind, List.nil_append, if_true] at h
  cases htm : Chain.terms c with
  | error e => rw [htm] at h; cases h
  | ok t => rw [htm] at h; exact h

/-- every identifier occurs once, or not at all if its exponents cancel -/
theorem expander_occurrences {e r : Node} (hp : Product e) (h : expand e = .ok r) (n : Str) :
    occurrences n r = if exponentOf n e = 0 then 0 else 1 := by
  obtain ⟨c, -, hok, ht⟩ := expander_terms hp
  obtain ⟨l, tn, rfl, hd, htn, -⟩ := terms_shape hok (ht r h)
  rw [← (expander_exponents hp h).2 n, (shape_exponent htn n).1, (shape_exponent htn n).2, desc_count hd]

/-- chains of expressions without numbers -/
theorem expandChains_names {e : Node} {c o : Chain} (hn : literals e = []) (hp : Product e) (h : expandChains e = .ok (c, o)) :
    ∀ x ∈ c, ∃ n, x.1 = Node.ident n := by
  have ht : AllT (fun t => ∃ n, t = Node.ident n) e := ⟨by rw [hn]; simp, fun n => ⟨n, rfl⟩⟩
  obtain ⟨c', h', hok, -⟩ := expandChains_product (expW []) hp ht
  rw [h] at h'
  cases h'
  exact fun x hx => (hok x hx).1

theorem expander_normal {e e' r r' : Node} (hp : Product e) (hp' : Product e') (hn : literals e = []) (hn' : literals e' = [])
    (he : ∀ n, exponentOf n e = exponentOf n e') (h : expand e = .ok r) (h' : expand e' = .ok r') : r = r' := by
  obtain ⟨c, hc, hok, ht⟩ := expander_terms hp
  obtain ⟨c', hc', hok', ht'⟩ := expander_terms hp'
  obtain ⟨l, tn, rfl, hd, htn, h0⟩ := terms_shape hok (ht r h)
  obtain ⟨l', tn', rfl, hd', htn', h0'⟩ := terms_shape hok' (ht' r' h')
  rw [h0 (expandChains_names hn hp hc), h0' (expandChains_names hn' hp' hc')]
  rw [desc_unique hd hd' fun n => ?_]
  rw [← (shape_exponent htn n).1, ← (shape_exponent htn' n).1, (expander_exponents hp h).2, (expander_exponents hp' h').2, he]

theorem expander_names_total {e : Node} (hp : Product e) (hn : literals e = []) : ∃ r, expand e = .ok r := by
  obtain ⟨r, hr, -⟩ := expander_value (σ := fun _ => 1) hp (by intro d raw d' raw' h; rw [hn] at h; cases h)
    ⟨by rw [hn]; simp, fun _ => one_ne_zero⟩
  exact ⟨r, hr⟩

/-- an expansion of names only is 1 or has no numbers -/
theorem expander_names_literals {e r : Node} (hp : Product e) (hn : literals e = []) (h : expand e = .ok r) :
    r = .number (.int 1) none ∨ literals r = [] := by
  obtain ⟨c, hc, hok, ht⟩ := expander_terms hp
  obtain ⟨l, tn, rfl, -, -, h0⟩ := terms_shape hok (ht r h)
  rw [h0 (expandChains_names hn hp hc), List.append_nil]
  have hx : ∀ x, literals (nameTerm x) = [] := by
    intro x
    unfold nameTerm powTerm
    split <;> rfl
  have key : ∀ (l : List (Str × Int)) (acc : Node), literals acc = [] →
      literals ((l.map nameTerm).foldl (fun acc t => .mul t acc) acc) = [] := by
    intro l
    induction l with
    | nil => intro acc h; exact h
    | cons x l ih => intro acc h; exact ih _ (by rw [literals, hx, h]; rfl)
  cases l with
  | nil => exact Or.inl rfl
  | cons x l => exact Or.inr (key l _ (hx x))

end Verif
