import Verif.Lemmas.Expander
/-!
# Expanding shifted products
-/

namespace Verif
open Spec

theorem product_chain_ne {f : Node} (hf : Product f) {c' : Chain} (hc' : expandChains f = .ok (c', [])) : c' ≠ [] := by
  induction f generalizing c' with
  | number v raw => cases hc'; simp
  | ident n => cases hc'; simp
  | unhandled s => exact hf.elim
  | mul l r ihl ihr =>
    obtain ⟨cl, hl, -, -⟩ := expander_terms hf.1
    obtain ⟨cr, hr, -, -⟩ := expander_terms hf.2
    simp only [expandChains, hl, hr, bind, Except.bind] at hc'
    cases hc'
    simp [ihl hf.1 hl]
  | div l r ihl ihr =>
    obtain ⟨cl, hl, -, -⟩ := expander_terms hf.1
    obtain ⟨cr, hr, hok, -⟩ := expander_terms hf.2
    obtain ⟨cn, hn, -⟩ := chainNeg_ok (expW []) hok
    simp only [expandChains, hl, hr, hn, bind, Except.bind] at hc'
    cases hc'
    simp [ihl hf.1 hl]
  | raise l r ihl _ =>
    obtain ⟨h', i, raw, rfl⟩ := hf
    obtain ⟨cl, hl, hok, -⟩ := expander_terms h'
    simp only [expandChains, hl, bind, Except.bind] at hc'
    have hcl := ihl h' hl
    cases cl with
    | nil => exact absurd rfl hcl
    | cons x cl =>
      obtain ⟨n, k⟩ := x
      obtain ⟨-, k, rfl⟩ := hok _ (List.mem_cons_self ..)
      obtain ⟨cs, hs, -⟩ := chainScale_ok (expW []) i (fun x hx => hok x (List.mem_cons_of_mem _ hx))
      simp only [chainScale, Num.asPyVal, PyVal.mul, hs, bind, Except.bind] at hc'
      cases hc'
      simp
  | shift u f _ _ => exact hf.elim
  | log b t _ => exact hf.elim

theorem unshifted_product {e : Node} (hp : ShiftedProduct e) : Product (unshifted e) := by
  induction e with
  | number v raw => cases v <;> first | trivial | cases hp
  | ident n => trivial
  | unhandled s => cases hp
  | mul l r ihl ihr | div l r ihl ihr => exact ⟨ihl hp.1, ihr hp.2⟩
  | raise l r ihl _ => exact ⟨ihl hp.1, hp.2⟩
  | shift u f ih _ => exact ih hp.1
  | log b t _ => cases hp

theorem product_offsets {f : Node} (hf : Product f) : offsets f = none ∧ ShiftedProduct f ∧ unshifted f = f := by
  induction f with
  | number v raw => cases v <;> first | exact ⟨rfl, trivial, rfl⟩ | cases hf
  | ident n => exact ⟨rfl, trivial, rfl⟩
  | unhandled s => cases hf
  | mul l r ihl ihr | div l r ihl ihr =>
    obtain ⟨a, a', a''⟩ := ihl hf.1
    obtain ⟨b, b', b''⟩ := ihr hf.2
    exact ⟨by rw [offsets, a, b]; rfl, ⟨a', b'⟩, by rw [unshifted, a'', b'']⟩
  | raise l r ihl _ =>
    obtain ⟨a, a', a''⟩ := ihl hf.1
    exact ⟨by rw [offsets, a]; rfl, ⟨a', hf.2⟩, by rw [unshifted, a'']⟩
  | shift u f _ _ => cases hf
  | log b t _ => cases hf

/-- what the visitor has collected as offsets -/
def OffsetOk (o : Chain) : Option Node → Prop
  | none => o = []
  | some f => Product f ∧ expandChains f = .ok (o, [])

theorem both_ok {o o' : Chain} {f f' : Option Node} (h : OffsetOk o f) (h' : OffsetOk o' f') : OffsetOk (o ++ o') (both f f') := by
  cases f with
  | none =>
    cases h
    exact h'
  | some f =>
    cases f' with
    | none =>
      cases h'
      rw [List.append_nil]
      exact h
    | some f' =>
      exact ⟨⟨h.1, h'.1⟩, by simp only [expandChains, h.2, h'.2, bind, Except.bind, List.append_nil]⟩

theorem expandChains_shifted {e : Node} (hp : ShiftedProduct e) :
    ∃ c o, expandChains e = .ok (c, o) ∧ expandChains (unshifted e) = .ok (c, []) ∧ OffsetOk o (offsets e) := by
  induction e with
  | number v raw => exact ⟨_, _, rfl, rfl, rfl⟩
  | ident n => exact ⟨_, _, rfl, rfl, rfl⟩
  | unhandled s => cases hp
  | mul l r ihl ihr =>
    obtain ⟨c, o, a1, a2, a3⟩ := ihl hp.1
    obtain ⟨c', o', b1, b2, b3⟩ := ihr hp.2
    exact ⟨c ++ c', o ++ o', by simp only [expandChains, a1, b1, bind, Except.bind],
      by simp only [unshifted, expandChains, a2, b2, bind, Except.bind, List.append_nil], both_ok a3 b3⟩
  | div l r ihl ihr =>
    obtain ⟨c, o, a1, a2, a3⟩ := ihl hp.1
    obtain ⟨c', o', b1, b2, b3⟩ := ihr hp.2
    obtain ⟨c1, hc1, hok, -⟩ := expander_terms (unshifted_product hp.2)
    rw [b2] at hc1
    cases hc1
    obtain ⟨cn, hn, -⟩ := chainNeg_ok (expW []) hok
    exact ⟨c ++ cn, o ++ o', by simp only [expandChains, a1, b1, hn, bind, Except.bind],
      by simp only [unshifted, expandChains, a2, b2, hn, bind, Except.bind, List.append_nil], both_ok a3 b3⟩
  | raise l r ihl _ =>
    obtain ⟨hl, i, raw, rfl⟩ := hp
    obtain ⟨c, o, a1, a2, a3⟩ := ihl hl
    obtain ⟨c1, hc1, hok, -⟩ := expander_terms (unshifted_product hl)
    rw [a2] at hc1
    cases hc1
    obtain ⟨cs, hs, -⟩ := chainScale_ok (expW []) i hok
    cases hf : offsets l with
    | none =>
      rw [hf] at a3
      cases a3
      exact ⟨cs, [], by simp only [expandChains, a1, hs, chainScale, bind, Except.bind],
        by simp only [unshifted, expandChains, a2, hs, chainScale, bind, Except.bind], by rw [offsets, hf]; rfl⟩
    | some f =>
      rw [hf] at a3
      obtain ⟨f1, f2⟩ := a3
      obtain ⟨c2, hc2, hok2, -⟩ := expander_terms f1
      rw [f2] at hc2
      cases hc2
      obtain ⟨os, hos, -⟩ := chainScale_ok (expW []) i hok2
      refine ⟨cs, os, by simp only [expandChains, a1, hs, hos, bind, Except.bind],
        by simp only [unshifted, expandChains, a2, hs, chainScale, bind, Except.bind], ?_⟩
      rw [offsets, hf]
      exact ⟨⟨f1, i, raw, rfl⟩, by simp only [expandChains, f2, hos, chainScale, bind, Except.bind]⟩
  | shift u f ih _ =>
    obtain ⟨c, o, a1, a2, a3⟩ := ih hp.1
    obtain ⟨c', hc', -, -⟩ := expander_terms hp.2
    refine ⟨c, o ++ c', by simp only [expandChains, a1, hc', bind, Except.bind, if_true], a2, ?_⟩
    exact both_ok (f' := some f) a3 ⟨hp.2, hc'⟩
  | log b t _ => cases hp

/-- the expansion of a shifted product -/
theorem expand_shifted {e : Node} (hp : ShiftedProduct e) :
    (offsets e = none → expand e = expand (unshifted e)) ∧
    ∀ f, offsets e = some f → Product f ∧ expand e = (do .ok (.shift (← expand (unshifted e)) (← expand f))) := by
  obtain ⟨c, o, h1, h2, h3⟩ := expandChains_shifted hp
  have key : ∀ {x : Node} {k : Chain}, expandChains x = .ok (k, []) → expand x = Chain.terms k := by
    intro x k h
    simp only [expand, expandWith, h, bind, Except.bind, List.nil_append, if_true]
    cases Chain.terms k <;> rfl
  rw [key h2]
  constructor
  · intro hn
    rw [hn] at h3
    cases h3
    exact key h1
  · intro f hf
    rw [hf] at h3
    rw [key h3.2]
    have hne := product_chain_ne h3.1 h3.2
    refine ⟨h3.1, ?_⟩
    simp only [expand, expandWith, h1, bind, Except.bind, List.nil_append, if_neg hne]
    cases Chain.terms c with
    | error e => rfl
    | ok t => cases Chain.terms o <;> rfl

/-- offsets within offsets -/
theorem expand_nested {u f f' : Node} (hf : ShiftedProduct f) (h : offsets f = some f') (r : Node) : expand (.shift u f) ≠ .ok r := by
  obtain ⟨c, o, h1, -, h3⟩ := expandChains_shifted hf
  rw [h] at h3
  have hne := product_chain_ne h3.1 h3.2
  intro hr
  simp only [expand, expandWith, expandChains, h1, bind, Except.bind] at hr
  cases hu : expandChains u with
  | error e => rw [hu] at hr; cases hr
  | ok x =>
    obtain ⟨a, b⟩ := x
    simp only [hu, if_neg hne] at hr
    cases ht : Chain.terms o with
    | error e => rw [ht] at hr; cases hr
    | ok t => rw [ht] at hr; cases hr

end Verif
