import Verif.Lemmas.ExpanderRound
import Verif.Lemmas.ExpanderShift
/-!
# C41: `Expander`
-/

namespace Verif
open Spec

/-- **C41.** A product expression all of whose decimal literals are the same literal, and in which nothing is zero, expands, to
a product expression of the same value. -/
theorem C41_same_value {σ : Str → ℝ} {e : Node} (hp : Product e) (h1 : OneDecimal e) (hz : Spec.NonZero σ e) :
    ∃ r, expand e = .ok r ∧ Product r ∧ evalNode σ r = evalNode σ e := expander_value hp h1 hz

/-- **C41.** Whatever the numbers in it (rounded or not), a product expression that expands keeps the exponent of every
identifier. -/
theorem C41_same_exponents {e r : Node} (hp : Product e) (h : expand e = .ok r) :
    Product r ∧ ∀ n, exponentOf n r = exponentOf n e := expander_exponents hp h

/-- **C41.** In the expansion every identifier occurs exactly once; those whose exponents cancel do not occur. -/
theorem C41_each_identifier_once {e r : Node} (hp : Product e) (h : expand e = .ok r) (n : Str) :
    occurrences n r = if exponentOf n e = 0 then 0 else 1 := expander_occurrences hp h n

/-- **C41.** The expansion is a normal form: number-free product expressions have the same expansion exactly when every
identifier has the same exponent in both. -/
theorem C41_normal_form {e e' : Node} (hp : Product e) (hp' : Product e') (hn : literals e = []) (hn' : literals e' = []) :
    (∃ r, expand e = .ok r) ∧ (expand e = expand e' ↔ ∀ n, exponentOf n e = exponentOf n e') := by
  obtain ⟨r, hr⟩ := expander_names_total hp hn
  obtain ⟨r', hr'⟩ := expander_names_total hp' hn'
  refine ⟨⟨r, hr⟩, ?_, ?_⟩
  · intro h n
    have : r = r' := by rw [hr, hr'] at h; exact Except.ok.inj h
    rw [← (expander_exponents hp hr).2 n, this, (expander_exponents hp' hr').2 n]
  · intro h
    rw [hr, hr', expander_normal hp hp' hn hn' h hr hr']

/-- **C41.** Expanding a second time changes nothing (number-free product expressions) -/
theorem C41_idempotent {e r : Node} (hp : Product e) (hn : literals e = []) (h : expand e = .ok r) : expand r = .ok r := by
  rcases expander_names_literals hp hn h with rfl | hr
  · rfl
  obtain ⟨h1, h2⟩ := expander_exponents hp h
  rw [((C41_normal_form h1 hp hr hn).2).2 h2, h]

/-- **C41.** An expander that has visited `a` and then visits `b` returns the expansion of `a * b`, not that of `b`
(`expander.py:150-165`: the chains are never reset). -/
theorem C41_reused_expander {a b ra : Node} {st : Chain × Chain} (h : expandWith ([], []) a = .ok (st, ra)) :
    ((expandWith st b).map fun x => x.2) = expand (.mul a b) := by
  unfold expandWith at h
  simp only [bind, Except.bind] at h
  cases ha : expandChains a with
  | error e => rw [ha] at h; cases h
  | ok x =>
    obtain ⟨ea, oa⟩ := x
    rw [ha] at h
    simp only [List.nil_append] at h
    have hst : st = (ea, oa) := by
      cases ht : Chain.terms ea with
      | error e => simp only [ht] at h; cases h
      | ok t =>
        simp only [ht] at h
        split at h
        · cases h; rfl
        · cases ho : Chain.terms oa with
          | error e => rw [ho] at h; cases h
          | ok t => rw [ho] at h; cases h; rfl
    subst hst
    unfold expand expandWith
    simp only [expandChains, ha, bind, Except.bind]
    cases hb : expandChains b with
    | error e => rfl
    | ok y =>
      obtain ⟨eb, ob⟩ := y
      simp only [List.nil_append]
      cases Chain.terms (ea ++ eb) with
      | error e => rfl
      | ok t =>
        simp only
        split
        · rfl
        · cases Chain.terms (oa ++ ob) with
          | error e => rfl
          | ok t => rfl

/-- **C41.** A product shifted by a product expands to the expansion shifted by the expansion. -/
theorem C41_shifted {u f ru rf : Node} (hu : Product u) (hf : Product f) (h1 : expand u = .ok ru) (h2 : expand f = .ok rf) :
    expand (.shift u f) = .ok (.shift ru rf) := by
  obtain ⟨c, hc, -, ht⟩ := expander_terms hu
  obtain ⟨c', hc', -, ht'⟩ := expander_terms hf
  have hne := product_chain_ne hf hc'
  simp only [expand, expandWith, expandChains, hc, hc', bind, Except.bind, List.nil_append, if_true, ht ru h1, if_neg hne, ht' rf h2]

/-- **C41.** Whatever is shifted inside a product, quotient or power, only one offset comes out: the expansion is that of the
expression without its offsets, shifted by the expansion of the product of all of them (the offset of a divisor is multiplied
too). -/
theorem C41_offsets_multiplied {e : Node} (hp : ShiftedProduct e) :
    (offsets e = none → expand e = expand (unshifted e)) ∧
    ∀ f, offsets e = some f → Product f ∧ expand e = (do .ok (.shift (← expand (unshifted e)) (← expand f))) := expand_shifted hp

/-- **C41.** An offset that is itself shifted is refused. -/
theorem C41_offset_in_offset_fails {u f f' : Node} (hf : ShiftedProduct f) (h : offsets f = some f') (r : Node) :
    expand (.shift u f) ≠ .ok r := expand_nested hf h r

/-- **C41.** Decimals are multiplied with 28 digits: whatever a product expression expands to, its value has the relative
accuracy of two roundings to 28 digits for each decimal literal; it is exact if there are none. -/
theorem C41_accuracy {σ : Str → ℝ} {e r : Node} (hp : Product e) (hz : Spec.NonZero σ e) (h : expand e = .ok r) :
    |evalNode σ r - evalNode σ e| ≤ relError (1 / 2 * 10 ^ (-27 : ℤ)) (2 * decimals e) * |evalNode σ e| :=
  Fl.Off.sub decU_nonneg decU_lt (expander_off hp hz h)

/-! ### Where the expansion is not the expression -/

/-- **C41 refuted in general**, with decimals: their product is rounded to 28 digits, so
`1000000000000000000000000001. · 1001.` expands to a different number. -/
theorem C41_decimals_refuted :
    ∃ e r, Product e ∧ (∀ σ : Str → ℝ, (∀ n, σ n ≠ 0) → Spec.NonZero σ e) ∧ expand e = .ok r ∧
      ∀ σ : Str → ℝ, evalNode σ r ≠ evalNode σ e := by
  refine ⟨.mul (.number (.dec ⟨false, 1000000000000000000000000001, 0⟩) none) (.number (.dec ⟨false, 1001, 0⟩) none),
    .number (.dec ⟨false, 1001000000000000000000000001, 3⟩) none, ⟨trivial, trivial⟩, ?_, by decide +kernel, ?_⟩
  · intro σ hσ
    refine ⟨?_, hσ⟩
    intro q hq
    have hq : q = (Num.dec ⟨false, 1000000000000000000000000001, 0⟩, none) ∨ q = (Num.dec ⟨false, 1001, 0⟩, none) := by
      simpa [literals] using hq
    rcases hq with rfl | rfl <;> norm_num [numVal, Num.toRat, Dec.toRat]
  · intro σ
    norm_num [evalNode, numVal, Num.toRat, Dec.toRat]

/-- **C41 refuted in general**, with zero: `0/0` expands to 1, `0·(1/0)` likewise. -/
theorem C41_zero_refuted :
    expand (.div (.number (.int 0) none) (.number (.int 0) none)) = .ok (.number (.int 1) none) := by decide +kernel

/-- `a @ x @ y` is the unit `a` with its origin at `x`, then at `y`; `Expander` multiplies the offsets: `(m @ 5) @ 6` expands to
`m @ 30`. -/
theorem C41_nested_shift_refuted :
    expand (.shift (.shift (.ident c!"m") (.number (.int 5) none)) (.number (.int 6) none)) =
      .ok (.shift (.ident c!"m") (.number (.int 30) none)) := by decide +kernel

/-- The factor of a shifted unit is moved inside: `(m @ 5) * 2` and `(m * 2) @ 5` have the same expansion. -/
theorem C41_shift_moved_refuted :
    expand (.mul (.shift (.ident c!"m") (.number (.int 5) none)) (.number (.int 2) none)) =
      expand (.shift (.mul (.ident c!"m") (.number (.int 2) none)) (.number (.int 5) none)) := by decide +kernel

/-- Superscript exponents are text: `m²·m` cannot be expanded. -/
theorem C41_superscript_fails (n s : Str) :
    expand (.mul (.raise (.ident n) (.number (.str s) none)) (.ident n)) = .error .typeError := by
  have h : keyLe (sortKey (.ident n)) (sortKey (.ident n)) = true := (keyLe_total _ _).elim id id
  have hr : strRepeat s 1 = s := by simp [strRepeat]
  simp only [expand, expandWith, expandChains, chainScale, Num.asPyVal, PyVal.mul, bind, Except.bind, List.nil_append,
    List.cons_append, Chain.terms, sortedChain, List.reverse_cons, List.reverse_nil, sortItems, insertItem, h, cond_true, hr,
    expandLoop, expandStep]
  simp [Node.isTerminal, termEq, powTerm, PyVal.add]

/-- Logarithms are not expanded at all. -/
theorem C41_log_fails (b : Str) (t : Node) : expand (.log b t) = .error .notImplemented := rfl

/-! ### Non-trivial cases -/

/-- `2·m/s · s^2 / (3·m)` -/
def Demo.product : Node :=
  .div (.mul (.div (.mul (.number (.int 2) none) (.ident c!"m")) (.ident c!"s")) (.raise (.ident c!"s") (.number (.int 2) none)))
    (.mul (.number (.int 3) none) (.ident c!"m"))

example : expand Demo.product =
    .ok (.mul (.number (.int 2) none) (.mul (.raise (.number (.int 3) none) (.number (.int (-1)) none)) (.ident c!"s"))) := by
  decide +kernel

example : Product Demo.product ∧ OneDecimal Demo.product ∧ Spec.NonZero (fun _ => 7) Demo.product := by
  refine ⟨by simp [Demo.product, Product], ?_, ?_, fun _ => by norm_num⟩
  · intro d raw d' raw' h; simp [Demo.product, literals] at h
  · intro q hq
    simp only [Demo.product, literals, List.cons_append, List.nil_append, List.append_nil, List.mem_cons, List.not_mem_nil, or_false] at hq
    rcases hq with rfl | rfl <;> norm_num [numVal, Num.toRat]

/-- `m·s/m` and `s` -/
example : Product (.div (.mul (.ident c!"m") (.ident c!"s")) (.ident c!"m")) ∧
    literals (.div (.mul (.ident c!"m") (.ident c!"s")) (.ident c!"m")) = [] ∧
    expand (.div (.mul (.ident c!"m") (.ident c!"s")) (.ident c!"m")) = expand (.ident c!"s") := by
  refine ⟨by simp [Product], rfl, by decide +kernel⟩

/-- one decimal, used twice, once in a denominator: `1.5·m / 1.5^3` -/
example : ∃ r, expand (.div (.mul (.number (.dec ⟨false, 15, -1⟩) (some c!"1.5")) (.ident c!"m"))
    (.raise (.number (.dec ⟨false, 15, -1⟩) (some c!"1.5")) (.number (.int 3) none))) = .ok r := ⟨_, rfl⟩

example : ∃ st r, expandWith ([], []) (.ident c!"m") = .ok (st, r) ∧
    (expandWith st (.ident c!"s")).map (fun x => x.2) = .ok (.mul (.ident c!"m") (.ident c!"s")) :=
  ⟨_, _, rfl, by decide +kernel⟩

/-- `(m @ 5)^2 / (s @ 3)`: the offsets are `5^2 · 3` -/
def Demo.shifted : Node :=
  .div (.raise (.shift (.ident c!"m") (.number (.int 5) none)) (.number (.int 2) none)) (.shift (.ident c!"s") (.number (.int 3) none))

example : ShiftedProduct Demo.shifted ∧
    offsets Demo.shifted = some (.mul (.raise (.number (.int 5) none) (.number (.int 2) none)) (.number (.int 3) none)) ∧
    unshifted Demo.shifted = .div (.raise (.ident c!"m") (.number (.int 2) none)) (.ident c!"s") ∧
    expand Demo.shifted = .ok (.shift (.mul (.raise (.ident c!"m") (.number (.int 2) none)) (.raise (.ident c!"s") (.number (.int (-1)) none)))
      (.number (.int 75) none)) :=
  ⟨⟨⟨⟨trivial, trivial⟩, 2, none, rfl⟩, trivial, trivial⟩, rfl, rfl, by decide +kernel⟩

/-- a rounded product: `1000000000000000000000000001. · 1001.`, and a negative one -/
example : decimals (.mul (.number (.dec ⟨false, 1000000000000000000000000001, 0⟩) none) (.number (.dec ⟨true, 1001, 0⟩) none)) = 2 ∧
    expand (.mul (.number (.dec ⟨false, 1000000000000000000000000001, 0⟩) none) (.number (.dec ⟨true, 1001, 0⟩) none)) =
      .ok (.number (.dec ⟨true, 1001000000000000000000000001, 3⟩) none) := ⟨rfl, by decide +kernel⟩

end Verif
