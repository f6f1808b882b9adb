import Verif.Lemmas.ParserLimit
import Verif.Props.GeneratedParser
import Verif.Props.Print
/-!
# C75: parsing under Python's recursion limit

`generatedParseLim limit` is `parse` as it runs (C67) with `limit` nested calls left for the visitor of the parse tree.
-/

namespace Verif.PSim
open ParserTable Spec
set_option maxRecDepth 100000

/-- **C75.** For every text there is a number of nested calls, at most ten per character and 25 more: with as many `parse` does what
it does without limit, with fewer it raises `RecursionError`, whatever was parsed before.  An expression nested `d` deep needs
more than `4 d`. -/
theorem C75_threshold {A : Atn} (hA : deserialize parserAtnData = some A) (recover : Recover) (s : Str) :
    ∃ need, need ≤ 10 * s.length + 25 ∧ (∀ n, parse s = .ok n → 4 * n.depth < need) ∧
      ∀ (limit : Nat) {lexer : Caches} {parser : List PDfa}, CacheHistory lexer → ParserHistory A parser →
        ∃ lexer' parser', generatedParseLim limit recover s lexer parser =
          some (if need ≤ limit then parse s else .error .recursionError, lexer', parser') := by
  obtain rfl : A = atn := Option.some.inj (hA.symm.trans parser_atn)
  obtain ⟨need, h1, h2, h3⟩ := parseLim_ok recover s
  refine ⟨need, h1, h2, fun limit lexer parser hl hp => ?_⟩
  obtain ⟨l', p', h, _⟩ := h3 limit (memOk_of hl.sound hp.ok)
  exact ⟨l', p', h⟩

/-- **C75.** The limit has no influence on what is left in the caches. -/
theorem C75_caches (limit : Nat) (recover : Recover) (s : Str) (lexer : Caches) (parser : List PDfa) :
    ((parseLimP limit recover s).alone ⟨lexer, parser⟩).2 = ((parseP recover s).alone ⟨lexer, parser⟩).2 := by
  unfold parseLimP parseP
  rw [alone_bind, alone_bind]
  cases ((generatedLexP (strip s)).alone ⟨lexer, parser⟩).1 with
  | none => rfl
  | some toks =>
    dsimp only
    unfold parserLimP parserP
    cases deserialize parserAtnData with
    | none => rfl
    | some A =>
      dsimp only
      rw [alone_bind, alone_bind]
      rfl

/-- One text after the other in one process, each with its own number of nested calls left; a text that raises is followed by the
next. -/
def parseManyLim (recover : Recover) : List (Nat × Str) → Caches → List PDfa → Option (List (Py Node))
  | [], _, _ => some []
  | (limit, s) :: ss, lexer, parser =>
    match generatedParseLim limit recover s lexer parser with
    | none => none
    | some (r, lexer, parser) => (parseManyLim recover ss lexer parser).map (r :: ·)

/-- an answer that is right, or no answer: `RecursionError`, and only where few nested calls are left -/
def RightOrRecursion (x : Nat × Str) (r : Py Node) : Prop :=
  r = parse x.2 ∨ r = .error .recursionError ∧ x.1 < 10 * x.2.length + 25

/-- **C75.** In a process that parses any texts one after the other at any depths of the stack, each result is right or
`RecursionError`: a `RecursionError` leaves nothing behind that could spoil a later result. -/
theorem C75_sessions {A : Atn} (hA : deserialize parserAtnData = some A) (recover : Recover) (texts : List (Nat × Str)) :
    ∃ rs, parseManyLim recover texts Caches.empty (PCaches.empty A) = some rs ∧ List.Forall₂ RightOrRecursion texts rs := by
  obtain rfl : A = atn := Option.some.inj (hA.symm.trans parser_atn)
  suffices h : ∀ (lexer : Caches) (parser : List PDfa), MemOk ⟨lexer, parser⟩ →
      ∃ rs, parseManyLim recover texts lexer parser = some rs ∧ List.Forall₂ RightOrRecursion texts rs from
    h _ _ (memOk_of CacheHistory.fresh.sound empty_ok)
  induction texts with
  | nil => intro _ _ _; exact ⟨[], rfl, .nil⟩
  | cons x ss ih =>
    intro lexer parser hm
    obtain ⟨limit, s⟩ := x
    obtain ⟨need, h1, _, h3⟩ := parseLim_ok recover s
    obtain ⟨l', p', h, hm'⟩ := h3 limit hm
    obtain ⟨rs, hr, hf⟩ := ih l' p' hm'
    refine ⟨(if need ≤ limit then parse s else .error .recursionError) :: rs, ?_, .cons ?_ hf⟩
    · simp only [parseManyLim, h, hr]; rfl
    · by_cases hn : need ≤ limit
      · rw [if_pos hn]; exact Or.inl rfl
      · rw [if_neg hn]; exact Or.inr ⟨rfl, by show limit < 10 * s.length + 25; omega⟩

theorem factorsNode_str : ∀ n, (factorsNode n).str = factors n
  | 0 => by simp only [factorsNode, factors, Node.str]
  | n + 1 => by simp only [factorsNode, factors, Node.str, factorsNode_str n]

theorem factorsNode_depth : ∀ n, (factorsNode n).depth = n
  | 0 => rfl
  | n + 1 => by simp only [factorsNode, Node.depth, factorsNode_depth n]; omega

theorem factorsNode_respell : ∀ n, respell (factorsNode n) = factorsNode n
  | 0 => rfl
  | n + 1 => by simp only [factorsNode, respell, factorsNode_respell n]

theorem factorsNode_printable : ∀ n, Printable .product (factorsNode n)
  | 0 => .factor (.plain (.ident (by unfold IdentWord; decide +kernel)))
  | n + 1 => .mul (factorsNode_printable n) (.plain (.ident (by unfold IdentWord; decide +kernel)))

/-- **C75.** `m·m·…·m` is a text of the grammar, and the product of its factors, however many there are … -/
theorem C75_factors (n : Nat) : parse (factors n) = .ok (factorsNode n) := by
  have := C32_print_parse (factorsNode n) (.product (factorsNode_printable n))
  rwa [factorsNode_str, factorsNode_respell] at this

/-- **C75.** … but it raises `RecursionError` if there are more factors than a quarter of the nested calls left: with Python's
default of 1000, `m·m·…·m` with 251 factors. -/
theorem C75_long_products {A : Atn} (hA : deserialize parserAtnData = some A) (recover : Recover) {limit n : Nat}
    (h : limit ≤ 4 * n) {lexer : Caches} {parser : List PDfa} (hl : CacheHistory lexer) (hp : ParserHistory A parser) :
    ∃ lexer' parser', generatedParseLim limit recover (factors n) lexer parser =
      some (.error .recursionError, lexer', parser') := by
  obtain ⟨need, _, h2, h3⟩ := C75_threshold hA recover (factors n)
  have := h2 _ (C75_factors n)
  rw [factorsNode_depth] at this
  obtain ⟨l', p', he⟩ := h3 limit hl hp
  exact ⟨l', p', by rw [he, if_neg (by omega)]⟩

/-- **C75 (refuted).** No recursion limit is enough for all texts of the grammar. -/
theorem C75_some_limit_suffices_refuted (recover : Recover) : ¬ ∃ limit, ∀ A lexer parser s n,
    deserialize parserAtnData = some A → CacheHistory lexer → ParserHistory A parser → parse s = .ok n →
      ∃ lexer' parser', generatedParseLim limit recover s lexer parser = some (.ok n, lexer', parser') := by
  rintro ⟨limit, h⟩
  obtain ⟨l1, p1, h1⟩ := h atn Caches.empty (PCaches.empty atn) (factors limit) _ parser_atn CacheHistory.fresh ParserHistory.fresh
    (C75_factors limit)
  obtain ⟨l2, p2, h2⟩ := C75_long_products parser_atn recover (limit := limit) (n := limit) (by omega) CacheHistory.fresh
    ParserHistory.fresh
  rw [h1] at h2
  cases h2

/-- `m·m·m` needs 35 nested calls: with 34 it raises, then the same text with 35 parses -/
example : parseManyLim (fun _ => none) [(34, c!"m·m·m"), (35, c!"m·m·m"), (35, c!"m)")] Caches.empty (PCaches.empty atn) =
    some [.error .recursionError, .ok (factorsNode 2), .error .syntaxError] := by
  decide +kernel

end Verif.PSim
