import Verif.Lemmas.PrintParse
/-!
# Texts in brackets
-/

namespace Verif

theorem mode_after {m m' : Mode} {s : Str} {k : Kind} {n : Nat} (h : NextToken m s k n m') : m' = m.after k := by
  obtain ⟨i, r, mo, h1, rfl, _⟩ := h
  have key : ∀ m : Mode, ∀ q ∈ m.rules, q.2.2.getD m = m.after q.1 := by
    intro m; cases m <;> decide +kernel
  exact key m _ (List.mem_of_getElem? h1)

/-- the mode after some tokens -/
def Mode.afterAll (m : Mode) : List Token → Mode
  | [] => m
  | t :: ts => (m.after t.kind).afterAll ts

/-- `)` does not change the tokens before it -/
theorem tokenises_close {s : Str} {b : List Token} {m : Mode} (h : Tokenises m s b) {rest : Str} {ts : List Token}
    (hr : Tokenises (m.afterAll b) (')' :: rest) ts) : Tokenises m (s ++ ')' :: rest) (b ++ ts) := by
  induction h with
  | nil => exact hr
  | @cons m m' s k n us hn _ ih =>
    have hm' := mode_after hn
    have hc : m.rules.all (fun q => q.2.1.shortFor ')') = true := by cases m <;> decide +kernel
    have hn' := nextToken_sep hn ')' hc rest
    subst hm'
    obtain ⟨_, _, _, _, _, _, hle, _⟩ := hn
    have := Tokenises.cons hn' (ts := us ++ ts) (by
      rw [List.drop_append_of_le_length hle]
      exact ih hr)
    rwa [List.take_append_of_le_length hle] at this

theorem afterAll_noShift {m : Mode} (hm : m ≠ .SHIFT_MODE) {b : List Token} (h : ∀ t ∈ b, t.kind ≠ .SHIFT_OP) :
    m.afterAll b ≠ .SHIFT_MODE := by
  induction b generalizing m with
  | nil => exact hm
  | cons t b ih =>
    refine ih ?_ fun u hu => h u (List.mem_cons_of_mem _ hu)
    have := h t (List.mem_cons_self ..)
    intro h'
    cases m with
    | SHIFT_MODE => exact hm rfl
    | ID_SEEN => exact absurd h' (by simp [Mode.after])
    | DEFAULT_MODE =>
      revert this h'
      generalize t.kind = k
      cases k <;> simp [Mode.after]

/-- the tokens of a bracketed text, with what follows -/
theorem tokenises_bracket {s : Str} {b : List Token} (h : Tokenises .DEFAULT_MODE s b) {rest : Str}
    {ts : List Token} (hr : ∀ m, ((∀ t ∈ b, t.kind ≠ .SHIFT_OP) → m = .DEFAULT_MODE) → Tokenises m rest ts) :
    Tokenises .DEFAULT_MODE (c!"(" ++ (s ++ (')' :: rest))) (⟨.OPEN_PAREN, c!"("⟩ :: (b ++ (⟨.CLOSE_PAREN, c!")"⟩ :: ts))) := by
  refine tokenises_cons (tok_open _) (tokenises_close h ?_)
  obtain ⟨m', h1, h2⟩ := tok_close (Mode.afterAll .DEFAULT_MODE b) rest
  have := tokenises_cons (w := c!")") (rest := rest) h1 (hr m' fun hb => h2 (afterAll_noShift (by decide) hb))
  simpa using this

theorem reads_bracket {b : List Token} {e : Node} (h : Reads .shift b e) :
    Reads .logarithm ([⟨.OPEN_PAREN, c!"("⟩] ++ b ++ [⟨.CLOSE_PAREN, c!")"⟩]) e := .logBasic (.basicParen rfl rfl h)

/-- the text of a successful parse, stripped -/
theorem parse_reads {s : Str} {e : Node} (h : parse s = .ok e) (he : e ≠ .unhandled []) : Reads .shift (lex (strip s)) e := by
  rcases (parseTokens_iff _ e).1 h with h | ⟨_, rfl⟩
  · exact h
  · exact absurd rfl he

theorem parse_of_tokens {s : Str} {ts : List Token} {e : Node} (h1 : Tokenises .DEFAULT_MODE s ts) (h2 : Reads .shift ts e)
    (h3 : strip s = s) : parse s = .ok e := by
  unfold parse
  rw [h3, (lex_iff s ts).2 h1]
  exact (parseTokens_iff _ _).2 (Or.inl h2)

theorem strip_brackets (s : Str) : strip (c!"(" ++ s ++ c!")") = c!"(" ++ s ++ c!")" := by
  refine strip_eq ?_ ?_
  · intro c t h; cases h; decide
  · intro c t h
    have := congrArg List.getLast? h
    rw [List.getLast?_concat, List.getLast?_concat] at this
    cases this; decide

theorem tok_star (rest : Str) : NextToken .DEFAULT_MODE (c!"*" ++ '(' :: rest) .MULTIPLY 1 .DEFAULT_MODE :=
  nextToken_fixed (w := c!"*") (best_token (n := 1) (mo := none) (by decide +kernel) rfl rfl (by simp)) [('(', '(')] (by decide +kernel)
    (fun c t h => by cases h; decide)

end Verif
