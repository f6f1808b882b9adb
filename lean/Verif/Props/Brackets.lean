import Verif.Lemmas.Brackets
/-!
# C34: the meaning of a bracketed text
-/

namespace Verif
open Spec (IntLiteral)

/-- **C34.** Brackets around a whole text change nothing: `(s)` parses to what `s` parses to, for every text `s`, with or
without shifts, dates, logarithms or further brackets. -/
theorem C34_brackets_transparent (s : Str) (e : Node) (h : parse s = .ok e) (he : e ≠ .unhandled []) :
    parse (c!"(" ++ strip s ++ c!")") = .ok e := by
  have h1 := parse_reads h he
  have h2 := tokenises_bracket ((lex_iff (strip s) _).1 rfl) (rest := []) (fun m _ => .nil m)
  refine parse_of_tokens (by simpa using h2) (.shiftProd (.prodPower (.powPlain ?_))) (strip_brackets _)
  simpa using reads_bracket h1

/-- **C34.** If `s` contains no shift sign, `(s)*(t)` and `(s)/(t)` mean the product and the quotient of what `s` and `t` mean on
their own. -/
theorem C34_products_compositional (s t : Str) (a b : Node) (hs : parse s = .ok a) (ht : parse t = .ok b)
    (ha : a ≠ .unhandled []) (hb : b ≠ .unhandled []) (hno : ∀ u ∈ lex (strip s), u.kind ≠ .SHIFT_OP) :
    parse (c!"(" ++ (strip s ++ c!")*(" ++ strip t) ++ c!")") = .ok (.mul a b) ∧
    parse (c!"(" ++ (strip s ++ c!")/(" ++ strip t) ++ c!")") = .ok (.div a b) := by
  have h1 := parse_reads hs ha
  have h2 := parse_reads ht hb
  have k2 := tokenises_bracket ((lex_iff (strip t) _).1 rfl) (rest := []) (fun m _ => .nil m)
  constructor
  · have k1 := tokenises_bracket ((lex_iff (strip s) _).1 rfl) (rest := c!"*" ++ (c!"(" ++ (strip t ++ [')'])))
      (fun m hm => by
        rw [hm hno]
        exact tokenises_cons (tok_star _) k2)
    refine parse_of_tokens (by simpa using k1) ?_ (strip_brackets _)
    have := Reads.shiftProd (.prodMul (o := ⟨.MULTIPLY, c!"*"⟩) (.prodPower (.powPlain (reads_bracket h1))) rfl
      (.powPlain (reads_bracket h2)))
    simpa using this
  · have k1 := tokenises_bracket ((lex_iff (strip s) _).1 rfl) (rest := c!"/" ++ (c!"(" ++ (strip t ++ [')'])))
      (fun m hm => by
        rw [hm hno]
        exact tokenises_cons (tok_div (by decide) (fun c t h => by cases h; decide)) k2)
    refine parse_of_tokens (by simpa using k1) ?_ (strip_brackets _)
    have := Reads.shiftProd (.prodDiv (o := ⟨.DIVIDE, c!"/"⟩) (.prodPower (.powPlain (reads_bracket h1))) rfl
      (.powPlain (reads_bracket h2)))
    simpa using this

/-- **C34 (refuted).** The same without the condition on `s`: false. `K @ 10` and `T` (tesla) both parse, but
`(K @ 10)*(T)` is a syntax error, because the lexer stays in shift mode, where `T` is part of a timestamp; swapping the
factors makes it parse. And `m2.5` after a shift is no longer `m²·0.5`. -/
theorem C34_context_refuted :
    (¬ ∀ s t a b, parse s = .ok a → parse t = .ok b → a ≠ .unhandled [] → b ≠ .unhandled [] →
      parse (c!"(" ++ (strip s ++ c!")*(" ++ strip t) ++ c!")") = .ok (.mul a b)) ∧
    (∃ e, parse c!"(T)*(K @ 10)" = .ok e) ∧
    parse c!"m2.5" = .ok (.mul (.raise (.ident c!"m") (.number (.int 2) (some c!"2"))) (.number (.dec ⟨false, 5, -1⟩) (some c!".5"))) ∧
    parse c!"(K @ 10)*(m2.5)" = .ok (.mul (.shift (.ident c!"K") (.number (.int 10) (some c!"10")))
      (.mul (.ident c!"m") (.number (.dec ⟨false, 25, -1⟩) (some c!"2.5")))) := by
  refine ⟨fun h => ?_, ?_, by decide +kernel, by decide +kernel⟩
  · have := h c!"K @ 10" c!"T" (.shift (.ident c!"K") (.number (.int 10) (some c!"10"))) (.ident c!"T") (by decide +kernel)
      (by decide +kernel) (by decide) (by decide)
    revert this
    decide +kernel
  · exact ⟨.mul (.ident c!"T") (.shift (.ident c!"K") (.number (.int 10) (some c!"10"))), by decide +kernel⟩

/-- non-vacuity: a text without shift signs -/
example : (∀ u ∈ lex (strip c!"kg m2/s^2"), u.kind ≠ .SHIFT_OP) ∧ (parse c!"kg m2/s^2").isOk = true ∧
    (parse c!"hours since 1990-01-01 12:00").isOk = true := by decide +kernel

end Verif
