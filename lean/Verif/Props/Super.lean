import Verif.Lemmas.Super
import Verif.Props.Units
/-!
# C30, C43 (continued): logarithm functions and superscript exponents, for every text
-/

namespace Verif
open Spec (IdentWord Superscript LogOpening logFunctions IntLiteral)

/-- **C30.** Every LOG token of every text is the opening of one of the four logarithms, with blanks, `RE` and the colon as
the grammar allows them, and the logarithm built for it is that one. -/
theorem C30_log_functions (s : Str) (t : Token) (ht : t ∈ lex s) (hk : t.kind = .LOG) :
    ∃ fn ∈ logFunctions, LogOpening fn t.text ∧ logName t.text = fn :=
  log_token ((lex_iff s _).1 rfl) ht hk

/-- **C30.** Every superscript token of every text is a run of superscript characters, and the exponent built for it is the
ASCII text it spells. -/
theorem C30_superscripts (s : Str) (t : Token) (ht : t ∈ lex s) (hk : t.kind = .UNICODE_EXPONENT) :
    ∃ a, t.text ≠ [] ∧ Superscript t.text a ∧ unicodeExponent t.text = .number (.str a) (some a) :=
  uni_token ((lex_iff s _).1 rfl) ht hk

example : (lex c!"lb ( RE: mW)⁻¹²").map Token.kind = [.LOG, .ID, .CLOSE_PAREN, .UNICODE_EXPONENT] ∧
    parse c!"lb ( RE: mW)⁻¹²" = .ok (.raise (.log c!"lb" (.ident c!"mW")) (.number (.str c!"-12") (some c!"-12"))) := by
  decide +kernel

/-- **C33.** The ways of writing an exponent in ASCII: `w^i`, `w**i` and `wi` are the same power, for every identifier word
and every integer literal, signed or not. -/
theorem C33_exponent_spellings (w a : Str) (i : Int) (hw : IdentWord w) (ha : IntLiteral a i) :
    parse (w ++ c!"^" ++ a) = .ok (.raise (.ident w) (.number (.int i) (some a))) ∧
    parse (w ++ c!"**" ++ a) = .ok (.raise (.ident w) (.number (.int i) (some a))) ∧
    (w ≠ c!"e" → w ≠ c!"E" → parse (w ++ a) = .ok (.raise (.ident w) (.number (.int i) (some a)))) := by
  refine ⟨?_, ?_, fun h1 h2 => parse_juxt hw ⟨h1, h2⟩ ha⟩
  · rw [List.append_assoc]; exact parse_raise hw ha (Or.inl rfl)
  · rw [List.append_assoc]; exact parse_raise hw ha (Or.inr rfl)

/-- the exception is real: `e2` is not `e^2` -/
example : parse c!"e2" = .error .syntaxError ∧ parse c!"e^2" = .ok (.raise (.ident c!"e") (.number (.int 2) (some c!"2"))) ∧
    parse c!"s-2" = .ok (.raise (.ident c!"s") (.number (.int (-2)) (some c!"-2"))) := by decide +kernel

/-- **C43.** A word with a superscript exponent, whatever the word and the exponent, parses as that word to the power
spelled by the superscripts — but as text: the dimensionality of the unit (unless the word is dimensionless) is a TypeError,
where the ASCII spelling of the same exponent multiplies the dimensionality by it. -/
theorem C43_superscript_texts (w sup a : Str) (i : Int) (hw : IdentWord w) (hs : Superscript sup a) (ha : IntLiteral a i)
    (names : Option UnitReference) (refs : List (Str × Ref)) (r : Ref) (d : Dims) (hr : Dict.get w refs = some r)
    (hd : r.dims = .ok d) (hne : d ≠ []) :
    (∃ e, parse (w ++ sup) = .ok e ∧ (Ref.unit names e refs).dims = .error .typeError) ∧
    ∃ e d', parse (w ++ c!"^" ++ a) = .ok e ∧ (Ref.unit names e refs).dims = .ok d' ∧
      ∀ x, Dims.power x d' = i * Dims.power x d := by
  have h0 : sup ≠ [] := by
    rintro rfl
    cases hs
    obtain ⟨sg, ds, _, h1, _, h2, _⟩ := ha
    exact h2 (List.append_eq_nil_iff.1 h1.symm).2
  refine ⟨⟨_, parse_super hw h0 hs, C43_superscript_dimensionality_raises names refs w a _ hr hd hne⟩, ?_⟩
  obtain ⟨d1, h1, h2⟩ := C09_dimensionality_of_identifier names refs w r hr d hd
  obtain ⟨g1, g2⟩ := C09_dimensionality_of_power names refs (.ident w) trivial i (some a)
  obtain ⟨d', hd'⟩ := g1.2 ⟨d1, h1⟩
  refine ⟨_, d', (C33_exponent_spellings w a i hw ha).1, hd', fun x => ?_⟩
  rw [g2 d' d1 hd' h1 x, h2 x]

example : IdentWord c!"m" ∧ Superscript c!"⁻¹⁰" c!"-10" ∧ IntLiteral c!"-10" (-10) ∧
    (∃ r, Dict.get c!"m" [(c!"m", Demo.m)] = some r ∧ r.dims = .ok [(Demo.metre, 1)]) :=
  ⟨by unfold IdentWord; decide +kernel, .cons (by decide) (.cons (by decide) (.cons (by decide) .nil)),
    ⟨c!"-", c!"10", -1, rfl, .minus, by decide, by unfold Spec.Digits; decide +kernel, by decide +kernel⟩, Demo.m, by decide +kernel, by decide +kernel⟩

end Verif
