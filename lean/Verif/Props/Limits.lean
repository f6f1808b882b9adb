import Verif.Lemmas.Limits
import Verif.Lemmas.LimitsUnit
import Verif.Props.Print
import Verif.Props.Parser
import Verif.Props.Build
import Verif.Props.Lookup
/-!
# C85: numbers that are too long to read

`parseWithin` is the parser as the interpreter runs it: with a limit on the digits of an integer and on the exponents of a
decimal.  The other properties of the parser are stated about `parse`, which has no such limits; here is when the two agree
and what happens when they do not.
-/

namespace Verif
open Spec

theorem lex_numberTokens (s : Str) : NumberTokens (lex s) := by
  intro t ht
  have h := (lex_iff s _).1 rfl
  refine ⟨fun hi => ?_, fun hk => ?_⟩
  · obtain ⟨v, hv, -⟩ := lexed_int h ht hi
    exact ⟨v, hv⟩
  · obtain ⟨m', r, mo, h1, h2⟩ := tokenises_rule h ht
    rw [← rules_float m' _ h1 hk]; exact h2

theorem strip_infix (s : Str) : ∃ a b, s = a ++ strip s ++ b := by
  unfold strip lstrip
  obtain ⟨a, ha⟩ := List.dropWhile_suffix (l := s) isPySpace
  obtain ⟨b, hb⟩ := List.dropWhile_suffix (l := (s.dropWhile isPySpace).reverse) isPySpace
  refine ⟨a, b.reverse, ?_⟩
  have := congrArg List.reverse hb
  rw [List.reverse_append, List.reverse_reverse] at this
  rw [List.append_assoc, this, ha]

theorem parse_spelled {s : Str} {n : Node} (h : parse s = .ok n) :
    n.Spelled ∧ (numerals n).Sublist ((lex (strip s)).filterMap Token.numeral?) := by
  rcases C30_graph_of_a_derivation s n h with h | ⟨-, rfl⟩
  · exact derives_spelled h (lex_numberTokens _)
  · exact ⟨trivial, by simp [numerals]⟩

/-! ## Which texts are read -/

/-- **C85.** With the limits of the interpreter a text is read if and only if it can be read without them and every number
written in it can be converted; the expression is the same. -/
theorem C85_reads (l : NumLimits) (s : Str) (n : Node) :
    parseWithin l s = .ok n ↔ parse s = .ok n ∧ ∀ x ∈ numerals n, x.Fits l := by
  unfold parseWithin
  cases hp : parse s with
  | error e => simp
  | ok m =>
    have hs := check_spelled l m (parse_spelled hp).1
    constructor
    · intro h
      rcases (hs _).1 rfl with ⟨h1, h2⟩ | ⟨pre, x, post, h1, h2, h3, h4⟩
      · simp only [h1] at h
        cases h
        exact ⟨rfl, h2⟩
      · simp only [h4] at h
        cases h
    · rintro ⟨h, h2⟩
      cases h
      simp only [(hs _).2 (.inl ⟨rfl, h2⟩)]

/-- **C85.** Otherwise the error is a `SyntaxError` if the text is not valid, and if it is, the error of the first number,
from left to right, that cannot be converted: a `ValueError` for an integer, `decimal.InvalidOperation` for a decimal. -/
theorem C85_fails (l : NumLimits) (s : Str) (e : PyErr) :
    parseWithin l s = .error e ↔ (parse s = .error .syntaxError ∧ e = .syntaxError) ∨
      ∃ n pre x post, parse s = .ok n ∧ numerals n = pre ++ x :: post ∧ (∀ y ∈ pre, y.Fits l) ∧ ¬ x.Fits l ∧ e = x.error := by
  unfold parseWithin
  cases hp : parse s with
  | error e' =>
    have := C30_only_syntax_errors _ _ hp
    subst this
    simp [eq_comm]
  | ok m =>
    have hs := check_spelled l m (parse_spelled hp).1
    constructor
    · intro h
      rcases (hs _).1 rfl with ⟨h1, h2⟩ | ⟨pre, x, post, h1, h2, h3, h4⟩
      · simp only [h1] at h
        cases h
      · simp only [h4] at h
        cases h
        exact .inr ⟨m, pre, x, post, rfl, h1, h2, h3, rfl⟩
    · rintro (⟨h, -⟩ | ⟨n, pre, x, post, h, h1, h2, h3, rfl⟩)
      · cases h
      · cases h
        simp only [(hs _).2 (.inr ⟨pre, x, post, h1, h2, h3, rfl⟩)]

/-- **C85.** The numbers of an expression are numbers of the text, in the order of the text. -/
theorem C85_numbers_of_the_text (s : Str) (n : Node) (h : parse s = .ok n) :
    (numerals n).Sublist ((lex (strip s)).filterMap Token.numeral?) ∧
    ∀ x ∈ numerals n, ∃ a b, s = a ++ x.spelling ++ b := by
  have h1 := (parse_spelled h).2
  refine ⟨h1, fun x hx => ?_⟩
  obtain ⟨t, ht, hx⟩ := List.mem_filterMap.1 (h1.subset hx)
  have hsp : x.spelling = t.text := by
    unfold Token.numeral? at hx
    split at hx
    · cases hx; rfl
    · split at hx
      · cases hx; rfl
      · cases hx
  rw [hsp]
  have hl := (C28_lossless (strip s)).1
  obtain ⟨u, v, e⟩ := List.append_of_mem ht
  rw [e] at hl
  simp only [List.map_append, List.map_cons, List.flatten_append, List.flatten_cons] at hl
  obtain ⟨a, b, hab⟩ := strip_infix s
  exact ⟨a ++ (u.map Token.text).flatten, (v.map Token.text).flatten ++ b, by rw [hab, ← hl]; simp⟩

/-- **C85.** Higher limits read more, and nothing differently. -/
theorem C85_monotone (l l' : NumLimits) (h1 : l'.intDigits = 0 ∨ (l.intDigits ≠ 0 ∧ l.intDigits ≤ l'.intDigits))
    (h2 : l'.decMin ≤ l.decMin) (h3 : l.decMax ≤ l'.decMax) (s : Str) (n : Node) (h : parseWithin l s = .ok n) :
    parseWithin l' s = .ok n := by
  rw [C85_reads] at h ⊢
  refine ⟨h.1, fun x hx => ?_⟩
  have := h.2 x hx
  cases x with
  | int c =>
    obtain ⟨sg, ds, k, a1, a2, a3, a4, a5⟩ := this
    exact ⟨sg, ds, k, a1, a2, a3, a4, by omega⟩
  | dec c =>
    obtain ⟨sg, ip, dot, fp, ex, k, e, a1, a2, a3, a4, a5, a6, a7, a8, a9⟩ := this
    exact ⟨sg, ip, dot, fp, ex, k, e, a1, a2, a3, a4, a5, a6, a7, by omega, by omega⟩

/-! ## Texts that are short enough -/

theorem digits_short {s a t b : Str} {c : Char} {e : Int} (h : ShortNumbers s) (hs : s = a ++ c :: t ++ b)
    (hc : c = 'e' ∨ c = 'E') (hv : IntLiteral t e) :
    -(10 ^ 17 : Int) < e ∧ e < 10 ^ 17 := by
  obtain ⟨sg, ds, k, rfl, h1, h2, h3, rfl⟩ := hv
  have := h.2 a c sg k ds b hs hc h1 h3
  have h4 := natValue_lt h3
  have h5 : 10 ^ ds.length ≤ 10 ^ 17 := Nat.pow_le_pow_right (by omega) (by omega)
  have h6 : natValue ds < 10 ^ 17 := Nat.lt_of_lt_of_le h4 h5
  have h7 : (natValue ds : Int) < 10 ^ 17 := by exact_mod_cast h6
  have h8 : (0 : Int) ≤ natValue ds := Int.natCast_nonneg _
  cases h1 <;> constructor <;> omega

/-- **C85.** A text of at most 4300 characters without an exponent of 18 digits is read as if there were no limits: the same
expression, or a `SyntaxError` with and without. -/
theorem C85_short_texts (s : Str) (h : ShortNumbers s) : parseWithin .default s = parse s := by
  cases hp : parse s with
  | error e =>
    have := C30_only_syntax_errors _ _ hp
    subst this
    exact (C85_fails _ _ _).2 (.inl ⟨hp, rfl⟩)
  | ok n =>
    refine (C85_reads _ _ _).2 ⟨hp, fun x hx => ?_⟩
    obtain ⟨a, b, hs⟩ := (C85_numbers_of_the_text s n hp).2 x hx
    have hlen : x.spelling.length ≤ 4300 := by
      have := h.1
      rw [hs, List.length_append, List.length_append] at this
      omega
    have hsp := (parse_spelled hp).2.subset hx
    obtain ⟨t, ht, hx'⟩ := List.mem_filterMap.1 hsp
    have hnum := lex_numberTokens (strip s) t ht
    cases x with
    | int c =>
      have hc : t.isInt ∧ t.text = c := by
        unfold Token.numeral? at hx'
        split at hx'
        · rename_i hk; cases hx'; exact ⟨hk, rfl⟩
        · split at hx' <;> cases hx'
      obtain ⟨v, sg, ds, k, e1, e2, e3, e4, -⟩ := hnum.1 hc.1
      rw [hc.2] at e1
      refine ⟨sg, ds, k, e1, e2, e3, e4, .inr ?_⟩
      simp only [Numeral.spelling, e1, List.length_append] at hlen
      exact Nat.le_trans (Nat.le_add_left _ _) hlen
    | dec c =>
      have hc : t.kind = .FLOAT ∧ t.text = c := by
        unfold Token.numeral? at hx'
        split at hx'
        · cases hx'
        · split at hx'
          · rename_i hk; cases hx'; exact ⟨hk, rfl⟩
          · cases hx'
      have hm := hnum.2 hc.1
      rw [hc.2] at hm
      obtain ⟨sg, ip, dot, fp, ex, k, e, e1, g1, g2, g3, g4, g5, g6⟩ := matches_FLOAT hm
      simp only [Numeral.spelling, e1] at hlen hs
      have hsig : significant (ip ++ fp) ≤ ip.length + fp.length := by
        unfold significant
        have h1 : ((ip ++ fp).dropWhile (· = '0')).length ≤ (ip ++ fp).length := (List.dropWhile_sublist _).length_le
        have h2 : 0 < (ip ++ fp).length := List.length_pos_iff.2 g4
        rw [List.length_append] at h1 h2
        omega
      have he : -(10 ^ 17 : Int) < e ∧ e < 10 ^ 17 := by
        rcases g6 with ⟨-, rfl⟩ | ⟨c', t', rfl, hc', hv⟩
        · decide
        · exact digits_short (a := a ++ sg ++ ip ++ dot ++ fp) (b := b) h (by rw [hs]; simp) hc' hv
      simp only [List.length_append] at hlen
      refine ⟨sg, ip, dot, fp, ex, k, e, e1, g1, g2, g3, g4, g5, g6, ?_, ?_⟩
      · show (-1999999999999999997 : Int) ≤ _
        omega
      · show _ ≤ (999999999999999999 : Int)
        omega

/-! ## Numbers that are too long -/

/-- **C85.** An integer alone: read if it has at most as many digits as the limit, leading zeros included, and otherwise a
`ValueError` (`parse`, without limits, reads every one: C46). -/
theorem C85_integers (l : NumLimits) {sg ds : Str} {k : Int} (hs : Sign sg k) (h0 : ds ≠ []) (hd : Digits ds) :
    parseWithin l (sg ++ ds) = if l.intDigits = 0 ∨ ds.length ≤ l.intDigits
      then .ok (.number (.int (k * natValue ds)) (some (sg ++ ds))) else .error .tooManyDigits := by
  have hv : IntLiteral (sg ++ ds) (k * natValue ds) := ⟨sg, ds, k, rfl, hs, h0, hd, rfl⟩
  unfold parseWithin
  rw [C46_integer_texts _ _ hv]
  simp only [Node.checkNumbers, NumLimits.intOk, List.filter_append, filter_sign hs, filter_digits hd, List.nil_append]
  by_cases h : l.intDigits = 0 ∨ ds.length ≤ l.intDigits
  · simp only [h, decide_true, if_true]
  · simp only [h, decide_false, if_false, Bool.false_eq_true]

/-- **C85.** A decimal alone: read if its last digit and its first significant digit are within the limits, and otherwise
`decimal.InvalidOperation`. -/
theorem C85_decimals (l : NumLimits) {sg ip dot fp ex : Str} {k e : Int} (hs : Sign sg k) (hip : Digits ip)
    (hfp : Digits fp) (h0 : ip ≠ [] ∨ (sg = [] ∧ fp ≠ [])) (hdot : dot = ['.'] ∨ (dot = [] ∧ fp = [] ∧ ex ≠ []))
    (hex : ExpPart ex e) :
    (parseWithin l (sg ++ ip ++ dot ++ fp ++ ex) = .error .invalidOperation ↔
      ¬ (l.decMin ≤ e - fp.length ∧ e - fp.length + (significant (ip ++ fp) : Int) - 1 ≤ l.decMax)) ∧
    ((l.decMin ≤ e - fp.length ∧ e - fp.length + (significant (ip ++ fp) : Int) - 1 ≤ l.decMax) →
      parseWithin l (sg ++ ip ++ dot ++ fp ++ ex) = parse (sg ++ ip ++ dot ++ fp ++ ex)) := by
  have h0' : ip ++ fp ≠ [] := by
    rcases h0 with h | ⟨_, h⟩ <;> simp [h]
  have hp := decParse_literal hs hip hfp h0' (hdot.imp id fun h => ⟨h.1, h.2.1⟩) hex
  obtain ⟨d, h1, -⟩ := C46_decimal_texts hs hip hfp h0 hdot hex
  have hd : d = ⟨decide (k = -1), natValue (ip ++ fp), e - (fp.length : Int)⟩ := by
    obtain ⟨s', he, -, h2⟩ := (parse_spelled h1).1
    have he := Option.some.inj he
    subst he
    rw [hp] at h2
    exact (Except.ok.inj h2).symm
  subst hd
  unfold parseWithin
  rw [h1]
  simp only [Node.checkNumbers, NumLimits.decOk, natStr_significant (digits_append.2 ⟨hip, hfp⟩)]
  by_cases h : l.decMin ≤ e - fp.length ∧ e - fp.length + (significant (ip ++ fp) : Int) - 1 ≤ l.decMax
  · simp only [h, and_self, decide_true, if_true, not_true, iff_false, reduceCtorEq, not_false_eq_true, implies_true]
  · simp only [h, decide_false, if_false, Bool.false_eq_true, not_false_iff, false_imp_iff, and_self]

/-- **C85 (refuted).** A text that the grammar accepts is read: false for a number of 4301 digits, with a `ValueError`, and
for a decimal with a large exponent, with `decimal.InvalidOperation`; zeros count.  Neither is the `SyntaxError` that a text
that is not a unit raises. -/
theorem C85_every_valid_text_is_read_refuted :
    (∃ s n, s.length = 4301 ∧ parse s = .ok n ∧ parseWithin .default s = .error .tooManyDigits) ∧
    parseWithin .default c!"1e1000000000000000000 m" = .error .invalidOperation ∧
    parseWithin .default c!"0e1000000000000000000" = .error .invalidOperation ∧
    (∃ n, parse c!"1e1000000000000000000 m" = .ok n) ∧ (∃ n, parse c!"0e1000000000000000000" = .ok n) ∧
    PyErr.tooManyDigits.cls = .ValueError ∧ PyErr.invalidOperation.cls = .InvalidOperation := by
  have hok : ∀ s, parseWithin .default s = .error .invalidOperation → ∃ n, parse s = .ok n := by
    intro s h
    rcases (C85_fails _ _ _).1 h with ⟨_, h⟩ | ⟨n, _, _, _, h, _⟩
    · cases h
    · exact ⟨n, h⟩
  have h1 : parseWithin .default c!"1e1000000000000000000 m" = .error .invalidOperation := by decide +kernel
  have h2 : parseWithin .default c!"0e1000000000000000000" = .error .invalidOperation := by decide +kernel
  refine ⟨?_, h1, h2, hok _ h1, hok _ h2, rfl, rfl⟩
  have hd : Digits (List.replicate 4301 '0') := fun c hc => by rw [List.eq_of_mem_replicate hc]; decide
  have h0 : List.replicate 4301 '0' ≠ [] := by
    rw [Ne, List.replicate_eq_nil_iff]; decide
  have h := C85_integers .default .none h0 hd
  rw [if_neg (by rw [List.length_replicate]; decide), List.nil_append] at h
  exact ⟨_, _, List.length_replicate, C46_integer_texts _ _ ⟨[], _, 1, rfl, .none, h0, hd, rfl⟩, h⟩

/-! ## Units -/

/-- **C85.** A unit of a text that the limits do not concern, in a system whose definitions they do not concern, after any
history of such texts: the unit is the one without limits, in the same state. -/
theorem C85_units (l : NumLimits) (o : List Str → List Str) (s : System)
    (hs : ∀ ob ∈ s.heap, parseWithin l ob.defn = parse ob.defn) (hist : List Query)
    (hh : ∀ limit t, .unit limit t ∈ hist → parseWithin l t = parse t) (limit : Nat) (text : Str)
    (ht : parseWithin l text = parse text) :
    System.unit ⟨parseWithin l, o⟩ limit text (after ⟨parseWithin l, o⟩ hist s) =
      System.unit ⟨parse, o⟩ limit text (after ⟨parse, o⟩ hist s) := by
  have ha : s.Agree (parseWithin l) parse := by
    intro d hd
    obtain ⟨ob, h1, rfl⟩ := List.mem_map.1 hd
    exact hs ob h1
  have hq : ∀ q ∈ hist, ∀ t ∈ q.texts, parseWithin l t = parse t := by
    intro q hq t ht
    cases q with
    | lookup f n => cases ht
    | unit f t' =>
      cases ht with
      | head => exact hh f t hq
      | tail _ h => cases h
  obtain ⟨h1, h2⟩ := cong_after (o := o) hist hq s ha
  rw [← h1]
  exact (cong_unit limit ht _ h2).1

/-! ## Examples -/

/-- three digits, and exponents from -5 to 5 -/
def Demo.limits : NumLimits := ⟨3, -5, 5⟩

-- which numbers are refused, and which of them is reported
example : parseWithin Demo.limits c!"1234 m" = .error .tooManyDigits := by decide +kernel
example : parseWithin Demo.limits c!"0012 m" = .error .tooManyDigits := by decide +kernel
example : parseWithin Demo.limits c!"1e6 m1234" = .error .invalidOperation := by decide +kernel
example : parseWithin Demo.limits c!"m1234 1e6" = .error .tooManyDigits := by decide +kernel
example : parseWithin Demo.limits c!"1234 m)" = .error .syntaxError := by decide +kernel
-- and which are not: 5.25 has a last digit of 10^-2, zeros in front of a decimal do not count, nor do timestamps
example : parseWithin Demo.limits c!"123 m 5.25" = parse c!"123 m 5.25" := by decide +kernel
example : parseWithin Demo.limits c!"00000000.1e6" = parse c!"00000000.1e6" := by decide +kernel
example : parseWithin Demo.limits c!"s since 2000-01-01" = parse c!"s since 2000-01-01" := by decide +kernel
-- the first number that does not fit
example : numerals (.mul (.number (.int 1234) (some c!"1234")) (.number (.dec ⟨false, 1, 6⟩) (some c!"1e6"))) =
    [] ++ Numeral.int c!"1234" :: [.dec c!"1e6"] ∧ ¬ (Numeral.int c!"1234").Fits Demo.limits := by
  refine ⟨rfl, fun h => ?_⟩
  have := (intOk_iff (l := Demo.limits) (c := c!"1234") ⟨[], c!"1234", 1, rfl, .none, by decide, by unfold Digits; decide +kernel, rfl⟩).2 h
  revert this
  decide +kernel
-- a short text, a lone integer and a lone decimal
example : ShortNumbers c!"m2" := by
  refine ⟨by decide, fun a c sg k ds b h _ _ _ => ?_⟩
  have := congrArg List.length h
  simp only [List.length_append, List.length_cons, List.length_nil] at this
  omega
example : Sign c!"-" (-1) ∧ c!"1234" ≠ [] ∧ Digits c!"1234" := ⟨.minus, by decide, by unfold Digits; decide +kernel⟩
example : parseWithin Demo.limits (c!"-" ++ c!"1234") = .error .tooManyDigits := by decide +kernel
example : Digits c!"12" ∧ Digits c!"5" ∧ ExpPart c!"e-5" (-5) :=
  ⟨by unfold Digits; decide +kernel, by unfold Digits; decide +kernel,
   .inr ⟨'e', c!"-5", rfl, .inl rfl, c!"-", c!"5", -1, rfl, .minus, by decide, by unfold Digits; decide +kernel, by decide⟩⟩
example : parseWithin Demo.limits (c!"" ++ c!"12" ++ c!"." ++ c!"5" ++ c!"e-5") = .error .invalidOperation := by decide +kernel
-- a system, a history and a text that these limits do not concern
example : (∀ ob ∈ Demo.klick.heap, parseWithin Demo.limits ob.defn = parse ob.defn) ∧
    parseWithin Demo.limits c!"100 klick" = parse c!"100 klick" := by decide +kernel

end Verif
