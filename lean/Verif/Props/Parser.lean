import Verif.Lemmas.Accepts
import Verif.Spec.Print
/-!
# C28–C31, C33, C46: text to tokens to graphs
-/

namespace Verif

/-! ## C28 -/

/-- **C28.** Tokenisation is total and lossless: the texts of the tokens of `s` concatenate to `s`, and no token is
empty (so there are at most as many tokens as characters). -/
theorem C28_lossless (s : Str) : ((lex s).map Token.text).flatten = s ∧ (∀ t ∈ lex s, t.text ≠ []) ∧ (lex s).length ≤ s.length := by
  obtain ⟨h1, h2⟩ := tokenises_lossless ((lex_iff s _).1 rfl)
  refine ⟨h1, h2, ?_⟩
  have : ∀ ts : List Token, (∀ t ∈ ts, t.text ≠ []) → ts.length ≤ ((ts.map Token.text).flatten).length := by
    intro ts
    induction ts with
    | nil => intro _; exact Nat.le_refl _
    | cons t ts ih =>
      intro h
      have h1 := ih fun u hu => h u (List.mem_cons_of_mem _ hu)
      have h2 : 0 < t.text.length := List.length_pos_iff.2 (h t (List.mem_cons_self ..))
      simp only [List.map_cons, List.flatten_cons, List.length_append, List.length_cons]
      omega
  have := this _ h2
  rwa [h1] at this

/-- non-vacuity: a text with signs, blanks and characters outside the grammar -/
example : (lex c!"m2 \n#7").map Token.kind = [.ID, .INT, .WS, .ERRORCHARACTER, .ERRORCHARACTER, .INT] := by decide +kernel

/-! ## C29 -/

/-- **C29.** The tokens of a text are the maximal-munch tokens: one after the other, each a longest match of the rules of
the current mode, the first such rule in grammar order; and there is only one such tokenisation. -/
theorem C29_maximal_munch (s : Str) (ts : List Token) : lex s = ts ↔ Tokenises .DEFAULT_MODE s ts := lex_iff s ts

/-- **C29.** The mode after a token: a shift sign enters shift mode, an identifier the after-identifier mode; the
after-identifier mode ends with the next token (whatever it is — even a shift sign or another identifier); shift mode is
never left. -/
theorem C29_modes {m m' : Mode} {s : Str} {k : Kind} {n : Nat} (h : NextToken m s k n m') : m' = m.after k := by
  obtain ⟨i, r, mo, h1, rfl, _⟩ := h
  have key : ∀ m : Mode, ∀ q ∈ m.rules, q.2.2.getD m = m.after q.1 := by
    intro m; cases m <;> decide +kernel
  exact key m _ (List.mem_of_getElem? h1)

/-- **C29.** Which tokens there are where: no decimal number directly after an identifier (so `m2.5` is not `m` and `2.5`), no
date or time tokens before a shift sign. -/
theorem C29_tokens_by_mode {m m' : Mode} {s : Str} {k : Kind} {n : Nat} (h : NextToken m s k n m') :
    (m = .ID_SEEN → k ≠ .FLOAT) ∧
    (k ∈ [.TIMEZONE, .TZ, .HOUR_MINUTE_SECOND, .HOUR_MINUTE, .M_MINUS, .DATE, .T, .TIMESTAMP] → m = .SHIFT_MODE) := by
  obtain ⟨i, r, mo, h1, _⟩ := h
  have key : ∀ m : Mode, ∀ q ∈ m.rules, (m = .ID_SEEN → q.1 ≠ .FLOAT) ∧
      (q.1 ∈ [Kind.TIMEZONE, .TZ, .HOUR_MINUTE_SECOND, .HOUR_MINUTE, .M_MINUS, .DATE, .T, .TIMESTAMP] → m = .SHIFT_MODE) := by
    intro m; cases m <;> decide +kernel
  exact key m _ (List.mem_of_getElem? h1)

/-- **C29.** What the tokens are: integers are ASCII digits, optionally signed; identifiers are non-empty runs of letters,
underscores and some Latin and Greek characters (no digits); a blank is one space; shift signs are the five spellings. -/
theorem C29_token_shapes (s : Str) {t : Token} (ht : t ∈ lex s) :
    (t.kind = .INT → t.text ≠ [] ∧ Spec.Digits t.text) ∧
    (t.kind = .SIGNED_INT → ∃ c ds, t.text = c :: ds ∧ (c = '-' ∨ c = '+') ∧ ds ≠ [] ∧ Spec.Digits ds) ∧
    (t.kind = .ID → t.text ≠ [] ∧ ∀ c ∈ t.text, Spec.IdentChar c ∧ ¬ Spec.Digits [c]) ∧
    (t.kind = .WS → t.text = [' ']) ∧
    (t.kind = .SHIFT_OP → t.text ∈ [c!"@", c!"after", c!"from", c!"since", c!"ref"]) := by
  obtain ⟨m', r, mo, h1, h2⟩ := tokenises_rule ((lex_iff s _).1 rfl) ht
  refine ⟨fun hk => ?_, fun hk => ?_, fun hk => ?_, fun hk => ?_, fun hk => ?_⟩
  · have : r = _ := rules_int m' _ h1 hk
    subst this
    exact matches_INT.1 h2
  · have : r = _ := rules_signed m' _ h1 hk
    subst this
    obtain ⟨sg, ds, h3, h4, h5, h6⟩ := matches_SIGNED_INT.1 h2
    rcases h4 with rfl | rfl
    · exact ⟨_, ds, h3, Or.inl rfl, h5, h6⟩
    · exact ⟨_, ds, h3, Or.inr rfl, h5, h6⟩
  · have : r = _ := rules_id m' _ h1 hk
    subst this
    obtain ⟨h3, h4⟩ := matches_plus_cls.1 h2
    refine ⟨h3, fun c hc => ⟨h4 c hc, fun hd => ?_⟩⟩
    have hd := hd c (List.mem_singleton.2 rfl)
    obtain ⟨lo, hi, g1, g2, g3⟩ := inRanges_iff.1 (h4 c hc)
    have : ∀ q ∈ Rule.idRanges, q.2.toNat < '0'.toNat ∨ '9'.toNat < q.1.toNat := by decide +kernel
    have := this _ g1
    simp only at this
    omega
  · have : r = _ := rules_ws m' _ h1 hk
    subst this
    exact matches_chr.1 h2
  · have : r = _ := rules_shift m' _ h1 hk
    subst this
    simp only [Rule.SHIFT_OP, Re.alts, matches_alt, matches_chr, matches_lit] at h2
    simp only [List.mem_cons, List.not_mem_nil, or_false]
    exact h2

/-- the same text in the three modes -/
example : ((lex c!"2.5"), (lex c!"m2.5"), (lex c!"s since 2.5")) =
    ([⟨.FLOAT, c!"2.5"⟩], [⟨.ID, c!"m"⟩, ⟨.INT, c!"2"⟩, ⟨.FLOAT, c!".5"⟩],
     [⟨.ID, c!"s"⟩, ⟨.WS, c!" "⟩, ⟨.SHIFT_OP, c!"since"⟩, ⟨.WS, c!" "⟩, ⟨.FLOAT, c!"2.5"⟩]) := by decide +kernel

/-! ## C30 -/

/-- **C30.** `parse` succeeds exactly on the texts whose token kinds the grammar's `unit_spec` accepts. -/
theorem C30_accepts_exactly_the_grammar (s : Str) :
    (∃ n, parse s = .ok n) ↔ lex (strip s) = [] ∨ Accepts .shift (lex (strip s)) := by
  unfold parse
  constructor
  · rintro ⟨n, h⟩
    rcases (parseTokens_iff _ n).1 h with h | h
    · exact Or.inr (accepts_of_derives (derives_of_reads h))
    · exact Or.inl h.1
  · rintro (h | h)
    · exact ⟨_, (parseTokens_iff _ _).2 (Or.inr ⟨h, rfl⟩)⟩
    · obtain ⟨n, hd⟩ := derives_of_accepts h (convertible_lex _)
      obtain ⟨nt, m', he, hm⟩ := reads_of_derives hd
      cases nt <;> first | (cases he; done) | exact ⟨m', (parseTokens_iff _ _).2 (Or.inl hm)⟩

/-- **C30.** Otherwise it raises `SyntaxError`, never anything else. -/
theorem C30_only_syntax_errors (s : Str) (e : PyErr) (h : parse s = .error e) : e = .syntaxError :=
  ((parseTokens_error _ e).1 h).1

/-- **C30.** The graph returned is the graph of a derivation of the tokens in the grammar. -/
theorem C30_graph_of_a_derivation (s : Str) (n : Node) (h : parse s = .ok n) :
    Derives .shift (lex (strip s)) n ∨ (lex (strip s) = [] ∧ n = .unhandled []) := by
  rcases (parseTokens_iff _ n).1 h with h | h
  · exact Or.inl (derives_of_reads h)
  · exact Or.inr h

/-- **C30.** Of the derivations of an ambiguous text, the one returned is the one in which an integer directly after a
bare factor is its exponent and a lone number after a shift sign is a number; there is always exactly one such reading. -/
theorem C30_disambiguation (s : Str) (n : Node) :
    parse s = .ok n ↔ Reads .shift (lex (strip s)) n ∨ (lex (strip s) = [] ∧ n = .unhandled []) := parseTokens_iff _ n

/-- **C30.** The disambiguated reading is unique. -/
theorem C30_unambiguous {ts : List Token} {n n' : Node} (h : Reads .shift ts n) (h' : Reads .shift ts n') : n = n' := by
  have := (parseTokens_iff ts n).2 (Or.inl h)
  rw [(parseTokens_iff ts n').2 (Or.inl h')] at this
  cases this; rfl

/-- … while the grammar file itself is ambiguous: `m2` is also the product of `m` and `2` -/
example : Derives .shift (lex c!"m2") (.mul (.ident c!"m") (.number (.int 2) (some c!"2"))) ∧
    Derives .shift (lex c!"m2") (.raise (.ident c!"m") (.number (.int 2) (some c!"2"))) ∧
    parse c!"m2" = .ok (.raise (.ident c!"m") (.number (.int 2) (some c!"2"))) := by
  have h : lex c!"m2" = [⟨.ID, c!"m"⟩] ++ [⟨.INT, c!"2"⟩] := by decide +kernel
  refine ⟨?_, ?_, by decide +kernel⟩
  · rw [h]
    exact .shiftProd (.prodJuxt (.prodPower (.powPlain (.logBasic (.basicId rfl))))
      (.powPlain (.logBasic (.basicNum (.numInt (.int (Or.inl rfl) (by decide +kernel)))))))
  · rw [h]
    exact .shiftProd (.prodPower (.powInt (.logBasic (.basicId rfl)) (.int (Or.inl rfl) (by decide +kernel))))

/-- non-vacuity: accepted and rejected texts, with brackets, logarithms, shifts and dates -/
example : (parse c!"lg(re (m/s)2) kg").isOk = true ∧ (parse c!"hours since 1990-01-01 12:00 UTC").isOk = true ∧
    parse c!"m/" = .error .syntaxError ∧ parse c!"(m" = .error .syntaxError ∧ parse c!"m2^3^4" = .error .syntaxError := by
  decide +kernel

/-! ## C31 -/

/-- **C31.** White space (in the sense of `str.isspace`) around the text is irrelevant. -/
theorem C31_surrounding_blanks (w s w' : Str) (h : ∀ c ∈ w, isPySpace c = true) (h' : ∀ c ∈ w', isPySpace c = true) :
    parse (w ++ s ++ w') = parse s := by
  unfold parse
  rw [strip_blanks h h']

/-- … but not inside -/
example : parse c!" \tm s\n" = parse c!"m s" ∧ parse c!"m s" ≠ parse c!"ms" ∧ parse c!"m / s" = parse c!"m/s" := by
  decide +kernel

/-! ## C33 -/

/-- **C33.** Products associate to the left: appending `* b` or `/ b` to a product multiplies or divides the graph of what
stands before it. -/
theorem C33_left_associative {a b : List Token} {o : Token} {l r : Node} (ha : ∃ m, Derives .product a m)
    (hl : parseTokens a = .ok l) (hb : ∃ m, Derives .power b m) (hr : parseTokens b = .ok r) :
    (o.kind = .MULTIPLY → parseTokens (a ++ [o] ++ b) = .ok (.mul l r)) ∧
    (o.kind = .DIVIDE → parseTokens (a ++ [o] ++ b) = .ok (.div l r)) := by
  obtain ⟨p, hl⟩ := reads_product ha hl
  obtain ⟨q, hr⟩ := reads_power hb hr
  exact ⟨fun ho => (parseTokens_iff _ _).2 (Or.inl (.shiftProd (.prodMul hl ho hr))),
    fun ho => (parseTokens_iff _ _).2 (Or.inl (.shiftProd (.prodDiv hl ho hr)))⟩

/-- a chain `a o₁ b₁ o₂ b₂ …` -/
def chainTokens (a : List Token) : List (Token × List Token × Node) → List Token
  | [] => a
  | (o, b, _) :: rest => chainTokens (a ++ [o] ++ b) rest

/-- its graph, grouped from the left -/
def chainNode (l : Node) : List (Token × List Token × Node) → Node
  | [] => l
  | (o, _, r) :: rest => chainNode (if o.kind = .DIVIDE then .div l r else .mul l r) rest

/-- **C33.** Chains of any length are grouped from the left. -/
theorem C33_chains (steps : List (Token × List Token × Node))
    (hsteps : ∀ q ∈ steps, (q.1.kind = .MULTIPLY ∨ q.1.kind = .DIVIDE) ∧ (∃ m, Derives .power q.2.1 m) ∧
      parseTokens q.2.1 = .ok q.2.2)
    {a : List Token} {l : Node} (ha : ∃ m, Derives .product a m) (hl : parseTokens a = .ok l) :
    parseTokens (chainTokens a steps) = .ok (chainNode l steps) := by
  induction steps generalizing a l with
  | nil => exact hl
  | cons q rest ih =>
    obtain ⟨o, b, r⟩ := q
    obtain ⟨h1, h2, h3⟩ := hsteps _ (List.mem_cons_self ..)
    obtain ⟨g1, g2⟩ := C33_left_associative (o := o) ha hl h2 h3
    rw [chainTokens, chainNode]
    obtain ⟨m, hm⟩ := ha
    obtain ⟨m', hm'⟩ := h2
    simp only at h1 hm'
    refine ih (fun q hq => hsteps q (List.mem_cons_of_mem _ hq)) ?_ ?_
    · rcases h1 with h | h
      · exact ⟨_, .prodMul hm h hm'⟩
      · exact ⟨_, .prodDiv hm h hm'⟩
    · rcases h1 with h | h
      · rw [if_neg (by rw [h]; decide)]; exact g1 h
      · rw [if_pos h]; exact g2 h

/-- **C33.** An integer directly after the last factor of a product is the exponent of that factor alone. -/
theorem C33_exponent_binds_tightest {a b : List Token} {o t : Token} {l r i : Node} (ha : ∃ m, Derives .product a m)
    (hl : parseTokens a = .ok l) (hb : ∃ m, Derives .logarithm b m) (hr : parseTokens b = .ok r) (ht : t.isInt)
    (hi : intNode t.text = some i) :
    parseTokens (b ++ [t]) = .ok (.raise r i) ∧
    (o.kind = .MULTIPLY → parseTokens (a ++ [o] ++ (b ++ [t])) = .ok (.mul l (.raise r i))) ∧
    (o.kind = .DIVIDE → parseTokens (a ++ [o] ++ (b ++ [t])) = .ok (.div l (.raise r i))) := by
  obtain ⟨p, hl⟩ := reads_product ha hl
  have hr := reads_log hb hr
  have hp := Reads.powInt hr (.int ht hi)
  exact ⟨(parseTokens_iff _ _).2 (Or.inl (.shiftProd (.prodPower hp))),
    fun ho => (parseTokens_iff _ _).2 (Or.inl (.shiftProd (.prodMul hl ho hp))),
    fun ho => (parseTokens_iff _ _).2 (Or.inl (.shiftProd (.prodDiv hl ho hp)))⟩

/-- non-vacuity: `m/s*kg-2` -/
example : parse c!"m/s*kg-2" = .ok (.mul (.div (.ident c!"m") (.ident c!"s"))
    (.raise (.ident c!"kg") (.number (.int (-2)) (some c!"-2")))) := by decide +kernel

example : ∃ m, Derives .product (lex c!"m/s") m := by
  have h : lex c!"m/s" = [⟨.ID, c!"m"⟩] ++ [⟨.DIVIDE, c!"/"⟩] ++ [⟨.ID, c!"s"⟩] := by decide +kernel
  rw [h]
  exact ⟨_, .prodDiv (.prodPower (.powPlain (.logBasic (.basicId rfl)))) rfl (.powPlain (.logBasic (.basicId rfl)))⟩

/-! ## C46 -/

/-- **C46.** Every number token of every text denotes exactly the number it spells, and keeps its spelling: the integer
for `INT`/`SIGNED_INT`, the rational (no rounding) for `FLOAT`. -/
theorem C46_literals_are_exact (s : Str) {t : Token} (ht : t ∈ lex s) :
    (t.isInt → ∃ v, Spec.IntLiteral t.text v ∧ integerP [t] = [(.number (.int v) (some t.text), [])]) ∧
    (t.kind = .FLOAT → ∃ d : Dec, Spec.DecLiteral t.text d.toRat ∧
      numberP [t] = [(.number (.dec d) (some t.text), [])]) := by
  have h := (lex_iff s _).1 rfl
  refine ⟨fun hi => ?_, fun hk => ?_⟩
  · obtain ⟨v, h1, h2⟩ := lexed_int h ht hi
    exact ⟨v, h1, integerP_some hi h2⟩
  · obtain ⟨d, h1, h2⟩ := lexed_float h ht hk
    exact ⟨d, h1, numberP_float hk h2⟩

/-- non-vacuity: `-1.50e-3` is −15/10⁴ -/
example : parse c!"-1.50e-3" = .ok (.number (.dec ⟨true, 150, -5⟩) (some c!"-1.50e-3")) := by decide +kernel

end Verif
