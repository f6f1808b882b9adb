import Verif.Lemmas.Print
/-!
# Printed expressions parse to themselves
-/

namespace Verif
open Spec (Digits natValue Sign IntLiteral ExpPart DecLiteral IdentWord DateText Printable respell respellNum Level)

/-- a separator that is only ever a token of its own does not change the tokens before it -/
theorem nextToken_sep {m m' : Mode} {s : Str} {k : Kind} {n : Nat} (h : NextToken m s k n m') (c : Char)
    (hc : m.rules.all (fun q => q.2.1.shortFor c) = true) (rest : Str) : NextToken m (s ++ c :: rest) k n m' := by
  obtain ⟨i, r, mo, h1, h2, h3, h4, h5, h6, h7⟩ := h
  have htake : ∀ j, j ≤ s.length → (s ++ c :: rest).take j = s.take j := by
    intro j hj; rw [List.take_append_of_le_length hj]
  refine ⟨i, r, mo, h1, h2, h3, by rw [List.length_append]; omega, by rw [htake n h4]; exact h5, ?_, ?_⟩
  · intro k' r' mo' hm j hj hmj
    by_cases hjs : j ≤ s.length
    · rw [htake j hjs] at hmj
      exact h6 k' r' mo' hm j hjs hmj
    · exfalso
      rw [List.all_eq_true] at hc
      have hmem : c ∈ (s ++ c :: rest).take j := by
        rw [List.take_append, List.take_of_length_le (by omega)]
        apply List.mem_append_right
        obtain ⟨d, hd⟩ : ∃ d, j - s.length = d + 1 := ⟨j - s.length - 1, by omega⟩
        rw [hd, List.take_succ_cons]
        exact List.mem_cons_self ..
      have := shortFor_length (hc _ hm) hmj hmem
      rw [List.length_take, Nat.min_eq_left hj] at this
      omega
  · intro i' hi' k' r' mo' hr'
    rw [htake n h4]
    exact h7 i' hi' k' r' mo' hr'

theorem nextToken_shift_mode {s : Str} {k : Kind} {n : Nat} {m' : Mode} (h : NextToken .SHIFT_MODE s k n m') : m' = .SHIFT_MODE := by
  obtain ⟨i, r, mo, h1, rfl, _⟩ := h
  have key : ∀ q ∈ Mode.SHIFT_MODE.rules, q.2.2.getD .SHIFT_MODE = .SHIFT_MODE := by decide +kernel
  exact key _ (List.mem_of_getElem? h1)

theorem tokenises_sep {s : Str} {b : List Token} {m : Mode} (h : Tokenises m s b) (hm : m = .SHIFT_MODE) (c : Char)
    (hc : Mode.SHIFT_MODE.rules.all (fun q => q.2.1.shortFor c) = true) {rest : Str} {ts : List Token}
    (hr : Tokenises .SHIFT_MODE (c :: rest) ts) : Tokenises m (s ++ c :: rest) (b ++ ts) := by
  induction h with
  | nil => subst hm; exact hr
  | @cons m m' s k n us hn _ ih =>
    subst hm
    have hm' := nextToken_shift_mode hn
    have hn' := nextToken_sep hn c hc rest
    obtain ⟨_, _, _, _, _, _, hle, _⟩ := hn
    have := Tokenises.cons hn' (by rw [List.drop_append_of_le_length hle]; exact ih hm')
    rw [List.take_append_of_le_length hle] at this
    exact this

/-- what is proved of each printable expression, by level -/
def Shown (lv : Level) (e : Node) (toks : List Token) : Prop :=
  match lv with
  | .atom => Reads .logarithm toks (respell e)
  | .factor => ∃ q, Reads (.power q) toks (respell e)
  | .product => ∃ q, Reads (.product q) toks (respell e)
  | .whole => Reads .shift toks (respell e)

/-- the text starts well -/
def StartOk (s : Str) : Prop := s ≠ [] ∧ ∀ c t, s = c :: t → inRanges c wordOrOpen = true

theorem StartOk.append {s : Str} (h : StartOk s) (t : Str) : StartOk (s ++ t) := by
  obtain ⟨h0, h1⟩ := h
  obtain ⟨c, s', rfl⟩ := List.exists_cons_of_ne_nil h0
  refine ⟨by simp, ?_⟩
  intro d u hd
  cases hd
  exact h1 _ _ rfl

def PrintOk (lv : Level) (e : Node) : Prop := lv ≠ .whole →
  ∃ toks, (∀ rest ts, Follow rest → (∀ m, m ≠ .SHIFT_MODE → Tokenises m rest ts) →
      Tokenises .DEFAULT_MODE (e.str ++ rest) (toks ++ ts)) ∧ StartOk e.str ∧ Shown lv e toks

theorem follow_mul (t : Str) : Follow ('·' :: t) := fun c u h => by cases h; exact Or.inl rfl
theorem follow_div (t : Str) : Follow ('/' :: t) := fun c u h => by cases h; exact Or.inr (Or.inl rfl)
theorem follow_raise (t : Str) : Follow ('^' :: t) := fun c u h => by cases h; exact Or.inr (Or.inr (Or.inl rfl))
theorem follow_close (t : Str) : Follow (')' :: t) := fun c u h => by cases h; exact Or.inr (Or.inr (Or.inr (Or.inl rfl)))
theorem follow_at (t : Str) : Follow (' ' :: '@' :: t) := fun c u h => by
  cases h; exact Or.inr (Or.inr (Or.inr (Or.inr ⟨rfl, t, rfl⟩)))

theorem startOk_number {s : Str} (h0 : s ≠ []) (h : ∀ c t, s = c :: t → inRanges c (('.', '.') :: signedDigits) = true) : StartOk s :=
  ⟨h0, fun c t hc => inRanges_mono (by decide +kernel) (h c t hc)⟩

theorem noOpen_number {s : Str} (h : ∀ c ∈ s, inRanges c (('.', '.') :: ('e', 'e') :: ('E', 'E') :: signedDigits) = true) : '(' ∉ s := by
  intro hc
  exact absurd (h _ hc) (by decide)

/-- a printed number, in default mode -/
theorem number_print (v : Num) (hv : (∃ i, v = .int i) ∨ (∃ d, v = .dec d) ∨ ∃ s i, v = .str s ∧ IntLiteral s i) :
    ∃ k, (∀ rest ts, Follow rest → Tokenises .DEFAULT_MODE rest ts → Tokenises .DEFAULT_MODE (v.toStr ++ rest) (⟨k, v.toStr⟩ :: ts)) ∧
      StartOk v.toStr ∧ Reads .number [⟨k, v.toStr⟩] (respellNum v) ∧
      ((∀ d, v ≠ .dec d) → Reads .integer [⟨k, v.toStr⟩] (respellNum v)) := by
  obtain ⟨k, h1, h2, h3, h4, h5, h6, h7⟩ := number_word v hv
  refine ⟨k, ?_, startOk_number h5 h4, h6, h7⟩
  intro rest ts hf ht
  refine tokenises_cons (nextToken_follow h1 ?_ (noOpen_number h3) hf) ht
  intro c t hc
  exact inRanges_mono (by decide +kernel) (h4 c t hc)

theorem number_ok (v : Num) (raw : Option Str) (hv : (∃ i, v = .int i) ∨ (∃ d, v = .dec d)) : PrintOk .atom (.number v raw) := by
  intro _
  obtain ⟨k, h1, h2, h3, _⟩ := number_print v (by
    rcases hv with h | h
    · exact Or.inl h
    · exact Or.inr (Or.inl h))
  exact ⟨[⟨k, v.toStr⟩], fun rest ts hf ht => h1 rest ts hf (ht _ (by decide)), h2, .logBasic (.basicNum h3)⟩

/-- the exponent part -/
theorem raise_ok {a : Node} (v : Num) (raw : Option Str) (ha : PrintOk .atom a)
    (hv : (∃ i, v = .int i) ∨ ∃ s i, v = .str s ∧ IntLiteral s i) : PrintOk .factor (.raise a (.number v raw)) := by
  intro _
  obtain ⟨ta, h1, h2, h3⟩ := ha (by decide)
  obtain ⟨k, g1, g2, _, g4⟩ := number_print v (by
    rcases hv with h | h
    · exact Or.inl h
    · exact Or.inr (Or.inr h))
  have g4 := g4 (by
    rintro d rfl
    rcases hv with ⟨i, h⟩ | ⟨s, i, h, _⟩ <;> cases h)
  refine ⟨ta ++ [⟨.RAISE, c!"^"⟩] ++ [⟨k, v.toStr⟩], ?_, h2.append _, false, .powRaise h3 rfl g4⟩
  intro rest ts hf ht
  have e1 : (Node.raise a (.number v raw)).str ++ rest = a.str ++ (c!"^" ++ (v.toStr ++ rest)) := by simp [Node.str]
  have e2 : (ta ++ [⟨Kind.RAISE, c!"^"⟩] ++ [⟨k, v.toStr⟩]) ++ ts = ta ++ (⟨Kind.RAISE, c!"^"⟩ :: ⟨k, v.toStr⟩ :: ts) := by simp
  rw [e1, e2]
  refine h1 _ _ (follow_raise _) ?_
  intro m hm
  exact tokenises_cons (tok_raise hm _) (g1 rest ts hf (ht _ (by decide)))

theorem log_ok {fn : Str} {t : Node} (hfn : fn ∈ [c!"log", c!"lg", c!"ln", c!"lb"]) (ht : PrintOk .product t) : PrintOk .atom (.log fn t) := by
  intro _
  obtain ⟨tt, h1, h2, q, h3⟩ := ht (by decide)
  obtain ⟨_, hname⟩ := tok_log hfn (rest := []) (fun c t h => by cases h)
  refine ⟨[⟨.OPEN_PAREN, c!"("⟩] ++ ([⟨.LOG, fn ++ c!"(re "⟩] ++ tt ++ [⟨.CLOSE_PAREN, c!")"⟩]) ++ [⟨.CLOSE_PAREN, c!")"⟩], ?_, ?_, ?_⟩
  · intro rest ts hf hts
    have e1 : (Node.log fn t).str ++ rest = c!"(" ++ ((fn ++ c!"(re ") ++ (t.str ++ (c!")" ++ (c!")" ++ rest)))) := by simp [Node.str]
    have e2 : ([⟨.OPEN_PAREN, c!"("⟩] ++ ([⟨.LOG, fn ++ c!"(re "⟩] ++ tt ++ [⟨.CLOSE_PAREN, c!")"⟩]) ++ [⟨.CLOSE_PAREN, c!")"⟩]) ++ ts =
        (⟨.OPEN_PAREN, c!"("⟩ : Token) :: ⟨.LOG, fn ++ c!"(re "⟩ :: (tt ++ (⟨.CLOSE_PAREN, c!")"⟩ :: ⟨.CLOSE_PAREN, c!")"⟩ :: ts)) := by simp
    rw [e1, e2]
    refine tokenises_cons (tok_open _) (tokenises_cons (tok_log hfn ?_).1 ?_)
    · exact (h2.append _).2
    · refine h1 _ _ (follow_close _) ?_
      intro m hm
      obtain ⟨m1, hc1, hm1⟩ := tok_close m (c!")" ++ rest)
      obtain ⟨m2, hc2, hm2⟩ := tok_close m1 rest
      rw [hm1 hm] at hc1 hc2 hm2
      rw [hm2 (by decide)] at hc2
      exact tokenises_cons hc1 (tokenises_cons hc2 (hts _ (by decide)))
  · refine ⟨by simp [Node.str], ?_⟩
    intro c u hc
    simp only [Node.str, List.cons.injEq] at hc
    rw [← hc.1]
    decide
  · refine .logBasic (.basicParen rfl rfl (.shiftProd (.prodPower (.powPlain ?_))))
    have := Reads.logLog (o := ⟨.LOG, fn ++ c!"(re "⟩) (c := ⟨.CLOSE_PAREN, c!")"⟩) rfl rfl (.shiftProd h3)
    rw [hname] at this
    exact this

theorem mul_ok {a b : Node} (ha : PrintOk .product a) (hb : PrintOk .factor b) : PrintOk .product (.mul a b) := by
  intro _
  obtain ⟨ta, h1, h2, p, h3⟩ := ha (by decide)
  obtain ⟨tb, g1, g2, q, g3⟩ := hb (by decide)
  refine ⟨ta ++ [⟨.MULTIPLY, c!"·"⟩] ++ tb, ?_, h2.append _, q, .prodMul h3 rfl g3⟩
  intro rest ts hf ht
  have e1 : (Node.mul a b).str ++ rest = a.str ++ (c!"·" ++ (b.str ++ rest)) := by simp [Node.str]
  have e2 : (ta ++ [⟨Kind.MULTIPLY, c!"·"⟩] ++ tb) ++ ts = ta ++ (⟨Kind.MULTIPLY, c!"·"⟩ :: (tb ++ ts)) := by simp
  rw [e1, e2]
  refine h1 _ _ (follow_mul _) ?_
  intro m hm
  exact tokenises_cons (tok_mul hm _) (g1 rest ts hf ht)

theorem div_ok {a b : Node} (ha : PrintOk .product a) (hb : PrintOk .factor b) : PrintOk .product (.div a b) := by
  intro _
  obtain ⟨ta, h1, h2, p, h3⟩ := ha (by decide)
  obtain ⟨tb, g1, g2, q, g3⟩ := hb (by decide)
  refine ⟨ta ++ [⟨.DIVIDE, c!"/"⟩] ++ tb, ?_, h2.append _, q, .prodDiv h3 rfl g3⟩
  intro rest ts hf ht
  have e1 : (Node.div a b).str ++ rest = a.str ++ (c!"/" ++ (b.str ++ rest)) := by simp [Node.str]
  have e2 : (ta ++ [⟨Kind.DIVIDE, c!"/"⟩] ++ tb) ++ ts = ta ++ (⟨Kind.DIVIDE, c!"/"⟩ :: (tb ++ ts)) := by simp
  rw [e1, e2]
  refine h1 _ _ (follow_div _) ?_
  intro m hm
  exact tokenises_cons (tok_div hm (g2.append _).2) (g1 rest ts hf ht)

theorem ident_ok {w : Str} (hw : IdentWord w) : PrintOk .atom (.ident w) := by
  intro _
  obtain ⟨h0, h1, h2, h3, h4, h5⟩ := hw
  have hst : ∀ c t, w = c :: t → inRanges c wordStarts = true := by
    intro c t hc
    exact inRanges_mono (by decide +kernel) (h1 c (by rw [hc]; simp))
  refine ⟨[⟨.ID, w⟩], ?_, ⟨h0, fun c t hc => inRanges_mono (by decide +kernel) (hst c t hc)⟩, .logBasic (.basicId rfl)⟩
  intro rest ts hf ht
  refine tokenises_cons (nextToken_follow (word_id (matches_plus_cls.2 ⟨h0, h1⟩) ?_) hst ?_ hf) (ht _ (by decide))
  · simp only [reservedWords, List.mem_cons, List.not_mem_nil, or_false]
    rintro (h | h | h | h)
    · exact h2 h
    · exact h3 h
    · exact h4 h
    · exact h5 h
  · intro hc
    exact absurd (h1 _ hc) (by decide)

theorem print_ok {lv : Level} {e : Node} (h : Printable lv e) : PrintOk lv e := by
  induction h with
  | ident hw => exact ident_ok hw
  | int => exact number_ok _ _ (Or.inl ⟨_, rfl⟩)
  | dec => exact number_ok _ _ (Or.inr ⟨_, rfl⟩)
  | log hfn _ ih => exact log_ok hfn ih
  | plain _ ih =>
    intro _
    obtain ⟨toks, h1, h2, h3⟩ := ih (by decide)
    exact ⟨toks, h1, h2, true, .powPlain h3⟩
  | power _ ih => exact raise_ok _ _ ih (Or.inl ⟨_, rfl⟩)
  | superscript _ hs ih => exact raise_ok _ _ ih (Or.inr ⟨_, _, rfl, hs⟩)
  | factor _ ih =>
    intro _
    obtain ⟨toks, h1, h2, q, h3⟩ := ih (by decide)
    exact ⟨toks, h1, h2, q, .prodPower h3⟩
  | mul _ _ ih1 ih2 => exact mul_ok ih1 ih2
  | div _ _ ih1 ih2 => exact div_ok ih1 ih2
  | product => intro h; exact absurd rfl h
  | shiftInt => intro h; exact absurd rfl h
  | shiftDec => intro h; exact absurd rfl h
  | shiftDate => intro h; exact absurd rfl h

/-- a shift, given how what follows the sign is read -/
theorem shift_print {a f : Node} {b : List Token} (ha : Printable .product a)
    (hstart : ∀ c t, f.str = c :: t → inRanges c (('.', '.') :: signedDigits) = true) (hf0 : f.str ≠ [])
    (hb : ∀ ts, Tokenises .SHIFT_MODE c!")" ts → Tokenises .SHIFT_MODE (f.str ++ c!")") (b ++ ts))
    (hr : Reads .number b (respell f) ∨ ∃ raw, f = .unhandled raw ∧ raw = textOf b ∧ Timestamp b ∧ ¬ LoneNumber b) :
    ∃ toks, Tokenises .DEFAULT_MODE (Node.shift a f).str toks ∧ Reads .shift toks (respell (.shift a f)) := by
  obtain ⟨ta, h1, h2, p, h3⟩ := print_ok ha (by decide)
  have hshift : Reads .shift (ta ++ [⟨.WS, c!" "⟩] ++ [⟨.SHIFT_OP, c!"@"⟩] ++ [⟨.WS, c!" "⟩] ++ b) (respell (.shift a f)) := by
    rcases hr with hr | ⟨raw, rfl, hraw, h4, h5⟩
    · exact .shiftNum h3 (Or.inr ⟨_, rfl, rfl⟩) rfl (Or.inr ⟨_, rfl, rfl⟩) hr
    · have := Reads.shiftTime (o := ⟨.SHIFT_OP, c!"@"⟩) h3 (Or.inr ⟨⟨.WS, c!" "⟩, rfl, rfl⟩) rfl (Or.inr ⟨⟨.WS, c!" "⟩, rfl, rfl⟩) h4 h5
      rw [← hraw] at this
      exact this
  refine ⟨[⟨.OPEN_PAREN, c!"("⟩] ++ (ta ++ [⟨.WS, c!" "⟩] ++ [⟨.SHIFT_OP, c!"@"⟩] ++ [⟨.WS, c!" "⟩] ++ b) ++ [⟨.CLOSE_PAREN, c!")"⟩], ?_,
    .shiftProd (.prodPower (.powPlain (.logBasic (.basicParen rfl rfl hshift))))⟩
  have e1 : (Node.shift a f).str = c!"(" ++ (a.str ++ (c!" " ++ ('@' :: (c!" " ++ (f.str ++ c!")"))))) := by simp [Node.str]
  have e2 : [⟨.OPEN_PAREN, c!"("⟩] ++ (ta ++ [⟨.WS, c!" "⟩] ++ [⟨.SHIFT_OP, c!"@"⟩] ++ [⟨.WS, c!" "⟩] ++ b) ++ [⟨.CLOSE_PAREN, c!")"⟩] =
      (⟨.OPEN_PAREN, c!"("⟩ : Token) :: (ta ++ (⟨.WS, c!" "⟩ :: ⟨.SHIFT_OP, c!"@"⟩ :: ⟨.WS, c!" "⟩ :: (b ++ [⟨.CLOSE_PAREN, c!")"⟩]))) := by simp
  rw [e1, e2]
  refine tokenises_cons (tok_open _) (h1 _ _ (follow_at _) ?_)
  intro m hm
  refine tokenises_cons (tok_blank hm _) (tokenises_cons (w := c!"@") (tok_at _) (tokenises_cons (tok_blank_shift ?_) (hb _ ?_)))
  · obtain ⟨c, s, hs⟩ := List.exists_cons_of_ne_nil hf0
    intro d t hd
    rw [hs] at hd
    cases hd
    exact hstart _ _ hs
  · obtain ⟨m', hm', _⟩ := tok_close .SHIFT_MODE []
    exact tokenises_cons hm' (.nil _)

/-- a date text starts with a digit or sign -/
theorem date_start {raw : Str} {b : List Token} (ht : Tokenises .SHIFT_MODE raw b) (hb : Timestamp b) :
    raw ≠ [] ∧ ∀ c t, raw = c :: t → inRanges c (('.', '.') :: signedDigits) = true := by
  have hkind : ∃ t r, b = t :: r ∧ (isDateOrInt t ∨ t.kind = .TIMESTAMP) := by
    cases hb with
    | date h => exact ⟨_, _, rfl, Or.inl h⟩
    | clock h => exact ⟨_, _, rfl, Or.inl h⟩
    | packed h => exact ⟨_, _, rfl, Or.inl (Or.inr h)⟩
    | stamp h => exact ⟨_, _, rfl, Or.inr h⟩
    | zone h => exact ⟨_, _, rfl, Or.inl h⟩
  obtain ⟨t, r, rfl, hk⟩ := hkind
  cases ht with
  | cons hn _ =>
    obtain ⟨i, r, mo, h1, h2, h3, h4, h5, _⟩ := hn
    rename_i s k n ts m'
    have hraw : raw ≠ [] := by
      rintro rfl
      simp at h4
      omega
    refine ⟨hraw, ?_⟩
    intro c t hc
    subst hc
    obtain ⟨n', hn'⟩ : ∃ n', n = n' + 1 := ⟨n - 1, by omega⟩
    rw [hn'] at h5
    rw [List.take_succ_cons] at h5
    have hfirst := firsts_of_matches h5 c _ rfl
    have key : ∀ q ∈ Mode.SHIFT_MODE.rules, q.1 ∈ [Kind.DATE, .INT, .SIGNED_INT, .TIMESTAMP] →
        ∀ p ∈ q.2.1.firsts, p ∈ ('.', '.') :: signedDigits := by decide +kernel
    refine inRanges_mono (key _ (List.mem_of_getElem? h1) ?_) hfirst
    simp only [isDateOrInt, Token.isInt] at hk
    simp only [List.mem_cons, List.not_mem_nil, or_false]
    tauto

/-- printed expressions tokenise and read back -/
theorem whole_print {e : Node} (h : Printable .whole e) : ∃ toks, Tokenises .DEFAULT_MODE e.str toks ∧ Reads .shift toks (respell e) := by
  have hnum : ∀ (a : Node) (v : Num) (raw : Option Str), Printable .product a → ((∃ i, v = .int i) ∨ (∃ d, v = .dec d)) →
      ∃ toks, Tokenises .DEFAULT_MODE (Node.shift a (.number v raw)).str toks ∧ Reads .shift toks (respell (.shift a (.number v raw))) := by
    intro a v raw ha hv
    obtain ⟨k, h1, h2, h3, h4, h5, h6, h7⟩ := number_word v (by
      rcases hv with h | h
      · exact Or.inl h
      · exact Or.inr (Or.inl h))
    refine shift_print (b := [⟨k, v.toStr⟩]) ha h4 h5 ?_ (Or.inl h6)
    intro ts hts
    exact tokenises_cons (nextToken_before h2 ')' (by decide +kernel)) hts
  cases h with
  | product h =>
    obtain ⟨toks, h1, h2, q, h3⟩ := print_ok h (by decide)
    refine ⟨toks, ?_, .shiftProd h3⟩
    have := h1 [] [] (fun c t h => by cases h) fun m _ => .nil m
    simpa using this
  | shiftInt ha => exact hnum _ _ _ ha (Or.inl ⟨_, rfl⟩)
  | shiftDec ha => exact hnum _ _ _ ha (Or.inr ⟨_, rfl⟩)
  | shiftDate ha hd =>
    rename_i a raw
    obtain ⟨b, h1, h2, h3⟩ := hd
    obtain ⟨h4, h5⟩ := date_start h1 h2
    refine shift_print (b := b) ha h5 h4 ?_ (Or.inr ⟨raw, rfl, ((tokenises_lossless h1).1).symm, h2, h3⟩)
    intro ts hts
    exact tokenises_sep h1 rfl ')' (by decide +kernel) hts

/-- no blanks at either end -/
theorem strip_eq {s : Str} (h1 : ∀ c t, s = c :: t → isPySpace c = false) (h2 : ∀ c t, s = t ++ [c] → isPySpace c = false) : strip s = s := by
  have hl : ∀ {s : Str}, (∀ c t, s = c :: t → isPySpace c = false) → lstrip s = s := by
    intro s h
    cases s with
    | nil => rfl
    | cons c s =>
      unfold lstrip
      rw [List.dropWhile_cons, if_neg (by rw [h c s rfl]; decide)]
  unfold strip
  rw [hl h1, hl, List.reverse_reverse]
  intro c t h
  refine h2 c t.reverse ?_
  have := congrArg List.reverse h
  simpa using this

/-- the text ends in something visible -/
def LastOk (s : Str) : Prop := ∃ t c, s = t ++ [c] ∧ isPySpace c = false

theorem LastOk.append {s : Str} (h : LastOk s) (t : Str) : LastOk (t ++ s) := by
  obtain ⟨u, c, rfl, hc⟩ := h
  exact ⟨t ++ u, c, by simp, hc⟩

theorem lastOk_of {s : Str} (h0 : s ≠ []) (h : ∀ c ∈ s, isPySpace c = false) : LastOk s :=
  ⟨s.dropLast, s.getLast h0, (List.dropLast_append_getLast h0).symm, h _ (List.getLast_mem h0)⟩

theorem lastOk_number (v : Num) (hv : (∃ i, v = .int i) ∨ (∃ d, v = .dec d) ∨ ∃ s i, v = .str s ∧ IntLiteral s i) : LastOk v.toStr := by
  obtain ⟨k, _, _, h3, _, h5, _⟩ := number_word v hv
  exact lastOk_of h5 fun c hc => disjointRanges_iff (by decide +kernel) (h3 c hc)

theorem print_last {lv : Level} {e : Node} (h : Printable lv e) : LastOk e.str := by
  have hclose : LastOk c!")" := ⟨[], ')', rfl, by decide⟩
  induction h with
  | ident hw => exact lastOk_of hw.1 fun c hc => disjointRanges_iff (by decide +kernel) (hw.2.1 c hc)
  | int => exact lastOk_number _ (Or.inl ⟨_, rfl⟩)
  | dec => exact lastOk_number _ (Or.inr (Or.inl ⟨_, rfl⟩))
  | @log fn t _ _ _ =>
    have := hclose.append ('(' :: (fn ++ (c!"(re " ++ (t.str ++ c!")"))))
    simpa [Node.str] using this
  | plain _ ih => exact ih
  | @power a i raw _ _ =>
    have := (lastOk_number (.int i) (Or.inl ⟨_, rfl⟩)).append (a.str ++ c!"^")
    simpa [Node.str] using this
  | @superscript a s v raw _ hs _ =>
    have := (lastOk_number (.str s) (Or.inr (Or.inr ⟨_, _, rfl, hs⟩))).append (a.str ++ c!"^")
    simpa [Node.str] using this
  | factor _ ih => exact ih
  | @mul a b _ _ _ ih =>
    have := ih.append (a.str ++ c!"·")
    simpa [Node.str] using this
  | @div a b _ _ _ ih =>
    have := ih.append (a.str ++ c!"/")
    simpa [Node.str] using this
  | product _ ih => exact ih
  | @shiftInt a i raw _ _ =>
    have := hclose.append ('(' :: (a.str ++ (c!" @ " ++ intStr i)))
    simpa [Node.str, Num.toStr] using this
  | @shiftDec a d raw _ _ =>
    have := hclose.append ('(' :: (a.str ++ (c!" @ " ++ d.str)))
    simpa [Node.str, Num.toStr] using this
  | @shiftDate a raw _ _ _ =>
    have := hclose.append ('(' :: (a.str ++ (c!" @ " ++ raw)))
    simpa [Node.str] using this

theorem print_start {e : Node} (h : Printable .whole e) : StartOk e.str := by
  have hopen : ∀ s : Str, StartOk ('(' :: s) := by
    intro s
    refine ⟨by simp, ?_⟩
    intro c t h; cases h; decide
  cases h with
  | product h => obtain ⟨_, _, h2, _⟩ := print_ok h (by decide); exact h2
  | shiftInt => exact hopen _
  | shiftDec => exact hopen _
  | shiftDate => exact hopen _

/-- reading back a printed expression -/
theorem parse_print {e : Node} (h : Printable .whole e) : parse e.str = .ok (respell e) := by
  obtain ⟨toks, h1, h2⟩ := whole_print h
  have hs : strip e.str = e.str := by
    refine strip_eq ?_ ?_
    · intro c t hc
      exact disjointRanges_iff (by decide +kernel) ((print_start h).2 c t hc)
    · intro c t hc
      obtain ⟨u, d, hd, hd'⟩ := print_last h
      rw [hd] at hc
      have := List.append_inj_right' hc rfl
      cases this
      exact hd'
  unfold parse
  rw [hs, (lex_iff _ _).2 h1]
  exact (parseTokens_iff _ _).2 (Or.inl h2)

/-- a text that is one token -/
theorem parse_word {w : Str} {k : Kind} {m : Mode} {n : Node} (hw : NextToken .DEFAULT_MODE w k w.length m)
    (hs : ∀ c ∈ w, isPySpace c = false) (hr : Reads .logarithm [⟨k, w⟩] n) : parse w = .ok n := by
  have hs : strip w = w := strip_eq (fun c t hc => hs c (by rw [hc]; simp)) fun c t hc => hs c (by rw [hc]; simp)
  unfold parse
  have hl : lex w = [⟨k, w⟩] := by
    rw [lex_iff]
    have := tokenises_cons (rest := []) (by simpa using hw) (Tokenises.nil m)
    simpa using this
  rw [hs, hl]
  exact (parseTokens_iff _ _).2 (Or.inl (.shiftProd (.prodPower (.powPlain hr))))

end Verif
