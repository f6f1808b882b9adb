import Verif.Spec.Super
import Verif.Lemmas.PrintParse
/-!
# Superscript exponents and logarithm openings
-/

namespace Verif
open Spec (IdentWord IntLiteral Superscript superTable LogOpening Blanks logFunctions)

/-- the superscript characters -/
def superRanges : List (Char × Char) := c!"⁻⁺¹²³⁴⁵⁶⁷⁸⁹⁰".map fun c => (c, c)

theorem inRanges_super {c : Char} : inRanges c superRanges = true ↔ ∃ b, (c, b) ∈ superTable := by
  have h1 : ∀ q ∈ superRanges, q.1 = q.2 ∧ ∃ b ∈ superTable, b.1 = q.1 := by decide +kernel
  have h2 : ∀ q ∈ superTable, inRanges q.1 superRanges = true := by decide +kernel
  constructor
  · intro h
    obtain ⟨lo, hi, g1, g2, g3⟩ := inRanges_iff.1 h
    obtain ⟨g4, ⟨x, y⟩, g5, g6⟩ := h1 _ g1
    simp only at g4 g6
    subst g4
    have : c = lo := Char.toNat_inj.1 (Nat.le_antisymm g3 g2)
    subst this
    subst g6
    exact ⟨_, g5⟩
  · rintro ⟨b, hb⟩; exact h2 _ hb

theorem superscript_table : ∀ q ∈ superTable, superscript q.1 = q.2 := by decide +kernel

theorem super_map {s t : Str} (h : Superscript s t) : s.map superscript = t := by
  induction h with
  | nil => rfl
  | cons h1 _ ih => rw [List.map_cons, superscript_table _ h1, ih]

theorem super_of_ranges : ∀ {s : Str}, (∀ c ∈ s, inRanges c superRanges = true) → ∃ t, Superscript s t
  | [], _ => ⟨[], .nil⟩
  | c :: s, h => by
    obtain ⟨b, hb⟩ := inRanges_super.1 (h c (by simp))
    obtain ⟨t, ht⟩ := super_of_ranges (s := s) (fun d hd => h d (by simp [hd]))
    exact ⟨b :: t, .cons hb ht⟩

theorem ranges_of_super {s t : Str} (h : Superscript s t) : ∀ c ∈ s, inRanges c superRanges = true := by
  induction h with
  | nil => simp
  | cons h1 _ ih =>
    intro c hc
    rcases List.mem_cons.1 hc with rfl | hc
    · exact inRanges_super.2 ⟨_, h1⟩
    · exact ih c hc

theorem matches_UNICODE {s : Str} : Matches Rule.UNICODE_EXPONENT s ↔ s ≠ [] ∧ ∀ c ∈ s, inRanges c superRanges = true :=
  matches_plus_cls

theorem uni_token {m : Mode} {s : Str} {ts : List Token} (h : Tokenises m s ts) {t : Token} (ht : t ∈ ts)
    (hk : t.kind = .UNICODE_EXPONENT) :
    ∃ a, t.text ≠ [] ∧ Superscript t.text a ∧ unicodeExponent t.text = .number (.str a) (some a) := by
  obtain ⟨m', r, mo, h1, h2⟩ := tokenises_rule h ht
  have : r = _ := rules_uni m' _ h1 hk
  subst this
  obtain ⟨h3, h4⟩ := matches_UNICODE.1 h2
  obtain ⟨a, ha⟩ := super_of_ranges h4
  refine ⟨a, h3, ha, ?_⟩
  simp only [unicodeExponent, super_map ha]

theorem matches_star_ws {s : Str} (h : Matches (.star Rule.WS) s) : Blanks s := by
  intro c hc
  have := matches_star_cls.1 h c hc
  obtain ⟨lo, hi, h1, h2, h3⟩ := inRanges_iff.1 this
  simp only [List.mem_singleton, Prod.mk.injEq] at h1
  obtain ⟨rfl, rfl⟩ := h1
  exact Char.toNat_inj.1 (Nat.le_antisymm h3 h2)

theorem log_shape {s : Str} (h : Matches Rule.LOG s) : ∃ fn ∈ logFunctions, LogOpening fn s := by
  simp only [Rule.LOG, Re.seqs, Re.alts, Re.opt, matches_seq, matches_alt, matches_chr, matches_lit, matches_eps] at h
  obtain ⟨fn, y1, rfl, h1, b1, y2, rfl, h2, o, y3, rfl, rfl, b2, y4, rfl, h3, re, y5, rfl, h4, co, y6, rfl, h5, h6⟩ := h
  refine ⟨fn, by simpa [logFunctions] using h1, b1, b2, re, co, y6, by simp, matches_star_ws h2, matches_star_ws h3, matches_star_ws h6,
    ?_, ?_⟩
  · exact h4.symm
  · rcases h5 with h5 | h5
    · first | exact Or.inl h5 | exact Or.inr h5
    · first | exact Or.inr h5 | exact Or.inl h5

theorem takeWhile_open {a b : Str} (h : '(' ∉ a) : (a ++ '(' :: b).takeWhile (· ≠ '(') = a := by
  induction a with
  | nil => simp
  | cons c a ih =>
    have hc : c ≠ '(' := fun e => h (by simp [e])
    rw [List.cons_append, List.takeWhile_cons_of_pos (by simpa using hc), ih (fun h' => h (by simp [h']))]

theorem log_opening_name {fn s : Str} (hfn : fn ∈ logFunctions) (h : LogOpening fn s) : logName s = fn := by
  obtain ⟨b1, b2, re, co, b3, rfl, h1, _⟩ := h
  have hopen : '(' ∉ fn ++ b1 := by
    intro hc
    rcases List.mem_append.1 hc with hc | hc
    · have key : ∀ f ∈ logFunctions, '(' ∉ f := by decide
      exact key fn hfn hc
    · exact absurd (h1 _ hc) (by decide)
  unfold logName
  have e : fn ++ b1 ++ c!"(" ++ b2 ++ re ++ co ++ b3 = (fn ++ b1) ++ '(' :: (b2 ++ re ++ co ++ b3) := by simp
  rw [e, takeWhile_open hopen]
  have := strip_blanks (w := []) (w' := b1) (s := fn) (by simp) (fun c hc => by rw [h1 c hc]; decide)
  rw [List.nil_append] at this
  rw [this]
  revert fn
  intro fn hfn _ _ _
  have key : ∀ f ∈ logFunctions, strip f = f := by decide +kernel
  exact key _ hfn

theorem log_token {m : Mode} {s : Str} {ts : List Token} (h : Tokenises m s ts) {t : Token} (ht : t ∈ ts)
    (hk : t.kind = .LOG) : ∃ fn ∈ logFunctions, LogOpening fn t.text ∧ logName t.text = fn := by
  obtain ⟨m', r, mo, h1, h2⟩ := tokenises_rule h ht
  have : r = _ := rules_log m' _ h1 hk
  subst this
  obtain ⟨fn, h3, h4⟩ := log_shape h2
  exact ⟨fn, h3, h4, log_opening_name h3 h4⟩

/-- an identifier ends where characters of class `H` begin -/
theorem id_before (H : List (Char × Char)) (hcheck : ∀ q ∈ Mode.DEFAULT_MODE.rules, disjointRanges H q.2.1.classes = true ∨
      disjointRanges Rule.idRanges q.2.1.firsts = true ∨ q.2.1 = Rule.ERRORCHARACTER ∨ q.2.1 = Rule.E_POWER)
    {w rest : Str} (hw : IdentWord w) (hr : ∀ c t, rest = c :: t → inRanges c H = true)
    (he : disjointRanges H Rule.E_POWER.classes = true ∨ (w ≠ ['e'] ∧ w ≠ ['E'])) :
    NextToken .DEFAULT_MODE (w ++ rest) .ID w.length .ID_SEEN := by
  obtain ⟨h0, h1, r1, r2, r3, r4⟩ := hw
  refine nextToken_extend (word_id (matches_plus_cls.2 ⟨h0, h1⟩) (by simp [reservedWords, r1, r2, r3, r4])) ?_
  intro q hq x y hxy hx hm
  cases x with
  | nil => exact hx rfl
  | cons c x =>
    have hc : inRanges c H = true := hr c (x ++ y) hxy
    have hmem : c ∈ w ++ c :: x := by simp
    have hdis : disjointRanges H q.2.1.classes = true → False := by
      intro h
      have := mentions_of_matches hm hmem
      rw [mentions_classes] at this
      rw [disjointRanges_iff h hc] at this; cases this
    rcases hcheck q hq with h | h | h | h
    · exact hdis h
    · cases w with
      | nil => exact h0 rfl
      | cons d w =>
        have h2 := firsts_of_matches hm d (w ++ c :: x) rfl
        rw [disjointRanges_iff h (h1 d (by simp))] at h2; cases h2
    · rw [h, Rule.ERRORCHARACTER, matches_cls] at hm
      obtain ⟨d, hd, _⟩ := hm
      have := congrArg List.length hd
      have hl := List.length_pos_iff.2 h0
      simp at this
      omega
    · rcases he with he | ⟨he1, he2⟩
      · rw [← h] at he; exact hdis he
      · rw [h] at hm
        obtain ⟨e, t, v, g1, g2, sg, ds, k, rfl, g3, g4, g5, _⟩ := matches_E_POWER.1 hm
        match w, h0, h1, he1, he2, g1 with
        | [d], _, _, he1, he2, g1 =>
          simp only [List.cons_append, List.cons.injEq] at g1
          rcases g2 with rfl | rfl
          · exact he1 (by rw [g1.1])
          · exact he2 (by rw [g1.1])
        | d :: d' :: w, _, h1, _, _, g1 =>
          simp only [List.cons_append, List.cons.injEq] at g1
          have hd' : inRanges d' Rule.idRanges = true := h1 d' (by simp)
          have hin : d' = '+' ∨ d' = '-' ∨ inRanges d' [('0', '9')] = true := by
            cases g3 with
            | none =>
              obtain ⟨z, ds, rfl⟩ := List.exists_cons_of_ne_nil g4
              have := g1.2
              simp only [List.nil_append, List.cons.injEq] at this
              rw [this.1]
              exact Or.inr (Or.inr (inRanges_digit.2 (g5 z (by simp))))
            | plus => have := g1.2; simp only [List.cons_append, List.cons.injEq] at this; exact Or.inl this.1
            | minus => have := g1.2; simp only [List.cons_append, List.cons.injEq] at this; exact Or.inr (Or.inl this.1)
          rcases hin with rfl | rfl | hin
          · exact absurd hd' (by decide)
          · exact absurd hd' (by decide)
          · have hdd : disjointRanges [('0', '9')] Rule.idRanges = true := by decide +kernel
            rw [disjointRanges_iff hdd hin] at hd'; cases hd'

/-- an identifier ends where superscripts begin -/
theorem id_before_super {w sup : Str} (hw : IdentWord w) (hs : ∀ c ∈ sup, inRanges c superRanges = true) :
    NextToken .DEFAULT_MODE (w ++ sup) .ID w.length .ID_SEEN :=
  id_before superRanges (by decide +kernel) hw (fun c t h => hs c (by rw [h]; simp)) (Or.inl (by decide +kernel))

/-- superscripts are one token -/
theorem super_word {sup : Str} (h0 : sup ≠ []) (hs : ∀ c ∈ sup, inRanges c superRanges = true) :
    NextToken .ID_SEEN sup .UNICODE_EXPONENT sup.length .DEFAULT_MODE := by
  obtain ⟨i, hi, hp⟩ : ∃ i : Nat, Mode.ID_SEEN.rules[i]? = some (.UNICODE_EXPONENT, Rule.UNICODE_EXPONENT, some .DEFAULT_MODE) ∧
      (Mode.ID_SEEN.rules.take i).all (fun q => q.2.1.deadNE superRanges) = true := by
    have : ∃ i ∈ List.range 30, Mode.ID_SEEN.rules[i]? = some (.UNICODE_EXPONENT, Rule.UNICODE_EXPONENT, some .DEFAULT_MODE) ∧
      (Mode.ID_SEEN.rules.take i).all (fun q => q.2.1.deadNE superRanges) = true := by decide +kernel
    obtain ⟨i, _, h⟩ := this
    exact ⟨i, h⟩
  exact nextToken_check h0 hi (matches_UNICODE.2 ⟨h0, hs⟩) hp fun r' h hm => h0 (deadNE_not_matches h hm hs)

theorem parse_super {w sup a : Str} (hw : IdentWord w) (h0 : sup ≠ []) (hs : Superscript sup a) :
    parse (w ++ sup) = .ok (.raise (.ident w) (.number (.str a) (some a))) := by
  have hr := ranges_of_super hs
  have hlast : ∀ c ∈ w ++ sup, isPySpace c = false := by
    intro c hc
    have hsp : ∀ q ∈ superTable, isPySpace q.1 = false := by decide +kernel
    rcases List.mem_append.1 hc with hc | hc
    · exact disjointRanges_iff (by decide +kernel) (hw.2.1 c hc)
    · obtain ⟨b, hb⟩ := inRanges_super.1 (hr c hc); exact hsp _ hb
  have hst : strip (w ++ sup) = w ++ sup := strip_eq (fun c t hc => hlast c (by rw [hc]; simp)) fun c t hc => hlast c (by rw [hc]; simp)
  unfold parse
  have hl : lex (w ++ sup) = [⟨.ID, w⟩, ⟨.UNICODE_EXPONENT, sup⟩] := by
    rw [lex_iff]
    refine tokenises_cons (id_before_super hw hr) ?_
    have := tokenises_cons (rest := []) (by simpa using super_word h0 hr) (Tokenises.nil _)
    simpa using this
  rw [hst, hl]
  refine (parseTokens_iff _ _).2 (Or.inl (.shiftProd (p := false) (.prodPower ?_)))
  have := Reads.powUni (a := [⟨.ID, w⟩]) (o := ⟨.UNICODE_EXPONENT, sup⟩) (.logBasic (.basicId rfl)) rfl
  have e : unicodeExponent sup = .number (.str a) (some a) := by simp only [unicodeExponent, super_map hs]
  rw [e] at this
  exact this

/-- integers right after an identifier -/
theorem int_after_id {a : Str} {i : Int} (h : IntLiteral a i) :
    ∃ k, (k = .INT ∨ k = .SIGNED_INT) ∧ NextToken .ID_SEEN a k a.length .DEFAULT_MODE := by
  obtain ⟨sg, ds, k, rfl, hs, h0, hd, _⟩ := h
  have hd' : ∀ c ∈ ds, inRanges c [('0', '9')] = true := fun c hc => inRanges_digit.2 (hd c hc)
  have hsigned : ∀ c, (c = '-' ∨ c = '+') → NextToken .ID_SEEN (c :: ds) .SIGNED_INT (c :: ds).length .DEFAULT_MODE := by
    intro c hc
    have hm : Matches Rule.SIGNED_INT (c :: ds) := by
      refine matches_SIGNED_INT.2 ⟨[c], ds, rfl, ?_, h0, hd⟩
      rcases hc with rfl | rfl
      · exact Or.inl rfl
      · exact Or.inr rfl
    exact nextToken_check (i := 0) (mo := some .DEFAULT_MODE) (by simp) rfl hm (p := fun _ => false) rfl (fun _ h => by cases h)
  cases hs with
  | none =>
    refine ⟨.INT, Or.inl rfl, ?_⟩
    rw [List.nil_append]
    obtain ⟨j, hj, hp⟩ : ∃ j : Nat, Mode.ID_SEEN.rules[j]? = some (.INT, Rule.INT, some .DEFAULT_MODE) ∧
        (Mode.ID_SEEN.rules.take j).all (fun q => q.2.1.deadNE [('0', '9')]) = true := by
      have : ∃ j ∈ List.range 30, Mode.ID_SEEN.rules[j]? = some (.INT, Rule.INT, some .DEFAULT_MODE) ∧
        (Mode.ID_SEEN.rules.take j).all (fun q => q.2.1.deadNE [('0', '9')]) = true := by decide +kernel
      obtain ⟨j, _, h⟩ := this
      exact ⟨j, h⟩
    exact nextToken_check h0 hj (matches_INT.2 ⟨h0, hd⟩) hp fun r' h hm => h0 (deadNE_not_matches h hm hd')
  | plus => exact ⟨.SIGNED_INT, Or.inr rfl, hsigned '+' (Or.inr rfl)⟩
  | minus => exact ⟨.SIGNED_INT, Or.inr rfl, hsigned '-' (Or.inl rfl)⟩

theorem strip_tight {s : Str} (h : ∀ c ∈ s, isPySpace c = false) : strip s = s :=
  strip_eq (fun c t hc => h c (by rw [hc]; simp)) fun c t hc => h c (by rw [hc]; simp)

/-- `w^a` and `w**a` -/
theorem parse_raise {w a op : Str} {i : Int} (hw : IdentWord w) (ha : IntLiteral a i) (hop : op = c!"^" ∨ op = c!"**") :
    parse (w ++ (op ++ a)) = .ok (.raise (.ident w) (.number (.int i) (some a))) := by
  obtain ⟨k, hk, h1, _, h3, h4⟩ := intLiteral_word ha
  have hr : ∀ c t, a = c :: t → inRanges c signedDigits = true := fun c t h => h3 c (by rw [h]; simp)
  have hsp : ∀ c ∈ w ++ (op ++ a), isPySpace c = false := by
    intro c hc
    rcases List.mem_append.1 hc with hc | hc
    · exact disjointRanges_iff (by decide +kernel) (hw.2.1 c hc)
    · rcases List.mem_append.1 hc with hc | hc
      · rcases hop with rfl | rfl
        · simp at hc; subst hc; decide
        · simp at hc; subst hc; decide
      · exact disjointRanges_iff (by decide +kernel) (h3 c hc)
  have htok : NextToken .ID_SEEN (op ++ a) .RAISE op.length .DEFAULT_MODE := by
    rcases hop with rfl | rfl
    · exact tok_raise (by decide) a
    · exact nextToken_fixed (w := c!"**") (best_token (n := 2) (mo := some .DEFAULT_MODE) (by decide +kernel) rfl rfl (by simp))
        signedDigits (by decide +kernel) hr
  have hl : lex (w ++ (op ++ a)) = [⟨.ID, w⟩, ⟨.RAISE, op⟩, ⟨k, a⟩] := by
    rw [lex_iff]
    refine tokenises_cons (id_before [('^', '^'), ('*', '*')] (by decide +kernel) hw ?_ (Or.inl (by decide +kernel))) (tokenises_cons htok ?_)
    · intro c t h
      rcases hop with rfl | rfl <;> (simp at h; rw [← h.1]; decide)
    · have := tokenises_cons (rest := []) (by simpa using h1) (Tokenises.nil _)
      simpa using this
  unfold parse
  rw [strip_tight hsp, hl]
  refine (parseTokens_iff _ _).2 (Or.inl (.shiftProd (p := false) (.prodPower ?_)))
  exact Reads.powRaise (a := [⟨.ID, w⟩]) (b := [⟨k, a⟩]) (o := ⟨.RAISE, op⟩) (.logBasic (.basicId rfl)) rfl (reads_intLiteral ha hk)

/-- `wa` -/
theorem parse_juxt {w a : Str} {i : Int} (hw : IdentWord w) (he : w ≠ ['e'] ∧ w ≠ ['E']) (ha : IntLiteral a i) :
    parse (w ++ a) = .ok (.raise (.ident w) (.number (.int i) (some a))) := by
  obtain ⟨_, _, _, _, h3, h4⟩ := intLiteral_word ha
  obtain ⟨k, hk, h1⟩ := int_after_id ha
  have hsp : ∀ c ∈ w ++ a, isPySpace c = false := by
    intro c hc
    rcases List.mem_append.1 hc with hc | hc
    · exact disjointRanges_iff (by decide +kernel) (hw.2.1 c hc)
    · exact disjointRanges_iff (by decide +kernel) (h3 c hc)
  have hl : lex (w ++ a) = [⟨.ID, w⟩, ⟨k, a⟩] := by
    rw [lex_iff]
    refine tokenises_cons (id_before signedDigits (by decide +kernel) hw (fun c t h => h3 c (by rw [h]; simp)) (Or.inr he)) ?_
    have := tokenises_cons (rest := []) (by simpa using h1) (Tokenises.nil _)
    simpa using this
  unfold parse
  rw [strip_tight hsp, hl]
  refine (parseTokens_iff _ _).2 (Or.inl (.shiftProd (p := false) (.prodPower ?_)))
  exact Reads.powInt (a := [⟨.ID, w⟩]) (b := [⟨k, a⟩]) (.logBasic (.basicId rfl)) (reads_intLiteral ha hk)

end Verif
