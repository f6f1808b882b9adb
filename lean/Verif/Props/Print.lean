import Verif.Lemmas.Alike
import Verif.Props.Units
/-!
# C27 (continued), C32, C46 (continued), C47: printed units
-/

namespace Verif
open Spec (IntLiteral IdentWord Printable respell NoSuperscript NoDate Tidy Level DecLiteral)

/-! ## C32 -/

/-- **C32.** The printed form of every expression that needs no brackets — of any size — parses, to the same expression
with its numbers respelled. -/
theorem C32_print_parse (e : Node) (h : Printable .whole e) : parse e.str = .ok (respell e) := parse_print h

/-- **C32.** Respelling the numbers changes neither the dimensionality of a unit nor its symbolic definition (what
conversions are computed from), whatever its identifiers refer to. -/
theorem C32_same_meaning (e : Node) (h : Printable .whole e) (hs : NoSuperscript e) (names : Option UnitReference)
    (refs : List (Str × Ref)) :
    (Ref.unit names (respell e) refs).dims = (Ref.unit names e refs).dims ∧
    (Ref.unit names (respell e) refs).symDef = (Ref.unit names e refs).symDef := by
  have ha := alike_respell h hs
  refine ⟨(alike_dims ha (fun _ => rfl) names names).symm, ?_⟩
  unfold Ref.symDef Ref.expand
  cases Ref.expandList refs with
  | error x => rfl
  | ok s => exact (alike_symDef (alike_substitute (fun _ => rfl) ha)).symm

theorem not_mem_strip {c : Char} {s : Str} (h : c ∉ s) : c ∉ strip s := by
  intro hc
  unfold strip at hc
  exact h ((List.dropWhile_sublist _).subset (List.mem_reverse.1 ((List.dropWhile_sublist _).subset (List.mem_reverse.1 hc))))

theorem printable_of_parse {s : Str} {e : Node} (hb : '(' ∉ s) (h : parse s = .ok e) (hs : NoSuperscript e)
    (hd : NoDate e) : Printable .whole e := by
  rcases (parseTokens_iff _ e).1 h with h | ⟨_, rfl⟩
  · exact (printable_of_reads h (noBrackets_lex (not_mem_strip hb))
      (fun t ht hk => id_not_reserved ((lex_iff _ _).1 rfl) ht hk) hs hd).1
  · exact hd.elim

/-- **C32.** Every unit text without brackets (and without superscripts or dates) normalises to a text that parses to the
same expression up to the spelling of its numbers — so normalising changes neither dimensionality nor conversions. -/
theorem C32_bracket_free (s : Str) (e : Node) (hb : '(' ∉ s) (h : parse s = .ok e) (hs : NoSuperscript e) (hd : NoDate e) :
    ∃ t, normalizeText s = .ok t ∧ parse t = .ok (respell e) ∧
      ∀ names refs, (Ref.unit names (respell e) refs).dims = (Ref.unit names e refs).dims ∧
        (Ref.unit names (respell e) refs).symDef = (Ref.unit names e refs).symDef := by
  have hp := printable_of_parse hb h hs hd
  refine ⟨e.str, ?_, parse_print hp, fun names refs => C32_same_meaning e hp hs names refs⟩
  simp only [normalizeText, h, bind, Except.bind]

/-- **C32.** Normalising a normalised text changes nothing, if the text has no brackets, superscripts, dates, and does
not spell zero as `-0.`. -/
theorem C32_normalise_idempotent (s : Str) (e : Node) (hb : '(' ∉ s) (h : parse s = .ok e) (hs : NoSuperscript e)
    (hd : NoDate e) (ht : Tidy e) : ∃ t, normalizeText s = .ok t ∧ normalizeText t = .ok t := by
  have hp := printable_of_parse hb h hs hd
  refine ⟨e.str, ?_, ?_⟩
  · simp only [normalizeText, h, bind, Except.bind]
  · simp only [normalizeText, parse_print hp, bind, Except.bind, str_respell hp ht]

/-- **C32.** Among expressions that need no brackets, only those that agree up to the spelling of numbers print alike. -/
theorem C32_print_injective (a b : Node) (ha : Printable .whole a) (hb : Printable .whole b) (h : a.str = b.str) :
    respell a = respell b := by
  have h1 := parse_print ha
  rw [h, parse_print hb] at h1
  exact (Except.ok.inj h1).symm

/-- **C32 (refuted).** Without the restriction: `(m^2)^3` prints as `m^2^3`, which does not parse; `m/(s s)` prints as
the different unit `m/s·s`; and normalising `-0.` twice is not the same as once. -/
theorem C32_print_parse_refuted :
    (¬ ∀ s t, normalizeText s = .ok t → ∃ e, parse t = .ok e) ∧
    (¬ ∀ s t e e', parse s = .ok e → normalizeText s = .ok t → parse t = .ok e' → respell e = respell e') ∧
    (¬ ∀ s t, normalizeText s = .ok t → normalizeText t = .ok t) := by
  refine ⟨fun h => ?_, fun h => ?_, fun h => ?_⟩
  · obtain ⟨e, he⟩ := h c!"(m^2)^3" c!"m^2^3" (by decide +kernel)
    have : parse c!"m^2^3" = .error .syntaxError := by decide +kernel
    rw [this] at he; cases he
  · have := h c!"m/(s s)" c!"m/s·s" (.div (.ident c!"m") (.mul (.ident c!"s") (.ident c!"s")))
      (.mul (.div (.ident c!"m") (.ident c!"s")) (.ident c!"s")) (by decide +kernel) (by decide +kernel) (by decide +kernel)
    revert this
    decide +kernel
  · have := h c!"-0." c!"-0" (by decide +kernel)
    revert this
    decide +kernel

/-- non-vacuity: a text with products, quotients, powers, decimals and a shift; and its normal form -/
example : '(' ∉ c!"1.50e3 kg.m2/s^-2 @ 273.15" ∧
    normalizeText c!"1.50e3 kg.m2/s^-2 @ 273.15" = .ok c!"(1.50E+3·kg·m^2/s^-2 @ 273.15)" ∧
    (∀ e, parse c!"1.50e3 kg.m2/s^-2 @ 273.15" = .ok e → NoSuperscript e ∧ NoDate e ∧ Tidy e) := by
  have h : parse c!"1.50e3 kg.m2/s^-2 @ 273.15" =
      .ok (.shift (.div (.mul (.mul (.number (.dec ⟨false, 150, 1⟩) (some c!"1.50e3")) (.ident c!"kg"))
        (.raise (.ident c!"m") (.number (.int 2) (some c!"2")))) (.raise (.ident c!"s") (.number (.int (-2)) (some c!"-2"))))
        (.number (.dec ⟨false, 27315, -2⟩) (some c!"273.15"))) := by decide +kernel
  refine ⟨by decide, by decide +kernel, fun e he => ?_⟩
  rw [h] at he
  cases he
  simp [NoSuperscript, NoDate, Tidy]

/-- … and a printable expression with a logarithm and a date: `lg(re 10^-3·W)` and `s since 2000-01-01` -/
example : parse (Node.log c!"lg" (.mul (.raise (.number (.int 10) none) (.number (.int (-3)) none)) (.ident c!"W"))).str =
    .ok (.log c!"lg" (.mul (.raise (.number (.int 10) (some c!"10")) (.number (.int (-3)) (some c!"-3"))) (.ident c!"W"))) :=
  C32_print_parse _ (.product (.factor (.plain (.log (by decide) (.mul (.factor (.power .int))
    (.plain (.ident (by unfold IdentWord; decide +kernel))))))))

/-! ## C47 -/

/-- **C47.** Every identifier word — of any length — parses to that identifier: so every unit whose name or symbol is such
a word can be asked for by it. -/
theorem C47_words_are_identifiers (w : Str) (h : IdentWord w) : parse w = .ok (.ident w) :=
  parse_print (e := .ident w) (.product (.factor (.plain (.ident h))))

/-- **C47.** A text parses to a bare identifier only if it is that identifier, up to blanks and brackets. -/
theorem C47_identifier_texts (s w : Str) (h : parse s = .ok (.ident w)) (hb : '(' ∉ s) : strip s = w ∧ IdentWord w := by
  rcases (parseTokens_iff _ _).1 h with h | ⟨_, h⟩
  · have hnb := noBrackets_lex (not_mem_strip hb)
    have hid := fun t ht hk => id_not_reserved ((lex_iff (strip s) _).1 rfl) (t := t) ht hk
    have key : ∀ {nt : NT'} {ts : List Token} {e : Node}, Reads nt ts e → NoBrackets ts → e = .ident w →
        ∃ t, ts = [t] ∧ t.kind = .ID ∧ t.text = w := by
      intro nt ts e h hb he
      induction h with
      | int h1 h2 =>
        unfold intNode at h2
        cases h' : parseInt? _ with
        | none => rw [h'] at h2; cases h2
        | some i => rw [h'] at h2; cases h2; cases he
      | numInt _ ih => exact ih hb he
      | @numFloat t n h1 h2 =>
        unfold floatNode at h2
        split at h2
        · cases h2; cases he
        · cases h2
      | @basicId t h1 => cases he; exact ⟨t, rfl, h1, rfl⟩
      | basicParen h1 => exact absurd h1 (hb _ (by simp)).1
      | basicNum _ ih => exact ih hb he
      | logBasic _ ih => exact ih hb he
      | logLog h1 => exact absurd h1 (hb _ (by simp)).2
      | powPlain _ ih => exact ih hb he
      | prodPower _ ih => exact ih hb he
      | shiftProd _ ih => exact ih hb he
      | _ => cases he
    obtain ⟨t, h1, h2, h3⟩ := key h hnb rfl
    have hl := (tokenises_lossless ((lex_iff (strip s) _).1 rfl)).1
    rw [h1] at hl
    have := hid t (by rw [h1]; simp) h2
    rw [h3] at this
    refine ⟨?_, this⟩
    rw [← hl]
    simpa using h3
  · cases h

/-- **C47 (refuted).** A registered name can always be used in a unit text: false. The words `after`, `from`, `since`,
`ref`, and any name with a digit, are never read as identifiers. -/
theorem C47_registered_names_refuted :
    parse c!"ref" = .error .syntaxError ∧ parse c!"H2O" ≠ .ok (.ident c!"H2O") ∧
    parse c!"e5" ≠ .ok (.ident c!"e5") := by decide +kernel

example : IdentWord c!"kilometre" ∧ IdentWord c!"µm" := by unfold IdentWord; decide +kernel

/-! ## C46: whole texts -/

/-- **C46.** Every integer literal, of any length, parses to exactly that integer. -/
theorem C46_integer_texts (s : Str) (v : Int) (h : IntLiteral s v) : parse s = .ok (.number (.int v) (some s)) := by
  obtain ⟨k, hk, h1, h2, h3, h4⟩ := intLiteral_word h
  refine parse_word h1 (fun c hc => disjointRanges_iff (by decide +kernel) (h3 c hc)) ?_
  refine .logBasic (.basicNum (.numInt (.int hk ?_)))
  simp only [intNode, parseInt_literal h, Option.map_some]

/-- **C46.** Every decimal literal with a digit before the point (or no sign) that has a point or an exponent, of any length, parses
to exactly the number it spells. -/
theorem C46_decimal_texts {sg ip dot fp ex : Str} {k e : Int} (hs : Spec.Sign sg k) (hip : Spec.Digits ip)
    (hfp : Spec.Digits fp) (h0 : ip ≠ [] ∨ (sg = [] ∧ fp ≠ [])) (hdot : dot = ['.'] ∨ (dot = [] ∧ fp = [] ∧ ex ≠ []))
    (hex : Spec.ExpPart ex e) :
    ∃ d : Dec, parse (sg ++ ip ++ dot ++ fp ++ ex) = .ok (.number (.dec d) (some (sg ++ ip ++ dot ++ fp ++ ex))) ∧
      d.toRat = k * ((Spec.natValue ip + Spec.natValue fp / 10 ^ fp.length : Rat)) * (10 : Rat) ^ e := by
  have hk : k = 1 ∨ k = -1 := by cases hs <;> simp
  have hm := float_of_shape hs hip hfp h0 hdot hex
  have h0' : ip ++ fp ≠ [] := by
    rcases h0 with h | ⟨_, h⟩
    · simp [h]
    · simp [h]
  have hp := decParse_literal hs hip hfp h0' (hdot.imp id fun h => ⟨h.1, h.2.1⟩) hex
  refine ⟨_, parse_word (word_float hm).1 ?_ (.logBasic (.basicNum (.numFloat rfl ?_))), decToRat_literal hk⟩
  · intro c hc
    exact disjointRanges_iff (by decide +kernel) (float_chars hm hc)
  · simp only [floatNode, hp]

/-- **C46 (refuted).** Every decimal literal parses: false for a signed literal without a digit before the point. -/
theorem C46_signed_point_refuted : DecLiteral c!"-.5" (-1/2) ∧ parse c!"-.5" = .error .syntaxError ∧
    parse c!".5" = .ok (.number (.dec ⟨false, 5, -1⟩) (some c!".5")) := by
  refine ⟨⟨c!"-", [], c!".", c!"5", [], -1, 0, rfl, .minus, (by unfold Spec.Digits; decide +kernel), (by unfold Spec.Digits; decide +kernel), by decide, Or.inl rfl,
    Or.inl ⟨rfl, rfl⟩, by rw [show Spec.natValue c!"5" = 5 by decide +kernel]; norm_num [Spec.natValue]⟩, by decide +kernel, by decide +kernel⟩

/-! ## C27, continued -/

/-- **C27.** If two units whose definitions need no brackets when printed, with the same references, are equal, they
have the same power of every basis unit and converting between them changes nothing. (The case that they print alike
is the new part; compare `C27_equal_units_interchangeable_refuted`.) -/
theorem C27_printable_units_interchangeable {n1 n2 : Option UnitReference} {e1 e2 : Node} {r1 r2 : List (Str × Ref)}
    {d1 d2 : Dims} (p1 : Printable .whole e1) (p2 : Printable .whole e2) (s1 : NoSuperscript e1) (s2 : NoSuperscript e2)
    (hr : ∀ n, Dict.get n r1 = Dict.get n r2)
    (h1 : (Ref.unit n1 e1 r1).dims = .ok d1) (h2 : (Ref.unit n2 e2 r2).dims = .ok d2)
    (haa : ∀ s, Affine s (.unit n1 e1 r1)) (hab : ∀ s, Affine s (.unit n2 e2 r2))
    (hc : Constructible (.unit (.unit n1 e1 r1)) (.unit (.unit n2 e2 r2)))
    (heq : Ref.eq (.unit n1 e1 r1) (.unit n2 e2 r2) = .ok true) :
    (∀ s, Dims.power s d1 = Dims.power s d2) ∧
      ∀ x, convert (.unit (.unit n1 e1 r1)) (.unit (.unit n2 e2 r2)) x = .ok x := by
  by_cases hstr : e1.str = e2.str
  · have hal := alike_of_str p1 p2 s1 s2 hstr
    have hdd := alike_dims hal hr n1 n2
    rw [h1, h2] at hdd
    cases hdd
    refine ⟨fun s => rfl, fun x => ?_⟩
    obtain ⟨ops, hops⟩ := hc
    obtain ⟨fd, td, σ, f1, f2, f3, f4, ⟨tb, db, sb, cb⟩, ta, da, sa⟩ := build_facts hops
    have hpq := alike_refSymDef hal hr sa sb
    cases hpq
    obtain ⟨a1, a2⟩ := affine_exp haa sa cb h1
    have w1 := dimObj_of ⟨⟨n1, e1, r1, rfl⟩, h1⟩
    have w2 := dimObj_of ⟨⟨n2, e2, r2, rfl⟩, h2⟩
    have hl : Link (.dimensionality d1) (.dimensionality d1) true := (link_proper w1.2 w2.2 true).2 fun _ => rfl
    rw [convert_iff w1.1 w1.2 w2.1 hl ⟨_, _, sa, cb⟩ ⟨_, _, sb, cb⟩]
    exact ⟨_, _, _, _, (base_iff_of_symFree (a := .unit _) sa cb a1 x _ _).2 ⟨rfl, rfl⟩,
      (base_iff_of_symFree (a := .unit _) sb cb a1 x _ _).2 ⟨rfl, rfl⟩, rfl, rfl⟩
  · exact C27_equal_units_interchangeable ⟨⟨n1, e1, r1, rfl⟩, h1⟩ ⟨⟨n2, e2, r2, rfl⟩, h2⟩ haa hab hc hstr heq

/-- `1.0 m` and `1 m`, and (printing alike) `5. m` and `5 m` -/
example : Printable .whole (.mul (.number (.dec ⟨false, 5, 0⟩) (some c!"5.")) (.ident c!"m")) ∧
    Printable .whole (.mul (.number (.int 5) (some c!"5")) (.ident c!"m")) ∧
    Ref.eq (Demo.u (.mul (.number (.dec ⟨false, 5, 0⟩) (some c!"5.")) (.ident c!"m")))
      (Demo.u (.mul (.number (.int 5) (some c!"5")) (.ident c!"m"))) = .ok true ∧
    Constructible (.unit (Demo.u (.mul (.number (.dec ⟨false, 5, 0⟩) (some c!"5.")) (.ident c!"m"))))
      (.unit (Demo.u (.mul (.number (.int 5) (some c!"5")) (.ident c!"m")))) :=
  ⟨.product (.mul (.factor (.plain .dec)) (.plain (.ident (by unfold IdentWord; decide +kernel)))),
   .product (.mul (.factor (.plain .int)) (.plain (.ident (by unfold IdentWord; decide +kernel)))),
   by decide +kernel, ⟨[.scale ⟨1, []⟩], by decide +kernel⟩⟩

end Verif
