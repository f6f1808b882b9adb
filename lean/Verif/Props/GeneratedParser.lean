import Verif.Lemmas.ParseAlone
import Verif.Props.Generated
import Verif.Props.Parser
/-!
# C67, C68: the parser that runs is the parser of the grammar file

`generatedParse` is the bundled runtime (token types from the generated lexer, `adaptivePredict` with its shared caches, the
methods of `_grammar/parser/udunits2Parser.py`, the visitor); `parse` is the model of the grammar file all other theorems use,
itself characterised by the grammar's derivations (C30).  `AtnAccepts` reads the stored automaton as a pushdown automaton.
-/

namespace Verif.PSim
open ParserTable
set_option maxRecDepth 100000

/-- **C67.** Whatever has been tokenised and predicted before in the process, and whichever alternative the runtime falls back to
after a failed prediction: `parse` as it runs ends, and its result is that of the grammar's parser. -/
theorem C67_generated_parser {A : Atn} (hA : deserialize parserAtnData = some A) {lexer : Caches} (hl : CacheHistory lexer)
    {parser : List PDfa} (hp : ParserHistory A parser) (recover : Recover) (s : Str) :
    ∃ lexer' parser', generatedParse recover s lexer parser = some (parse s, lexer', parser') := by
  obtain rfl : A = atn := Option.some.inj (hA.symm.trans parser_atn)
  obtain ⟨l', p', h, _⟩ := generatedParse_ok recover s (memOk_of hl.sound hp.ok)
  exact ⟨l', p', h⟩

/-- **C67.** Neither the caches nor the fallback after a failed prediction are visible in a result. -/
theorem C67_history_invisible {A : Atn} (hA : deserialize parserAtnData = some A) {l₁ l₂ : Caches} (h₁ : CacheHistory l₁)
    (h₂ : CacheHistory l₂) {p₁ p₂ : List PDfa} (k₁ : ParserHistory A p₁) (k₂ : ParserHistory A p₂) (r₁ r₂ : Recover) (s : Str) :
    (generatedParse r₁ s l₁ p₁).map (·.1) = (generatedParse r₂ s l₂ p₂).map (·.1) := by
  obtain ⟨_, _, e₁⟩ := C67_generated_parser hA h₁ k₁ r₁ s
  obtain ⟨_, _, e₂⟩ := C67_generated_parser hA h₂ k₂ r₂ s
  rw [e₁, e₂]; rfl

/-- One text after the other in one process: the caches left by a text, parsed or rejected, are those of the next. -/
def parseMany (recover : Recover) : List Str → Caches → List PDfa → Option (List (Py Node))
  | [], _, _ => some []
  | s :: ss, lexer, parser =>
    match generatedParse recover s lexer parser with
    | none => none
    | some (r, lexer, parser) => (parseMany recover ss lexer parser).map (r :: ·)

/-- **C67.** In a process that parses any texts one after the other, each result is that of the grammar's parser. -/
theorem C67_sessions {A : Atn} (hA : deserialize parserAtnData = some A) (recover : Recover) (texts : List Str) :
    parseMany recover texts Caches.empty (PCaches.empty A) = some (texts.map parse) := by
  obtain rfl : A = atn := Option.some.inj (hA.symm.trans parser_atn)
  suffices h : ∀ (lexer : Caches) (parser : List PDfa), MemOk ⟨lexer, parser⟩ →
      parseMany recover texts lexer parser = some (texts.map parse) from
    h _ _ (memOk_of CacheHistory.fresh.sound empty_ok)
  induction texts with
  | nil => intro _ _ _; rfl
  | cons s ss ih =>
    intro lexer parser hm
    obtain ⟨l', p', h, h1⟩ := generatedParse_ok recover s hm
    simp only [parseMany, h, ih l' p' h1]
    rfl

/-- **C67, C68.** The predictions made by `generatedParse` are those of `adaptivePredict`: run as a program on the caches, a
prediction gives its result and stores its caches. -/
theorem C67_prediction_program (A : Atn) (rec : Recover) {M : Mem} {dec : Nat} {d : PDfa} (hd : M.parser[dec]? = some d)
    (p : Nat) (prec : Int) (stack : List Nat) (ts : List Int) :
    (adaptivePredictP A rec dec p prec stack ts).alone M =
      ((adaptivePredict A rec p prec stack ts d).1,
        { M with parser := M.parser.set dec (adaptivePredict A rec p prec stack ts d).2 }) := by
  obtain ⟨hlt, he⟩ := List.getElem?_eq_some_iff.1 hd
  have hM : M.putP dec d = M := by
    show ({ M with parser := M.parser.set dec d } : Mem) = M
    rw [← he, List.set_getElem_self]
  have := adaptivePredict_alone (M := M) hlt A rec p prec stack ts d
  rw [hM] at this
  exact this

/-- **C66, C67.** The same for a search for the next token. -/
theorem C67_search_program (A : Atn) {M : Mem} {mode : Nat} {d : Dfa} (hd : M.lexer[mode]? = some d) (text : Str) :
    (∀ r d', simMatch A mode text d = some (r, d') →
      (simMatchP A mode text).alone M = (some r, { M with lexer := M.lexer.set mode d' })) ∧
    (simMatch A mode text d = none → ((simMatchP A mode text).alone M).1 = none) := by
  obtain ⟨hlt, he⟩ := List.getElem?_eq_some_iff.1 hd
  have hM : M.putL mode d = M := by
    show ({ M with lexer := M.lexer.set mode d } : Mem) = M
    rw [← he, List.set_getElem_self]
  have := simMatch_alone (M := M) hlt A text d
  rw [hM] at this
  exact this

/-- **C67.** The stored automaton accepts the tokens of a text exactly if the grammar derives them. -/
theorem C67_automaton_is_the_grammar {A : Atn} (hA : deserialize parserAtnData = some A) (s : Str) :
    AtnAccepts A 0 [] ((lex s).map (fun t => t.kind.id) ++ [-1]) ↔ lex s = [] ∨ Accepts .shift (lex s) := by
  obtain rfl : A = atn := Option.some.inj (hA.symm.trans parser_atn)
  have hc := convertible_lex s
  generalize lex s = ts at hc
  show V 0 [] ts ↔ _
  rw [v0, v23]
  show V 22 [] ts ∨ V 24 [] ts ↔ _
  rw [v24_iff, V22_iff hc, or_comm]
  refine or_congr_right' fun hne => ?_
  constructor
  · rintro ⟨n, hn⟩
    obtain ⟨a, h1, h2⟩ := Verif.sound_shift _ _ _ _ hn
    rw [List.append_nil] at h1
    subst h1
    exact accepts_of_derives h2
  · intro h
    obtain ⟨n, hn⟩ := derives_of_accepts h hc
    obtain ⟨m, this⟩ : ∃ m, parseTokens ts = .ok m := by
      obtain ⟨nt, m', he, hm⟩ := reads_of_derives hn
      cases nt <;> first | (cases he; done) | exact ⟨m', (parseTokens_iff _ _).2 (Or.inl hm)⟩
    unfold parseTokens at this
    split at this
    next x r he =>
      have h1 := List.mem_of_find?_eq_some he
      have h2 := List.find?_some he
      have : r = [] := by simpa using h2
      subst this
      exact ⟨x, h1⟩
    · rw [if_neg (by simpa using hne)] at this; cases this

/-- a session with an accepted, a rejected and a repeated text: the caches do change, the results do not -/
example : parseMany (fun _ => none) [c!"m2", c!"m)", c!"days since 1990-1-1 +2:00", c!"m2"] Caches.empty (PCaches.empty atn) =
      some [.ok (.raise (.ident c!"m") (.number (.int 2) (some c!"2"))), .error .syntaxError,
        .ok (.shift (.ident c!"days") (.unhandled c!"1990-1-1 +2:00")),
        .ok (.raise (.ident c!"m") (.number (.int 2) (some c!"2")))] ∧
    (((parserP (fun _ => none) [(16, c!"m"), (9, c!"2")]).alone ⟨Caches.empty, PCaches.empty atn⟩).2.parser.any fun d =>
      0 < d.edges.length) = true := by
  rw [C67_sessions parser_atn]
  decide +kernel

/-! ## C68 -/

theorem altTargets_iff {st : AState} {q i : Nat} : (q, i) ∈ altTargets st ↔ ∃ j, i = j + 1 ∧ st.trans[j]? = some (.epsilon q) := by
  unfold altTargets
  rw [List.mem_filterMap]
  constructor
  · rintro ⟨⟨t, j⟩, hm, h⟩
    rw [List.mem_zipIdx_iff_getElem?] at hm
    cases t <;> simp only [Option.some.injEq, Prod.mk.injEq, reduceCtorEq] at h
    obtain ⟨rfl, rfl⟩ := h
    exact ⟨j, rfl, hm⟩
  · rintro ⟨j, rfl, h⟩
    exact ⟨(.epsilon q, j), by rw [List.mem_zipIdx_iff_getElem?]; exact h, rfl⟩

section
variable {A : Atn} {cs : List PDfa} {dec p : Nat} {st : AState} {d : PDfa} {stack γ : List Nat} {toks : List Int}

theorem prediction_correct (hA : deserialize parserAtnData = some A) (h : ParserHistory A cs) (hdec : dec ∈ predictedDecisions)
    (hp : A.decisions[dec]? = some p) (hst : A.states[p]? = some st) (hd : cs[dec]? = some d) (hc : Calls A st.rule stack γ)
    (ht : ∀ t ∈ toks, t ≠ -1) (rec : Recover) : Correct A st γ (toks ++ [-1]) (adaptivePredict A rec p 0 stack toks d).1 := by
  obtain rfl : A = atn := Option.some.inj (hA.symm.trans parser_atn)
  have hmem := predicted_of hdec hp
  have hgood := decision_good hmem
  obtain ⟨d', h1, h2⟩ := h.ok _ hmem
  obtain rfl : d = d' := Option.some.inj (hd.symm.trans h1)
  rw [← stateAt_eq hst] at hc ⊢
  rw [← hc.typed.2]
  exact (adaptivePredict_correct good hgood hc.typed.1 ht rec h2).1

/-- **C68.** A prediction with any number of tokens ahead, in any context and with any caches the process can have, chooses the
first alternative with which the rest of the input can be consumed, whenever there is one. -/
theorem C68_lowest_viable (hA : deserialize parserAtnData = some A) (h : ParserHistory A cs) (hdec : dec ∈ predictedDecisions)
    (hp : A.decisions[dec]? = some p) (hst : A.states[p]? = some st) (hd : cs[dec]? = some d) (hc : Calls A st.rule stack γ)
    (ht : ∀ t ∈ toks, t ≠ -1) (rec : Recover) (hv : ∃ i, ViableAlt A st γ toks i) :
    ∃ i, (adaptivePredict A rec p 0 stack toks d).1 = some (some (i + 1)) ∧ ViableAlt A st γ toks i ∧
      ∀ j, ViableAlt A st γ toks j → i ≤ j := by
  obtain ⟨o, h1, h2, h3⟩ := prediction_correct hA h hdec hp hst hd hc ht rec
  have conv : ∀ j, ViableAlt A st γ toks j → Viable A st γ (j + 1) (toks ++ [-1]) := by
    rintro j ⟨q, hq, ha⟩
    exact ⟨q, altTargets_iff.2 ⟨j, rfl, hq⟩, ha⟩
  obtain ⟨i0, hv⟩ := hv
  cases o with
  | none => exact absurd (conv i0 hv) (h2 rfl _)
  | some k =>
    obtain ⟨_, h3⟩ := h3 k rfl
    obtain ⟨⟨q, hq, ha⟩, _⟩ := h3 _ (conv i0 hv)
    obtain ⟨i, rfl, hi⟩ := altTargets_iff.1 hq
    refine ⟨i, h1, ⟨q, hi, ha⟩, ?_⟩
    intro j hj
    have := (h3 _ (conv j hj)).2
    omega

/-- **C68.** A prediction always ends; without such an alternative it is an error or an alternative of the decision. -/
theorem C68_ends (hA : deserialize parserAtnData = some A) (h : ParserHistory A cs) (hdec : dec ∈ predictedDecisions)
    (hp : A.decisions[dec]? = some p) (hst : A.states[p]? = some st) (hd : cs[dec]? = some d) (hc : Calls A st.rule stack γ)
    (ht : ∀ t ∈ toks, t ≠ -1) (rec : Recover) :
    (adaptivePredict A rec p 0 stack toks d).1 = some none ∨
    ∃ i q, (adaptivePredict A rec p 0 stack toks d).1 = some (some (i + 1)) ∧ st.trans[i]? = some (.epsilon q) := by
  obtain ⟨o, h1, h2, h3⟩ := prediction_correct hA h hdec hp hst hd hc ht rec
  cases o with
  | none => exact Or.inl h1
  | some k =>
    obtain ⟨⟨q, hq⟩, _⟩ := h3 k rfl
    obtain ⟨i, rfl, hi⟩ := altTargets_iff.1 hq
    exact Or.inr ⟨i, q, h1, hi⟩
end

/-- `m2` in `power`: with the first alternative (exponent) and with the second (no exponent, then another factor) the rest can be
consumed; the prediction is the first -/
example : ∃ st, atn.decisions[(9 : Nat)]? = some 84 ∧ atn.states[(84 : Nat)]? = some st ∧
    Calls atn st.rule [51, 27, 22] [52, 49, 24] ∧ ViableAlt atn st [52, 49, 24] [16, 9] 0 ∧
    ViableAlt atn st [52, 49, 24] [16, 9] 1 ∧
    (adaptivePredict atn (fun _ => none) 84 0 [51, 27, 22] [16, 9] ⟨[], []⟩).1 = some (some 1) := by
  have hcalls : Calls atn (stateAt 84).rule [51, 27, 22] [52, 49, 24] :=
    .call (s := 51) (st := stateAt 51) (sq := stateAt 6) rfl rfl rfl
      (.call (s := 27) (st := stateAt 27) (sq := stateAt 4) rfl rfl rfl
        (.call (s := 22) (st := stateAt 22) (sq := stateAt 2) rfl rfl rfl .root))
  have hv7 : ∀ ts, V 7 [52, 49, 24] ts = V 70 [49, 24] ts := fun ts => by
    rw [← v52, ← V_stop st7 52]
  have hv5 : ∀ ts, V 5 [49, 24] ts = V 24 [] ts := fun ts => by
    rw [show V 5 [49, 24] ts = V 49 [24] ts by rw [← V_stop st5 49], v49, ← V_stop st3 24]
  have hend : V 5 [49, 24] [] := by rw [hv5]; exact v24_iff.2 rfl
  have hss := sound_shiftSpec 0
  have h0 : V 73 [52, 49, 24] [⟨.ID, c!"m"⟩, ⟨.INT, c!"2"⟩] := by
    refine sound_power1 hss _ _ (.raise (.ident c!"m") (.number (.int 2) (some c!"2")), []) (by decide +kernel) ?_
    rw [v85, hv7]
    exact sound_loop hss 0 (.ident c!"m") _ _ (.ident c!"m", []) (by decide +kernel) hend
  have h1 : V 76 [52, 49, 24] [⟨.ID, c!"m"⟩, ⟨.INT, c!"2"⟩] := by
    refine sound_power2 hss _ _ (.ident c!"m", [⟨.INT, c!"2"⟩]) (by decide +kernel) ?_
    rw [v85, hv7]
    exact sound_loop hss 1 (.ident c!"m") _ _ (.mul (.ident c!"m") (.number (.int 2) (some c!"2")), []) (by decide +kernel) hend
  have hv0 : ViableAlt atn (stateAt 84) [52, 49, 24] [16, 9] 0 := ⟨73, rfl, h0⟩
  refine ⟨stateAt 84, rfl, rfl, hcalls, hv0, ⟨76, rfl, h1⟩, ?_⟩
  obtain ⟨i, hi, _, hlow⟩ := C68_lowest_viable parser_atn .fresh (dec := 9) (by decide) rfl rfl rfl hcalls (by decide)
    (fun _ => none) ⟨0, hv0⟩
  obtain rfl : i = 0 := Nat.le_zero.1 (hlow 0 hv0)
  exact hi

end Verif.PSim
