import Verif.Lemmas.LexerCheck
/-!
# C66: the lexer that runs is the lexer of the grammar file

`generatedLex` is the bundled runtime on the automaton stored in `_grammar/parser/udunits2Lexer.py`; `Tokenises` is the
specification by regular expressions, longest match and rule order; `lex` is the model of the grammar file all
other theorems use.
-/

namespace Verif

theorem CacheHistory.sound {cs : Caches} (h : CacheHistory cs) : cs.Sound LexTable.atn := by
  induction h with
  | fresh => exact Caches.empty_sound _
  | @token A cs m d d' text r _ hA hd hm ih =>
    have : A = LexTable.atn := Option.some.inj (hA.symm.trans lexer_atn)
    subst this
    have hd' := ih.2 _ _ hd
    obtain ⟨S, T⟩ := tables m
    refine ih.set _ ?_
    cases text with
    | nil =>
      obtain ⟨e, h1, h2⟩ := simMatch_nil T d hd'
      rw [h1] at hm
      cases hm; exact h2
    | cons c s =>
      obtain ⟨_, _, _, _, _, e, h1, h2, _⟩ := simMatch_ok T c s d hd'
      rw [h1] at hm
      cases hm; exact h2

/-- C66: whatever has been tokenised before in the process, the generated lexer raises nothing on any text and yields the
types and texts of the one way of cutting the text into longest matches of the grammar's rules. -/
theorem C66_generated_lexer {caches : Caches} (h : CacheHistory caches) (text : Str) :
    ∃ ts caches', generatedLex text caches = some (ts.map Token.raw, caches') ∧ Tokenises .DEFAULT_MODE text ts ∧
      ∀ ts', Tokenises .DEFAULT_MODE text ts' → ts' = ts := by
  obtain ⟨caches', h1, _⟩ := generatedLex_ok text caches h.sound
  refine ⟨lex text, caches', h1, (lex_iff text _).1 rfl, ?_⟩
  intro ts' h'
  exact ((lex_iff text ts').2 h').symm

/-- C66: these are the tokens of the lexer the other theorems are about. -/
theorem C66_same_tokens {caches : Caches} (h : CacheHistory caches) (text : Str) :
    (generatedLex text caches).map (·.1) = some ((lex text).map Token.raw) := by
  obtain ⟨caches', h1, _⟩ := generatedLex_ok text caches h.sound
  rw [h1]; rfl

/-- C66: the shared cache never changes an answer. -/
theorem C66_cache_invisible {c₁ c₂ : Caches} (h₁ : CacheHistory c₁) (h₂ : CacheHistory c₂) (text : Str) :
    (generatedLex text c₁).map (·.1) = (generatedLex text c₂).map (·.1) := by
  rw [C66_same_tokens h₁, C66_same_tokens h₂]

/-- tokenising a whole text is one of the histories -/
theorem simTokens_history {A : Atn} (hA : deserialize lexerAtnData = some A) : ∀ (fuel : Nat) (m : LexMode) (text : Str)
    (cs : Caches) (r : List (Int × Str)) (cs' : Caches), CacheHistory cs → simTokens A fuel m text cs = some (r, cs') →
    (∃ mode : Mode, m.mode = mode.id) ∨ cs.length ≤ m.mode → CacheHistory cs' := by
  intro fuel
  induction fuel with
  | zero => intro m text cs r cs' _ h; cases h
  | succ fuel ih =>
    intro m text cs r cs' hcs h hm
    rw [simTokens] at h
    split at h
    · cases h
    next d hd =>
      obtain ⟨mode, hmode⟩ : ∃ mode : Mode, m.mode = mode.id := by
        rcases hm with hm | hm
        · exact hm
        · rw [List.getElem?_eq_none hm] at hd; cases hd
      rw [hmode] at hd h
      split at h
      · cases h
      · cases h
      next d' hs =>
        cases h; exact .token hcs hA hd hs
      next k acts n d' hs =>
        have hstep := CacheHistory.token hcs hA hd hs
        split at h
        · cases h
        next m' he =>
          suffices gen : ∀ type : Int, (if type ≤ 0 then none
              else if text.drop n = [] then some ([(type, text.take n)], cs.set mode.id d')
              else
                match simTokens A fuel m' (text.drop n) (cs.set mode.id d') with
                | none => none
                | some (ts, caches) => some ((type, text.take n) :: ts, caches)) = some (r, cs') → CacheHistory cs' from gen _ h
          clear h
          intro type h
          split at h
          · cases h
          split at h
          · cases h; exact hstep
          split at h
          · cases h
          next ts cs2 hrec =>
            cases h
            refine ih _ _ _ _ _ hstep hrec ?_
            have hl : (cs.set mode.id d').length = 3 := by
              rw [List.length_set]; exact hcs.sound.1
            rw [hl]
            match hmm : m'.mode with
            | 0 => exact .inl ⟨.DEFAULT_MODE, rfl⟩
            | 1 => exact .inl ⟨.SHIFT_MODE, rfl⟩
            | 2 => exact .inl ⟨.ID_SEEN, rfl⟩
            | n + 3 => exact .inr (by omega)

/-- C66: a whole text tokenised leaves a history again, so the theorems apply to text after text. -/
theorem C66_history_goes_on {caches caches' : Caches} (h : CacheHistory caches) {text : Str} {r : List (Int × Str)}
    (hr : generatedLex text caches = some (r, caches')) : CacheHistory caches' := by
  unfold generatedLex at hr
  rw [lexer_atn] at hr
  exact simTokens_history lexer_atn _ _ _ _ _ _ h hr (.inl ⟨.DEFAULT_MODE, rfl⟩)

/-- a non-trivial history and text: after `m2`, `km since 1990-1-1` -/
example : ∃ r cs, generatedLex "m2".toList Caches.empty = some (r, cs) ∧ cs ≠ Caches.empty ∧ CacheHistory cs ∧
    (generatedLex "km since 1990-1-1".toList cs).map (·.1) =
      some [(16, "km".toList), (18, " ".toList), (12, "since".toList), (18, " ".toList), (25, "1990-1-1".toList)] := by
  obtain ⟨ts, cs, h1, _⟩ := C66_generated_lexer .fresh "m2".toList
  have hh := C66_history_goes_on .fresh h1
  refine ⟨_, cs, h1, ?_, hh, ?_⟩
  · intro he
    have : (generatedLex "m2".toList Caches.empty).map (·.2) = some Caches.empty := by rw [h1, he]; rfl
    revert this
    decide +kernel
  · rw [C66_same_tokens hh]
    decide +kernel

end Verif
