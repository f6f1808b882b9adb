import Verif.Lemmas.LexerTable
/-!
# The kernel checks the table of `Lemmas/LexerTable.lean`
-/

namespace Verif
open LexTable
set_option maxRecDepth 100000

theorem lexer_atn : deserialize lexerAtnData = some atn := by decide +kernel

theorem atn_bounded : atn.bounded bds = true := by decide +kernel

theorem bds_reps : ∀ b ∈ bds, b ≤ 0x10FFFF → ∃ c ∈ reps, c.toNat = b := by decide +kernel

theorem bds_zero : 0 ∈ bds := by decide +kernel

theorem rows_default : checkRows atn .DEFAULT_MODE bds reps tab0 tab0 tr0 = true := by decide +kernel

theorem rows_shift : checkRows atn .SHIFT_MODE bds reps tab1 tab1 tr1 = true := by decide +kernel

theorem rows_idSeen : checkRows atn .ID_SEEN bds reps tab2 tab2 tr2 = true := by decide +kernel

theorem table_default : TableOk atn .DEFAULT_MODE tab0 :=
  tableOk_of_check (D0 := r0_0.1) bds_zero atn_bounded bds_reps (by decide +kernel) (by decide +kernel) (by decide +kernel)
    rows_default

theorem table_shift : TableOk atn .SHIFT_MODE tab1 :=
  tableOk_of_check (D0 := r1_0.1) bds_zero atn_bounded bds_reps (by decide +kernel) (by decide +kernel) (by decide +kernel)
    rows_shift

theorem table_idSeen : TableOk atn .ID_SEEN tab2 :=
  tableOk_of_check (D0 := r2_0.1) bds_zero atn_bounded bds_reps (by decide +kernel) (by decide +kernel) (by decide +kernel)
    rows_idSeen

theorem tables : ∀ mode, ∃ S, TableOk atn mode S
  | .DEFAULT_MODE => ⟨_, table_default⟩
  | .SHIFT_MODE => ⟨_, table_shift⟩
  | .ID_SEEN => ⟨_, table_idSeen⟩

/-- A new lexer on any text, with caches that record what would be computed. -/
theorem generatedLex_ok (text : Str) (caches : Caches) (h : caches.Sound atn) : ∃ caches',
    generatedLex text caches = some ((lex text).map Token.raw, caches') ∧ Caches.Sound atn caches' := by
  obtain ⟨ts, caches', h1, h2, h3⟩ := simTokens_ok tables (text.length + 1) .DEFAULT_MODE 0 [] text caches
    (Nat.lt_succ_self _) h
  refine ⟨caches', ?_, h2⟩
  rw [(lex_iff text ts).2 h3]
  unfold generatedLex
  rw [lexer_atn]
  exact h1

end Verif
