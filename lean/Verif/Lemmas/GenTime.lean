import Verif.Lemmas.GenAlts
/-!
# `timestamp`
-/

namespace Verif.PSim
open ParserTable
set_option maxRecDepth 100000

section
variable {N : Nat}

theorem sim_doi109 : Sim N 8 1 (V 109) (V 110) (dateOrIntG 109 108) dateOrInt RTs :=
  sim_dateOrInt v109 v107 v108 (by dk) (by dk) (by dk) (by dk) (by dk) (by dk) (by dk) (by dk) (by dk) (by dk)
theorem sim_doi113 : Sim N 8 1 (V 113) (V 114) (dateOrIntG 113 112) dateOrInt RTs :=
  sim_dateOrInt v113 v111 v112 (by dk) (by dk) (by dk) (by dk) (by dk) (by dk) (by dk) (by dk) (by dk) (by dk)
theorem sim_doi141 : Sim N 8 1 (V 141) (V 142) (dateOrIntG 141 140) dateOrInt RTs :=
  sim_dateOrInt v141 v139 v140 (by dk) (by dk) (by dk) (by dk) (by dk) (by dk) (by dk) (by dk) (by dk) (by dk)

theorem sim_tz124 : Sim N 8 0 (V 124) (V 125) (tzAnyG 124 122) (P.opt tzAny) RTs :=
  sim_tzAny v124 v122 v123 (by dk) (by dk) (by dk) (by dk) (by dk) (by dk) (by dk) (by dk) (by dk) (by dk) (by dk)
theorem sim_tz129 : Sim N 8 0 (V 129) (V 130) (tzAnyG 129 127) (P.opt tzAny) RTs :=
  sim_tzAny v129 v127 v128 (by dk) (by dk) (by dk) (by dk) (by dk) (by dk) (by dk) (by dk) (by dk) (by dk) (by dk)
theorem sim_tz137 : Sim N 8 0 (V 137) (V 138) (tzAnyG 137 135) (P.opt tzAny) RTs :=
  sim_tzAny v137 v135 v136 (by dk) (by dk) (by dk) (by dk) (by dk) (by dk) (by dk) (by dk) (by dk) (by dk) (by dk)

theorem sound_tz124 : Sound (V 124) (V 125) (P.opt tzAny) := sound_tzAny v124 v122 v123
theorem sound_tz129 : Sound (V 129) (V 130) (P.opt tzAny) := sound_tzAny v129 v127 v128
theorem sound_tz137 : Sound (V 137) (V 138) (P.opt tzAny) := sound_tzAny v137 v135 v136

theorem sim_ws120 : Sim N 8 0 (V 120) (V 121) (G.optTok 18 120) (P.opt (P.tok .WS)) ROpt :=
  sim_optWs v120 v119 (by dk) (by dk) (by dk) (by dk) (by dk) (by dk)
theorem sim_ws133 : Sim N 8 0 (V 133) (V 134) (G.optTok 18 133) (P.opt (P.tok .WS)) ROpt :=
  sim_optWs v133 v132 (by dk) (by dk) (by dk) (by dk) (by dk) (by dk)
theorem sim_ws144 : Sim N 8 0 (V 144) (V 145) (G.optTok 18 144) (P.opt (P.tok .WS)) ROpt :=
  sim_optWs v144 v143 (by dk) (by dk) (by dk) (by dk) (by dk) (by dk)

/-- the alternatives -/
def timeAlts : List (Nat × P Str) :=
  [(109, dateOrInt),
   (113, P.cat dateOrInt (P.cat (P.opt (P.or (P.tok .WS) (P.tok .T)))
          (P.cat signedClock (P.cat (P.opt (P.tok .WS)) (P.opt tzAny))))),
   (126, P.cat integerText (P.opt tzAny)),
   (131, P.cat (P.tok .TIMESTAMP) (P.cat (P.opt (P.tok .WS)) (P.opt tzAny))),
   (141, P.cat dateOrInt (P.cat (P.opt (P.tok .WS)) (P.or (P.tok .TIMEZONE) (P.tok .TZ))))]

theorem sound_clock2 : Sound (V 118) (V 120) signedClock := sound_callV v118 st19 sound_clock
theorem sound_tail2 : Sound (V 120) (V 148) (P.cat (P.opt (P.tok .WS)) (P.opt tzAny)) :=
  sound_cat (sound_optWs v120 v119) (sound_tz124.eqs v121 v125.symm)
theorem sound_rest2 : Sound (V 118) (V 148) (P.cat signedClock (P.cat (P.opt (P.tok .WS)) (P.opt tzAny))) :=
  sound_cat sound_clock2 sound_tail2
theorem sound_alt2 : Sound (V 116) (V 148) (P.cat (P.opt (P.or (P.tok .WS) (P.tok .T)))
          (P.cat signedClock (P.cat (P.opt (P.tok .WS)) (P.opt tzAny)))) :=
  sound_cat sound_wsOrT (sound_rest2.eqs v117 rfl)
theorem sound_tail4 : Sound (V 133) (V 148) (P.cat (P.opt (P.tok .WS)) (P.opt tzAny)) :=
  sound_cat (sound_optWs v133 v132) (sound_tz137.eqs v134 v138.symm)
theorem sound_end5 : Sound (V 146) (V 148) (P.or (P.tok .TIMEZONE) (P.tok .TZ)) := by
  rw [v146]; exact sound_or (sound_tok _) (sound_tok _)
theorem sound_tail5 : Sound (V 144) (V 148) (P.cat (P.opt (P.tok .WS)) (P.or (P.tok .TIMEZONE) (P.tok .TZ))) :=
  sound_cat (sound_optWs v144 v143) (sound_end5.eqs v145 rfl)

theorem sound_time1 : Sound (V 109) (V 148) dateOrInt := (sound_dateOrInt v109 v107 v108).eqs rfl v110.symm
theorem sound_time2 : Sound (V 113) (V 148) (P.cat dateOrInt (P.cat (P.opt (P.or (P.tok .WS) (P.tok .T)))
          (P.cat signedClock (P.cat (P.opt (P.tok .WS)) (P.opt tzAny))))) :=
  sound_cat (sound_dateOrInt v113 v111 v112) (sound_alt2.eqs v114 rfl)
theorem sound_time3 : Sound (V 126) (V 148) (P.cat integerText (P.opt tzAny)) :=
  sound_cat (sound_callV v126 st13 sound_integer) (sound_tz129.eqs rfl v130.symm)
theorem sound_time4 : Sound (V 131) (V 148) (P.cat (P.tok .TIMESTAMP) (P.cat (P.opt (P.tok .WS)) (P.opt tzAny))) := by
  rw [v131]; exact sound_cat (sound_tok _) sound_tail4
theorem sound_time5 : Sound (V 141) (V 148) (P.cat dateOrInt (P.cat (P.opt (P.tok .WS)) (P.or (P.tok .TIMEZONE) (P.tok .TZ)))) :=
  sound_cat (sound_dateOrInt v141 v139 v140) (sound_tail5.eqs v142 rfl)

theorem sound_time : Sound (V 16) (V 17) timestampP := by
  rw [v16, v147, ← v148]
  exact sound_or sound_time1 (sound_or sound_time2 (sound_or sound_time3 (sound_or sound_time4 sound_time5)))

theorem sim_time : Sim N 8 1 (V 16) (V 17) timestampG timestampP
    (fun t s => t.text = s ∧ RN t (.unhandled s)) := by
  have h0 : Fst 8 (V 147) (nextsOf 147) := fst_V (by dk)
  rw [v16, ← v148]
  refine sim_mkRule (sim_sync ?_ h0 (by dk))
  rw [show V 147 = orWs timeAlts from v147, show timestampP = orPs timeAlts from rfl]
  suffices h : AllAlts N 8 1 (V 148) RTs (fun alt =>
      if alt = 1 then dateOrIntG 109 108
      else if alt = 2 then do
        let a ← dateOrIntG 113 112
        let b ← wsOrTG
        let c ← G.call 118 signedClockG
        let d ← G.optTok 18 120
        let e ← tzAnyG 124 122
        pure (a ++ b ++ [c] ++ d ++ e)
      else if alt = 3 then do
        let a ← G.call 126 integerG
        let e ← tzAnyG 129 127
        pure ([a] ++ e)
      else if alt = 4 then do
        let a ← G.tok 27
        let d ← G.optTok 18 133
        let e ← tzAnyG 137 135
        pure ([a] ++ d ++ e)
      else if alt = 5 then do
        let a ← dateOrIntG 141 140
        let d ← G.optTok 18 144
        let e ← G.tokIn [20, 21]
        pure (a ++ d ++ [e])
      else pure []) 1 timeAlts by
    refine (sim_alts (p := 147) (by dk) rfl decision147 (by dk) (by dk) h).rel ?_
    rintro x s rfl
    simp [PTree.text, RN, visit]
  refine ⟨⟨?_, sound_time1⟩, ⟨?_, sound_time2⟩, ⟨?_, sound_time3⟩, ⟨?_, sound_time4⟩, ⟨?_, sound_time5⟩, trivial⟩
  · exact sim_doi109.eqs rfl v110.symm
  · refine sim_cat1 sim_doi113 (sound_alt2.eqs v114 rfl) fun a sa ha => ?_
    rw [v114]
    refine sim_cat sim_wsOrT (sound_rest2.eqs v117 rfl) fun b sb hb => ?_
    rw [v117]
    refine sim_cat (sim_callV v118 st19 (by dk) (by dk) (by dk) sim_clock) sound_tail2 fun c sc hc => ?_
    refine sim_cat sim_ws120 (sound_tz124.eqs v121 v125.symm) fun d sd hd => ?_
    rw [v121, ← v125]
    refine sim_mapG sim_tz124 ?_
    rintro e se he
    simp only [RTs, RT] at *
    simp [textAll_append, ha, hb, hc, hd.text, he, PTree.textAll]
  · refine sim_cat1 (sim_callV v126 st13 (by dk) (by dk) (by dk) sim_integerT) (sound_tz129.eqs rfl v130.symm)
      fun a sa ha => ?_
    rw [← v130]
    refine sim_mapG sim_tz129 ?_
    rintro e se he
    simp only [RTs, RT] at *
    simp [he, PTree.textAll, ha.1]
  · show Sim N 8 1 (V 131) (V 148) _ _ _
    rw [v131]
    refine sim_cat1 (sim_tok .TIMESTAMP rfl) sound_tail4 fun a sa ha => ?_
    refine sim_cat sim_ws133 (sound_tz137.eqs v134 v138.symm) fun d sd hd => ?_
    rw [v134, ← v138]
    refine sim_mapG sim_tz137 ?_
    rintro e se he
    simp only [RTs, RT] at *
    simp [he, PTree.textAll, PTree.text, ha.1, hd.text, textAll_append]
  · refine sim_cat1 sim_doi141 (sound_tail5.eqs v142 rfl) fun a sa ha => ?_
    rw [v142]
    refine sim_cat sim_ws144 (sound_end5.eqs v145 rfl) fun d sd hd => ?_
    rw [v145, v146]
    refine sim_mapG (sim_tokIn2 (by intro kd; cases kd <;> decide) (by decide)).zero ?_
    rintro e se ⟨kd, _, rfl, _⟩
    simp only [RTs, RT] at *
    simp [PTree.textAll, PTree.text, ha, hd.text, textAll_append]
end

end Verif.PSim
