import Verif.Lemmas.GenStates
/-!
# The states of the generated parser's automaton, one equation each
-/

namespace Verif.PSim
set_option maxRecDepth 100000

theorem v0 : V 0 = V 23 := V_eps rfl
theorem v2 : V 2 = V 48 := V_eps rfl
theorem v4 : V 4 = V 50 := V_eps rfl
theorem v6 : V 6 = V 84 := V_eps rfl
theorem v8 : V 8 = V 91 := V_eps rfl
theorem v10 : V 10 = V 99 := V_eps rfl
theorem v12 : V 12 = V 101 := V_eps rfl
theorem v14 : V 14 = V 105 := V_eps rfl
theorem v16 : V 16 = V 147 := V_eps rfl
theorem v18 : V 18 = V 152 := V_eps rfl
theorem v20 : V 20 = V 156 := V_eps rfl
theorem v22 : V 22 = fun γ => V 2 (24 :: γ) := V_call rfl
theorem v23 : V 23 = orW (V 22) (V 24) := V_two rfl
theorem v24 : V 24 = V 25 := V_eps rfl
theorem v26 : V 26 = V 1 := V_eps rfl
theorem v27 : V 27 = fun γ => V 4 (49 :: γ) := V_call rfl
theorem v28 : V 28 = fun γ => V 4 (30 :: γ) := V_call rfl
theorem v29 : V 29 = tokW .WS (V 31) := V_atom .WS rfl rfl
theorem v30 : V 30 = orW (V 29) (V 31) := V_two rfl
theorem v31 : V 31 = V 32 := V_eps rfl
theorem v32 : V 32 = tokW .SHIFT_OP (V 34) := V_atom .SHIFT_OP rfl rfl
theorem v33 : V 33 = tokW .WS (V 35) := V_atom .WS rfl rfl
theorem v34 : V 34 = orW (V 33) (V 35) := V_two rfl
theorem v35 : V 35 = V 36 := V_eps rfl
theorem v36 : V 36 = fun γ => V 14 (37 :: γ) := V_call rfl
theorem v37 : V 37 = V 49 := V_eps rfl
theorem v38 : V 38 = fun γ => V 4 (40 :: γ) := V_call rfl
theorem v39 : V 39 = tokW .WS (V 41) := V_atom .WS rfl rfl
theorem v40 : V 40 = orW (V 39) (V 41) := V_two rfl
theorem v41 : V 41 = V 42 := V_eps rfl
theorem v42 : V 42 = tokW .SHIFT_OP (V 44) := V_atom .SHIFT_OP rfl rfl
theorem v43 : V 43 = tokW .WS (V 45) := V_atom .WS rfl rfl
theorem v44 : V 44 = orW (V 43) (V 45) := V_two rfl
theorem v45 : V 45 = V 46 := V_eps rfl
theorem v46 : V 46 = fun γ => V 16 (47 :: γ) := V_call rfl
theorem v47 : V 47 = V 49 := V_eps rfl
theorem v48 : V 48 = orW (V 27) (orW (V 28) (V 38)) := V_three rfl
theorem v49 : V 49 = V 3 := V_eps rfl
theorem v50 : V 50 = V 51 := V_act rfl
theorem v51 : V 51 = fun γ => V 6 (52 :: γ) := V_call rfl
theorem v52 : V 52 = V 70 := V_eps rfl
theorem v53 : V 53 = V 54 := V_prec (k := 4) rfl (by decide)
theorem v54 : V 54 = fun γ => V 6 (69 :: γ) := V_call rfl
theorem v55 : V 55 = V 56 := V_prec (k := 3) rfl (by decide)
theorem v56 : V 56 = tokW .MULTIPLY (V 57) := V_atom .MULTIPLY rfl rfl
theorem v57 : V 57 = fun γ => V 6 (69 :: γ) := V_call rfl
theorem v58 : V 58 = V 59 := V_prec (k := 2) rfl (by decide)
theorem v59 : V 59 = tokW .DIVIDE (V 60) := V_atom .DIVIDE rfl rfl
theorem v60 : V 60 = fun γ => V 6 (69 :: γ) := V_call rfl
theorem v61 : V 61 = V 63 := V_prec (k := 1) rfl (by decide)
theorem v62 : V 62 = tokW .WS (V 64) := V_atom .WS rfl rfl
theorem v63 : V 63 = V 62 := V_eps rfl
theorem v64 : V 64 = V 65 := V_eps rfl
theorem v65 : V 65 = orW (V 63) (V 66) := V_two rfl
theorem v66 : V 66 = V 67 := V_eps rfl
theorem v67 : V 67 = fun γ => V 6 (69 :: γ) := V_call rfl
theorem v68 : V 68 = orW (V 53) (orW (V 55) (orW (V 58) (V 61))) := V_four rfl
theorem v69 : V 69 = V 72 := V_eps rfl
theorem v70 : V 70 = orW (V 68) (V 71) := V_two rfl
theorem v71 : V 71 = V 5 := V_eps rfl
theorem v72 : V 72 = V 70 := V_eps rfl
theorem v73 : V 73 = fun γ => V 8 (74 :: γ) := V_call rfl
theorem v74 : V 74 = fun γ => V 12 (75 :: γ) := V_call rfl
theorem v75 : V 75 = V 85 := V_eps rfl
theorem v76 : V 76 = fun γ => V 8 (85 :: γ) := V_call rfl
theorem v77 : V 77 = fun γ => V 8 (78 :: γ) := V_call rfl
theorem v78 : V 78 = tokW .RAISE (V 79) := V_atom .RAISE rfl rfl
theorem v79 : V 79 = fun γ => V 12 (80 :: γ) := V_call rfl
theorem v80 : V 80 = V 85 := V_eps rfl
theorem v81 : V 81 = fun γ => V 8 (82 :: γ) := V_call rfl
theorem v82 : V 82 = tokW .UNICODE_EXPONENT (V 83) := V_atom .UNICODE_EXPONENT rfl rfl
theorem v83 : V 83 = V 85 := V_eps rfl
theorem v84 : V 84 = orW (V 73) (orW (V 76) (orW (V 77) (V 81))) := V_four rfl
theorem v85 : V 85 = V 7 := V_eps rfl
theorem v86 : V 86 = fun γ => V 10 (92 :: γ) := V_call rfl
theorem v87 : V 87 = tokW .LOG (V 88) := V_atom .LOG rfl rfl
theorem v88 : V 88 = fun γ => V 2 (89 :: γ) := V_call rfl
theorem v89 : V 89 = tokW .CLOSE_PAREN (V 90) := V_atom .CLOSE_PAREN rfl rfl
theorem v90 : V 90 = V 92 := V_eps rfl
theorem v91 : V 91 = orW (V 86) (V 87) := V_two rfl
theorem v92 : V 92 = V 9 := V_eps rfl
theorem v93 : V 93 = tokW .ID (V 100) := V_atom .ID rfl rfl
theorem v94 : V 94 = tokW .OPEN_PAREN (V 95) := V_atom .OPEN_PAREN rfl rfl
theorem v95 : V 95 = fun γ => V 2 (96 :: γ) := V_call rfl
theorem v96 : V 96 = tokW .CLOSE_PAREN (V 97) := V_atom .CLOSE_PAREN rfl rfl
theorem v97 : V 97 = V 100 := V_eps rfl
theorem v98 : V 98 = fun γ => V 14 (100 :: γ) := V_call rfl
theorem v99 : V 99 = orW (V 93) (orW (V 94) (V 98)) := V_three rfl
theorem v100 : V 100 = V 11 := V_eps rfl
theorem v101 : V 101 = orW (tokW .INT (V 102)) (tokW .SIGNED_INT (V 102)) :=
  V_set2 .INT .SIGNED_INT rfl rfl (by intro kd; cases kd <;> decide)
theorem v102 : V 102 = V 13 := V_eps rfl
theorem v103 : V 103 = fun γ => V 12 (106 :: γ) := V_call rfl
theorem v104 : V 104 = tokW .FLOAT (V 106) := V_atom .FLOAT rfl rfl
theorem v105 : V 105 = orW (V 103) (V 104) := V_two rfl
theorem v106 : V 106 = V 15 := V_eps rfl
theorem v107 : V 107 = tokW .DATE (V 110) := V_atom .DATE rfl rfl
theorem v108 : V 108 = fun γ => V 12 (110 :: γ) := V_call rfl
theorem v109 : V 109 = orW (V 107) (V 108) := V_two rfl
theorem v110 : V 110 = V 148 := V_eps rfl
theorem v111 : V 111 = tokW .DATE (V 114) := V_atom .DATE rfl rfl
theorem v112 : V 112 = fun γ => V 12 (114 :: γ) := V_call rfl
theorem v113 : V 113 = orW (V 111) (V 112) := V_two rfl
theorem v114 : V 114 = V 116 := V_eps rfl
theorem v115 : V 115 = orW (tokW .WS (V 117)) (tokW .T (V 117)) :=
  V_set2 .WS .T rfl rfl (by intro kd; cases kd <;> decide)
theorem v116 : V 116 = orW (V 115) (V 117) := V_two rfl
theorem v117 : V 117 = V 118 := V_eps rfl
theorem v118 : V 118 = fun γ => V 18 (120 :: γ) := V_call rfl
theorem v119 : V 119 = tokW .WS (V 121) := V_atom .WS rfl rfl
theorem v120 : V 120 = orW (V 119) (V 121) := V_two rfl
theorem v121 : V 121 = V 124 := V_eps rfl
theorem v122 : V 122 = fun γ => V 20 (125 :: γ) := V_call rfl
theorem v123 : V 123 = tokW .TIMEZONE (V 125) := V_atom .TIMEZONE rfl rfl
theorem v124 : V 124 = orW (V 122) (orW (V 123) (V 125)) := V_three rfl
theorem v125 : V 125 = V 148 := V_eps rfl
theorem v126 : V 126 = fun γ => V 12 (129 :: γ) := V_call rfl
theorem v127 : V 127 = fun γ => V 20 (130 :: γ) := V_call rfl
theorem v128 : V 128 = tokW .TIMEZONE (V 130) := V_atom .TIMEZONE rfl rfl
theorem v129 : V 129 = orW (V 127) (orW (V 128) (V 130)) := V_three rfl
theorem v130 : V 130 = V 148 := V_eps rfl
theorem v131 : V 131 = tokW .TIMESTAMP (V 133) := V_atom .TIMESTAMP rfl rfl
theorem v132 : V 132 = tokW .WS (V 134) := V_atom .WS rfl rfl
theorem v133 : V 133 = orW (V 132) (V 134) := V_two rfl
theorem v134 : V 134 = V 137 := V_eps rfl
theorem v135 : V 135 = fun γ => V 20 (138 :: γ) := V_call rfl
theorem v136 : V 136 = tokW .TIMEZONE (V 138) := V_atom .TIMEZONE rfl rfl
theorem v137 : V 137 = orW (V 135) (orW (V 136) (V 138)) := V_three rfl
theorem v138 : V 138 = V 148 := V_eps rfl
theorem v139 : V 139 = tokW .DATE (V 142) := V_atom .DATE rfl rfl
theorem v140 : V 140 = fun γ => V 12 (142 :: γ) := V_call rfl
theorem v141 : V 141 = orW (V 139) (V 140) := V_two rfl
theorem v142 : V 142 = V 144 := V_eps rfl
theorem v143 : V 143 = tokW .WS (V 145) := V_atom .WS rfl rfl
theorem v144 : V 144 = orW (V 143) (V 145) := V_two rfl
theorem v145 : V 145 = V 146 := V_eps rfl
theorem v146 : V 146 = orW (tokW .TIMEZONE (V 148)) (tokW .TZ (V 148)) :=
  V_set2 .TIMEZONE .TZ rfl rfl (by intro kd; cases kd <;> decide)
theorem v147 : V 147 = orW (V 109) (orW (V 113) (orW (V 126) (orW (V 131) (V 141)))) := V_five rfl
theorem v148 : V 148 = V 17 := V_eps rfl
theorem v149 : V 149 = tokW .HOUR_MINUTE_SECOND (V 153) := V_atom .HOUR_MINUTE_SECOND rfl rfl
theorem v150 : V 150 = tokW .HOUR_MINUTE (V 153) := V_atom .HOUR_MINUTE rfl rfl
theorem v151 : V 151 = fun γ => V 12 (153 :: γ) := V_call rfl
theorem v152 : V 152 = orW (V 149) (orW (V 150) (V 151)) := V_three rfl
theorem v153 : V 153 = V 19 := V_eps rfl
theorem v154 : V 154 = tokW .HOUR_MINUTE (V 157) := V_atom .HOUR_MINUTE rfl rfl
theorem v155 : V 155 = fun γ => V 12 (157 :: γ) := V_call rfl
theorem v156 : V 156 = orW (V 154) (V 155) := V_two rfl
theorem v157 : V 157 = V 21 := V_eps rfl

end Verif.PSim
