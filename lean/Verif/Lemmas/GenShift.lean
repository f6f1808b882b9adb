import Verif.Lemmas.GenUnits
/-!
# `shift_spec`
-/

namespace Verif.PSim
open ParserTable
set_option maxRecDepth 100000

theorem sim_ws30 {N : Nat} : Sim N 1 0 (V 30) (V 31) (G.optTok 18 30) optWs ROpt :=
  sim_optWs v30 v29 (by dk) (by dk) (by dk) (by dk) (by dk) (by dk)
theorem sim_ws34 {N : Nat} : Sim N 1 0 (V 34) (V 35) (G.optTok 18 34) optWs ROpt :=
  sim_optWs v34 v33 (by dk) (by dk) (by dk) (by dk) (by dk) (by dk)
theorem sim_ws40 {N : Nat} : Sim N 1 0 (V 40) (V 41) (G.optTok 18 40) optWs ROpt :=
  sim_optWs v40 v39 (by dk) (by dk) (by dk) (by dk) (by dk) (by dk)
theorem sim_ws44 {N : Nat} : Sim N 1 0 (V 44) (V 45) (G.optTok 18 44) optWs ROpt :=
  sim_optWs v44 v43 (by dk) (by dk) (by dk) (by dk) (by dk) (by dk)

theorem sound_num35 (p : Node) : Sound (V 35) (V 49) (P.map (Node.shift p) numberP) :=
  sound_map _ ((sound_callV v36 st15 sound_number).eqs v35 v37.symm)
theorem sound_num34 (p : Node) : Sound (V 34) (V 49) (P.bind optWs fun _ => P.map (Node.shift p) numberP) :=
  sound_bind (sound_optWs v34 v33) fun _ => sound_num35 p
theorem sound_num32 (p : Node) : Sound (V 32) (V 49) (P.bind (P.tok .SHIFT_OP) fun _ => P.bind optWs fun _ =>
    P.map (Node.shift p) numberP) := by
  rw [v32]; exact sound_bind (sound_tok _) fun _ => sound_num34 p
theorem sound_num30 (p : Node) : Sound (V 30) (V 49) (P.bind optWs fun _ => P.bind (P.tok .SHIFT_OP) fun _ =>
    P.bind optWs fun _ => P.map (Node.shift p) numberP) :=
  sound_bind (sound_optWs v30 v29) fun _ => (sound_num32 p).eqs v31 rfl

theorem sound_time45 (p : Node) : Sound (V 45) (V 49) (P.map (fun t => Node.shift p (.unhandled t)) timestampP) :=
  sound_map _ ((sound_callV v46 st17 sound_time).eqs v45 v47.symm)
theorem sound_time44 (p : Node) : Sound (V 44) (V 49)
    (P.bind optWs fun _ => P.map (fun t => Node.shift p (.unhandled t)) timestampP) :=
  sound_bind (sound_optWs v44 v43) fun _ => sound_time45 p
theorem sound_time42 (p : Node) : Sound (V 42) (V 49) (P.bind (P.tok .SHIFT_OP) fun _ => P.bind optWs fun _ =>
    P.map (fun t => Node.shift p (.unhandled t)) timestampP) := by
  rw [v42]; exact sound_bind (sound_tok _) fun _ => sound_time44 p
theorem sound_time40 (p : Node) : Sound (V 40) (V 49) (P.bind optWs fun _ => P.bind (P.tok .SHIFT_OP) fun _ =>
    P.bind optWs fun _ => P.map (fun t => Node.shift p (.unhandled t)) timestampP) :=
  sound_bind (sound_optWs v40 v39) fun _ => (sound_time42 p).eqs v41 rfl

/-- the graph of a shift -/
theorem rn_shift {a c e : PTree} {b d : List PTree} {sb sd sc : Str} {p n : Node} (ha : RN a p) (hb : ROpt b sb)
    (hc : c = .term 12 sc) (hd : ROpt d sd) (he : RN e n) : RN (.rule 1 ([a] ++ b ++ [c] ++ d ++ [e])) (.shift p n) := by
  subst hc
  rcases hb with ⟨rfl, rfl⟩ | ⟨cb, rfl, rfl⟩ <;> rcases hd with ⟨rfl, rfl⟩ | ⟨cd, rfl, rfl⟩ <;>
    simp [RN, visit, visitAll, visitTerm, visitRule, visitShift, aggregate, Val.unwrap, ha, he]

section
variable {sg : G PTree} {sp : P Node} {M : Nat} (hsh : Sim M 1 1 (V 2) (V 3) sg sp RN) (hss : Sound (V 2) (V 3) sp)

/-- the alternatives -/
def shiftAlts (sp : P Node) : List (Nat × P Node) :=
  [(27, productP sp),
   (28, P.bind (productP sp) fun p => P.bind optWs fun _ => P.bind (P.tok .SHIFT_OP) fun _ =>
          P.bind optWs fun _ => P.map (Node.shift p) numberP),
   (38, P.bind (productP sp) fun p => P.bind optWs fun _ => P.bind (P.tok .SHIFT_OP) fun _ =>
          P.bind optWs fun _ => P.map (fun t => Node.shift p (.unhandled t)) timestampP)]

include hss in
theorem sound_shift1 : Sound (V 27) (V 49) (productP sp) := sound_callV v27 st5 (sound_product hss)
include hss in
theorem sound_shift2 : Sound (V 28) (V 49) (P.bind (productP sp) fun p => P.bind optWs fun _ => P.bind (P.tok .SHIFT_OP) fun _ =>
    P.bind optWs fun _ => P.map (Node.shift p) numberP) :=
  sound_bind (sound_callV v28 st5 (sound_product hss)) sound_num30
include hss in
theorem sound_shift3 : Sound (V 38) (V 49) (P.bind (productP sp) fun p => P.bind optWs fun _ => P.bind (P.tok .SHIFT_OP) fun _ =>
    P.bind optWs fun _ => P.map (fun t => Node.shift p (.unhandled t)) timestampP) :=
  sound_bind (sound_callV v38 st5 (sound_product hss)) sound_time40

include hss in
theorem sound_shift : Sound (V 2) (V 3) (shiftSpecStep sp) := by
  rw [v2, v48, ← v49]
  exact sound_or (sound_shift1 hss) (sound_or (sound_shift2 hss) (sound_shift3 hss))

include hsh hss in
theorem sim_shift : Sim (M + 1) 1 1 (V 2) (V 3) (shiftSpecStepG sg) (shiftSpecStep sp) RN := by
  have h0 : Fst 1 (V 48) (nextsOf 48) := fst_V (by dk)
  rw [v2, ← v49]
  refine sim_mkRule (sim_sync ?_ h0 (by dk))
  rw [show V 48 = orWs (shiftAlts sp) from v48, show shiftSpecStep sp = orPs (shiftAlts sp) from rfl]
  suffices h : AllAlts (M + 1) 1 1 (V 49) (fun ts n => RN (.rule 1 ts) n) (fun alt =>
      if alt = 1 then do
        let a ← G.call 27 (productG sg)
        pure [a]
      else if alt = 2 then do
        let a ← G.call 28 (productG sg)
        let b ← G.optTok 18 30
        let c ← G.tok 12
        let d ← G.optTok 18 34
        let e ← G.call 36 numberG
        pure ([a] ++ b ++ [c] ++ d ++ [e])
      else if alt = 3 then do
        let a ← G.call 38 (productG sg)
        let b ← G.optTok 18 40
        let c ← G.tok 12
        let d ← G.optTok 18 44
        let e ← G.call 46 timestampG
        pure ([a] ++ b ++ [c] ++ d ++ [e])
      else pure []) 1 (shiftAlts sp) by
    exact sim_alts (p := 48) (by dk) rfl decision48 (by dk) (show _ = [(27, 1), (28, 2), (38, 3)] by dk) h
  have hprod := sim_product hsh hss
  refine ⟨⟨?_, sound_shift1 hss⟩, ⟨?_, sound_shift2 hss⟩, ⟨?_, sound_shift3 hss⟩, trivial⟩
  · show Sim (M + 1) 1 1 (V 27) _ _ _ _
    refine sim_one (sim_callV v27 st5 (by dk) (by dk) (by dk) hprod) ?_
    intro b m hb
    simp [RN, visit, visitAll, visitRule, visitShift, aggregate, Val.unwrap, hb]
  · refine sim_first (sim_callV v28 st5 (by dk) (by dk) (by dk) hprod) sound_num30 fun a p ha => ?_
    refine sim_then sim_ws30 (fun _ => (sound_num32 p).eqs v31 rfl) fun b sb hb => ?_
    rw [v31, v32]
    refine sim_then (sim_tok .SHIFT_OP rfl) (fun _ => sound_num34 p) fun c sc hc => ?_
    refine sim_then sim_ws34 (fun _ => sound_num35 p) fun d sd hd => ?_
    rw [v35, ← v37]
    refine sim_map (sim_callV v36 st15 (by dk) (by dk) (by dk) sim_number).zero fun e n he => ?_
    exact rn_shift ha hb hc.1 hd he
  · refine sim_first (sim_callV v38 st5 (by dk) (by dk) (by dk) hprod) sound_time40 fun a p ha => ?_
    refine sim_then sim_ws40 (fun _ => (sound_time42 p).eqs v41 rfl) fun b sb hb => ?_
    rw [v41, v42]
    refine sim_then (sim_tok .SHIFT_OP rfl) (fun _ => sound_time44 p) fun c sc hc => ?_
    refine sim_then sim_ws44 (fun _ => sound_time45 p) fun d sd hd => ?_
    rw [v45, ← v47]
    refine sim_map (sim_callV v46 st17 (by dk) (by dk) (by dk) sim_time).zero fun e n he => ?_
    exact rn_shift ha hb hc.1 hd he.2
end

theorem sound_shiftSpec : ∀ n, Sound (V 2) (V 3) (shiftSpecP n)
  | 0 => sound_fail
  | n + 1 => sound_shift (sound_shiftSpec n)

theorem sim_shiftSpec : ∀ n, Sim n 1 1 (V 2) (V 3) (shiftSpecG n) (shiftSpecP n) RN
  | 0 => by intro rec stack ts hl; omega
  | n + 1 => sim_shift (sim_shiftSpec n) (sound_shiftSpec n)

end Verif.PSim
