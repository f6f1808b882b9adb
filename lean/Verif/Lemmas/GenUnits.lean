import Verif.Lemmas.GenTime
/-!
# `basic_spec` to `shift_spec`
-/

namespace Verif.PSim
open ParserTable
set_option maxRecDepth 100000

/-! ## `WS+` -/

/-- no `WS` or more of them -/
def wsRest : P Unit := fun ts => wsPlus.go ts

theorem wsPlus_eq : wsPlus = P.bind (P.tok .WS) fun _ => wsRest := by
  funext ts
  cases ts with
  | nil => rfl
  | cons t ts =>
    simp only [wsPlus, P.bind, P.tok]
    split <;> simp [wsRest]

theorem wsRest_eq : wsRest = P.or wsPlus (P.pure ()) := by
  funext ts
  cases ts with
  | nil => rfl
  | cons t ts =>
    simp only [wsRest, wsPlus, P.or, P.pure, wsPlus.go]
    split <;> simp

theorem sound_wsPlus : Sound (V 63) (V 66) wsPlus := by
  have : ∀ n γ (ts : List Token) x, ts.length ≤ n → x ∈ wsPlus ts → V 66 γ x.2 → V 63 γ ts := by
    intro n
    induction n with
    | zero => intro γ ts x hl hx; cases ts with
      | nil => cases hx
      | cons t ts => simp at hl
    | succ n ih =>
      intro γ ts x hl hx hv
      rw [v63, v62, v64]
      cases ts with
      | nil => cases hx
      | cons t ts =>
        rw [wsPlus_eq] at hx
        simp only [P.bind, P.tok] at hx
        split at hx
        next e =>
          simp only [List.flatMap_cons, List.flatMap_nil, List.append_nil] at hx
          rw [wsRest_eq] at hx
          refine ⟨t, ts, rfl, e, ?_⟩
          rw [v65]
          simp only [P.or, List.mem_append, P.pure, List.mem_singleton] at hx
          rcases hx with hx | rfl
          · exact Or.inl (ih γ ts x (by simpa using hl) hx hv)
          · exact Or.inr hv
        · simp at hx
  intro γ ts x hx hv
  exact this _ γ ts x (Nat.le_refl _) hx hv

theorem sound_wsRest : Sound (V 65) (V 66) wsRest := by
  rw [wsRest_eq, v65]; exact sound_or sound_wsPlus (sound_pure _)

/-- white space only -/
def RWs : List PTree → Unit → Prop := fun x _ => ∀ t ∈ x, ∃ c, t = .term 18 c

theorem sim_wsPlus {m : Nat} : ∀ {N : Nat}, N ≤ m → Sim N 2 1 (V 63) (V 66) (wsPlusG m) wsPlus RWs := by
  induction m with
  | zero => intro N hN rec stack ts hl; omega
  | succ m ih =>
    intro N hN
    have h0 : Fst 2 (V 65) (nextsOf 65) := fst_V (by dk)
    have h1 : Fst 2 (V 63) (nextsOf 63) := fst_V (by dk)
    have h2 : Fst 2 (V 66) (nextsOf 66) := fst_V (by dk)
    rw [wsPlus_eq, show V 63 = tokW .WS (V 64) from v63.trans v62, v64]
    refine sim_first (sim_tok .WS rfl) (fun _ => sound_wsRest) fun x c hx => ?_
    refine sim_sync ?_ h0 (by dk)
    rw [v65, wsRest_eq]
    refine sim_la (simL_if (c := fun t => t = 18) ?_ (simL_const (sim_pure ?_)) sound_wsPlus h1 h2 (by dk) (by dk))
    · refine sim_mapG (ih (N := N - 1) (by omega)).zero ?_
      intro xs _ hxs t ht
      rcases List.mem_cons.1 ht with rfl | ht
      · exact ⟨c, hx.1⟩
      · exact hxs t ht
    · intro t ht
      rw [List.mem_singleton] at ht; subst ht
      exact ⟨c, hx.1⟩

section
variable {sg : G PTree} {sp : P Node} {M : Nat} (hsh : Sim M 1 1 (V 2) (V 3) sg sp RN) (hss : Sound (V 2) (V 3) sp)

/-! ## `basic_spec` -/

include hss in
theorem sound_brackets : Sound (V 94) (V 100) (P.bind (P.tok .OPEN_PAREN) fun _ => P.bind sp fun n =>
    P.map (fun _ => n) (P.tok .CLOSE_PAREN)) := by
  rw [v94]
  refine sound_bind (sound_tok _) fun _ => sound_bind (sound_callV v95 st3 hss) fun _ => sound_map _ ?_
  rw [v96, v97]; exact sound_tok _

include hss in
theorem sound_basic : Sound (V 10) (V 11) (basicP sp) := by
  rw [v10, v99, ← v100]
  refine sound_or ?_ (sound_or (sound_brackets hss) (sound_callV v98 st15 sound_number))
  rw [v93]; exact sound_map _ (sound_tok _)

include hsh hss in
theorem sim_basic : Sim (M + 1) 5 1 (V 10) (V 11) (basicG sg) (basicP sp) RN := by
  have h0 : Fst 5 (V 99) (nextsOf 99) := fst_V (by dk)
  have h1 : Fst 5 (V 93) (nextsOf 93) := fst_V (by dk)
  have h2 : Fst 5 (V 94) (nextsOf 94) := fst_V (by dk)
  have h3 : Fst 5 (V 98) (nextsOf 98) := fst_V (by dk)
  rw [v10, ← v100]
  refine sim_mkRule (sim_sync ?_ h0 (by dk))
  rw [v99]
  refine sim_la (simL_if ?_ (simL_if ?_ (simL_last ?_ h3 (by dk)) (sound_brackets hss) h2 h3 (by dk) (by dk)) ?_ h1 (fst_or h2 h3)
    (by dk) (by dk))
  · rw [v93]
    refine sim_mapP (sim_one (R := fun x s => x = [.term 16 s]) (sim_tok .ID rfl) ?_) ?_
    · rintro x s ⟨rfl, _⟩; rfl
    · rintro x s rfl
      simp [RN, visit, visitAll, visitTerm, visitRule, aggregate, Val.unwrap]
  · rw [v94]
    refine sim_first (sim_tok .OPEN_PAREN rfl) (fun _ => sound_bind (sound_callV v95 st3 hss) fun _ => sound_map _ ?_)
      fun a sa ha => ?_
    · rw [v96, v97]; exact sound_tok _
    refine sim_then (sim_callV v95 st3 (by dk) (by dk) (by dk) hsh) (fun _ => sound_map _ ?_) fun b n hb => ?_
    · rw [v96, v97]; exact sound_tok _
    rw [v96, v97]
    refine sim_mapP (sim_mapG (Rel' := fun x s => x = [a, b, .term 7 s]) (sim_tok .CLOSE_PAREN rfl).zero ?_) ?_
    · rintro c s ⟨rfl, _⟩; rfl
    · rintro x s rfl
      obtain ⟨rfl, _⟩ := ha
      simp [RN, visit, visitAll, visitTerm, visitRule, aggregate, Val.unwrap, hb]
  · refine sim_one (sim_callV v98 st15 (by dk) (by dk) (by dk) sim_number) ?_
    intro x n h
    simp [RN, visit, visitAll, visitRule, aggregate, Val.unwrap, h]
  · rw [v93]; exact sound_map _ (sound_tok _)

/-! ## `logarithm` -/

include hss in
theorem sound_logarithm : Sound (V 8) (V 9) (logarithmP sp) := by
  rw [v8, v91, ← v92]
  refine sound_or (sound_callV v86 st11 (sound_basic hss)) ?_
  rw [v87]
  refine sound_bind (sound_tok _) fun _ => sound_bind (sound_callV v88 st3 hss) fun _ => sound_map _ ?_
  rw [v89, v90]; exact sound_tok _

include hsh hss in
theorem sim_logarithm : Sim (M + 1) 4 1 (V 8) (V 9) (logarithmG sg) (logarithmP sp) RN := by
  have h0 : Fst 4 (V 91) (nextsOf 91) := fst_V (by dk)
  have h1 : Fst 4 (V 86) (nextsOf 86) := fst_V (by dk)
  have h2 : Fst 4 (V 87) (nextsOf 87) := fst_V (by dk)
  rw [v8, ← v92]
  refine sim_mkRule (sim_sync ?_ h0 (by dk))
  rw [v91]
  refine sim_la (simL_if ?_ (simL_last ?_ h2 (by dk)) (sound_callV v86 st11 (sound_basic hss)) h1 h2 (by dk) (by dk))
  · refine sim_one (sim_callV v86 st11 (by dk) (by dk) (by dk) (sim_basic hsh hss)) ?_
    intro x n h
    simp [RN, visit, visitAll, visitRule, visitLogarithm, aggregate, Val.unwrap, h]
  · rw [v87]
    refine sim_first (sim_tok .LOG rfl) (fun _ => sound_bind (sound_callV v88 st3 hss) fun _ => sound_map _ ?_)
      fun a sa ha => ?_
    · rw [v89, v90]; exact sound_tok _
    refine sim_then (sim_callV v88 st3 (by dk) (by dk) (by dk) hsh) (fun _ => sound_map _ ?_) fun b n hb => ?_
    · rw [v89, v90]; exact sound_tok _
    rw [v89, v90]
    refine sim_mapP (sim_mapG (Rel' := fun x s => x = [a, b, .term 7 s]) (sim_tok .CLOSE_PAREN rfl).zero ?_) ?_
    · rintro c s ⟨rfl, _⟩; rfl
    · rintro x s rfl
      obtain ⟨rfl, _⟩ := ha
      simp [RN, visit, visitAll, visitTerm, visitRule, visitLogarithm, aggregate, Val.unwrap, hb]

/-! ## `power` -/

/-- the alternatives -/
def powerAlts (sp : P Node) : List (Nat × P Node) :=
  [(73, P.bind (logarithmP sp) fun l => P.map (Node.raise l) integerP),
   (76, logarithmP sp),
   (77, P.bind (logarithmP sp) fun l => P.bind (P.tok .RAISE) fun _ => P.map (Node.raise l) integerP),
   (81, P.bind (logarithmP sp) fun l => P.map (fun c => Node.raise l (unicodeExponent c)) (P.tok .UNICODE_EXPONENT))]

theorem sound_exp1 (l : Node) : Sound (V 74) (V 85) (P.map (Node.raise l) integerP) :=
  sound_map _ ((sound_callV v74 st13 sound_integerP).eqs rfl v75.symm)
theorem sound_exp3 (l : Node) : Sound (V 78) (V 85) (P.bind (P.tok .RAISE) fun _ => P.map (Node.raise l) integerP) := by
  rw [v78]
  exact sound_bind (sound_tok _) fun _ => sound_map _ ((sound_callV v79 st13 sound_integerP).eqs rfl v80.symm)
theorem sound_exp4 (l : Node) : Sound (V 82) (V 85)
    (P.map (fun c => Node.raise l (unicodeExponent c)) (P.tok .UNICODE_EXPONENT)) := by
  rw [v82, v83]; exact sound_map _ (sound_tok _)

include hss in
theorem sound_power1 : Sound (V 73) (V 85) (P.bind (logarithmP sp) fun l => P.map (Node.raise l) integerP) :=
  sound_bind (sound_callV v73 st9 (sound_logarithm hss)) sound_exp1
include hss in
theorem sound_power2 : Sound (V 76) (V 85) (logarithmP sp) := sound_callV v76 st9 (sound_logarithm hss)
include hss in
theorem sound_power3 : Sound (V 77) (V 85)
    (P.bind (logarithmP sp) fun l => P.bind (P.tok .RAISE) fun _ => P.map (Node.raise l) integerP) :=
  sound_bind (sound_callV v77 st9 (sound_logarithm hss)) sound_exp3
include hss in
theorem sound_power4 : Sound (V 81) (V 85)
    (P.bind (logarithmP sp) fun l => P.map (fun c => Node.raise l (unicodeExponent c)) (P.tok .UNICODE_EXPONENT)) :=
  sound_bind (sound_callV v81 st9 (sound_logarithm hss)) sound_exp4

include hss in
theorem sound_power : Sound (V 6) (V 7) (powerP sp) := by
  rw [v6, v84, ← v85]
  exact sound_or (sound_power1 hss) (sound_or (sound_power2 hss) (sound_or (sound_power3 hss) (sound_power4 hss)))

include hsh hss in
theorem sim_power : Sim (M + 1) 3 1 (V 6) (V 7) (powerG sg) (powerP sp) RN := by
  have h0 : Fst 3 (V 84) (nextsOf 84) := fst_V (by dk)
  rw [v6, ← v85]
  refine sim_mkRule (sim_sync ?_ h0 (by dk))
  rw [show V 84 = orWs (powerAlts sp) from v84, show powerP sp = orPs (powerAlts sp) from rfl]
  suffices h : AllAlts (M + 1) 3 1 (V 85) (fun ts n => RN (.rule 3 ts) n) (fun alt =>
      if alt = 1 then do
        let a ← G.call 73 (logarithmG sg)
        let b ← G.call 74 integerG
        pure [a, b]
      else if alt = 2 then do
        let a ← G.call 76 (logarithmG sg)
        pure [a]
      else if alt = 3 then do
        let a ← G.call 77 (logarithmG sg)
        let r ← G.tok 14
        let b ← G.call 79 integerG
        pure [a, r, b]
      else if alt = 4 then do
        let a ← G.call 81 (logarithmG sg)
        let b ← G.tok 13
        pure [a, b]
      else pure []) 1 (powerAlts sp) by
    exact sim_alts (p := 84) (by dk) rfl decision84 (by dk) (show _ = [(73, 1), (76, 2), (77, 3), (81, 4)] by dk) h
  have hlog := sim_logarithm hsh hss
  refine ⟨⟨?_, sound_power1 hss⟩, ⟨?_, sound_power2 hss⟩, ⟨?_, sound_power3 hss⟩, ⟨?_, sound_power4 hss⟩, trivial⟩
  · refine sim_first (sim_callV v73 st9 (by dk) (by dk) (by dk) hlog) sound_exp1 fun a n ha => ?_
    rw [← v75]
    refine sim_map (sim_callV v74 st13 (by dk) (by dk) (by dk) sim_integer).zero ?_
    intro b m hb
    simp [RN, visit, visitAll, visitRule, visitPower, aggregate, Val.unwrap, ha, hb]
  · show Sim (M + 1) 3 1 (V 76) _ _ _ _
    refine sim_one (sim_callV v76 st9 (by dk) (by dk) (by dk) hlog) ?_
    intro b m hb
    simp [RN, visit, visitAll, visitRule, visitPower, aggregate, Val.unwrap, hb]
  · refine sim_first (sim_callV v77 st9 (by dk) (by dk) (by dk) hlog) sound_exp3 fun a n ha => ?_
    rw [v78]
    refine sim_then (sim_tok .RAISE rfl)
      (fun _ => sound_map _ ((sound_callV v79 st13 sound_integerP).eqs rfl v80.symm)) fun x s hx => ?_
    rw [← v80]
    refine sim_map (sim_callV v79 st13 (by dk) (by dk) (by dk) sim_integer).zero ?_
    intro b m hb
    obtain ⟨rfl, _⟩ := hx
    simp [RN, visit, visitAll, visitTerm, visitRule, visitPower, aggregate, Val.unwrap, ha, hb]
  · refine sim_first (sim_callV v81 st9 (by dk) (by dk) (by dk) hlog) sound_exp4 fun a n ha => ?_
    rw [v82, v83]
    refine sim_map (sim_tok .UNICODE_EXPONENT rfl).zero ?_
    rintro x s ⟨rfl, _⟩
    simp [RN, visit, visitAll, visitTerm, visitRule, visitPower, aggregate, Val.unwrap, ha, Kind.id]

/-! ## `product` -/

/-- the alternatives for one more factor -/
def factorAlts (sp : P Node) (l : Node) : List (Nat × P Node) :=
  [(53, P.map (Node.mul l) (powerP sp)),
   (55, P.bind (P.tok .MULTIPLY) fun _ => P.map (Node.mul l) (powerP sp)),
   (58, P.bind (P.tok .DIVIDE) fun _ => P.map (Node.div l) (powerP sp)),
   (61, P.bind wsPlus fun _ => P.map (Node.mul l) (powerP sp))]

include hss in
theorem sound_factor1 (l : Node) : Sound (V 53) (V 69) (P.map (Node.mul l) (powerP sp)) :=
  sound_map _ ((sound_callV v54 st7 (sound_power hss)).eqs v53 rfl)
include hss in
theorem sound_factor2 (l : Node) : Sound (V 55) (V 69) (P.bind (P.tok .MULTIPLY) fun _ => P.map (Node.mul l) (powerP sp)) := by
  rw [v55, v56]
  exact sound_bind (sound_tok _) fun _ => sound_map _ (sound_callV v57 st7 (sound_power hss))
include hss in
theorem sound_factor3 (l : Node) : Sound (V 58) (V 69) (P.bind (P.tok .DIVIDE) fun _ => P.map (Node.div l) (powerP sp)) := by
  rw [v58, v59]
  exact sound_bind (sound_tok _) fun _ => sound_map _ (sound_callV v60 st7 (sound_power hss))
include hss in
theorem sound_factor4 (l : Node) : Sound (V 61) (V 69) (P.bind wsPlus fun _ => P.map (Node.mul l) (powerP sp)) := by
  rw [v61]
  exact sound_bind sound_wsPlus fun _ => sound_map _ ((sound_callV v67 st7 (sound_power hss)).eqs v66 rfl)

include hss in
theorem sound_factor (l : Node) : Sound (V 68) (V 69) (factorP sp l) := by
  rw [v68]
  exact sound_or (sound_factor1 hss l) (sound_or (sound_factor2 hss l) (sound_or (sound_factor3 hss l) (sound_factor4 hss l)))

theorem visitAll_ws {ws : List PTree} (h : RWs ws ()) (ts : List PTree) :
    visitAll (ws ++ ts) = (visitAll ts).bind fun vs => .ok (ws.map (fun _ => Val.none) ++ vs) := by
  induction ws with
  | nil =>
    rw [List.nil_append]
    cases visitAll ts <;> rfl
  | cons t ws ih =>
    obtain ⟨c, rfl⟩ := h t (List.mem_cons_self ..)
    simp only [List.cons_append, visitAll, visit]
    rw [ih fun t ht => h t (List.mem_cons_of_mem _ ht)]
    cases visitAll ts <;> simp [visitTerm, Except.bind]

include hsh hss in
theorem sim_factor {l : PTree} {n : Node} (hl : RN l n) : Sim (M + 1) 2 1 (V 68) (V 69) (factorG sg l) (factorP sp n) RN := by
  have h0 : Fst 2 (V 68) (nextsOf 68) := fst_V (by dk)
  refine sim_sync ?_ h0 (by dk)
  rw [show V 68 = orWs (factorAlts sp n) from v68, show factorP sp n = orPs (factorAlts sp n) from rfl]
  suffices h : AllAlts (M + 1) 2 1 (V 69) RN (fun alt =>
      if alt = 1 then do
        G.precpred 4
        let a ← G.call 54 (powerG sg)
        pure (.rule 2 [l, a])
      else if alt = 2 then do
        G.precpred 3
        let o ← G.tok 3
        let a ← G.call 57 (powerG sg)
        pure (.rule 2 [l, o, a])
      else if alt = 3 then do
        G.precpred 2
        let o ← G.tok 4
        let a ← G.call 60 (powerG sg)
        pure (.rule 2 [l, o, a])
      else if alt = 4 then do
        G.precpred 1
        G.sync 63
        let ws ← G.remaining fun n => wsPlusG (n + 1)
        let a ← G.call 67 (powerG sg)
        pure (.rule 2 ([l] ++ ws ++ [a]))
      else pure l) 1 (factorAlts sp n) by
    exact sim_alts (p := 68) (by dk) rfl decision68 (by dk) (show _ = [(53, 1), (55, 2), (58, 3), (61, 4)] by dk) h
  have hpow := sim_power hsh hss
  refine ⟨⟨?_, sound_factor1 hss n⟩, ⟨?_, sound_factor2 hss n⟩, ⟨?_, sound_factor3 hss n⟩, ⟨?_, sound_factor4 hss n⟩, trivial⟩
  · show Sim (M + 1) 2 1 (V 53) _ _ _ _
    rw [v53]
    refine sim_precpred (by decide) (sim_map (sim_callV v54 st7 (by dk) (by dk) (by dk) hpow) ?_)
    intro b m hb
    simp [RN, visit, visitAll, visitRule, visitProduct, aggregate, Val.unwrap, hl, hb]
  · show Sim (M + 1) 2 1 (V 55) _ _ _ _
    rw [v55, v56]
    refine sim_precpred (by decide) (sim_first (sim_tok .MULTIPLY rfl) (fun _ => sound_map _ (sound_callV v57 st7 (sound_power hss)))
      fun x s hx => ?_)
    refine (sim_map (sim_callV v57 st7 (by dk) (by dk) (by dk) (hpow.mono (Nat.sub_le _ _))) ?_).zero
    intro b m hb
    obtain ⟨rfl, _⟩ := hx
    simp [RN, visit, visitAll, visitTerm, visitRule, visitProduct, aggregate, Val.unwrap, hl, hb, Kind.id]
  · show Sim (M + 1) 2 1 (V 58) _ _ _ _
    rw [v58, v59]
    refine sim_precpred (by decide) (sim_first (sim_tok .DIVIDE rfl) (fun _ => sound_map _ (sound_callV v60 st7 (sound_power hss)))
      fun x s hx => ?_)
    refine (sim_map (sim_callV v60 st7 (by dk) (by dk) (by dk) (hpow.mono (Nat.sub_le _ _))) ?_).zero
    intro b m hb
    obtain ⟨rfl, _⟩ := hx
    simp [RN, visit, visitAll, visitTerm, visitRule, visitProduct, aggregate, Val.unwrap, hl, hb, Kind.id]
  · show Sim (M + 1) 2 1 (V 61) _ _ _ _
    rw [v61]
    have h1 : Fst 2 (V 63) (nextsOf 63) := fst_V (by dk)
    refine sim_precpred (by decide) (sim_sync ?_ h1 (by dk))
    have hws : Sim (M + 1) 2 1 (V 63) (V 66) (G.remaining fun n => wsPlusG (n + 1)) wsPlus RWs :=
      sim_remaining fun n _ => sim_wsPlus (m := n + 1) (Nat.le_refl _)
    refine sim_first hws (fun _ => sound_map _ ((sound_callV v67 st7 (sound_power hss)).eqs v66 rfl)) fun ws u hx => ?_
    rw [v66]
    refine (sim_map (sim_callV v67 st7 (by dk) (by dk) (by dk) (hpow.mono (Nat.sub_le _ _))) ?_).zero
    intro b m hb
    have : visitAll (l :: (ws ++ [b])) = .ok (.node n :: (ws.map (fun _ => Val.none) ++ [.node m])) := by
      rw [visitAll, hl, visitAll_ws hx]
      simp [visitAll, hb, Except.bind]
    simp [RN, visit, this, visitRule, visitProduct, aggregate, Val.unwrap]

theorem predict_len {d : Nat} {h : Nat → Nat → G PTree} {R : Run} {c : GCtx} {s : Toks} :
    (G.predict d >>= fun alt => G.remaining fun n => h n alt) R c s = (G.predict d >>= fun alt => h s.length alt) R c s := by
  show ((R.predict _ _ _ _).bind _).bind _ = ((R.predict _ _ _ _).bind _).bind _
  induction R.predict d c.prec c.stack (s.map (·.1)) with
  | done r =>
    cases r with
    | none => rfl
    | some r => cases r <;> rfl
  | read k f ih => exact congrArg (CProg.read k) (funext ih)
  | write k v p ih => exact congrArg (CProg.write k v) ih

/-- the loop of `product`, from the prediction on -/
def loopG (sg : G PTree) (m : Nat) (l : PTree) : G PTree := G.predict 8 >>= fun alt => productLoopG sg m alt l

theorem loop_one {m : Nat} {l : PTree} : productLoopG sg (m + 1) 1 l =
    (factorG sg l >>= fun l => G.sync 72 >>= fun _ => loopG sg m l) := by
  rw [productLoopG, if_pos (by decide), if_pos rfl]; rfl

theorem loop_two {m : Nat} {l : PTree} : productLoopG sg (m + 1) 2 l = pure l := by
  rw [productLoopG, if_neg (by decide)]

/-- the alternatives of the loop -/
def loopAlts (sp : P Node) (n : Nat) (x : Node) : List (Nat × P Node) :=
  [(68, P.bind (factorP sp x) (productLoop sp n)), (71, P.pure x)]

include hss in
theorem sound_loop (n : Nat) : ∀ l, Sound (V 70) (V 5) (productLoop sp n l) := by
  have hp : ∀ l : Node, Sound (V 71) (V 5) (P.pure l) := fun l => (sound_pure l).eqs v71 rfl
  induction n with
  | zero =>
    intro l γ ts x hx hv
    rw [v70]
    exact Or.inr (hp l γ ts x hx hv)
  | succ n ih =>
    intro l
    rw [v70]
    refine sound_or (sound_bind (sound_factor hss l) fun a => ?_) (hp l)
    rw [v69, v72]; exact ih a

include hsh hss in
theorem sim_loop_enter {N m n : Nat} {l : PTree} {x : Node} (hl : RN l x) (hNM : N ≤ M + 1)
    (hso : ∀ a, Sound (V 70) (V 5) (productLoop sp n a))
    (ih : ∀ {l' : PTree} {x' : Node}, RN l' x' → Sim (N - 1) 2 0 (V 70) (V 5) (loopG sg m l') (productLoop sp n x') RN) :
    Sim N 2 0 (V 68) (V 5) (productLoopG sg (m + 1) 1 l) (P.bind (factorP sp x) (productLoop sp n)) RN := by
  have hf := (sim_factor hsh hss hl).mono hNM
  rw [loop_one]
  generalize factorG sg l = fg at hf ⊢
  generalize factorP sp x = fp at hf ⊢
  have h0 : Fst 2 (V 72) (nextsOf 72) := fst_V (by dk)
  have hsync : ∀ t ∈ nextsOf 72, syncOk atn 72 t = true := by dk
  refine (sim_first hf (fun a => (hso a).eqs (v69.trans v72) rfl) fun l' x' hl' => ?_).zero
  rw [v69]
  refine sim_sync (s := 72) (g := loopG sg m l') (L := nextsOf 72) ?_ h0 hsync
  rw [v72]
  exact ih hl'

theorem sim_loop_exit {N m : Nat} {l : PTree} {x : Node} (hl : RN l x) :
    Sim N 2 0 (V 71) (V 5) (productLoopG sg (m + 1) 2 l) (P.pure x) RN := by
  rw [loop_two, v71]; exact sim_pure hl

include hsh hss in
theorem sim_loop (n : Nat) : ∀ {N m : Nat} {l : PTree} {x : Node}, RN l x → N ≤ M + 1 → N ≤ n → N + 1 ≤ m →
    Sim N 2 0 (V 70) (V 5) (loopG sg m l) (productLoop sp n x) RN := by
  induction n with
  | zero =>
    intro N m l x _ _ hN _ rec stack ts hlen
    omega
  | succ n ih =>
    intro N m l x hl hNM hN hm
    obtain ⟨m, rfl⟩ : ∃ m', m = m' + 1 := ⟨m - 1, by omega⟩
    have hbind : ∀ a, Sound (V 69) (V 5) (productLoop sp n a) := fun a => (sound_loop hss n a).eqs (v69.trans v72) rfl
    rw [show V 70 = orWs (loopAlts sp n x) from v70, show productLoop sp (n + 1) x = orPs (loopAlts sp n x) from rfl]
    suffices h : AllAlts N 2 0 (V 5) RN (fun alt => productLoopG sg (m + 1) alt l) 1 (loopAlts sp n x) from
      sim_alts (p := 70) (by dk) rfl decision70 (by dk) (show _ = [(68, 1), (71, 2)] by dk) h
    have h1 := sim_loop_enter hsh hss (m := m) (n := n) hl hNM (sound_loop hss n) fun {l'} {x'} hl' => by
      by_cases hz : N = 0
      · subst hz; intro rec stack ts hlen; simp at hlen
      · exact ih hl' (by omega) (by omega) (by omega)
    exact ⟨⟨h1, sound_bind (sound_factor hss x) hbind⟩, ⟨sim_loop_exit hl, (sound_pure x).eqs v71 rfl⟩, trivial⟩

include hss in
theorem sound_product : Sound (V 4) (V 5) (productP sp) := by
  intro γ ts x hx hv
  have : Sound (V 51) (V 5) (P.bind (powerP sp) (productLoop sp ts.length)) :=
    sound_bind (sound_callV v51 st7 (sound_power hss)) fun a => (sound_loop hss _ a).eqs v52 rfl
  rw [v4, v50]
  exact this γ ts x hx hv

include hsh hss in
theorem sim_product : Sim (M + 1) 2 1 (V 4) (V 5) (productG sg) (productP sp) RN := by
  have h0 : Fst 2 (V 70) (nextsOf 70) := fst_V (by dk)
  rw [v4, v50]
  refine sim_withPrec ?_
  intro rec stack ts hlen hcv hst
  refine ResOk.congr (Pm' := productP sp) (P1 := P.bind (powerP sp) (productLoop sp ts.length)) rfl ?_
  refine sim_first (N := ts.length + 1) (q := productLoop sp ts.length) (Rel := RN) (Rel' := RN)
    ((sim_callV v51 st7 (by dk) (by dk) (by dk) (sim_power hsh hss)).mono (by omega))
    (fun a => (sound_loop hss _ a).eqs v52 rfl) (fun a n ha => ?_) rec stack ts (Nat.lt_succ_self _) hcv hst
  rw [v52]
  refine sim_sync ?_ h0 (by dk)
  intro rec stack ts' hlen' hcv hst
  have hr : RN (.rule 2 [a]) n := by simp [RN, visit, visitAll, visitRule, visitProduct, aggregate, Val.unwrap, ha]
  have h := sim_loop hsh hss ts.length (N := ts'.length + 1) (m := ts'.length + 2) hr (by omega) (by omega) (by omega)
    rec stack ts' (Nat.lt_succ_self _) hcv hst
  rw [predict_len (h := fun n alt => productLoopG sg (n + 2) alt (.rule 2 [a]))]
  show ResOk _ _ _ _ _ _ _ ((G.predict 8 >>= fun alt => productLoopG sg ((ts'.map Token.raw).length + 2) alt _) _ _ _)
  rw [List.length_map]
  exact h
end

end Verif.PSim
