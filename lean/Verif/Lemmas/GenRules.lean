import Verif.Lemmas.GenEqs
/-!
# The rules of the generated parser, one by one
-/

namespace Verif.PSim
open ParserTable
set_option maxRecDepth 100000

section
variable {τ τ' α β : Type} {N k k' : Nat} {r : Int} {Wp Wq Wm W W1 W2 : Cond} {Pm : P α} {Rel : τ → α → Prop}

theorem gbind_pure (g : G τ) : (g >>= fun x => pure x) = g := by
  funext R c s
  show (g R c s).bind _ = _
  induction g R c s with
  | done a => cases a <;> rfl
  | read k f ih => exact congrArg (CProg.read k) (funext ih)
  | write k v p ih => exact congrArg (CProg.write k v) ih

theorem bind_ppure (p : P α) : (P.bind p fun a => P.pure a) = p := by
  funext ts
  simp only [P.bind, P.pure]
  induction p ts with
  | nil => rfl
  | cons a l ih => simp [ih]

theorem sim_mapG {g : G τ} {f : τ → τ'} {Rel' : τ' → α → Prop} (h : Sim N r k Wp Wq g Pm Rel)
    (hR : ∀ x a, Rel x a → Rel' (f x) a) : Sim N r k Wp Wq (g >>= fun x => pure (f x)) Pm Rel' := by
  have := sim_map (f := f) (q := id) h hR
  rwa [map_eq_bind, show (P.bind Pm fun a => P.pure (id a)) = Pm from bind_ppure Pm] at this

theorem sim_mapP {g : G τ} {q : α → β} {Rel' : τ → β → Prop} (h : Sim N r k Wp Wq g Pm Rel)
    (hR : ∀ x a, Rel x a → Rel' x (q a)) : Sim N r k Wp Wq g (P.map q Pm) Rel' := by
  have := sim_map (f := fun x => x) (q := q) (Rel' := Rel') h hR
  rwa [gbind_pure] at this

theorem sim_mkRule {i : Nat} {g : G (List PTree)} {R : PTree → α → Prop} (h : Sim N r k Wp Wq g Pm fun ts a => R (.rule i ts) a) :
    Sim N r k Wp Wq (mkRule i g) Pm R := sim_mapG h fun _ _ h => h

theorem sim_one {g : G PTree} {R1 : PTree → α → Prop} {R : List PTree → α → Prop} (h : Sim N r k Wp Wq g Pm R1)
    (hR : ∀ x a, R1 x a → R [x] a) : Sim N r k Wp Wq (g >>= fun t => pure [t]) Pm R := sim_mapG h hR

/-- the first part of a rule, which consumes a token -/
theorem sim_first {g : G τ} {f : τ → G τ'} {p : P α} {q : α → P β} {Rel' : τ' → β → Prop}
    (h1 : Sim N r 1 Wp Wm g p Rel) (hs : ∀ a, Sound Wm Wq (q a))
    (h2 : ∀ x a, Rel x a → Sim (N - 1) r 0 Wm Wq (f x) (q a) Rel') : Sim N r 1 Wp Wq (g >>= f) (P.bind p q) Rel' :=
  sim_bind (k' := 0) h1 hs h2

/-- a further part -/
theorem sim_then {g : G τ} {f : τ → G τ'} {p : P α} {q : α → P β} {Rel' : τ' → β → Prop}
    (h1 : Sim N r k Wp Wm g p Rel) (hs : ∀ a, Sound Wm Wq (q a))
    (h2 : ∀ x a, Rel x a → Sim N r k' Wm Wq (f x) (q a) Rel') : Sim N r k' Wp Wq (g >>= f) (P.bind p q) Rel' :=
  (sim_bind h1 hs fun x a h => (h2 x a h).mono (Nat.sub_le _ _)).weaken (Nat.le_add_left _ _)

theorem Sim.zero {g : G τ} (h : Sim N r k Wp Wq g Pm Rel) : Sim N r 0 Wp Wq g Pm Rel := h.weaken (Nat.zero_le _)

theorem sim_cat1 {g : G τ} {f : τ → G τ'} {p q : P Str} {Rel : τ → Str → Prop} {Rel' : τ' → Str → Prop}
    (h1 : Sim N r 1 Wp Wm g p Rel) (hs : Sound Wm Wq q)
    (h2 : ∀ x a, Rel x a → Sim (N - 1) r 0 Wm Wq (f x) q (fun y b => Rel' y (a ++ b))) :
    Sim N r 1 Wp Wq (g >>= f) (P.cat p q) Rel' :=
  sim_first h1 (fun _ => sound_map _ hs) fun x a h => sim_mapP (h2 x a h) fun _ _ h => h

theorem sim_cat {g : G τ} {f : τ → G τ'} {p q : P Str} {Rel : τ → Str → Prop} {Rel' : τ' → Str → Prop}
    (h1 : Sim N r k Wp Wm g p Rel) (hs : Sound Wm Wq q)
    (h2 : ∀ x a, Rel x a → Sim N r k' Wm Wq (f x) q (fun y b => Rel' y (a ++ b))) :
    Sim N r k' Wp Wq (g >>= f) (P.cat p q) Rel' :=
  sim_then h1 (fun _ => sound_map _ hs) fun x a h => sim_mapP (h2 x a h) fun _ _ h => h

theorem sim_conv {g : G τ} {f : Str → Option Node} {p : P Str} {Rel : τ → Str → Prop} {Rel' : τ → Node → Prop}
    (h : Sim N r k Wp Wq g p Rel) (hR : ∀ x s, Rel x s → ∃ n, f s = some n ∧ Rel' x n) :
    Sim N r k Wp Wq g (P.conv f p) Rel' := by
  have := sim_bind (k' := 0) (Rel' := Rel') (f := fun x => pure x) (q := fun c => match f c with
    | some n => P.pure n
    | none => P.fail) h (fun c => by split; exact sound_pure _; exact sound_fail) (fun x s hx => by
      obtain ⟨n, hn, hr⟩ := hR x s hx
      simp only [hn]
      exact sim_pure hr)
  rwa [gbind_pure] at this

theorem Sound.eqs {Wp' Wq' : Cond} (h : Sound Wp Wq Pm) (hp : Wp' = Wp) (hq : Wq' = Wq) : Sound Wp' Wq' Pm := by
  rw [hp, hq]; exact h

theorem Sim.eqs {g : G τ} {Wp' Wq' : Cond} (h : Sim N r k Wp Wq g Pm Rel) (hp : Wp' = Wp) (hq : Wq' = Wq) :
    Sim N r k Wp' Wq' g Pm Rel := by
  rw [hp, hq]; exact h

theorem sound_callV {s q f stop : Nat} (hs : V s = fun γ => V q (f :: γ)) (hst : At stop true [])
    (h : Sound (V q) (V stop) Pm) : Sound (V s) (V f) Pm := by
  rw [hs, ← V_stop hst f]; exact sound_call h

theorem sim_callV {s q f stop : Nat} {r' : Int} {g : G τ} (hs : V s = fun γ => V q (f :: γ)) (hst : At stop true [])
    (hf : followOf atn s = f) (hm : f ∈ follows atn r') (hr : ruleOf atn f = r)
    (h : Sim N r' k (V q) (V stop) g Pm Rel) : Sim N r k (V s) (V f) (G.call s g) Pm Rel := by
  rw [hs, ← V_stop hst f]; exact sim_call hf hm hr h

theorem por_assoc (p q s : P α) : P.or (P.or p q) s = P.or p (P.or q s) := by
  funext ts; simp [P.or]
end

theorem st1 : At 1 true [] := rfl
theorem st3 : At 3 true [] := rfl
theorem st5 : At 5 true [] := rfl
theorem st7 : At 7 true [] := rfl
theorem st9 : At 9 true [] := rfl
theorem st11 : At 11 true [] := rfl
theorem st13 : At 13 true [] := rfl
theorem st15 : At 15 true [] := rfl
theorem st17 : At 17 true [] := rfl
theorem st19 : At 19 true [] := rfl
theorem st21 : At 21 true [] := rfl

/-- the graph of a tree -/
abbrev RN : PTree → Node → Prop := fun t n => visit t = .ok (.node n)
/-- the text of a tree -/
abbrev RT : PTree → Str → Prop := fun t s => t.text = s
/-- the text of trees -/
abbrev RTs : List PTree → Str → Prop := fun t s => PTree.textAll t = s

theorem textAll_append (a b : List PTree) : PTree.textAll (a ++ b) = PTree.textAll a ++ PTree.textAll b := by
  induction a with
  | nil => rfl
  | cons t ts ih => simp [PTree.textAll, ih]

/-! ## `integer` -/

theorem sound_integer : Sound (V 12) (V 13) integerText := by
  rw [v12, v101, v102]; exact sound_or (sound_tok _) (sound_tok _)

theorem sound_integerP : Sound (V 12) (V 13) integerP := sound_conv sound_integer

def RInt : PTree → Str → Prop := fun t s => t.text = s ∧ ∃ n, intNode s = some n ∧ RN t n

theorem sim_integerT {N : Nat} : Sim N 6 1 (V 12) (V 13) integerG integerText RInt := by
  rw [v12, v101, v102]
  refine sim_mkRule (sim_one (sim_tokIn2 (by intro kd; cases kd <;> decide) (by decide)) ?_)
  rintro x s ⟨kd, hk, rfl, hc⟩
  refine ⟨by simp [PTree.text, PTree.textAll], ?_⟩
  have hi : (⟨kd, s⟩ : Token).isInt := by rcases hk with rfl | rfl <;> simp [Token.isInt]
  obtain ⟨n, hn⟩ := (hc _ (List.mem_singleton.2 rfl)).1 hi
  refine ⟨n, hn, ?_⟩
  rcases hk with rfl | rfl <;>
    simp [RN, visit, visitAll, visitTerm, visitRule, aggregate, Val.unwrap, Kind.id, hn]

theorem sim_integer {N : Nat} : Sim N 6 1 (V 12) (V 13) integerG integerP RN :=
  sim_conv sim_integerT fun _ _ h => h.2

/-! ## `number` -/

theorem sound_number : Sound (V 14) (V 15) numberP := by
  rw [v14, v105, ← v106]
  exact sound_or (sound_callV v103 st13 sound_integerP) (by rw [v104]; exact sound_conv (sound_tok _))

theorem sim_number {N : Nat} : Sim N 7 1 (V 14) (V 15) numberG numberP RN := by
  have h0 : Fst 7 (V 105) (nextsOf 105) := fst_V (by decide +kernel)
  rw [v14, ← v106]
  refine sim_mkRule (sim_sync (L := nextsOf 105) ?_ h0 (by decide +kernel))
  rw [v105]
  refine sim_la (simL_if (L1 := nextsOf 103) (L2 := nextsOf 104) ?_ (simL_last (L := nextsOf 104) ?_ ?_ ?_) ?_ ?_ ?_ ?_ ?_)
  · refine sim_one (sim_callV v103 st13 (by decide +kernel) (by decide +kernel) (by decide +kernel) sim_integer) ?_
    intro x n h
    simp [RN, visit, visitAll, visitRule, aggregate, Val.unwrap, h]
  · rw [v104]
    refine sim_conv (sim_one (R := fun x s => x = [.term 11 s] ∧ Convertible [⟨.FLOAT, s⟩]) (sim_tok .FLOAT rfl) ?_) ?_
    · rintro x a ⟨rfl, h⟩; exact ⟨rfl, h⟩
    · rintro x s ⟨rfl, hc⟩
      obtain ⟨n, hn⟩ := (hc _ (List.mem_singleton.2 rfl)).2 rfl
      exact ⟨n, hn, by simp [RN, visit, visitAll, visitTerm, visitRule, aggregate, Val.unwrap, hn]⟩
  · exact fst_V (by decide +kernel)
  · decide +kernel
  · exact sound_callV v103 st13 sound_integerP
  · exact fst_V (by decide +kernel)
  · exact fst_V (by decide +kernel)
  · decide +kernel
  · decide +kernel

/-! ## Parts of `timestamp` -/

/-- the tokens that can come next, checked -/
macro "fv" : tactic => `(tactic| exact fst_V (by decide +kernel))
macro "dk" : tactic => `(tactic| decide +kernel)

theorem sound_clock : Sound (V 18) (V 19) signedClock := by
  rw [v18, v152, ← v153]
  refine sound_or ?_ (sound_or ?_ (sound_callV v151 st13 sound_integer))
  · rw [v149]; exact sound_tok _
  · rw [v150]; exact sound_tok _

theorem rt_tok {i : Int} {kd : Kind} {idx : Nat} : ∀ (x : PTree) (s : Str), (x = .term i s ∧ Convertible [⟨kd, s⟩]) →
    RT (.rule idx [x]) s := by
  rintro x s ⟨rfl, _⟩; simp [RT, PTree.text, PTree.textAll]

theorem rt_int {idx : Nat} : ∀ (x : PTree) (s : Str), RInt x s → RT (.rule idx [x]) s := by
  rintro x s ⟨rfl, _⟩; simp [RT, PTree.text, PTree.textAll]

theorem rts_tok {i : Int} {kd : Kind} : ∀ (x : PTree) (s : Str), (x = .term i s ∧ Convertible [⟨kd, s⟩]) →
    RTs [x] s := by
  rintro x s ⟨rfl, _⟩; simp [RTs, PTree.text, PTree.textAll]

theorem rts_int : ∀ (x : PTree) (s : Str), RInt x s → RTs [x] s := by
  rintro x s ⟨rfl, _⟩; simp [RTs, PTree.textAll]

theorem rts_one : ∀ (x : PTree) (s : Str), RT x s → RTs [x] s := by
  rintro x s rfl; simp [RTs, PTree.textAll]

theorem sim_clock {N : Nat} : Sim N 9 1 (V 18) (V 19) signedClockG signedClock RT := by
  have h0 : Fst 9 (V 152) (nextsOf 152) := fst_V (by decide +kernel)
  have h1 : Fst 9 (V 149) (nextsOf 149) := fst_V (by decide +kernel)
  have h2 : Fst 9 (V 150) (nextsOf 150) := fst_V (by decide +kernel)
  have h3 : Fst 9 (V 151) (nextsOf 151) := fst_V (by decide +kernel)
  rw [v18, ← v153]
  refine sim_mkRule (sim_sync ?_ h0 (by dk))
  rw [v152]
  refine sim_la (simL_if ?_ (simL_if ?_ (simL_last ?_ h3 (by dk)) ?_ h2 h3 (by dk) (by dk)) ?_ h1 (fst_or h2 h3) (by dk) (by dk))
  · rw [v149]; exact sim_one (sim_tok .HOUR_MINUTE_SECOND rfl) rt_tok
  · rw [v150]; exact sim_one (sim_tok .HOUR_MINUTE rfl) rt_tok
  · exact sim_one (sim_callV v151 st13 (by dk) (by dk) (by dk) sim_integerT) rt_int
  · rw [v150]; exact sound_tok _
  · rw [v149]; exact sound_tok _

theorem sound_tz : Sound (V 20) (V 21) tzOffset := by
  rw [v20, v156, ← v157]
  refine sound_or ?_ (sound_callV v155 st13 sound_integer)
  rw [v154]; exact sound_tok _

theorem sim_tz {N : Nat} : Sim N 10 1 (V 20) (V 21) tzOffsetG tzOffset RT := by
  have h0 : Fst 10 (V 156) (nextsOf 156) := fst_V (by decide +kernel)
  have h1 : Fst 10 (V 154) (nextsOf 154) := fst_V (by decide +kernel)
  have h2 : Fst 10 (V 155) (nextsOf 155) := fst_V (by decide +kernel)
  rw [v20, ← v157]
  refine sim_mkRule (sim_sync ?_ h0 (by dk))
  rw [v156]
  refine sim_la (simL_if ?_ (simL_last ?_ h2 (by dk)) ?_ h1 h2 (by dk) (by dk))
  · rw [v154]; exact sim_one (sim_tok .HOUR_MINUTE rfl) rt_tok
  · exact sim_one (sim_callV v155 st13 (by dk) (by dk) (by dk) sim_integerT) rt_int
  · rw [v154]; exact sound_tok _

section
variable {N : Nat}

theorem sound_dateOrInt {s a c f : Nat} (hv : V s = orW (V a) (V c)) (ha : V a = tokW .DATE (V f))
    (hc : V c = fun γ => V 12 (f :: γ)) : Sound (V s) (V f) dateOrInt := by
  rw [hv]
  exact sound_or (by rw [ha]; exact sound_tok _) (sound_callV hc st13 sound_integer)

theorem sim_dateOrInt {s a c f : Nat} (hv : V s = orW (V a) (V c)) (ha : V a = tokW .DATE (V f))
    (hc : V c = fun γ => V 12 (f :: γ)) (hf : followOf atn c = f) (hm : f ∈ follows atn 6) (hrf : ruleOf atn f = 8)
    (hrs : ruleOf atn s = 8) (hra : ruleOf atn a = 8) (hrc : ruleOf atn c = 8)
    (hsy : ∀ t ∈ nextsOf s, syncOk atn s t = true) (h1 : ∀ t ∈ nextsOf a, t ∈ [25]) (h2 : ∀ t ∈ nextsOf c, ¬ t ∈ [25])
    (h3 : ∀ t ∈ nextsOf c, t ∈ [1, 9]) : Sim N 8 1 (V s) (V f) (dateOrIntG s c) dateOrInt RTs := by
  refine sim_sync ?_ (fst_V hrs) hsy
  rw [hv]
  refine sim_la (simL_if ?_ (simL_last ?_ (fst_V hrc) h3) ?_ (fst_V hra) (fst_V hrc) h1 h2)
  · rw [ha]; exact sim_one (sim_tok .DATE rfl) rts_tok
  · exact sim_one (sim_callV hc st13 hf hm hrf sim_integerT) rts_int
  · rw [ha]; exact sound_tok _

theorem sound_tzAny {s c b f : Nat} (hv : V s = orW (V c) (orW (V b) (V f)))
    (hc : V c = fun γ => V 20 (f :: γ)) (hb : V b = tokW .TIMEZONE (V f)) : Sound (V s) (V f) (P.opt tzAny) := by
  rw [hv]
  show Sound _ _ (P.or (P.or tzOffset _) _)
  rw [por_assoc]
  exact sound_or (sound_callV hc st21 sound_tz) (sound_or (by rw [hb]; exact sound_tok _) (sound_pure _))

theorem sim_tzAny {s c b f : Nat} (hv : V s = orW (V c) (orW (V b) (V f)))
    (hc : V c = fun γ => V 20 (f :: γ)) (hb : V b = tokW .TIMEZONE (V f))
    (hf : followOf atn c = f) (hm : f ∈ follows atn 10) (hrf : ruleOf atn f = 8)
    (hrs : ruleOf atn s = 8) (hrc : ruleOf atn c = 8) (hrb : ruleOf atn b = 8)
    (hsy : ∀ t ∈ nextsOf s, syncOk atn s t = true) (h1 : ∀ t ∈ nextsOf c, t ∈ [1, 9, 23])
    (h2 : ∀ t ∈ nextsOf b ++ nextsOf f, ¬ t ∈ [1, 9, 23]) (h3 : ∀ t ∈ nextsOf b, t ∈ [20])
    (h4 : ∀ t ∈ nextsOf f, ¬ t ∈ [20]) : Sim N 8 0 (V s) (V f) (tzAnyG s c) (P.opt tzAny) RTs := by
  show Sim _ _ _ _ _ _ (P.or (P.or tzOffset _) _) _
  rw [por_assoc]
  refine sim_sync ?_ (fst_V hrs) hsy
  rw [hv]
  refine sim_la (simL_if ?_ (simL_if ?_ (simL_const (sim_pure ?_)) ?_ (fst_V hrb) (fst_V hrf) h3 h4) ?_ (fst_V hrc)
    (fst_or (fst_V hrb) (fst_V hrf)) h1 h2)
  · exact (sim_one (sim_callV hc st21 hf hm hrf sim_tz) rts_one).zero
  · rw [hb]; exact (sim_one (sim_tok .TIMEZONE rfl) rts_tok).zero
  · rfl
  · rw [hb]; exact sound_tok _
  · exact sound_callV hc st21 sound_tz

/-- an optional `WS` -/
def ROpt : List PTree → Str → Prop := fun x s => (x = [] ∧ s = []) ∨ (∃ c, x = [.term 18 c] ∧ s = c)

theorem ROpt.text {x : List PTree} {s : Str} (h : ROpt x s) : PTree.textAll x = s := by
  rcases h with ⟨rfl, rfl⟩ | ⟨c, rfl, rfl⟩ <;> simp [PTree.textAll, PTree.text]

theorem sound_optWs {s a f : Nat} (hv : V s = orW (V a) (V f)) (ha : V a = tokW .WS (V f)) :
    Sound (V s) (V f) (P.opt (P.tok .WS)) := by
  rw [hv]
  exact sound_or (by rw [ha]; exact sound_tok _) (sound_pure _)

theorem sim_optWs {r : Int} {s a f : Nat} (hv : V s = orW (V a) (V f)) (ha : V a = tokW .WS (V f))
    (hrf : ruleOf atn f = r) (hrs : ruleOf atn s = r) (hra : ruleOf atn a = r)
    (hsy : ∀ t ∈ nextsOf s, syncOk atn s t = true) (h1 : ∀ t ∈ nextsOf a, t = 18) (h2 : ∀ t ∈ nextsOf f, ¬ t = 18) :
    Sim N r 0 (V s) (V f) (G.optTok 18 s) (P.opt (P.tok .WS)) ROpt := by
  refine sim_sync ?_ (fst_V hrs) hsy
  rw [hv]
  refine sim_la (simL_if (c := fun t => t = 18) ?_ (simL_const (sim_pure ?_)) ?_ (fst_V hra) (fst_V hrf) h1 h2)
  · rw [ha]
    refine (sim_one (sim_tok .WS rfl) ?_).zero
    rintro x s ⟨rfl, _⟩
    exact Or.inr ⟨s, rfl, rfl⟩
  · exact Or.inl ⟨rfl, rfl⟩
  · rw [ha]; exact sound_tok _

theorem sound_wsOrT : Sound (V 116) (V 117) (P.opt (P.or (P.tok .WS) (P.tok .T))) := by
  rw [v116, v115]
  exact sound_or (sound_or (sound_tok _) (sound_tok _)) (sound_pure _)

theorem sim_wsOrT : Sim N 8 0 (V 116) (V 117) wsOrTG (P.opt (P.or (P.tok .WS) (P.tok .T))) RTs := by
  have h0 : Fst 8 (V 116) (nextsOf 116) := fst_V (by decide +kernel)
  have h1 : Fst 8 (V 115) (nextsOf 115) := fst_V (by decide +kernel)
  have h2 : Fst 8 (V 117) (nextsOf 117) := fst_V (by decide +kernel)
  refine sim_sync ?_ h0 (by dk)
  rw [v116]
  refine sim_la (simL_if (c := fun l => l = 18 ∨ l = 26) ?_ (simL_const (sim_pure ?_)) ?_ h1 h2 (by dk) (by dk))
  · rw [v115]
    refine (sim_one (sim_tokIn2 (by intro kd; cases kd <;> decide) (by decide)) ?_).zero
    rintro x s ⟨kd, hk, rfl, hc⟩
    simp [RTs, PTree.textAll, PTree.text]
  · rfl
  · rw [v115]; exact sound_or (sound_tok _) (sound_tok _)
end

end Verif.PSim
