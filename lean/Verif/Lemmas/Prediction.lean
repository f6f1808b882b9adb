import Verif.Lemmas.ParserReach
import Verif.Lemmas.Dict
/-!
# `adaptivePredict` chooses the lowest viable alternative
-/

namespace Verif.PSim

variable {A : Atn} {rk : Nat → Nat} {st : AState} {γ0 : List Nat}

/-- What a prediction must be: the lowest of the viable alternatives, if there is one; some alternative or an error otherwise. -/
def Correct (A : Atn) (st : AState) (γ0 : List Nat) (w : List Int) (r : Prediction) : Prop :=
  ∃ o, r = some o ∧ (o = none → ∀ i, ¬ Viable A st γ0 i w) ∧
    ∀ j, o = some j → IsAlt st j ∧ ∀ i, Viable A st γ0 i w → Viable A st γ0 j w ∧ j ≤ i

theorem correct_recover {rec : Recover} {cs : List PConfig} {w : List Int} (h : ∀ c ∈ cs, IsAlt st c.alt)
    (hn : ∀ i, ¬ Viable A st γ0 i w) : Correct A st γ0 w (some (recoverAlt rec cs)) := by
  refine ⟨_, rfl, fun _ => hn, ?_⟩
  intro j hj
  refine ⟨?_, fun i hi => absurd hi (hn i)⟩
  unfold recoverAlt at hj
  split at hj
  · split at hj
    next he =>
      simp only [Option.some.injEq] at hj
      subst hj
      rw [List.any_eq_true] at he
      obtain ⟨c, hc, e⟩ := he
      rw [beq_iff_eq] at e
      rw [← e]; exact h c hc
    · cases hj
  · cases hj

theorem correct_unique {cs : List PConfig} {a : Nat} {w : List Int} (ha : IsAlt st a)
    (h : ∀ i, Viable A st γ0 i w → i = a) : Correct A st γ0 w (some (some a)) := by
  refine ⟨_, rfl, (by intro h; cases h), ?_⟩
  intro j hj
  simp only [Option.some.injEq] at hj
  subst hj
  refine ⟨ha, fun i hi => ?_⟩
  have := h i hi
  subst this
  exact ⟨hi, Nat.le_refl _⟩

theorem uniqueAlt_some {cs : List PConfig} {a : Nat} (h : uniqueAlt cs = some a) :
    (∃ c ∈ cs, c.alt = a) ∧ ∀ c ∈ cs, c.alt = a := by
  cases cs with
  | nil => cases h
  | cons c cs =>
    simp only [uniqueAlt] at h
    split at h
    next hall =>
      simp only [Option.some.injEq] at h
      subst h
      refine ⟨⟨c, List.mem_cons_self, rfl⟩, ?_⟩
      intro d hd
      rcases List.mem_cons.1 hd with rfl | hd
      · rfl
      · simpa using List.all_eq_true.1 hall d hd
    · cases h

theorem foldl_min_le (l : List Nat) : ∀ a : Nat, l.foldl min a ≤ a ∧ (∀ b ∈ l, l.foldl min a ≤ b) ∧
    (l.foldl min a = a ∨ l.foldl min a ∈ l) := by
  induction l with
  | nil => intro a; exact ⟨Nat.le_refl _, (by intro b hb; cases hb), Or.inl rfl⟩
  | cons x l ih =>
    intro a
    rw [List.foldl_cons]
    obtain ⟨h1, h2, h3⟩ := ih (min a x)
    refine ⟨by omega, ?_, ?_⟩
    · intro b hb
      rcases List.mem_cons.1 hb with rfl | hb
      · omega
      · exact h2 b hb
    · rcases h3 with h3 | h3
      · by_cases hax : a ≤ x
        · left; omega
        · right; rw [h3]; have : min a x = x := by omega
          rw [this]; exact List.mem_cons_self
      · right; exact List.mem_cons_of_mem _ h3

theorem minAlt_le {l : List Nat} {b : Nat} (h : b ∈ l) : minAlt l ≤ b := by
  cases l with
  | nil => cases h
  | cons a l =>
    have := foldl_min_le l a
    rcases List.mem_cons.1 h with rfl | h
    · exact this.1
    · exact this.2.1 b h

theorem minAlt_mem {l : List Nat} (h : l ≠ []) : minAlt l ∈ l := by
  cases l with
  | nil => exact absurd rfl h
  | cons a l =>
    rcases (foldl_min_le l a).2.2 with h | h
    · rw [minAlt, h]; exact List.mem_cons_self
    · exact List.mem_cons_of_mem _ h

theorem singleViable_some {cs : List PConfig} {m : Nat} (h : singleViable cs = some m) :
    ∀ c ∈ cs, minAlt (altsAt cs c.state c.ctx) = m := by
  unfold singleViable at h
  split at h
  · cases h
  next x xs hx =>
    split at h
    next hall =>
      simp only [Option.some.injEq] at h
      subst h
      intro c hc
      have : minAlt (altsAt cs c.state c.ctx) ∈ x :: xs := by
        rw [← hx]; exact List.mem_map.2 ⟨c, hc, rfl⟩
      rcases List.mem_cons.1 this with h | h
      · exact h
      · simpa using List.all_eq_true.1 hall _ h
    · cases h

theorem mem_altsAt {cs : List PConfig} {p : Nat} {x : PCtx} {i : Nat} :
    i ∈ altsAt cs p x ↔ ∃ c ∈ cs, c.state = p ∧ c.ctx = x ∧ c.alt = i := by
  simp only [altsAt, List.mem_map, List.mem_filter, Bool.and_eq_true, decide_eq_true_eq]
  constructor
  · rintro ⟨c, ⟨h1, h2, h3⟩, h4⟩; exact ⟨c, h1, h2, h3, h4⟩
  · rintro ⟨c, h1, h2, h3, h4⟩; exact ⟨c, ⟨h1, h2, h3⟩, h4⟩

theorem singleViable_isSome {cs : List PConfig} (hne : cs ≠ []) {p : Nat} {x : PCtx}
    (h : ∀ c ∈ cs, c.state = p ∧ c.ctx = x) : ∃ m, singleViable cs = some m := by
  cases hs : singleViable cs with
  | some m => exact ⟨m, rfl⟩
  | none =>
    exfalso
    unfold singleViable at hs
    split at hs
    next e => rw [List.map_eq_nil_iff] at e; exact hne e
    next y ys e =>
      split at hs
      · cases hs
      next hall =>
        apply hall
        rw [List.all_eq_true]
        intro z hz
        have key : ∀ z ∈ y :: ys, z = minAlt (altsAt cs p x) := by
          intro z hz
          rw [← e] at hz
          obtain ⟨c, hc, rfl⟩ := List.mem_map.1 hz
          rw [(h c hc).1, (h c hc).2]
        rw [beq_iff_eq, key z (List.mem_cons_of_mem _ hz), key y List.mem_cons_self]

/-- the stage with full contexts is right -/
theorem execFull_correct {E : PEnv} (G : Good E.atn rk) (hf : E.full = true) (hp : E.prec = 0) (rec : Recover) :
    ∀ (ts : List Int) (cs : List PConfig) (u : List Int), SInv E.atn E.full st γ0 u cs → (∀ t ∈ ts, t ≠ -1) →
      Correct E.atn st γ0 (u ++ (ts ++ [-1])) (execFull E rec ts cs) := by
  intro ts
  induction ts with
  | nil =>
    intro cs u h _
    obtain ⟨h1, h2⟩ := reach_eof G h
    simp only [execFull, List.nil_append]
    split
    next he =>
      refine correct_recover (fun c hc => (h.all c hc).1.alt) ?_
      intro i hi
      obtain ⟨c, hc, _⟩ := h1 i hi
      rw [List.isEmpty_iff.1 he] at hc; cases hc
    next he =>
      split
      next a hu =>
        obtain ⟨⟨c, hc, hca⟩, hall⟩ := uniqueAlt_some hu
        refine correct_unique (cs := cs) (hca ▸ (h2 c hc).2.2.1) ?_
        intro i hi
        obtain ⟨d, hd, rfl⟩ := h1 i hi
        exact hall d hd
      next hu =>
        have hne : reachSet E (-1) cs ≠ [] := by
          intro e; apply he; rw [e]; rfl
        obtain ⟨m, hm⟩ := singleViable_isSome hne (fun c hc => ⟨(h2 c hc).1, (h2 c hc).2.1⟩)
        rw [hm]
        simp only
        have hmin := singleViable_some hm
        have hmem : ∀ c ∈ reachSet E (-1) cs, ∃ d ∈ reachSet E (-1) cs, d.alt = m := by
          intro c hc
          have : minAlt (altsAt (reachSet E (-1) cs) c.state c.ctx) ∈ altsAt (reachSet E (-1) cs) c.state c.ctx := by
            apply minAlt_mem
            intro e
            have : c.alt ∈ altsAt (reachSet E (-1) cs) c.state c.ctx := mem_altsAt.2 ⟨c, hc, rfl, rfl, rfl⟩
            rw [e] at this; cases this
          rw [hmin c hc] at this
          obtain ⟨d, hd, _, _, e⟩ := mem_altsAt.1 this
          exact ⟨d, hd, e⟩
        refine ⟨_, rfl, (by intro h; cases h), ?_⟩
        intro j hj
        simp only [Option.some.injEq] at hj
        subst hj
        obtain ⟨c0, hc0⟩ := List.exists_mem_of_ne_nil _ hne
        obtain ⟨d, hd, e⟩ := hmem c0 hc0
        refine ⟨e ▸ (h2 d hd).2.2.1, ?_⟩
        intro i hi
        refine ⟨e ▸ (h2 d hd).2.2.2.2 hf, ?_⟩
        obtain ⟨c, hc, rfl⟩ := h1 i hi
        rw [← hmin c hc]
        exact minAlt_le (mem_altsAt.2 ⟨c, hc, rfl, rfl, rfl⟩)
  | cons t ts ih =>
    intro cs u h ht
    have htne := ht t List.mem_cons_self
    obtain ⟨h1, h2, h3⟩ := reach_step G hp htne h
    obtain ⟨t', w, hw⟩ : ∃ t' w, ts ++ [-1] = t' :: w := by
      cases ts with
      | nil => exact ⟨-1, [], rfl⟩
      | cons x xs => exact ⟨x, xs ++ [-1], rfl⟩
    have hword : u ++ (t :: ts ++ [-1]) = u ++ t :: t' :: w := by rw [List.cons_append, hw]
    have hword2 : u ++ (t :: ts ++ [-1]) = (u ++ [t]) ++ (ts ++ [-1]) := by simp
    simp only [execFull]
    split
    next he =>
      refine correct_recover (fun c hc => (h.all c hc).1.alt) ?_
      intro i hi
      rw [hword] at hi
      obtain ⟨c, hc, _⟩ := h1 i _ _ hi
      rw [List.isEmpty_iff.1 he] at hc; cases hc
    next he =>
      split
      next a hu =>
        obtain ⟨⟨c, hc, hca⟩, hall⟩ := uniqueAlt_some hu
        refine correct_unique (cs := cs) (hca ▸ (h2 c hc).1) ?_
        intro i hi
        rw [hword] at hi
        obtain ⟨d, hd, rfl⟩ := h1 i _ _ hi
        exact hall d hd
      next hu =>
        have hs := h3 hu
        split
        next m hm =>
          have hmin := singleViable_some hm
          have hmem : ∀ c ∈ reachSet E t cs, ∃ d ∈ reachSet E t cs, d.alt = m ∧ d.state = c.state ∧ d.ctx = c.ctx := by
            intro c hc
            have : minAlt (altsAt (reachSet E t cs) c.state c.ctx) ∈ altsAt (reachSet E t cs) c.state c.ctx := by
              apply minAlt_mem
              intro e
              have : c.alt ∈ altsAt (reachSet E t cs) c.state c.ctx := mem_altsAt.2 ⟨c, hc, rfl, rfl, rfl⟩
              rw [e] at this; cases this
            rw [hmin c hc] at this
            obtain ⟨d, hd, e1, e2, e⟩ := mem_altsAt.1 this
            exact ⟨d, hd, e, e1, e2⟩
          refine ⟨_, rfl, (by intro h; cases h), ?_⟩
          intro j hj
          simp only [Option.some.injEq] at hj
          subst hj
          have hne : reachSet E t cs ≠ [] := by
            intro e; apply he; rw [e]; rfl
          obtain ⟨c0, hc0⟩ := List.exists_mem_of_ne_nil _ hne
          obtain ⟨d0, hd0, e0, _⟩ := hmem c0 hc0
          refine ⟨e0 ▸ (h2 d0 hd0).1, ?_⟩
          intro i hi
          rw [hword2, hw] at hi
          obtain ⟨q, γ', ⟨c, hc, rfl, rfl, hγ⟩, _, s, tr, q', hst, htr, hq, ha⟩ := hs.covers i t' w hi
          obtain ⟨d, hd, e, e1, e2⟩ := hmem c hc
          constructor
          · rw [hword2, hw, ← e]
            refine (hs.all d hd).1.exact hf γ' (t' :: w) ?_ ?_
            · rw [e2]; rw [hf] at hγ; exact hγ
            · rw [e1]; exact .tok hst htr hq ha
          · rw [← hmin c hc]
            exact minAlt_le (mem_altsAt.2 ⟨c, hc, rfl, rfl, rfl⟩)
        next hm =>
          rw [hword2]
          exact ih _ _ hs (fun x hx => ht x (List.mem_cons_of_mem _ hx))

/-- a cached automaton holds what would be computed anew -/
structure DSound (E : PEnv) (n : Nat) (s0 : List PConfig) (d : PDfa) : Prop where
  start : ∀ s, Dict.get (0 : Int) d.starts = some s → s = s0
  edge : ∀ cs t r, Dict.get (cs, t) d.edges = some r → r = computeTarget E n cs t

theorem nextState_sound {E : PEnv} {n : Nat} {s0 : List PConfig} {d : PDfa} (hd : DSound E n s0 d) (cs : List PConfig)
    (t : Int) : (nextState E n d cs t).1 = computeTarget E n cs t ∧ DSound E n s0 (nextState E n d cs t).2 := by
  unfold nextState
  split
  · split
    next r hr => exact ⟨hd.edge cs t r hr, hd⟩
    next hr =>
      refine ⟨rfl, ⟨hd.start, ?_⟩⟩
      intro cs' t' r' h
      rw [Dict.get_set] at h
      split at h
      next e =>
        simp only [Option.some.injEq] at h
        rw [← h]
        first
          | (obtain ⟨rfl, rfl⟩ := Prod.mk.inj e; rfl)
      · exact hd.edge cs' t' r' h
  · exact ⟨rfl, hd⟩

theorem semOk_foldl (l : List (Option Int)) : ∀ s, SemOk s → (∀ x ∈ l, SemOk x) → SemOk (l.foldl orSem s) := by
  induction l with
  | nil => intro s h _; exact h
  | cons a l ih =>
    intro s hs h
    rw [List.foldl_cons]
    refine ih _ ?_ (fun x hx => h x (List.mem_cons_of_mem _ hx))
    have ha := h a List.mem_cons_self
    cases s with
    | none => exact trivial
    | some x =>
      cases a with
      | none => exact trivial
      | some y =>
        show 0 ≤ max x y
        have : 0 ≤ x := hs
        omega

theorem semOk_altPred {alts : List Nat} {cs : List PConfig} {i : Nat} (h : ∀ c ∈ cs, SemOk c.sem) :
    SemOk (altPred alts cs i) := by
  unfold altPred
  split
  · split
    · exact trivial
    next s ss e =>
      have : ∀ x ∈ s :: ss, SemOk x := by
        intro x hx
        rw [← e] at hx
        obtain ⟨c, hc, rfl⟩ := List.mem_map.1 hx
        exact h c (List.mem_filter.1 hc).1
      exact semOk_foldl _ _ (this s List.mem_cons_self) (fun x hx => this x (List.mem_cons_of_mem _ hx))
  · exact trivial

theorem semTrue_of_ok {s : Option Int} (h : SemOk s) : semTrue 0 s = true := by
  cases s with
  | none => rfl
  | some k => simp only [semTrue, decide_eq_true_eq]; exact h

/-- at precedence 0 no predicate excludes an alternative -/
theorem evalPreds_eq {n : Nat} {alts : List Nat} {cs : List PConfig} {ps : List (Option Int × Nat)}
    (h : ∀ c ∈ cs, SemOk c.sem) (hps : predicates n alts cs = some ps) :
    evalPreds 0 ps = (List.range' 1 n).filter (fun i => i ∈ alts) := by
  unfold predicates at hps
  split at hps
  · simp only [Option.some.injEq] at hps
    subst hps
    unfold evalPreds
    rw [List.filter_eq_self.2, List.map_map]
    · exact List.map_id _
    · intro x hx
      obtain ⟨i, _, rfl⟩ := List.mem_map.1 hx
      exact semTrue_of_ok (semOk_altPred h)
  · cases hps

theorem decide_correct {E : PEnv} (hp : E.prec = 0) {full : Unit → Prediction} {w : List Int}
    (hfull : Correct E.atn st γ0 w (full ())) {cs : List PConfig} {t : Int}
    (h1 : ∀ i, Viable E.atn st γ0 i w → ∃ c ∈ reachSet E t cs, c.alt = i)
    (h2 : ∀ c ∈ reachSet E t cs, IsAlt st c.alt ∧ SemOk c.sem)
    {D : PState} (hD : computeTarget E st.trans.length cs t = some D) :
    (∀ r, decideState E full D = .inl r → Correct E.atn st γ0 w r) ∧
    (∀ x, decideState E full D = .inr x → D.configs = reachSet E t cs ∧ uniqueAlt (reachSet E t cs) = none ∧
      sllConflict E.atn (reachSet E t cs) = false) := by
  have hrange : ∀ i, IsAlt st i → i ∈ List.range' 1 st.trans.length := by
    rintro i ⟨q, hq⟩
    have := mem_altTargets hq
    rw [List.mem_range'_1]; omega
  unfold computeTarget at hD
  simp only at hD
  split at hD
  · cases hD
  next hne =>
    split at hD
    next a hu =>
      obtain ⟨⟨c, hc, hca⟩, hall⟩ := uniqueAlt_some hu
      have hcor : Correct E.atn st γ0 w (some (some a)) := by
        refine correct_unique (cs := cs) (hca ▸ (h2 c hc).1) ?_
        intro i hi
        obtain ⟨d, hd, rfl⟩ := h1 i hi
        exact hall d hd
      simp only [Option.some.injEq] at hD
      subst hD
      have hdec : decideState E full ⟨reachSet E t cs, false, [a], predicates st.trans.length [a] (reachSet E t cs)⟩ =
          .inl (some (some a)) := by
        simp only [decideState, Bool.false_eq_true, if_false]
        cases hps : predicates st.trans.length [a] (reachSet E t cs) with
        | none => rfl
        | some ps =>
          have hev := evalPreds_eq (fun c hc => (h2 c hc).2) hps
          have hmem : a ∈ evalPreds 0 ps := by
            rw [hev, List.mem_filter]
            exact ⟨hrange a (hca ▸ (h2 c hc).1), by simp⟩
          have hmall : ∀ b ∈ evalPreds 0 ps, b = a := by
            intro b hb
            rw [hev, List.mem_filter] at hb
            simpa using hb.2
          simp only [hp]
          cases hl : evalPreds 0 ps with
          | nil => rw [hl] at hmem; cases hmem
          | cons b bs =>
            simp only
            have hmm := minAlt_mem (l := b :: bs) (by simp)
            rw [← hl] at hmm
            rw [hl] at hmm
            have hma : minAlt (b :: bs) = a := hmall _ (by rw [hl]; exact hmm)
            rw [hma]
      rw [hdec]
      refine ⟨?_, (by intro x h; cases h)⟩
      intro r hr
      simp only [Sum.inl.injEq] at hr
      subst hr; exact hcor
    next hu =>
      split at hD
      next hsc =>
        simp only [Option.some.injEq] at hD
        subst hD
        simp only [decideState, if_true]
        constructor
        · intro r hr
          split at hr
          next ps hps =>
            have hev := evalPreds_eq (fun c hc => (h2 c hc).2) hps
            split at hr
            next hl =>
              rw [hp] at hl hr
              obtain ⟨b, hb⟩ := List.length_eq_one_iff.1 hl
              simp only [Sum.inl.injEq] at hr
              subst hr
              rw [hb]
              have hbm : b ∈ evalPreds 0 ps := by rw [hb]; exact List.mem_cons_self
              rw [hev, List.mem_filter] at hbm
              have hb2 := hbm.2
              simp only [decide_eq_true_eq, List.mem_map] at hb2
              obtain ⟨c, hc, hcb⟩ := hb2
              refine correct_unique (cs := cs) (a := b) (hcb ▸ (h2 c hc).1) ?_
              intro i hi
              obtain ⟨d, hd, rfl⟩ := h1 i hi
              have : d.alt ∈ evalPreds 0 ps := by
                rw [hev, List.mem_filter]
                refine ⟨hrange _ (h2 d hd).1, ?_⟩
                simp only [decide_eq_true_eq, List.mem_map]
                exact ⟨d, hd, rfl⟩
              rw [hb] at this
              simpa using this
            · simp only [Sum.inl.injEq] at hr
              subst hr; exact hfull
          · simp only [Sum.inl.injEq] at hr
            subst hr; exact hfull
        · intro x hx
          split at hx
          · split at hx <;> cases hx
          · cases hx
      next hsc =>
        simp only [Option.some.injEq] at hD
        subst hD
        simp only [decideState, Bool.false_eq_true, if_false]
        refine ⟨(by intro r h; cases h), ?_⟩
        intro x _
        refine ⟨trivial, hu, by simpa using hsc⟩

/-- the cached stage is right if the stage with full contexts is -/
theorem execSll_correct {E : PEnv} (G : Good E.atn rk) (hp : E.prec = 0) (rec : Recover) {s0 : List PConfig}
    {full : Unit → Prediction} : ∀ (ts : List Int) (cs : List PConfig) (u : List Int) (d : PDfa),
      Correct E.atn st γ0 (u ++ (ts ++ [-1])) (full ()) →
      SInv E.atn E.full st γ0 u cs → (∀ t ∈ ts, t ≠ -1) → DSound E st.trans.length s0 d →
      Correct E.atn st γ0 (u ++ (ts ++ [-1])) (execSll E st.trans.length rec full ts cs d).1 ∧
      DSound E st.trans.length s0 (execSll E st.trans.length rec full ts cs d).2 := by
  intro ts
  induction ts with
  | nil =>
    intro cs u d hfull h _ hd
    obtain ⟨h1, h2⟩ := reach_eof G h
    obtain ⟨hn1, hn2⟩ := nextState_sound hd cs (-1)
    simp only [execSll, List.nil_append] at *
    generalize hx : nextState E st.trans.length d cs (-1) = x at hn1 hn2
    obtain ⟨D, d'⟩ := x
    simp only at hn1 hn2
    cases D with
    | none =>
      refine ⟨correct_recover (fun c hc => (h.all c hc).1.alt) ?_, hn2⟩
      intro i hi
      obtain ⟨c, hc, _⟩ := h1 i hi
      have := hn1.symm
      unfold computeTarget at this
      simp only at this
      split at this
      next he => rw [List.isEmpty_iff.1 he] at hc; cases hc
      · split at this
        · cases this
        · split at this <;> cases this
    | some D =>
      obtain ⟨hdc1, hdc2⟩ := decide_correct hp hfull h1 (fun c hc => ⟨(h2 c hc).2.2.1, (h2 c hc).2.2.2.1⟩) hn1.symm
      simp only
      cases hdec : decideState E full D with
      | inl r => exact ⟨hdc1 r hdec, hn2⟩
      | inr x =>
        exfalso
        have := (hdc2 x hdec).2.2
        unfold sllConflict at this
        have hall : (reachSet E (-1) cs).all (atStop E.atn) = true := by
          rw [List.all_eq_true]
          intro c hc
          obtain ⟨s1, hs1, hs2, _⟩ := G.final
          simp only [atStop, (h2 c hc).1, hs1, hs2]
        rw [hall] at this
        cases this
  | cons t ts ih =>
    intro cs u d hfull h ht hd
    have htne := ht t List.mem_cons_self
    obtain ⟨h1, h2, h3⟩ := reach_step G hp htne h
    obtain ⟨t', w, hw⟩ : ∃ t' w, ts ++ [-1] = t' :: w := by
      cases ts with
      | nil => exact ⟨-1, [], rfl⟩
      | cons x xs => exact ⟨x, xs ++ [-1], rfl⟩
    have hword : u ++ (t :: ts ++ [-1]) = u ++ t :: t' :: w := by rw [List.cons_append, hw]
    have hword2 : u ++ (t :: ts ++ [-1]) = (u ++ [t]) ++ (ts ++ [-1]) := by simp
    have h1' : ∀ i, Viable E.atn st γ0 i (u ++ (t :: ts ++ [-1])) → ∃ c ∈ reachSet E t cs, c.alt = i := by
      intro i hi; rw [hword] at hi; exact h1 i _ _ hi
    obtain ⟨hn1, hn2⟩ := nextState_sound hd cs t
    simp only [execSll]
    generalize hx : nextState E st.trans.length d cs t = x at hn1 hn2
    obtain ⟨D, d'⟩ := x
    simp only at hn1 hn2
    cases D with
    | none =>
      refine ⟨correct_recover (fun c hc => (h.all c hc).1.alt) ?_, hn2⟩
      intro i hi
      obtain ⟨c, hc, _⟩ := h1' i hi
      have := hn1.symm
      unfold computeTarget at this
      simp only at this
      split at this
      next he => rw [List.isEmpty_iff.1 he] at hc; cases hc
      · split at this
        · cases this
        · split at this <;> cases this
    | some D =>
      obtain ⟨hdc1, hdc2⟩ := decide_correct hp hfull h1' h2 hn1.symm
      simp only
      cases hdec : decideState E full D with
      | inl r => exact ⟨hdc1 r hdec, hn2⟩
      | inr x =>
        obtain ⟨hc, hu, _⟩ := hdc2 x hdec
        simp only
        rw [hc]
        rw [hword2] at hfull ⊢
        exact ih _ _ _ hfull (h3 hu) (fun y hy => ht y (List.mem_cons_of_mem _ hy)) hn2

/-- the precedence filter loses nothing if what it would drop is suppressed -/
theorem filter_inv {E : PEnv} (G : Good E.atn rk) (hp : E.prec = 0) {u : List Int} {cs : List PConfig}
    (h : SInv E.atn E.full st γ0 u cs)
    (hkeep : ∀ c ∈ cs, c.alt = 1 ∨ (!c.suppressed && Dict.get c.state (statesFromAlt1 E.prec cs) == some c.ctx) = false) :
    SInv E.atn E.full st γ0 u (precedenceFilter E cs) := by
  have hev : ∀ c ∈ cs, evalPrecedence E.prec c.sem = some none := by
    intro c hc
    rw [evalPrecedence, hp, semTrue_of_ok (h.all c hc).1.sem]; rfl
  have hR : ∀ c d : PConfig, CInv E.atn E.full st γ0 u d ∧ atStop E.atn d = false →
      CInv E.atn E.full st γ0 u c ∧ atStop E.atn c = false → d.state = c.state → d.alt = c.alt → d.sem = c.sem →
      CInv E.atn E.full st γ0 u { d with ctx := mergeCtx (!E.full) d.ctx c.ctx, suppressed := d.suppressed || c.suppressed } ∧
        atStop E.atn { d with ctx := mergeCtx (!E.full) d.ctx c.ctx, suppressed := d.suppressed || c.suppressed } = false :=
    fun c d hd hc h1 h2 _ => ⟨CInv.merge G hd.1 hc.1 h1 h2 _, hd.2⟩
  refine ⟨?_, ?_⟩
  · unfold precedenceFilter
    apply foldl_all (R := fun x => CInv E.atn E.full st γ0 u x ∧ atStop E.atn x = false)
    · intro acc c hc hacc
      split
      · exact hacc
      · split
        · exact hacc
        · exact addConfig_all hR (h.all c hc) hacc
    · apply foldl_all (R := fun x => CInv E.atn E.full st γ0 u x ∧ atStop E.atn x = false)
      · intro acc c hc hacc
        have hci := h.all c hc
        split
        · rw [hev c hc]
          exact addConfig_all (c := { c with sem := none }) hR ⟨⟨hci.1.typed, hci.1.alt, trivial, hci.1.exact⟩, hci.2⟩ hacc
        · exact hacc
      · intro x hx; cases hx
  · intro i t w hv
    obtain ⟨q, γ', ⟨c, hc, rfl, rfl, hγ⟩, h2⟩ := h.covers i t w hv
    refine ⟨c.state, γ', ?_, h2⟩
    unfold precedenceFilter
    have keep2 : ∀ (acc : List PConfig) (x : PConfig), Cov (!E.full) acc c.alt c.state γ' →
        Cov (!E.full) (if x.alt = 1 then acc
          else if (!x.suppressed && Dict.get x.state (statesFromAlt1 E.prec cs) == some x.ctx) = true then acc
          else addConfig E.full x acc) c.alt c.state γ' := by
      intro acc x hacc
      split
      · exact hacc
      · split
        · exact hacc
        · exact cov_add (Or.inl hacc)
    by_cases h1 : c.alt = 1
    · refine foldl_keep (P := fun acc => Cov (!E.full) acc c.alt c.state γ') _ _ keep2 _ ?_
      refine foldl_get (P := fun acc => Cov (!E.full) acc c.alt c.state γ') _ hc ?_ ?_ _
      · intro acc x hacc
        split
        · split
          · exact hacc
          · exact cov_add (Or.inl hacc)
        · exact hacc
      · intro acc
        rw [if_pos h1, hev c hc]
        exact cov_add (Or.inr ⟨rfl, rfl, hγ⟩)
    · refine foldl_get (P := fun acc => Cov (!E.full) acc c.alt c.state γ') _ hc keep2 ?_ _
      intro acc
      rcases hkeep c hc with hk | hk
      · exact absurd hk h1
      · rw [if_neg h1, if_neg (by rw [hk]; simp)]
        exact cov_add (Or.inr ⟨rfl, rfl, hγ⟩)

theorem ctxOf_has {stack : List Nat} {γ : List Nat} : (ctxOf A stack).Has false γ ↔ γ = stack.map (followOf A) := by
  induction stack generalizing γ with
  | nil => simp [ctxOf, PCtx.Has]
  | cons s ss ih =>
    simp only [ctxOf, PCtx.Has, List.map_cons, or_false]
    constructor
    · rintro ⟨γ', rfl, h⟩; rw [ih.1 h]
    · intro h; exact ⟨_, h, ih.2 rfl⟩

theorem ctxOf_typed {stack : List Nat} {r : Int} (h : TypedStack A r (stack.map (followOf A))) :
    (ctxOf A stack).Typed (follows A) (ruleOf A) false r := by
  induction stack generalizing r with
  | nil => exact Or.inr h
  | cons s ss ih => exact ⟨h.1, ih h.2, trivial, rfl⟩

/-- the environment of the cached stage of a decision -/
def sllEnv (A : Atn) (st : AState) : PEnv := ⟨A, false, false, if isPrecDecision A st then some st.rule else none, 0⟩

/-- the start state of a decision -/
def sllStart (A : Atn) (st : AState) : List PConfig :=
  if isPrecDecision A st then precedenceFilter (sllEnv A st) (startConfigs (sllEnv A st) st .dollar)
  else startConfigs (sllEnv A st) st .dollar

/-- What is used of a decision. -/
structure GoodDecision (A : Atn) (p0 : Nat) (st : AState) : Prop where
  at_ : A.states[p0]? = some st
  inner : p0 ≠ 26
  targets : ∀ q i, (q, i) ∈ altTargets st → ATrans.epsilon q ∈ st.trans
  keep : isPrecDecision A st = true → ∀ c ∈ startConfigs (sllEnv A st) st .dollar,
    c.alt = 1 ∨ (!c.suppressed && Dict.get c.state (statesFromAlt1 0 (startConfigs (sllEnv A st) st .dollar)) == some c.ctx) = false

/-- `adaptivePredict` with a sound cache chooses the lowest viable alternative and leaves the cache sound. -/
theorem adaptivePredict_correct (G : Good A rk) {p0 : Nat} (hD : GoodDecision A p0 st) {stack : List Nat}
    (hts : TypedStack A st.rule (stack.map (followOf A))) {ts : List Int} (ht : ∀ t ∈ ts, t ≠ -1) (rec : Recover) {d : PDfa}
    (hd : DSound (sllEnv A st) st.trans.length (sllStart A st) d) :
    Correct A st (stack.map (followOf A)) (ts ++ [-1]) (adaptivePredict A rec p0 0 stack ts d).1 ∧
    DSound (sllEnv A st) st.trans.length (sllStart A st) (adaptivePredict A rec p0 0 stack ts d).2 := by
  have hstart : SInv A false st (stack.map (followOf A)) [] (startConfigs (sllEnv A st) st .dollar) :=
    start_inv (E := sllEnv A st) G rfl rfl hD.at_ hD.inner hD.targets (Or.inl rfl) (Or.inl rfl) hts
      (by intro h; cases h)
  have hsll : SInv A false st (stack.map (followOf A)) [] (sllStart A st) := by
    unfold sllStart
    split
    next hi => exact filter_inv (E := sllEnv A st) G rfl hstart (hD.keep hi)
    · exact hstart
  have hfull : Correct A st (stack.map (followOf A)) ([] ++ (ts ++ [-1]))
      (execFull ⟨A, true, false, if isPrecDecision A st then some st.rule else none, 0⟩ rec ts
        (startConfigs ⟨A, true, false, if isPrecDecision A st then some st.rule else none, 0⟩ st (ctxOf A stack))) := by
    refine execFull_correct (E := ⟨A, true, false, if isPrecDecision A st then some st.rule else none, 0⟩) G rfl rfl rec
      ts _ [] ?_ ht
    exact start_inv (E := ⟨A, true, false, if isPrecDecision A st then some st.rule else none, 0⟩) G rfl rfl hD.at_ hD.inner
      hD.targets (ctxOf_typed hts) (ctxOf_has.2 rfl) hts (fun _ γ h => ctxOf_has.1 h)
  have hkey : (if isPrecDecision A st = true then (0 : Int) else 0) = 0 := ite_self _
  unfold adaptivePredict
  rw [hD.at_]
  simp only [hkey]
  cases hg : Dict.get (0 : Int) d.starts with
  | some s0 =>
    simp only
    have := hd.start s0 hg
    subst this
    exact execSll_correct (E := sllEnv A st) G rfl rec ts (sllStart A st) [] d hfull hsll ht hd
  | none =>
    simp only
    refine execSll_correct (E := sllEnv A st) G rfl rec ts (sllStart A st) [] _ hfull hsll ht ⟨?_, hd.edge⟩
    intro s hs
    simp only [Dict.get_set_self] at hs
    exact (Option.some.inj hs).symm

end Verif.PSim
