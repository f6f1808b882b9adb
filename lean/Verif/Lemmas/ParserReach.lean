import Verif.Lemmas.ParserCover
/-!
# The sets of configurations during a prediction
-/

namespace Verif.PSim

/-- alternative `i` of the decision in state `st` can be continued with exactly the tokens `w` -/
def Viable (A : Atn) (st : AState) (γ0 : List Nat) (i : Nat) (w : List Int) : Prop :=
  ∃ q, (q, i) ∈ altTargets st ∧ AtnAccepts A q γ0 w

/-- a number of an alternative -/
def IsAlt (st : AState) (i : Nat) : Prop := ∃ q, (q, i) ∈ altTargets st

def SemOk : Option Int → Prop
  | none => True
  | some k => 0 ≤ k

theorem semOk_and {a : Option Int} {k : Int} (ha : SemOk a) (hk : 0 ≤ k) : SemOk (andSem a (some k)) := by
  cases a with
  | none => exact hk
  | some x => show 0 ≤ min x k; have : 0 ≤ x := ha; omega

/-- What holds of every configuration after the tokens `u`. -/
structure CInv (A : Atn) (full : Bool) (st : AState) (γ0 : List Nat) (u : List Int) (c : PConfig) : Prop where
  typed : c.TypedCtx A (!full)
  alt : IsAlt st c.alt
  sem : SemOk c.sem
  exact : full = true → ∀ γ w, c.ctx.Has false γ → AtnAccepts A c.state γ w → Viable A st γ0 c.alt (u ++ w)

variable {A : Atn} {rk : Nat → Nat} {full : Bool} {st : AState} {γ0 : List Nat} {u : List Int}

theorem CInv.merge (G : Good A rk) {c d : PConfig} (hd : CInv A full st γ0 u d) (hc : CInv A full st γ0 u c)
    (h1 : d.state = c.state) (h2 : d.alt = c.alt) (b : Bool) :
    CInv A full st γ0 u { d with ctx := mergeCtx (!full) d.ctx c.ctx, suppressed := b } := by
  refine ⟨?_, hd.alt, hd.sem, ?_⟩
  · have := hc.typed
    rw [PConfig.TypedCtx, ← h1] at this
    exact typed_mergeCtx G.no_follow hd.typed this
  · intro hf γ w hγ ha
    rw [hf] at hγ
    rcases of_has_mergeCtx _ _ _ hγ with h | h
    · exact hd.exact hf γ w h ha
    · show Viable A st γ0 d.alt (u ++ w)
      rw [h2]
      refine hc.exact hf γ w h ?_
      rw [← h1]; exact ha

theorem CInv.succ {E : PEnv} (G : Good E.atn rk) {c c' : PConfig} (hc : CInv E.atn E.full st γ0 u c) (h : Succ E c c') :
    CInv E.atn E.full st γ0 u c' := by
  refine ⟨typed_succ G hc.typed h, ?_, ?_, ?_⟩
  · cases h <;> exact hc.alt
  · cases h with
    | silent _ _ _ hs =>
      rcases hs with rfl | ⟨k, hk, rfl⟩
      · exact hc.sem
      · exact semOk_and hc.sem hk
    | _ => exact hc.sem
  · intro hf γ w hγ ha
    cases h with
    | silent hst hm hs _ => exact hc.exact hf γ w hγ (.silent hst hm hs ha)
    | call hst hm =>
      rcases hγ with ⟨γ', rfl, hγ⟩ | hγ
      · exact hc.exact hf γ' w hγ (.call hst hm ha)
      · exact hγ.elim
    | @pop st' r p hst hs he =>
      refine hc.exact hf (r :: γ) w ?_ (.ret hst hs ha)
      have : ∀ x : PCtx, x.Entry r p → x.Has false (r :: γ) := by
        intro x
        induction x with
        | nil => intro h; exact h.elim
        | dollar => intro h; exact h.elim
        | cons f y rest _ ih =>
          rintro (⟨rfl, rfl⟩ | h)
          · exact Or.inl ⟨γ, rfl, hγ⟩
          · exact Or.inr (ih h)
      exact this _ he
    | follow _ _ hf' => rw [hf] at hf'; cases hf'

/-- a set of configurations that misses nothing after the tokens `u` -/
def Covers (A : Atn) (full : Bool) (st : AState) (γ0 : List Nat) (u : List Int) (cs : List PConfig) : Prop :=
  ∀ i t w, Viable A st γ0 i (u ++ t :: w) →
    ∃ q γ', Cov (!full) cs i q γ' ∧ TypedStack A (ruleOf A q) γ' ∧ TokAcc A q γ' t w

/-- a set of configurations in the course of a prediction -/
structure SInv (A : Atn) (full : Bool) (st : AState) (γ0 : List Nat) (u : List Int) (cs : List PConfig) : Prop where
  all : ∀ c ∈ cs, CInv A full st γ0 u c ∧ atStop A c = false
  covers : Covers A full st γ0 u cs

theorem foldl_all {α : Type} {R : PConfig → Prop} (f : List PConfig → α → List PConfig) : ∀ (l : List α),
    (∀ acc, ∀ a ∈ l, (∀ x ∈ acc, R x) → ∀ x ∈ f acc a, R x) → ∀ acc, (∀ x ∈ acc, R x) → ∀ x ∈ l.foldl f acc, R x := by
  intro l
  induction l with
  | nil => intro _ acc h; exact h
  | cons a l ih =>
    intro hf acc h
    rw [List.foldl_cons]
    exact ih (fun acc b hb => hf acc b (List.mem_cons_of_mem _ hb)) _ (hf acc a List.mem_cons_self h)

theorem foldl_keep {α β : Type} {P : β → Prop} (f : β → α → β) : ∀ (l : List α),
    (∀ acc a, P acc → P (f acc a)) → ∀ acc, P acc → P (l.foldl f acc) := by
  intro l
  induction l with
  | nil => intro _ acc h; exact h
  | cons a l ih => intro hf acc h; rw [List.foldl_cons]; exact ih hf _ (hf acc a h)

theorem foldl_get {α β : Type} {P : β → Prop} (f : β → α → β) {l : List α} {a : α} (ha : a ∈ l)
    (hk : ∀ acc a, P acc → P (f acc a)) (h : ∀ acc, P (f acc a)) (acc : β) : P (l.foldl f acc) := by
  obtain ⟨s, t, rfl⟩ := List.append_of_mem ha
  rw [List.foldl_append, List.foldl_cons]
  exact foldl_keep f t hk _ (h _)

/-- the configurations of a closure from a configuration within the automaton -/
theorem closure_inv {E : PEnv} (G : Good E.atn rk) (he : E.eofEps = false) {n : Nat} {c : PConfig} {col : Bool} {d : Int}
    {acc : List PConfig} (hc : CInv E.atn E.full st γ0 u c) (hi : c.state ≠ 1 ∧ c.state ≠ 26)
    (hacc : ∀ x ∈ acc, CInv E.atn E.full st γ0 u x ∧ atStop E.atn x = false) :
    ∀ x ∈ closure E n c col d acc, CInv E.atn E.full st γ0 u x ∧ atStop E.atn x = false := by
  refine closure_all G he (Q := fun c => CInv E.atn E.full st γ0 u c ∧ c.state ≠ 1 ∧ c.state ≠ 26)
    (R := fun x => CInv E.atn E.full st γ0 u x ∧ atStop E.atn x = false) ?_ ?_ ?_ n c col d acc ⟨hc, hi⟩ hacc
  · intro c d hd hc h1 h2 _
    exact ⟨CInv.merge G hd.1 hc.1 h1 h2 _, hd.2⟩
  · intro c c' hc hs
    exact ⟨CInv.succ G hc.1 hs, inner_succ G hc.1.typed hc.2 hs⟩
  · intro c c' col d hc ha
    obtain ⟨rfl, h⟩ := add_inner G hc.1.typed hc.2.1 ha
    exact ⟨hc.1, h⟩

theorem mem_altTargets {st : AState} {q i : Nat} (h : (q, i) ∈ altTargets st) : 1 ≤ i ∧ i ≤ st.trans.length := by
  simp only [altTargets, List.mem_filterMap] at h
  obtain ⟨⟨t, j⟩, hm, h⟩ := h
  have := List.mem_zipIdx hm
  simp only at h
  split at h
  · simp only [Option.some.injEq, Prod.mk.injEq] at h; omega
  · cases h

/-- the start of a prediction -/
theorem start_inv {E : PEnv} (G : Good E.atn rk) (he : E.eofEps = false) (hp : E.prec = 0) {p0 : Nat}
    (hst : E.atn.states[p0]? = some st) (hne : p0 ≠ 26) {ctx : PCtx}
    (htar : ∀ q i, (q, i) ∈ altTargets st → ATrans.epsilon q ∈ st.trans)
    (hty : ctx.Typed (follows E.atn) (ruleOf E.atn) (!E.full) st.rule) (hγ : ctx.Has (!E.full) γ0)
    (hts : TypedStack E.atn st.rule γ0) (hex : E.full = true → ∀ γ, ctx.Has false γ → γ = γ0) :
    SInv E.atn E.full st γ0 [] (startConfigs E st ctx) := by
  have hq : ∀ q i, (q, i) ∈ altTargets st → rk q < rk p0 ∧ ruleOf E.atn q = st.rule ∧ q ≠ 26 ∧ (q = 1 → p0 = 26) :=
    fun q i h => G.silent hst (htar q i h) rfl
  have hci : ∀ q i, (q, i) ∈ altTargets st → CInv E.atn E.full st γ0 [] ⟨q, i, ctx, none, false⟩ := by
    intro q i h
    refine ⟨?_, ⟨q, h⟩, trivial, ?_⟩
    · show PCtx.Typed _ _ _ (ruleOf E.atn q) ctx
      rw [(hq q i h).2.1]; exact hty
    · intro hf γ w hγ' ha
      have := hex hf γ hγ'; subst this
      exact ⟨q, h, ha⟩
  refine ⟨?_, ?_⟩
  · unfold startConfigs
    apply foldl_all (R := fun x => CInv E.atn E.full st γ0 [] x ∧ atStop E.atn x = false)
    · rintro acc ⟨q, i⟩ hm h
      exact closure_inv G he (hci q i hm) ⟨fun e => hne ((hq q i hm).2.2.2 e), (hq q i hm).2.2.1⟩ h
    · intro x hx; cases hx
  · rintro i t w ⟨q, hm, ha⟩
    unfold startConfigs
    refine foldl_get (P := fun acc => ∃ q γ', Cov (!E.full) acc i q γ' ∧ TypedStack E.atn (ruleOf E.atn q) γ' ∧
        TokAcc E.atn q γ' t w) _ hm ?_ ?_ _
    · rintro acc ⟨q', j⟩ ⟨p, γ', h1, h2⟩
      exact ⟨p, γ', cov_closure _ _ _ _ _ h1, h2⟩
    · intro acc
      refine cover G he hp _ ⟨q, i, ctx, none, false⟩ true 0 acc γ0 t w (G.rk_lt q) (hci q i hm).typed hγ ?_ ha
      show TypedStack _ (ruleOf E.atn q) _
      rw [(hq q i hm).2.1]; exact hts

/-- the configurations after a token -/
theorem mid_inv (G : Good A rk) {t : Int} {cs : List PConfig} (h : ∀ c ∈ cs, CInv A full st γ0 u c) :
    ∀ x ∈ intermediate A full t cs, CInv A full st γ0 (u ++ [t]) x ∧ x.state ≠ 1 ∧ (x.state = 26 ↔ t = -1) := by
  unfold intermediate
  apply foldl_all (R := fun x => CInv A full st γ0 (u ++ [t]) x ∧ x.state ≠ 1 ∧ (x.state = 26 ↔ t = -1))
  · intro acc c hc hacc
    have hci := h c hc
    split
    · exact hacc
    next s hs =>
      split
      · exact hacc
      · apply foldl_all (R := fun x => CInv A full st γ0 (u ++ [t]) x ∧ x.state ≠ 1 ∧ (x.state = 26 ↔ t = -1))
        · intro acc tr htr hacc
          split
          next q hq =>
            have hG := G.tok hs htr hq
            refine addConfig_all ?_ ?_ hacc
            · intro c d hd hc h1 h2 _
              exact ⟨CInv.merge G hd.1 hc.1 h1 h2 _, hd.2⟩
            · refine ⟨⟨?_, hci.alt, hci.sem, ?_⟩, hG.2.1, hG.2.2⟩
              · show PCtx.Typed _ _ _ (ruleOf A q) c.ctx
                rw [hG.1, ← ruleOf_eq hs]; exact hci.typed
              · intro hf γ w hγ ha
                have := hci.exact hf γ (t :: w) hγ (.tok hs htr hq ha)
                rw [List.append_assoc]; exact this
          · exact hacc
        · exact hacc
  · intro x hx; cases hx

theorem mid_cov (G : Good A rk) {t : Int} {cs : List PConfig} {i q : Nat} {γ : List Nat} {w : List Int}
    (h : Cov (!full) cs i q γ) (hs : TypedStack A (ruleOf A q) γ) (ht : TokAcc A q γ t w) :
    ∃ q', Cov (!full) (intermediate A full t cs) i q' γ ∧ TypedStack A (ruleOf A q') γ ∧ AtnAccepts A q' γ w := by
  obtain ⟨s, tr, q', hst, htr, hq, ha⟩ := ht
  refine ⟨q', ?_, by rw [(G.tok hst htr hq).1, ← ruleOf_eq hst]; exact hs, ha⟩
  obtain ⟨c, hc, rfl, rfl, hγ⟩ := h
  have hns : s.isRuleStop = false := by
    cases e : s.isRuleStop with
    | false => rfl
    | true => rw [(G.stop hst e).1] at htr; simp at htr
  unfold intermediate
  refine foldl_get (P := fun acc => Cov (!full) acc c.alt q' γ) _ hc ?_ ?_ _
  · intro acc x hacc
    split
    · exact hacc
    · split
      · exact hacc
      · refine foldl_keep (P := fun acc => Cov (!full) acc c.alt q' γ) _ _ ?_ _ hacc
        intro acc tr' hacc
        split
        · exact cov_add (Or.inl hacc)
        · exact hacc
  · intro acc
    simp only [hst, hns, Bool.false_eq_true, if_false]
    refine foldl_get (P := fun acc => Cov (!full) acc c.alt q' γ) _ htr ?_ ?_ _
    · intro acc tr' hacc
      split
      · exact cov_add (Or.inl hacc)
      · exact hacc
    · intro acc
      simp only [hq]
      exact cov_add (Or.inr ⟨rfl, rfl, hγ⟩)

theorem skipped_nil {full : Bool} {cs : List PConfig} (h : ∀ c ∈ cs, atStop A c = false) (b : Bool) :
    (if b then cs.filter (atStop A) else []) = [] := by
  split
  · rw [List.filter_eq_nil_iff]; intro c hc; simp [h c hc]
  · rfl

/-- the set after a token that is not the last -/
theorem reach_step {E : PEnv} (G : Good E.atn rk) (hp : E.prec = 0) {t : Int} (ht : t ≠ -1) {cs : List PConfig}
    (h : SInv E.atn E.full st γ0 u cs) :
    (∀ i t' w, Viable E.atn st γ0 i (u ++ t :: t' :: w) → ∃ c ∈ reachSet E t cs, c.alt = i) ∧
    (∀ c ∈ reachSet E t cs, IsAlt st c.alt ∧ SemOk c.sem) ∧
    (uniqueAlt (reachSet E t cs) = none → SInv E.atn E.full st γ0 (u ++ [t]) (reachSet E t cs)) := by
  have hmid := mid_inv (t := t) G (fun c hc => (h.all c hc).1)
  have hsk := skipped_nil (full := E.full) (fun c hc => (h.all c hc).2) (E.full || t == -1)
  have hteq : (t == -1) = false := by simpa using ht
  have hcov : ∀ i t' w, Viable E.atn st γ0 i (u ++ t :: t' :: w) →
      ∃ q' γ, Cov (!E.full) (intermediate E.atn E.full t cs) i q' γ ∧ TypedStack E.atn (ruleOf E.atn q') γ ∧
        AtnAccepts E.atn q' γ (t' :: w) := by
    intro i t' w hv
    obtain ⟨q, γ', h1, h2, h3⟩ := h.covers i t (t' :: w) hv
    obtain ⟨q', h4⟩ := mid_cov G h1 h2 h3
    exact ⟨q', γ', h4⟩
  have heq : reachSet E t cs = if (uniqueAlt (intermediate E.atn E.full t cs)).isSome then intermediate E.atn E.full t cs
      else (intermediate E.atn E.full t cs).foldl (fun acc c =>
        closure { E with eofEps := t == -1 } (closureFuel E.atn) c false 0 acc) [] := by
    unfold reachSet
    simp only [hsk]
    simp only [hteq, bne, List.foldl_nil, List.isEmpty_nil, Bool.not_false, Bool.true_and, Bool.and_true,
      Bool.false_eq_true, if_false, ite_self]
  rw [heq]
  split
  next hu =>
    refine ⟨?_, ?_, ?_⟩
    · intro i t' w hv
      obtain ⟨q', γ, ⟨c, hc, h1, _⟩, _⟩ := hcov i t' w hv
      exact ⟨c, hc, h1⟩
    · intro c hc; exact ⟨(hmid c hc).1.alt, (hmid c hc).1.sem⟩
    · intro hn; rw [hn] at hu; cases hu
  next hu =>
    rw [hteq]
    have hs : SInv E.atn E.full st γ0 (u ++ [t]) ((intermediate E.atn E.full t cs).foldl (fun acc c =>
        closure { E with eofEps := false } (closureFuel E.atn) c false 0 acc) []) := by
      refine ⟨?_, ?_⟩
      · apply foldl_all (R := fun x => CInv E.atn E.full st γ0 (u ++ [t]) x ∧ atStop E.atn x = false)
        · intro acc c hc hacc
          have hm := hmid c hc
          exact closure_inv (E := { E with eofEps := false }) G rfl hm.1 ⟨hm.2.1, fun e => ht (hm.2.2.1 e)⟩ hacc
        · intro x hx; cases hx
      · intro i t' w hv
        rw [List.append_assoc] at hv
        obtain ⟨q', γ, ⟨c, hc, h1, h2, h3⟩, h4, h5⟩ := hcov i t' w hv
        subst h1 h2
        refine foldl_get (P := fun acc => ∃ q γ', Cov (!E.full) acc c.alt q γ' ∧ TypedStack E.atn (ruleOf E.atn q) γ' ∧
          TokAcc E.atn q γ' t' w) _ hc ?_ ?_ _
        · rintro acc x ⟨p, γ', h1, h2⟩
          exact ⟨p, γ', cov_closure (E := { E with eofEps := false }) _ _ _ _ _ h1, h2⟩
        · intro acc
          exact cover (E := { E with eofEps := false }) G rfl hp _ c false 0 acc γ t' w (G.rk_lt _)
            (hmid c hc).1.typed h3 h4 h5
    refine ⟨?_, ?_, fun _ => hs⟩
    · intro i t' w hv
      obtain ⟨q, γ', ⟨c, hc, h1, _⟩, _⟩ := hs.covers i t' w (by rw [List.append_assoc]; exact hv)
      exact ⟨c, hc, h1⟩
    · intro c hc; exact ⟨(hs.all c hc).1.alt, (hs.all c hc).1.sem⟩

/-- the closure after the end of the input -/
theorem closure_eof {E : PEnv} (G : Good E.atn rk) {c : PConfig} (hc : c.state = 26) {n : Nat} {acc : List PConfig} :
    (c.ctx = .dollar → ∃ b, closure E (n + 2) c false 0 acc = addConfig E.full { c with state := 1, suppressed := b } acc) ∧
    (c.ctx = .nil → closure E (n + 2) c false 0 acc = acc) := by
  obtain ⟨s26, h26, htr, hns, _, h10⟩ := G.last
  obtain ⟨s1, h1, hs1, hr1⟩ := G.final
  have hdrop : canDrop E.atn c s26 = false := by
    unfold canDrop
    rw [if_neg]
    simp [h10]
  have hstep : closure E (n + 2) c false 0 acc = closure E (n + 1) { c with state := 1 } false 0 acc := by
    rw [closure_succ]
    have : acts E c false 0 = [Act.go { c with state := 1 } false 0] := by
      simp only [acts, hc, h26, hns, Bool.false_eq_true, if_false, stepActs, hdrop, edgesOf, htr]
      rfl
    rw [this]; rfl
  constructor
  · intro hx
    refine ⟨c.suppressed, ?_⟩
    rw [hstep, closure_succ]
    have : acts E { c with state := 1 } false 0 = [Act.add { c with state := 1 }] := by
      simp only [acts, h1, hs1, if_true]
      rw [hx]
      simp only [popActs]
      split
      · rw [← hx]
      · have hf : followEdges E.atn s1.rule = [] := by rw [hr1]; exact follows_eq_nil.1 G.no_follow
        simp only [stepActs, edgesOf, hs1, if_true, hf, List.drop_nil, ite_self]
        rfl
    rw [this]; rfl
  · intro hx
    rw [hstep, closure_succ]
    have : acts E { c with state := 1 } false 0 = [] := by
      simp only [acts, h1, hs1, if_true]
      rw [hx]; rfl
    rw [this]; rfl

/-- a configuration at the end of the input -/
def Final (A : Atn) (full : Bool) (st : AState) (γ0 : List Nat) (u : List Int) (c : PConfig) : Prop :=
  c.state = 1 ∧ c.ctx = .dollar ∧ IsAlt st c.alt ∧ SemOk c.sem ∧ (full = true → Viable A st γ0 c.alt u)

theorem addConfig_final {b : Bool} {γ1 : List Nat} {v : List Int} {c : PConfig} {acc : List PConfig}
    (hc : Final A full st γ1 v c) (hacc : ∀ x ∈ acc, Final A full st γ1 v x) :
    ∀ x ∈ addConfig b c acc, Final A full st γ1 v x := by
  refine addConfig_all ?_ hc hacc
  rintro c d ⟨hd1, hd2, hd3⟩ ⟨hc1, hc2, hc3⟩ _ _ _
  refine ⟨hd1, ?_, hd3⟩
  show mergeCtx _ d.ctx c.ctx = _
  rw [hd2, hc2]
  simp [mergeCtx, PCtx.size, mergeRoot]

/-- the set after the end of the input -/
theorem reach_eof {E : PEnv} (G : Good E.atn rk) {cs : List PConfig} (h : SInv E.atn E.full st γ0 u cs) :
    (∀ i, Viable E.atn st γ0 i (u ++ [-1]) → ∃ c ∈ reachSet E (-1) cs, c.alt = i) ∧
    (∀ c ∈ reachSet E (-1) cs, Final E.atn E.full st γ0 (u ++ [-1]) c) := by
  have hmid := mid_inv (t := -1) G (fun c hc => (h.all c hc).1)
  have hsk := skipped_nil (full := E.full) (fun c hc => (h.all c hc).2) true
  obtain ⟨s26, h26, htr, hns, hr26, h10⟩ := G.last
  obtain ⟨s1, h1, hs1, hr1⟩ := G.final
  have hfuel : ∃ n, closureFuel E.atn = n + 2 := by
    have : 26 < E.atn.states.length := by
      rw [List.getElem?_eq_some_iff] at h26; exact h26.1
    exact ⟨E.atn.states.length - 1, by unfold closureFuel; omega⟩
  obtain ⟨n, hn⟩ := hfuel
  have hctx : ∀ c ∈ intermediate E.atn E.full (-1) cs, c.state = 26 ∧ (c.ctx = .nil ∨ c.ctx = .dollar) := by
    intro c hc
    have hm := hmid c hc
    have h26' := hm.2.2.2 rfl
    refine ⟨h26', ?_⟩
    have ht := hm.1.typed
    rw [PConfig.TypedCtx, h26', ruleOf_eq h26, hr26] at ht
    exact PCtx.typed_nofollow ht G.no_follow
  have hall : ∀ x ∈ (intermediate E.atn E.full (-1) cs).foldl (fun acc c =>
      closure { E with eofEps := true } (closureFuel E.atn) c false 0 acc) [],
      Final E.atn E.full st γ0 (u ++ [-1]) x := by
    apply foldl_all (R := Final E.atn E.full st γ0 (u ++ [-1]))
    · intro acc c hc hacc
      have hm := (hmid c hc).1
      have hcl := closure_eof (E := { E with eofEps := true }) G (hctx c hc).1 (n := n) (acc := acc)
      rw [hn]
      rcases (hctx c hc).2 with hx | hx
      · rw [hcl.2 hx]; exact hacc
      · obtain ⟨b, hb⟩ := hcl.1 hx
        rw [hb]
        refine addConfig_final ⟨rfl, hx, hm.alt, hm.sem, ?_⟩ hacc
        intro hf
        have := hm.exact hf [] [] (by rw [hx]; exact Or.inr rfl)
          (by rw [(hctx c hc).1]; exact .silent h26 (by rw [htr]; exact List.mem_cons_self) rfl (.done h1 hs1))
        simpa using this
    · intro x hx; cases hx
  have heq : reachSet E (-1) cs = (intermediate E.atn E.full (-1) cs).foldl (fun acc c =>
      closure { E with eofEps := true } (closureFuel E.atn) c false 0 acc) [] := by
    have hfil : ((intermediate E.atn E.full (-1) cs).foldl (fun acc c =>
      closure { E with eofEps := true } (closureFuel E.atn) c false 0 acc) []).filter (atStop E.atn) =
        (intermediate E.atn E.full (-1) cs).foldl (fun acc c =>
      closure { E with eofEps := true } (closureFuel E.atn) c false 0 acc) [] := by
      rw [List.filter_eq_self]
      intro x hx
      have := hall x hx
      simp only [atStop, this.1, h1, hs1]
    rw [if_pos rfl] at hsk
    unfold reachSet
    simp only [hsk, beq_self_eq_true, Bool.or_true, if_true, List.foldl_nil, bne, Bool.not_true, Bool.and_false,
      Bool.false_and, Bool.false_eq_true, if_false, ite_self]
    exact hfil
  rw [heq]
  refine ⟨?_, hall⟩
  intro i hv
  obtain ⟨q, γ', hc1, hc2, hc3⟩ := h.covers i (-1) [] hv
  obtain ⟨q', ⟨c, hc, rfl, rfl, hγ⟩, h5, h6⟩ := mid_cov G hc1 hc2 hc3
  have hx : c.ctx = .dollar := by
    rcases (hctx c hc).2 with hx | hx
    · rw [hx] at hγ; exact hγ.elim
    · exact hx
  have : Cov (!E.full) ((intermediate E.atn E.full (-1) cs).foldl (fun acc c =>
      closure { E with eofEps := true } (closureFuel E.atn) c false 0 acc) []) c.alt 1 [] := by
    refine foldl_get (P := fun acc => Cov (!E.full) acc c.alt 1 []) _ hc ?_ ?_ _
    · intro acc x hacc
      exact cov_closure (E := { E with eofEps := true }) _ _ _ _ _ hacc
    · intro acc
      obtain ⟨b, hb⟩ := (closure_eof (E := { E with eofEps := true }) G (hctx c hc).1 (n := n) (acc := acc)).1 hx
      rw [hn, hb]
      exact cov_add (Or.inr ⟨rfl, rfl, by show c.ctx.Has _ _; rw [hx]; exact Or.inr rfl⟩)
  obtain ⟨x, hx, hx1, _⟩ := this
  exact ⟨x, hx, hx1⟩

end Verif.PSim
