import Verif.Lemmas.ParserClosure
/-!
# Closures miss nothing
-/

namespace Verif.PSim

theorem PCtx.has_cases {wild : Bool} {x : PCtx} {γ : List Nat} (h : x.Has wild γ) :
    (∃ r p γ', γ = r :: γ' ∧ x.Entry r p ∧ p.Has wild γ') ∨ (x.hasEmptyPath = true ∧ (wild = true ∨ γ = [])) := by
  induction x with
  | nil => exact h.elim
  | dollar => exact Or.inr ⟨rfl, h⟩
  | cons r p rest _ ih =>
    rcases h with ⟨γ', rfl, h⟩ | h
    · exact Or.inl ⟨r, p, γ', rfl, Or.inl ⟨rfl, rfl⟩, h⟩
    · rcases ih h with ⟨r', p', γ', h1, h2, h3⟩ | h
      · exact Or.inl ⟨r', p', γ', h1, Or.inr h2, h3⟩
      · exact Or.inr h

theorem PCtx.has_wild {x : PCtx} (h : x.hasEmptyPath = true) (γ : List Nat) : x.Has true γ := by
  induction x with
  | nil => cases h
  | dollar => exact Or.inl rfl
  | cons r p rest _ ih => exact Or.inr (ih h)

theorem PCtx.typed_entry {F : Int → List Nat} {ρ : Nat → Int} {wild : Bool} {r : Int} {x : PCtx} {f : Nat} {p : PCtx}
    (h : x.Typed F ρ wild r) (he : x.Entry f p) : f ∈ F r ∧ p.Typed F ρ wild (ρ f) := by
  induction x with
  | nil => exact he.elim
  | dollar => exact he.elim
  | cons r' p' rest _ ih =>
    rcases he with ⟨rfl, rfl⟩ | he
    · exact ⟨h.1, h.2.1⟩
    · exact ih h.2.2.1 he

theorem PCtx.typed_dollar {F : Int → List Nat} {ρ : Nat → Int} {wild : Bool} {r : Int} {x : PCtx}
    (h : x.Typed F ρ wild r) (he : x.hasEmptyPath = true) : PCtx.dollar.Typed F ρ wild r := by
  induction x with
  | nil => cases he
  | dollar => exact h
  | cons r' p' rest _ ih => exact ih h.2.2.1 he

theorem PCtx.typed_nofollow {F : Int → List Nat} {ρ : Nat → Int} {wild : Bool} {r : Int} {x : PCtx}
    (h : x.Typed F ρ wild r) (he : F r = []) : x = .nil ∨ x = .dollar := by
  cases x with
  | nil => exact Or.inl rfl
  | dollar => exact Or.inr rfl
  | cons r' p' rest => have := h.1; rw [he] at this; simp at this

theorem add_of_popActs' {E : PEnv} {c c' : PConfig} {st : AState} {col : Bool} {d : Int} : ∀ {x : PCtx},
    Act.add c' ∈ popActs E c st col d x → x.hasEmptyPath = true := by
  intro x
  induction x with
  | nil => intro h; simp [popActs] at h
  | dollar => intro _; rfl
  | cons r p rest _ ih =>
    intro h
    simp only [popActs, List.mem_cons] at h
    rcases h with h | h
    · cases h
    · exact ih h

variable {E : PEnv} {rk : Nat → Nat}

theorem typed_succ (G : Good E.atn rk) {c c' : PConfig} (hc : c.TypedCtx E.atn (!E.full)) (h : Succ E c c') :
    c'.TypedCtx E.atn (!E.full) := by
  unfold PConfig.TypedCtx at *
  cases h with
  | silent hst hm hs _ =>
    rw [ruleOf_eq hst] at hc
    show PCtx.Typed _ _ _ (ruleOf E.atn _) c.ctx
    rw [(G.silent hst hm hs).2.1]; exact hc
  | @call st q r k f hst hm =>
    rw [ruleOf_eq hst] at hc
    have := G.call hst hm
    exact ⟨this.2.2.1, by rw [this.2.1]; exact hc, trivial, rfl⟩
  | pop hst hs he => exact (PCtx.typed_entry hc he).2
  | follow hst hs hf hp hm =>
    show PCtx.Typed _ _ _ _ c.ctx
    rw [PCtx.eq_dollar hc hp]
    exact Or.inl (by rw [hf]; rfl)

/-- a closure does not reach the states of the end of the input -/
theorem inner_succ (G : Good E.atn rk) {c c' : PConfig} (ht : c.TypedCtx E.atn (!E.full))
    (hc : c.state ≠ 1 ∧ c.state ≠ 26) (h : Succ E c c') : c'.state ≠ 1 ∧ c'.state ≠ 26 := by
  cases h with
  | silent hst hm hs _ =>
    have := G.silent hst hm hs
    exact ⟨fun e => hc.2 (this.2.2.2 e), this.2.2.1⟩
  | call hst hm =>
    have := G.call hst hm
    exact ⟨this.2.2.2.2, this.2.2.2.1⟩
  | pop hst hs he =>
    have h1 := (PCtx.typed_entry ht he).1
    rw [ruleOf_eq hst] at h1
    have := G.follow hst hs h1
    exact ⟨this.2.2, this.2.1⟩
  | follow hst hs hf hp hm =>
    have := G.follow hst hs hm
    exact ⟨this.2.2, this.2.1⟩

theorem follows_eq_nil {A : Atn} {r : Int} : follows A r = [] ↔ followEdges A r = [] := by
  constructor
  · intro h
    cases e : followEdges A r with
    | nil => rfl
    | cons x xs =>
      obtain ⟨f, hf⟩ := followEdges_eps (A := A) (r := r) (e := x) (by rw [e]; exact List.mem_cons_self)
      have : f ∈ follows A r := mem_follows.2 ⟨x.2, by rw [e, ← hf]; exact List.mem_cons_self⟩
      rw [h] at this; simp at this
  · intro h; simp [follows, h]

/-- what a closure adds is not the end of a rule -/
theorem add_inner (G : Good E.atn rk) {c c' : PConfig} {col : Bool} {d : Int} (ht : c.TypedCtx E.atn (!E.full))
    (hc : c.state ≠ 1) (h : Act.add c' ∈ acts E c col d) : c' = c ∧ atStop E.atn c = false := by
  simp only [acts] at h
  split at h
  · simp at h
  next st hst =>
    split at h
    next hs =>
      exfalso
      rw [PConfig.TypedCtx, ruleOf_eq hst] at ht
      have hd : c.ctx = .dollar := by
        rcases add_of_popActs' h with h' 
        exact PCtx.eq_dollar ht h'
      rw [hd] at h ht
      simp only [popActs] at h
      split at h
      next hf =>
        rcases ht with hw | hw
        · rw [hf] at hw; cases hw
        · exact hc ((G.stop hst hs).2 hw)
      next hf =>
        simp only [stepActs, List.mem_append] at h
        rcases h with h | h
        · split at h
          · simp at h
          next hn =>
            apply hn
            rw [edgesOf, if_pos hs]
            have h1 := G.stop_follow hst hs hc
            have h2 : followEdges E.atn st.rule ≠ [] := fun e => h1 (follows_eq_nil.2 e)
            simp only [epsOnly, Bool.and_eq_true, Bool.not_eq_true', List.isEmpty_eq_false_iff, List.all_eq_true]
            refine ⟨h2, fun x hx => ?_⟩
            obtain ⟨f, hf⟩ := followEdges_eps hx
            rw [hf]; rfl
        · exact add_of_edgeActs h
    next hs =>
      exact ⟨add_of_stepActs h, by simp only [atStop, hst]; simpa using hs⟩

/-- the automaton can consume `t` in state `q` and then the rest -/
def TokAcc (A : Atn) (q : Nat) (γ : List Nat) (t : Int) (w : List Int) : Prop :=
  ∃ st tr q', A.states[q]? = some st ∧ tr ∈ st.trans ∧ tr.reachable t = some q' ∧ AtnAccepts A q' γ w

theorem PCtx.rets_of_entry {x : PCtx} {f : Nat} {p : PCtx} (h : x.Entry f p) : f ∈ x.rets := by
  induction x with
  | nil => exact h.elim
  | dollar => exact h.elim
  | cons r q rest _ ih =>
    rcases h with ⟨rfl, _⟩ | h
    · exact List.mem_cons_self
    · exact List.mem_cons_of_mem _ (ih h)

theorem canDrop_false (G : Good E.atn rk) {c : PConfig} (ht : c.TypedCtx E.atn (!E.full)) {γ : List Nat}
    (hγ : c.ctx.Has (!E.full) γ) {st : AState} (hst : E.atn.states[c.state]? = some st) : canDrop E.atn c st = false := by
  unfold canDrop
  split
  next h =>
    simp only [Bool.and_eq_true, beq_iff_eq, Bool.not_eq_true'] at h
    rcases PCtx.has_cases hγ with ⟨r, p, γ', _, he, _⟩ | ⟨he, _⟩
    · have h1 := (PCtx.typed_entry ht he).1
      rw [ruleOf_eq hst] at h1
      have h2 := G.loop hst h.1.1.1 h1
      have : (c.ctx.rets.all fun r => ruleOf E.atn r == st.rule) = false := by
        rw [List.all_eq_false]
        exact ⟨r, PCtx.rets_of_entry he, by simpa using h2⟩
      rw [this]; rfl
    · rw [he] at h; cases h.2
  · rfl

theorem popActs_entry {c : PConfig} {st : AState} {col : Bool} {d : Int} {f : Nat} {p : PCtx} : ∀ {x : PCtx},
    x.Entry f p → Act.go ⟨f, c.alt, p, c.sem, false⟩ col (d - 1) ∈ popActs E c st col d x := by
  intro x
  induction x with
  | nil => intro h; exact h.elim
  | dollar => intro h; exact h.elim
  | cons r q rest _ ih =>
    intro h
    rcases h with ⟨rfl, rfl⟩ | h
    · exact List.mem_cons_self
    · exact List.mem_cons_of_mem _ (ih h)

theorem edgeActs_mem {c c' : PConfig} {stop col : Bool} {d : Int} {es : List (ATrans × Int)} {t : ATrans} {o : Int}
    (hm : (t, o) ∈ es) (h : epsTarget E c (col && !ATrans.isAction t) (d == 0) t = some c') :
    ∃ b col' d', Act.go { c' with suppressed := b } col' d' ∈ edgeActs E c stop col d es := by
  cases hs : stop with
  | true =>
    refine ⟨c'.suppressed || E.precRule == some o, col && !ATrans.isAction t, d - 1, ?_⟩
    simp only [edgeActs, List.mem_flatMap]
    exact ⟨(t, o), hm, by simp [h]⟩
  | false =>
    refine ⟨c'.suppressed, col && !ATrans.isAction t,
      (if ATrans.isRule t && decide (0 ≤ d) then d + 1 else d), ?_⟩
    simp only [edgeActs, List.mem_flatMap]
    exact ⟨(t, o), hm, by simp [h]⟩

theorem stepActs_mem (G : Good E.atn rk) {c c' : PConfig} (ht : c.TypedCtx E.atn (!E.full)) {γ : List Nat}
    (hγ : c.ctx.Has (!E.full) γ) {st : AState} (hst : E.atn.states[c.state]? = some st) {col : Bool} {d : Int}
    {t : ATrans} {o : Int} (hm : (t, o) ∈ edgesOf E.atn st)
    (h : epsTarget E c (col && !ATrans.isAction t) (d == 0) t = some c') :
    ∃ b col' d', Act.go { c' with suppressed := b } col' d' ∈ stepActs E c st col d := by
  rw [stepActs, canDrop_false G ht hγ hst]
  obtain ⟨b, col', d', h⟩ := edgeActs_mem (stop := st.isRuleStop) (d := d) hm h
  exact ⟨b, col', d', List.mem_append_right _ h⟩

/-- Nothing the automaton can do next is missed by a closure. -/
theorem cover (G : Good E.atn rk) (he : E.eofEps = false) (hp : E.prec = 0) : ∀ (n : Nat) (c : PConfig) (col : Bool) (d : Int)
    (acc : List PConfig) (γ : List Nat) (t : Int) (w : List Int), rk c.state < n → c.TypedCtx E.atn (!E.full) →
    c.ctx.Has (!E.full) γ → TypedStack E.atn (ruleOf E.atn c.state) γ → AtnAccepts E.atn c.state γ (t :: w) →
    ∃ q γ', Cov (!E.full) (closure E n c col d acc) c.alt q γ' ∧ TypedStack E.atn (ruleOf E.atn q) γ' ∧
      TokAcc E.atn q γ' t w := by
  intro n
  induction n with
  | zero => intro c _ _ _ _ _ _ h; omega
  | succ n ih =>
    intro c col d acc γ t w hn ht hγ hs ha
    -- a step to `c'`
    have step : ∀ c' col' d' γ', Act.go c' col' d' ∈ acts E c col d → c'.alt = c.alt → rk c'.state < rk c.state →
        c'.TypedCtx E.atn (!E.full) → c'.ctx.Has (!E.full) γ' → TypedStack E.atn (ruleOf E.atn c'.state) γ' →
        AtnAccepts E.atn c'.state γ' (t :: w) →
        ∃ q γ', Cov (!E.full) (closure E (n + 1) c col d acc) c.alt q γ' ∧ TypedStack E.atn (ruleOf E.atn q) γ' ∧
          TokAcc E.atn q γ' t w := by
      intro c' col' d' γ' hg halt hr ht' hγ' hs' ha'
      refine cov_of_act (n := n) hg (P := fun acc => ∃ q γ', Cov (!E.full) acc c.alt q γ' ∧
        TypedStack E.atn (ruleOf E.atn q) γ' ∧ TokAcc E.atn q γ' t w) ?_ ?_ acc
      · rintro l acc ⟨q, δ, h1, h2⟩
        exact ⟨q, δ, cov_acts h1, h2⟩
      · intro acc
        have := ih c' col' d' acc γ' t w (by omega) ht' hγ' hs' ha'
        rw [halt] at this
        exact this
    generalize hpp : c.state = p at ha
    generalize htw : t :: w = v at ha
    cases ha with
    | done => cases htw
    | @ret _ st f γ1 _ hst hstop ha =>
      subst hpp htw
      rcases PCtx.has_cases hγ with ⟨r, x, γ', e, hent, hx⟩ | ⟨hemp, hw⟩
      · obtain ⟨rfl, rfl⟩ := List.cons.inj e
        have hte := PCtx.typed_entry ht hent
        refine step ⟨f, c.alt, x, c.sem, false⟩ col (d - 1) γ1 ?_ rfl ?_ hte.2 hx hs.2 ha
        · simp only [acts, hst, hstop, if_true]
          exact popActs_entry hent
        · rw [ruleOf_eq hst] at hte
          exact (G.follow hst hstop hte.1).1
      · have hfull : E.full = false := by
          rcases hw with hw | hw
          · simpa using hw
          · cases hw
        have hd := PCtx.eq_dollar ht hemp
        have hs1 := hs.1
        rw [ruleOf_eq hst] at hs1
        obtain ⟨o, ho⟩ := mem_follows.1 hs1
        have hed : (ATrans.epsilon f, o) ∈ edgesOf E.atn st := by rw [edgesOf, if_pos hstop]; exact ho
        obtain ⟨b, col', d', hg⟩ := stepActs_mem (c' := { c with state := f }) (col := col) (d := d) G ht hγ hst hed rfl
        refine step ⟨f, c.alt, c.ctx, c.sem, b⟩ col' d' γ1 ?_ rfl ?_ ?_ ?_ hs.2 ha
        · simp only [acts, hst, hstop, if_true]
          generalize hx : c.ctx = x at hd
          subst hd
          simp only [popActs, hfull, Bool.false_eq_true, if_false]
          rw [← hx]; exact hg
        · exact (G.follow hst hstop hs1).1
        · show PCtx.Typed _ _ _ _ c.ctx
          rw [hd]; exact Or.inl (by rw [hfull]; rfl)
        · show c.ctx.Has _ _
          rw [hd]; exact Or.inl (by rw [hfull]; rfl)
    | @silent _ st tr q _ _ hst hm hsil ha =>
      subst hpp htw
      have hns : st.isRuleStop = false := by
        cases e : st.isRuleStop with
        | false => rfl
        | true => rw [(G.stop hst e).1] at hm; simp at hm
      have hed : (tr, -1) ∈ edgesOf E.atn st := by
        rw [edgesOf, if_neg (by simp [hns])]; exact List.mem_map.2 ⟨tr, hm, rfl⟩
      have htar : ∃ s, epsTarget E c (col && !ATrans.isAction tr) (d == 0) tr = some { c with state := q, sem := s } := by
        cases tr with
        | epsilon q' => simp only [ATrans.silent, Option.some.injEq] at hsil; subst hsil; exact ⟨c.sem, rfl⟩
        | action q' x y => simp only [ATrans.silent, Option.some.injEq] at hsil; subst hsil; exact ⟨c.sem, rfl⟩
        | precedence q' k =>
          simp only [ATrans.silent] at hsil
          split at hsil
          next hk =>
            simp only [Option.some.injEq] at hsil; subst hsil
            simp only [epsTarget]
            split
            · split
              · rw [if_pos (by rw [hp]; exact hk)]; exact ⟨c.sem, rfl⟩
              · exact ⟨_, rfl⟩
            · exact ⟨c.sem, rfl⟩
          · cases hsil
        | _ => cases hsil
      obtain ⟨s, htar⟩ := htar
      obtain ⟨b, col', d', hg⟩ := stepActs_mem G ht hγ hst hed htar
      have hG := G.silent hst hm hsil
      refine step ⟨q, c.alt, c.ctx, s, b⟩ col' d' γ ?_ rfl hG.1 ?_ hγ ?_ ha
      · simp only [acts, hst, hns, Bool.false_eq_true, if_false]; exact hg
      · show PCtx.Typed _ _ _ (ruleOf E.atn q) c.ctx
        rw [hG.2.1, ← ruleOf_eq hst]; exact ht
      · show TypedStack _ (ruleOf E.atn q) _
        rw [hG.2.1, ← ruleOf_eq hst]; exact hs
    | @call _ st q r k f _ _ hst hm ha =>
      subst hpp htw
      have hns : st.isRuleStop = false := by
        cases e : st.isRuleStop with
        | false => rfl
        | true => rw [(G.stop hst e).1] at hm; simp at hm
      have hed : (ATrans.rule q r k f, -1) ∈ edgesOf E.atn st := by
        rw [edgesOf, if_neg (by simp [hns])]; exact List.mem_map.2 ⟨_, hm, rfl⟩
      obtain ⟨b, col', d', hg⟩ := stepActs_mem (col := col) (d := d) G ht hγ hst hed rfl
      have hG := G.call hst hm
      refine step ⟨q, c.alt, .cons f c.ctx .nil, c.sem, b⟩ col' d' (f :: γ) ?_ rfl hG.1 ?_ (Or.inl ⟨γ, rfl, hγ⟩) ?_ ha
      · simp only [acts, hst, hns, Bool.false_eq_true, if_false]; exact hg
      · refine ⟨hG.2.2.1, ?_, trivial, rfl⟩
        rw [hG.2.1, ← ruleOf_eq hst]; exact ht
      · refine ⟨hG.2.2.1, ?_⟩
        rw [hG.2.1, ← ruleOf_eq hst]; exact hs
    | @tok _ st tr t' q _ _ hst hm hre ha =>
      subst hpp
      obtain ⟨rfl, rfl⟩ := List.cons.inj htw
      have hns : st.isRuleStop = false := by
        cases e : st.isRuleStop with
        | false => rfl
        | true => rw [(G.stop hst e).1] at hm; simp at hm
      have hne : tr.isEpsilon = false := by
        cases tr <;> first | rfl | cases hre
      have hact : Act.add c ∈ acts E c col d := by
        simp only [acts, hst, hns, Bool.false_eq_true, if_false, stepActs]
        apply List.mem_append_left
        rw [if_neg]
        · exact List.mem_singleton.2 rfl
        · intro h
          simp only [epsOnly, Bool.and_eq_true, List.all_eq_true] at h
          have := h.2 (tr, -1) (by rw [edgesOf, if_neg (by simp [hns])]; exact List.mem_map.2 ⟨_, hm, rfl⟩)
          simp only [hne] at this; cases this
      refine ⟨c.state, γ, ?_, hs, st, tr, q, hst, hm, hre, ha⟩
      refine cov_of_act (n := n) hact (P := fun acc => Cov (!E.full) acc c.alt c.state γ) ?_ ?_ acc
      · intro l acc h; exact cov_acts h
      · intro acc; exact cov_add (Or.inr ⟨rfl, rfl, hγ⟩)

end Verif.PSim
