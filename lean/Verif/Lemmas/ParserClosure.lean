import Verif.Spec.Automaton
import Verif.Lemmas.ParserCtx
/-!
# Closures of configurations
-/

namespace Verif.PSim

/-- the states that follow a call of a rule -/
def follows (A : Atn) (r : Int) : List Nat :=
  (followEdges A r).filterMap fun (t, _) => match t with
    | .epsilon f => some f
    | _ => none

theorem followEdges_eps {A : Atn} {r : Int} {e : ATrans × Int} (h : e ∈ followEdges A r) : ∃ f, e.1 = .epsilon f := by
  simp only [followEdges, List.mem_flatMap] at h
  obtain ⟨st, _, t, _, h⟩ := h
  split at h
  · split at h
    · simp only [List.mem_singleton] at h; exact ⟨_, by rw [h]⟩
    · simp at h
  · simp at h

theorem mem_follows {A : Atn} {r : Int} {f : Nat} : f ∈ follows A r ↔ ∃ o, (ATrans.epsilon f, o) ∈ followEdges A r := by
  simp only [follows, List.mem_filterMap]
  constructor
  · rintro ⟨⟨t, o⟩, h, h'⟩
    obtain ⟨g, hg⟩ := followEdges_eps h
    simp only at hg; subst hg
    simp only [Option.some.injEq] at h'
    subst h'; exact ⟨o, h⟩
  · rintro ⟨o, h⟩
    exact ⟨_, h, rfl⟩

/-- What is used of the automaton; `rk` decreases along every step that consumes nothing.  State 1 is the end of rule 0, reached
from 26 only, and 26 is where EOF leads. -/
structure Good (A : Atn) (rk : Nat → Nat) : Prop where
  rk_lt : ∀ p, rk p < closureFuel A
  kinds : ∀ {p : Nat} {st : AState} {tr : ATrans}, A.states[p]? = some st → tr ∈ st.trans →
    (tr.isEpsilon = true → (tr.silent.isSome = true ∨ ∃ q r k f, tr = .rule q r k f)) ∧
    (tr.isEpsilon = false → tr.silent = none)
  silent : ∀ {p : Nat} {st : AState} {tr : ATrans} {q : Nat}, A.states[p]? = some st → tr ∈ st.trans → tr.silent = some q →
    rk q < rk p ∧ ruleOf A q = st.rule ∧ q ≠ 26 ∧ (q = 1 → p = 26)
  call : ∀ {p : Nat} {st : AState} {q : Nat} {r : Int} {k : Int} {f : Nat}, A.states[p]? = some st → ATrans.rule q r k f ∈ st.trans →
    rk q < rk p ∧ ruleOf A f = st.rule ∧ f ∈ follows A (ruleOf A q) ∧ q ≠ 26 ∧ q ≠ 1
  tok : ∀ {p : Nat} {st : AState} {tr : ATrans} {t : Int} {q : Nat}, A.states[p]? = some st → tr ∈ st.trans → tr.reachable t = some q →
    ruleOf A q = st.rule ∧ q ≠ 1 ∧ (q = 26 ↔ t = -1)
  stop : ∀ {p : Nat} {st : AState}, A.states[p]? = some st → st.isRuleStop = true → st.trans = [] ∧ (st.rule = 0 → p = 1)
  follow : ∀ {p : Nat} {st : AState} {f : Nat}, A.states[p]? = some st → st.isRuleStop = true → f ∈ follows A st.rule →
    rk f < rk p ∧ f ≠ 26 ∧ f ≠ 1
  stop_follow : ∀ {p : Nat} {st : AState}, A.states[p]? = some st → st.isRuleStop = true → p ≠ 1 → follows A st.rule ≠ []
  loop : ∀ {p : Nat} {st : AState} {f : Nat}, A.states[p]? = some st → st.type = 10 → f ∈ follows A st.rule → ruleOf A f ≠ st.rule
  no_follow : follows A 0 = []
  last : ∃ st, A.states[26]? = some st ∧ st.trans = [.epsilon 1] ∧ st.isRuleStop = false ∧ st.rule = 0 ∧ st.type ≠ 10
  final : ∃ st, A.states[1]? = some st ∧ st.isRuleStop = true ∧ st.rule = 0

/-- stacks that fit the rule they are used in -/
def TypedStack (A : Atn) : Int → List Nat → Prop
  | r, [] => r = 0
  | r, f :: γ => f ∈ follows A r ∧ TypedStack A (ruleOf A f) γ

abbrev PConfig.TypedCtx (A : Atn) (wild : Bool) (c : PConfig) : Prop :=
  c.ctx.Typed (follows A) (ruleOf A) wild (ruleOf A c.state)

theorem ruleOf_eq {A : Atn} {p : Nat} {st : AState} (h : A.states[p]? = some st) : ruleOf A p = st.rule := by
  simp [ruleOf, h]

/-- an entry of a context -/
def PCtx.Entry : PCtx → Nat → PCtx → Prop
  | .cons r p rest, r', p' => (r' = r ∧ p' = p) ∨ rest.Entry r' p'
  | _, _, _ => False

/-- one step of a closure -/
inductive Succ (E : PEnv) (c : PConfig) : PConfig → Prop
  | silent {st : AState} {tr : ATrans} {q : Nat} {s : Option Int} : E.atn.states[c.state]? = some st → tr ∈ st.trans →
      tr.silent = some q → (s = c.sem ∨ ∃ k, 0 ≤ k ∧ s = andSem c.sem (some k)) → Succ E c { c with state := q, sem := s }
  | call {st : AState} {q : Nat} {r k : Int} {f : Nat} : E.atn.states[c.state]? = some st → ATrans.rule q r k f ∈ st.trans →
      Succ E c { c with state := q, ctx := .cons f c.ctx .nil }
  | pop {st : AState} {r : Nat} {p : PCtx} : E.atn.states[c.state]? = some st → st.isRuleStop = true → c.ctx.Entry r p →
      Succ E c ⟨r, c.alt, p, c.sem, false⟩
  | follow {st : AState} {f : Nat} {b : Bool} : E.atn.states[c.state]? = some st → st.isRuleStop = true → E.full = false →
      c.ctx.hasEmptyPath = true → f ∈ follows E.atn st.rule → Succ E c { c with state := f, suppressed := b }

theorem epsTarget_spec {E : PEnv} {c c' : PConfig} {col ic : Bool} {tr : ATrans} (he : E.eofEps = false)
    (hk : tr.isEpsilon = true → (tr.silent.isSome = true ∨ ∃ q r k f, tr = .rule q r k f))
    (h : epsTarget E c col ic tr = some c') :
    (∃ q s, tr.silent = some q ∧ c' = { c with state := q, sem := s } ∧
      (s = c.sem ∨ ∃ k, 0 ≤ k ∧ s = andSem c.sem (some k))) ∨
    ∃ q r k f, tr = .rule q r k f ∧ c' = { c with state := q, ctx := .cons f c.ctx .nil } := by
  cases tr with
  | epsilon q => simp only [epsTarget, Option.some.injEq] at h; exact Or.inl ⟨q, c.sem, rfl, h.symm, Or.inl rfl⟩
  | action q a b => simp only [epsTarget, Option.some.injEq] at h; exact Or.inl ⟨q, c.sem, rfl, h.symm, Or.inl rfl⟩
  | rule q r k f => simp only [epsTarget, Option.some.injEq] at h; exact Or.inr ⟨q, r, k, f, rfl, h.symm⟩
  | precedence q k =>
    have hk0 : 0 ≤ k := by
      rcases hk rfl with h | ⟨_, _, _, _, h⟩
      · simp only [ATrans.silent] at h
        split at h
        · assumption
        · cases h
      · cases h
    have hs : (ATrans.precedence q k).silent = some q := by simp [ATrans.silent, hk0]
    simp only [epsTarget] at h
    split at h
    · split at h
      · split at h
        · simp only [Option.some.injEq] at h; exact Or.inl ⟨q, c.sem, hs, h.symm, Or.inl rfl⟩
        · cases h
      · simp only [Option.some.injEq] at h; exact Or.inl ⟨q, _, hs, h.symm, Or.inr ⟨k, hk0, rfl⟩⟩
    · simp only [Option.some.injEq] at h; exact Or.inl ⟨q, c.sem, hs, h.symm, Or.inl rfl⟩
  | atom q l => simp [epsTarget, he] at h
  | range q a b => simp [epsTarget, he] at h
  | set q rs => simp [epsTarget, he] at h
  | notSet q rs => simp [epsTarget] at h
  | wildcard q => simp [epsTarget] at h
  | predicate q a b => simp [epsTarget] at h

theorem add_of_edgeActs {E : PEnv} {c c' : PConfig} {stop col : Bool} {d : Int} {es : List (ATrans × Int)}
    (h : Act.add c' ∈ edgeActs E c stop col d es) : False := by
  simp only [edgeActs, List.mem_flatMap] at h
  obtain ⟨⟨t, o⟩, _, h⟩ := h
  simp only at h
  split at h
  · simp at h
  · split at h <;> simp at h

theorem go_of_edgeActs {E : PEnv} {c c' : PConfig} {stop col col' : Bool} {d d' : Int} {es : List (ATrans × Int)}
    (h : Act.go c' col' d' ∈ edgeActs E c stop col d es) :
    ∃ t o c'' b, (t, o) ∈ es ∧ epsTarget E c (col && !ATrans.isAction t) (d == 0) t = some c'' ∧
      (c' = c'' ∧ stop = false ∨ stop = true ∧ c' = { c'' with suppressed := b }) := by
  simp only [edgeActs, List.mem_flatMap] at h
  obtain ⟨⟨t, o⟩, hm, h⟩ := h
  simp only at h
  split at h
  · simp at h
  next c'' hc =>
    refine ⟨t, o, c'', c''.suppressed || E.precRule == some o, hm, hc, ?_⟩
    split at h
    next hs => simp only [List.mem_singleton, Act.go.injEq] at h; exact Or.inr ⟨hs, h.1⟩
    next hs => simp only [List.mem_singleton, Act.go.injEq] at h; exact Or.inl ⟨h.1, by simpa using hs⟩

theorem drop_mem {α : Type} {x : α} {n : Nat} {l : List α} (h : x ∈ l.drop n) : x ∈ l := List.mem_of_mem_drop h

theorem go_of_stepActs {E : PEnv} {rk : Nat → Nat} (G : Good E.atn rk) (he : E.eofEps = false) {c c' : PConfig}
    {st : AState} (hst : E.atn.states[c.state]? = some st) {col col' : Bool} {d d' : Int}
    (hw : st.isRuleStop = true → E.full = false ∧ c.ctx.hasEmptyPath = true)
    (h : Act.go c' col' d' ∈ stepActs E c st col d) : Succ E c c' := by
  simp only [stepActs, List.mem_append] at h
  rcases h with h | h
  · split at h <;> simp at h
  · obtain ⟨t, o, c'', b, hm, ht, hc⟩ := go_of_edgeActs h
    replace hm : (t, o) ∈ edgesOf E.atn st := by
      split at hm
      · exact drop_mem hm
      · exact hm
    unfold edgesOf at hm
    cases hs : st.isRuleStop with
    | false =>
      rw [if_neg (by simp [hs])] at hm
      simp only [List.mem_map, Prod.mk.injEq] at hm
      obtain ⟨t', hm', rfl, _⟩ := hm
      rcases hc with ⟨rfl, _⟩ | ⟨hc, _⟩
      · rcases epsTarget_spec he (G.kinds hst hm').1 ht with ⟨q, s, h1, rfl, h2⟩ | ⟨q, r, k, f, rfl, rfl⟩
        · exact .silent hst hm' h1 h2
        · exact .call hst hm'
      · rw [hs] at hc; cases hc
    | true =>
      rw [if_pos hs] at hm
      obtain ⟨f, hf⟩ := followEdges_eps hm
      simp only at hf; subst hf
      simp only [epsTarget, Option.some.injEq] at ht
      subst ht
      rcases hc with ⟨_, hc⟩ | ⟨_, rfl⟩
      · rw [hs] at hc; cases hc
      · exact .follow hst hs (hw hs).1 (hw hs).2 (mem_follows.2 ⟨o, hm⟩)

theorem go_of_popActs {E : PEnv} {rk : Nat → Nat} (G : Good E.atn rk) (he : E.eofEps = false) {c c' : PConfig}
    {st : AState} (hst : E.atn.states[c.state]? = some st) (hs : st.isRuleStop = true) {col col' : Bool} {d d' : Int} :
    ∀ {x : PCtx}, (∀ r p, x.Entry r p → c.ctx.Entry r p) → (x.hasEmptyPath = true → c.ctx.hasEmptyPath = true) →
    Act.go c' col' d' ∈ popActs E c st col d x → Succ E c c' := by
  intro x
  induction x with
  | nil => intro _ _ h; simp [popActs] at h
  | dollar =>
    intro _ hp h
    simp only [popActs] at h
    split at h
    · simp at h
    next hf => exact go_of_stepActs G he hst (fun _ => ⟨by simpa using hf, hp rfl⟩) h
  | cons r p rest _ ih =>
    intro h1 h2 h
    simp only [popActs, List.mem_cons] at h
    rcases h with h | h
    · simp only [Act.go.injEq] at h
      rw [h.1]
      exact .pop hst hs (h1 r p (Or.inl ⟨rfl, rfl⟩))
    · exact ih (fun r' p' h' => h1 r' p' (Or.inr h')) h2 h

/-- every configuration visited from one is a successor of it -/
theorem go_of_acts {E : PEnv} {rk : Nat → Nat} (G : Good E.atn rk) (he : E.eofEps = false) {c c' : PConfig}
    {col col' : Bool} {d d' : Int} (h : Act.go c' col' d' ∈ acts E c col d) : Succ E c c' := by
  simp only [acts] at h
  split at h
  · simp at h
  next st hst =>
    split at h
    next hs => exact go_of_popActs G he hst hs (fun _ _ h => h) id h
    next hs => exact go_of_stepActs G he hst (fun h' => absurd h' hs) h

theorem add_of_stepActs {E : PEnv} {c c' : PConfig} {st : AState} {col : Bool} {d : Int}
    (h : Act.add c' ∈ stepActs E c st col d) : c' = c := by
  simp only [stepActs, List.mem_append] at h
  rcases h with h | h
  · split at h
    · simp at h
    · simpa using h
  · exact (add_of_edgeActs h).elim

theorem add_of_popActs {E : PEnv} {c c' : PConfig} {st : AState} {col : Bool} {d : Int} : ∀ {x : PCtx},
    Act.add c' ∈ popActs E c st col d x → c' = c ∨
      (E.full = true ∧ c' = { c with ctx := .dollar } ∧ x.hasEmptyPath = true) := by
  intro x
  induction x with
  | nil => intro h; simp [popActs] at h
  | dollar =>
    intro h
    simp only [popActs] at h
    split at h
    next hf => simp only [List.mem_singleton, Act.add.injEq] at h; exact Or.inr ⟨hf, h, rfl⟩
    · exact Or.inl (add_of_stepActs h)
  | cons r p rest _ ih =>
    intro h
    simp only [popActs, List.mem_cons] at h
    rcases h with h | h
    · cases h
    · exact ih h

/-- every configuration added is the one visited, with the empty context at the end of a rule if that is one of its stacks -/
theorem add_of_acts {E : PEnv} {c c' : PConfig} {col : Bool} {d : Int} (h : Act.add c' ∈ acts E c col d) :
    c' = c ∨ (E.full = true ∧ c' = { c with ctx := .dollar } ∧ c.ctx.hasEmptyPath = true) := by
  simp only [acts] at h
  split at h
  · simp at h
  · split at h
    · exact add_of_popActs h
    · exact Or.inl (add_of_stepActs h)

/-- what `ATNConfigSet.add` does: a predicate that merging preserves holds of all configurations afterwards -/
theorem addConfig_all {full : Bool} {Q : PConfig → Prop}
    (hadd : ∀ c d, Q d → Q c → d.state = c.state → d.alt = c.alt → d.sem = c.sem →
      Q { d with ctx := mergeCtx (!full) d.ctx c.ctx, suppressed := d.suppressed || c.suppressed })
    {c : PConfig} (hc : Q c) : ∀ {acc : List PConfig}, (∀ x ∈ acc, Q x) → ∀ x ∈ addConfig full c acc, Q x := by
  intro acc
  induction acc with
  | nil => intro _ x hx; simp only [addConfig, List.mem_singleton] at hx; subst hx; exact hc
  | cons d ds ih =>
    intro h x hx
    simp only [addConfig] at hx
    split at hx
    next e =>
      rcases List.mem_cons.1 hx with rfl | hx
      · exact hadd c d (h d List.mem_cons_self) hc e.1 e.2.1 e.2.2
      · exact h x (List.mem_cons_of_mem _ hx)
    next e =>
      rcases List.mem_cons.1 hx with rfl | hx
      · exact h _ List.mem_cons_self
      · exact ih (fun y hy => h y (List.mem_cons_of_mem _ hy)) x hx

/-- a step of the fold of `closure` -/
def actStep (E : PEnv) (n : Nat) (acc : List PConfig) : Act → List PConfig
  | .add c => addConfig E.full c acc
  | .go c col d => closure E n c col d acc

theorem closure_succ (E : PEnv) (n : Nat) (c : PConfig) (col : Bool) (d : Int) (acc : List PConfig) :
    closure E (n + 1) c col d acc = (acts E c col d).foldl (actStep E n) acc := by
  rw [closure]
  congr 1

/-- if `Q` is preserved by the steps of a closure and `R` holds of what is added, `R` holds of all its configurations -/
theorem closure_all {E : PEnv} {rk : Nat → Nat} (G : Good E.atn rk) (he : E.eofEps = false) {Q R : PConfig → Prop}
    (hadd : ∀ c d, R d → R c → d.state = c.state → d.alt = c.alt → d.sem = c.sem →
      R { d with ctx := mergeCtx (!E.full) d.ctx c.ctx, suppressed := d.suppressed || c.suppressed })
    (hsucc : ∀ c c', Q c → Succ E c c' → Q c')
    (hend : ∀ c c' col d, Q c → Act.add c' ∈ acts E c col d → R c') :
    ∀ (n : Nat) (c : PConfig) (col : Bool) (d : Int) (acc : List PConfig), Q c → (∀ x ∈ acc, R x) →
      ∀ x ∈ closure E n c col d acc, R x := by
  intro n
  induction n with
  | zero => intro c col d acc _ h x hx; exact h x hx
  | succ n ih =>
    intro c col d acc hc h
    rw [closure_succ]
    suffices gen : ∀ l : List Act, (∀ a ∈ l, a ∈ acts E c col d) → ∀ acc, (∀ x ∈ acc, R x) →
        ∀ x ∈ l.foldl (actStep E n) acc, R x from gen _ (fun _ h => h) acc h
    intro l
    induction l with
    | nil => intro _ acc h; exact h
    | cons a l ihl =>
      intro hl acc h
      rw [List.foldl_cons]
      refine ihl (fun b hb => hl b (List.mem_cons_of_mem _ hb)) _ ?_
      have ha := hl a List.mem_cons_self
      cases a with
      | add c' => exact addConfig_all hadd (hend c c' col d hc ha) h
      | go c' col' d' => exact ih c' col' d' acc (hsucc c c' hc (go_of_acts G he ha)) h

/-- the stacks of alternative `i` in state `p` -/
def Cov (wild : Bool) (cs : List PConfig) (i p : Nat) (γ : List Nat) : Prop :=
  ∃ c ∈ cs, c.alt = i ∧ c.state = p ∧ c.ctx.Has wild γ

theorem cov_add {full : Bool} {c : PConfig} {cs : List PConfig} {i p : Nat} {γ : List Nat}
    (h : Cov (!full) cs i p γ ∨ (c.alt = i ∧ c.state = p ∧ c.ctx.Has (!full) γ)) :
    Cov (!full) (addConfig full c cs) i p γ := by
  induction cs with
  | nil =>
    rcases h with ⟨_, h, _⟩ | h
    · simp at h
    · exact ⟨c, by simp [addConfig], h⟩
  | cons d ds ih =>
    simp only [addConfig]
    split
    next e =>
      rcases h with ⟨x, hx, h1, h2, h3⟩ | ⟨h1, h2, h3⟩
      · rcases List.mem_cons.1 hx with rfl | hx
        · exact ⟨_, List.mem_cons_self, h1, h2, has_mergeCtx _ _ _ _ (Or.inl h3)⟩
        · exact ⟨x, List.mem_cons_of_mem _ hx, h1, h2, h3⟩
      · exact ⟨_, List.mem_cons_self, e.2.1.trans h1, e.1.trans h2, has_mergeCtx _ _ _ _ (Or.inr h3)⟩
    next e =>
      rcases h with ⟨x, hx, h1⟩ | h
      · rcases List.mem_cons.1 hx with rfl | hx
        · exact ⟨_, List.mem_cons_self, h1⟩
        · obtain ⟨y, hy, h2⟩ := ih (Or.inl ⟨x, hx, h1⟩)
          exact ⟨y, List.mem_cons_of_mem _ hy, h2⟩
      · obtain ⟨y, hy, h2⟩ := ih (Or.inr h)
        exact ⟨y, List.mem_cons_of_mem _ hy, h2⟩

/-- nothing is lost by a closure -/
theorem cov_closure {E : PEnv} {i p : Nat} {γ : List Nat} : ∀ (n : Nat) (c : PConfig) (col : Bool) (d : Int)
    (acc : List PConfig), Cov (!E.full) acc i p γ → Cov (!E.full) (closure E n c col d acc) i p γ := by
  intro n
  induction n with
  | zero => intro c col d acc h; exact h
  | succ n ih =>
    intro c col d acc h
    rw [closure_succ]
    generalize acts E c col d = l
    induction l generalizing acc with
    | nil => exact h
    | cons a l ihl =>
      rw [List.foldl_cons]
      apply ihl
      cases a with
      | add c' => exact cov_add (Or.inl h)
      | go c' col' d' => exact ih c' col' d' acc h

theorem cov_acts {E : PEnv} {n : Nat} {i p : Nat} {γ : List Nat} {l : List Act} {acc : List PConfig}
    (h : Cov (!E.full) acc i p γ) : Cov (!E.full) (l.foldl (actStep E n) acc) i p γ := by
  induction l generalizing acc with
  | nil => exact h
  | cons a l ih =>
    rw [List.foldl_cons]
    apply ih
    cases a with
    | add c' => exact cov_add (Or.inl h)
    | go c' col' d' => exact cov_closure n c' col' d' acc h

/-- what one step of a closure covers is covered in the end -/
theorem cov_of_act {E : PEnv} {n : Nat} {c : PConfig} {col : Bool} {d : Int} {a : Act} (ha : a ∈ acts E c col d)
    {P : List PConfig → Prop} (hP : ∀ l acc, P acc → P ((l : List Act).foldl (actStep E n) acc))
    (h : ∀ acc, P (actStep E n acc a)) (acc : List PConfig) : P (closure E (n + 1) c col d acc) := by
  rw [closure_succ]
  obtain ⟨s, t, hst⟩ := List.append_of_mem ha
  rw [hst, List.foldl_append, List.foldl_cons]
  exact hP _ _ (h _)

end Verif.PSim
