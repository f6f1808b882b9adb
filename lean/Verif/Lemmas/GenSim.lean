import Verif.Lemmas.ParserGood
import Verif.Lemmas.Accepts
import Verif.Spec.Generated
import Verif.Model.GeneratedParser
/-!
# Relating the methods of the generated parser to the grammar's parser

`Sim` relates a method of the generated parser to a parser of `Model/Parser.lean`; the lemmas follow the structure of both.
-/

namespace Verif.PSim
open ParserTable

/-- the first element with a property -/
def First {α : Type} (l : List α) (Q : α → Prop) (x : α) : Prop :=
  ∃ s t, l = s ++ x :: t ∧ Q x ∧ ∀ y ∈ s, ¬ Q y

theorem First.append_left {α : Type} {l l' : List α} {Q : α → Prop} {x : α} (h : First l Q x) : First (l ++ l') Q x := by
  obtain ⟨s, t, rfl, h1, h2⟩ := h
  exact ⟨s, t ++ l', by simp, h1, h2⟩

theorem First.append_right {α : Type} {l l' : List α} {Q : α → Prop} {x : α} (hl : ∀ y ∈ l, ¬ Q y) (h : First l' Q x) :
    First (l ++ l') Q x := by
  obtain ⟨s, t, rfl, h1, h2⟩ := h
  refine ⟨l ++ s, t, by simp, h1, ?_⟩
  intro y hy
  rcases List.mem_append.1 hy with h | h
  · exact hl y h
  · exact h2 y h

theorem First.flatMap {α β : Type} {l : List α} {Q' : α → Prop} {x : α} {f : α → List β} {Q : β → Prop} {y : β}
    (h : First l Q' x) (hf : First (f x) Q y) (hs : ∀ z ∈ l, ∀ y ∈ f z, Q y → Q' z) : First (l.flatMap f) Q y := by
  obtain ⟨s, t, rfl, h1, h2⟩ := h
  rw [List.flatMap_append, List.flatMap_cons]
  apply First.append_right
  · intro y hy hQ
    obtain ⟨z, hz, hy⟩ := List.mem_flatMap.1 hy
    exact h2 z hz (hs z (by simp [hz]) y hy hQ)
  · exact First.append_left hf

theorem First.unique {α : Type} {l : List α} {Q : α → Prop} [DecidablePred Q] {x : α} (h : First l Q x) :
    l.find? (fun y => decide (Q y)) = some x := by
  obtain ⟨s, t, rfl, h1, h2⟩ := h
  rw [List.find?_append]
  have : s.find? (fun y => decide (Q y)) = none := by
    rw [List.find?_eq_none]; intro y hy; simpa using h2 y hy
  rw [this]
  simp [h1]

/-- what the automaton reads -/
def word (ts : List Token) : List Int := ts.map (fun t => t.kind.id) ++ [-1]

/-- a condition on the return states and the remaining tokens -/
abbrev Cond := List Nat → List Token → Prop

/-- the automaton can go on from a state to the end of the input -/
def V (p : Nat) : Cond := fun γ ts => AtnAccepts atn p γ (word ts)

/-- the type of the next token -/
def laOf (ts : List Token) : Int :=
  match ts with
  | [] => -1
  | t :: _ => t.kind.id

theorem word_eq (ts : List Token) : ∃ w, word ts = laOf ts :: w := by
  cases ts with
  | nil => exact ⟨[], rfl⟩
  | cons t ts => exact ⟨_, rfl⟩

/-- the decisions of the generated parser that are predicted -/
def predicted : List (Nat × Nat) := [(5, 48), (7, 68), (8, 70), (9, 84), (23, 147)]

/-- the caches hold what would be computed anew -/
def CachesOk (cs : List PDfa) : Prop :=
  ∀ x ∈ predicted, ∃ d, cs[x.1]? = some d ∧
    DSound (sllEnv atn (stateAt x.2)) (stateAt x.2).trans.length (sllStart atn (stateAt x.2)) d

abbrev γOf (stack : List Nat) : List Nat := stack.map (followOf atn)

/-- predictions as values: what they are with an empty cache -/
def pureRun (rec : Recover) : Run where
  atn := atn
  predict dec prec stack ts :=
    match atn.decisions[dec]? with
    | none => .done none
    | some p => .done (adaptivePredict atn rec p prec stack ts ⟨[], []⟩).1

/-- What the result of a method has to do with the grammar's parser: it is an error only if the input cannot be
continued; otherwise it is one of the results of the grammar's parser, the first that can be continued if there is one.
At least `k` tokens are consumed. -/
def ROk {τ α : Type} (k : Nat) (Wp Wq : Cond) (Pm : P α) (Rel : τ → α → Prop) (γ : List Nat) (ts : List Token) :
    GRes τ → Prop
  | .stuck => False
  | .syntaxError => ¬ Wp γ ts
  | .ok x s => ∃ a ts', s = ts'.map Token.raw ∧ Convertible ts' ∧ ts'.length + k ≤ ts.length ∧
      (a, ts') ∈ Pm ts ∧ Rel x a ∧ (Wp γ ts → First (Pm ts) (fun y => Wq γ y.2) (a, ts'))

/-- the program is finished, with such a result -/
def ResOk {τ α : Type} (k : Nat) (Wp Wq : Cond) (Pm : P α) (Rel : τ → α → Prop) (γ : List Nat) (ts : List Token)
    (p : CProg (GRes τ)) : Prop := ∃ res, p = .done res ∧ ROk k Wp Wq Pm Rel γ ts res

/-- a method of rule `r` does what a parser does, on fewer than `N` tokens -/
def Sim {τ α : Type} (N : Nat) (r : Int) (k : Nat) (Wp Wq : Cond) (g : G τ) (Pm : P α) (Rel : τ → α → Prop) : Prop :=
  ∀ (rec : Recover) (stack : List Nat) (ts : List Token), ts.length < N → Convertible ts → TypedStack atn r (γOf stack) →
    ResOk k Wp Wq Pm Rel (γOf stack) ts (g (pureRun rec) ⟨stack, 0⟩ (ts.map Token.raw))

/-- a parser's results lead back -/
def Sound {α : Type} (Wp Wq : Cond) (Pm : P α) : Prop := ∀ γ ts x, x ∈ Pm ts → Wq γ x.2 → Wp γ ts

section
variable {τ τ' α β : Type} {N k k' : Nat} {r : Int} {Wp Wq Wm W W1 W2 : Cond} {γ : List Nat} {ts : List Token}
  {Pm P1 P2 : P α} {Rel : τ → α → Prop}

theorem convertible_tail {t : Token} {ts : List Token} (h : Convertible (t :: ts)) : Convertible ts :=
  fun x hx => h x (List.mem_cons_of_mem _ hx)

/-! ## Soundness -/

theorem sound_pure (a : α) : Sound W W (P.pure a) := by
  intro γ ts x hx h
  simp only [P.pure, List.mem_singleton] at hx
  subst hx; exact h

theorem sound_fail : Sound Wp Wq (P.fail : P α) := by
  intro γ ts x hx; cases hx

theorem sound_bind {p : P α} {f : α → P β} (h1 : Sound Wp Wm p) (h2 : ∀ a, Sound Wm Wq (f a)) :
    Sound Wp Wq (P.bind p f) := by
  intro γ ts x hx h
  simp only [P.bind, List.mem_flatMap] at hx
  obtain ⟨⟨a, ts1⟩, hy, hx⟩ := hx
  exact h1 γ ts _ hy (h2 a γ ts1 x hx h)

theorem map_eq_bind (f : α → β) (p : P α) : P.map f p = P.bind p fun a => P.pure (f a) := by
  funext ts
  simp only [P.map, P.bind, P.pure]
  induction p ts with
  | nil => rfl
  | cons a l ih => simp [ih]

theorem sound_map {p : P α} (f : α → β) (h : Sound Wp Wq p) : Sound Wp Wq (P.map f p) := by
  rw [map_eq_bind]; exact sound_bind h fun _ => sound_pure _

theorem sound_cat {p q : P Str} (h1 : Sound Wp Wm p) (h2 : Sound Wm Wq q) : Sound Wp Wq (P.cat p q) :=
  sound_bind h1 fun _ => sound_map _ h2

/-- either condition -/
def orW (W1 W2 : Cond) : Cond := fun γ ts => W1 γ ts ∨ W2 γ ts

theorem sound_or (h1 : Sound W1 Wq P1) (h2 : Sound W2 Wq P2) : Sound (orW W1 W2) Wq (P.or P1 P2) := by
  intro γ ts x hx h
  simp only [P.or, List.mem_append] at hx
  rcases hx with hx | hx
  · exact Or.inl (h1 γ ts x hx h)
  · exact Or.inr (h2 γ ts x hx h)

/-- a token, then the condition -/
def tokW (k : Kind) (W : Cond) : Cond := fun γ ts => ∃ t ts', ts = t :: ts' ∧ t.kind = k ∧ W γ ts'

theorem sound_tok (k : Kind) : Sound (tokW k W) W (P.tok k) := by
  intro γ ts x hx h
  cases ts with
  | nil => cases hx
  | cons t ts =>
    simp only [P.tok] at hx
    split at hx
    next e =>
      simp only [List.mem_singleton] at hx
      subst hx
      exact ⟨t, ts, rfl, e, h⟩
    · cases hx

theorem sound_conv {f : Str → Option Node} {p : P Str} (h : Sound Wp Wq p) : Sound Wp Wq (P.conv f p) := by
  refine sound_bind h fun c => ?_
  split
  · exact sound_pure _
  · exact sound_fail

/-! ## Simulation -/

theorem Sim.mono {N' : Nat} {g : G τ} (h : Sim N r k Wp Wq g Pm Rel) (hN : N' ≤ N) : Sim N' r k Wp Wq g Pm Rel :=
  fun rec stack ts hl => h rec stack ts (Nat.lt_of_lt_of_le hl hN)

theorem Sim.weaken {g : G τ} (h : Sim N r k Wp Wq g Pm Rel) (hk : k' ≤ k) : Sim N r k' Wp Wq g Pm Rel := by
  intro rec stack ts h1 h2 h4
  obtain ⟨res, he, h⟩ := h rec stack ts h1 h2 h4
  refine ⟨res, he, ?_⟩
  cases res with
  | stuck => exact h
  | syntaxError => exact h
  | ok x s =>
    obtain ⟨a, ts', e1, e3, e4, e5⟩ := h
    exact ⟨a, ts', e1, e3, by omega, e5⟩

theorem Sim.rel {Rel' : τ → α → Prop} {g : G τ} (h : Sim N r k Wp Wq g Pm Rel) (hR : ∀ x a, Rel x a → Rel' x a) :
    Sim N r k Wp Wq g Pm Rel' := by
  intro rec stack ts h1 h2 h4
  obtain ⟨res, he, h⟩ := h rec stack ts h1 h2 h4
  refine ⟨res, he, ?_⟩
  cases res with
  | stuck => exact h
  | syntaxError => exact h
  | ok x s =>
    obtain ⟨a, ts', e1, e3, e4, e5, e6, e7⟩ := h
    exact ⟨a, ts', e1, e3, e4, e5, hR x a e6, e7⟩

theorem sim_pure {x : τ} {a : α} (h : Rel x a) : Sim N r 0 W W (pure x) (P.pure a) Rel := by
  intro rec stack ts h1 h2 h4
  refine ⟨_, rfl, a, ts, rfl, h2, Nat.le_refl _, List.mem_singleton.2 rfl, h, ?_⟩
  intro hw
  exact ⟨[], [], rfl, hw, by intro y hy; cases hy⟩

/-- `>>=` on a finished program -/
theorem bind_done {g : G τ} {f : τ → G τ'} {R : Run} {c : GCtx} {s : Toks} {res : GRes τ} (h : g R c s = .done res) :
    (g >>= f) R c s = G.andThen f R c res := by
  show (g R c s).bind _ = _
  rw [h]; rfl

theorem sim_bind {g : G τ} {f : τ → G τ'} {p : P α} {q : α → P β} {Rel' : τ' → β → Prop}
    (h1 : Sim N r k Wp Wm g p Rel) (hs : ∀ a, Sound Wm Wq (q a))
    (h2 : ∀ x a, Rel x a → Sim (N - k) r k' Wm Wq (f x) (q a) Rel') :
    Sim N r (k + k') Wp Wq (g >>= f) (P.bind p q) Rel' := by
  intro rec stack ts hl hc hst
  obtain ⟨res, he, h⟩ := h1 rec stack ts hl hc hst
  rw [bind_done he]
  cases res with
  | stuck => exact h.elim
  | syntaxError => exact ⟨_, rfl, h⟩
  | ok x s =>
    obtain ⟨a, ts1, rfl, e3, e4, e5, e6, e7⟩ := h
    obtain ⟨res', he', h'⟩ := h2 x a e6 rec stack ts1 (by omega) e3 hst
    refine ⟨res', he', ?_⟩
    have hback : ∀ y ∈ q a ts1, Wq (γOf stack) y.2 → Wm (γOf stack) ts1 := fun y hy hq => hs a _ _ y hy hq
    cases res' with
    | stuck => exact h'.elim
    | syntaxError =>
      intro hw
      obtain ⟨_, _, _, hm, _⟩ := e7 hw
      exact h' hm
    | ok x' s' =>
      obtain ⟨b, ts2, d1, d3, d4, d5, d6, d7⟩ := h'
      refine ⟨b, ts2, d1, d3, by omega, ?_, d6, ?_⟩
      · simp only [P.bind, List.mem_flatMap]
        exact ⟨(a, ts1), e5, d5⟩
      · intro hw
        have hf := e7 hw
        have hm : Wm (γOf stack) ts1 := by obtain ⟨_, _, _, hm, _⟩ := hf; exact hm
        exact First.flatMap hf (d7 hm) (fun z _ y hy hq => hs z.1 _ _ y hy hq)

theorem sim_map {g : G τ} {f : τ → τ'} {p : P α} {q : α → β} {Rel' : τ' → β → Prop} (h : Sim N r k Wp Wq g p Rel)
    (hR : ∀ x a, Rel x a → Rel' (f x) (q a)) : Sim N r k Wp Wq (g >>= fun x => pure (f x)) (P.map q p) Rel' := by
  rw [map_eq_bind]
  exact sim_bind (k' := 0) h (fun _ => sound_pure _) fun x a hx => sim_pure (hR x a hx)

theorem res_orL {res : CProg (GRes τ)} (h : ResOk k W1 Wq P1 Rel γ ts res) (h2 : W2 γ ts → W1 γ ts) :
    ResOk k (orW W1 W2) Wq (P.or P1 P2) Rel γ ts res := by
  obtain ⟨res, rfl, h⟩ := h
  refine ⟨_, rfl, ?_⟩
  cases res with
  | stuck => exact h
  | syntaxError =>
    rintro (hw | hw)
    · exact h hw
    · exact h (h2 hw)
  | ok x s =>
    obtain ⟨a, ts', e1, e3, e4, e5, e6, e7⟩ := h
    refine ⟨a, ts', e1, e3, e4, List.mem_append_left _ e5, e6, ?_⟩
    intro hw
    exact First.append_left (e7 (hw.elim id h2))

theorem res_orR {res : CProg (GRes τ)} (h : ResOk k W2 Wq P2 Rel γ ts res) (h1 : ¬ W1 γ ts) (hs : Sound W1 Wq P1) :
    ResOk k (orW W1 W2) Wq (P.or P1 P2) Rel γ ts res := by
  obtain ⟨res, rfl, h⟩ := h
  refine ⟨_, rfl, ?_⟩
  cases res with
  | stuck => exact h
  | syntaxError =>
    rintro (hw | hw)
    · exact h1 hw
    · exact h hw
  | ok x s =>
    obtain ⟨a, ts', e1, e3, e4, e5, e6, e7⟩ := h
    refine ⟨a, ts', e1, e3, e4, List.mem_append_right _ e5, e6, ?_⟩
    intro hw
    refine First.append_right ?_ (e7 (hw.resolve_left h1))
    intro y hy hq
    exact h1 (hs _ _ y hy hq)

/-- the tokens that can come first -/
def Fst (r : Int) (W : Cond) (L : List Int) : Prop := ∀ γ ts, TypedStack atn r γ → W γ ts → laOf ts ∈ L

theorem fst_or {L1 L2 : List Int} (h1 : Fst r W1 L1) (h2 : Fst r W2 L2) : Fst r (orW W1 W2) (L1 ++ L2) := by
  rintro γ ts ht (h | h)
  · exact List.mem_append_left _ (h1 γ ts ht h)
  · exact List.mem_append_right _ (h2 γ ts ht h)

/-- a method that depends on the type of the next token -/
def SimL (N : Nat) (r : Int) (k : Nat) (Wp Wq : Cond) (g : Int → G τ) (Pm : P α) (Rel : τ → α → Prop) : Prop :=
  ∀ (rec : Recover) (stack : List Nat) (ts : List Token), ts.length < N → Convertible ts →
    TypedStack atn r (γOf stack) →
    ResOk k Wp Wq Pm Rel (γOf stack) ts (g (laOf ts) (pureRun rec) ⟨stack, 0⟩ (ts.map Token.raw))

theorem sim_la {g : Int → G τ} (h : SimL N r k Wp Wq g Pm Rel) : Sim N r k Wp Wq (G.la >>= g) Pm Rel := by
  intro rec stack ts h1 h2 h4
  have := h rec stack ts h1 h2 h4
  cases ts <;> exact this

theorem simL_const {g : G τ} (h : Sim N r k Wp Wq g Pm Rel) : SimL N r k Wp Wq (fun _ => g) Pm Rel := h

theorem simL_if {c : Int → Prop} [DecidablePred c] {g1 : G τ} {g2 : Int → G τ} {L1 L2 : List Int}
    (h1 : Sim N r k W1 Wq g1 P1 Rel) (h2 : SimL N r k W2 Wq g2 P2 Rel) (hs : Sound W1 Wq P1)
    (f1 : Fst r W1 L1) (f2 : Fst r W2 L2) (c1 : ∀ t ∈ L1, c t) (c2 : ∀ t ∈ L2, ¬ c t) :
    SimL N r k (orW W1 W2) Wq (fun l => if c l then g1 else g2 l) (P.or P1 P2) Rel := by
  intro rec stack ts hl hc hst
  by_cases h : c (laOf ts)
  · simp only [if_pos h]
    exact res_orL (h1 rec stack ts hl hc hst) (fun hw => absurd h (c2 _ (f2 _ _ hst hw)))
  · simp only [if_neg h]
    exact res_orR (h2 rec stack ts hl hc hst) (fun hw => h (c1 _ (f1 _ _ hst hw))) hs

theorem simL_last {c : Int → Prop} [DecidablePred c] {g : G τ} {L : List Int} (h : Sim N r k W Wq g Pm Rel)
    (f : Fst r W L) (hc : ∀ t ∈ L, c t) : SimL N r k W Wq (fun l => if c l then g else G.fail) Pm Rel := by
  intro rec stack ts hl hcv hst
  by_cases hx : c (laOf ts)
  · simp only [if_pos hx]; exact h rec stack ts hl hcv hst
  · simp only [if_neg hx]
    refine ⟨_, rfl, ?_⟩
    intro hw
    exact hx (hc _ (f _ _ hst hw))

theorem next_eq : G.next (ts.map Token.raw) = laOf ts := by cases ts <;> rfl

theorem sync_eq {s : Nat} {R : Run} {c : GCtx} : G.sync s R c (ts.map Token.raw) =
    .done (if syncOk R.atn s (laOf ts) then .ok () (ts.map Token.raw) else .syntaxError) := by
  cases ts <;> rfl

theorem sim_sync {s : Nat} {g : G τ} {L : List Int} (h : Sim N r k W Wq g Pm Rel) (f : Fst r W L)
    (hL : ∀ t ∈ L, syncOk atn s t = true) : Sim N r k W Wq (G.sync s >>= fun _ => g) Pm Rel := by
  intro rec stack ts hl hcv hst
  have h' := h rec stack ts hl hcv hst
  rw [bind_done sync_eq]
  show ResOk _ _ _ _ _ _ _ (G.andThen _ _ _ (if syncOk atn s (laOf ts) then _ else _))
  cases hx : syncOk atn s (laOf ts) with
  | true => exact h'
  | false =>
    refine ⟨_, rfl, ?_⟩
    intro hw
    have := hL _ (f _ _ hst hw)
    rw [hx] at this; cases this

theorem Kind.id_inj {a b : Kind} (h : a.id = b.id) : a = b := by
  cases a <;> cases b <;> first | rfl | cases h

theorem Kind.id_pos (a : Kind) : 1 ≤ a.id := by cases a <;> decide

theorem convertible_one {t : Token} {ts : List Token} (h : Convertible (t :: ts)) : Convertible [t] := by
  intro x hx
  rw [List.mem_singleton] at hx
  subst hx
  exact h x (List.mem_cons_self ..)

theorem sim_tok (kd : Kind) {i : Int} (hi : kd.id = i) :
    Sim N r 1 (tokW kd W) W (G.tok i) (P.tok kd) (fun x s => x = .term i s ∧ Convertible [⟨kd, s⟩]) := by
  intro rec stack ts hl hcv hst
  subst hi
  cases ts with
  | nil =>
    refine ⟨_, rfl, ?_⟩
    have := Kind.id_pos kd
    rw [if_neg (by omega)]
    rintro ⟨t, ts', h, _⟩; cases h
  | cons t ts =>
    refine ⟨_, rfl, ?_⟩
    show ROk _ _ _ _ _ _ _ (if t.kind.id = kd.id then _ else _)
    split
    next e =>
      have hk := Kind.id_inj e
      refine ⟨t.text, ts, rfl, convertible_tail hcv, Nat.le_refl _, ?_, ?_, ?_⟩
      · simp [P.tok, hk]
      · refine ⟨?_, ?_⟩
        · show PTree.term t.kind.id t.text = _
          rw [e]
        · rw [← hk]; exact convertible_one hcv
      · rintro ⟨t', ts', h, _, hw⟩
        obtain ⟨rfl, rfl⟩ := List.cons.inj h
        exact ⟨[], [], by simp [P.tok, hk], hw, by intro y hy; cases hy⟩
    next e =>
      rintro ⟨t', ts', h, hk, hw⟩
      obtain ⟨rfl, rfl⟩ := List.cons.inj h
      exact e (by rw [hk])

/-- one of two token types -/
theorem sim_tokIn2 {k1 k2 : Kind} {ks : List Int} (hks : ∀ kd : Kind, kd.id ∈ ks ↔ kd = k1 ∨ kd = k2) (hne : k1 ≠ k2) :
    Sim N r 1 (orW (tokW k1 W) (tokW k2 W)) W (G.tokIn ks) (P.or (P.tok k1) (P.tok k2))
      (fun x s => ∃ kd : Kind, (kd = k1 ∨ kd = k2) ∧ x = .term kd.id s ∧ Convertible [⟨kd, s⟩]) := by
  intro rec stack ts hl hcv hst
  cases ts with
  | nil =>
    refine ⟨_, rfl, ?_⟩
    rintro (⟨t, ts', h, _⟩ | ⟨t, ts', h, _⟩) <;> cases h
  | cons t ts =>
    refine ⟨_, rfl, ?_⟩
    show ROk _ _ _ _ _ _ _ (if t.kind.id ∈ ks then _ else _)
    split
    next e =>
      have hk := (hks _).1 e
      refine ⟨t.text, ts, rfl, convertible_tail hcv, Nat.le_refl _, ?_, ⟨t.kind, hk, rfl, convertible_one hcv⟩, ?_⟩
      · rcases hk with hk | hk
        · exact List.mem_append_left _ (by simp [P.tok, hk])
        · exact List.mem_append_right _ (by simp [P.tok, hk])
      · intro h
        have hw : W (γOf stack) ts := by
          rcases h with ⟨t', ts', h, _, hw⟩ | ⟨t', ts', h, _, hw⟩ <;>
          · obtain ⟨rfl, rfl⟩ := List.cons.inj h
            exact hw
        have hP : P.or (P.tok k1) (P.tok k2) (t :: ts) = [(t.text, ts)] := by
          rcases hk with hk | hk
          · have h2 : t.kind ≠ k2 := fun h => hne (hk.symm.trans h)
            simp [P.or, P.tok, hk]; intro h; exact absurd h hne
          · have h1 : t.kind ≠ k1 := fun h => hne (h.symm.trans hk)
            simp [P.or, P.tok, hk]; intro h; exact absurd h.symm hne
        rw [hP]
        exact ⟨[], [], rfl, hw, by intro y hy; cases hy⟩
    next e =>
      rintro (⟨t', ts', h, hk, hw⟩ | ⟨t', ts', h, hk, hw⟩) <;> obtain ⟨rfl, rfl⟩ := List.cons.inj h
      · exact e ((hks _).2 (Or.inl hk))
      · exact e ((hks _).2 (Or.inr hk))

theorem sim_precpred {p : Int} (hp : 0 ≤ p) {g : G τ} (h : Sim N r k Wp Wq g Pm Rel) :
    Sim N r k Wp Wq (G.precpred p >>= fun _ => g) Pm Rel := by
  intro rec stack ts hl hcv hst
  have h' := h rec stack ts hl hcv hst
  have e : G.precpred p (pureRun rec) ⟨stack, 0⟩ (ts.map Token.raw) = .done (.ok () (ts.map Token.raw)) := by
    simp only [G.precpred, hp, if_true]
  rw [bind_done e]
  exact h'

theorem sim_withPrec {g : G τ} (h : Sim N r k Wp Wq g Pm Rel) : Sim N r k Wp Wq (G.withPrec 0 g) Pm Rel := h

theorem sim_call {s f : Nat} {r' : Int} {g : G τ} (hf : followOf atn s = f) (hm : f ∈ follows atn r') (hr : ruleOf atn f = r)
    (h : Sim N r' k Wp Wq g Pm Rel) :
    Sim N r k (fun γ => Wp (f :: γ)) (fun γ => Wq (f :: γ)) (G.call s g) Pm Rel := by
  intro rec stack ts hl hcv hst
  have h' := h rec (s :: stack) ts hl hcv (by
    show TypedStack atn r' (followOf atn s :: γOf stack)
    rw [hf]; exact ⟨hm, by rw [hr]; exact hst⟩)
  have e : γOf (s :: stack) = f :: γOf stack := by simp [γOf, hf]
  rw [e] at h'
  obtain ⟨res, he, h'⟩ := h'
  refine ⟨res, he, ?_⟩
  cases res with
  | stuck => exact h'
  | syntaxError => exact h'
  | ok x s' => exact h'

theorem sim_remaining {g : Nat → G τ} (h : ∀ n < N, Sim (n + 1) r k Wp Wq (g n) Pm Rel) :
    Sim N r k Wp Wq (G.remaining g) Pm Rel := by
  intro rec stack ts hl hcv hst
  have := h ts.length hl rec stack ts (Nat.lt_succ_self _) hcv hst
  show ResOk _ _ _ _ _ _ _ (g (ts.map Token.raw).length _ _ _)
  rw [List.length_map]; exact this

theorem sound_call {f : Nat} (h : Sound Wp Wq Pm) : Sound (fun γ => Wp (f :: γ)) (fun γ => Wq (f :: γ)) Pm :=
  fun γ ts x hx hq => h (f :: γ) ts x hx hq

theorem caches_set {caches : List PDfa} {dec p : Nat} {d d' : PDfa} (hca : CachesOk caches) (hmem : (dec, p) ∈ predicted)
    (hd : caches[dec]? = some d)
    (hs : DSound (sllEnv atn (stateAt p)) (stateAt p).trans.length (sllStart atn (stateAt p)) d') :
    CachesOk (caches.set dec d') := by
  intro x hx
  by_cases e : x.1 = dec
  · have : x = (dec, p) := by
      simp only [predicted, List.mem_cons, List.not_mem_nil, or_false] at hx hmem
      rcases hx with rfl | rfl | rfl | rfl | rfl <;> rcases hmem with h | h | h | h | h <;>
        first
        | exact h.symm
        | (exfalso; simp only [Prod.mk.injEq] at h; simp only at e; omega)
    subst this
    refine ⟨d', ?_, hs⟩
    rw [List.getElem?_set_self]
    rw [List.getElem?_eq_some_iff] at hd
    exact hd.1
  · obtain ⟨y, h1, h2⟩ := hca x hx
    refine ⟨y, ?_, h2⟩
    rw [List.getElem?_set_ne (fun h => e h.symm)]
    exact h1

/-- a predicted decision -/
theorem sim_predict {dec p : Nat} (hmem : (dec, p) ∈ predicted) (hdec : atn.decisions[dec]? = some p)
    (hgood : GoodDecision atn p (stateAt p)) {f : Nat → G τ}
    (hW : ∀ γ ts, W γ ts → ∃ i q, (q, i) ∈ altTargets (stateAt p) ∧ V q γ ts)
    (h : ∀ (j : Nat) (rec : Recover) (stack : List Nat) (ts : List Token), ts.length < N →
      Convertible ts → TypedStack atn (stateAt p).rule (γOf stack) →
      (∃ q, (q, j) ∈ altTargets (stateAt p)) →
      (∀ i q, (q, i) ∈ altTargets (stateAt p) → V q (γOf stack) ts →
        (∃ q', (q', j) ∈ altTargets (stateAt p) ∧ V q' (γOf stack) ts) ∧ j ≤ i) →
      ResOk k W Wq Pm Rel (γOf stack) ts (f j (pureRun rec) ⟨stack, 0⟩ (ts.map Token.raw))) :
    Sim N (stateAt p).rule k W Wq (G.predict dec >>= f) Pm Rel := by
  intro rec stack ts hl hcv hst
  have hne : ∀ t ∈ (ts.map Token.raw).map (·.1), t ≠ -1 := by
    intro t ht
    simp only [List.mem_map] at ht
    obtain ⟨_, ⟨x, _, rfl⟩, rfl⟩ := ht
    have := Kind.id_pos x.kind
    show x.kind.id ≠ -1
    omega
  have hcor := (adaptivePredict_correct good hgood hst hne rec (d := ⟨[], []⟩)
    ⟨(by intro s h; cases h), (by intro cs t v h; cases h)⟩).1
  have hword : (ts.map Token.raw).map (·.1) ++ [-1] = word ts := by
    simp [word, List.map_map]; intro a _; rfl
  rw [hword] at hcor
  obtain ⟨o, ho, hnone, hsome⟩ := hcor
  have e : G.predict dec (pureRun rec) ⟨stack, 0⟩ (ts.map Token.raw) = .done (G.predicted (ts.map Token.raw) (some o)) := by
    rw [← ho]
    show CProg.bind (match atn.decisions[dec]? with
      | none => _
      | some p => _) _ = _
    rw [hdec]; rfl
  rw [bind_done e]
  cases o with
  | none =>
    refine ⟨_, rfl, ?_⟩
    intro hw
    obtain ⟨i, q, hq, hv⟩ := hW _ _ hw
    exact hnone rfl i ⟨q, hq, hv⟩
  | some j =>
    obtain ⟨halt, hlow⟩ := hsome j rfl
    refine h j rec stack ts hl hcv hst halt ?_
    intro i q hq hv
    exact hlow i ⟨q, hq, hv⟩
end

theorem ResOk.congr {τ α : Type} {k : Nat} {Wp Wq : Cond} {P1 Pm' : P α} {Rel : τ → α → Prop} {γ : List Nat} {ts : List Token}
    {res : CProg (GRes τ)} (h : Pm' ts = P1 ts) (hr : ResOk k Wp Wq P1 Rel γ ts res) : ResOk k Wp Wq Pm' Rel γ ts res := by
  obtain ⟨res, rfl, hr⟩ := hr
  refine ⟨_, rfl, ?_⟩
  cases res with
  | stuck => exact hr
  | syntaxError => exact hr
  | ok x s => simp only [ROk] at hr ⊢; rw [h]; exact hr

attribute [irreducible] ResOk

end Verif.PSim
