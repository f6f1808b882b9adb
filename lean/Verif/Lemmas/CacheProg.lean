import Verif.Lemmas.GenMain
import Verif.Lemmas.LexerCheck
/-!
# Programs that only meet right values: whatever they see, their result is the same
-/

namespace Verif.PSim
open ParserTable
set_option maxRecDepth 100000

/-- A value is right for a place: it is what would be computed. -/
def Right : (k : Key) → k.Val → Prop
  | .lexStart m, v => startState LexTable.atn m = some v
  | .lexEdge _ s t, v => Verif.computeTarget LexTable.atn s t = some v
  | .start dec p, v => p = 0 → ∀ q, (dec, q) ∈ predicted → v = sllStart atn (stateAt q)
  | .edge dec cs t, v => ∀ q, (dec, q) ∈ predicted →
      v = computeTarget (sllEnv atn (stateAt q)) (stateAt q).trans.length cs t

/-- Whatever right values or nothing the reads see: only right values are written, and the result satisfies `Q`. -/
def Safe {α : Type} (Q : α → Prop) : CProg α → Prop
  | .done a => Q a
  | .read k c => Safe Q (c none) ∧ ∀ v : k.Val, Right k v → Safe Q (c (some v))
  | .write k v c => Right k v ∧ Safe Q c

section
variable {α β : Type}

theorem Safe.mono {Q Q' : α → Prop} (h : ∀ a, Q a → Q' a) : ∀ {p : CProg α}, Safe Q p → Safe Q' p := by
  intro p
  induction p with
  | done a => exact h a
  | read k c ih => exact fun hp => ⟨ih none hp.1, fun v hv => ih (some v) (hp.2 v hv)⟩
  | write k v c ih => exact fun hp => ⟨hp.1, ih hp.2⟩

theorem Safe.bind {Q : α → Prop} {Q' : β → Prop} {f : α → CProg β} (h : ∀ a, Q a → Safe Q' (f a)) :
    ∀ {p : CProg α}, Safe Q p → Safe Q' (p.bind f) := by
  intro p
  induction p with
  | done a => exact h a
  | read k c ih => exact fun hp => ⟨ih none hp.1, fun v hv => ih (some v) (hp.2 v hv)⟩
  | write k v c ih => exact fun hp => ⟨hp.1, ih hp.2⟩

theorem Safe.ite {Q : α → Prop} {b : Prop} [Decidable b] {p q : CProg α} (h1 : b → Safe Q p) (h2 : ¬ b → Safe Q q) :
    Safe Q (if b then p else q) := by
  split
  · exact h1 ‹_›
  · exact h2 ‹_›

theorem Safe.memo {k : Key} {v : k.Val} (hv : Right k v) : Safe (Right k) (CProg.memo k v) :=
  ⟨⟨hv, hv⟩, fun _ hx => hx⟩
end

/-! ## The lexer -/

theorem lexNext_safe (mode : Nat) (s : List LConfig) (t : Int) :
    Safe (· = Verif.computeTarget LexTable.atn s t) (lexNextP LexTable.atn mode s t) := by
  unfold lexNextP
  split
  · refine ⟨?_, fun v hv => Eq.symm hv⟩
    show Safe _ (match Verif.computeTarget LexTable.atn s t with
      | none => CProg.done none
      | some x => .write (.lexEdge mode s t) x (.done (some x)))
    cases h : Verif.computeTarget LexTable.atn s t with
    | none => rfl
    | some x => exact ⟨h, rfl⟩
  · rfl

theorem nextState_det {A : Atn} {mode : Nat} {d : Dfa} (hd : d.Sound A mode) (s : List LConfig) (t : Int) :
    (Verif.computeTarget A s t = none ∧ Verif.nextState A d s t = none) ∨
    ∃ r d', Verif.computeTarget A s t = some r ∧ Verif.nextState A d s t = some (r, d') ∧ d'.Sound A mode := by
  cases h : Verif.computeTarget A s t with
  | some r =>
    obtain ⟨d', h1, h2⟩ := nextState_ok hd h
    exact Or.inr ⟨r, d', rfl, h1, h2⟩
  | none =>
    refine Or.inl ⟨rfl, ?_⟩
    unfold Verif.nextState
    split
    · cases he : Dict.get (s, t) d.edges with
      | some r => rw [hd.2 s t r he] at h; cases h
      | none => simp only [h]
    · simp only [h]

theorem execLoop_safe (mode : Nat) : ∀ (cs : Str) (s : List LConfig) (n : Nat) (prev : Option (Int × List LAction × Nat)),
    Safe (fun r => ∀ d : Dfa, d.Sound LexTable.atn mode →
        (r = none ∧ execLoop LexTable.atn cs s n prev d = none) ∨
        ∃ m d', r = some m ∧ execLoop LexTable.atn cs s n prev d = some (m, d') ∧ d'.Sound LexTable.atn mode)
      (execLoopP LexTable.atn mode cs s n prev) := by
  intro cs
  induction cs with
  | nil =>
    intro s n prev
    refine Safe.bind ?_ (lexNext_safe mode s (-1))
    rintro _ rfl
    have h : ∀ d : Dfa, d.Sound LexTable.atn mode → _ := fun d hd => nextState_det hd s (-1)
    generalize Verif.computeTarget LexTable.atn s (-1) = r at h
    cases r with
    | none =>
      intro d hd
      refine Or.inl ⟨rfl, ?_⟩
      rcases h d hd with ⟨_, h⟩ | ⟨_, _, h, _⟩
      · simp only [execLoop, h]
      · cases h
    | some r =>
      cases r with
      | some x =>
        intro d hd
        refine Or.inl ⟨rfl, ?_⟩
        rcases h d hd with ⟨h, _⟩ | ⟨_, _, h, h1, _⟩
        · cases h
        · cases h; simp only [execLoop, h1]
      | none =>
        intro d hd
        rcases h d hd with ⟨h, _⟩ | ⟨_, d', h, h1, h2⟩
        · cases h
        · cases h; exact Or.inr ⟨_, d', rfl, by simp only [execLoop, h1], h2⟩
  | cons c cs ih =>
    intro s n prev
    refine Safe.bind ?_ (lexNext_safe mode s c.toNat)
    rintro _ rfl
    have h : ∀ d : Dfa, d.Sound LexTable.atn mode → _ := fun d hd => nextState_det hd s c.toNat
    generalize Verif.computeTarget LexTable.atn s c.toNat = r at h
    cases r with
    | none =>
      intro d hd
      refine Or.inl ⟨rfl, ?_⟩
      rcases h d hd with ⟨_, h⟩ | ⟨_, _, h, _⟩
      · simp only [execLoop, h]
      · cases h
    | some r =>
      cases r with
      | none =>
        intro d hd
        rcases h d hd with ⟨h, _⟩ | ⟨_, d', h, h1, h2⟩
        · cases h
        · cases h; exact Or.inr ⟨_, d', rfl, by simp only [execLoop, h1], h2⟩
      | some x =>
        refine Safe.mono ?_ (ih x (n + 1) (capture LexTable.atn x (n + 1) prev))
        intro r hr d hd
        rcases h d hd with ⟨h, _⟩ | ⟨_, d', h, h1, h2⟩
        · cases h
        · cases h
          rcases hr d' h2 with ⟨hr, he⟩ | ⟨m, d'', hr, he, hs⟩
          · exact Or.inl ⟨hr, by simp only [execLoop, h1, he]⟩
          · exact Or.inr ⟨m, d'', hr, by simp only [execLoop, h1, he], hs⟩

theorem simMatch_safe (mode : Nat) (text : Str) :
    Safe (fun r => ∀ d : Dfa, d.Sound LexTable.atn mode →
        (r = none ∧ simMatch LexTable.atn mode text d = none) ∨
        ∃ m d', r = some m ∧ simMatch LexTable.atn mode text d = some (m, d') ∧ d'.Sound LexTable.atn mode)
      (simMatchP LexTable.atn mode text) := by
  have key : ∀ s0, startState LexTable.atn mode = some s0 → Safe (fun r => ∀ d : Dfa, d.Sound LexTable.atn mode →
        (r = none ∧ simMatch LexTable.atn mode text d = none) ∨
        ∃ m d', r = some m ∧ simMatch LexTable.atn mode text d = some (m, d') ∧ d'.Sound LexTable.atn mode)
      (execLoopP LexTable.atn mode text s0 0 (capture LexTable.atn s0 0 none)) := by
    intro s0 hs0
    refine Safe.mono ?_ (execLoop_safe mode text s0 0 (capture LexTable.atn s0 0 none))
    intro r hr d hd
    obtain ⟨e, hes, he⟩ : ∃ e : Dfa, e.Sound LexTable.atn mode ∧
        simMatch LexTable.atn mode text d = execLoop LexTable.atn text s0 0 (capture LexTable.atn s0 0 none) e := by
      unfold simMatch
      cases h0 : d.s0 with
      | some x =>
        have := hd.1 x h0
        rw [hs0] at this
        cases this
        exact ⟨d, hd, rfl⟩
      | none =>
        simp only [hs0]
        exact ⟨{ d with s0 := some s0 }, ⟨fun _ h => by cases h; exact hs0, hd.2⟩, rfl⟩
    rw [he]
    exact hr e hes
  refine ⟨?_, fun v hv => key v hv⟩
  show Safe _ (match startState LexTable.atn mode with
    | none => CProg.done none
    | some s0 => .write (.lexStart mode) s0 (execLoopP LexTable.atn mode text s0 0 (capture LexTable.atn s0 0 none)))
  cases h : startState LexTable.atn mode with
  | none =>
    intro d hd
    refine Or.inl ⟨rfl, ?_⟩
    unfold simMatch
    cases h0 : d.s0 with
    | some x => have := hd.1 x h0; rw [h] at this; cases this
    | none => simp only [h]
  | some s0 => exact ⟨h, key s0 h⟩

theorem modes_length : LexTable.atn.modes.length = 3 := by decide +kernel

theorem simTokens_safe : ∀ (fuel : Nat) (m : LexMode) (text : Str),
    Safe (fun r => ∀ cs : Caches, cs.Sound LexTable.atn → (simTokens LexTable.atn fuel m text cs).map (·.1) = r)
      (simTokensP LexTable.atn fuel m text) := by
  intro fuel
  induction fuel with
  | zero => intro m text cs _; rfl
  | succ fuel ih =>
    intro m text
    refine Safe.bind ?_ (simMatch_safe m.mode text)
    intro r hr
    by_cases hm : m.mode < 3
    · have get : ∀ cs : Caches, cs.Sound LexTable.atn → ∃ d, cs[m.mode]? = some d ∧ d.Sound LexTable.atn m.mode := by
        intro cs h
        have hl : m.mode < cs.length := by rw [h.1]; exact hm
        exact ⟨_, List.getElem?_eq_getElem hl, h.2 _ _ (List.getElem?_eq_getElem hl)⟩
      cases r with
      | none =>
        intro cs hcs
        obtain ⟨d, h1, h2⟩ := get cs hcs
        rcases hr d h2 with ⟨_, h⟩ | ⟨_, _, h, _⟩
        · simp only [simTokens, h1, h]; rfl
        · cases h
      | some r =>
        have hr' : ∀ cs : Caches, cs.Sound LexTable.atn → ∃ d d', cs[m.mode]? = some d ∧
            simMatch LexTable.atn m.mode text d = some (r, d') ∧ Caches.Sound LexTable.atn (cs.set m.mode d') := by
          intro cs hcs
          obtain ⟨d, h1, h2⟩ := get cs hcs
          rcases hr d h2 with ⟨h, _⟩ | ⟨_, d', h, h3, h4⟩
          · cases h
          · cases h; exact ⟨d, d', h1, h3, hcs.set _ h4⟩
        cases r with
        | eof =>
          intro cs hcs
          obtain ⟨d, d', h1, h2, _⟩ := hr' cs hcs
          simp only [simTokens, h1, h2]; rfl
        | noViableAlt =>
          intro cs hcs
          obtain ⟨d, d', h1, h2, _⟩ := hr' cs hcs
          simp only [simTokens, h1, h2]; rfl
        | token k acts n =>
          show Safe _ (match executeAll acts { m with type := 0 } with
            | none => CProg.done none
            | some m' =>
              let type := if m'.type = 0 then k else m'.type
              if type ≤ 0 then .done none
              else if text.drop n = [] then .done (some [(type, text.take n)])
              else (simTokensP LexTable.atn fuel m' (text.drop n)).bind fun ts =>
                match ts with
                | none => .done none
                | some ts => .done (some ((type, text.take n) :: ts)))
          cases hx : executeAll acts { m with type := 0 } with
          | none =>
            intro cs hcs
            obtain ⟨d, d', h1, h2, _⟩ := hr' cs hcs
            simp only [simTokens, h1, h2, hx]; rfl
          | some m' =>
            refine Safe.ite (fun hty => ?_) (fun hty => Safe.ite (fun hd => ?_) (fun hd => ?_))
            · intro cs hcs
              obtain ⟨d, d', h1, h2, _⟩ := hr' cs hcs
              simp only [simTokens, h1, h2, hx]; rw [if_pos hty]; rfl
            · intro cs hcs
              obtain ⟨d, d', h1, h2, _⟩ := hr' cs hcs
              simp only [simTokens, h1, h2, hx]; rw [if_neg hty, if_pos hd]; rfl
            · refine Safe.bind ?_ (ih m' (text.drop n))
              intro r hrr
              cases r with
              | none =>
                intro cs hcs
                obtain ⟨d, d', h1, h2, h3⟩ := hr' cs hcs
                have := hrr _ h3
                simp only [simTokens, h1, h2, hx]; rw [if_neg hty, if_neg hd]
                generalize simTokens LexTable.atn fuel m' (text.drop n) (List.set cs m.mode d') = q at this
                cases q with
                | none => rfl
                | some q => cases this
              | some ts =>
                intro cs hcs
                obtain ⟨d, d', h1, h2, h3⟩ := hr' cs hcs
                have := hrr _ h3
                simp only [simTokens, h1, h2, hx]; rw [if_neg hty, if_neg hd]
                generalize simTokens LexTable.atn fuel m' (text.drop n) (List.set cs m.mode d') = q at this
                cases q with
                | none => cases this
                | some q => obtain ⟨a, b⟩ := q; cases this; rfl
    · have hnone : startState LexTable.atn m.mode = none := by
        unfold startState
        rw [List.getElem?_eq_none (by rw [modes_length]; omega)]
      have hd : (⟨none, []⟩ : Dfa).Sound LexTable.atn m.mode :=
        ⟨fun _ h => (by cases h), fun _ _ _ h => (by cases h)⟩
      obtain rfl : r = none := by
        rcases hr _ hd with ⟨h, _⟩ | ⟨_, _, _, h, _⟩
        · exact h
        · simp only [simMatch, hnone] at h; cases h
      intro cs hcs
      have : cs[m.mode]? = none := List.getElem?_eq_none (by rw [hcs.1]; omega)
      simp only [simTokens, this]; rfl

theorem lex_safe (text : Str) : Safe (· = some ((lex text).map Token.raw)) (generatedLexP text) := by
  unfold generatedLexP
  rw [lexer_atn]
  refine Safe.mono ?_ (simTokens_safe (text.length + 1) ⟨0, 0, []⟩ text)
  intro r hr
  obtain ⟨cs', h, _⟩ := generatedLex_ok text Caches.empty (Caches.empty_sound _)
  unfold generatedLex at h
  rw [lexer_atn] at h
  have h1 := hr Caches.empty (Caches.empty_sound _)
  dsimp only at h
  rw [h] at h1
  exact h1.symm

/-! ## Predictions -/

theorem nextState_safe {dec q : Nat} (hmem : (dec, q) ∈ predicted) (cs : List PConfig) (t : Int) :
    Safe (· = computeTarget (sllEnv atn (stateAt q)) (stateAt q).trans.length cs t)
      (nextStateP (sllEnv atn (stateAt q)) (stateAt q).trans.length dec cs t) := by
  unfold nextStateP
  refine Safe.ite (fun _ => ?_) (fun _ => ?_)
  · refine Safe.mono ?_ (Safe.memo (k := .edge dec cs t)
      (v := computeTarget (sllEnv atn (stateAt q)) (stateAt q).trans.length cs t) ?_)
    · intro v hv; exact hv q hmem
    · intro q' hq'
      obtain rfl : q = q' := by
        simp only [predicted, List.mem_cons, List.not_mem_nil, or_false, Prod.mk.injEq] at hmem hq'
        omega
      rfl
  · rfl

theorem execSll_safe {dec q : Nat} (hmem : (dec, q) ∈ predicted) (rec : Recover) (full : Unit → Prediction)
    {s0 : List PConfig} : ∀ (ts : List Int) (cs : List PConfig),
    Safe (fun r => ∀ d, DSound (sllEnv atn (stateAt q)) (stateAt q).trans.length s0 d →
        r = (execSll (sllEnv atn (stateAt q)) (stateAt q).trans.length rec full ts cs d).1)
      (execSllP (sllEnv atn (stateAt q)) (stateAt q).trans.length dec rec full ts cs) := by
  intro ts
  induction ts with
  | nil =>
    intro cs
    refine Safe.bind ?_ (nextState_safe hmem cs (-1))
    rintro _ rfl
    have h : ∀ d, DSound (sllEnv atn (stateAt q)) (stateAt q).trans.length s0 d → _ := fun d hd => nextState_sound hd cs (-1)
    generalize computeTarget (sllEnv atn (stateAt q)) (stateAt q).trans.length cs (-1) = D at h
    cases D with
    | none =>
      intro d hd
      have h := (h d hd).1
      unfold execSll
      generalize nextState (sllEnv atn (stateAt q)) (stateAt q).trans.length d cs (-1) = x at h
      obtain ⟨a, b⟩ := x
      cases h; rfl
    | some D =>
      have : ∀ d, DSound (sllEnv atn (stateAt q)) (stateAt q).trans.length s0 d →
          (execSll (sllEnv atn (stateAt q)) (stateAt q).trans.length rec full [] cs d).1 =
            match decideState (sllEnv atn (stateAt q)) full D with
            | .inl r => r
            | .inr _ => none := by
        intro d hd
        have h := (h d hd).1
        unfold execSll
        generalize nextState (sllEnv atn (stateAt q)) (stateAt q).trans.length d cs (-1) = x at h
        obtain ⟨a, b⟩ := x
        cases h
        dsimp only
        cases decideState (sllEnv atn (stateAt q)) full D <;> rfl
      dsimp only
      generalize decideState (sllEnv atn (stateAt q)) full D = r at this
      cases r with
      | inl r => exact fun d hd => (this d hd).symm
      | inr u => exact fun d hd => (this d hd).symm
  | cons t ts ih =>
    intro cs
    refine Safe.bind ?_ (nextState_safe hmem cs t)
    rintro _ rfl
    have h : ∀ d, DSound (sllEnv atn (stateAt q)) (stateAt q).trans.length s0 d → _ := fun d hd => nextState_sound hd cs t
    generalize computeTarget (sllEnv atn (stateAt q)) (stateAt q).trans.length cs t = D at h
    cases D with
    | none =>
      intro d hd
      have h := (h d hd).1
      unfold execSll
      generalize nextState (sllEnv atn (stateAt q)) (stateAt q).trans.length d cs t = x at h
      obtain ⟨a, b⟩ := x
      cases h; rfl
    | some D =>
      have : ∀ d, DSound (sllEnv atn (stateAt q)) (stateAt q).trans.length s0 d → ∃ d',
          DSound (sllEnv atn (stateAt q)) (stateAt q).trans.length s0 d' ∧
          (execSll (sllEnv atn (stateAt q)) (stateAt q).trans.length rec full (t :: ts) cs d).1 =
            match decideState (sllEnv atn (stateAt q)) full D with
            | .inl r => r
            | .inr _ => (execSll (sllEnv atn (stateAt q)) (stateAt q).trans.length rec full ts D.configs d').1 := by
        intro d hd
        have h := h d hd
        conv => rhs; ext d'; rhs; lhs; unfold execSll
        generalize nextState (sllEnv atn (stateAt q)) (stateAt q).trans.length d cs t = x at h
        obtain ⟨a, b⟩ := x
        obtain ⟨h, hs⟩ := h
        cases h
        refine ⟨b, hs, ?_⟩
        dsimp only
        cases decideState (sllEnv atn (stateAt q)) full D <;> rfl
      dsimp only
      generalize decideState (sllEnv atn (stateAt q)) full D = r at this
      cases r with
      | inl r => exact fun d hd => by obtain ⟨_, _, e⟩ := this d hd; exact e.symm
      | inr u =>
        refine Safe.mono ?_ (ih D.configs)
        intro r hr d hd
        obtain ⟨d', hs, e⟩ := this d hd
        rw [e]; exact hr d' hs

theorem predict_safe {dec q : Nat} (hmem : (dec, q) ∈ predicted) (rec : Recover) (stack : List Nat) (ts : List Int) :
    Safe (· = (adaptivePredict atn rec q 0 stack ts ⟨[], []⟩).1) (adaptivePredictP atn rec dec q 0 stack ts) := by
  have hst : atn.states[q]? = some (stateAt q) := (decision_good hmem).at_
  unfold adaptivePredictP
  rw [hst]
  dsimp only
  have hkey : (if isPrecDecision atn (stateAt q) = true then (0 : Int) else 0) = 0 := ite_self _
  have hone : ∀ q', (dec, q') ∈ predicted → q = q' := by
    intro q' hq'
    simp only [predicted, List.mem_cons, List.not_mem_nil, or_false, Prod.mk.injEq] at hmem hq'
    omega
  rw [hkey]
  refine Safe.bind (Q := Right (.start dec 0)) ?_ (Safe.memo (k := .start dec 0) (v := sllStart atn (stateAt q)) ?_)
  · intro v hv
    have hv : v = sllStart atn (stateAt q) := hv rfl q hmem
    subst hv
    refine Safe.mono ?_ (execSll_safe hmem rec _ ts (sllStart atn (stateAt q)) (s0 := sllStart atn (stateAt q)))
    intro r hr
    unfold adaptivePredict
    rw [hst]
    dsimp only
    rw [hkey]
    refine hr _ ⟨?_, fun _ _ _ h => (by cases h)⟩
    intro s hs
    simp only [Dict.get_set_self] at hs
    exact (Option.some.inj hs).symm
  · intro _ q' hq'
    rw [hone q' hq']

/-! ## The methods of the parser -/

/-- Whatever the predictions see, a method's result is that with predictions as values. -/
def Uni {τ : Type} (g : G τ) : Prop :=
  ∀ (rec : Recover) (stack : List Nat) (ts : Toks),
    Safe (fun r => g (pureRun rec) ⟨stack, 0⟩ ts = .done r) (g (generatedRun atn rec) ⟨stack, 0⟩ ts)

section
variable {τ τ' : Type} {g g' : G τ} {f : τ → G τ'}

theorem uni_bind (h : Uni g) (hf : ∀ a, Uni (f a)) : Uni (g >>= f) := by
  intro rec stack ts
  refine Safe.bind ?_ (h rec stack ts)
  intro r hr
  cases r with
  | ok a s => exact Safe.mono (fun r h => (bind_done hr).trans h) (hf a rec stack s)
  | syntaxError => exact bind_done hr
  | stuck => exact bind_done hr

theorem uni_ite {b : Prop} [Decidable b] (h : Uni g) (h' : Uni g') : Uni (if b then g else g') := by
  split
  · exact h
  · exact h'

theorem uni_pure {a : τ} : Uni (pure a : G τ) := fun _ _ _ => rfl
theorem uni_gpure {a : τ} : Uni (G.pure a : G τ) := fun _ _ _ => rfl
theorem uni_fail : Uni (G.fail : G τ) := fun _ _ _ => rfl
theorem uni_stuck : Uni (G.stuck : G τ) := fun _ _ _ => rfl
theorem uni_la : Uni G.la := fun _ _ _ => rfl
theorem uni_sync {p : Nat} : Uni (G.sync p) := fun _ _ _ => rfl
theorem uni_tok {k : Int} : Uni (G.tok k) := fun _ _ ts => by cases ts <;> rfl
theorem uni_tokIn {k : List Int} : Uni (G.tokIn k) := fun _ _ ts => by cases ts <;> rfl
theorem uni_precpred {p : Int} : Uni (G.precpred p) := fun _ _ _ => rfl
theorem uni_call {s : Nat} (h : Uni g) : Uni (G.call s g) := fun rec stack ts => h rec (s :: stack) ts
theorem uni_withPrec (h : Uni g) : Uni (G.withPrec 0 g) := fun rec stack ts => h rec stack ts
theorem uni_remaining {f : Nat → G τ} (h : ∀ n, Uni (f n)) : Uni (G.remaining f) := fun rec stack ts => h _ rec stack ts
theorem uni_rule {i : Nat} {g : G (List PTree)} (h : Uni g) : Uni (mkRule i g) := uni_bind h fun _ => uni_pure

theorem uni_predict {dec q : Nat} (hmem : (dec, q) ∈ predicted) (hdec : atn.decisions[dec]? = some q) : Uni (G.predict dec) := by
  intro rec stack ts
  refine Safe.bind (Q := (· = (adaptivePredict atn rec q 0 stack (ts.map (·.1)) ⟨[], []⟩).1)) ?_ ?_
  · rintro _ rfl
    show CProg.bind (match atn.decisions[dec]? with
      | none => _
      | some p => _) _ = _
    rw [hdec]; rfl
  · show Safe _ (match atn.decisions[dec]? with
      | none => CProg.done none
      | some p => adaptivePredictP atn rec dec p 0 stack (ts.map (·.1)))
    rw [hdec]
    exact predict_safe hmem rec stack _
end

theorem uni5 : Uni (G.predict 5) := uni_predict (q := 48) (by decide) rfl
theorem uni7 : Uni (G.predict 7) := uni_predict (q := 68) (by decide) rfl
theorem uni8 : Uni (G.predict 8) := uni_predict (q := 70) (by decide) rfl
theorem uni9 : Uni (G.predict 9) := uni_predict (q := 84) (by decide) rfl
theorem uni23 : Uni (G.predict 23) := uni_predict (q := 147) (by decide) rfl

theorem Uni.out {τ : Type} {g : G τ} (h : Uni g) (rec : Recover) (stack : List Nat) (ts : Toks) :
    Safe (fun r => g (pureRun rec) ⟨stack, 0⟩ ts = .done r) (g (generatedRun atn rec) ⟨stack, 0⟩ ts) := h rec stack ts

attribute [local irreducible] Uni

macro "uni" : tactic => `(tactic| repeat' with_reducible (first
  | assumption
  | exact uni_pure | exact uni_gpure | exact uni_fail | exact uni_stuck | exact uni_la | exact uni_sync | exact uni_tok | exact uni_tokIn
  | exact uni_precpred | exact uni5 | exact uni7 | exact uni8 | exact uni9 | exact uni23
  | apply uni_rule | apply uni_call | apply uni_withPrec | apply uni_ite | apply uni_remaining
  | refine uni_bind ?_ ?_ | intro _))

theorem uni_optTok {k : Int} {s : Nat} : Uni (G.optTok k s) := by unfold G.optTok; uni
theorem uni_integer : Uni integerG := by unfold integerG; uni
theorem uni_number : Uni numberG := by unfold numberG; have := uni_integer; uni
theorem uni_signedClock : Uni signedClockG := by unfold signedClockG; have := uni_integer; uni
theorem uni_tzOffset : Uni tzOffsetG := by unfold tzOffsetG; have := uni_integer; uni
theorem uni_dateOrInt {s c : Nat} : Uni (dateOrIntG s c) := by unfold dateOrIntG; have := uni_integer; uni
theorem uni_tzAny {s c : Nat} : Uni (tzAnyG s c) := by unfold tzAnyG; have := uni_tzOffset; uni
theorem uni_wsOrT : Uni wsOrTG := by unfold wsOrTG; uni
theorem uni_timestamp : Uni timestampG := by
  unfold timestampG
  have h1 := uni_wsOrT
  have h2 := uni_signedClock
  have h3 := uni_integer
  have h4 : ∀ s c, Uni (dateOrIntG s c) := fun _ _ => uni_dateOrInt
  have h5 : ∀ s c, Uni (tzAnyG s c) := fun _ _ => uni_tzAny
  have h6 : ∀ s c, Uni (G.optTok s c) := fun _ _ => uni_optTok
  repeat' (first | apply h4 | apply h5 | apply h6 | uni)

section
variable {shift : G PTree} (hs : Uni shift)
include hs

theorem uni_basic : Uni (basicG shift) := by unfold basicG; have := uni_number; uni
theorem uni_logarithm : Uni (logarithmG shift) := by unfold logarithmG; have := uni_basic hs; uni
theorem uni_power : Uni (powerG shift) := by unfold powerG; have := uni_logarithm hs; have := uni_integer; uni
omit hs in
theorem uni_wsPlus : ∀ n, Uni (wsPlusG n)
  | 0 => uni_stuck
  | n + 1 => by unfold wsPlusG; have := uni_wsPlus n; uni
theorem uni_factor (l : PTree) : Uni (factorG shift l) := by
  unfold factorG
  have := uni_power hs
  have h : ∀ n, Uni (wsPlusG n) := uni_wsPlus
  repeat' (first | apply h | uni)
theorem uni_productLoop : ∀ n alt l, Uni (productLoopG shift n alt l)
  | 0, _, _ => uni_stuck
  | n + 1, alt, l => by
    unfold productLoopG
    have h1 : ∀ l, Uni (factorG shift l) := uni_factor hs
    have h2 : ∀ alt l, Uni (productLoopG shift n alt l) := fun alt l => uni_productLoop n alt l
    repeat' (first | apply h1 | apply h2 | uni)
theorem uni_product : Uni (productG shift) := by
  unfold productG
  have h0 := uni_power hs
  have h1 : ∀ n alt l, Uni (productLoopG shift n alt l) := uni_productLoop hs
  repeat' (first | apply h1 | uni)
theorem uni_shiftStep : Uni (shiftSpecStepG shift) := by
  unfold shiftSpecStepG
  have h0 := uni_product hs
  have h1 := uni_number
  have h2 := uni_timestamp
  have h6 : ∀ s c, Uni (G.optTok s c) := fun _ _ => uni_optTok
  repeat' (first | apply h6 | uni)
end

theorem uni_shiftSpec : ∀ n, Uni (shiftSpecG n)
  | 0 => uni_stuck
  | n + 1 => uni_shiftStep (uni_shiftSpec n)

theorem uni_unitSpec : Uni unitSpecG := by
  unfold unitSpecG
  have h : ∀ n, Uni (shiftSpecG n) := uni_shiftSpec
  repeat' (first | apply h | uni)

set_option linter.constructorNameAsVariable false in
theorem parser_safe (rec : Recover) {toks : Toks} {res : GRes PTree} {x : Py Node}
    (hu : Safe (fun r => CProg.done res = .done r) (unitSpecG (generatedRun atn rec) ⟨[], 0⟩ toks))
    (h : finish res = some x) : Safe (· = some x) (parserP rec toks) := by
  unfold parserP
  rw [parser_atn]
  dsimp only
  generalize unitSpecG (generatedRun atn rec) ⟨[], 0⟩ toks = p at hu
  refine Safe.bind ?_ hu
  intro r hr
  cases hr
  exact h

attribute [local irreducible] Safe parserP unitSpecG

theorem parser_tokens (rec : Recover) {ts : List Token} (hc : Convertible ts) :
    Safe (· = some (parseTokens ts)) (parserP rec (ts.map Token.raw)) := by
  have h := unitSpec_ok rec hc
  have hu := Uni.out uni_unitSpec rec [] (ts.map Token.raw)
  generalize unitSpecG (pureRun rec) ⟨[], 0⟩ (ts.map Token.raw) = p at h hu
  obtain ⟨res, rfl, h2⟩ := h
  exact parser_safe rec hu h2

/-- `parse` as a program: whatever right values or nothing its reads see, it returns what the grammar's parser returns. -/
theorem parse_safe (rec : Recover) (s : Str) : Safe (· = some (parse s)) (parseP rec s) := by
  unfold parseP parse
  refine Safe.bind (Q := (· = some ((lex (strip s)).map Token.raw))) ?_ (lex_safe (strip s))
  intro o ho
  subst ho
  exact parser_tokens rec (convertible_lex (strip s))

end Verif.PSim
