import Verif.Lemmas.CacheProg
/-!
# Programs that run alone: the sequential functions; caches that hold right values
-/

namespace Verif.PSim
open ParserTable
set_option maxRecDepth 100000

/-- everything stored is right -/
def MemOk (M : Mem) : Prop := ∀ (k : Key) (v : k.Val), M.get k = some v → Right k v

theorem modify_get? {α : Type} {l : List α} {i j : Nat} {f : α → α} {x : α} (h : (l.modify i f)[j]? = some x) :
    ∃ y, l[j]? = some y ∧ (x = y ∧ i ≠ j ∨ i = j ∧ x = f y) := by
  rw [List.getElem?_modify] at h
  cases hy : l[j]? with
  | none => rw [hy] at h; cases h
  | some y =>
    rw [hy] at h
    by_cases hij : i = j
    · simp only [hij, if_true] at h
      cases h
      exact ⟨y, rfl, Or.inr ⟨hij, rfl⟩⟩
    · simp only [hij, if_false] at h
      cases h
      exact ⟨_, rfl, Or.inl ⟨rfl, hij⟩⟩

theorem get_set_cases {K V : Type} [DecidableEq K] {k k' : K} {v w : V} {d : List (K × V)}
    (h : Dict.get k' (Dict.set k v d) = some w) : (k' = k ∧ w = v) ∨ Dict.get k' d = some w := by
  rw [Dict.get_set] at h
  split at h
  next e => cases h; exact Or.inl ⟨e, rfl⟩
  · exact Or.inr h

theorem MemOk.set {M : Mem} (h : MemOk M) {k : Key} {v : k.Val} (hv : Right k v) : MemOk (M.set k v) := by
  intro k' v' hg
  cases k with
  | lexStart m =>
    cases k' with
    | lexStart m' =>
      obtain ⟨d, h1, h2⟩ := Option.bind_eq_some_iff.1 hg
      obtain ⟨y, hy, ⟨rfl, _⟩ | ⟨rfl, rfl⟩⟩ := modify_get? h1
      · exact h (.lexStart m') v' (Option.bind_eq_some_iff.2 ⟨_, hy, h2⟩)
      · cases h2; exact hv
    | lexEdge m' s t =>
      obtain ⟨d, h1, h2⟩ := Option.bind_eq_some_iff.1 hg
      obtain ⟨y, hy, ⟨rfl, _⟩ | ⟨rfl, rfl⟩⟩ := modify_get? h1
      · exact h (.lexEdge m' s t) v' (Option.bind_eq_some_iff.2 ⟨_, hy, h2⟩)
      · exact h (.lexEdge m s t) v' (Option.bind_eq_some_iff.2 ⟨_, hy, h2⟩)
    | start d p => exact h _ v' hg
    | edge d s t => exact h _ v' hg
  | lexEdge m s t =>
    cases k' with
    | lexStart m' =>
      obtain ⟨d, h1, h2⟩ := Option.bind_eq_some_iff.1 hg
      obtain ⟨y, hy, ⟨rfl, _⟩ | ⟨rfl, rfl⟩⟩ := modify_get? h1
      · exact h (.lexStart m') v' (Option.bind_eq_some_iff.2 ⟨_, hy, h2⟩)
      · exact h (.lexStart m) v' (Option.bind_eq_some_iff.2 ⟨_, hy, h2⟩)
    | lexEdge m' s' t' =>
      obtain ⟨d, h1, h2⟩ := Option.bind_eq_some_iff.1 hg
      obtain ⟨y, hy, ⟨rfl, _⟩ | ⟨rfl, rfl⟩⟩ := modify_get? h1
      · exact h (.lexEdge m' s' t') v' (Option.bind_eq_some_iff.2 ⟨_, hy, h2⟩)
      · rcases get_set_cases (V := Option (List LConfig)) h2 with ⟨e, rfl⟩ | h2
        · cases e; exact hv
        · exact h (.lexEdge m s' t') v' (Option.bind_eq_some_iff.2 ⟨_, hy, h2⟩)
    | start d p => exact h _ v' hg
    | edge d s t => exact h _ v' hg
  | start dec p =>
    cases k' with
    | lexStart m' => exact h _ v' hg
    | lexEdge m' s t => exact h _ v' hg
    | start dec' p' =>
      obtain ⟨d, h1, h2⟩ := Option.bind_eq_some_iff.1 hg
      obtain ⟨y, hy, ⟨rfl, _⟩ | ⟨rfl, rfl⟩⟩ := modify_get? h1
      · exact h (.start dec' p') v' (Option.bind_eq_some_iff.2 ⟨_, hy, h2⟩)
      · rcases get_set_cases (V := List PConfig) h2 with ⟨e, rfl⟩ | h2
        · cases e; exact hv
        · exact h (.start dec p') v' (Option.bind_eq_some_iff.2 ⟨_, hy, h2⟩)
    | edge dec' s t =>
      obtain ⟨d, h1, h2⟩ := Option.bind_eq_some_iff.1 hg
      obtain ⟨y, hy, ⟨rfl, _⟩ | ⟨rfl, rfl⟩⟩ := modify_get? h1
      · exact h (.edge dec' s t) v' (Option.bind_eq_some_iff.2 ⟨_, hy, h2⟩)
      · exact h (.edge dec s t) v' (Option.bind_eq_some_iff.2 ⟨_, hy, h2⟩)
  | edge dec s t =>
    cases k' with
    | lexStart m' => exact h _ v' hg
    | lexEdge m' s t => exact h _ v' hg
    | start dec' p' =>
      obtain ⟨d, h1, h2⟩ := Option.bind_eq_some_iff.1 hg
      obtain ⟨y, hy, ⟨rfl, _⟩ | ⟨rfl, rfl⟩⟩ := modify_get? h1
      · exact h (.start dec' p') v' (Option.bind_eq_some_iff.2 ⟨_, hy, h2⟩)
      · exact h (.start dec p') v' (Option.bind_eq_some_iff.2 ⟨_, hy, h2⟩)
    | edge dec' s' t' =>
      obtain ⟨d, h1, h2⟩ := Option.bind_eq_some_iff.1 hg
      obtain ⟨y, hy, ⟨rfl, _⟩ | ⟨rfl, rfl⟩⟩ := modify_get? h1
      · exact h (.edge dec' s' t') v' (Option.bind_eq_some_iff.2 ⟨_, hy, h2⟩)
      · rcases get_set_cases (V := Option PState) h2 with ⟨e, rfl⟩ | h2
        · cases e; exact hv
        · exact h (.edge dec s' t') v' (Option.bind_eq_some_iff.2 ⟨_, hy, h2⟩)

theorem alone_ok {α : Type} {Q : α → Prop} : ∀ {p : CProg α} {M : Mem}, Safe Q p → MemOk M →
    Q (p.alone M).1 ∧ MemOk (p.alone M).2 := by
  intro p
  induction p with
  | done a => exact fun h hM => ⟨h, hM⟩
  | read k c ih =>
    intro M h hM
    show Q ((c (M.get k)).alone M).1 ∧ _
    cases hk : M.get k with
    | none => rw [show (CProg.read k c).alone M = (c none).alone M by rw [← hk]; rfl]; exact ih none h.1 hM
    | some v => rw [show (CProg.read k c).alone M = (c (some v)).alone M by rw [← hk]; rfl]; exact ih _ (h.2 v (hM k v hk)) hM
  | write k v c ih => exact fun h hM => ih h.2 (hM.set h.1)

theorem memOk_of {lexer : Caches} {parser : List PDfa} (hl : lexer.Sound LexTable.atn) (hp : CachesOk parser) :
    MemOk ⟨lexer, parser⟩ := by
  intro k v hk
  cases k with
  | lexStart m =>
    obtain ⟨d, h1, h2⟩ := Option.bind_eq_some_iff.1 hk
    exact (hl.2 m d h1).1 v h2
  | lexEdge m s t =>
    obtain ⟨d, h1, h2⟩ := Option.bind_eq_some_iff.1 hk
    exact (hl.2 m d h1).2 s t v h2
  | start dec p =>
    rintro rfl q hq
    obtain ⟨d, h1, h2⟩ := Option.bind_eq_some_iff.1 hk
    obtain ⟨d', h3, h4⟩ := hp _ hq
    obtain rfl : d = d' := Option.some.inj (h1.symm.trans h3)
    exact h4.start v h2
  | edge dec cs t =>
    intro q hq
    obtain ⟨d, h1, h2⟩ := Option.bind_eq_some_iff.1 hk
    obtain ⟨d', h3, h4⟩ := hp _ hq
    obtain rfl : d = d' := Option.some.inj (h1.symm.trans h3)
    exact h4.edge cs t v h2

/-- `parse` as it runs, with caches that hold right values -/
theorem generatedParse_ok (rec : Recover) (s : Str) {lexer : Caches} {parser : List PDfa} (h : MemOk ⟨lexer, parser⟩) :
    ∃ lexer' parser', generatedParse rec s lexer parser = some (parse s, lexer', parser') ∧ MemOk ⟨lexer', parser'⟩ := by
  obtain ⟨h1, h2⟩ := alone_ok (parse_safe rec s) h
  refine ⟨_, _, ?_, h2⟩
  unfold generatedParse
  dsimp only
  rw [h1]; rfl

/-! ## The programs run alone are the sequential functions -/

theorem alone_bind {α β : Type} {f : α → CProg β} : ∀ {p : CProg α} {M : Mem},
    (p.bind f).alone M = (f (p.alone M).1).alone (p.alone M).2 := by
  intro p
  induction p with
  | done a => intro M; rfl
  | read k c ih => intro M; exact ih (M.get k)
  | write k v c ih => intro M; exact ih

theorem read_eq {α : Type} {k : Key} {o : Option k.Val} {M : Mem} {c : Option k.Val → CProg α} (h : M.get k = o) :
    (CProg.read k c).alone M = (c o).alone M := by
  rw [← h]; rfl

theorem memo_some {k : Key} {v x : k.Val} {M : Mem} (h : M.get k = some x) : (CProg.memo k v).alone M = (x, M) := by
  unfold CProg.memo
  simp only [CProg.alone, h]

theorem memo_none {k : Key} {v : k.Val} {M : Mem} (h : M.get k = none) : (CProg.memo k v).alone M = (v, M.set k v) := by
  unfold CProg.memo
  simp only [CProg.alone, h]

/-- the memory with another DFA for a decision of the parser -/
def Mem.putP (M : Mem) (dec : Nat) (d : PDfa) : Mem := { M with parser := M.parser.set dec d }
/-- the memory with another DFA for a mode of the lexer -/
def Mem.putL (M : Mem) (m : Nat) (d : Dfa) : Mem := { M with lexer := M.lexer.set m d }

section
variable {M : Mem}

theorem modify_set {α : Type} {l : List α} {i : Nat} {x : α} {f : α → α} (h : i < l.length) :
    (l.set i x).modify i f = l.set i (f x) := by
  rw [List.modify_eq_set_getElem? , List.getElem?_set_self h]
  simp

variable {dec : Nat} (hd : dec < M.parser.length)
include hd

theorem nextState_alone (E : PEnv) (n : Nat) (cs : List PConfig) (t : Int) (d : PDfa) :
    (nextStateP E n dec cs t).alone (M.putP dec d) = ((nextState E n d cs t).1, M.putP dec (nextState E n d cs t).2) := by
  by_cases hb : (decide (-1 ≤ t) && decide (t ≤ E.atn.maxTokenType)) = true
  · have e1 : nextStateP E n dec cs t = CProg.memo (.edge dec cs t) (computeTarget E n cs t) := if_pos hb
    have e2 : nextState E n d cs t = match Dict.get (cs, t) d.edges with
      | some r => (r, d)
      | none => (computeTarget E n cs t, { d with edges := Dict.set (cs, t) (computeTarget E n cs t) d.edges }) := if_pos hb
    have hg : (M.putP dec d).get (.edge dec cs t) = Dict.get (cs, t) d.edges := by
      show ((M.parser.set dec d)[dec]?).bind _ = _
      rw [List.getElem?_set_self hd]; rfl
    rw [e1, e2]
    cases hv : Dict.get (cs, t) d.edges with
    | some r => exact memo_some (hg.trans hv)
    | none =>
      refine (memo_none (hg.trans hv)).trans (congrArg (Prod.mk _) ?_)
      show ({ (M.putP dec d) with parser := (M.parser.set dec d).modify dec _ } : Mem) = _
      rw [modify_set hd]; rfl
  · have e1 : nextStateP E n dec cs t = .done (computeTarget E n cs t) := if_neg hb
    have e2 : nextState E n d cs t = (computeTarget E n cs t, d) := if_neg hb
    rw [e1, e2]; rfl

theorem execSll_alone (E : PEnv) (n : Nat) (rec : Recover) (full : Unit → Prediction) : ∀ (ts : List Int)
    (cs : List PConfig) (d : PDfa), (execSllP E n dec rec full ts cs).alone (M.putP dec d) =
      ((execSll E n rec full ts cs d).1, M.putP dec (execSll E n rec full ts cs d).2) := by
  intro ts
  induction ts with
  | nil =>
    intro cs d
    unfold execSllP execSll
    rw [alone_bind, nextState_alone hd]
    generalize nextState E n d cs (-1) = x
    obtain ⟨D, d'⟩ := x
    cases D with
    | none => rfl
    | some D =>
      dsimp only
      cases decideState E full D <;> rfl
  | cons t ts ih =>
    intro cs d
    unfold execSllP execSll
    rw [alone_bind, nextState_alone hd]
    generalize nextState E n d cs t = x
    obtain ⟨D, d'⟩ := x
    cases D with
    | none => rfl
    | some D =>
      dsimp only
      cases decideState E full D with
      | inl r => rfl
      | inr u => exact ih _ _

theorem adaptivePredict_alone (A : Atn) (rec : Recover) (p : Nat) (prec : Int) (stack : List Nat) (ts : List Int) (d : PDfa) :
    (adaptivePredictP A rec dec p prec stack ts).alone (M.putP dec d) =
      ((adaptivePredict A rec p prec stack ts d).1, M.putP dec (adaptivePredict A rec p prec stack ts d).2) := by
  unfold adaptivePredictP adaptivePredict
  cases A.states[p]? with
  | none => rfl
  | some st =>
    dsimp only
    generalize (if isPrecDecision A st = true then prec else 0) = key
    have hg : (M.putP dec d).get (.start dec key) = Dict.get key d.starts := by
      show ((M.parser.set dec d)[dec]?).bind _ = _
      rw [List.getElem?_set_self hd]; rfl
    rw [alone_bind]
    generalize (if isPrecDecision A st = true then precedenceFilter _ _ else startConfigs _ _ _) = v
    cases hv : Dict.get key d.starts with
    | some r =>
      rw [memo_some (k := .start dec key) (v := v) (hg.trans hv)]
      exact execSll_alone hd _ _ _ _ _ _ _
    | none =>
      have hs : (M.putP dec d).set (.start dec key) v = M.putP dec { d with starts := Dict.set key v d.starts } := by
        show ({ (M.putP dec d) with parser := (M.parser.set dec d).modify dec _ } : Mem) = _
        rw [modify_set hd]; rfl
      rw [memo_none (k := .start dec key) (v := v) (hg.trans hv), hs]
      exact execSll_alone hd _ _ _ _ _ _ _
end

section
variable {M : Mem} {mode : Nat} (hm : mode < M.lexer.length)
include hm

theorem lexNext_alone (A : Atn) (s : List LConfig) (t : Int) (d : Dfa) :
    (lexNextP A mode s t).alone (M.putL mode d) = match Verif.nextState A d s t with
      | none => (none, M.putL mode d)
      | some (r, d') => (some r, M.putL mode d') := by
  unfold lexNextP Verif.nextState
  by_cases hb : (decide (0 ≤ t) && decide (t ≤ 127)) = true
  · rw [if_pos hb, if_pos hb]
    have hg : (M.putL mode d).get (.lexEdge mode s t) = Dict.get (s, t) d.edges := by
      show ((M.lexer.set mode d)[mode]?).bind _ = _
      rw [List.getElem?_set_self hm]; rfl
    simp only [CProg.alone]
    rw [hg]
    cases hv : Dict.get (s, t) d.edges with
    | some r => rfl
    | none =>
      dsimp only
      cases Verif.computeTarget A s t with
      | none => rfl
      | some x =>
        show ((_, (M.putL mode d).set (.lexEdge mode s t) x) : _ × Mem) = _
        refine congrArg (Prod.mk _) ?_
        show ({ (M.putL mode d) with lexer := (M.lexer.set mode d).modify mode _ } : Mem) = _
        rw [modify_set hm]; rfl
  · rw [if_neg hb, if_neg hb]
    cases Verif.computeTarget A s t <;> rfl

theorem execLoop_alone (A : Atn) : ∀ (cs : Str) (s : List LConfig) (n : Nat) (prev : Option (Int × List LAction × Nat)) (d : Dfa),
    (∀ r d', execLoop A cs s n prev d = some (r, d') →
      (execLoopP A mode cs s n prev).alone (M.putL mode d) = (some r, M.putL mode d')) ∧
    (execLoop A cs s n prev d = none → ((execLoopP A mode cs s n prev).alone (M.putL mode d)).1 = none) := by
  intro cs
  induction cs with
  | nil =>
    intro s n prev d
    unfold execLoopP execLoop
    rw [alone_bind, lexNext_alone hm]
    cases Verif.nextState A d s (-1) with
    | none => exact ⟨fun _ _ h => (by cases h), fun _ => rfl⟩
    | some x =>
      obtain ⟨r, d'⟩ := x
      cases r with
      | none => exact ⟨fun _ _ h => (by cases h; rfl), fun h => (by cases h)⟩
      | some r => exact ⟨fun _ _ h => (by cases h), fun _ => rfl⟩
  | cons c cs ih =>
    intro s n prev d
    unfold execLoopP execLoop
    rw [alone_bind, lexNext_alone hm]
    cases Verif.nextState A d s c.toNat with
    | none => exact ⟨fun _ _ h => (by cases h), fun _ => rfl⟩
    | some x =>
      obtain ⟨r, d'⟩ := x
      cases r with
      | none => exact ⟨fun _ _ h => (by cases h; rfl), fun h => (by cases h)⟩
      | some r => exact ih r (n + 1) (capture A r (n + 1) prev) d'

theorem simMatch_alone (A : Atn) (text : Str) (d : Dfa) :
    (∀ r d', simMatch A mode text d = some (r, d') →
      (simMatchP A mode text).alone (M.putL mode d) = (some r, M.putL mode d')) ∧
    (simMatch A mode text d = none → ((simMatchP A mode text).alone (M.putL mode d)).1 = none) := by
  have hg : (M.putL mode d).get (.lexStart mode) = d.s0 := by
    show ((M.lexer.set mode d)[mode]?).bind _ = _
    rw [List.getElem?_set_self hm]; rfl
  have e : ∀ o, d.s0 = o → (simMatchP A mode text).alone (M.putL mode d) = CProg.alone (match o with
      | some s0 => execLoopP A mode text s0 0 (capture A s0 0 none)
      | none =>
        match startState A mode with
        | none => .done none
        | some s0 => .write (.lexStart mode) s0 (execLoopP A mode text s0 0 (capture A s0 0 none))) (M.putL mode d) := by
    intro o ho
    unfold simMatchP
    refine (read_eq (hg.trans ho)).trans ?_
    cases o <;> rfl
  unfold simMatch
  cases hs : d.s0 with
  | some s0 =>
    rw [e _ hs]
    exact execLoop_alone hm A text s0 0 _ d
  | none =>
    rw [e _ hs]
    dsimp only
    cases startState A mode with
    | none => exact ⟨fun _ _ h => (by cases h), fun _ => rfl⟩
    | some s0 =>
      have hs : (M.putL mode d).set (.lexStart mode) s0 = M.putL mode { d with s0 := some s0 } := by
        show ({ (M.putL mode d) with lexer := (M.lexer.set mode d).modify mode _ } : Mem) = _
        rw [modify_set hm]; rfl
      have e : CProg.alone (.write (.lexStart mode) s0 (execLoopP A mode text s0 0 (capture A s0 0 none))) (M.putL mode d) =
          (execLoopP A mode text s0 0 (capture A s0 0 none)).alone (M.putL mode { d with s0 := some s0 }) := by
        rw [← hs]; rfl
      rw [e]
      exact execLoop_alone hm A text s0 0 _ _
end

end Verif.PSim
