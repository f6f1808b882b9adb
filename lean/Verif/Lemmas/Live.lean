import Verif.Lemmas.LiveSeen
/-! Lookups while others register. -/
namespace Verif.Live
open Spec

/-! ### What others may do -/

/-- Nothing is removed; if `q`, no prefix is added either. -/
structure Grows (q : Prop) (S S' : System) : Prop where
  res : ∀ (id : Nat) o, S.heap[id]? = some o → o.resolved ≠ none → ∃ o', S'.heap[id]? = some o' ∧ o'.resolved ≠ none
  len : S.heap.length ≤ S'.heap.length
  tab : ∀ t k, Dict.get k (S.table t) ≠ none → Dict.get k (S'.table t) ≠ none
  pre : ∀ t, ∃ l, Dict.keys (S'.ptable t) = Dict.keys (S.ptable t) ++ l ∧ (q → l = [])

theorem Grows.refl (q : Prop) (S : System) : Grows q S S :=
  ⟨fun _ o h hr => ⟨o, h, hr⟩, Nat.le_refl _, fun _ _ h => h, fun _ => ⟨[], by simp, fun _ => rfl⟩⟩

theorem Grows.trans {q : Prop} {S S' S'' : System} (h : Grows q S S') (h' : Grows q S' S'') : Grows q S S'' where
  res := by
    intro id o ho hr
    obtain ⟨o', ho', hr'⟩ := h.res id o ho hr
    exact h'.res id o' ho' hr'
  len := Nat.le_trans h.len h'.len
  tab := fun t k hk => h'.tab t k (h.tab t k hk)
  pre := by
    intro t
    obtain ⟨l, e, hl⟩ := h.pre t
    obtain ⟨l', e', hl'⟩ := h'.pre t
    exact ⟨l ++ l', by rw [e', e, List.append_assoc], fun hq => by rw [hl hq, hl' hq]; rfl⟩

theorem Grows.weaken {q q' : Prop} (hq : q' → q) {S S' : System} (h : Grows q S S') : Grows q' S S' :=
  ⟨h.res, h.len, h.tab, fun t => by obtain ⟨l, e, hl⟩ := h.pre t; exact ⟨l, e, fun x => hl (hq x)⟩⟩

theorem table_setEntry (S : System) (t t' : Table) (k : Str) (e : Entry) :
    (S.setEntry t k e).table t' = if t' = t then Dict.set k e (S.table t') else S.table t' := by
  cases t <;> cases t' <;> rfl

theorem ptable_setPrefix (S : System) (t t' : PTable) (k : Str) (p : Prefix) :
    (S.setPrefix t k p).ptable t' = if t' = t then Dict.set k p (S.ptable t') else S.ptable t' := by
  cases t <;> cases t' <;> rfl

theorem Grows.act {q : Prop} (a : Act) (S : System) (hq : q → a.Quiet) : Grows q S (a.run S).2 := by
  cases a with
  | get t n => exact Grows.refl q S
  | read id => exact Grows.refl q S
  | iter t => exact Grows.refl q S
  | next t size i => exact Grows.refl q S
  | set t k e =>
    refine ⟨fun i o h hr => ⟨o, by cases t <;> exact h, hr⟩, Nat.le_of_eq (by cases t <;> rfl), ?_, ?_⟩
    · intro t' k' h
      show Dict.get k' ((S.setEntry t k e).table t') ≠ none
      rw [table_setEntry]
      by_cases et : t' = t
      · rw [if_pos et, Dict.get_set]
        by_cases ek : k' = k
        · rw [if_pos ek]; simp
        · rw [if_neg ek]; exact h
      · rw [if_neg et]; exact h
    · intro t'
      exact ⟨[], by cases t <;> cases t' <;> simp [Act.run, System.setEntry, System.ptable], fun _ => rfl⟩
  | write id r =>
    refine ⟨?_, by simp [Act.run, System.setResolved], fun t k h => by cases t <;> exact h, fun t => ⟨[], by cases t <;> simp [Act.run, System.setResolved, System.ptable], fun _ => rfl⟩⟩
    exact Verif.Grows.setResolved S id r
  | setPrefix t k p =>
    refine ⟨fun i o h hr => ⟨o, by cases t <;> exact h, hr⟩, Nat.le_of_eq (by cases t <;> rfl), fun t' k' h => by cases t <;> cases t' <;> exact h, ?_⟩
    intro t'
    show ∃ l, Dict.keys ((S.setPrefix t k p).ptable t') = _ ∧ _
    rw [ptable_setPrefix]
    by_cases et : t' = t
    · rw [if_pos et, Dict.keys_set]
      by_cases ek : k ∈ Dict.keys (S.ptable t')
      · rw [if_pos ek]; exact ⟨[], by simp, fun _ => rfl⟩
      · rw [if_neg ek]; exact ⟨[k], rfl, fun h => (hq h).elim⟩
    · rw [if_neg et]; exact ⟨[], by simp, fun _ => rfl⟩

theorem Grows.create (q : Prop) (j : Job) (S : System) : Grows q S (j.create S) where
  res := by
    intro id o h hr
    refine ⟨o, ?_, hr⟩
    rw [create_heap, List.getElem?_append_left (List.getElem?_eq_some_iff.1 h).1]; exact h
  len := by rw [create_heap]; simp
  tab := by intro t k h; rw [create_table]; exact h
  pre := by intro t; rw [create_ptable]; exact ⟨[], by simp, fun _ => rfl⟩

/-- everything in `L` is there -/
structure Above (L S : System) : Prop where
  tab : ∀ t k, Dict.get k (L.table t) ≠ none → Dict.get k (S.table t) ≠ none
  len : L.heap.length ≤ S.heap.length
  pre : ∀ t, ∀ k ∈ Dict.keys (L.ptable t), k ∈ Dict.keys (S.ptable t)

theorem Above.grows {q : Prop} {L S S' : System} (h : Above L S) (g : Grows q S S') : Above L S' where
  tab := fun t k hk => g.tab t k (h.tab t k hk)
  len := Nat.le_trans h.len g.len
  pre := by
    intro t k hk
    obtain ⟨l, e, _⟩ := g.pre t
    rw [e]; exact List.mem_append_left _ (h.pre t k hk)

theorem Above.refl (L : System) : Above L L := ⟨fun _ _ h => h, Nat.le_refl _, fun _ _ h => h⟩

section
variable {env : Env} {s : System} {js : List Job} {q : Prop} {L : System}

/-- an entry that is claimed, or the meaning of one -/
def Fits (env : Env) (s : System) (js : List Job) (t : Table) (k : Str) (e : Entry) : Prop :=
  Claim s js t k e ∨ ∃ id r, e = .unit r ∧ Claim s js t k (.lazy id) ∧ Den env (completed js s) id r

/-- what holds of the shared system at any time -/
structure Inv (env : Env) (s : System) (js : List Job) (S : System) : Prop where
  tab : ∀ t k e, Dict.get k (S.table t) = some e → Fits env s js t k e
  ptab : ∀ t p pre, (p, pre) ∈ S.ptable t → PrefixClaim s js t p pre
  heap : ∀ (id : Nat) o, S.heap[id]? = some o → ∃ o0, (completed js s).heap[id]? = some o0 ∧ o.defn = o0.defn ∧
    o.names = o0.names ∧ ∀ r, o.resolved = some r → Den env (completed js s) id r

/-- From a state in which its last access was made, whatever others do in between, every access of the program keeps the
invariant, and whenever it has finished `Q` holds. -/
def Ok {α} (env : Env) (s : System) (js : List Job) (q : Prop) (Q : Py α → System → Prop) : Prog α → System → Prop
  | .done r, S => ∀ S', Inv env s js S' → Grows q S S' → Q r S'
  | .act a k, S => ∀ S', Inv env s js S' → Grows q S S' →
      Inv env s js (a.run S').2 ∧ Grows q S' (a.run S').2 ∧ Ok env s js q Q (k (a.run S').1) (a.run S').2

theorem Ok.weaken {α} {Q Q' : Py α → System → Prop} (hQ : ∀ r S, Q r S → Q' r S) :
    ∀ {m : Prog α} {S}, Ok env s js q Q m S → Ok env s js q Q' m S
  | .done r, _, h => fun S' hI hG => hQ r S' (h S' hI hG)
  | .act a k, S, h => fun S' hI hG =>
      ⟨(h S' hI hG).1, (h S' hI hG).2.1, Ok.weaken hQ (h S' hI hG).2.2⟩

theorem Ok.later {α} {Q : Py α → System → Prop} {m : Prog α} {S S' : System} (h : Ok env s js q Q m S) (hG : Grows q S S') :
    Ok env s js q Q m S' := by
  cases m with
  | done r => exact fun S'' hI hG' => h S'' hI (hG.trans hG')
  | act a k => exact fun S'' hI hG' => h S'' hI (hG.trans hG')

theorem Ok.bind {α β} {Q : Py α → System → Prop} {Q' : Py β → System → Prop} {k : α → Prog β}
    (he : ∀ e S, Q (.error e) S → Q' (.error e) S) :
    ∀ {m : Prog α} {S}, Inv env s js S → Ok env s js q Q m S →
      (∀ x S', Inv env s js S' → Grows q S S' → Q (.ok x) S' → Ok env s js q Q' (k x) S') → Ok env s js q Q' (m.bind k) S
  | .done (.ok x), S, hI, h, hk => hk x S hI (Grows.refl q S) (h S hI (Grows.refl q S))
  | .done (.error e), _, _, h, _ => fun S' hI hG => he e S' (h S' hI hG)
  | .act a c, S, _, h, hk => fun S' hI' hG =>
      ⟨(h S' hI' hG).1, (h S' hI' hG).2.1,
        Ok.bind he (h S' hI' hG).1 (h S' hI' hG).2.2 fun x S'' hI'' hG'' hx =>
          hk x S'' hI'' ((hG.trans (h S' hI' hG).2.1).trans hG'') hx⟩

theorem Ok.done {α} {Q : Py α → System → Prop} {r : Py α} {S : System} (h : ∀ S', Grows q S S' → Q r S') :
    Ok env s js q Q (.done r) S := fun S' _ hG => h S' hG

theorem Ok.one_read {α} {Q : Py α → System → Prop} {a : Act} {k : a.Resp → Prog α} {S : System}
    (hp : ∀ S, (a.run S).2 = S)
    (h : ∀ S', Inv env s js S' → Grows q S S' → Ok env s js q Q (k (a.run S').1) S') :
    Ok env s js q Q ((Prog.one a).bind k) S := by
  intro S' hI hG
  show _ ∧ _ ∧ Ok env s js q Q (k (a.run S').1) _
  rw [hp S']
  exact ⟨hI, Grows.refl q _, h S' hI hG⟩

/-! ### Writes -/

theorem Inv.setEntry {S : System} (h : Inv env s js S) {t : Table} {k : Str} {e : Entry} (hf : Fits env s js t k e) :
    Inv env s js (S.setEntry t k e) := by
  refine ⟨?_, ?_, ?_⟩
  · intro t' k' e' h'
    rw [table_setEntry] at h'
    by_cases et : t' = t
    · rw [if_pos et, Dict.get_set] at h'
      by_cases ek : k' = k
      · rw [if_pos ek] at h'; cases h'; rw [et, ek]; exact hf
      · rw [if_neg ek] at h'; exact h.tab t' k' e' h'
    · rw [if_neg et] at h'; exact h.tab t' k' e' h'
  · intro t' p pre h'
    exact h.ptab t' p pre (by cases t <;> cases t' <;> exact h')
  · intro id o h'
    exact h.heap id o (by cases t <;> exact h')

theorem Inv.setPrefix {S : System} (h : Inv env s js S) {t : PTable} {k : Str} {p : Prefix} (hf : PrefixClaim s js t k p) :
    Inv env s js (S.setPrefix t k p) := by
  refine ⟨?_, ?_, ?_⟩
  · intro t' k' e' h'
    exact h.tab t' k' e' (by cases t <;> cases t' <;> exact h')
  · intro t' p' pre h'
    rw [ptable_setPrefix] at h'
    by_cases et : t' = t
    · rw [if_pos et] at h'
      rcases mem_set h' with h' | h'
      · exact h.ptab t' p' pre h'
      · cases h'; rw [et]; exact hf
    · rw [if_neg et] at h'; exact h.ptab t' p' pre h'
  · intro id o h'
    exact h.heap id o (by cases t <;> exact h')

theorem Inv.setResolved {S : System} (h : Inv env s js S) {id : Nat} {r : Ref} (hr : Den env (completed js s) id r) :
    Inv env s js (S.setResolved id r) := by
  refine ⟨fun t k e h' => h.tab t k e (by cases t <;> exact h'), fun t p pre h' => h.ptab t p pre (by cases t <;> exact h'), ?_⟩
  intro i o ho
  simp only [System.setResolved, List.getElem?_modify] at ho
  cases h1 : S.heap[i]? with
  | none => rw [h1] at ho; cases ho
  | some o1 =>
    rw [h1] at ho
    obtain ⟨o0, h0, hd, hn, hres⟩ := h.heap i o1 h1
    by_cases e : id = i
    · simp [e] at ho
      subst ho
      exact ⟨o0, h0, hd, hn, fun r' hr' => by cases hr'; rw [← e]; exact hr⟩
    · simp [e] at ho
      subst ho
      exact ⟨o0, h0, hd, hn, hres⟩

theorem ok_setKeys {t : Table} {e : Entry} :
    ∀ (ks : List Str) (S : System), (∀ k ∈ ks, Fits env s js t k e) →
      Ok env s js q (fun r S => r = .ok () ∧ ∀ k ∈ ks, Dict.get k (S.table t) ≠ none) (setKeysP t e ks) S
  | [], _, _ => fun _ _ _ => ⟨rfl, fun _ h => nomatch h⟩
  | k :: ks, S, hk => fun S' hI _ => by
      refine ⟨hI.setEntry (hk k (by simp)), Grows.act (.set t k e) S' (fun _ => trivial), ?_⟩
      have ih := ok_setKeys ks (S'.setEntry t k e) fun k' h => hk k' (by simp [h])
      -- the key just written stays
      have key : ∀ {m : Prog Unit} {S0 : System}, Dict.get k (S0.table t) ≠ none →
          Ok env s js q (fun r S => r = .ok () ∧ ∀ k ∈ ks, Dict.get k (S.table t) ≠ none) m S0 →
          Ok env s js q (fun r S => r = .ok () ∧ ∀ k' ∈ k :: ks, Dict.get k' (S.table t) ≠ none) m S0 := by
        intro m
        induction m with
        | done r =>
          intro S0 h0 h S1 hI1 hG1
          obtain ⟨e1, h1⟩ := h S1 hI1 hG1
          refine ⟨e1, fun k' hk' => ?_⟩
          rcases List.mem_cons.1 hk' with rfl | hk'
          · exact hG1.tab t _ h0
          · exact h1 k' hk'
        | act a c ih =>
          intro S0 h0 h S1 hI1 hG1
          obtain ⟨h1, h2, h3⟩ := h S1 hI1 hG1
          exact ⟨h1, h2, ih _ ((hG1.trans h2).tab t _ h0) h3⟩
      refine key ?_ ih
      show Dict.get k ((S'.setEntry t k e).table t) ≠ none
      rw [table_setEntry, if_pos rfl, Dict.get_set, if_pos rfl]; simp

/-- all keys of the unit are there -/
def Present (ref : UnitReference) (S : System) : Prop := ∀ t, ∀ k ∈ keysOf ref t, Dict.get k (S.table t) ≠ none

theorem ok_writeUnit {ref : UnitReference} {e : Entry} (hf : ∀ t, ∀ k ∈ keysOf ref t, Fits env s js t k e) {S : System}
    (hS : Inv env s js S) : Ok env s js q (fun r S => r = .ok () ∧ Present ref S) (writeUnitP ref e) S := by
  have noerr : ∀ {P : System → Prop} {P' : System → Prop} (e : PyErr) (S : System),
      (fun (x : Py Unit) S => x = .ok () ∧ P S) (.error e) S → (fun (x : Py Unit) S => x = .ok () ∧ P' S) (.error e) S := by
    intro _ _ e S h; cases h.1
  refine Ok.bind noerr hS (ok_setKeys (t := .names) _ S (hf .names)) fun _ S1 h1 _ p1 => ?_
  refine Ok.bind noerr h1 (ok_setKeys (t := .symbols) _ S1 (hf .symbols)) fun _ S2 h2 g2 p2 => ?_
  refine Ok.bind noerr h2 (ok_setKeys (t := .aliasNames) _ S2 (hf .aliasNames)) fun _ S3 h3 g3 p3 => ?_
  have h4 := ok_setKeys (env := env) (s := s) (js := js) (q := q) (t := .aliasSymbols) _ S3 (hf .aliasSymbols)
  -- carry the facts about the first three tables through the last loop
  have key : ∀ {m : Prog Unit} {S0 : System}, Grows q S3 S0 →
      Ok env s js q (fun r S => r = .ok () ∧ ∀ k ∈ ref.aliasSymbols, Dict.get k (S.table .aliasSymbols) ≠ none) m S0 →
      Ok env s js q (fun r S => r = .ok () ∧ Present ref S) m S0 := by
    intro m
    induction m with
    | done r =>
      intro S0 g0 h S' hI hG
      obtain ⟨e1, p4⟩ := h S' hI hG
      refine ⟨e1, fun t k hk => ?_⟩
      cases t with
      | names => exact (((g2.trans g3).trans g0).trans hG).tab _ k (p1.2 k hk)
      | symbols => exact ((g3.trans g0).trans hG).tab _ k (p2.2 k hk)
      | aliasNames => exact (g0.trans hG).tab _ k (p3.2 k hk)
      | aliasSymbols => exact p4 k hk
    | act a c ih =>
      intro S0 g0 h S' hI hG
      obtain ⟨h1, h2, h3⟩ := h S' hI hG
      exact ⟨h1, h2, ih _ ((g0.trans hG).trans h2) h3⟩
  exact key (Grows.refl q S3) h4

end
end Verif.Live
