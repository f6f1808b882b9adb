import Verif.Model.System
import Verif.Spec.Lookup
/-!
# Two parsers that agree on the texts of a system
-/

namespace Verif
open Spec (Query after)

/-- the two parsers agree on every definition of the system -/
def System.Agree (pf pf' : Str → Py Node) (s : System) : Prop := ∀ d ∈ s.heap.map LazyObj.defn, pf d = pf' d

/-- the same results and the same states, and the definitions stay -/
def Cong {α : Type} (pf pf' : Str → Py Node) (f f' : SysM α) : Prop :=
  ∀ s, s.Agree pf pf' → f s = f' s ∧ (f s).2.Agree pf pf'

variable {pf pf' : Str → Py Node} {o : List Str → List Str}

theorem agree_setResolved {s : System} (id : Nat) (r : Ref) (h : s.Agree pf pf') : (s.setResolved id r).Agree pf pf' := by
  intro d hd
  apply h
  unfold System.setResolved at hd
  simp only at hd
  obtain ⟨x, hx, rfl⟩ := List.mem_map.1 hd
  obtain ⟨i, hi, rfl⟩ := List.mem_iff_getElem.1 hx
  rw [List.length_modify] at hi
  rw [List.getElem_modify]
  refine List.mem_map.2 ⟨s.heap[i], List.getElem_mem hi, ?_⟩
  split <;> rfl

theorem agree_addUnit {s : System} (e : Entry) (b : Bool) (h : s.Agree pf pf') : (s.addUnit e b).2.Agree pf pf' := by
  unfold System.addUnit
  cases s.namesOf e with
  | error _ => exact h
  | ok ref =>
    simp only
    cases (if b then none else s.collision ref) with
    | some _ => exact h
    | none => exact h

theorem cong_lookupAll {look look' : Str → SysM Ref} (hl : ∀ n, Cong pf pf' (look n) (look' n)) (ns : List Str) :
    Cong pf pf' (lookupAll look ns) (lookupAll look' ns) := by
  induction ns with
  | nil => intro s h; exact ⟨rfl, h⟩
  | cons n ns ih =>
    intro s h
    obtain ⟨h1, h2⟩ := hl n s h
    unfold lookupAll
    rw [← h1]
    rcases hx : look n s with ⟨r, s1⟩
    rw [hx] at h2
    cases r with
    | error e => exact ⟨rfl, h2⟩
    | ok r =>
      obtain ⟨h3, h4⟩ := ih s1 h2
      simp only
      rw [← h3]
      rcases hy : lookupAll look ns s1 with ⟨r2, s2⟩
      rw [hy] at h4
      cases r2 <;> exact ⟨rfl, h4⟩

theorem cong_resolve {look look' : Str → SysM Ref} (hl : ∀ n, Cong pf pf' (look n) (look' n)) (id : Nat) :
    Cong pf pf' (resolve ⟨pf, o⟩ look id) (resolve ⟨pf', o⟩ look' id) := by
  intro s h
  unfold resolve
  cases hid : s.heap[id]? with
  | none => exact ⟨rfl, h⟩
  | some ob =>
    simp only
    cases hr : ob.resolved with
    | some r => exact ⟨rfl, h⟩
    | none =>
      simp only
      rw [← h ob.defn (List.mem_map.2 ⟨ob, List.mem_of_getElem? hid, rfl⟩)]
      cases pf ob.defn with
      | error e => exact ⟨rfl, h⟩
      | ok expr =>
        simp only
        obtain ⟨h3, h4⟩ := cong_lookupAll hl (o expr.identifiers) s h
        rw [← h3]
        rcases hy : lookupAll look (o expr.identifiers) s with ⟨r2, s2⟩
        rw [hy] at h4
        cases r2 with
        | error e => exact ⟨rfl, h4⟩
        | ok refs =>
          simp only
          cases mkUnit (some ob.names) expr refs with
          | error e => exact ⟨trivial, h4⟩
          | ok r => exact ⟨trivial, agree_setResolved _ _ h4⟩

theorem cong_fetch {look look' : Str → SysM Ref} (hl : ∀ n, Cong pf pf' (look n) (look' n)) (e : Option Entry) :
    Cong pf pf' (fetch ⟨pf, o⟩ look e) (fetch ⟨pf', o⟩ look' e) := by
  intro s h
  unfold fetch
  match e with
  | none => exact ⟨rfl, h⟩
  | some (.unit r) => exact ⟨rfl, h⟩
  | some (.lazy id) =>
    simp only
    obtain ⟨h1, h2⟩ := cong_resolve (o := o) hl id s h
    rw [← h1]
    rcases hx : resolve ⟨pf, o⟩ look id s with ⟨r, s1⟩
    rw [hx] at h2
    cases r with
    | error e => exact ⟨rfl, h2⟩
    | ok r =>
      simp only
      have h3 := agree_addUnit (.unit r) true h2
      rcases hy : s1.addUnit (.unit r) true with ⟨r2, s2⟩
      rw [hy] at h3
      cases r2 <;> exact ⟨trivial, h3⟩

theorem cong_byNameOrSymbol {look look' : Str → SysM Ref} (hl : ∀ n, Cong pf pf' (look n) (look' n)) (n : Str) :
    Cong pf pf' (byNameOrSymbol ⟨pf, o⟩ look n) (byNameOrSymbol ⟨pf', o⟩ look' n) := by
  intro s h
  unfold byNameOrSymbol
  obtain ⟨h1, h2⟩ := cong_fetch (o := o) hl (s.nameEntry n) s h
  rw [← h1]
  rcases hx : fetch ⟨pf, o⟩ look (s.nameEntry n) s with ⟨r, s1⟩
  rw [hx] at h2
  match r with
  | .error e => exact ⟨rfl, h2⟩
  | .ok (some r) => exact ⟨rfl, h2⟩
  | .ok none =>
    simp only
    exact cong_fetch (o := o) hl (s1.symbolEntry n) s1 h2

theorem cong_prefixLoop {look look' : Str → SysM Ref} (hl : ∀ n, Cong pf pf' (look n) (look' n)) (n : Str)
    (ps : List (Str × Prefix)) : Cong pf pf' (prefixLoop ⟨pf, o⟩ look n ps) (prefixLoop ⟨pf', o⟩ look' n ps) := by
  induction ps with
  | nil => intro s h; exact ⟨rfl, h⟩
  | cons p ps ih =>
    intro s h
    obtain ⟨p, pre⟩ := p
    unfold prefixLoop
    cases dropPrefix p n with
    | none => exact ih s h
    | some rest =>
      simp only
      obtain ⟨h1, h2⟩ := cong_byNameOrSymbol (o := o) hl rest s h
      rw [← h1]
      rcases hx : byNameOrSymbol ⟨pf, o⟩ look rest s with ⟨r, s1⟩
      rw [hx] at h2
      match r with
      | .error e => exact ⟨rfl, h2⟩
      | .ok none => exact ih s1 h2
      | .ok (some u) =>
        simp only
        cases prefixed p pre rest u <;> exact ⟨trivial, h2⟩

theorem cong_lookupStep {look look' : Str → SysM Ref} (hl : ∀ n, Cong pf pf' (look n) (look' n)) (n : Str) :
    Cong pf pf' (lookupStep ⟨pf, o⟩ look n) (lookupStep ⟨pf', o⟩ look' n) := by
  intro s h
  unfold lookupStep
  obtain ⟨h1, h2⟩ := cong_byNameOrSymbol (o := o) hl n s h
  rw [← h1]
  rcases hx : byNameOrSymbol ⟨pf, o⟩ look n s with ⟨r, s1⟩
  rw [hx] at h2
  match r with
  | .error e => exact ⟨rfl, h2⟩
  | .ok (some r) => exact ⟨rfl, h2⟩
  | .ok none =>
    simp only
    obtain ⟨h3, h4⟩ := cong_prefixLoop (o := o) hl n s1.prefixNames s1 h2
    rw [← h3]
    rcases hy : prefixLoop ⟨pf, o⟩ look n s1.prefixNames s1 with ⟨r, s2⟩
    rw [hy] at h4
    match r with
    | .error e => exact ⟨rfl, h4⟩
    | .ok (some r) => exact ⟨rfl, h4⟩
    | .ok none =>
      simp only
      obtain ⟨h5, h6⟩ := cong_prefixLoop (o := o) hl n s2.prefixSymbols s2 h4
      rw [← h5]
      rcases hz : prefixLoop ⟨pf, o⟩ look n s2.prefixSymbols s2 with ⟨r, s3⟩
      rw [hz] at h6
      match r with
      | .error e => exact ⟨rfl, h6⟩
      | .ok (some r) => exact ⟨rfl, h6⟩
      | .ok none => exact ⟨rfl, h6⟩

theorem cong_lookup (fuel : Nat) : ∀ n, Cong pf pf' (unitByNameOrSymbol ⟨pf, o⟩ fuel n) (unitByNameOrSymbol ⟨pf', o⟩ fuel n) := by
  induction fuel with
  | zero => intro n s h; exact ⟨rfl, h⟩
  | succ fuel ih => intro n; exact cong_lookupStep ih n

theorem cong_unit (fuel : Nat) {text : Str} (ht : pf text = pf' text) :
    Cong pf pf' (System.unit ⟨pf, o⟩ fuel text) (System.unit ⟨pf', o⟩ fuel text) := by
  intro s h
  unfold System.unit
  simp only
  rw [← ht]
  cases pf text with
  | error e => exact ⟨rfl, h⟩
  | ok expr =>
    simp only
    obtain ⟨h3, h4⟩ := cong_lookupAll (cong_lookup (o := o) fuel) (o expr.identifiers) s h
    rw [← h3]
    rcases hy : lookupAll (unitByNameOrSymbol ⟨pf, o⟩ fuel) (o expr.identifiers) s with ⟨r2, s2⟩
    rw [hy] at h4
    cases r2 <;> exact ⟨rfl, h4⟩

/-- the texts of a query -/
def Spec.Query.texts : Query → List Str
  | .lookup _ _ => []
  | .unit _ t => [t]

theorem cong_after (hist : List Query) (hh : ∀ q ∈ hist, ∀ t ∈ q.texts, pf t = pf' t) (s : System) (h : s.Agree pf pf') :
    after ⟨pf, o⟩ hist s = after ⟨pf', o⟩ hist s ∧ (after ⟨pf, o⟩ hist s).Agree pf pf' := by
  induction hist generalizing s with
  | nil => exact ⟨rfl, h⟩
  | cons q hist ih =>
    have hq : q.effect ⟨pf, o⟩ s = q.effect ⟨pf', o⟩ s ∧ (q.effect ⟨pf, o⟩ s).Agree pf pf' := by
      cases q with
      | lookup f n =>
        obtain ⟨h1, h2⟩ := cong_lookup (o := o) f n s h
        exact ⟨congrArg Prod.snd h1, h2⟩
      | unit f t =>
        obtain ⟨h1, h2⟩ := cong_unit (o := o) f (hh _ List.mem_cons_self t (by simp [Spec.Query.texts])) s h
        exact ⟨congrArg Prod.snd h1, h2⟩
    have := ih (fun q hq => hh q (List.mem_cons_of_mem _ hq)) _ hq.2
    unfold after at this ⊢
    rw [List.foldl_cons, List.foldl_cons, ← hq.1]
    exact this

end Verif
