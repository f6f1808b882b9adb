import Verif.Lemmas.Arrange
import Verif.Lemmas.Load
import Verif.Lemmas.Declares
/-!
# Documents as sequences of registrations
-/

namespace Verif.Arr
open Spec

/-- the registration made for a declaration -/
def declStep : UnitDecl → Step
  | .lazy t r => .define t r
  | .basis b => .addUnit (.basis b)

theorem declStep_names (d : UnitDecl) : (declStep d).names = some (declRef d) := by cases d <;> rfl

theorem add_step (d : UnitDecl) (s : System) (h : (declStep d).outcome s = .ok ()) : d.add s = .ok ((declStep d).register s) := by
  cases d with
  | lazy t r =>
    have h' : ((s.alloc t r).2.addUnit (.lazy (s.alloc t r).1) false).1 = .ok () := h
    show _ = Except.ok ((s.alloc t r).2.addUnit (.lazy (s.alloc t r).1) false).2
    simp only [UnitDecl.add]
    revert h'
    generalize (s.alloc t r).2.addUnit (.lazy (s.alloc t r).1) false = x
    obtain ⟨a, b⟩ := x
    intro h'
    cases h'
    rfl
  | basis b =>
    have h' : (s.addUnit (.unit (.basis b)) false).1 = .ok () := h
    show _ = Except.ok (s.addUnit (.unit (.basis b)) false).2
    simp only [UnitDecl.add]
    revert h'
    generalize s.addUnit (.unit (.basis b)) false = x
    obtain ⟨a, b⟩ := x
    intro h'
    cases h'
    rfl

theorem addDecls_steps : ∀ (ds : List UnitDecl) (ts : List Step) (s : System), Filled ts s →
    NoShared (ts ++ ds.map declStep) → addDecls ds s = .ok (registry (ds.map declStep) s)
  | [], _, _, _, _ => rfl
  | d :: ds, ts, s, h, hn => by
    have hs := h.step (declStep d) (fun u hu a b ha hb => (List.pairwise_append.1 hn).2.2 u hu _ (by simp) a b ha hb)
    show (do addDecls ds (← d.add s)) = _
    rw [add_step d s (hs.2 _ (declStep_names d))]
    exact addDecls_steps ds (ts ++ [declStep d]) _ hs.1 (by rw [List.append_assoc]; exact hn)

theorem foldl_addPrefix (ps : List Prefix) : ∀ s : System, ps.foldl System.addPrefix s = registry (ps.map Step.addPrefix) s := by
  induction ps with
  | nil => intro s; rfl
  | cons p ps ih => intro s; exact ih _

/-- the registrations made when a document is read -/
def docSteps (ps : List Prefix) (ds : List UnitDecl) : List Step := ps.map Step.addPrefix ++ ds.map declStep

theorem docSteps_noShared {ps : List Prefix} {ds : List UnitDecl}
    (h1 : Distinct IsName ds) (h2 : Distinct IsSymbol ds) (h3 : Distinct IsAlias ds) (h4 : Distinct IsAliasSymbol ds) :
    NoShared (docSteps ps ds) := by
  refine List.pairwise_append.2 ⟨?_, ?_, ?_⟩
  · rw [List.pairwise_map]
    exact List.pairwise_of_forall fun p q a b ha => by cases ha
  · rw [List.pairwise_map]
    have h12 := (h1.and h2).and (h3.and h4)
    refine h12.imp ?_
    rintro d e ⟨⟨k1, k2⟩, k3, k4⟩ a b ha hb
    rw [declStep_names] at ha hb
    cases ha; cases hb
    exact ⟨fun k x y => k1 k ⟨x, y⟩, fun k x y => k2 k ⟨x, y⟩, fun k x y => k3 k ⟨x, y⟩, fun k x y => k4 k ⟨x, y⟩⟩
  · intro t ht u _ a b ha
    obtain ⟨p, _, rfl⟩ := List.mem_map.1 ht
    cases ha

theorem parseSystem_steps {order : List Str → List Str} {t : Tag} {ps : List Prefix} {ds : List UnitDecl}
    (h : Declares order t ps ds) (hn : NoShared (docSteps ps ds)) :
    parseSystem false order t = .ok (registry (docSteps ps ds) System.empty) := by
  rw [parseSystem_eq order t ps ds ((reads_iff order t ps ds).2 h), foldl_addPrefix,
    addDecls_steps ds (ps.map Step.addPrefix) _ (filled (List.pairwise_append.1 hn).1) hn, docSteps, registry_append]

theorem docSteps_prefixes (ps : List Prefix) (ds : List UnitDecl) : prefixesAdded (docSteps ps ds) = ps := by
  unfold prefixesAdded docSteps
  rw [List.filterMap_append]
  have h1 : (ps.map Step.addPrefix).filterMap Step.prefix? = ps := by
    induction ps with
    | nil => rfl
    | cons p ps ih => simp only [List.map_cons, List.filterMap_cons, Step.prefix?, ih]
  have h2 : (ds.map declStep).filterMap Step.prefix? = [] := by
    rw [List.filterMap_eq_nil_iff]
    intro t ht
    obtain ⟨d, _, rfl⟩ := List.mem_map.1 ht
    cases d <;> rfl
  rw [h1, h2, List.append_nil]

theorem each_perm {α β} {R : α → β → Prop} {l l' : List α} (hp : l.Perm l') : ∀ {m : List β}, Each R l m →
    ∃ m', Each R l' m' ∧ m.Perm m' := by
  induction hp with
  | nil => intro m h; exact ⟨m, h, .refl _⟩
  | cons a _ ih =>
    intro m h
    cases h with
    | cons h1 h2 =>
      obtain ⟨m', e, p⟩ := ih h2
      exact ⟨_ :: m', .cons h1 e, p.cons _⟩
  | swap a b l =>
    intro m h
    cases h with
    | cons h1 h2 =>
      cases h2 with
      | cons h2 h3 => exact ⟨_, .cons h2 (.cons h1 h3), .swap _ _ _⟩
  | trans _ _ ih1 ih2 =>
    intro m h
    obtain ⟨m1, e1, p1⟩ := ih1 h
    obtain ⟨m2, e2, p2⟩ := ih2 e1
    exact ⟨m2, e2, p1.trans p2⟩

theorem each_prefix_order (q : List Str → List Str) {l : List Tag} {ps : List Prefix} (h : Each (PrefixIs id) l ps) :
    ∃ ps', Each (PrefixIs q) l ps' := by
  induction h with
  | nil => exact ⟨[], .nil⟩
  | @cons t p l ps hp _ ih =>
    obtain ⟨ps', e⟩ := ih
    obtain ⟨name, value, h1, h2, h3, h4, h5, h6, h7⟩ := hp
    exact ⟨⟨p.name, p.value, q p.symbols⟩ :: ps', .cons ⟨name, value, h1, h2, h3, h4, h5, h6, by rw [h7]; rfl⟩ e⟩

end Verif.Arr
