import Verif.Lemmas.Xml
import Verif.Lemmas.Registry
import Verif.Spec.Xml
/-! Loading a document: which spellings end up where. -/
namespace Verif
open Spec

/-- adding the declared units one after the other -/
def addDecls : List UnitDecl → System → Py System
  | [], s => .ok s
  | d :: ds, s => do addDecls ds (← d.add s)

theorem addPrefixes_eq (strict : Bool) (order : List Str → List Str) : ∀ (ts : List Tag) (ps : List Prefix) (s : System),
    ts.mapM (handlePrefix strict order) = .ok ps → addPrefixes strict order ts s = .ok (ps.foldl System.addPrefix s)
  | [], ps, s, h => by
    simp only [List.mapM_nil, pure, Except.pure] at h
    cases h; rfl
  | t :: ts, ps, s, h => by
    rw [List.mapM_cons] at h
    unfold addPrefixes
    simp only [bind, Except.bind] at h ⊢
    cases h1 : handlePrefix strict order t with
    | error e => rw [h1] at h; cases h
    | ok p =>
      rw [h1] at h
      simp only at h ⊢
      cases h2 : ts.mapM (handlePrefix strict order) with
      | error e => rw [h2] at h; cases h
      | ok ps' =>
        rw [h2] at h
        simp only [pure, Except.pure] at h
        cases h
        rw [addPrefixes_eq strict order ts ps' _ h2]
        rfl

theorem addUnits_eq (strict : Bool) : ∀ (ts : List Tag) (ds : List UnitDecl) (s : System),
    ts.mapM (handleUnit strict) = .ok ds → addUnits strict ts s = addDecls ds s
  | [], ps, s, h => by
    simp only [List.mapM_nil, pure, Except.pure] at h
    cases h; rfl
  | t :: ts, ps, s, h => by
    rw [List.mapM_cons] at h
    unfold addUnits
    simp only [bind, Except.bind] at h ⊢
    cases h1 : handleUnit strict t with
    | error e => rw [h1] at h; cases h
    | ok p =>
      rw [h1] at h
      simp only at h ⊢
      cases h2 : ts.mapM (handleUnit strict) with
      | error e => rw [h2] at h; cases h
      | ok ps' =>
        rw [h2] at h
        simp only [pure, Except.pure] at h
        cases h
        unfold addDecls
        simp only [bind, Except.bind]
        cases p.add s with
        | error e => rfl
        | ok s' => exact addUnits_eq strict ts ps' s' h2

/-- the declarations of a document, as the reader computes them -/
def DeclReads (strict : Bool) (order : List Str → List Str) (t : Tag) (ps : List Prefix) (ds : List UnitDecl) : Prop :=
  (t.children.filter fun c => decide (c.name = c!"prefix")).mapM (handlePrefix strict order) = .ok ps ∧
  (t.children.filter fun c => decide (c.name = c!"unit")).mapM (handleUnit strict) = .ok ds

/-- the part of the tag left over after prefixes and units -/
theorem parseSystem_eq (order : List Str → List Str) (t : Tag) (ps : List Prefix) (ds : List UnitDecl)
    (h : DeclReads false order t ps ds) :
    parseSystem false order t = addDecls ds (ps.foldl System.addPrefix System.empty) := by
  unfold parseSystem
  rw [Tag.popIter_eq]
  simp only [Tag.popIter_eq, bind, Except.bind]
  rw [addPrefixes_eq false order _ ps _ h.1]
  simp only
  have e : (Tag.mk t.name (t.children.filter (fun c => decide (c.name ≠ c!"prefix"))) t.text).children.filter
      (fun c => decide (c.name = c!"unit")) = t.children.filter (fun c => decide (c.name = c!"unit")) := by
    simp only [Tag.children, List.filter_filter]
    apply List.filter_congr
    intro c _
    by_cases hc : c.name = c!"unit"
    · simp [hc]
    · simp [hc]
  rw [e, addUnits_eq false _ ds _ h.2]
  cases addDecls ds (ps.foldl System.addPrefix System.empty) with
  | error e => rfl
  | ok s =>
    simp only [unhandledContent, Bool.false_eq_true, if_false, ite_self]

/-- the state after a declaration that does not collide -/
theorem add_ok (d : UnitDecl) (s : System) (hc : ¬ Collides s (declRef d)) :
    d.add s = .ok ({ s with heap := s.heap ++ lazyObjs [d] }.register (declRef d)
      (match d with | .lazy _ _ => .lazy s.heap.length | .basis b => .unit (.basis b))) := by
  cases d with
  | lazy t r =>
    have : ({ s with heap := s.heap ++ [⟨t, r, none⟩] } : System).collision r = none := by
      have := (collision_eq_none (s := s) (ref := r)).2 hc
      unfold System.collision at this ⊢; exact this
    simp [UnitDecl.add, System.alloc, System.addUnit, System.namesOf, this, lazyObjs, declRef]
  | basis b =>
    have := (collision_eq_none (s := s) (ref := b.names)).2 hc
    simp [UnitDecl.add, System.addUnit, System.namesOf, this, lazyObjs, declRef]

theorem add_err (d : UnitDecl) (s : System) (hc : Collides s (declRef d)) :
    ∃ k, d.add s = .error (.alreadyRegistered k) := by
  have hne : s.collision (declRef d) ≠ none := fun h => collision_eq_none.1 h hc
  obtain ⟨k, hk⟩ := Option.ne_none_iff_exists'.1 hne
  refine ⟨k, ?_⟩
  cases d with
  | lazy t r =>
    have : ({ s with heap := s.heap ++ [⟨t, r, none⟩] } : System).collision r = some k := by
      unfold System.collision at hk ⊢; exact hk
    simp [UnitDecl.add, System.alloc, System.addUnit, System.namesOf, this]
  | basis b =>
    have : s.collision b.names = some k := hk
    simp [UnitDecl.add, System.addUnit, System.namesOf, this]


/-- how the entry of a declaration is made -/
def declEntry (h : Nat) : UnitDecl → Entry
  | .lazy _ _ => .lazy h
  | .basis b => .unit (.basis b)

theorem withEntries_cons (h : Nat) (d : UnitDecl) (ds : List UnitDecl) :
    withEntries h (d :: ds) = (declRef d, declEntry h d) :: withEntries (h + (lazyObjs [d]).length) ds := by
  cases d <;> rfl

theorem lazyObjs_cons (d : UnitDecl) (ds : List UnitDecl) : lazyObjs (d :: ds) = lazyObjs [d] ++ lazyObjs ds := by
  cases d <;> rfl

theorem add_ok' (d : UnitDecl) (s : System) (hc : ¬ Collides s (declRef d)) :
    d.add s = .ok ({ s with heap := s.heap ++ lazyObjs [d] }.register (declRef d) (declEntry s.heap.length d)) := by
  rw [add_ok d s hc]; cases d <;> rfl

theorem tableIs_step {claims : UnitReference → Str → Prop} {keys : UnitReference → List Str}
    (hk : ∀ r k, k ∈ keys r ↔ claims r k) {units : List (UnitReference × Entry)} {d : Dict Str Entry}
    (h : TableIs claims units d) (ref : UnitReference) (e : Entry)
    (hd : ∀ r' e', (r', e') ∈ units → ∀ k, ¬ (claims r' k ∧ claims ref k)) :
    TableIs claims (units ++ [(ref, e)]) (setAll (keys ref) e d) := by
  intro k e'
  rw [get_setAll]
  by_cases hm : k ∈ keys ref
  · rw [if_pos hm]
    constructor
    · intro he; cases he
      exact ⟨ref, by simp, (hk _ _).1 hm⟩
    · rintro ⟨r, hr, hc⟩
      rcases List.mem_append.1 hr with hr | hr
      · exact absurd ⟨hc, (hk _ _).1 hm⟩ (hd r e' hr k)
      · simp at hr; rw [hr.2]
  · rw [if_neg hm, h k e']
    constructor
    · rintro ⟨r, hr, hc⟩; exact ⟨r, by simp [hr], hc⟩
    · rintro ⟨r, hr, hc⟩
      rcases List.mem_append.1 hr with hr | hr
      · exact ⟨r, hr, hc⟩
      · simp at hr
        rw [hr.1] at hc
        exact absurd ((hk _ _).2 hc) hm

/-- the four tables contain exactly the claims of `units` -/
def Tables (units : List (UnitReference × Entry)) (s : System) : Prop :=
  TableIs IsName units s.names ∧ TableIs IsSymbol units s.symbols ∧
  TableIs IsAlias units s.aliasNames ∧ TableIs IsAliasSymbol units s.aliasSymbols

/-- no two units claim the same spelling of the same kind -/
def AllDistinct (ds : List UnitDecl) : Prop :=
  Distinct IsName ds ∧ Distinct IsSymbol ds ∧ Distinct IsAlias ds ∧ Distinct IsAliasSymbol ds

def Apart (a b : UnitReference) : Prop :=
  (∀ k, ¬ (IsName a k ∧ IsName b k)) ∧ (∀ k, ¬ (IsSymbol a k ∧ IsSymbol b k)) ∧
  (∀ k, ¬ (IsAlias a k ∧ IsAlias b k)) ∧ (∀ k, ¬ (IsAliasSymbol a k ∧ IsAliasSymbol b k))

theorem collides_iff {s : System} {ref : UnitReference} :
    Collides s ref ↔ (∃ k, IsName ref k ∧ Dict.has k s.names = true) ∨ (∃ k, IsSymbol ref k ∧ Dict.has k s.symbols = true) := by
  unfold Collides IsName IsSymbol
  constructor
  · rintro (⟨n, hn, h | ⟨p, hp, hne, h⟩⟩ | ⟨y, hy, h⟩)
    · exact .inl ⟨n.singular, ⟨n, hn, .inl rfl⟩, h⟩
    · exact .inl ⟨p, ⟨n, hn, .inr ⟨hp, hne⟩⟩, h⟩
    · exact .inr ⟨y, hy, h⟩
  · rintro (⟨k, ⟨n, hn, h | ⟨h1, h2⟩⟩, h'⟩ | ⟨y, hy, h⟩)
    · exact .inl ⟨n, hn, .inl (by rw [← h]; exact h')⟩
    · exact .inl ⟨n, hn, .inr ⟨k, h1, h2, h'⟩⟩
    · exact .inr ⟨y, hy, h⟩

theorem not_collides_of_tables {units : List (UnitReference × Entry)} {s : System} (h : Tables units s)
    {ref : UnitReference} (ha : ∀ r e, (r, e) ∈ units → Apart r ref) : ¬ Collides s ref := by
  rw [collides_iff]
  rintro (⟨k, hk, hh⟩ | ⟨k, hk, hh⟩)
  · obtain ⟨e, he⟩ := Option.isSome_iff_exists.1 ((Dict.has_iff _ _).1 hh)
    obtain ⟨r, hr, hc⟩ := (h.1 k e).1 he
    exact (ha r e hr).1 k ⟨hc, hk⟩
  · obtain ⟨e, he⟩ := Option.isSome_iff_exists.1 ((Dict.has_iff _ _).1 hh)
    obtain ⟨r, hr, hc⟩ := (h.2.1 k e).1 he
    exact (ha r e hr).2.1 k ⟨hc, hk⟩

theorem addDecls_ok : ∀ (ds : List UnitDecl) (s : System) (units : List (UnitReference × Entry)),
    Tables units s → (∀ r e, (r, e) ∈ units → ∀ d ∈ ds, Apart r (declRef d)) → AllDistinct ds →
    ∃ s', addDecls ds s = .ok s' ∧ Tables (units ++ withEntries s.heap.length ds) s' ∧
      s'.heap = s.heap ++ lazyObjs ds ∧ s'.prefixNames = s.prefixNames ∧ s'.prefixSymbols = s.prefixSymbols
  | [], s, units, h, _, _ => ⟨s, rfl, by simpa [withEntries] using h, by simp [lazyObjs], rfl, rfl⟩
  | d :: ds, s, units, h, ha, hd => by
    have hnc : ¬ Collides s (declRef d) := not_collides_of_tables h fun r e hr => ha r e hr d (by simp)
    unfold addDecls
    rw [add_ok' d s hnc]
    simp only [bind, Except.bind]
    obtain ⟨hd1, hd2, hd3, hd4⟩ := hd
    have hd1 := List.pairwise_cons.1 hd1
    have hd2 := List.pairwise_cons.1 hd2
    have hd3 := List.pairwise_cons.1 hd3
    have hd4 := List.pairwise_cons.1 hd4
    have ha0 := fun r e hr => ha r e hr d (by simp)
    have ht : Tables (units ++ [(declRef d, declEntry s.heap.length d)])
        ({ s with heap := s.heap ++ lazyObjs [d] }.register (declRef d) (declEntry s.heap.length d)) :=
      ⟨tableIs_step (keys := fun r => nameKeys r.name) (fun r k => mem_nameKeys_iff) h.1 _ _ (fun r e hr => (ha0 r e hr).1),
       tableIs_step (keys := fun r => r.symbols) (fun r k => Iff.rfl) h.2.1 _ _ (fun r e hr => (ha0 r e hr).2.1),
       tableIs_step (keys := fun r => aliasKeys r.aliasNames) (fun r k => mem_aliasKeys_iff) h.2.2.1 _ _
         (fun r e hr => (ha0 r e hr).2.2.1),
       tableIs_step (keys := fun r => r.aliasSymbols) (fun r k => Iff.rfl) h.2.2.2 _ _ (fun r e hr => (ha0 r e hr).2.2.2)⟩
    obtain ⟨s', e, t, hh, hp, hq⟩ := addDecls_ok ds _ _ ht (by
      intro r e hr d' hd'
      rcases List.mem_append.1 hr with hr | hr
      · exact ha r e hr d' (List.mem_cons_of_mem _ hd')
      · simp at hr
        rw [hr.1]
        exact ⟨hd1.1 d' hd', hd2.1 d' hd', hd3.1 d' hd', hd4.1 d' hd'⟩) ⟨hd1.2, hd2.2, hd3.2, hd4.2⟩
    refine ⟨s', e, ?_, ?_, hp, hq⟩
    · rw [withEntries_cons]
      simpa [System.register, List.append_assoc] using t
    · rw [hh, lazyObjs_cons d ds]
      simp [System.register]

theorem lazyObjs_mem : ∀ (ds : List UnitDecl) (h : Nat) (i : Nat) (o : LazyObj), (lazyObjs ds)[i]? = some o →
    (o.names, .lazy (h + i)) ∈ withEntries h ds ∧ o.resolved = none
  | [], _, _, _, ho => by simp [lazyObjs] at ho
  | .basis b :: ds, h, i, o, ho => by
    have := lazyObjs_mem ds h i o ho
    exact ⟨List.mem_cons_of_mem _ this.1, this.2⟩
  | .lazy t r :: ds, h, 0, o, ho => by
    simp [lazyObjs] at ho; subst ho; simp [withEntries]
  | .lazy t r :: ds, h, i + 1, o, ho => by
    have := lazyObjs_mem ds (h + 1) i o (by simpa [lazyObjs] using ho)
    refine ⟨List.mem_cons_of_mem _ ?_, this.2⟩
    rw [show h + (i + 1) = h + 1 + i by omega]; exact this.1

theorem tables_conflictFree {ds : List UnitDecl} {s : System} (ht : Tables (withEntries 0 ds) s) (hh : s.heap = lazyObjs ds) :
    Pristine s ∧ ConflictFree s := by
  constructor
  · intro o ho
    obtain ⟨i, hi⟩ := List.getElem?_of_mem ho
    rw [hh] at hi
    exact (lazyObjs_mem ds 0 i o hi).2
  · intro id o ho
    rw [hh] at ho
    have hm := (lazyObjs_mem ds 0 id o ho).1
    rw [Nat.zero_add] at hm
    exact ⟨fun k hk => (ht.1 _ _).2 ⟨_, hm, mem_nameKeys_iff.1 hk⟩, fun k hk => (ht.2.1 _ _).2 ⟨_, hm, hk⟩,
      fun k hk => (ht.2.2.1 _ _).2 ⟨_, hm, mem_aliasKeys_iff.1 hk⟩, fun k hk => (ht.2.2.2 _ _).2 ⟨_, hm, hk⟩⟩

theorem has_setAll (keys : List Str) (e : Entry) (d : Dict Str Entry) (k : Str) :
    Dict.has k (setAll keys e d) = true ↔ k ∈ keys ∨ Dict.has k d = true := by
  unfold Dict.has
  rw [get_setAll]
  by_cases h : k ∈ keys <;> simp [h]

theorem addDecls_succeeds_iff : ∀ (ds : List UnitDecl) (s : System),
    (∃ s', addDecls ds s = .ok s') ↔ Distinct IsName ds ∧ Distinct IsSymbol ds ∧ ∀ d ∈ ds, ¬ Collides s (declRef d)
  | [], s => by simp [addDecls, Distinct]
  | d :: ds, s => by
    unfold addDecls
    by_cases hc : Collides s (declRef d)
    · obtain ⟨k, hk⟩ := add_err d s hc
      rw [hk]
      constructor
      · rintro ⟨_, h⟩; cases h
      · rintro ⟨_, _, h⟩; exact absurd hc (h d (by simp))
    · rw [add_ok' d s hc]
      simp only [bind, Except.bind]
      rw [addDecls_succeeds_iff ds]
      have key : ∀ d', Collides ({ s with heap := s.heap ++ lazyObjs [d] }.register (declRef d)
            (declEntry s.heap.length d)) (declRef d') ↔
          (∃ k, IsName (declRef d) k ∧ IsName (declRef d') k) ∨ (∃ k, IsSymbol (declRef d) k ∧ IsSymbol (declRef d') k) ∨
            Collides s (declRef d') := by
        intro d'
        rw [collides_iff, collides_iff]
        simp only [System.register, has_setAll, mem_nameKeys_iff]
        constructor
        · rintro (⟨k, h1, h2 | h2⟩ | ⟨k, h1, h2 | h2⟩)
          · exact .inl ⟨k, h2, h1⟩
          · exact .inr (.inr (.inl ⟨k, h1, h2⟩))
          · exact .inr (.inl ⟨k, h2, h1⟩)
          · exact .inr (.inr (.inr ⟨k, h1, h2⟩))
        · rintro (⟨k, h1, h2⟩ | ⟨k, h1, h2⟩ | ⟨k, h1, h2⟩ | ⟨k, h1, h2⟩)
          · exact .inl ⟨k, h2, .inl h1⟩
          · exact .inr ⟨k, h2, .inl h1⟩
          · exact .inl ⟨k, h1, .inr h2⟩
          · exact .inr ⟨k, h1, .inr h2⟩
      unfold Distinct
      rw [List.pairwise_cons, List.pairwise_cons]
      constructor
      · rintro ⟨h1, h2, h3⟩
        refine ⟨⟨?_, h1⟩, ⟨?_, h2⟩, ?_⟩
        · intro d' hd' k hk; exact h3 d' hd' ((key d').2 (.inl ⟨k, hk⟩))
        · intro d' hd' k hk; exact h3 d' hd' ((key d').2 (.inr (.inl ⟨k, hk⟩)))
        · intro d' hd'
          rcases List.mem_cons.1 hd' with rfl | hd'
          · exact hc
          · intro hcol; exact h3 d' hd' ((key d').2 (.inr (.inr hcol)))
      · rintro ⟨⟨h1, h1'⟩, ⟨h2, h2'⟩, h3⟩
        refine ⟨h1', h2', ?_⟩
        intro d' hd' hcol
        rcases (key d').1 hcol with ⟨k, hk⟩ | ⟨k, hk⟩ | hcol
        · exact h1 d' hd' k hk
        · exact h2 d' hd' k hk
        · exact h3 d' (List.mem_cons_of_mem _ hd') hcol

theorem foldl_addPrefix_fields : ∀ (ps : List Prefix) (s : System),
    (ps.foldl System.addPrefix s).names = s.names ∧ (ps.foldl System.addPrefix s).symbols = s.symbols ∧
    (ps.foldl System.addPrefix s).aliasNames = s.aliasNames ∧ (ps.foldl System.addPrefix s).aliasSymbols = s.aliasSymbols ∧
    (ps.foldl System.addPrefix s).heap = s.heap
  | [], _ => ⟨rfl, rfl, rfl, rfl, rfl⟩
  | p :: ps, s => foldl_addPrefix_fields ps (s.addPrefix p)

end Verif
