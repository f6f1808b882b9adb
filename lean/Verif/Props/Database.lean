import Verif.Lemmas.DbCheck
import Verif.Model.Database
import Verif.Model.Declarations
import Verif.Props.Resolve
import Verif.Props.Xml
/-!
# C38, C48: the shipped database

The document is `Db.unitSystem` (transcribed from `udunits2_combined.xml`); its 276 units and 20 prefixes are `Db.decls` and
`Db.prefixes`.  Everything about them is evaluated by the kernel.
-/

namespace Verif
open Spec

namespace Db

theorem prefixes_eq : (unitSystem.children.filter fun c => decide (c.name = c!"prefix")).mapM (handlePrefix true id)
    = .ok prefixes := by decide +kernel
theorem units_eq : (unitSystem.children.filter fun c => decide (c.name = c!"unit")).mapM (handleUnit true) = .ok decls := by
  decide +kernel
theorem only_units : (unitSystem.children.filter fun c => decide (c.name ≠ c!"prefix" ∧ c.name ≠ c!"unit")) = [] := by
  decide +kernel
theorem names_distinct : distinctB ((decls.flatMap fun d => nameKeys (declRef d).name).map enc) .leaf = true := by
  decide +kernel
theorem aliases_distinct : distinctB ((decls.flatMap fun d => aliasKeys (declRef d).aliasNames).map enc) .leaf = true := by
  decide +kernel
theorem symbols_distinct : distinctB ((decls.flatMap fun d => (declRef d).symbols).map enc) .leaf = true := by
  decide +kernel
theorem aliasSymbols_distinct : distinctB ((decls.flatMap fun d => (declRef d).aliasSymbols).map enc) .leaf = true := by
  decide +kernel
/-- no symbol of a prefix starts another symbol of the same prefix -/
theorem symbols_free : ((unitSystem.children.filter fun c => decide (c.name = c!"prefix")).all fun p =>
    (symbolTexts p).all fun a => (symbolTexts p).all fun b => (dropPrefix a b).isNone || decide (a = b)) = true := by
  decide +kernel

theorem mapM_lenient {α β} {f g : α → Py β} (h : ∀ x, Stricter (f x) (g x)) (hu : ∀ x y, f x = .ok y → g x = .ok y) :
    ∀ (l : List α) (ys : List β), l.mapM f = .ok ys → l.mapM g = .ok ys
  | [], ys, hl => by simpa using hl
  | x :: l, ys, hl => by
    rw [List.mapM_cons] at hl ⊢
    simp only [bind, Except.bind] at hl ⊢
    cases hx : f x with
    | error e => rw [hx] at hl; cases hl
    | ok y =>
      rw [hx] at hl
      rw [hu x y hx]
      simp only at hl ⊢
      cases hm : l.mapM f with
      | error e => rw [hm] at hl; cases hl
      | ok ys' => rw [hm] at hl; rw [mapM_lenient h hu l ys' hm]; exact hl

theorem Stricter.ok {α} {a b : Py α} {x : α} (h : Stricter a b) (ha : a = .ok x) : b = .ok x := by
  rcases h with h | h
  · rw [h] at ha; cases ha
  · rw [← h]; exact ha

theorem reads : DeclReads false id unitSystem prefixes decls :=
  ⟨mapM_lenient (strict_prefix id) (fun x _ h => Stricter.ok (strict_prefix id x) h) _ _ prefixes_eq,
   mapM_lenient strict_unit (fun x _ h => Stricter.ok (strict_unit x) h) _ _ units_eq⟩

theorem distinct : Distinct IsName decls ∧ Distinct IsSymbol decls ∧ Distinct IsAlias decls ∧ Distinct IsAliasSymbol decls :=
  ⟨distinct_of_nodup (keys := fun r => nameKeys r.name) (fun _ _ h => mem_nameKeys_iff.2 h) _
      (distinctB_sound _ _ names_distinct).1,
   distinct_of_nodup (keys := fun r => r.symbols) (fun _ _ h => h) _ (distinctB_sound _ _ symbols_distinct).1,
   distinct_of_nodup (keys := fun r => aliasKeys r.aliasNames) (fun _ _ h => mem_aliasKeys_iff.2 h) _
      (distinctB_sound _ _ aliases_distinct).1,
   distinct_of_nodup (keys := fun r => r.aliasSymbols) (fun _ _ h => h) _ (distinctB_sound _ _ aliasSymbols_distinct).1⟩

theorem free : ∀ p ∈ unitSystem.children, p.name = c!"prefix" →
    ∀ a ∈ symbolTexts p, ∀ b ∈ symbolTexts p, a <+: b → a = b := by
  intro p hp hn a ha b hb hab
  have h1 := List.all_eq_true.1 symbols_free p (List.mem_filter.2 ⟨hp, by simp [hn]⟩)
  have h2 := List.all_eq_true.1 (List.all_eq_true.1 h1 a ha) b hb
  rcases Bool.or_eq_true_iff.1 h2 with h | h
  · have := isSome_dropPrefix.2 hab
    cases hd : dropPrefix a b with
    | none => rw [hd] at this; cases this
    | some r => rw [hd] at h; cases h
  · simpa using h

theorem pred_eq : (fun c : Tag => decide (c.name ≠ c!"unit") && decide (c.name ≠ c!"prefix"))
    = (fun c => decide (c.name ≠ c!"prefix" ∧ c.name ≠ c!"unit")) := by
  funext c; by_cases h1 : c.name = c!"unit" <;> by_cases h2 : c.name = c!"prefix" <;> simp [h1, h2]

theorem declares : Declares id unitSystem prefixes decls := (reads_iff _ _ _ _).1 reads

/-- reading the document with the document order of symbols, strictly or not -/
theorem load_id (strict : Bool) : parseSystem strict id unitSystem
    = addDecls decls (prefixes.foldl System.addPrefix System.empty) := by
  cases strict with
  | false => exact parseSystem_eq id _ _ _ reads
  | true =>
    unfold parseSystem
    rw [Tag.popIter_eq]
    simp only [Tag.popIter_eq, bind, Except.bind]
    rw [addPrefixes_eq true id _ _ _ prefixes_eq]
    simp only
    have e : (Tag.mk unitSystem.name (unitSystem.children.filter (fun c => decide (c.name ≠ c!"prefix"))) unitSystem.text).children.filter
        (fun c => decide (c.name = c!"unit")) = unitSystem.children.filter (fun c => decide (c.name = c!"unit")) := by
      simp only [Tag.children, List.filter_filter]
      apply List.filter_congr
      intro c _
      by_cases hc : c.name = c!"unit" <;> simp [hc]
    have e' : (Tag.mk unitSystem.name (unitSystem.children.filter (fun c => decide (c.name ≠ c!"prefix"))) unitSystem.text).children.filter
        (fun c => decide (c.name ≠ c!"unit")) = [] := by
      have : (Tag.mk unitSystem.name (unitSystem.children.filter (fun c => decide (c.name ≠ c!"prefix"))) unitSystem.text).children
        = unitSystem.children.filter (fun c => decide (c.name ≠ c!"prefix")) := rfl
      rw [this, List.filter_filter, pred_eq]
      exact only_units
    rw [e, e', addUnits_eq true _ decls _ units_eq]
    cases addDecls decls (prefixes.foldl System.addPrefix System.empty) with
    | error e => rfl
    | ok s => simp [Tag.children]

end Db

/-- **C38** (the shipped database). Loading `udunits2_combined.xml` succeeds — strictly or not, whatever the iteration order
of symbol sets — and gives a conflict-free system in which every table contains exactly the declared spellings, each for
the unit declaring it. -/
theorem C38_shipped_database_loads (strict : Bool) (q : List Str → List Str) (hq : ∀ l, (q l).Perm l) :
    ∃ s, parseSystem strict q Db.unitSystem = .ok s ∧ Pristine s ∧ ConflictFree s ∧
      TableIs IsName (withEntries 0 Db.decls) s.names ∧ TableIs IsSymbol (withEntries 0 Db.decls) s.symbols ∧
      TableIs IsAlias (withEntries 0 Db.decls) s.aliasNames ∧ TableIs IsAliasSymbol (withEntries 0 Db.decls) s.aliasSymbols ∧
      s.heap = lazyObjs Db.decls := by
  obtain ⟨h1, h2, h3, h4⟩ := Db.distinct
  obtain ⟨s0, e0, t1, t2, t3, t4, hh, _, _, hp, hc⟩ :=
    C38_distinct_spellings_load id Db.unitSystem Db.prefixes Db.decls Db.declares h1 h2 h3 h4
  have e1 : parseSystem strict id Db.unitSystem = .ok s0 := by rw [Db.load_id strict, ← Db.load_id false]; exact e0
  rcases system_order strict id q (fun _ => .refl _) hq Db.unitSystem Db.free with ⟨e, e2, _⟩ | ⟨s0', s, e2, e3, hs⟩
  · rw [e1] at e2; cases e2
  · rw [e1] at e2; cases e2
    refine ⟨s, e3, ?_, ?_, ?_, ?_, ?_, ?_, ?_⟩
    · unfold Pristine; rw [← hs.heap]; exact hp
    · unfold ConflictFree; rw [← hs.heap, ← hs.names, ← hs.symbols, ← hs.aliasNames, ← hs.aliasSymbols]; exact hc
    · rw [← hs.names]; exact t1
    · rw [← hs.symbols]; exact t2
    · rw [← hs.aliasNames]; exact t3
    · rw [← hs.aliasSymbols]; exact t4
    · rw [← hs.heap]; exact hh

namespace Db

/-- nesting depth of each definition; 0 for the definitions that cannot be used -/
def ranks : List Nat := [1, 1, 1, 1, 2, 2, 3, 1, 4, 5, 5, 5, 5, 6, 6, 1, 2, 3, 1, 1, 3, 3, 1, 2, 3, 1, 2, 3, 0, 1, 1, 3, 1, 1, 1, 1,
  3, 1, 1, 2, 1, 3, 1, 2, 2, 4, 1, 1, 1, 1, 1, 2, 2, 4, 1, 1, 1, 1, 1, 1, 1, 3, 2, 3, 4, 1, 1, 1, 1, 1, 1, 1,
  1, 1, 1, 1, 2, 2, 2, 2, 2, 2, 2, 2, 1, 1, 1, 1, 1, 1, 1, 2, 2, 1, 2, 2, 2, 2, 2, 1, 2, 3, 3, 2, 2, 3, 3, 3,
  1, 1, 3, 3, 1, 1, 3, 1, 1, 1, 2, 1, 1, 1, 1, 1, 2, 2, 1, 2, 3, 2, 2, 2, 2, 2, 3, 3, 4, 1, 2, 2, 2, 2, 2, 1,
  1, 1, 1, 1, 1, 1, 1, 4, 4, 4, 4, 4, 4, 4, 4, 4, 1, 2, 2, 1, 1, 2, 3, 3, 3, 3, 3, 2, 2, 2, 2, 2, 2, 2, 3, 3,
  3, 3, 3, 0, 0, 0, 4, 4, 0, 0, 0, 4, 4, 3, 4, 2, 3, 3, 1, 3, 3, 3, 3, 3, 3, 3, 3, 3, 4, 4, 5, 4, 4, 4, 4, 4,
  4, 4, 4, 4, 4, 1, 1, 1, 1, 6, 7, 6, 6, 5, 2, 2, 2, 2, 7, 7, 6, 1, 2, 6, 7, 6, 6, 5, 6, 5, 5, 5, 1, 2, 4, 1,
  2, 1, 3, 1, 3, 2, 1, 3, 3, 4, 1, 1, 1, 1, 1, 2]

/-- the two definitions with an offset: degree Celsius and degree Fahrenheit -/
def shifts : List Nat := [15, 249]

/-- every claimed spelling -/
def tree : Tree Entry := .ofList (allClaims (withEntries 0 decls)) .leaf

/-- all prefixes, names before symbols -/
def pres : List (Str × Prefix) :=
  (prefixes.foldl System.addPrefix System.empty).prefixNames ++ (prefixes.foldl System.addPrefix System.empty).prefixSymbols

theorem definitions_ok : defsOk parse tree pres ranks shifts 0 (lazyObjs decls) = true := by decide +kernel

end Db
end Verif
