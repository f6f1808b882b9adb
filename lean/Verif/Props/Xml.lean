import Verif.Lemmas.Declares
import Verif.Props.Lookup
/-!
# C35–C38, C49–C51: reading the unit database
-/

namespace Verif
open Spec

/-! ## C36 -/

/-- **C36.** `pop_first_matching_tag` returns the first child of that name and removes that child and no other, although
it removes "the first child equal to it". -/
theorem C36_pop_first_removes_what_it_returns (t : Tag) (n : Str) (before after : List Tag) (c : Tag)
    (hc : t.children = before ++ c :: after) (hb : ∀ b ∈ before, b.name ≠ n) (hn : c.name = n) :
    t.popFirst n = (some c, .mk t.name (before ++ after) t.text) :=
  Tag.popFirst_some hc hb hn

/-- **C36**, nothing to pop. -/
theorem C36_pop_first_none (t : Tag) (n : Str) (h : ∀ c ∈ t.children, c.name ≠ n) : t.popFirst n = (none, t) :=
  Tag.popFirst_none h

/-- **C36.** `pop_iter_tags` yields all children of that name in document order and leaves exactly the others, in order. -/
theorem C36_pop_iter (t : Tag) (n : Str) :
    t.popIter n = (t.children.filter (fun c => decide (c.name = n)),
      .mk t.name (t.children.filter (fun c => decide (c.name ≠ n))) t.text) :=
  Tag.popIter_eq t n

/-- Non-vacuity: two equal children, one other in between. -/
example : (Tag.mk [] [.mk c!"a" [] c!"1", .mk c!"b" [] [], .mk c!"a" [] c!"1"] []).popFirst c!"b"
    = (some (.mk c!"b" [] []), .mk [] [.mk c!"a" [] c!"1", .mk c!"a" [] c!"1"] []) := by decide +kernel

/-! ## C35 -/

/-- **C35.** The name read from a `name` tag (in the default, lenient parser), whatever else the tag contains:
the default plural, the explicit plural, no plural at all, and the two kinds of malformed tag. -/
theorem C35_names (t : Tag) :
    (∀ sing, firstNamed t c!"singular" = some sing → sing.children = [] → firstNamed t c!"plural" = none →
      firstNamed t c!"noplural" = none → ∃ p, Plural sing.text p ∧ handleName false t = .ok ⟨sing.text, some p⟩) ∧
    (∀ sing pl, firstNamed t c!"singular" = some sing → sing.children = [] → firstNamed t c!"plural" = some pl →
      firstNamed t c!"noplural" = none → handleName false t = .ok ⟨sing.text, some pl.text⟩) ∧
    (∀ sing np, firstNamed t c!"singular" = some sing → sing.children = [] → firstNamed t c!"plural" = none →
      firstNamed t c!"noplural" = some np → np.children = [] → np.text = [] →
      handleName false t = .ok ⟨sing.text, none⟩) ∧
    (∀ sing pl np, firstNamed t c!"singular" = some sing → firstNamed t c!"plural" = some pl →
      firstNamed t c!"noplural" = some np → handleName false t = .error .assertionError) ∧
    (firstNamed t c!"singular" = none → handleName false t = .error .missingTag) := by
  unfold firstNamed
  rw [handleName_eq]
  refine ⟨?_, ?_, ?_, ?_, ?_⟩
  · intro sing h1 hc h2 h3
    refine ⟨_, plural_rule sing.text, ?_⟩
    rw [h1, h2, h3]
    simp only [hc, List.isEmpty_nil, pyAssert, if_true, bind, Except.bind, unhandledContent, Bool.false_eq_true, if_false, ite_self]
    rfl
  · intro sing pl h1 hc h2 h3
    rw [h1, h2, h3]
    simp only [hc, List.isEmpty_nil, pyAssert, if_true, bind, Except.bind, unhandledContent, Bool.false_eq_true, if_false, ite_self]
    rfl
  · intro sing np h1 hc h2 h3 h4 h5
    rw [h1, h2, h3]
    simp only [hc, h4, h5, List.isEmpty_nil, pyAssert, if_true, bind, Except.bind, unhandledContent, Bool.false_eq_true, if_false,
      ite_self, Bool.and_self, Option.map_none, Option.isNone_none]
  · intro sing pl np h1 h2 h3
    rw [h1, h2, h3]
    cases hs : sing.children.isEmpty <;> simp [hs, pyAssert, bind, Except.bind]
  · intro h1
    rw [h1]

/-- Non-vacuity. -/
example : handleName false (.mk c!"name" [.mk c!"singular" [] c!"lux"] []) = .ok ⟨c!"lux", some c!"luxes"⟩ ∧
    handleName false (.mk c!"name" [.mk c!"singular" [] c!"foot", .mk c!"plural" [] c!"feet"] []) = .ok ⟨c!"foot", some c!"feet"⟩ ∧
    handleName false (.mk c!"name" [.mk c!"singular" [] c!"hertz", .mk c!"noplural" [] []] []) = .ok ⟨c!"hertz", none⟩ ∧
    handleName false (.mk c!"name" [.mk c!"singular" [] c!"day"] []) = .ok ⟨c!"day", some c!"days"⟩ := by
  decide +kernel

/-! ## C49 -/

/-- **C49.** The strict parser differs from the default one only by rejecting documents: whatever document is read, with
whatever symbol order, it raises its "unhandled content" ValueError or does exactly what the default parser does. -/
theorem C49_strict_only_rejects (order : List Str → List Str) (doc : Elem) :
    parseDocument true order doc = .error .unhandledContent ∨ parseDocument true order doc = parseDocument false order doc := by
  unfold parseDocument
  split
  · rename_i e _
    cases Tag.fromElement e with
    | error err => exact .inr rfl
    | ok t => exact strict_system order t
  · exact .inr rfl

/-- Non-vacuity: an extra child is accepted by one and rejected by the other. -/
example : (parseSystem false id (.mk [] [.mk c!"extra" [] []] [])).isOk = true ∧
    (match parseSystem true id (.mk [] [.mk c!"extra" [] []] []) with | .error .unhandledContent => true | _ => false) = true := by
  decide +kernel

/-! ## C50 -/

/-- **C50.** Prefixes and units are read through their namespaced tags only: an un-namespaced document whatever loads
"successfully" and contains nothing at all.  (`element.tag.partition("}")` leaves an empty name.) -/
theorem C50_without_namespace_empty (order : List Str → List Str) (text : Option Str) (cs : List Elem)
    (hns : ∀ c ∈ cs, ∃ tag tx below, c = .node tag tx below ∧ '}' ∉ tag) (t : Tag)
    (ht : Tag.fromElement (.node c!"unit-system" text cs) = .ok t) :
    parseSystem false order t = .ok System.empty := by
  have key : ∀ (cs : List Elem) (ts : List Tag), (∀ c ∈ cs, ∃ tag tx below, c = .node tag tx below ∧ '}' ∉ tag) →
      Tag.fromElements cs = .ok ts → ∀ t ∈ ts, t.name = [] := by
    intro cs
    induction cs with
    | nil => intro ts _ h; rw [Tag.fromElements] at h; cases h; simp
    | cons c cs ih =>
      intro ts hns h
      rw [Tag.fromElements] at h
      simp only [bind, Except.bind] at h
      cases hc : Tag.fromElement c with
      | error e => rw [hc] at h; cases h
      | ok t =>
        rw [hc] at h
        simp only at h
        cases hcs : Tag.fromElements cs with
        | error e => rw [hcs] at h; cases h
        | ok ts' =>
          rw [hcs] at h
          cases h
          intro x hx
          rcases List.mem_cons.1 hx with rfl | hx
          · obtain ⟨tag, tx, below, rfl, hb⟩ := hns c (by simp)
            rw [Tag.fromElement] at hc
            simp only [bind, Except.bind] at hc
            cases hb' : Tag.fromElements below with
            | error e => rw [hb'] at hc; cases hc
            | ok bs =>
              rw [hb'] at hc
              simp only [Except.ok.injEq] at hc
              rw [← hc]
              show (tag.dropWhile (· ≠ '}')).drop 1 = []
              have : tag.dropWhile (· ≠ '}') = [] := dropWhile_all tag hb
              rw [this]; rfl
          · exact ih ts' (fun c hc => hns c (List.mem_cons_of_mem _ hc)) hcs x hx
  rw [Tag.fromElement] at ht
  simp only [bind, Except.bind] at ht
  cases hcs : Tag.fromElements cs with
  | error e => rw [hcs] at ht; cases ht
  | ok ts =>
    rw [hcs] at ht
    simp only [Except.ok.injEq] at ht
    have hn := key cs ts hns hcs
    rw [parseSystem_eq order t [] []]
    · rfl
    · subst ht
      constructor
      · have : (ts.filter fun c => decide (c.name = c!"prefix")) = [] := by
          rw [List.filter_eq_nil_iff]; intro c hc; rw [hn c hc]; decide
        show (ts.filter _).mapM _ = _
        rw [this]; rfl
      · have : (ts.filter fun c => decide (c.name = c!"unit")) = [] := by
          rw [List.filter_eq_nil_iff]; intro c hc; rw [hn c hc]; decide
        show (ts.filter _).mapM _ = _
        rw [this]; rfl

/-- Non-vacuity: a whole un-namespaced document with a unit in it. -/
example : (match parseDocument false id (.node c!"udunits-2" none [.node c!"unit-system" none
      [.node c!"unit" none [.node c!"base" none [], .node c!"name" none [.node c!"singular" (some c!"meter") []]]]]) with
    | .ok s => decide (s = System.empty)
    | .error _ => false) = true := by decide +kernel

/-! ## C37 -/

/-- **C37.** Whatever order the set of a prefix's symbols is iterated in (it becomes the `symbols` tuple and the order of
the table of prefix symbols), and whatever order identifier sets are iterated in: if no symbol of a prefix is an initial
segment of another symbol of the same prefix, the document loads or fails alike, and every lookup that succeeds in one run
succeeds in the other with an equal unit, after any histories. -/
theorem C37_symbol_order_unobservable (parser : Str → Py Node) (o1 o2 q1 q2 : List Str → List Str)
    (ho1 : ∀ l, (o1 l).Perm l) (ho2 : ∀ l, (o2 l).Perm l) (hq1 : ∀ l, (q1 l).Perm l) (hq2 : ∀ l, (q2 l).Perm l)
    (strict : Bool) (t : Tag)
    (hfree : ∀ p ∈ t.children, p.name = c!"prefix" → ∀ a ∈ symbolTexts p, ∀ b ∈ symbolTexts p, a <+: b → a = b)
    (s1 : System) (h1 : parseSystem strict q1 t = .ok s1) (hp : Pristine s1) (hc : ConflictFree s1) :
    ∃ s2, parseSystem strict q2 t = .ok s2 ∧ ∀ (hist1 hist2 : List Query) (l1 l2 : Nat),
      (∀ n r1, (unitByNameOrSymbol ⟨parser, o1⟩ l1 n (after ⟨parser, o1⟩ hist1 s1)).1 = .ok r1 →
        (unitByNameOrSymbol ⟨parser, o2⟩ l2 n (after ⟨parser, o2⟩ hist2 s2)).1 ≠ .error .recursionError →
        ∃ r2, (unitByNameOrSymbol ⟨parser, o2⟩ l2 n (after ⟨parser, o2⟩ hist2 s2)).1 = .ok r2 ∧ Same r1 r2) ∧
      (∀ text a, (System.unit ⟨parser, o1⟩ l1 text (after ⟨parser, o1⟩ hist1 s1)).1 = .ok a →
        (System.unit ⟨parser, o2⟩ l2 text (after ⟨parser, o2⟩ hist2 s2)).1 ≠ .error .recursionError →
        ∃ b, (System.unit ⟨parser, o2⟩ l2 text (after ⟨parser, o2⟩ hist2 s2)).1 = .ok b ∧ SameObj a b) := by
  rcases system_order strict q1 q2 hq1 hq2 t hfree with ⟨e, e1, _⟩ | ⟨s1', s2, e1, e2, hs⟩
  · rw [h1] at e1; cases e1
  rw [h1] at e1; cases e1
  refine ⟨s2, e2, ?_⟩
  have hp2 : Pristine s2 := by unfold Pristine; rw [← hs.heap]; exact hp
  have hc2 : ConflictFree s2 := by
    unfold ConflictFree; rw [← hs.heap, ← hs.names, ← hs.symbols, ← hs.aliasNames, ← hs.aliasSymbols]; exact hc
  intro hist1 hist2 l1 l2
  constructor
  · intro n r1 hr1 hr2
    obtain ⟨d, hd⟩ := (C05_lookup_refines_fixed_registry _ s1 hp hc hist1 l1 n).2 r1 hr1
    obtain ⟨r2, hd2, hsame⟩ := spec_lookup_same hs.sysSame (env1 := ⟨parser, o1⟩) (env2 := ⟨parser, o2⟩) rfl ho1 ho2 d n r1 hd
    refine ⟨r2, ?_, hsame⟩
    rw [← hd2]
    exact agree (fun _ _ h => Spec.lookup_mono _ s2 h n)
      (sim_lookup hc2 l2 n _ (inv_after hc2 hist2 (Inv.init ⟨parser, o2⟩ hp2))).2.1 ⟨d, Le.refl _⟩ hr2 (by rw [hd2]; simp)
  · intro text a ha hb
    obtain ⟨F, hF⟩ := (sim_unit hc l1 text _ (inv_after hc hist1 (Inv.init ⟨parser, o1⟩ hp))).2.1
    rw [ha] at hF
    obtain ⟨b, hb2, hsame⟩ := spec_unit_same hs.sysSame (env1 := ⟨parser, o1⟩) (env2 := ⟨parser, o2⟩) rfl ho1 ho2 F text hF.ok
    refine ⟨b, ?_, hsame⟩
    rw [← hb2]
    exact agree (spec_unit_mono _ s2 text)
      (sim_unit hc2 l2 text _ (inv_after hc2 hist2 (Inv.init ⟨parser, o2⟩ hp2))).2.1 ⟨F, Le.refl _⟩ hb (by rw [hb2]; simp)

namespace Demo
/-- a document with one prefix that has several symbols, and the units `am` and `m` -/
def doc (symbols : List Str) : Tag :=
  .mk c!"unit-system"
    [.mk c!"prefix" (.mk c!"name" [] c!"deka" :: .mk c!"value" [] c!"10" :: symbols.map (fun y => .mk c!"symbol" [] y)) [],
     .mk c!"unit" [.mk c!"base" [] [], .mk c!"name" [.mk c!"singular" [] c!"meter"] [], .mk c!"symbol" [] c!"m"] [],
     .mk c!"unit" [.mk c!"def" [] c!"2 m", .mk c!"symbol" [] c!"am"] []] []
/-- what a lookup in a freshly loaded document prints -/
def look (symbols : List Str) (order : List Str → List Str) (n : Str) : Py Str := do
  let s ← parseSystem true order (doc symbols)
  (unitByNameOrSymbol env 5 n s).1.map Ref.str
end Demo

/-- Non-vacuity of C37: a document meeting the hypotheses (two spellings of micro), loaded with two orders. -/
example : Demo.look [c!"u", c!"µ"] id c!"µm" = .ok c!"µ·m" ∧ Demo.look [c!"u", c!"µ"] List.reverse c!"µm" = .ok c!"µ·m" ∧
    (∀ s, parseSystem true id (Demo.doc [c!"u", c!"µ"]) = .ok s → conflictFreeB s = true) := by
  refine ⟨by decide +kernel, by decide +kernel, ?_⟩
  intro s hs
  have : (match parseSystem true id (Demo.doc [c!"u", c!"µ"]) with | .ok s => conflictFreeB s | .error _ => false) = true := by
    decide +kernel
  rw [hs] at this; exact this

/-- **C37**, the hypothesis is needed: with the symbols `d` and `da` of one prefix, `dam` means `d·am` or `da·m` depending
on the iteration order of the set. -/
theorem C37_overlapping_symbols_refuted :
    ¬ ∀ (q1 q2 : List Str → List Str), (∀ l, (q1 l).Perm l) → (∀ l, (q2 l).Perm l) →
      Demo.look [c!"d", c!"da"] q1 c!"dam" = Demo.look [c!"d", c!"da"] q2 c!"dam" := by
  intro h
  exact absurd (h id List.reverse (fun _ => .refl _) (fun l => List.reverse_perm l)) (by decide +kernel)

example : Demo.look [c!"d", c!"da"] id c!"dam" = .ok c!"d·am" ∧
    Demo.look [c!"d", c!"da"] List.reverse c!"dam" = .ok c!"da·m" := by decide +kernel

/-! ## C38, for every document -/

/-- **C38** (every document). If no two units of a document claim the same name, symbol, alias or alias symbol, then the
document loads; every table contains exactly the declared spellings, each for the unit that declares it; every unit with a
definition is there, unresolved, in document order; the prefixes are as if added one by one; and the system is conflict
free, so that C05 and C07 apply. -/
theorem C38_distinct_spellings_load (order : List Str → List Str) (t : Tag) (ps : List Prefix) (ds : List UnitDecl)
    (h : Declares order t ps ds)
    (h1 : Distinct IsName ds) (h2 : Distinct IsSymbol ds) (h3 : Distinct IsAlias ds) (h4 : Distinct IsAliasSymbol ds) :
    ∃ s, parseSystem false order t = .ok s ∧
      TableIs IsName (withEntries 0 ds) s.names ∧ TableIs IsSymbol (withEntries 0 ds) s.symbols ∧
      TableIs IsAlias (withEntries 0 ds) s.aliasNames ∧ TableIs IsAliasSymbol (withEntries 0 ds) s.aliasSymbols ∧
      s.heap = lazyObjs ds ∧
      s.prefixNames = (ps.foldl System.addPrefix System.empty).prefixNames ∧
      s.prefixSymbols = (ps.foldl System.addPrefix System.empty).prefixSymbols ∧
      Pristine s ∧ ConflictFree s := by
  obtain ⟨f1, f2, f3, f4, f5⟩ := foldl_addPrefix_fields ps System.empty
  have ht : Tables [] (ps.foldl System.addPrefix System.empty) := by
    refine ⟨?_, ?_, ?_, ?_⟩ <;> intro k e
    · rw [f1]; simp [System.empty]
    · rw [f2]; simp [System.empty]
    · rw [f3]; simp [System.empty]
    · rw [f4]; simp [System.empty]
  obtain ⟨s, e, t', hh, hp, hq⟩ := addDecls_ok ds _ [] ht (by simp) ⟨h1, h2, h3, h4⟩
  rw [f5] at hh t'
  simp only [System.empty, List.length_nil, List.nil_append] at hh t'
  have hcf := tables_conflictFree t' hh
  exact ⟨s, by rw [parseSystem_eq order t ps ds ((reads_iff order t ps ds).2 h), e], t'.1, t'.2.1, t'.2.2.1, t'.2.2.2, hh, hp, hq, hcf.1, hcf.2⟩

/-- **C38** (every document). A `unit-system` element loads if and only if each of its prefix and unit elements is well
formed, no two units claim the same name and no two claim the same symbol; aliases are never checked. -/
theorem C38_loads_iff (order : List Str → List Str) (t : Tag) :
    (∃ s, parseSystem false order t = .ok s) ↔
      ∃ ps ds, Declares order t ps ds ∧ Distinct IsName ds ∧ Distinct IsSymbol ds := by
  have key : ∀ ps ds, Declares order t ps ds →
      ((∃ s, parseSystem false order t = .ok s) ↔ Distinct IsName ds ∧ Distinct IsSymbol ds) := by
    intro ps ds h
    rw [parseSystem_eq order t ps ds ((reads_iff order t ps ds).2 h), addDecls_succeeds_iff]
    obtain ⟨f1, f2, f3, f4, f5⟩ := foldl_addPrefix_fields ps System.empty
    constructor
    · rintro ⟨a, b, _⟩; exact ⟨a, b⟩
    · rintro ⟨a, b⟩
      refine ⟨a, b, ?_⟩
      intro d _ hc
      rw [collides_iff, f1, f2] at hc
      rcases hc with ⟨k, _, hk⟩ | ⟨k, _, hk⟩ <;> simp [System.empty, Dict.has] at hk
  constructor
  · rintro ⟨s, h⟩
    obtain ⟨ps, ds, hd⟩ := parseSystem_declares order t s h
    exact ⟨ps, ds, hd, (key ps ds hd).1 ⟨s, h⟩⟩
  · rintro ⟨ps, ds, hd, h⟩
    exact (key ps ds hd).2 h

/-- **C38** (every document). When no two prefixes share a name or a symbol, the prefix tables list exactly the declared
prefixes, in document order (which is the order in which lookups try them). -/
theorem C38_prefix_tables (order : List Str → List Str) (t : Tag) (ps : List Prefix) (ds : List UnitDecl)
    (h : Declares order t ps ds) (h1 : (ps.map Prefix.name).Nodup) (h2 : (ps.flatMap Prefix.symbols).Nodup)
    (s : System) (hs : parseSystem false order t = .ok s) :
    s.prefixNames = ps.map (fun p => (p.name, p)) ∧ s.prefixSymbols = ps.flatMap (fun p => p.symbols.map fun y => (y, p)) := by
  rw [parseSystem_eq order t ps ds ((reads_iff order t ps ds).2 h)] at hs
  obtain ⟨e1, e2⟩ := addDecls_prefixes ds _ _ hs
  obtain ⟨r1, r2⟩ := foldl_addPrefix_tables ps System.empty (by simpa [System.empty] using h1) (by simpa [System.empty] using h2)
  rw [e1, e2, r1, r2]
  simp [System.empty]

/-- Non-vacuity: the demo document declares one prefix and two units. -/
example : ∃ ps ds, Declares id (Demo.doc [c!"d", c!"da"]) ps ds ∧ ps.length = 1 ∧ ds.length = 2 := by
  refine ⟨[⟨c!"deka", c!"10", [c!"d", c!"da"]⟩],
    [.basis ⟨c!"meter", false, false, ⟨some ⟨c!"meter", some c!"meters"⟩, [c!"m"], [], []⟩⟩,
     .lazy c!"2 m" ⟨none, [c!"am"], [], []⟩], (reads_iff _ _ _ _).1 ⟨?_, ?_⟩, rfl, rfl⟩ <;> decide +kernel

/-! ## C51 -/

/-- **C51.** A `name` element is accepted exactly when it says what the name is, and that is the name read. -/
theorem C51_name_elements (t : Tag) (n : Name) : handleName false t = .ok n ↔ NameIs t n := handleName_iff t n

/-- **C51.** A `prefix` element is accepted exactly when it has a name and a value; the prefix read has that name, that value
as written, and the set of its symbols. -/
theorem C51_prefix_elements (order : List Str → List Str) (t : Tag) (p : Prefix) :
    (handlePrefix false order t = .ok p ↔ PrefixIs order t p) ∧
    ∀ texts : List Str, (symbolSet texts).Nodup ∧ ∀ y, y ∈ symbolSet texts ↔ y ∈ texts :=
  ⟨handlePrefix_iff order t p, fun texts => ⟨symbolSet_nodup texts, fun _ => mem_symbolSet⟩⟩

/-- **C51.** A `unit` element is accepted exactly when it says what it declares, and that is what is declared: names,
symbols and aliases in document order, the definition text or the kind of basis unit. -/
theorem C51_unit_elements (t : Tag) (d : UnitDecl) : handleUnit false t = .ok d ↔ UnitIs t d := handleUnit_iff t d

/-- **C51.** Which tag is read for an element of the document. -/
theorem C51_elements (e : Elem) (t : Tag) : Tag.fromElement e = .ok t ↔ ReadAs e t := fromElement_iff e t

/-- **C51.** A document is loaded from its `unit-system` element wherever that is; without any, or with more than one (also
one inside another), loading is a ValueError. -/
theorem C51_documents (strict : Bool) (order : List Str → List Str) (doc : Elem) :
    (∀ path e, IsUnitSystem doc path e → (∀ path' e', IsUnitSystem doc path' e' → path' = path) →
      (∀ t, ReadAs e t → parseDocument strict order doc = parseSystem strict order t) ∧
      ((∀ t, ¬ ReadAs e t) → parseDocument strict order doc = .error .attributeError)) ∧
    ((∀ path e, ¬ IsUnitSystem doc path e) → parseDocument strict order doc = .error .unpackError) ∧
    (∀ path e path' e', IsUnitSystem doc path e → IsUnitSystem doc path' e' → path ≠ path' →
      parseDocument strict order doc = .error .unpackError) := by
  obtain ⟨ps, h1, h2, h3⟩ := unitSystems_paths doc
  have hlen : ps.length = doc.unitSystems.length := by
    have := congrArg List.length h2; simpa using this
  have hmem : ∀ p, p ∈ ps ↔ ∃ e, IsUnitSystem doc p e := h3
  refine ⟨?_, ?_, ?_⟩
  · intro path e he huniq
    have hin : path ∈ ps := (hmem path).2 ⟨e, he⟩
    have hps : ps = [path] := by
      match ps, h1, hmem, hin with
      | [], _, _, hin => cases hin
      | [a], _, _, hin => simp at hin; rw [hin]
      | a :: b :: l, h1, hmem, _ =>
        exfalso
        obtain ⟨ea, ha⟩ := (hmem a).1 (by simp)
        obtain ⟨eb, hb⟩ := (hmem b).1 (by simp)
        have := (List.nodup_cons.1 h1).1
        rw [huniq _ _ ha, huniq _ _ hb] at this
        exact this (by simp)
    rw [hps] at h2
    have hu : doc.unitSystems = [e] := by
      have h := h2
      simp only [List.map_cons, List.map_nil] at h
      rw [he.1] at h
      match hd : doc.unitSystems, h with
      | [x], h => simp at h; rw [h]
      | [], h => simp at h
      | x :: y :: l, h => simp at h
    unfold parseDocument
    rw [hu]
    constructor
    · intro t ht
      simp only [(fromElement_iff e t).2 ht, bind, Except.bind]
    · intro hno
      simp only [bind, Except.bind]
      cases ht : Tag.fromElement e with
      | error err => rw [fromElement_error e err ht]
      | ok t => exact absurd ((fromElement_iff e t).1 ht) (hno t)
  · intro hno
    have hps : ps = [] := List.eq_nil_iff_forall_not_mem.2 (fun p hp => by
      obtain ⟨e, he⟩ := (hmem p).1 hp; exact hno p e he)
    rw [hps] at hlen
    have hu : doc.unitSystems = [] := List.length_eq_zero_iff.1 hlen.symm
    unfold parseDocument
    rw [hu]
  · intro path e path' e' he he' hne
    have hp := (hmem path).2 ⟨e, he⟩
    have hp' := (hmem path').2 ⟨e', he'⟩
    have : 2 ≤ doc.unitSystems.length := by
      rw [← hlen]
      match ps, hp, hp' with
      | [], hp, _ => cases hp
      | [a], hp, hp' => simp at hp hp'; exact absurd (hp.trans hp'.symm) hne
      | a :: b :: l, _, _ => simp
    unfold parseDocument
    split
    · rename_i h; rw [h] at this; simp at this
    · rfl

/-- **C51.** A comment anywhere inside the (only) unit system makes loading fail, with an AttributeError. -/
theorem C51_comment_fails (strict : Bool) (order : List Str → List Str) (doc : Elem) (path below : List Nat) (e : Elem)
    (he : IsUnitSystem doc path e) (huniq : ∀ path' e', IsUnitSystem doc path' e' → path' = path)
    (hc : at? e below = some .comment) : parseDocument strict order doc = .error .attributeError :=
  ((C51_documents strict order doc).1 path e he huniq).2 (comment_unreadable below e hc)

/-- Non-vacuity: an otherwise empty unit system with a comment in it. -/
example : parseDocument false id (.node c!"{n}unit-system" none [.node c!"{n}unit" none [.comment]]) = .error .attributeError ∧
    at? (.node c!"{n}unit-system" none [.node c!"{n}unit" none [.comment]]) [0, 0] = some .comment :=
  ⟨by decide +kernel, rfl⟩

/-- **C50.** At document level: a whole document whose unit system's children carry no namespace loads as an empty system. -/
theorem C50_document_without_namespace (order : List Str → List Str) (doc : Elem) (path : List Nat) (text : Option Str)
    (cs : List Elem) (t : Tag) (he : IsUnitSystem doc path (.node c!"unit-system" text cs))
    (huniq : ∀ path' e', IsUnitSystem doc path' e' → path' = path)
    (hns : ∀ c ∈ cs, ∃ tag tx below, c = .node tag tx below ∧ '}' ∉ tag)
    (ht : ReadAs (.node c!"unit-system" text cs) t) : parseDocument false order doc = .ok System.empty := by
  rw [((C51_documents false order doc).1 path _ he huniq).1 t ht]
  exact C50_without_namespace_empty order text cs hns t ((fromElement_iff _ t).2 ht)

example : parseDocument false id (.node c!"unit-system" none [.node c!"unit" none [.node c!"def" (some c!"60 s") []]]) =
    .ok System.empty := by decide +kernel

namespace Demo
/-- a namespaced document, the unit system two levels down; `{n}` stands for the XInclude-ed wrapper's namespace -/
def xml : Elem :=
  .node c!"{n}udunits-2" none [.comment, .node c!"{n}unit-system" none
    [.node c!"{n}unit" none [.node c!"{n}base" none [], .node c!"{n}name" none [.node c!"{n}singular" (some c!" second ") []],
      .node c!"{n}symbol" (some c!"s") [],
      .node c!"{n}aliases" none [.node c!"{n}name" none [.node c!"{n}singular" (some c!"sec") []], .node c!"{n}symbol" (some c!"S") []]]]]
end Demo

/-- Non-vacuity: reading a whole document, and what its one unit element declares. -/
example : (match parseDocument true id Demo.xml with
      | .ok s => s.names.map Prod.fst
      | .error _ => []) = [c!"second", c!"seconds"] ∧
    IsUnitSystem Demo.xml [1] (.node c!"{n}unit-system" none
      [.node c!"{n}unit" none [.node c!"{n}base" none [], .node c!"{n}name" none [.node c!"{n}singular" (some c!" second ") []],
        .node c!"{n}symbol" (some c!"s") [],
        .node c!"{n}aliases" none [.node c!"{n}name" none [.node c!"{n}singular" (some c!"sec") []], .node c!"{n}symbol" (some c!"S") []]]]) :=
  ⟨by decide +kernel, rfl, _, _, _, rfl, .namespaced c!"{n" _ (by decide)⟩

example : UnitIs (.mk c!"unit" [.mk c!"dimensionless" [] [], .mk c!"name" [.mk c!"singular" [] c!"radian"] [],
      .mk c!"symbol" [] c!"rad", .mk c!"aliases" [.mk c!"symbol" [] c!"r"] []] [])
    (.basis ⟨c!"radian", true, false, ⟨some ⟨c!"radian", some c!"radians"⟩, [c!"rad"], [], [c!"r"]⟩⟩) :=
  (C51_unit_elements _ _).1 (by decide +kernel)

end Verif
