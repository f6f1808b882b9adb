import Verif.Model.System
import Verif.Model.Lexer
/-!
# The database reader (`_udunits2_xml_parser.py`)

XML parsing itself (lxml) is not modelled: the input is the element tree.
-/

namespace Verif

/-- What lxml yields: elements with a (possibly namespaced, `{uri}local`) tag, the text before the first child, and
children; or a comment / processing instruction, whose `tag` is not a string. -/
inductive Elem where
  | node (tag : Str) (text : Option Str) (children : List Elem)
  | comment

/-- `Tag` (`_udunits2_xml_parser.py:20-30`); `text` is always a `str` here (see `Tag.fromElement`). -/
inductive Tag where
  | mk (name : Str) (children : List Tag) (text : Str)
  deriving Repr

namespace Tag

mutual
/-- the `__eq__` of the dataclass -/
def decEq : (a b : Tag) → Decidable (a = b)
  | .mk n c t, .mk n' c' t' =>
    if h : n = n' ∧ t = t' then
      match decEqList c c' with
      | isTrue h' => isTrue (by rw [h.1, h.2, h'])
      | isFalse h' => isFalse (by intro h''; cases h''; exact h' rfl)
    else isFalse (by intro h''; cases h''; exact h ⟨rfl, rfl⟩)
def decEqList : (a b : List Tag) → Decidable (a = b)
  | [], [] => isTrue rfl
  | [], _ :: _ => isFalse (by intro h; cases h)
  | _ :: _, [] => isFalse (by intro h; cases h)
  | a :: l, b :: l' =>
    match decEq a b with
    | isTrue h =>
      match decEqList l l' with
      | isTrue h' => isTrue (by rw [h, h'])
      | isFalse h' => isFalse (by intro h''; cases h''; exact h' rfl)
    | isFalse h => isFalse (by intro h''; cases h''; exact h rfl)
end

instance : DecidableEq Tag := decEq

def name : Tag → Str
  | .mk n _ _ => n
def children : Tag → List Tag
  | .mk _ c _ => c
def text : Tag → Str
  | .mk _ _ t => t

/-- `self.children.remove(child)`: removes the first child *equal* to `child` (structural equality of the dataclass). -/
def removeChild (t c : Tag) : Tag := .mk t.name (t.children.erase c) t.text

/-- `pop_first_matching_tag` (`:44-49`): the tag popped (or `None`) and the tag left behind. -/
def popFirst (t : Tag) (n : Str) : Option Tag × Tag :=
  match t.children.find? (fun c => decide (c.name = n)) with
  | some c => (some c, t.removeChild c)
  | none => (none, t)

/-- `pop_iter_tags` run to the end (`:54-58`): the tags yielded and the tag left behind.  (The generator is lazy; its
consumers never touch the tag it pops from, and the tags it yields are no longer part of it.) -/
def popIter (t : Tag) (n : Str) : List Tag × Tag :=
  t.children.foldl (fun (acc, t) c => if c.name = n then (acc ++ [c], t.removeChild c) else (acc, t)) ([], t)

mutual
/-- `from_element` (`:32-42`): `_, _, tag_name = element.tag.partition("}")`, so a tag without namespace gets the name
`""`.  A comment's `tag` is a function without `partition`: AttributeError. -/
def fromElement : Elem → Py Tag
  | .comment => .error .attributeError
  | .node tag text children => do
    let cs ← fromElements children
    .ok (.mk ((tag.dropWhile (· ≠ '}')).drop 1) cs (strip (text.getD [])))
def fromElements : List Elem → Py (List Tag)
  | [] => .ok []
  | e :: es => do
    let t ← fromElement e
    let ts ← fromElements es
    .ok (t :: ts)
end

end Tag

/-- `singular_name.endswith(("s", "ss", "sh", "ch", "x", "z"))` (`:91`) -/
def endsWithSibilant (s : Str) : Bool :=
  [c!"s", c!"ss", c!"sh", c!"ch", c!"x", c!"z"].any fun e => decide (e.reverse <+: s.reverse)

/-- `unhandled_content_detected` (`:62-64`, strict: `:249-251`) -/
def unhandledContent (strict : Bool) : Py Unit := if strict then .error .unhandledContent else .ok ()

/-- `assert p` -/
def pyAssert (p : Bool) : Py Unit := if p then .ok () else .error .assertionError

/-- `handle_name_tag` (`:66-103`).  `plural_name_tag.text` is a `str`, possibly empty. -/
def handleName (strict : Bool) (tag : Tag) : Py Name := do
  let (sing, tag) := tag.popFirst c!"singular"
  match sing with
  | none => .error .missingTag
  | some sing =>
    pyAssert sing.children.isEmpty
    let singular := sing.text
    let (pl, tag) := tag.popFirst c!"plural"
    let plural := pl.map Tag.text
    let (noPl, tag) := tag.popFirst c!"noplural"
    let plural ← (match noPl with
      | some np => do
        pyAssert plural.isNone
        pyAssert (np.children.isEmpty && np.text.isEmpty)
        .ok plural
      | none => .ok (match plural with
        | some p => some p
        | none => some (singular ++ if endsWithSibilant singular then c!"es" else c!"s")))
    (if !tag.children.isEmpty || !tag.text.isEmpty then unhandledContent strict else .ok ())
    .ok ⟨singular, plural⟩

/-- `symbols = set(); symbols.add(...)` -/
def symbolSet (l : List Str) : List Str := l.foldl (fun acc x => setInsert x acc) []

/-- `handle_prefix` (`:105-134`); `order` is the iteration order of the set of symbols. -/
def handlePrefix (strict : Bool) (order : List Str → List Str) (tag : Tag) : Py Prefix := do
  let (name, tag) := tag.popFirst c!"name"
  let (value, tag) := tag.popFirst c!"value"
  match name with
  | none => .error .missingTag
  | some name =>
    pyAssert name.children.isEmpty
    match value with
    | none => .error .missingTag
    | some value =>
      pyAssert value.children.isEmpty
      let (symbols, tag) := tag.popIter c!"symbol"
      (if !tag.children.isEmpty || !tag.text.isEmpty then unhandledContent strict else .ok ())
      .ok ⟨name.text, value.text, order (symbolSet (symbols.map Tag.text))⟩

/-- The loop over the children of `aliases` (`:167-180`). -/
def handleAliases (strict : Bool) : List Tag → Py (List Name × List Str)
  | [] => .ok ([], [])
  | a :: l => do
    if a.name = c!"name" then
      let n ← handleName strict a
      let (ns, ss) ← handleAliases strict l
      .ok (n :: ns, ss)
    else if a.name = c!"symbol" then
      pyAssert (!a.text.isEmpty && a.children.isEmpty)
      let (ns, ss) ← handleAliases strict l
      .ok (ns, a.text :: ss)
    else if a.name = c!"noplural" then handleAliases strict l
    else
      unhandledContent strict
      handleAliases strict l

/-- The names of a unit tag (`:151-193`): the reference and what is left of the tag after popping `name`, `symbol`,
`aliases`, `comment` and `definition`. -/
def handleReference (strict : Bool) (tag : Tag) : Py (UnitReference × Tag) := do
  let (nameTag, tag) := tag.popFirst c!"name"
  let name ← (match nameTag with
    | none => .ok none
    | some n => do .ok (some (← handleName strict n)))
  let (symbols, tag) := tag.popIter c!"symbol"
  let (aliases, tag) := tag.popFirst c!"aliases"
  let (alNames, alSymbols) ← (match aliases with
    | none => .ok ([], [])
    | some a => do
      pyAssert a.text.isEmpty
      handleAliases strict a.children)
  let (_, tag) := tag.popFirst c!"comment"
  let (_, tag) := tag.popFirst c!"definition"
  .ok (⟨name, symbols.map Tag.text, alNames, alSymbols⟩, tag)

/-- What a unit tag defines: a lazily defined unit or a basis unit. -/
inductive UnitDecl where
  | lazy (defn : Str) (names : UnitReference)
  | basis (b : Basis)
  deriving DecidableEq, Repr

/-- One `unit` tag (`:150-227`), up to `system.add_unit`. -/
def handleUnit (strict : Bool) (tag : Tag) : Py UnitDecl := do
  let (ref, tag) ← handleReference strict tag
  let (defn, tag) := tag.popFirst c!"def"
  match defn with
  | some d =>
    pyAssert d.children.isEmpty
    (if !tag.children.isEmpty then unhandledContent strict else .ok ())
    .ok (.lazy d.text ref)
  | none =>
    let (diml, tag) := tag.popFirst c!"dimensionless"
    let (dimensionless, tag) ← (match diml with
      | some _ => .ok (true, tag)
      | none =>
        let (base, tag) := tag.popFirst c!"base"
        match base with
        | none => .error .assertionError
        | some b => do
          pyAssert (b.text.isEmpty && b.children.isEmpty)
          .ok (false, tag))
    match ref.name with
    | none => .error .attributeError
    | some n =>
      let b ← mkBasis ref dimensionless (decide (n.singular = c!"second"))
      (if !tag.children.isEmpty then unhandledContent strict else .ok ())
      .ok (.basis b)

/-- `LazilyDefinedUnit(...)` / `BasisUnit(...)` followed by `system.add_unit(unit)` (`:194-229`) -/
def UnitDecl.add (d : UnitDecl) (s : System) : Py System :=
  match d with
  | .lazy defn names =>
    let (id, s) := s.alloc defn names
    match s.addUnit (.lazy id) false with
    | (.error e, _) => .error e
    | (.ok (), s) => .ok s
  | .basis b =>
    match s.addUnit (.unit (.basis b)) false with
    | (.error e, _) => .error e
    | (.ok (), s) => .ok s

/-- the loop over prefixes (`:147-148`) -/
def addPrefixes (strict : Bool) (order : List Str → List Str) : List Tag → System → Py System
  | [], s => .ok s
  | t :: ts, s => do
    let p ← handlePrefix strict order t
    addPrefixes strict order ts (s.addPrefix p)

/-- the loop over units (`:150-229`) -/
def addUnits (strict : Bool) : List Tag → System → Py System
  | [], s => .ok s
  | t :: ts, s => do
    let d ← handleUnit strict t
    let s ← d.add s
    addUnits strict ts s

/-- `parse_file` from the `unit-system` tag on (`:143-234`). -/
def parseSystem (strict : Bool) (order : List Str → List Str) (tag : Tag) : Py System := do
  let (prefixes, tag) := tag.popIter c!"prefix"
  let s ← addPrefixes strict order prefixes System.empty
  let (units, tag) := tag.popIter c!"unit"
  let s ← addUnits strict units s
  (if !tag.children.isEmpty then unhandledContent strict else .ok ())
  .ok s

/-- XPath `local-name()` of an element -/
def localName (tag : Str) : Str := if '}' ∈ tag then (tag.dropWhile (· ≠ '}')).drop 1 else tag

mutual
/-- `root.xpath('//*[local-name()="unit-system"]')` in document order (`:142`) -/
def Elem.unitSystems : Elem → List Elem
  | .comment => []
  | .node tag text children =>
    let below := unitSystemsList children
    if localName tag = c!"unit-system" then .node tag text children :: below else below
def unitSystemsList : List Elem → List Elem
  | [] => []
  | e :: es => e.unitSystems ++ unitSystemsList es
end

/-- `parse_file` on a parsed document (`:136-234`) -/
def parseDocument (strict : Bool) (order : List Str → List Str) (root : Elem) : Py System :=
  match root.unitSystems with
  | [e] => do parseSystem strict order (← Tag.fromElement e)
  | _ => .error .unpackError

end Verif
