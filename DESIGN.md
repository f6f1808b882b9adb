# Formal model of pyudunits2 — design and trusted base

The code under study is `/repo` (pelson/pyudunits2, pinned). This directory holds

| path | contents |
|---|---|
| `properties.jsonl` | the properties, in terms of the API and its observable effects |
| `MANIFEST.json` | property → exact theorem names |
| `lean/Verif/Py.lean` | strings (`List Char`), Python exceptions as values, insertion-ordered dicts |
| `lean/Verif/Model/*.lean` | the model, function by function; every definition cites file and lines |
| `lean/Verif/Spec/*.lean` | small specifications written without the model's helpers; the theorems are stated with them |
| `lean/Verif/Lemmas/*.lean` | proofs' auxiliary lemmas |
| `lean/Verif/Props/*.lean` | the theorems `Cxx_…`, each with non-vacuity examples |
| `lean/Verif/Conformance.lean` | **tests, not proofs**: the repository's own parametrised test cases replayed on the model by kernel evaluation |
| `seeded/LOG.jsonl` | one line per wrong program tried against the theorems |
| `tools/` | generators (properties, manifest, database transcription, conformance tests, seeded log); not trusted except `mkdb.py`, see below |

## 1. Trusted base

* **Lean 4.33.0's kernel** (and, for reading the statements, the elaborator).
* **Axioms**: only Lean's three standard ones, `propext`, `Classical.choice`, `Quot.sound`. No axiom is
  added; nothing is left unproved; no compiled evaluation is trusted (`decide +kernel` is evaluation *by the
  kernel*). The list per theorem is at the end of this file.
* **The model is the code.** Section 2 says what is modelled, section 3 what is idealised or left out. The
  conformance module checks the model against the outcomes the repository's own test-suite demands
  (parser, splitting, expander, unit systems, dates, equality): a disagreement would make the build fail.
* **`tools/mkdb.py`**, which transcribes `pyudunits2/udunits2_combined.xml` (element tree:
  tags, texts, nesting; the prose of `comment` and `definition` elements is dropped, see C51 for what
  is read of them) into `Model/Database.lean`, and **`tools/mkatn.py`**, which copies the integers of `serializedATN()`
  into `Model/AtnData.lean`. (`Lemmas/LexerTable.lean` and `Lemmas/ParserTable.lean`, generated by
  `tools/MkLexTable.lean.txt` and `tools/MkParserTable.lean.txt`, are *not* trusted: the kernel checks them.) `Model/Declarations.lean`, also generated, is *not* trusted: the
  kernel checks it against the model's reading of the database. `Spec/ShippedTable.lean` (generated by
  `tools/mktable.py`, an evaluator of the XML file independent of the model) is a *specification*: C53–C55 say that the
  code's units are those of the table.

## 2. What is modelled

| code | model | notes |
|---|---|---|
| `_expr/graph.py`, `_expr/atoms.py` (nodes, `__str__`, `Visitor`), `_expr/substitute.py`, `_expr/split.py` | `Model/Graph.lean` | `Node`, `Node.str`, `Dec.str` (= `Decimal.__str__`), `split`, `dimCount`, `substitute`, `identifiers` |
| `_expr/dimensionality.py`, `_expr/normaliser.py` (never changes an expression: `normalise_id`) | `Model/Graph.lean`, `Model/Unit.lean` | Python's int/str operator semantics is kept (`PyVal`): superscript exponents stay strings and raise `TypeError` |
| `_unit.py`, `_unit_reference.py` | `Model/Unit.lean`, `Model/Sympy.lean` | `Unit`, `NamedUnit`, `DateUnit`, `BasisUnit`, `Prefix`, construction checks, dimensionality, convertibility, equality, expansion |
| `_unit_system.py` | `Model/System.lean` | four name tables + two prefix tables as ordered dicts, the heap of `LazilyDefinedUnit`s (resolution mutates it and re-registers), exceptions with the state they leave, recursion limit as a parameter, identifier-set iteration order as a parameter (`Env.order`) |
| `Converter` (`_unit.py`), `_expr/sympy.py` and the sympy operations they use | `Model/Sympy.lean`, `Model/Convert.lean` | symbolic definitions as monomials `coef · Π sym^e` over ℚ; a conversion as a list of operations executed over ℝ with domain errors |
| the names of `Converter`'s own symbols (`_unit.py:200-236`) | `Model/Names.lean` | units called `value`, `to_value`, … |
| the same with rounded numbers | `Model/Float.lean` | `Coef`, `SymDef`, `Inverted`, `Link`, `Rearrange`, `Printed`, `Run`, `Converts`: relations, since a rounding, and what sympy merges, distributes and collects, are left open |
| `Unit` objects, `_cached_symbolic_definition`, shared `identifier_references` | `Model/Objects.lean` | addresses, mappings, caches, threads |
| `Converter.convert` on numpy arrays | `Model/Arrays.lean` | references, shapes, element-wise operations, what sympy drops |
| `Converter.convert` on arrays of integers | `Model/IntArrays.lean` | units free of value transformations; numpy 2 |
| `int()`, `Decimal()` in `_grammar/__init__.py:44-57` with the interpreter's limits | `Model/Limits.lean` | which numbers are refused, and in which order they are visited |
| `_grammar/udunits2Lexer.g4.jinja` | `Model/Lexer.lean` | every rule as a regular expression (derivatives), three modes, maximal munch, first rule wins |
| `_grammar/parser/udunits2Lexer.py` and, of `_grammar/_antlr4_runtime`, `ATNDeserializer`, `LexerATNSimulator`, `LexerActionExecutor`, `Lexer.nextToken` | `Model/AtnData.lean`, `Model/Atn.lean`, `Model/LexerSim.lean` | the lexer that runs, with the DFA cache all lexers share; C66 proves it equal to `Model/Lexer.lean` |
| `_grammar/udunits2Parser.g4`, `_grammar/__init__.py` | `Model/Parser.lean` | one definition per grammar rule, ordered alternatives, the visitor's term handlers |
| `UnitParseVisitor` with a limited number of frames | `Model/ParserDepth.lean` | frames of `ParseTreeVisitor` calls; the result is `RecursionError` when they run out |
| the visitors of expressions, `dimensionality`, `is_time_unit`, `expanded`, `str`, construction of units with a limited number of frames | `Model/Frames.lean` | otherwise the same functions as in `Model/Graph.lean`, `Model/Unit.lean` |
| `_grammar/parser/udunits2Parser.py`, `udunits2ParserVisitor.py` and, of `_grammar/_antlr4_runtime`, `ParserATNSimulator`, `PredictionContext`, `PredictionMode`, `LL1Analyzer`, `Parser`, `DefaultErrorStrategy.sync` | `Model/ParserSim.lean`, `Model/CacheProg.lean`, `Model/GeneratedParser.lean`, `Model/ParseThreads.lean` | the parser that runs: SLL and full-context prediction, merged (graph-structured) contexts, the DFA caches all parsers share, the generated methods and the visitor; C67 proves it equal to `Model/Parser.lean`; written as a program of single cache accesses, which threads interleave (C69) |
| `_udunits2_xml_parser.py` | `Model/Xml.lean` | `Tag`, popping, strict and default reader, names/plurals, prefixes, units, aliases, documents |
| `udunits2_combined.xml` | `Model/Database.lean` | complete |
| `_datetime.py` | `Model/DateTime.lean` | `Time`, `DateTime`, equality, hashed tuple, printing |
| `__main__.py` (handlers), `_debug_tokens`, `Dimensionality.__eq__`/`__str__` | `Model/Cli.lean` | lines printed and exit status; argparse, sympy's printing and `repr` of non-ASCII names are not modelled |
| `_expr/expander.py` (`Expander`; `SimplifyingVisitor` is unused) | `Model/Expander.lean` | including Decimal products rounded to 28 digits |

## 3. What is idealised or not modelled

* **Numbers.** Outside C71, sympy Floats and Python floats are exact rationals/reals; sympy's Integer/Float distinction does
  not influence equality in the model. C71 models the same computations with every number rounded (any rounding of relative
  accuracy `u`), bounds the difference, and shows that equality is not the exact one; overflow, underflow, nan and inf are not
  modelled. C72 models float arrays, element by element; C84 integer arrays, for units free of value transformations (numpy's
  `10**value` on integers refuses or wraps: not modelled). Masked arrays are not modelled. `Model/Parser` converts
  numbers of any length; `int()`'s limit of 4300 digits and the exponent limits of `Decimal` are added in `Model/Limits` (C85, which says
  for which texts they play no part). Decimal overflow in arithmetic and inexact Decimal powers (in `Expander`) are not modelled
  (the model returns `unmodelled`, and theorems exclude it).
* **sympy** is modelled by what it is used for: a canonical monomial, and `solve` inverting a chain of
  injective operations. A zero factor *inside* a value transformation is not modelled. A unit called `value` (or another
  of the names of the Converter's own symbols) collides with them: modelled in `Model/Names.lean` only (C81), where a factor
  *inside* a value transformation that contains one of the names is not modelled; elsewhere the symbols are kept apart.
* **ANTLR.** The generated lexer and parser and the runtime that interprets them are modelled (C66–C68). Not modelled of
  the lexer: the input stream, line and column counters, lone surrogates (Lean characters are Unicode scalar values),
  predicates and EOF transitions (the automaton has none; the model would fail on one). Not modelled of the parser: the
  `closureBusy` and `mergeCache` memo tables (sharing of work; the model recomputes), hash collisions, the choice among
  alternatives after a *failed* prediction (an arbitrary function `Recover`; the theorems hold for each), what happens after the
  first reported error (the package's listener raises `SyntaxError` at once), parse listeners and tree positions; all tokens are
  read before parsing begins (the lexer does not depend on the parser). Python's recursion limit is modelled for
  the visitor of the parse tree (C75) and for the visitors of expressions and methods of units (C83; not for frames inside sympy
  and C functions), not for the parser's own methods.
* **Recursion limit** of lookups is counted in nested lookups, not in interpreter frames; the theorems hold for
  every limit.
* **XML text** → element tree is lxml's; the model starts at the element tree.
* Object identity (`DateUnit.__eq__` is inherited identity), `logging`, `__repr__`, deep copies, pickling. Lookups and registrations by several threads are modelled (`Model/Threads.lean`) at the
  grain of single dict accesses, steps of dict iterators and attribute accesses, each atomic as in CPython (with the GIL); ANTLR's shared DFA caches are
  modelled at the same grain (C69). Not modelled: `PredictionContextCache` and `nextTokenWithinRule`, two more memo tables
  of the runtime that hold values equal to those computed.
* Code that cannot run: `UnitSystem.basis_of`, `UnitSystem.conversion_expr` import modules that do not exist;
  `from_udunits2_xml(path)`, `parse_udunits_date` and the CLI's `convert` raise `NotImplementedError`.
* The unused classes `Expression`, `UnitDefinition` and what only they call.
* An `Expander` after an exception escaped from it.

## 4. Properties: what is modelled and how each is proved

| property | model | proof |
|---|---|---|
| C01–C03 | `System.addUnit` | case analysis with dictionary lemmas; invariants `SysOk` of reachable systems; witnesses for the refuted stronger claims |
| C04, C52 | `unitByNameOrSymbol`, `addPrefix` | unfolding against `Spec.direct`/`FirstSplit`; an "honest errors" induction shows an unresolvable error for `n` can only come from `n` itself |
| C05–C07, C37 | lookups with mutation, lazy heap, recursion limit, order oracles | simulation of the mutating lookup by a pure one on a fixed registry (`Spec.lookup`), induction on the limit and on histories; relational "same unit up to order of references" for C07/C37 |
| C08, C48 | recursion limit as fuel | monotonicity in the limit, infinite descent; ranks for the positive direction; a kernel evaluation over the complete database for its table |
| C09–C14 | `split`, `dimCount`, `Ref.dims` | structural induction, degree homomorphism into ℤ-valued functions |
| C15–C22, C45 | `Converter` | induction over lists of operations, `Real.log/exp`; an independent semantics of units (`Spec.Means`) for the "quantity is preserved" theorems |
| C23–C25 | `normalise`, `mkUnit`, `unitFromExpr` | induction on expressions, on lookups and on histories |
| C26–C27 | `Ref.eq` | witness for the refutation; print/parse round trip for the positive part |
| C28–C29, C46, C47 | lexer | derivative correctness; induction on input |
| C30–C34 | parser | soundness and completeness against an inductive grammar, ordered derivations for the choice among parses; print/parse by induction on printed expressions |
| C35, C36, C38, C49–C51 | XML reader | induction on trees; strict/default simulation; complete kernel evaluation of the shipped document |
| C39–C40 | `DateTime` | direct; positional-number injectivity for printing |
| C41 | `Expander` | invariants of the accumulated state, exponent homomorphism, uniqueness of sorted lists; each step is exact or costs two decimal roundings; offsets by induction |
| C42–C43 | API wrappers with Python's dict/str semantics | general statements and witnesses |
| C44 | `Ref.expand` | nested induction |
| C53–C55 | the complete shipped database against `Spec/ShippedTable.lean` | an evaluator of definitions over tables of already evaluated ones is proved sound for every order (`Lemmas/ExpandTable.lean`), run by the kernel on the complete database and compared with the table; conversions and equality then follow from general theorems on units in "row" form (`Lemmas/Rows.lean`) |
| C56, C57 | `UObj`, `Ref.expand`, `parse` | print/parse round trip for bracket-free expressions (`Spec.Flat`), magnitudes and degrees by induction |
| C58, C59 | `Model/Cli.lean` | from C15, C24 and the rows of C53; dictionaries as permutations; the text of a dict is read back entry by entry (`Spec/DictText.lean`) |
| C60, C61 | the shipped database, prefixes, `parse` | `Spec/Readings.lean` defines on paper what a spelling and a parsed text denote; kernel checks: no earlier prefix captures a prefixed spelling, the second is the only time basis unit; induction on the denotation; dates of anything but a time are refused (`Props/ShippedOffsets.lean`) (`Lemmas/Texts.lean`, `Lemmas/Readings.lean`) |
| C62–C64 | lookups as programs of single accesses, threads, schedules (`Model/Threads.lean`) | run alone the programs equal the sequential model; a rely/guarantee invariant (resolved units only ever replaced by their meaning, resolved attributes never reset) is kept by every access of every thread, so results refine the pure lookup; liveness by induction on the program (`Lemmas/Threads.lean`) |
| C65 | histories of registrations and queries | fresh registrations extend the pure registry conservatively (`Lemmas/Build.lean`); the invariant of C05 follows the registry |
| C66 | the generated lexer and its shared cache | a table of pairs (automaton configurations, partial derivatives of the rules), checked by the kernel to be closed under one representative of each interval of characters the automaton and the rules do not distinguish; cache soundness as invariant of histories |
| C67, C68 | the generated parser, its predictions and shared caches | graph-structured contexts denote sets of stacks; closure, reach and merge are proved exact against the pushdown reading of the automaton (`Lemmas/ParserCtx` … `Lemmas/Prediction`), SLL conflicts fall back to full context; bounds on the closure's fuel from a table checked by the kernel; every generated method is then simulated against the corresponding rule of `Model/Parser.lean` (`Lemmas/Gen*.lean`) |
| C69 | `parse` as a program of single accesses to the shared caches, processes of many calls | `Safe`: whatever right values or nothing a program reads, it writes right values only and returns the same result; compositional over lexer, predictions and generated methods (`Lemmas/CacheProg.lean`), invariant of all interleavings and liveness (`Lemmas/ParseThreads.lean`); run alone the programs equal the sequential functions (`Lemmas/ParseAlone.lean`) |
| C70 | registrations and lookups as programs of single accesses, schedules with both (`Model/Threads.lean`) | tables only grow and only ever hold what was there, a claim of some registration, or the meaning of a claimed definition in the completed system; under `NoSecondMeaning` (`Spec/Live.lean`) a reading found in any such table is a reading in the completed one, and what has returned is a lower bound; rely/guarantee over all schedules (`Lemmas/Live*.lean`) |
| C71 | rounded computations as a relation `Converts u a b x y` (`Model/Float.lean`) | `Off u n x y`: `y/x` lies between `(1-u)^n` and its inverse, closed under the operations; chains of multiplications and additions compared by value and by the value of absolutes (`Near`), which every rearrangement, printing and running preserves up to counted roundings; a measure bounds the number of rearrangements; logarithms via `log θ`; the shipped units' roundings counted in the kernel (`Lemmas/Float*.lean`) |
| C72 | arrays as objects in a store, the printed function as steps that store their result in a new array (`Model/Arrays.lean`) | induction over the steps: the store only grows, elements are mapped; a factor 0 is the only source of constants |
| C73 | objects, mappings and caches in a store, methods as programs that read and fill caches, threads interleaved at these accesses (`Model/Objects.lean`) | invariant: caches hold what would be computed, mappings in use do not change; what is left of a call yields the specified answer in every later store; induction over the schedule |
| C74 | the same store; lengths of texts | strong induction on addresses (references lead to older objects); a chain of squares, and exponentials outgrow polynomials |
| C75 | the visitor with a number of frames left (`Model/ParserDepth.lean`), on the trees of the generated parser | frames of a tree by mutual induction; every outcome of every parser method, whatever is predicted, pays ten frames per token consumed (a Hoare-style predicate over programs); composed with C67; C32 gives the long products |
| C76 | registrations as steps (`Spec/Build.lean`, `Spec/Arrange.lean`) | invariant of filling a system: a table holds exactly the declared things (`Lemmas/Arrange.lean`), which does not mention the order; the two fixed registries then read every spelling alike; documents are such sequences of steps (`Lemmas/ArrangeXml.lean`) |
| C77 | writing a definition out (`Spec/Inline.lean`: `Node.inline`, `MayInline`, `Interchangeable`) | expansion commutes with writing out (`Lemmas/Inline.lean`), dimensionality by degrees (C09) or because a unit that is just another unit has its dimensionality; units with the same expansion and powers convert alike (`Lemmas/InlineUnits.lean`); the lookups agree by the refinement of C05; the shipped units by C53 and a kernel check that every declared spelling finds its own declaration |
| C78 | equality by arithmetic (`Spec/Algebra.lean`: `SameArithmetic`, `Multiplicative`, `SameUnit`) | the symbolic definition of a unit free of transformations is a monomial whose value is the unit's magnitude; magnitudes agree under every assignment, so coefficients (all ones) and exponents (a single 2) agree; degrees agree because scaling an identifier by 2 scales the value by its degree; zero-valued identifiers are patched away; conversions by `convert_iff` (`Lemmas/Algebra.lean`) |
| C79 | declared spellings, prefix table, 22 unusable spellings (`Spec/Understood.lean`: `Understood`, `Hopeless`) | a word has a reading iff declared or split; kernel checks: every way to split a prefixed unusable spelling leaves something undeclared or unusable, and the words of an unusable definition are without reading or of small rank; then C48 (well-founded definitions), C05 (histories), order independence (`Lemmas/Understood.lean`) |
| C80 | order and intervals (`Spec/Monotone.lean`) | the inverse of a value transformation is a continuous strictly monotone function on ℝ (induction on the chain of operations), so a conversion equates two such functions of the two values (`convert_iff`); order by composition, gaps by the intermediate value theorem, `k x + c` for chains without logarithm; shipped units by the signs of the factors in the table (kernel check) and C54 (`Lemmas/Monotone.lean`) |
| C81 | renaming (`Spec/Renaming.lean`), `Converter` with colliding symbols (`Model/Names.lean`) | every function of the model commutes with an injective renaming (structural inductions, `Lemmas/Renaming.lean`, `Lemmas/RenamingEq.lean`; printed definitions are compared through print/parse); a simplified conversion without leftover symbols runs the same with and without collisions (`Lemmas/Names.lean`) |
| C82 | re-basing (`Spec/Rebase.lean`: `Ref.rebase`, `MayDefine`) | the expansion of the re-based unit is the old one with the new definition written for the symbol; on monomials this multiplies the factor by `c^e` and is linear on exponents, a relation kept by products, quotients, powers, every step of a value transformation and the counting of dimensions (`Lemmas/Rebase*.lean`); then `convert_iff` on both sides |
| C83 | the visitors, methods and constructors of units with a number of frames left (`Model/Frames.lean`) | `Needs f x bound` (a threshold below which `RecursionError`, from which on the unlimited result) composes over sequencing, calls and `max`; mutual induction on units; on the shipped database every definition is shallow (`decide` over the table's depths, lifted through C05's invariant); C75's threshold for the parser is larger than what follows; the deep session by induction on the number of definitions |
| C84 | converting integer arrays (`Model/IntArrays.lean`): kinds of sympy numbers, the printed function, numpy's integer types | a conversion between units without transformation is one factor, or a reciprocal and a factor; by cases of the printed function; `Int.emod` for wrapping, uniqueness of the representative; `WholeNumbers` is kept by `split`; on the shipped database a kernel check that each linear spelling is either defined without decimals (203 listed) or has one as a factor |
| C85 | the parser with the interpreter's limits on numbers (`Model/Limits.lean`) | induction over the tree: the first number that does not fit; numbers of a tree are tokens of the text, in order (induction over `Derives`); `natStr` counts the significant digits; two parsers that agree on a system's texts give the same lookups (congruence through every function of `Model/System`) |

A theorem whose name ends in `_refuted` proves the *negation* of the natural stronger claim with a concrete witness:
the code does not have that property. Every property has its positive part where there is one.

## 5. What was found in the code

1. `Unit.__eq__` first compares printed forms, which omit brackets: `m/(s s) == m/s s` is True, equality is not
   transitive (C27).
2. `str((m^2)^3)` is `m^2^3`, which does not parse; `m/(s s)` normalises to a different unit; `-0.` → `-0` → `0` (C32).
3. A superscript exponent (`m²`) is kept as text: `dimensionality()` raises TypeError (C43).
4. A `BasisUnit`'s dimensionality is a plain dict: `is_convertible_to`/`Converter` misbehave on basis objects (C42, C17).
5. `radian` → `1` is "convertible" but conversion raises NameError (leftover symbol) (C22).
6. Multiples of logarithmic/shifted units are inverted: `lg(re m)*2`, `millidegC`, `dBm` convert wrongly (C21, C14).
7. A product of a shifted/logarithmic unit with another unit drops the other's dimension (C09, C22).
8. A shift inside a shift is ignored (C20).
9. An alias may be re-pointed by a later registration, and by a mere *lookup* (C03, C06); a new unit's name can shadow
   an existing symbol (C03); a new prefix name can take a spelling from a prefix symbol (C52).
10. `DateUnit.is_convertible_to` is always False while `Converter` accepts dates and ignores the reference (C25).
11. The lexer never leaves shift mode (C29, C34); `hours@1990-01-01T00:00`, `( m )`, `m2.s`, `-.5`, `e5`
    are syntax errors (C46); names with digits and `ref/after/from/since` can be registered but not used (C47).
12. `unit("")` raises NotImplementedError.
13. 22 spellings registered by the shipped database never resolve (C48).
14. `DateTime.__hash__` includes `raw_content`, `__eq__` does not (C39); `str(Time)` pads microseconds to 8 digits (C40).
15. `mm` (prefix symbol `m` + unit symbol `m`) has dimension m² (C14).
16. A document without XML namespaces loads, silently, as an empty system (C50); an XML comment inside `unit-system` is
    an AttributeError (C51).
17. If one symbol of a prefix is an initial segment of another, lookups depend on the string-hash seed (C37).
18. `Expander`: decimals rounded to 28 digits, state kept between visits, offsets hoisted out of products,
    nested offsets multiplied, `0/0` → `1` (C41).
19. The shipped `torr`/`mmHg`, defined as `mm Hg`, is not a pressure: because of 15 it is 133322.387415 kg/s² (C53).
20. `expanded()` drops brackets: `m/h` gives `metre/60·60·second`, which reads back as length × time (C57).
21. `conversion-expr` offers an expression between dates although `is_convertible_to` is False (C58); `explain-unit m²` prints
    two lines and then a TypeError traceback.
22. On the shipped database, prefixed logarithmic and offset units are divided by the prefix and lose the offset: 30 dBm convert to
    300 Bm (C60).
23. Definitions are read at the first lookup: registering `km` after `klick = 5 km` changes `klick` or not, depending on
    whether `klick` was looked up before (C65).
24. A lookup raises `RuntimeError: dictionary changed size during iteration` when another thread adds any prefix during its
    iteration over the prefixes (C70).
25. `add_unit` checks first and writes afterwards: two threads can both register the same name without `replace`, and leave the
    name and the symbol with different units (C70).
26. Equality compares floating-point numbers: `7 0.1 m` and `0.7 m` are unequal units (C71).
27. Converting an array to the unit it is in returns the array itself, not a copy; converting an array from a unit with the
    factor 0 returns the number 0 (C72).
28. `Unit` keeps the mapping it is constructed with, not a copy. If it is changed later, the cached symbolic definition and
    the dimensionality of the unit disagree: a conversion is allowed that then leaves units in the result (C73).
29. Definitions are expanded without sharing: a few dozen short definitions, each the square of the one before, make
    `expanded`, `==` and `Converter` work on an expression of 2^n factors (C74).
30. `parse` recurses once per factor: with Python's default limit a product of 251 factors raises `RecursionError`, although
    the generated parser itself reads products in a loop (C75).
31. The order in which prefixes are added decides how a spelling with two readings is read; in the shipped file that
    concerns exactly `dat` and `dau` (C76).
32. Writing the definition of a shifted unit out inside a product changes the dimensionality: with `celsius` = `K @ 273.15`, `celsius m`
    is a length times a temperature, `(K @ 273.15) m` a temperature (C77).
33. Dividing a shifted unit by 1 drops its shift (C78): `celsius/1` is not `celsius` - 0 of one are 273.15 of the other.
34. `degree_west` has a negative factor: converting between it and any other angle reverses the order of values (C80); all other
    shipped units keep it.
35. A dimensionless basis unit called `value` is confused with the Converter's own symbol: converting it to `1` returns the square
    of the number, where any other name raises `NameError` (C81).
36. Direct conversion has priority over reciprocal conversion, so declaring units dimensionless changes conversions that were
    possible before: with the second defined as 1, 2 s are 2 Hz instead of 0.5 Hz (C82).
37. A unit defined by way of a long chain of other units can be made without deep calls - each link is used as soon as it is defined -
    but its `dimensionality()` raises `RecursionError` (C83).
38. Arrays of integers are converted with their own integers if all numbers involved are written as integers: a million hours in an
    `int32` array become -694967296 seconds; `int8` arrays of hours cannot be converted at all (C84).
39. A valid unit text can raise something else than `SyntaxError`: `ValueError` for an integer of more than 4300 digits (zeros included),
    `decimal.InvalidOperation` - not a `ValueError` - for `1e1000000000000000000 m` (C85).

## 6. Axioms per theorem

<!-- AXIOMS -->

(all in namespace `Verif`)

* **Classical.choice, Quot.sound, propext** (253): `C01_add_unit_rejects_exactly_collisions`, `C02_registered_unit_is_found`, `C03_lookup_finds_existing`, `C04_lookup_precedence`, `C04_unresolvable_iff`, `C05_lookup_independent_of_history`, `C05_unit_independent_of_history`, `C05_lookup_refines_fixed_registry`, `C07_set_order_unobservable`, `C07_unit_set_order_unobservable`, `C07_observations_agree`, `C08_success_implies_wellfounded`, `C08_cyclic_definitions_fail`, `C09_dimensionality_is_degree`, `C09_dimensionality_of_identifier`, `C10_no_zero_no_duplicate`, `C10_dimensionless_iff`, `C12_convertible_refl`, `C12_convertible_symm`, `C12_convertible_trans`, `C13_convertible_iff_same_or_opposite`, `C14_prefix_scales`, `C14_prefixed_celsius_refuted`, `C14_prefix_keeps_dimensionality`, `C15_incompatible_iff_not_convertible`, `C16_convert_self_is_identity`, `C16_convert_self_defined`, `C17_round_trip`, `C17_basis_source_refuted`, `C18_conversions_compose`, `C19_direct_conversion_preserves_quantity`, `C19_inverted_conversion_is_reciprocal`, `C20_shift_adds_its_offset`, `C20_nested_shift_refuted`, `C21_numeric_multiple`, `C21_multiple_of_logarithm_refuted`, `C21_multiple_of_shift_refuted`, `C22_allowed_conversion_gives_number`, `C22_direct_conversion_total`, `C22_radian_refuted`, `C22_log_times_unit_refuted`, `C23_system_returns_constructed`, `C24_date_unit_iff`, `C24_unit_returns_date_iff`, `C24_time_unit_iff`, `C25_converter_ignores_reference`, `C25_converter_refuses_dates_refuted`, `C26_eq_refl`, `C26_eq_symm`, `C27_printable_units_interchangeable`, `C27_equal_units_interchangeable`, `C27_interchangeable_units_equal`, `C27_equal_units_interchangeable_refuted`, `C27_eq_transitive_refuted`, `C28_lossless`, `C30_accepts_exactly_the_grammar`, `C30_only_syntax_errors`, `C30_graph_of_a_derivation`, `C30_disambiguation`, `C30_unambiguous`, `C32_print_parse`, `C32_same_meaning`, `C32_bracket_free`, `C32_normalise_idempotent`, `C32_print_injective`, `C33_left_associative`, `C33_chains`, `C33_exponent_binds_tightest`, `C33_exponent_spellings`, `C34_brackets_transparent`, `C34_products_compositional`, `C37_symbol_order_unobservable`, `C38_shipped_database_loads`, `C38_loads_iff`, `C38_prefix_tables`, `C40_time_str_injective`, `C40_fraction_refuted`, `C41_same_value`, `C41_each_identifier_once`, `C41_normal_form`, `C41_idempotent`, `C41_accuracy`, `C41_decimals_refuted`, `C41_superscript_fails`, `C42_basis_objects_are_not_units`, `C43_superscript_texts`, `C44_system_returns_wellBuilt`, `C45_symbolic_definition_agrees_with_dimensionality`, `C46_literals_are_exact`, `C46_integer_texts`, `C46_decimal_texts`, `C46_signed_point_refuted`, `C47_words_are_identifiers`, `C47_identifier_texts`, `C48_wellfounded_definitions_resolve`, `C48_broken_definitions_never_resolve`, `C48_shipped_spellings`, `C50_without_namespace_empty`, `C50_document_without_namespace`, `C51_documents`, `C51_comment_fails`, `C52_direct_spellings_keep`, `C52_prefixed_spellings_found`, `C52_prefixed_unit`, `C53_shipped_units`, `C53_torr_refuted`, `C53_table_complete`, `C53_spellings_typeable`, `C54_shipped_conversions`, `C55_shipped_equality`, `C56_date_objects`, `C57_expanded_reads_back`, `C58_conversion_expr`, `C58_shipped`, `C58_dates_refuted`, `C58_explain_unit`, `C58_debug_parser`, `C59_dimensionality_equals_dict`, `C59_text`, `C59_text_of_plain_names`, `C59_text_determines`, `C60_prefixed_units`, `C60_repeated_prefix_refuted`, `C60_prefixed_scales_refuted`, `C61_date_of_no_time_refused`, `C61_inner_date_refused`, `C61_text_meaning`, `C61_date_text`, `C61_text_conversions`, `C61_text_equality`, `C62_shipped_database`, `C62_programs_run_alone`, `C62_every_schedule`, `C62_threads_do_not_interfere`, `C63_survives_crashes`, `C63_survives_crashes_within_budget`, `C64_every_call_finishes`, `C65_queries_leave_no_trace`, `C65_lookup_meaning_kept`, `C65_unit_meaning_kept`, `C66_generated_lexer`, `C66_same_tokens`, `C66_cache_invisible`, `C66_history_goes_on`, `PSim.C67_generated_parser`, `PSim.C67_history_invisible`, `PSim.C67_sessions`, `PSim.C67_automaton_is_the_grammar`, `PSim.C68_lowest_viable`, `PSim.C68_ends`, `PSim.C69_calls`, `PSim.C69_results`, `PSim.C69_ends`, `PSim.C69_one_value`, `PSim.C69_no_waiting`, `C70_answers_of_the_completed_system`, `C70_sees_what_has_returned`, `C70_after_all_registrations`, `C70_returned_registrations_stay`, `C71_offset_scales`, `C71_linear_units`, `C71_to_logarithmic`, `C71_from_logarithmic`, `C71_between_logarithmic`, `C71_error_size`, `C71_log_error_size`, `C71_exact_included`, `C71_float_equality_refuted`, `C71_shipped_conversions`, `C71_shipped_reciprocals`, `C72_elementwise`, `C72_arrays_unchanged`, `C72_new_array`, `C72_errors`, `C72_shape_refuted`, `C72_copy_refuted`, `Objects.C73_methods_answer_from_definitions`, `Objects.C73_same_call_same_result`, `Objects.C73_units_stay`, `Objects.C73_no_circles`, `Objects.C73_no_waiting`, `Objects.C73_mapping_copied_refuted`, `Objects.C74_expanded_length`, `Objects.C74_doubling`, `Objects.C74_polynomial_refuted`, `PSim.C75_threshold`, `PSim.C75_caches`, `PSim.C75_sessions`, `PSim.C75_factors`, `PSim.C75_long_products`, `PSim.C75_some_limit_suffices_refuted`, `C76_lookup_any_order`, `C76_unit_any_order`, `C76_document_order`, `C76_shipped_file_order`, `C76_shipped_any_order`, `C77_name_is_its_definition`, `C77_definition_reads`, `C77_inline`, `C77_inline_reads`, `C77_inline_shift_refuted`, `C77_shipped`, `C78_same_arithmetic_same_unit`, `C78_rewritten_text_reads`, `C78_same_arithmetic`, `C78_laws`, `C78_shifted_refuted`, `C79_words`, `C79_word_errors`, `C79_texts`, `C79_texts_only`, `C79_example_words`, `C80_order`, `C80_no_gaps`, `C80_differences`, `C80_order_inverted`, `C80_shipped_order`, `C80_negative_unit_refuted`, `C80_inverted_refuted`, `C81_conversions_do_not_depend_on_names`, `C81_own_names_are_harmless`, `C81_equality`, `C81_value_refuted`, `C82_stays_convertible`, `C82_dimensionality`, `C82_basis_does_not_matter`, `C82_units_of_a_system`, `C82_dimensionless_refuted`, `C83_shipped`, `C83_chains`, `C83_made_is_usable_refuted`, `C84_floats`, `C84_same`, `C84_zero`, `C84_integers`, `C84_right_iff`, `C84_refused`, `C84_errors`, `C84_when`, `C84_points`, `C84_elementwise_refuted`, `C84_shipped`, `C84_shipped_days_refuted`, `C85_reads`, `C85_fails`, `C85_numbers_of_the_text`, `C85_monotone`, `C85_short_texts`, `C85_integers`, `C85_decimals`, `C85_every_valid_text_is_read_refuted`, `C85_units`, `C85_shipped`
* **Quot.sound, propext** (55): `C02_entry_after_add`, `C03_add_preserves_existing`, `C03_symbol_shadowed_by_name_refuted`, `C03_alias_repointed_refuted`, `C06_lookups_pure_refuted`, `C09_dimensionality_of_product`, `C09_dimensionality_of_quotient`, `C09_dimensionality_of_power`, `C11_shift_keeps_dimensionality`, `C11_log_keeps_dimensionality`, `C14_mm_in_reachable_system_refuted`, `C23_no_nested_date`, `C23_constructor_accepts_exactly`, `C29_maximal_munch`, `C29_token_shapes`, `C30_log_functions`, `C30_superscripts`, `C35_names`, `C36_pop_first_removes_what_it_returns`, `C36_pop_first_none`, `C36_pop_iter`, `C37_overlapping_symbols_refuted`, `C38_distinct_spellings_load`, `C41_same_exponents`, `C41_reused_expander`, `C41_shifted`, `C41_offsets_multiplied`, `C41_offset_in_offset_fails`, `C44_expansion_reaches_basis`, `C49_strict_only_rejects`, `C51_name_elements`, `C51_prefix_elements`, `C51_unit_elements`, `C52_prefix_registered`, `C52_prefix_names_keep`, `C52_prefix_symbols_keep_refuted`, `C65_fresh_units_accepted`, `C65_late_registration_refuted`, `PSim.C67_prediction_program`, `PSim.C67_search_program`, `C70_programs_run_alone`, `C70_lookups_never_break_refuted`, `C70_one_registration_wins_refuted`, `C70_registrations_are_atomic_refuted`, `C76_all_accepted`, `C76_all_orders_accepted`, `C76_prefix_order_refuted`, `C81_names_do_not_matter`, `C83_dimensionality`, `C83_is_time_unit`, `C83_str`, `C83_expanded`, `C83_symbolic_definition`, `C83_made`, `C83_identifiers`
* **none** (1): `C40_no_text_is_a_date`
* **propext** (24): `C01_replace_always_succeeds`, `C09_product_with_shift_refuted`, `C14_alike_spellings_refuted`, `C25_date_never_convertible`, `C29_modes`, `C29_tokens_by_mode`, `C31_surrounding_blanks`, `C32_print_parse_refuted`, `C34_context_refuted`, `C39_equality`, `C39_hash_same_text`, `C39_time_hash`, `C39_hash_refuted`, `C41_zero_refuted`, `C41_nested_shift_refuted`, `C41_shift_moved_refuted`, `C41_log_fails`, `C43_superscript_dimensionality_raises`, `C43_superscript_refuted`, `C44_expansion_total`, `C47_registered_names_refuted`, `C51_elements`, `C57_expanded_reads_back_refuted`, `C76_unit_order_refuted`
