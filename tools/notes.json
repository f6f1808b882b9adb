{
 "C03": {
  "note": "primary names and symbols keep their object; the stronger claims (symbols keep their meaning, aliases keep theirs) are refuted by witnesses"
 },
 "C05": {
  "note": "for pristine, conflict-free systems; results cut short by the recursion limit are excluded"
 },
 "C06": {
  "note": "refuted: witness system in which a lookup changes the meaning of another spelling"
 },
 "C08": {
  "note": "stated for every history and every recursion limit"
 },
 "C09": {
  "note": "for definitions without shift/logarithm; refuted for products with a shifted unit (witness)"
 },
 "C14": {
  "note": "prefix spelled differently from the unit, linear unit; refuted for alike spellings ('mm') and for shifted units (millidegC)"
 },
 "C15": {
  "note": "for Unit objects with a dimensionality (bare BasisUnit: see C42)"
 },
 "C16": {
  "note": "identity for every unit object; totality for the units of C22"
 },
 "C17": {
  "note": "needs Converter(b, a) to be constructible; without it refuted (basis unit as source)"
 },
 "C18": {
  "note": "needs Converter(b, a) to be constructible (a has a non-zero factor)"
 },
 "C19": {
  "note": "for linear units and shifts/logarithms of them, with an independent semantics (Means); exact real arithmetic"
 },
 "C20": {
  "note": "for linear u; refuted for a shift of a shifted unit"
 },
 "C21": {
  "note": "for linear u; refuted for logarithmic and shifted units"
 },
 "C22": {
  "note": "for Affine units; refuted for radian -> 1 and for lg(re m) s"
 },
 "C23": {
  "note": "every history whose directly added objects come from the constructors"
 },
 "C24": {
  "note": "for every parser; the reference text is the raw content of the parsed node"
 },
 "C25": {
  "note": "the agreement of Converter with is_convertible_to is refuted for dates"
 },
 "C26": {
  "note": "also: raising is symmetric"
 },
 "C27": {
  "note": "proved when the definitions print differently or need no brackets; refuted in general, transitivity refuted; converse for linear units"
 },
 "C42": {
  "note": "refuted for every non-dimensionless basis unit and every other unit"
 },
 "C43": {
  "note": "refuted for every unit with a non-empty dimensionality"
 },
 "C32": {
  "note": "texts with dates are covered by C32_print_parse (as expressions), not by the bracket-free text theorems"
 },
 "C34": {
  "note": "compositional for s without shift signs; refuted with one"
 },
 "C46": {
  "note": "tokens of every text, and whole texts; a signed literal without a digit before the point does not parse (refuted)"
 },
 "C47": {
  "note": "both directions for bracket-free texts; refuted for names with digits and reserved words"
 },
 "C41": {
  "note": "value theorem exact for expressions with at most one distinct decimal literal, and within two 28-digit roundings per decimal literal for all others that expand (inexact decimal powers above the first are not modelled); exponents, uniqueness and normal form for all product expressions; offsets described exactly; meaning of offsets and zero refuted by witnesses"
 },
 "C53": {
  "note": "holds for every spelling except the torr's eight, which are refuted (see C53_torr_refuted); the 22 spellings that never resolve are C48's"
 },
 "C57": {
  "note": "under the bracket-free condition Spec.Flat; refuted in general (m/h)"
 },
 "C58": {
  "note": "argparse, sympy's printing of the expression and ANTLR's error recovery output are not modelled"
 },
 "C60": {
  "note": "refuted for repeated prefixes (mm) and for prefixed offset or logarithmic units (dBm): see the _refuted theorems"
 },
 "C61": {
  "note": "the torr and the 22 never-resolving spellings are excluded (C53, C48); zero offsets are excluded from the equality theorem; several offsets or logarithms in one text are refuted in C20 and C21"
 },
 "C62": {
  "note": "Grain: one dict get/set, one step of a dict iterator or one attribute access is atomic (CPython). Here no thread registers anything (OnlyQueries); registrations in other threads are C70. Refinement to the sequential model is C62_programs_run_alone. Two threads may build two equal unit objects for one definition: values are compared, not identities."
 },
 "C63": {
  "note": "Same hypotheses as C05 (pristine, conflict-free)."
 },
 "C64": {
  "note": "No hypothesis on the system."
 },
 "C65": {
  "note": "Freshness of a registration is stated with the registry alone (Spec/Build.lean); C65_late_registration_refuted shows it is needed."
 },
 "C66": {
  "note": "Model/AtnData.lean is the text of serializedATN() copied by tools/mkatn.py (trusted); Model/Atn.lean is the deserialiser, Model/LexerSim.lean the simulator with its DFA cache and nextToken. The kernel checks a generated table of pairs (configurations, partial derivatives) for closure under every character (Lemmas/LexerCheck.lean). Lean characters are Unicode scalar values: lone surrogates in a Python str are not representable."
 },
 "C67": {
  "note": "The runtime's parser (adaptivePredict with SLL and full-context stages, merged graph-structured contexts, shared DFA, sync/match, generated rule methods, visitor) is proved equal to the model of the grammar file used by every other theorem. Not modelled: messages and recovery after the first reported error (the listener raises), parse tree positions."
 },
 "C68": {
  "note": "Viability is read off the serialised automaton as a pushdown automaton (Spec/Automaton.lean), independent of prediction contexts and caches."
 },
 "C69": {
  "note": "Memory is the list of all writes; a read sees nothing or any earlier write to its place, which is weaker than CPython's memory and also covers writes lost when two threads create the same state or edge array. DFA states are identified by their configurations. The context and next-token memo tables are not modelled."
 },
 "C70": {
  "note": "NoSecondMeaning is the price: every spelling readable only through the new registrations has one reading (checked by a decision procedure on the example). The depth in the answers is the budget of nested lookups, as in C05. Three natural stronger claims are refuted with concrete schedules."
 },
 "C71": {
  "note": "Rounding is any relation with relative accuracy u (no particular format); the result is related by an inductive relation that also allows any rearrangement sympy may make by merging factors, distributing a factor over a sum and collecting constants. Overflow, underflow, nan and inf are not modelled. C71_exact_included shows the relation is inhabited wherever the exact conversion is defined. Scaled logarithms (0.1 lg(re ..)) are covered by C71_exact_included only. Equality with rounded numbers is refuted with a concrete pair and 53-bit rounding."
 },
 "C72": {
  "note": "float arrays; nan/infinity of an element is one absorbing value; every factor 1 is taken to vanish from the printed function (for the float 1.0 the code multiplies and allocates); the refuted parts are named _refuted"
 },
 "C73": {
  "note": "computation between two accesses to a cache is one step; the proviso (Settled) is shown to be necessary; the refuted part is named _refuted"
 },
 "C74": {
  "note": "text length, not running time; the refuted part is named _refuted"
 },
 "C75": {
  "note": "frames of the tree visitor only (4 per rule, 2 per leaf): a lower bound of what the program uses; the generated parser's own recursion is not counted; the refuted part is named _refuted"
 },
 "C76": {
  "note": "the refuted parts are named _refuted; registrations without replace, as the XML reader makes them; the non-strict reader for documents"
 },
 "C77": {
  "note": "Proved for every pristine conflict-free system and environment (any parser, any iteration order): C77_name_is_its_definition (whole text), C77_inline (inside an expression; MayInline states the exact condition), with the existence of the second reading in C77_definition_reads / C77_inline_reads, and for the shipped database in C77_shipped. Interchangeable (Spec/Inline.lean) lists the observations. C77_inline_shift_refuted: the unconditional claim fails for products with a shifted unit. C77_inline assumes the first unit has a dimensionality (superscript exponents raise, C43)."
 },
 "C78": {
  "note": "C78_same_arithmetic_same_unit: any pristine conflict-free system, any parser and iteration order; SameArithmetic (Spec/Algebra.lean) is equality under every non-zero assignment of reals, SameUnit lists the observations (everything but the printed form; conversions compared by their results, failures are not distinguished by kind). C78_laws: the usual laws and congruence, so that SameArithmetic is what one expects. C78_rewritten_text_reads: the rewritten text reads. Units with dimensionless basis units (radian) are included. C78_shifted_refuted: shifts excluded for a reason."
 },
 "C79": {
  "note": "Spec/Understood.lean: Understood is stated by declared spellings (Db.Claimed), the prefix table and the list of 22 unusable spellings (C48). C79_words: iff for words, the negative half for every limit. C79_word_errors: which exception. C79_texts / C79_texts_only: unit(text). Texts with an offset and only understood words: never a reading error, but the unit may still be refused (dates, nested shifts: C23, C24). C79_example_words: one word of each kind."
 },
 "C80": {
  "note": "Spec/Monotone.lean defines KeepsOrder, ReversesOrder, their local forms, Converts, LogFree. Constructible both ways excludes units with factor 0. C80_order, C80_no_gaps, C80_differences: same dimensionality; C80_order_inverted: opposite dimensionality. C80_shipped_order: every pair of rows of the table with the same powers. C80_negative_unit_refuted and C80_inverted_refuted show why the statements are not stronger. Exact reals; rounding is C71."
 },
 "C81": {
  "note": "Spec/Renaming.lean renames every identifier (an injective function on names). Model/Names.lean models Converter with its own sympy symbols, which collide with units of the same names; factors inside value transformations that contain one of these names are not modelled. C81_own_names_are_harmless: whenever the collision-free conversion has a result. C81_value_refuted: a dimensionless basis unit called `value`."
 },
 "C82": {
  "note": "Units are the model's units (identifiers resolved to objects); C82_units_of_a_system shows the structural hypotheses for all units a system returns. The source unit must not be zero (Constructible in the other direction). The same value over the reals; with rounding see C71."
 },
 "C83": {
  "note": "Frames of Python functions, comprehensions included as before Python 3.12; not those of C functions or inside sympy. The lower bound is proved for dimensionality() (C83_chains); that its session never looks up deeper than two levels is part of the refutation's statement."
 },
 "C84": {
  "note": "Units free of value transformations; numpy 2's rules for Python numbers and integer arrays; floats are real numbers. Which expression sympy prints is modelled (Integer or Float coefficient), not proved of sympy. C84_shipped covers the table's 794 linear spellings; prefixed spellings and texts of several units only by the general theorems."
 },
 "C85": {
  "note": "The limits themselves (4300 digits, the exponents of libmpdec on a 64-bit machine) are data of the model; theorems hold for any limits, except C85_short_texts and C85_shipped, which are about the default ones. Superscript exponents are kept as text and not converted."
 }
}