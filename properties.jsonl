{"id": "C01", "title": "add_unit rejects exactly the collisions, atomically", "statement": "UnitSystem.add_unit(u) without replace raises ValueError exactly when u's singular name, non-empty plural name or one of its symbols is already registered as a name (resp. symbol); when it raises, the system is left exactly as it was; otherwise it succeeds.", "quantifier": "every unit system state and every unit reference (any number of symbols, aliases)", "why_tests_cant": "Needs every registry content and every combination of name/plural/symbol clashes; the atomicity part is about all partial-update points.", "anchors": ["pyudunits2/_unit_system.py::UnitSystem.add_unit"]}
{"id": "C02", "title": "a registered unit is found under each of its spellings", "statement": "After a successful add_unit(u), looking up u's singular name or plural name yields u; looking up one of its symbols yields u unless that spelling is also a name; likewise aliases unless shadowed by a primary spelling or by the unit's own later alias.", "quantifier": "every system state, every unit reference, with and without replace=True", "why_tests_cant": "Any registry content and any list of symbols/aliases.", "anchors": ["pyudunits2/_unit_system.py::UnitSystem.add_unit", "pyudunits2/_unit_system.py::UnitSystem._unit_by_name", "pyudunits2/_unit_system.py::UnitSystem._unit_by_symbol"]}
{"id": "C03", "title": "registering a new unit never changes what an existing name or symbol means", "statement": "A successful add_unit(u) without replace leaves the unit found under every previously registered primary name and every previously registered symbol unchanged. (For alias spellings this is false: an alias can silently be re-pointed.)", "quantifier": "every system state and every unit reference", "why_tests_cant": "Quantifies over all registries; the alias counterexample needs two units claiming one alias.", "anchors": ["pyudunits2/_unit_system.py::UnitSystem.add_unit"]}
{"id": "C04", "title": "lookup precedence and failure are exactly as documented", "statement": "unit_by_name_or_symbol(s) returns the unit registered under s as a name, else name alias, else symbol, else symbol alias, else the product prefix*unit for the first registered prefix name that starts s and whose remainder is a registered spelling, else the same over prefix symbols; it raises UnresolvableUnitException exactly when none of these applies.", "quantifier": "every reachable system (units resolved or not), every string, every recursion limit", "why_tests_cant": "The string and prefix table are arbitrary; tests only sample spellings.", "anchors": ["pyudunits2/_unit_system.py::UnitSystem.unit_by_name_or_symbol"]}
{"id": "C05", "title": "lookups do not interfere: results do not depend on earlier lookups", "statement": "In a system where no two units claim the same spelling in the same table, the result of looking up any string is the same (unless a recursion limit is hit) whatever sequence of lookups (successful or failing) was made before it.", "quantifier": "every conflict-free system with lazily defined units, every history of lookups, every string", "why_tests_cant": "Unbounded histories over a mutating cache.", "anchors": ["pyudunits2/_unit_system.py::UnitSystem.unit_by_name_or_symbol", "pyudunits2/_unit_system.py::LazilyDefinedUnit.resolve"]}
{"id": "C06", "title": "lookups are pure queries in every system (refuted)", "statement": "For every unit system the meaning of a spelling does not change because some other spelling was looked up. The code violates this when two lazily defined units share an alias: resolving the earlier one re-registers it and captures the alias.", "quantifier": "every unit system reachable through add_unit, every pair of lookups", "why_tests_cant": "The violation needs a particular order of lookups on a particular registry.", "anchors": ["pyudunits2/_unit_system.py::UnitSystem._unit_by_name", "pyudunits2/_unit_system.py::UnitSystem.add_unit"]}
{"id": "C07", "title": "the (hash-randomised) iteration order of identifier sets is unobservable", "statement": "The unit returned by resolving an expression does not depend on the order in which the set of its identifiers is iterated, at any nesting depth.", "quantifier": "every conflict-free system, every expression, every family of iteration orders", "why_tests_cant": "PYTHONHASHSEED changes the schedule between processes; tests run one schedule.", "anchors": ["pyudunits2/_expr/atoms.py::ExtractIdentifiers", "pyudunits2/_unit_system.py::UnitSystem.unit", "pyudunits2/_unit_system.py::LazilyDefinedUnit.resolve"]}
{"id": "C08", "title": "cyclic definitions never resolve; a resolved unit has a well-founded definition", "statement": "If looking up a lazily defined unit succeeds then no chain of definitions leads from it back to itself; conversely units whose definitions form a cycle fail with an error for every recursion limit.", "quantifier": "every system, every recursion limit", "why_tests_cant": "Needs all recursion limits and all definition graphs.", "anchors": ["pyudunits2/_unit_system.py::LazilyDefinedUnit.resolve"]}
{"id": "C09", "title": "dimensionality is a homomorphism", "statement": "For units built without logarithms or shifts, dimensionality(a*b) is the pointwise sum, dimensionality(a/b) the difference and dimensionality(a^n) n times the dimensionality of a.", "quantifier": "all expressions a, b of any depth, all integer exponents n, all identifier bindings", "why_tests_cant": "Arbitrary nesting depth.", "anchors": ["pyudunits2/_unit.py::Unit.dimensionality", "pyudunits2/_expr/dimensionality.py::DimensionalityCounter"]}
{"id": "C10", "title": "dimensionality never lists a zero power; dimensionless means empty", "statement": "unit.dimensionality() never contains a zero exponent or a duplicated basis unit, and is_dimensionless() is true exactly when every basis exponent is zero.", "quantifier": "all units for which dimensionality() returns", "why_tests_cant": "All units of any depth.", "anchors": ["pyudunits2/_unit.py::Unit.dimensionality", "pyudunits2/_unit.py::Unit.is_dimensionless"]}
{"id": "C11", "title": "shifts and logarithms keep the dimensionality", "statement": "dimensionality(u @ k) and dimensionality(lg(re u)) equal dimensionality(u).", "quantifier": "all expressions u, all shifts, all log functions", "why_tests_cant": "All nesting depths.", "anchors": ["pyudunits2/_expr/split.py::SplitExpr", "pyudunits2/_expr/dimensionality.py::DimensionalityCounter"]}
{"id": "C12", "title": "convertibility is an equivalence relation", "statement": "is_convertible_to is reflexive, symmetric and transitive on Unit objects whose dimensionality is defined.", "quantifier": "all triples of units", "why_tests_cant": "Pairs/triples of arbitrary units.", "anchors": ["pyudunits2/_unit.py::Unit.is_convertible_to"]}
{"id": "C13", "title": "convertibility is exactly equal or opposite dimensionality", "statement": "u.is_convertible_to(v) is true exactly when the exponents of u and v agree on every basis unit or are opposite on every basis unit.", "quantifier": "all pairs of units, independent of the order in which basis units were encountered", "why_tests_cant": "All pairs; dictionary orders.", "anchors": ["pyudunits2/_unit.py::Unit.is_convertible_to", "pyudunits2/_unit.py::Dimensionality"]}
{"id": "C14", "title": "a prefix scales and does nothing else", "statement": "A prefixed spelling denotes prefix value times the unit: same dimensionality as the unit, and its conversion factor is the prefix's value times the unit's.", "quantifier": "every prefix (any decimal value), every unit without value transformation", "why_tests_cant": "Arbitrary prefixes and units.", "anchors": ["pyudunits2/_unit_system.py::UnitSystem.unit_by_name_or_symbol", "pyudunits2/_unit_reference.py::Prefix._expanded_expr"]}
{"id": "C15", "title": "Converter agrees with is_convertible_to", "statement": "Converter(u, v) raises IncompatibleUnitsError exactly when u.is_convertible_to(v) is False (for Unit objects).", "quantifier": "all pairs of units with defined dimensionality", "why_tests_cant": "All pairs.", "anchors": ["pyudunits2/_unit.py::Converter.__init__"]}
{"id": "C16", "title": "converting a unit to itself is the identity", "statement": "Converter(u, u).convert(x) == x over the reals.", "quantifier": "all units for which a converter exists, all real x", "why_tests_cant": "All units, all x.", "anchors": ["pyudunits2/_unit.py::Converter"]}
{"id": "C17", "title": "conversions round-trip", "statement": "If v = Converter(a, b).convert(x) is defined then Converter(b, a).convert(v) == x (exact real arithmetic), for direct and for inverted conversions.", "quantifier": "all pairs of convertible units including logarithmic and shifted ones, all x in the domain", "why_tests_cant": "Uncountably many x, all unit pairs.", "anchors": ["pyudunits2/_unit.py::Converter"]}
{"id": "C18", "title": "conversions compose (path independence)", "statement": "Converting a to b and then b to c gives the same value as converting a to c directly.", "quantifier": "all triples of units with equal dimensionality, all x in the domain", "why_tests_cant": "All triples.", "anchors": ["pyudunits2/_unit.py::Converter"]}
{"id": "C19", "title": "inverted conversion is the reciprocal", "statement": "When dimensionalities are opposite (and not equal), converting x gives the reciprocal quantity: applying the value transformation of the target to 1/(x*d1*d2).", "quantifier": "all pairs of units with opposite dimensionality", "why_tests_cant": "All pairs.", "anchors": ["pyudunits2/_unit.py::Converter.__init__"]}
{"id": "C20", "title": "an outermost shift adds its offset", "statement": "Converting x from `u @ k` to u gives x + k, and from u to `u @ k` gives x - k, for u free of shifts and logarithms.", "quantifier": "all such u, all numeric k, all x", "why_tests_cant": "All u,k,x.", "anchors": ["pyudunits2/_expr/split.py::SplitExpr.visit_Shift", "pyudunits2/_unit.py::Converter"]}
{"id": "C21", "title": "a numeric multiple of a unit converts by that multiple", "statement": "x of the unit `k u` equals k*x of u. Proved for units without value transformation; refuted for logarithmic and shifted units (contradicting the Converter docstring `lg(re years)*2`).", "quantifier": "all numbers k, all units u, all x", "why_tests_cant": "All k,u,x.", "anchors": ["pyudunits2/_expr/split.py::SplitExpr.visit_Multiply", "pyudunits2/_unit.py::Converter"]}
{"id": "C22", "title": "whenever a conversion is allowed its result is a number", "statement": "If u.is_convertible_to(v) then Converter(u, v).convert(x) returns a number (no unit symbol is left in the conversion expression). Proved for units without dimensionless basis units and without products of a value transformation with a unit; refuted in general (radian to 1).", "quantifier": "all convertible pairs", "why_tests_cant": "All pairs.", "anchors": ["pyudunits2/_unit.py::Converter", "pyudunits2/_unit.py::BasisUnit.dimensionality"]}
{"id": "C23", "title": "no Unit ever contains a nested date", "statement": "Every successfully constructed Unit has no shift of a time unit and no non-numeric shift anywhere in its definition.", "quantifier": "all definitions of any depth and all identifier bindings", "why_tests_cant": "All trees.", "anchors": ["pyudunits2/_expr/normaliser.py::NormalisedExpressionGraph.visit_Shift", "pyudunits2/_unit.py::Unit.__init__"]}
{"id": "C24", "title": "a date unit is returned exactly for a top-level shift of a time unit", "statement": "unit(expr) returns a DateUnit exactly when the expression is `t @ ref` with t a valid time unit; its reference_date is the reference text as written, and it is a Unit otherwise. A unit is a time unit exactly when its dimensionality is the first power of one time basis unit.", "quantifier": "all expressions and bindings", "why_tests_cant": "All expressions.", "anchors": ["pyudunits2/_unit.py::_unit_from_expression_and_identifiers", "pyudunits2/_unit.py::DateUnit"]}
{"id": "C25", "title": "date units are not convertible", "statement": "is_convertible_to is False whenever either side is a DateUnit; but Converter accepts them (disagreement documented).", "quantifier": "all date units and all units", "why_tests_cant": "All pairs.", "anchors": ["pyudunits2/_unit.py::DateUnit.is_convertible_to", "pyudunits2/_unit.py::Converter.__init__"]}
{"id": "C26", "title": "unit equality is reflexive and symmetric", "statement": "u == u is True, and u == v returns the same answer as v == u.", "quantifier": "all units", "why_tests_cant": "All pairs.", "anchors": ["pyudunits2/_unit.py::Unit.__eq__"]}
{"id": "C27", "title": "equal units are interchangeable (refuted in general)", "statement": "If u == v then u and v have the same dimensionality and conversion factor. False in the code because equality short-circuits on a string form that omits brackets; proved for units whose definitions print differently, and for units whose definitions need no brackets when printed.", "quantifier": "all pairs of units", "why_tests_cant": "All pairs.", "anchors": ["pyudunits2/_unit.py::Unit.__eq__", "pyudunits2/_expr/graph.py::Divide.__str__", "pyudunits2/_expr/graph.py::Raise.__str__"]}
{"id": "C28", "title": "tokenisation is total and lossless", "statement": "Every string is split into tokens whose texts concatenate to the (stripped) input; no input makes the lexer fail or loop.", "quantifier": "all strings", "why_tests_cant": "All strings.", "anchors": ["pyudunits2/_grammar/udunits2Lexer.g4.jinja", "pyudunits2/_grammar/__init__.py::parse"]}
{"id": "C29", "title": "tokenisation is maximal munch with rule priority", "statement": "Each token is a longest match among the rules of the current mode and, among those, the first rule in grammar order; the mode after each token is as the grammar says.", "quantifier": "all strings and all modes", "why_tests_cant": "All strings.", "anchors": ["pyudunits2/_grammar/udunits2Lexer.g4.jinja"]}
{"id": "C30", "title": "the parser accepts exactly the grammar", "statement": "parse returns a graph exactly when the token sequence is derivable from unit_spec in the grammar, and the graph it returns is the graph of one such derivation; otherwise it raises SyntaxError.", "quantifier": "all token sequences", "why_tests_cant": "Infinite language.", "anchors": ["pyudunits2/_grammar/udunits2Parser.g4", "pyudunits2/_grammar/__init__.py::UnitParseVisitor"]}
{"id": "C31", "title": "surrounding whitespace is irrelevant", "statement": "parse(ws + s + ws) behaves as parse(s).", "quantifier": "all strings s, all whitespace", "why_tests_cant": "All strings.", "anchors": ["pyudunits2/_grammar/__init__.py::parse"]}
{"id": "C32", "title": "printing then parsing gives the same unit", "statement": "For every expression that needs no brackets when printed (in particular every unit text without brackets, superscripts and dates), parse(str(e)) succeeds and returns e up to the spelling of its numbers, so normalize() keeps dimensionality and conversions and is idempotent. Refuted in general: str of (m^2)^3 does not parse, m/(s s) prints as m/s·s, and -0. is not a fixed point.", "quantifier": "all bracket-free expressions and texts of any size", "why_tests_cant": "All expressions.", "anchors": ["pyudunits2/_grammar/__init__.py::normalize", "pyudunits2/_expr/graph.py"]}
{"id": "C33", "title": "products are left associative, exponents bind tightest", "statement": "a/b*c parses as (a/b)*c for chains of any length, and an integer immediately following a factor is an exponent.", "quantifier": "chains of any length", "why_tests_cant": "Any length.", "anchors": ["pyudunits2/_grammar/udunits2Parser.g4", "pyudunits2/_grammar/__init__.py::UnitParseVisitor.visitProduct"]}
{"id": "C34", "title": "the meaning of text does not depend on an earlier shift (refuted)", "statement": "(s) parses like s for every text s; (s)*(t) and (s)/(t) parse to the product and quotient of what s and t parse to, if s contains no shift sign. With a shift sign in s this is false, because the lexer never leaves shift mode: (K @ 10)*(T) is a syntax error.", "quantifier": "all texts s, t", "why_tests_cant": "All pairs of texts.", "anchors": ["pyudunits2/_grammar/udunits2Lexer.g4.jinja", "pyudunits2/_grammar/udunits2Parser.g4"]}
{"id": "C35", "title": "default plurals", "statement": "A name without plural/noplural gets singular+'es' if it ends in s, sh, ch, x or z, else singular+'s'; an explicit plural wins; noplural gives none.", "quantifier": "all name tags", "why_tests_cant": "All strings.", "anchors": ["pyudunits2/_udunits2_xml_parser.py::UDUNITS2XMLParser.handle_name_tag"]}
{"id": "C36", "title": "tag popping removes exactly what it returns", "statement": "pop_first_matching_tag returns the first child of that name and leaves all other children in order; pop_iter_tags yields all of them in order and leaves exactly the others.", "quantifier": "all tag trees", "why_tests_cant": "All lists.", "anchors": ["pyudunits2/_udunits2_xml_parser.py::Tag"]}
{"id": "C37", "title": "the (hash-randomised) order of a prefix's symbols is unobservable", "statement": "If no prefix symbol of one prefix is an initial segment of another, the order in which set(symbols) is iterated does not change any lookup.", "quantifier": "all orders, all systems", "why_tests_cant": "Schedules.", "anchors": ["pyudunits2/_udunits2_xml_parser.py::UDUNITS2XMLParser.handle_prefix", "pyudunits2/_unit_system.py::UnitSystem.add_prefix"]}
{"id": "C38", "title": "the shipped database is conflict free", "statement": "A document loads exactly when no two of its units claim the same name or symbol; if aliases are distinct too, every table holds exactly the declared spellings, each for its unit, and the system is conflict free (C05, C07 apply). udunits2_combined.xml is such a document: it loads, strictly or not, whatever the order of symbol sets.", "quantifier": "the complete shipped table (all 276 units)", "why_tests_cant": "Needs the interplay of all entries and all histories.", "anchors": ["pyudunits2/udunits2_combined.xml", "pyudunits2/_udunits2_xml_parser.py::read_all"]}
{"id": "C39", "title": "equal DateTimes hash equally (refuted)", "statement": "a == b implies hash(a) == hash(b). False: raw_content is hashed but not compared. Equality itself is an equivalence.", "quantifier": "all DateTimes", "why_tests_cant": "All pairs.", "anchors": ["pyudunits2/_datetime.py::DateTime"]}
{"id": "C40", "title": "printing a Time determines it (with its microseconds)", "statement": "str(Time) is injective (for all integer fields, negative ones included). Refuted: the printed fraction denotes the microseconds (8 digits are printed). parse_udunits_date raises NotImplementedError for every text, so nothing is read back.", "quantifier": "all times; all texts", "why_tests_cant": "All times.", "anchors": ["pyudunits2/_datetime.py::Time.__str__", "pyudunits2/_datetime.py::parse_udunits_date"]}
{"id": "C41", "title": "Expander preserves meaning and normalises", "statement": "Expanding a product expression (identifiers, integers, one decimal literal; products, quotients, integer powers; nothing zero) succeeds and yields an expression with the same value in every assignment of non-zero values to identifiers. Whatever its numbers, an expansion keeps every identifier's exponent and mentions each identifier once, or not at all if its exponents cancel; number-free expressions expand to the same expression exactly when all exponents agree, and expanding twice is expanding once. Whatever decimals a product expression has, its expansion is accurate to two roundings to 28 significant digits per decimal literal (exact without decimals). Offsets inside products, quotients and powers come out multiplied, as one offset of the expansion of the rest (also the offset of a divisor, which is not inverted); an offset that is itself shifted is refused. Reusing one Expander for a second expression returns the expansion of the product of both. Refuted in general: products of decimals are rounded, 0/0 expands to 1, nested offsets are multiplied, factors are moved inside an offset, m²·m raises TypeError.", "quantifier": "all product/quotient/power expressions of any depth, all assignments of values, all pairs of visited expressions", "why_tests_cant": "All depths and all values.", "anchors": ["pyudunits2/_expr/expander.py::Expander", "pyudunits2/_expr/expander.py::ChainedExpr.terms"]}
{"id": "C42", "title": "basis unit objects behave like units (refuted)", "statement": "A BasisUnit object obtained from the system can be used with is_convertible_to and Converter like the unit parsed from its name. False: its dimensionality is a plain dict.", "quantifier": "all basis units", "why_tests_cant": "All.", "anchors": ["pyudunits2/_unit.py::BasisUnit.dimensionality"]}
{"id": "C43", "title": "superscript exponents mean the same as ASCII exponents (refuted)", "statement": "m² and m^2 have the same dimensionality. False: the superscript exponent is kept as text and dimensionality raises TypeError.", "quantifier": "all units raised to superscript exponents", "why_tests_cant": "All.", "anchors": ["pyudunits2/_grammar/__init__.py::handle_UNICODE_EXPONENT", "pyudunits2/_expr/dimensionality.py::DimensionalityCounter.visit_Raise"]}
{"id": "C44", "title": "expansion reaches the basis", "statement": "unit.expanded() mentions only basis units' reference names.", "quantifier": "all units whose references cover their identifiers", "why_tests_cant": "All depths.", "anchors": ["pyudunits2/_unit.py::Unit._expanded_expr", "pyudunits2/_expr/substitute.py"]}
{"id": "C45", "title": "symbolic definition agrees with dimensional analysis", "statement": "For a unit without value transformation the expanded definition evaluates to (conversion factor) * product of basis values to the power given by dimensionality().", "quantifier": "all units, all assignments of basis values", "why_tests_cant": "All units.", "anchors": ["pyudunits2/_unit.py::Unit._symbolic_definition", "pyudunits2/_unit.py::Unit.dimensionality", "pyudunits2/_expr/sympy.py"]}
{"id": "C46", "title": "number literals are exact", "statement": "Every integer or decimal literal in a unit string denotes exactly the number it spells (no rounding), and keeps its spelling as raw_content.", "quantifier": "all strings, all number tokens in them", "why_tests_cant": "All literals of any length.", "anchors": ["pyudunits2/_grammar/__init__.py::UnitParseVisitor.TERM_HANDLERS", "pyudunits2/_grammar/udunits2Lexer.g4.jinja"]}
{"id": "C47", "title": "identifier words parse to themselves", "statement": "Every non-empty word of the identifier characters (letters, underscore, some Latin/Greek letters) other than after/from/since/ref parses to exactly that identifier, and (without brackets) nothing else does; so a unit registered under such a name can be asked for in a unit text. Refuted for arbitrary registered names: names with digits, and ref/after/from/since, cannot be used.", "quantifier": "all words of any length", "why_tests_cant": "All words.", "anchors": ["pyudunits2/_grammar/udunits2Lexer.g4.jinja", "pyudunits2/_grammar/__init__.py::UnitParseVisitor"]}
{"id": "C48", "title": "which registered spellings resolve", "statement": "In a system where no two units claim the same spelling, every spelling read as a unit with a well-founded definition (parseable, mentioning only readable spellings of smaller rank) resolves after any history, and every spelling read as a unit whose definition does not parse, mentions an unreadable spelling or depends on such a unit never resolves. For the shipped database: every declared spelling of every unit resolves (nesting at most 8), except exactly 22 spellings (arcsecond, cm_H2O, inch_Hg_32F, ...) that never resolve.", "quantifier": "all registries, all spellings, all histories, iteration orders and recursion limits", "why_tests_cant": "All histories and orders; the complete table of the shipped database.", "anchors": ["pyudunits2/_unit_system.py::UnitSystem.unit_by_name_or_symbol", "pyudunits2/_unit_system.py::LazilyDefinedUnit.resolve", "pyudunits2/udunits2_combined.xml"]}
{"id": "C49", "title": "the strict XML reader only rejects", "statement": "For every document the strict reader either raises its unhandled-content ValueError or does exactly what the default reader does.", "quantifier": "all XML documents, all symbol orders", "why_tests_cant": "All documents.", "anchors": ["pyudunits2/_udunits2_xml_parser.py::UDUNITS2XMLParser.unhandled_content_detected", "pyudunits2/_udunits2_xml_parser.py::Tag"]}
{"id": "C50", "title": "documents without a namespace load (refuted: they are empty)", "statement": "The units declared in a document are there after loading. False for every document whose tags carry no namespace: whatever it declares, it loads without error as an empty system.", "quantifier": "all documents without namespaces", "why_tests_cant": "All documents.", "anchors": ["pyudunits2/_udunits2_xml_parser.py::Tag.from_element"]}
{"id": "C51", "title": "a database document is read as written", "statement": "name, prefix and unit elements are accepted exactly when they have the required parts, and what is registered is exactly what they say: singular and plural (written, suppressed, or the English plural), prefix name, value and set of symbols, unit names, symbols and aliases in document order, the definition text or the kind of basis unit; the document is read from its one unit-system element wherever that is, and a document with none or with more than one is a ValueError; a comment inside the unit-system element makes loading fail.", "quantifier": "all XML documents, all symbol orders", "why_tests_cant": "All documents and nestings.", "anchors": ["pyudunits2/_udunits2_xml_parser.py::UDUNITS2XMLParser", "pyudunits2/_udunits2_xml_parser.py::Tag.from_element"]}
{"id": "C52", "title": "registering a prefix", "statement": "After add_prefix(p) the name and every symbol of p can be put in front of every registered spelling (the lookup is never answered with 'unknown unit', and gives p times the unit when no other prefix reads the spelling); every spelling found without a prefix, or with the name of another prefix, keeps its meaning. Refuted: spellings read with a prefix symbol keep their meaning.", "quantifier": "all reachable systems, all prefixes, all spellings, all recursion limits", "why_tests_cant": "All systems and spellings.", "anchors": ["pyudunits2/_unit_system.py::UnitSystem.add_prefix", "pyudunits2/_unit_system.py::UnitSystem.unit_by_name_or_symbol"]}
{"id": "C53", "title": "the shipped units mean what udunits2 says", "statement": "Load udunits2_combined.xml in any way and use it in any way: every spelling of every unit in an independently computed table (all declared spellings except the 22 that never resolve) resolves to a unit with the dimensionality, the scale (linear, offset or log10), the exact factor and the basis-unit powers of the table. Refuted for the eight spellings of the torr (defined as 'mm Hg'): it comes out as 133322.387415 kg/s2, not a pressure. All but 37 listed spellings can be typed as a unit text.", "quantifier": "all spellings of all shipped units, all loads, histories, iteration orders and recursion limits >= 9", "why_tests_cant": "The complete table under every history and every order.", "anchors": ["pyudunits2/udunits2_combined.xml", "pyudunits2/_unit_system.py::UnitSystem.unit_by_name_or_symbol", "pyudunits2/_unit.py::Unit"]}
{"id": "C54", "title": "conversions between shipped units preserve the quantity", "statement": "For any two spellings of shipped units (possibly from two separately loaded systems): x converts to y exactly when both denote the same quantity of the table (or reciprocal quantities when the powers are opposite); when only the powers of the radian do not match, every conversion is a NameError; otherwise the converter is refused with IncompatibleUnitsError.", "quantifier": "all pairs of spellings, all real values, all loads and histories", "why_tests_cant": "About 10^6 pairs times all real values and histories.", "anchors": ["pyudunits2/_unit.py::Converter", "pyudunits2/_expr/sympy.py", "pyudunits2/udunits2_combined.xml"]}
{"id": "C55", "title": "equality of shipped units", "statement": "For any two spellings of shipped units, unit(a) == unit(b) never raises and is true exactly when scale, factor and powers of the table agree.", "quantifier": "all pairs of spellings, all loads and histories", "why_tests_cant": "All pairs under all histories.", "anchors": ["pyudunits2/_unit.py::Unit.__eq__", "pyudunits2/udunits2_combined.xml"]}
{"id": "C56", "title": "date unit objects", "statement": "Every date unit returned by unit(text) is a time unit and not dimensionless, like the unit it is based on; its dimensionality is the first power of one time basis unit; its expanded() is that of the unit it is based on followed by ' since ' and the reference.", "quantifier": "all texts, systems, recursion limits", "why_tests_cant": "All date units.", "anchors": ["pyudunits2/_unit.py::DateUnit", "pyudunits2/_unit_system.py::UnitSystem.unit"]}
{"id": "C57", "title": "the text of expanded() denotes the unit", "statement": "For a unit without shifts, logarithms or dimensionless basis units whose expansion needs no brackets, unit(unit.expanded()) is accepted in every system where its basis names are registered, and has the same dimensionality and magnitude. Refuted in general: expanded() drops brackets, m/h expands to metre/60·60·second, which reads back as length times time.", "quantifier": "all units, systems, iteration orders, magnitudes of basis units", "why_tests_cant": "All units and systems.", "anchors": ["pyudunits2/_unit.py::Unit.expanded", "pyudunits2/_expr/substitute.py", "pyudunits2/_expr/graph.py"]}
{"id": "C58", "title": "the command line reports what the API says", "statement": "conversion-expr exits with status 1 and the one-line message exactly when is_convertible_to is False, and with 0 exactly when the Converter can be constructed; on shipped spellings it never ends in a traceback and fails exactly when the dimensionalities are neither equal nor opposite. explain-unit prints the normalised text, expanded() and a dimensionality that is {} exactly for dimensionless units. debug-parser's tokens make up the text. Refuted for dates: a conversion is offered that is_convertible_to denies.", "quantifier": "all pairs of texts, all systems and recursion limits", "why_tests_cant": "All texts and systems.", "anchors": ["pyudunits2/__main__.py::conv_expr_handler", "pyudunits2/__main__.py::explain_handler", "pyudunits2/_grammar/__init__.py::_debug_tokens"]}
{"id": "C59", "title": "a dimensionality compares with a dict of names", "statement": "unit.dimensionality() == {name: order} is true exactly when the dict lists the basis units of non-zero power with their powers and nothing else (in particular no zero order). str(unit.dimensionality()) shows exactly these entries, and two dimensionalities written alike are the same.", "quantifier": "all units, all dicts", "why_tests_cant": "All units and dicts.", "anchors": ["pyudunits2/_unit.py::Dimensionality.__eq__", "pyudunits2/_unit.py::Dimensionality._name_form"]}
{"id": "C60", "title": "prefixes multiply on the shipped database", "statement": "On the shipped database, a prefix followed by a spelling of a unit that is a multiple of basis units resolves, whatever was asked before, to that unit times the prefix, unless the combined spelling is registered itself, repeats the prefix (mm, hh) or is dau or dat. Repeated prefixes give the square of the unit, and units with an offset or logarithm are divided by the prefix: refuted by theorems.", "quantifier": "all 42 prefix spellings with all unit spellings, both modes, all set orders, all query histories", "why_tests_cant": "Tens of thousands of combinations times all histories.", "anchors": ["pyudunits2/_unit_system.py::UnitSystem.unit_by_name_or_symbol", "pyudunits2/_expr/substitute.py", "pyudunits2/_udunits2_xml_parser.py::read_all"]}
{"id": "C61", "title": "unit texts over the shipped database mean what they say", "statement": "On the shipped database, every text that parses to a product, quotient or power of (possibly prefixed) spellings and numbers, or to an offset or logarithm of one, is accepted; its dimensionality, factor, basis-unit powers and scale are those computed by arithmetic from the table; two such texts convert exactly when they denote the same (or reciprocal) quantities and with that value; they are equal exactly when they print alike or denote the same; and 'u since d' for a multiple of the second gives a date unit, while 'u since' a date raises ValueError for every other u.", "quantifier": "all texts of all sizes, both modes, all set orders, all query histories, all real values", "why_tests_cant": "Unbounded texts and histories, real numbers.", "anchors": ["pyudunits2/_unit_system.py::UnitSystem.unit", "pyudunits2/_unit.py::Converter", "pyudunits2/_unit.py::Unit.__eq__", "pyudunits2/_grammar/udunits2Parser.g4::parse"]}
{"id": "C62", "title": "threads sharing a unit system do not interfere", "statement": "Any number of threads call unit_by_name_or_symbol(...) and unit(...) on one freshly registered system in which no two units claim one spelling. However their accesses to the tables and to the resolved-unit attributes interleave, and whichever of them are abandoned where, each call that finishes returns the unit, or raises the exception, that it would have as the only user of the system (unless the interpreter's recursion limit is hit). On the shipped database each finished lookup of a spelling has the dimensions, scale and factor of the table.", "quantifier": "all systems, all numbers of threads, all calls, all interleavings, all points at which threads are abandoned", "why_tests_cant": "Schedules are unbounded and not reproducible by tests.", "anchors": ["pyudunits2/_unit_system.py::UnitSystem.unit_by_name_or_symbol", "pyudunits2/_unit_system.py::UnitSystem.unit", "pyudunits2/_unit_system.py::LazilyDefinedUnit.resolve", "pyudunits2/_unit_system.py::UnitSystem.add_unit"]}
{"id": "C63", "title": "a system survives calls abandoned anywhere", "statement": "Whatever calls were made on a freshly registered conflict-free system, interleaved in any way and abandoned at any point (KeyboardInterrupt, MemoryError, RecursionError, death of a thread), the system left behind answers every later call as a fresh one.", "quantifier": "all systems, histories, interleavings and crash points, all later calls", "why_tests_cant": "Crash points cannot be enumerated by tests.", "anchors": ["pyudunits2/_unit_system.py::UnitSystem.unit_by_name_or_symbol", "pyudunits2/_unit_system.py::LazilyDefinedUnit.resolve", "pyudunits2/_unit_system.py::UnitSystem.add_unit"]}
{"id": "C64", "title": "no call can be blocked by other threads", "statement": "In every endless schedule, a thread that is scheduled again and again and is not killed finishes its call, whatever the other threads do, in any system (cyclic definitions end in a recursion error).", "quantifier": "all systems, all endless schedules, all calls", "why_tests_cant": "Liveness over infinite schedules.", "anchors": ["pyudunits2/_unit_system.py::UnitSystem.unit_by_name_or_symbol", "pyudunits2/_unit_system.py::UnitSystem.unit"]}
{"id": "C65", "title": "a system may be used while it is being built", "statement": "Registrations (add_unit, add_prefix) and queries are interleaved in any order. If each registration gives readings only to spellings that had none, then it is accepted; every query answers what the registrations made so far say, whatever was queried before; and what a spelling or a text means once it can be looked up, it means after every later registration. Refuted without that condition: a definition is read at the first lookup, so a harmless earlier query decides what a unit means after a registration that collides with nothing.", "quantifier": "all systems, all histories of registrations and queries, all spellings and texts", "why_tests_cant": "Histories are unbounded.", "anchors": ["pyudunits2/_unit_system.py::UnitSystem.add_unit", "pyudunits2/_unit_system.py::UnitSystem.add_prefix", "pyudunits2/_unit_system.py::UnitSystem.unit_by_name_or_symbol", "pyudunits2/_unit_system.py::LazilyDefinedUnit.resolve"]}
{"id": "C66", "title": "the generated lexer is the lexer of the grammar", "statement": "The lexer shipped in the package (the bundled ANTLR runtime interpreting the serialised automaton) ends on every text without an exception and cuts it into exactly the tokens the grammar file prescribes: longest match, first rule on ties, mode switches. The table of automaton states that all lexers of the process share never changes an answer, whatever texts, or parts of texts, were tokenised before.", "quantifier": "all texts, all histories of the shared cache", "why_tests_cant": "All texts (unbounded, all of Unicode) and all histories.", "anchors": ["pyudunits2/_grammar/parser/udunits2Lexer.py::serializedATN", "pyudunits2/_grammar/_antlr4_runtime/atn/LexerATNSimulator.py::LexerATNSimulator.execATN", "pyudunits2/_grammar/_antlr4_runtime/atn/ATNDeserializer.py::ATNDeserializer.deserialize", "pyudunits2/_grammar/_antlr4_runtime/Lexer.py::Lexer.nextToken", "pyudunits2/_grammar/udunits2Lexer.g4.jinja"]}
{"id": "C67", "title": "the generated parser is the parser of the grammar", "statement": "parse(text) as it runs (bundled ANTLR runtime, generated parser methods, prediction over the serialised automaton, visitor) ends on every text and gives exactly the result of the grammar file's parser: the same expression, or SyntaxError. Neither the prediction caches all parsers of a process share, nor which texts were parsed, rejected or given up before, is visible in a result. The serialised automaton accepts exactly the texts the grammar derives.", "quantifier": "all texts, all histories of the shared lexer and parser caches, all sessions of texts", "why_tests_cant": "All texts (unbounded) and all histories of the process.", "anchors": ["pyudunits2/_grammar/parser/udunits2Parser.py::serializedATN", "pyudunits2/_grammar/parser/udunits2Parser.py::udunits2Parser.product", "pyudunits2/_grammar/_antlr4_runtime/atn/ParserATNSimulator.py::ParserATNSimulator.adaptivePredict", "pyudunits2/_grammar/_antlr4_runtime/Parser.py::Parser.match", "pyudunits2/_grammar/_antlr4_runtime/error/ErrorStrategy.py::DefaultErrorStrategy.sync", "pyudunits2/_grammar/udunits2Parser.g4::parse"]}
{"id": "C68", "title": "a prediction takes the first alternative that can succeed", "statement": "Asked which alternative to take at a decision, with any remaining tokens, inside any nesting of rules and after any earlier predictions, the parser's prediction ends, and it is the first alternative with which the automaton can consume the rest of the input, whenever there is one.", "quantifier": "all decisions the parser predicts, all contexts, all remaining inputs, all histories of the shared cache", "why_tests_cant": "Lookahead, nesting and histories are unbounded.", "anchors": ["pyudunits2/_grammar/_antlr4_runtime/atn/ParserATNSimulator.py::ParserATNSimulator.adaptivePredict", "pyudunits2/_grammar/_antlr4_runtime/atn/ParserATNSimulator.py::ParserATNSimulator.execATN", "pyudunits2/_grammar/_antlr4_runtime/atn/ParserATNSimulator.py::ParserATNSimulator.execATNWithFullContext", "pyudunits2/_grammar/_antlr4_runtime/PredictionContext.py::merge"]}
{"id": "C69", "title": "threads may parse at the same time", "statement": "Any number of threads can parse texts at the same time. However their accesses to the caches shared by all lexers and parsers interleave, whichever earlier stored values (or none) each of them finds there, and wherever other threads are killed, a call of parse that ends returns what its text alone gives; a call that keeps getting its turn ends; no call waits for another.", "quantifier": "all sets of concurrent calls, all texts, all interleavings of single accesses to the shared caches, all stale or lost values, all crash points", "why_tests_cant": "Schedules, texts and numbers of threads are unbounded.", "anchors": ["pyudunits2/_grammar/__init__.py::parse", "pyudunits2/_grammar/_antlr4_runtime/atn/ParserATNSimulator.py::ParserATNSimulator.addDFAEdge", "pyudunits2/_grammar/_antlr4_runtime/atn/ParserATNSimulator.py::ParserATNSimulator.getExistingTargetState", "pyudunits2/_grammar/_antlr4_runtime/atn/LexerATNSimulator.py::LexerATNSimulator.addDFAEdge", "pyudunits2/_grammar/_antlr4_runtime/dfa/DFA.py::DFA.setPrecedenceStartState"]}
{"id": "C70", "title": "registering while other threads use the system", "statement": "Threads may add units, definitions and prefixes while others look units up. As long as the registrations give no spelling a second meaning: a query that returns has returned what the completed system answers, never anything half-registered; a query made after some registrations have returned answers what those imply, whatever else is going on, unless an add_prefix running meanwhile makes it raise RuntimeError; what a registration wrote stays. Not guaranteed: a lookup can fail with RuntimeError because of an unrelated add_prefix, two registrations of one name without replace can both succeed, and can leave the name and the symbol with different units.", "quantifier": "all systems, all sets of concurrent registrations and queries, all interleavings of single dict and attribute accesses, all crash points", "why_tests_cant": "Schedules and numbers of threads are unbounded.", "anchors": ["pyudunits2/_unit_system.py::UnitSystem.add_unit", "pyudunits2/_unit_system.py::UnitSystem.add_prefix", "pyudunits2/_unit_system.py::UnitSystem.unit_by_name_or_symbol", "pyudunits2/_unit_system.py::LazilyDefinedUnit.resolve"]}
{"id": "C71", "title": "conversions computed with rounding", "statement": "Every number on the way is rounded: literals, products, quotients and powers of a definition, the inverted transformation, the factor between the units, the constants sympy collects and prints, and the compiled function. With relative accuracy u of each, a conversion between units with or without offsets differs from the exact result by at most ((1-u)^-N - 1) times the numbers added up on the way, where N is read off the definitions (about N u); between units without offsets, direct or reciprocal, the error is relative to the result; to, from and between logarithmic units it is bounded likewise. For the shipped database and 15 digits the bound is 3e-13. Not guaranteed: equality of units is not, 7 0.1 m and 0.7 m are different.", "quantifier": "all units and values, all ways of rounding with relative accuracy u, all ways sympy may merge factors, distribute and collect constants", "why_tests_cant": "Rounding errors depend on the values, the definitions and the number formats; a test sees one of them.", "anchors": ["pyudunits2/_expr/sympy.py::ToSympy", "pyudunits2/_unit.py::Converter", "pyudunits2/_unit.py::Unit._symbolic_definition", "pyudunits2/_unit.py::Unit.__eq__"]}
{"id": "C72", "title": "converting an array converts its elements", "statement": "Converter.convert applied to a numpy array of floats of any shape returns an array of that shape whose elements are the elements converted on their own (nan or infinity where there is no real result), unless all numbers convert to the same one. No existing array is changed. The array returned is a new one unless the conversion changes no number. A call raises only what converting every number raises. Refuted: if the conversion is constant (from 0 m) the result is a number, not an array; metres to metres returns the array that was passed, not a copy.", "quantifier": "all pairs of units, all arrays of any shape and any values", "why_tests_cant": "All shapes, lengths and values.", "anchors": ["pyudunits2/_unit.py::Converter.convert", "pyudunits2/_unit.py::Converter.__init__"]}
{"id": "C73", "title": "units behave as values", "statement": "Provided that the caller does not change a mapping after passing it to a Unit, what expanded, dimensionality, is_convertible_to, == and Converter say about unit objects is what is computed from scratch from the definitions: it does not depend on which calls were made before, by which threads, interleaved how, or abandoned where; the same call always gives the same result; a unit keeps the definition and references it was created with; references never form a circle; every call ends after a bounded number of its own steps. Refuted without the proviso: Unit keeps the mapping itself, and after a change dimensionality and symbolic definition disagree.", "quantifier": "all histories of constructing units, building mappings and calling methods by any number of threads, all schedules, all points at which a thread dies", "why_tests_cant": "All histories and schedules.", "anchors": ["pyudunits2/_unit.py::Unit.__init__", "pyudunits2/_unit.py::Unit._symbolic_definition", "pyudunits2/_unit.py::Unit.__eq__", "pyudunits2/_unit.py::Converter.__init__"]}
{"id": "C74", "title": "the length of an expanded definition", "statement": "If no name, prefix value or definition has more than M characters, expanded() of the unit created as number i has at most M^(i+1) characters. Refuted: no polynomial in the amount of text written bounds it; n units, each defined as the square of the one before, expand to 2^(n+1)-1 characters.", "quantifier": "all histories of constructing units; all polynomials", "why_tests_cant": "All sizes.", "anchors": ["pyudunits2/_unit.py::Unit.expanded", "pyudunits2/_unit.py::Unit._expanded_expr", "pyudunits2/_expr/substitute.py::Substitute"]}
{"id": "C75", "title": "parsing under Python's recursion limit", "statement": "For every text there is a number of nested calls, at most 10 per character plus 25, such that with as many frames left for the visitor of the parse tree parse(text) does what it does without limit and with fewer it raises RecursionError, whatever was parsed before; an expression nested d deep needs more than 4d; texts parsed later are not affected by a RecursionError. Refuted: no limit suffices for all texts (m·m·…·m with more factors than a quarter of the limit raises).", "quantifier": "all texts, limits, histories of parses, sequences of texts each at its own stack depth", "why_tests_cant": "All text lengths and all limits.", "anchors": ["pyudunits2/_grammar/__init__.py::parse", "pyudunits2/_grammar/__init__.py::UnitParseVisitor", "pyudunits2/_grammar/udunits2Parser.g4::product", "pyudunits2/_grammar/_antlr4_runtime/tree/Tree.py::ParseTreeVisitor"]}
{"id": "C76", "title": "the order in which a system is filled", "statement": "If no two registrations declare the same spelling of the same kind (name, symbol, alias name, alias symbol), all of them are accepted in whatever order they are made, and lookups and unit(text), after any queries, give the same results for every order, provided the prefixes are added in the same order or no spelling is readable with two different prefixes. So the elements of the shipped XML file may stand in any order: every spelling but dat and dau keeps its meaning. Refuted: the order of prefixes matters (d, da with units am, m: dam), and so does the order of units sharing an alias although every registration is accepted.", "quantifier": "all lists of registrations and all their permutations, all spellings and texts, all query histories; all rearrangements of the shipped file", "why_tests_cant": "There are n! orders of n registrations.", "anchors": ["pyudunits2/_unit_system.py::UnitSystem.add_unit", "pyudunits2/_unit_system.py::UnitSystem.add_prefix", "pyudunits2/_unit_system.py::UnitSystem.unit_by_name_or_symbol", "pyudunits2/_udunits2_xml_parser.py::UDUNITS2XMLParser"]}
{"id": "C77", "title": "a name stands for its definition", "statement": "Registering a unit with a definition text makes its spellings abbreviations of it: in a system filled with lazily defined units none of whose spellings was taken over, unit(spelling) and unit(definition text) are interchangeable - the same expanded(), dimensionality(), is_time_unit() and is_dimensionless(), the same is_convertible_to answers in both directions against every unit, the same converted value for every number to and from every unit, and == never says they differ - whatever was looked up before either call. The same holds inside any expression when the name is replaced by the definition in brackets, if the definition has no offset and no logarithm, or if only offsets and logarithms stand around the name. For every defined unit of the shipped database and each of its typeable spellings (but the ones documented as unusable and the torr) unit(spelling) == unit(definition). Refuted: inside products with a shifted unit: celsius m is not (K @ 273.15) m.", "quantifier": "all systems without taken-over spellings, all definitions, spellings and surrounding expressions, all histories of queries before either call, recursion limits, iteration orders, partner units and converted numbers", "why_tests_cant": "Tests compare a few units with their definitions; the claim ranges over all definitions, contexts, histories and conversion partners.", "anchors": ["pyudunits2/_unit_system.py::UnitSystem.unit", "pyudunits2/_unit_system.py::LazilyDefinedUnit.resolve", "pyudunits2/_unit.py::Unit.expanded", "pyudunits2/_unit.py::Unit.dimensionality", "pyudunits2/_unit.py::Unit.__eq__", "pyudunits2/_unit.py::Converter"]}
{"id": "C78", "title": "unit expressions obey the laws of arithmetic", "statement": "If two texts parse to products, quotients and powers that are equal by ordinary arithmetic (m.s and s.m, kg/m/s2 and kg/(m.s^2), km^2 and km.km, (a/b)^2 and a^2/b^2, x.n/n and x ...) then, in a system none of whose spellings was taken over and whatever was queried before, unit(text1) and unit(text2) are the same unit, provided both are free of shifts and logarithms below and can be converted to themselves at all: == is true both ways round, is_dimensionless and is_convertible_to agree against every unit in both directions, every conversion of every number to and from every unit gives the same result, and converting between the two changes nothing. If the second text mentions no new names it reads whenever the first does. With shifted units this fails: celsius and celsius/1 are different units.", "quantifier": "all pairs of expressions equal under every non-zero assignment, all systems without taken-over spellings, histories, recursion limits, iteration orders, partner units and converted numbers (the numbers exact reals)", "why_tests_cant": "Tests compare a few rearranged texts; the claim ranges over all expressions equal by arithmetic, over all systems and all partner units.", "anchors": ["pyudunits2/_unit_system.py::UnitSystem.unit", "pyudunits2/_unit.py::Unit.__eq__", "pyudunits2/_unit.py::Unit._symbolic_definition", "pyudunits2/_unit.py::Unit.dimensionality", "pyudunits2/_unit.py::Converter"]}
{"id": "C79", "title": "exactly which words and texts the shipped database understands", "statement": "With the shipped unit database, however it was loaded and whatever was queried before, a word resolves if and only if it is a declared spelling other than 22 listed ones, or is not declared and is a declared prefix directly followed by such a spelling; any other word raises UnresolvableUnitException naming that word (or, for the 22 and their prefixed forms, an error about their definition). unit(text) makes a unit only from texts that parse and all of whose words are understood, and does so from all such texts without an offset; a text that does not parse raises SyntaxError, and one with a word that is not understood raises UnresolvableUnitException naming one of its words.", "quantifier": "all strings as words and as texts, all load orders and strictness, histories, iteration orders and recursion limits (of at least 9 nested lookups for success and for the kind of exception)", "why_tests_cant": "There are infinitely many words and texts; tests try some. That nothing outside the described set resolves is a statement about all other strings.", "anchors": ["pyudunits2/_unit_system.py::UnitSystem.unit_by_name_or_symbol", "pyudunits2/_unit_system.py::UnitSystem.unit", "pyudunits2/_unit_system.py::LazilyDefinedUnit", "pyudunits2/_udunits2_xml_parser.py::read_all"]}
{"id": "C80", "title": "conversions respect order, have no gaps and convert differences by a fixed ratio", "statement": "Between two units of the same dimensionality, converting keeps the order of values for all pairs of values, or reverses it for all pairs (one of the units has a negative factor); every value between two convertible values is convertible and every value between two results is a result; if neither expanded definition has a logarithm, the result is k*x + c with k nonzero, so that differences convert by one ratio whatever the offsets. For a reciprocal conversion (seconds to hertz) order is kept or reversed on every interval without gaps, the same way on all of them. On the shipped database order is always kept, except between degree_west (which counts backwards) and the other angles.", "quantifier": "all pairs of units that can be converted to one another, all real values (exact arithmetic); all pairs of shipped units with the same powers of basis units", "why_tests_cant": "Order and the absence of gaps are statements about all pairs of values and all values in between; tests convert a few.", "anchors": ["pyudunits2/_unit.py::Converter.convert", "pyudunits2/_unit.py::Converter.__init__", "pyudunits2/_unit.py::Unit._symbolic_definition"]}
{"id": "C81", "title": "what units are called does not matter", "statement": "Renaming all identifiers in units and in everything they refer to, without giving two things the same name, changes no answer: dimensionality (by the new names), dimensionlessness, being a time unit, convertibility, expansion (renamed), equality (for definitions that can be read back from their printed form) and the result of every conversion, errors included, if no unit gets one of the names the Converter uses for its own symbols (value, to_value, value_transformed_to_base_unit_scale). With those names too, every conversion that has a result keeps it - but not the errors: converting a dimensionless basis unit called value to 1 squares the number instead of failing (refuted).", "quantifier": "all units whatever their definitions, all injective renamings, all real values", "why_tests_cant": "Tests use the units of the database under their own names; that no name is special is a statement about all names.", "anchors": ["pyudunits2/_unit.py::Converter.__init__", "pyudunits2/_unit.py::Unit.dimensionality", "pyudunits2/_unit.py::Unit.__eq__", "pyudunits2/_unit.py::Unit._symbolic_definition", "pyudunits2/_expr/split.py::SplitExpr", "pyudunits2/_expr/sympy.py::ToSympy"]}
{"id": "C82", "title": "which units are the basis units does not matter", "statement": "If a basis unit (not declared dimensionless) is from now on defined by other units - as any product of numbers and integer powers of units that is not zero - then, for units referring to it directly or indirectly: units that were convertible or equal stay so; the powers of the basis unit in a dimensionality become powers of what it is defined by; and every conversion that had a result keeps it exactly, if it is between units of the same dimensionality, or reciprocal between units that have not become dimensionless (then a direct conversion takes priority: refuted, defining the second as 1 turns 2 s = 0.5 Hz into 2 Hz).", "quantifier": "all units, basis units, new definitions and real values", "why_tests_cant": "Tests use one set of basis units; that the choice among equivalent systems of definitions is unobservable ranges over all units and all redefinitions.", "anchors": ["pyudunits2/_unit.py::Converter.__init__", "pyudunits2/_unit.py::Unit.dimensionality", "pyudunits2/_unit.py::Unit.__eq__", "pyudunits2/_unit.py::BasisUnit", "pyudunits2/_unit.py::Unit._expanded_expr", "pyudunits2/_expr/substitute.py::Substitute"]}
{"id": "C83", "title": "using units within the recursion limit", "statement": "Whatever dimensionality(), is_time_unit(), str(), expanded(), the construction of a unit and the symbolic definition that comparing and converting start with do, they need some number of nested calls: with as many they behave as without limit, with fewer they raise RecursionError; and that number is bounded by the number of definitions the unit runs through and the depth of the deepest of them (or of what is written out). With the shipped database and a limit of at least 222, every text that can be parsed and made into a unit within the limit can be used within it. That is not so for every system: if units are defined one by the other, and each is used as soon as it is defined, lookups never go deep, yet the last unit's dimensionality() raises RecursionError (refuted: no limit is enough for all systems).", "quantifier": "all units, expressions, texts, recursion limits and histories of the shipped database; all numbers of definitions", "why_tests_cant": "Tests run small units far below the limit; that what is made can be used is a statement about all depths.", "anchors": ["pyudunits2/_unit.py::Unit.dimensionality", "pyudunits2/_unit.py::Unit.is_time_unit", "pyudunits2/_unit.py::Unit.expanded", "pyudunits2/_unit.py::Unit._symbolic_definition", "pyudunits2/_expr/graph.py::Visitor", "pyudunits2/_expr/split.py::SplitExpr", "pyudunits2/_expr/substitute.py::Substitute"]}
{"id": "C84", "title": "converting arrays of integers", "statement": "Converting a numpy array of integers of any type between units free of value transformations: where floats come out, each is the element converted on its own; where integers come out, conversion multiplies by an integer and each result is what the array's type keeps of the converted number, so it is right exactly if that number belongs to the type; the array itself or the number 0 comes out only if conversion changes nothing or makes everything 0; OverflowError means that the factor does not belong to the type, whatever is in the array; other exceptions are those of single numbers. Integers come out, or OverflowError, whenever both definitions, written out, have only numbers without point and exponent, and the factor is an integer other than 0 and 1; only floats or the number 0 do if a number with point or exponent is a factor of one of them. That converting an array is converting each element is refuted: a million hours in an array of 32-bit integers are -694967296 seconds. On the shipped database, for two spellings of units that are multiples of the same product of basis units: integers (or OverflowError) come out exactly if both are among 203 listed spellings, defined without decimals, and the factor is a whole number other than 1; the array itself if they are and the factor is 1; floats, each right, in all other cases.", "quantifier": "all units free of value transformations, all integer types, all arrays of integers; on the shipped database all pairs of spellings, load modes, set orders and query histories", "why_tests_cant": "Tests convert arrays of floats; the wrap-around appears only for some units, some types and large values.", "anchors": ["pyudunits2/_unit.py::Converter.convert", "pyudunits2/_unit.py::Converter.__init__", "pyudunits2/_expr/sympy.py::ToSympy.visit_Number"]}
{"id": "C85", "title": "numbers too long to read", "statement": "The interpreter limits the digits of an integer and the exponents of a decimal. A text is read if and only if it is valid and every number in it can be converted, and then as if there were no limits; an invalid text raises SyntaxError, and a valid one the error of its first number, from left to right, that cannot be converted: ValueError for an integer of more than 4300 digits, zeros included, decimal.InvalidOperation for a decimal whose last or first significant digit is out of range. Higher limits read more and nothing differently. Texts of at most 4300 characters without an exponent of 18 digits are read as without limits, and so units of such texts from the shipped database are the same whatever was asked before. That every valid text is read is refuted.", "quantifier": "all texts, all limits; all systems and histories whose texts the limits do not concern; the shipped database loaded in any way", "why_tests_cant": "Tests use short numbers; whether a number fits depends on every digit of it, and which error comes first on all the numbers before.", "anchors": ["pyudunits2/_grammar/__init__.py::UnitParseVisitor.visitTerminal", "pyudunits2/_grammar/__init__.py::parse", "pyudunits2/_unit_system.py::UnitSystem.unit"]}
