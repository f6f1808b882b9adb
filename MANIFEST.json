{
 "claims": [
  {
   "property": "C01",
   "status": "proved",
   "theorems": [
    "Verif.C01_add_unit_rejects_exactly_collisions",
    "Verif.C01_replace_always_succeeds"
   ],
   "note": ""
  },
  {
   "property": "C02",
   "status": "proved",
   "theorems": [
    "Verif.C02_entry_after_add",
    "Verif.C02_registered_unit_is_found"
   ],
   "note": ""
  },
  {
   "property": "C03",
   "status": "proved",
   "theorems": [
    "Verif.C03_add_preserves_existing",
    "Verif.C03_lookup_finds_existing",
    "Verif.C03_symbol_shadowed_by_name_refuted",
    "Verif.C03_alias_repointed_refuted"
   ],
   "note": "primary names and symbols keep their object; the stronger claims (symbols keep their meaning, aliases keep theirs) are refuted by witnesses"
  },
  {
   "property": "C04",
   "status": "proved",
   "theorems": [
    "Verif.C04_lookup_precedence",
    "Verif.C04_unresolvable_iff"
   ],
   "note": ""
  },
  {
   "property": "C05",
   "status": "proved",
   "theorems": [
    "Verif.C05_lookup_independent_of_history",
    "Verif.C05_unit_independent_of_history",
    "Verif.C05_lookup_refines_fixed_registry"
   ],
   "note": "for pristine, conflict-free systems; results cut short by the recursion limit are excluded"
  },
  {
   "property": "C06",
   "status": "proved",
   "theorems": [
    "Verif.C06_lookups_pure_refuted"
   ],
   "note": "refuted: witness system in which a lookup changes the meaning of another spelling"
  },
  {
   "property": "C07",
   "status": "proved",
   "theorems": [
    "Verif.C07_set_order_unobservable",
    "Verif.C07_unit_set_order_unobservable",
    "Verif.C07_observations_agree"
   ],
   "note": ""
  },
  {
   "property": "C08",
   "status": "proved",
   "theorems": [
    "Verif.C08_success_implies_wellfounded",
    "Verif.C08_cyclic_definitions_fail"
   ],
   "note": "stated for every history and every recursion limit"
  },
  {
   "property": "C09",
   "status": "proved",
   "theorems": [
    "Verif.C09_dimensionality_is_degree",
    "Verif.C09_dimensionality_of_product",
    "Verif.C09_dimensionality_of_quotient",
    "Verif.C09_dimensionality_of_power",
    "Verif.C09_dimensionality_of_identifier",
    "Verif.C09_product_with_shift_refuted"
   ],
   "note": "for definitions without shift/logarithm; refuted for products with a shifted unit (witness)"
  },
  {
   "property": "C10",
   "status": "proved",
   "theorems": [
    "Verif.C10_no_zero_no_duplicate",
    "Verif.C10_dimensionless_iff"
   ],
   "note": ""
  },
  {
   "property": "C11",
   "status": "proved",
   "theorems": [
    "Verif.C11_shift_keeps_dimensionality",
    "Verif.C11_log_keeps_dimensionality"
   ],
   "note": ""
  },
  {
   "property": "C12",
   "status": "proved",
   "theorems": [
    "Verif.C12_convertible_refl",
    "Verif.C12_convertible_symm",
    "Verif.C12_convertible_trans"
   ],
   "note": ""
  },
  {
   "property": "C13",
   "status": "proved",
   "theorems": [
    "Verif.C13_convertible_iff_same_or_opposite"
   ],
   "note": ""
  },
  {
   "property": "C14",
   "status": "proved",
   "theorems": [
    "Verif.C14_prefix_scales",
    "Verif.C14_prefixed_celsius_refuted",
    "Verif.C14_prefix_keeps_dimensionality",
    "Verif.C14_alike_spellings_refuted",
    "Verif.C14_mm_in_reachable_system_refuted"
   ],
   "note": "prefix spelled differently from the unit, linear unit; refuted for alike spellings ('mm') and for shifted units (millidegC)"
  },
  {
   "property": "C15",
   "status": "proved",
   "theorems": [
    "Verif.C15_incompatible_iff_not_convertible"
   ],
   "note": "for Unit objects with a dimensionality (bare BasisUnit: see C42)"
  },
  {
   "property": "C16",
   "status": "proved",
   "theorems": [
    "Verif.C16_convert_self_is_identity",
    "Verif.C16_convert_self_defined"
   ],
   "note": "identity for every unit object; totality for the units of C22"
  },
  {
   "property": "C17",
   "status": "proved",
   "theorems": [
    "Verif.C17_round_trip",
    "Verif.C17_basis_source_refuted"
   ],
   "note": "needs Converter(b, a) to be constructible; without it refuted (basis unit as source)"
  },
  {
   "property": "C18",
   "status": "proved",
   "theorems": [
    "Verif.C18_conversions_compose"
   ],
   "note": "needs Converter(b, a) to be constructible (a has a non-zero factor)"
  },
  {
   "property": "C19",
   "status": "proved",
   "theorems": [
    "Verif.C19_direct_conversion_preserves_quantity",
    "Verif.C19_inverted_conversion_is_reciprocal"
   ],
   "note": "for linear units and shifts/logarithms of them, with an independent semantics (Means); exact real arithmetic"
  },
  {
   "property": "C20",
   "status": "proved",
   "theorems": [
    "Verif.C20_shift_adds_its_offset",
    "Verif.C20_nested_shift_refuted"
   ],
   "note": "for linear u; refuted for a shift of a shifted unit"
  },
  {
   "property": "C21",
   "status": "proved",
   "theorems": [
    "Verif.C21_numeric_multiple",
    "Verif.C21_multiple_of_logarithm_refuted",
    "Verif.C21_multiple_of_shift_refuted"
   ],
   "note": "for linear u; refuted for logarithmic and shifted units"
  },
  {
   "property": "C22",
   "status": "proved",
   "theorems": [
    "Verif.C22_allowed_conversion_gives_number",
    "Verif.C22_direct_conversion_total",
    "Verif.C22_radian_refuted",
    "Verif.C22_log_times_unit_refuted"
   ],
   "note": "for Affine units; refuted for radian -> 1 and for lg(re m) s"
  },
  {
   "property": "C23",
   "status": "proved",
   "theorems": [
    "Verif.C23_no_nested_date",
    "Verif.C23_constructor_accepts_exactly",
    "Verif.C23_system_returns_constructed"
   ],
   "note": "every history whose directly added objects come from the constructors"
  },
  {
   "property": "C24",
   "status": "proved",
   "theorems": [
    "Verif.C24_date_unit_iff",
    "Verif.C24_unit_returns_date_iff",
    "Verif.C24_time_unit_iff"
   ],
   "note": "for every parser; the reference text is the raw content of the parsed node"
  },
  {
   "property": "C25",
   "status": "proved",
   "theorems": [
    "Verif.C25_date_never_convertible",
    "Verif.C25_converter_ignores_reference",
    "Verif.C25_converter_refuses_dates_refuted"
   ],
   "note": "the agreement of Converter with is_convertible_to is refuted for dates"
  },
  {
   "property": "C26",
   "status": "proved",
   "theorems": [
    "Verif.C26_eq_refl",
    "Verif.C26_eq_symm"
   ],
   "note": "also: raising is symmetric"
  },
  {
   "property": "C27",
   "status": "proved",
   "theorems": [
    "Verif.C27_printable_units_interchangeable",
    "Verif.C27_equal_units_interchangeable",
    "Verif.C27_interchangeable_units_equal",
    "Verif.C27_equal_units_interchangeable_refuted",
    "Verif.C27_eq_transitive_refuted"
   ],
   "note": "proved when the definitions print differently or need no brackets; refuted in general, transitivity refuted; converse for linear units"
  },
  {
   "property": "C28",
   "status": "proved",
   "theorems": [
    "Verif.C28_lossless"
   ],
   "note": ""
  },
  {
   "property": "C29",
   "status": "proved",
   "theorems": [
    "Verif.C29_maximal_munch",
    "Verif.C29_modes",
    "Verif.C29_tokens_by_mode",
    "Verif.C29_token_shapes"
   ],
   "note": ""
  },
  {
   "property": "C30",
   "status": "proved",
   "theorems": [
    "Verif.C30_accepts_exactly_the_grammar",
    "Verif.C30_only_syntax_errors",
    "Verif.C30_graph_of_a_derivation",
    "Verif.C30_disambiguation",
    "Verif.C30_unambiguous",
    "Verif.C30_log_functions",
    "Verif.C30_superscripts"
   ],
   "note": ""
  },
  {
   "property": "C31",
   "status": "proved",
   "theorems": [
    "Verif.C31_surrounding_blanks"
   ],
   "note": ""
  },
  {
   "property": "C32",
   "status": "proved",
   "theorems": [
    "Verif.C32_print_parse",
    "Verif.C32_same_meaning",
    "Verif.C32_bracket_free",
    "Verif.C32_normalise_idempotent",
    "Verif.C32_print_injective",
    "Verif.C32_print_parse_refuted"
   ],
   "note": "texts with dates are covered by C32_print_parse (as expressions), not by the bracket-free text theorems"
  },
  {
   "property": "C33",
   "status": "proved",
   "theorems": [
    "Verif.C33_left_associative",
    "Verif.C33_chains",
    "Verif.C33_exponent_binds_tightest",
    "Verif.C33_exponent_spellings"
   ],
   "note": ""
  },
  {
   "property": "C34",
   "status": "proved",
   "theorems": [
    "Verif.C34_brackets_transparent",
    "Verif.C34_products_compositional",
    "Verif.C34_context_refuted"
   ],
   "note": "compositional for s without shift signs; refuted with one"
  },
  {
   "property": "C35",
   "status": "proved",
   "theorems": [
    "Verif.C35_names"
   ],
   "note": ""
  },
  {
   "property": "C36",
   "status": "proved",
   "theorems": [
    "Verif.C36_pop_first_removes_what_it_returns",
    "Verif.C36_pop_first_none",
    "Verif.C36_pop_iter"
   ],
   "note": ""
  },
  {
   "property": "C37",
   "status": "proved",
   "theorems": [
    "Verif.C37_symbol_order_unobservable",
    "Verif.C37_overlapping_symbols_refuted"
   ],
   "note": ""
  },
  {
   "property": "C38",
   "status": "proved",
   "theorems": [
    "Verif.C38_shipped_database_loads",
    "Verif.C38_distinct_spellings_load",
    "Verif.C38_loads_iff",
    "Verif.C38_prefix_tables"
   ],
   "note": ""
  },
  {
   "property": "C39",
   "status": "proved",
   "theorems": [
    "Verif.C39_equality",
    "Verif.C39_hash_same_text",
    "Verif.C39_time_hash",
    "Verif.C39_hash_refuted"
   ],
   "note": ""
  },
  {
   "property": "C40",
   "status": "proved",
   "theorems": [
    "Verif.C40_time_str_injective",
    "Verif.C40_fraction_refuted",
    "Verif.C40_no_text_is_a_date"
   ],
   "note": ""
  },
  {
   "property": "C41",
   "status": "proved",
   "theorems": [
    "Verif.C41_same_value",
    "Verif.C41_same_exponents",
    "Verif.C41_each_identifier_once",
    "Verif.C41_normal_form",
    "Verif.C41_idempotent",
    "Verif.C41_reused_expander",
    "Verif.C41_shifted",
    "Verif.C41_offsets_multiplied",
    "Verif.C41_offset_in_offset_fails",
    "Verif.C41_accuracy",
    "Verif.C41_decimals_refuted",
    "Verif.C41_zero_refuted",
    "Verif.C41_nested_shift_refuted",
    "Verif.C41_shift_moved_refuted",
    "Verif.C41_superscript_fails",
    "Verif.C41_log_fails"
   ],
   "note": "value theorem exact for expressions with at most one distinct decimal literal, and within two 28-digit roundings per decimal literal for all others that expand (inexact decimal powers above the first are not modelled); exponents, uniqueness and normal form for all product expressions; offsets described exactly; meaning of offsets and zero refuted by witnesses"
  },
  {
   "property": "C42",
   "status": "proved",
   "theorems": [
    "Verif.C42_basis_objects_are_not_units"
   ],
   "note": "refuted for every non-dimensionless basis unit and every other unit"
  },
  {
   "property": "C43",
   "status": "proved",
   "theorems": [
    "Verif.C43_superscript_texts",
    "Verif.C43_superscript_dimensionality_raises",
    "Verif.C43_superscript_refuted"
   ],
   "note": "refuted for every unit with a non-empty dimensionality"
  },
  {
   "property": "C44",
   "status": "proved",
   "theorems": [
    "Verif.C44_expansion_reaches_basis",
    "Verif.C44_system_returns_wellBuilt",
    "Verif.C44_expansion_total"
   ],
   "note": ""
  },
  {
   "property": "C45",
   "status": "proved",
   "theorems": [
    "Verif.C45_symbolic_definition_agrees_with_dimensionality"
   ],
   "note": ""
  },
  {
   "property": "C46",
   "status": "proved",
   "theorems": [
    "Verif.C46_literals_are_exact",
    "Verif.C46_integer_texts",
    "Verif.C46_decimal_texts",
    "Verif.C46_signed_point_refuted"
   ],
   "note": "tokens of every text, and whole texts; a signed literal without a digit before the point does not parse (refuted)"
  },
  {
   "property": "C47",
   "status": "proved",
   "theorems": [
    "Verif.C47_words_are_identifiers",
    "Verif.C47_identifier_texts",
    "Verif.C47_registered_names_refuted"
   ],
   "note": "both directions for bracket-free texts; refuted for names with digits and reserved words"
  },
  {
   "property": "C48",
   "status": "proved",
   "theorems": [
    "Verif.C48_wellfounded_definitions_resolve",
    "Verif.C48_broken_definitions_never_resolve",
    "Verif.C48_shipped_spellings"
   ],
   "note": ""
  },
  {
   "property": "C49",
   "status": "proved",
   "theorems": [
    "Verif.C49_strict_only_rejects"
   ],
   "note": ""
  },
  {
   "property": "C50",
   "status": "proved",
   "theorems": [
    "Verif.C50_without_namespace_empty",
    "Verif.C50_document_without_namespace"
   ],
   "note": ""
  },
  {
   "property": "C51",
   "status": "proved",
   "theorems": [
    "Verif.C51_name_elements",
    "Verif.C51_prefix_elements",
    "Verif.C51_unit_elements",
    "Verif.C51_elements",
    "Verif.C51_documents",
    "Verif.C51_comment_fails"
   ],
   "note": ""
  },
  {
   "property": "C52",
   "status": "proved",
   "theorems": [
    "Verif.C52_prefix_registered",
    "Verif.C52_direct_spellings_keep",
    "Verif.C52_prefixed_spellings_found",
    "Verif.C52_prefixed_unit",
    "Verif.C52_prefix_names_keep",
    "Verif.C52_prefix_symbols_keep_refuted"
   ],
   "note": ""
  },
  {
   "property": "C53",
   "status": "proved",
   "theorems": [
    "Verif.C53_shipped_units",
    "Verif.C53_torr_refuted",
    "Verif.C53_table_complete",
    "Verif.C53_spellings_typeable"
   ],
   "note": "holds for every spelling except the torr's eight, which are refuted (see C53_torr_refuted); the 22 spellings that never resolve are C48's"
  },
  {
   "property": "C54",
   "status": "proved",
   "theorems": [
    "Verif.C54_shipped_conversions"
   ],
   "note": ""
  },
  {
   "property": "C55",
   "status": "proved",
   "theorems": [
    "Verif.C55_shipped_equality"
   ],
   "note": ""
  },
  {
   "property": "C56",
   "status": "proved",
   "theorems": [
    "Verif.C56_date_objects"
   ],
   "note": ""
  },
  {
   "property": "C57",
   "status": "proved",
   "theorems": [
    "Verif.C57_expanded_reads_back",
    "Verif.C57_expanded_reads_back_refuted"
   ],
   "note": "under the bracket-free condition Spec.Flat; refuted in general (m/h)"
  },
  {
   "property": "C58",
   "status": "proved",
   "theorems": [
    "Verif.C58_conversion_expr",
    "Verif.C58_shipped",
    "Verif.C58_dates_refuted",
    "Verif.C58_explain_unit",
    "Verif.C58_debug_parser"
   ],
   "note": "argparse, sympy's printing of the expression and ANTLR's error recovery output are not modelled"
  },
  {
   "property": "C59",
   "status": "proved",
   "theorems": [
    "Verif.C59_dimensionality_equals_dict",
    "Verif.C59_text",
    "Verif.C59_text_of_plain_names",
    "Verif.C59_text_determines"
   ],
   "note": ""
  },
  {
   "property": "C60",
   "status": "proved",
   "theorems": [
    "Verif.C60_prefixed_units",
    "Verif.C60_repeated_prefix_refuted",
    "Verif.C60_prefixed_scales_refuted"
   ],
   "note": "refuted for repeated prefixes (mm) and for prefixed offset or logarithmic units (dBm): see the _refuted theorems"
  },
  {
   "property": "C61",
   "status": "proved",
   "theorems": [
    "Verif.C61_date_of_no_time_refused",
    "Verif.C61_inner_date_refused",
    "Verif.C61_text_meaning",
    "Verif.C61_date_text",
    "Verif.C61_text_conversions",
    "Verif.C61_text_equality"
   ],
   "note": "the torr and the 22 never-resolving spellings are excluded (C53, C48); zero offsets are excluded from the equality theorem; several offsets or logarithms in one text are refuted in C20 and C21"
  },
  {
   "property": "C62",
   "status": "proved",
   "theorems": [
    "Verif.C62_shipped_database",
    "Verif.C62_programs_run_alone",
    "Verif.C62_every_schedule",
    "Verif.C62_threads_do_not_interfere"
   ],
   "note": "Grain: one dict get/set, one step of a dict iterator or one attribute access is atomic (CPython). Here no thread registers anything (OnlyQueries); registrations in other threads are C70. Refinement to the sequential model is C62_programs_run_alone. Two threads may build two equal unit objects for one definition: values are compared, not identities."
  },
  {
   "property": "C63",
   "status": "proved",
   "theorems": [
    "Verif.C63_survives_crashes",
    "Verif.C63_survives_crashes_within_budget"
   ],
   "note": "Same hypotheses as C05 (pristine, conflict-free)."
  },
  {
   "property": "C64",
   "status": "proved",
   "theorems": [
    "Verif.C64_every_call_finishes"
   ],
   "note": "No hypothesis on the system."
  },
  {
   "property": "C65",
   "status": "proved",
   "theorems": [
    "Verif.C65_queries_leave_no_trace",
    "Verif.C65_lookup_meaning_kept",
    "Verif.C65_unit_meaning_kept",
    "Verif.C65_fresh_units_accepted",
    "Verif.C65_late_registration_refuted"
   ],
   "note": "Freshness of a registration is stated with the registry alone (Spec/Build.lean); C65_late_registration_refuted shows it is needed."
  },
  {
   "property": "C66",
   "status": "proved",
   "theorems": [
    "Verif.C66_generated_lexer",
    "Verif.C66_same_tokens",
    "Verif.C66_cache_invisible",
    "Verif.C66_history_goes_on"
   ],
   "note": "Model/AtnData.lean is the text of serializedATN() copied by tools/mkatn.py (trusted); Model/Atn.lean is the deserialiser, Model/LexerSim.lean the simulator with its DFA cache and nextToken. The kernel checks a generated table of pairs (configurations, partial derivatives) for closure under every character (Lemmas/LexerCheck.lean). Lean characters are Unicode scalar values: lone surrogates in a Python str are not representable."
  },
  {
   "property": "C67",
   "status": "proved",
   "theorems": [
    "Verif.PSim.C67_generated_parser",
    "Verif.PSim.C67_history_invisible",
    "Verif.PSim.C67_sessions",
    "Verif.PSim.C67_prediction_program",
    "Verif.PSim.C67_search_program",
    "Verif.PSim.C67_automaton_is_the_grammar"
   ],
   "note": "The runtime's parser (adaptivePredict with SLL and full-context stages, merged graph-structured contexts, shared DFA, sync/match, generated rule methods, visitor) is proved equal to the model of the grammar file used by every other theorem. Not modelled: messages and recovery after the first reported error (the listener raises), parse tree positions."
  },
  {
   "property": "C68",
   "status": "proved",
   "theorems": [
    "Verif.PSim.C68_lowest_viable",
    "Verif.PSim.C68_ends"
   ],
   "note": "Viability is read off the serialised automaton as a pushdown automaton (Spec/Automaton.lean), independent of prediction contexts and caches."
  },
  {
   "property": "C69",
   "status": "proved",
   "theorems": [
    "Verif.PSim.C69_calls",
    "Verif.PSim.C69_results",
    "Verif.PSim.C69_ends",
    "Verif.PSim.C69_one_value",
    "Verif.PSim.C69_no_waiting"
   ],
   "note": "Memory is the list of all writes; a read sees nothing or any earlier write to its place, which is weaker than CPython's memory and also covers writes lost when two threads create the same state or edge array. DFA states are identified by their configurations. The context and next-token memo tables are not modelled."
  },
  {
   "property": "C70",
   "status": "proved",
   "theorems": [
    "Verif.C70_programs_run_alone",
    "Verif.C70_answers_of_the_completed_system",
    "Verif.C70_sees_what_has_returned",
    "Verif.C70_after_all_registrations",
    "Verif.C70_returned_registrations_stay",
    "Verif.C70_lookups_never_break_refuted",
    "Verif.C70_one_registration_wins_refuted",
    "Verif.C70_registrations_are_atomic_refuted"
   ],
   "note": "NoSecondMeaning is the price: every spelling readable only through the new registrations has one reading (checked by a decision procedure on the example). The depth in the answers is the budget of nested lookups, as in C05. Three natural stronger claims are refuted with concrete schedules."
  },
  {
   "property": "C71",
   "status": "proved",
   "theorems": [
    "Verif.C71_offset_scales",
    "Verif.C71_linear_units",
    "Verif.C71_to_logarithmic",
    "Verif.C71_from_logarithmic",
    "Verif.C71_between_logarithmic",
    "Verif.C71_error_size",
    "Verif.C71_log_error_size",
    "Verif.C71_exact_included",
    "Verif.C71_float_equality_refuted",
    "Verif.C71_shipped_conversions",
    "Verif.C71_shipped_reciprocals"
   ],
   "note": "Rounding is any relation with relative accuracy u (no particular format); the result is related by an inductive relation that also allows any rearrangement sympy may make by merging factors, distributing a factor over a sum and collecting constants. Overflow, underflow, nan and inf are not modelled. C71_exact_included shows the relation is inhabited wherever the exact conversion is defined. Scaled logarithms (0.1 lg(re ..)) are covered by C71_exact_included only. Equality with rounded numbers is refuted with a concrete pair and 53-bit rounding."
  },
  {
   "property": "C72",
   "status": "proved",
   "theorems": [
    "Verif.C72_elementwise",
    "Verif.C72_arrays_unchanged",
    "Verif.C72_new_array",
    "Verif.C72_errors",
    "Verif.C72_shape_refuted",
    "Verif.C72_copy_refuted"
   ],
   "note": "float arrays; nan/infinity of an element is one absorbing value; every factor 1 is taken to vanish from the printed function (for the float 1.0 the code multiplies and allocates); the refuted parts are named _refuted"
  },
  {
   "property": "C73",
   "status": "proved",
   "theorems": [
    "Verif.Objects.C73_methods_answer_from_definitions",
    "Verif.Objects.C73_same_call_same_result",
    "Verif.Objects.C73_units_stay",
    "Verif.Objects.C73_no_circles",
    "Verif.Objects.C73_no_waiting",
    "Verif.Objects.C73_mapping_copied_refuted"
   ],
   "note": "computation between two accesses to a cache is one step; the proviso (Settled) is shown to be necessary; the refuted part is named _refuted"
  },
  {
   "property": "C74",
   "status": "proved",
   "theorems": [
    "Verif.Objects.C74_expanded_length",
    "Verif.Objects.C74_doubling",
    "Verif.Objects.C74_polynomial_refuted"
   ],
   "note": "text length, not running time; the refuted part is named _refuted"
  },
  {
   "property": "C75",
   "status": "proved",
   "theorems": [
    "Verif.PSim.C75_threshold",
    "Verif.PSim.C75_caches",
    "Verif.PSim.C75_sessions",
    "Verif.PSim.C75_factors",
    "Verif.PSim.C75_long_products",
    "Verif.PSim.C75_some_limit_suffices_refuted"
   ],
   "note": "frames of the tree visitor only (4 per rule, 2 per leaf): a lower bound of what the program uses; the generated parser's own recursion is not counted; the refuted part is named _refuted"
  },
  {
   "property": "C76",
   "status": "proved",
   "theorems": [
    "Verif.C76_all_accepted",
    "Verif.C76_all_orders_accepted",
    "Verif.C76_lookup_any_order",
    "Verif.C76_unit_any_order",
    "Verif.C76_document_order",
    "Verif.C76_shipped_file_order",
    "Verif.C76_shipped_any_order",
    "Verif.C76_prefix_order_refuted",
    "Verif.C76_unit_order_refuted"
   ],
   "note": "the refuted parts are named _refuted; registrations without replace, as the XML reader makes them; the non-strict reader for documents"
  },
  {
   "property": "C77",
   "status": "proved",
   "theorems": [
    "Verif.C77_name_is_its_definition",
    "Verif.C77_definition_reads",
    "Verif.C77_inline",
    "Verif.C77_inline_reads",
    "Verif.C77_inline_shift_refuted",
    "Verif.C77_shipped"
   ],
   "note": "Proved for every pristine conflict-free system and environment (any parser, any iteration order): C77_name_is_its_definition (whole text), C77_inline (inside an expression; MayInline states the exact condition), with the existence of the second reading in C77_definition_reads / C77_inline_reads, and for the shipped database in C77_shipped. Interchangeable (Spec/Inline.lean) lists the observations. C77_inline_shift_refuted: the unconditional claim fails for products with a shifted unit. C77_inline assumes the first unit has a dimensionality (superscript exponents raise, C43)."
  },
  {
   "property": "C78",
   "status": "proved",
   "theorems": [
    "Verif.C78_same_arithmetic_same_unit",
    "Verif.C78_rewritten_text_reads",
    "Verif.C78_same_arithmetic",
    "Verif.C78_laws",
    "Verif.C78_shifted_refuted"
   ],
   "note": "C78_same_arithmetic_same_unit: any pristine conflict-free system, any parser and iteration order; SameArithmetic (Spec/Algebra.lean) is equality under every non-zero assignment of reals, SameUnit lists the observations (everything but the printed form; conversions compared by their results, failures are not distinguished by kind). C78_laws: the usual laws and congruence, so that SameArithmetic is what one expects. C78_rewritten_text_reads: the rewritten text reads. Units with dimensionless basis units (radian) are included. C78_shifted_refuted: shifts excluded for a reason."
  },
  {
   "property": "C79",
   "status": "proved",
   "theorems": [
    "Verif.C79_words",
    "Verif.C79_word_errors",
    "Verif.C79_texts",
    "Verif.C79_texts_only",
    "Verif.C79_example_words"
   ],
   "note": "Spec/Understood.lean: Understood is stated by declared spellings (Db.Claimed), the prefix table and the list of 22 unusable spellings (C48). C79_words: iff for words, the negative half for every limit. C79_word_errors: which exception. C79_texts / C79_texts_only: unit(text). Texts with an offset and only understood words: never a reading error, but the unit may still be refused (dates, nested shifts: C23, C24). C79_example_words: one word of each kind."
  },
  {
   "property": "C80",
   "status": "proved",
   "theorems": [
    "Verif.C80_order",
    "Verif.C80_no_gaps",
    "Verif.C80_differences",
    "Verif.C80_order_inverted",
    "Verif.C80_shipped_order",
    "Verif.C80_negative_unit_refuted",
    "Verif.C80_inverted_refuted"
   ],
   "note": "Spec/Monotone.lean defines KeepsOrder, ReversesOrder, their local forms, Converts, LogFree. Constructible both ways excludes units with factor 0. C80_order, C80_no_gaps, C80_differences: same dimensionality; C80_order_inverted: opposite dimensionality. C80_shipped_order: every pair of rows of the table with the same powers. C80_negative_unit_refuted and C80_inverted_refuted show why the statements are not stronger. Exact reals; rounding is C71."
  },
  {
   "property": "C81",
   "status": "proved",
   "theorems": [
    "Verif.C81_names_do_not_matter",
    "Verif.C81_conversions_do_not_depend_on_names",
    "Verif.C81_own_names_are_harmless",
    "Verif.C81_equality",
    "Verif.C81_value_refuted"
   ],
   "note": "Spec/Renaming.lean renames every identifier (an injective function on names). Model/Names.lean models Converter with its own sympy symbols, which collide with units of the same names; factors inside value transformations that contain one of these names are not modelled. C81_own_names_are_harmless: whenever the collision-free conversion has a result. C81_value_refuted: a dimensionless basis unit called `value`."
  },
  {
   "property": "C82",
   "status": "proved",
   "theorems": [
    "Verif.C82_stays_convertible",
    "Verif.C82_dimensionality",
    "Verif.C82_basis_does_not_matter",
    "Verif.C82_units_of_a_system",
    "Verif.C82_dimensionless_refuted"
   ],
   "note": "Units are the model's units (identifiers resolved to objects); C82_units_of_a_system shows the structural hypotheses for all units a system returns. The source unit must not be zero (Constructible in the other direction). The same value over the reals; with rounding see C71."
  },
  {
   "property": "C83",
   "status": "proved",
   "theorems": [
    "Verif.C83_dimensionality",
    "Verif.C83_is_time_unit",
    "Verif.C83_str",
    "Verif.C83_expanded",
    "Verif.C83_symbolic_definition",
    "Verif.C83_made",
    "Verif.C83_identifiers",
    "Verif.C83_shipped",
    "Verif.C83_chains",
    "Verif.C83_made_is_usable_refuted"
   ],
   "note": "Frames of Python functions, comprehensions included as before Python 3.12; not those of C functions or inside sympy. The lower bound is proved for dimensionality() (C83_chains); that its session never looks up deeper than two levels is part of the refutation's statement."
  },
  {
   "property": "C84",
   "status": "proved",
   "theorems": [
    "Verif.C84_floats",
    "Verif.C84_same",
    "Verif.C84_zero",
    "Verif.C84_integers",
    "Verif.C84_right_iff",
    "Verif.C84_refused",
    "Verif.C84_errors",
    "Verif.C84_when",
    "Verif.C84_points",
    "Verif.C84_elementwise_refuted",
    "Verif.C84_shipped",
    "Verif.C84_shipped_days_refuted"
   ],
   "note": "Units free of value transformations; numpy 2's rules for Python numbers and integer arrays; floats are real numbers. Which expression sympy prints is modelled (Integer or Float coefficient), not proved of sympy. C84_shipped covers the table's 794 linear spellings; prefixed spellings and texts of several units only by the general theorems."
  },
  {
   "property": "C85",
   "status": "proved",
   "theorems": [
    "Verif.C85_reads",
    "Verif.C85_fails",
    "Verif.C85_numbers_of_the_text",
    "Verif.C85_monotone",
    "Verif.C85_short_texts",
    "Verif.C85_integers",
    "Verif.C85_decimals",
    "Verif.C85_every_valid_text_is_read_refuted",
    "Verif.C85_units",
    "Verif.C85_shipped"
   ],
   "note": "The limits themselves (4300 digits, the exponents of libmpdec on a 64-bit machine) are data of the model; theorems hold for any limits, except C85_short_texts and C85_shipped, which are about the default ones. Superscript exponents are kept as text and not converted."
  }
 ]
}