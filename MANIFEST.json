{
 "claims": [
  {
   "property": "C01",
   "status": "proved",
   "theorems": [
    "Binder.C01_binding_requested",
    "Binder.C01_skipping_requested"
   ],
   "note": ""
  },
  {
   "property": "C02",
   "status": "proved",
   "theorems": [
    "Binder.C02_exclusive"
   ],
   "note": ""
  },
  {
   "property": "C03",
   "status": "proved",
   "theorems": [
    "Binder.C03_order_and_repetition"
   ],
   "note": ""
  },
  {
   "property": "C04",
   "status": "partial",
   "theorems": [
    "Binder.C04_reread_partial",
    "Binder.C04_includes_code_false"
   ],
   "note": "Everything except the text of the +include block, which is written once per reading (C04_includes_code_false)."
  },
  {
   "property": "C05",
   "status": "proved",
   "theorems": [
    "Binder.C05_lines",
    "Binder.C05_directive_shape",
    "Binder.C05_accepted_iff",
    "Binder.C05_rejected",
    "Binder.C05_lists",
    "Binder.C05_maps",
    "Binder.C05_scalars"
   ],
   "note": ""
  },
  {
   "property": "C06",
   "status": "proved",
   "theorems": [
    "Binder.C06_crlf"
   ],
   "note": ""
  },
  {
   "property": "C07",
   "status": "partial",
   "theorems": [
    "Binder.C07_names_up_to_spaces_partial",
    "Binder.C07_names_up_to_spaces_false"
   ],
   "note": "Holds for class, function, buffer_protocol and smart_holder lines; enum and field lookups keep spaces in the query: refuted with the very name written in the file."
  },
  {
   "property": "C08",
   "status": "partial",
   "theorems": [
    "Binder.C08_exactly_nested_false",
    "Binder.C08_nested_partial"
   ],
   "note": "Refuted (raw string prefix: 'foo' governs 'foobar'); proved: nested namespaces are covered and an entry never affects a namespace whose text does not start with it."
  },
  {
   "property": "C09",
   "status": "proved",
   "theorems": [
    "Binder.C09_python_builtin",
    "Binder.C09_from_file"
   ],
   "note": ""
  },
  {
   "property": "C10",
   "status": "proved",
   "theorems": [
    "Binder.C10_module_local"
   ],
   "note": ""
  },
  {
   "property": "C11",
   "status": "proved",
   "theorems": [
    "Binder.C11_include_block"
   ],
   "note": ""
  },
  {
   "property": "C12",
   "status": "proved",
   "theorems": [
    "Binder.C12_replace_loop",
    "Binder.C12_replace_spec",
    "Binder.C12_substitution_total_unique",
    "Binder.C12_replace_empty_diverges"
   ],
   "note": "Full: loop equals the unique left-to-right substitution; divergence for an empty pattern."
  },
  {
   "property": "C13",
   "status": "partial",
   "theorems": [
    "Binder.C13_split_lines",
    "Binder.C13_lines_unique",
    "Binder.C13_split_join",
    "Binder.C13_split_multichar_false"
   ],
   "note": "One-character separators (the only ones the tool uses) in full; the general statement is refuted by C13_split_multichar_false."
  },
  {
   "property": "C14",
   "status": "proved",
   "theorems": [
    "Binder.C14_indent_lines",
    "Binder.C14_unindent"
   ],
   "note": ""
  },
  {
   "property": "C15",
   "status": "proved",
   "theorems": [
    "Binder.C15_trim",
    "Binder.C15_trim_unique",
    "Binder.C15_trim_idempotent"
   ],
   "note": ""
  },
  {
   "property": "C16",
   "status": "proved",
   "theorems": [
    "Binder.C16_base_last",
    "Binder.C16_base_last_none",
    "Binder.C16_base_shorter"
   ],
   "note": ""
  },
  {
   "property": "C17",
   "status": "partial",
   "theorems": [
    "Binder.C17_fix_boolean_types_loop",
    "Binder.C17_idempotent",
    "Binder.C17_identity",
    "Binder.C17_whole_identifier_false",
    "Binder.C17_whole_identifier_partial"
   ],
   "note": "The whole-identifier claim is false (underscore is treated as a boundary: _Bool_t becomes bool_t); the partial theorem covers inputs where every _Bool that touches an underscore is excluded."
  },
  {
   "property": "C18",
   "status": "proved",
   "theorems": [
    "Binder.C18_docstring_roundtrip",
    "Binder.C18_docstring_injective"
   ],
   "note": ""
  },
  {
   "property": "C19",
   "status": "partial",
   "theorems": [
    "Binder.C19_no_separators",
    "Binder.C19_template_names",
    "Binder.C19_other_characters_kept",
    "Binder.C19_no_doubled_underscore",
    "Binder.C19_plain_unchanged",
    "Binder.C19_injective_false",
    "Binder.C19_identifier_false",
    "Binder.C19_identifier_partial"
   ],
   "note": "Character claims proved; injectivity and 'is an identifier' are refuted with witnesses; the identifier claim is proved for names over letters, digits, underscore and separators."
  },
  {
   "property": "C20",
   "status": "proved",
   "theorems": [
    "Binder.C20_update",
    "Binder.C20_directory",
    "Binder.C20_second_run_writes_nothing",
    "Binder.C20_texts_not_empty"
   ],
   "note": "For the generated sources; the root, .sources and .modules files are opened for writing in every run (context.cpp:339, 488-493)."
  },
  {
   "property": "C21",
   "status": "proved",
   "theorems": [
    "Binder.C21_names_safe",
    "Binder.C21_names_flat"
   ],
   "note": "Header-based names in full; with --flat the name is the user's own --root-module plus a number."
  },
  {
   "property": "C22",
   "status": "partial",
   "theorems": [
    "Binder.C22_flat_distinct",
    "Binder.C22_headers_partial",
    "Binder.C22_split_collides_false",
    "Binder.C22_slash_collides_false",
    "Binder.C22_root_collides_false"
   ],
   "note": "Proved in flat mode; with header-based names refuted three ways (C22_*_false) and proved when header names do not look numbered, collide after '/'->'_' or equal the root module."
  },
  {
   "property": "C23",
   "status": "proved",
   "theorems": [
    "Binder.C23_registered",
    "Binder.C23_no_repetition",
    "Binder.C23_complete",
    "Binder.C23_offer_again",
    "Binder.C23_type_lookup"
   ],
   "note": ""
  },
  {
   "property": "C24",
   "status": "proved",
   "theorems": [
    "Binder.C24_least_closure"
   ],
   "note": ""
  },
  {
   "property": "C25",
   "status": "proved",
   "theorems": [
    "Binder.C25_class_text",
    "Binder.C25_terminates",
    "Binder.C25_once",
    "Binder.C25_function_text",
    "Binder.C25_enum_text"
   ],
   "note": ""
  },
  {
   "property": "C26",
   "status": "proved",
   "theorems": [
    "Binder.C26_order_independent"
   ],
   "note": ""
  },
  {
   "property": "C27",
   "status": "proved",
   "theorems": [
    "Binder.C27_never_pulled_in"
   ],
   "note": ""
  },
  {
   "property": "C28",
   "status": "proved",
   "theorems": [
    "Binder.C28_permutation"
   ],
   "note": ""
  },
  {
   "property": "C29",
   "status": "proved",
   "theorems": [
    "Binder.C29_bases_first",
    "Binder.C29_own_base_first"
   ],
   "note": ""
  },
  {
   "property": "C30",
   "status": "proved",
   "theorems": [
    "Binder.C30_terminates",
    "Binder.C30_exit_only_if_missing",
    "Binder.C30_missing_is_fatal",
    "Binder.C30_cycle_diverges"
   ],
   "note": ""
  },
  {
   "property": "C31",
   "status": "proved",
   "theorems": [
    "Binder.C31_emitted_once_in_order",
    "Binder.C31_text_of_file"
   ],
   "note": ""
  },
  {
   "property": "C32",
   "status": "proved",
   "theorems": [
    "Binder.C32_terminates",
    "Binder.C32_zero_diverges"
   ],
   "note": ""
  },
  {
   "property": "C33",
   "status": "partial",
   "theorems": [
    "Binder.C33_namespace_binder",
    "Binder.C33_add_on_partial",
    "Binder.C33_calls_in_own_files",
    "Binder.C33_both_false"
   ],
   "note": "+binder_for_namespace in full; the add-on when the namespace has no binder of its own (otherwise the add-on is never called: C33_both_false)."
  },
  {
   "property": "C34",
   "status": "proved",
   "theorems": [
    "Binder.C34_one_namespace",
    "Binder.C34_size"
   ],
   "note": ""
  },
  {
   "property": "C35",
   "status": "proved",
   "theorems": [
    "Binder.C35_modules_created",
    "Binder.C35_lookups_succeed"
   ],
   "note": ""
  },
  {
   "property": "C36",
   "status": "partial",
   "theorems": [
    "Binder.C36_bases_registered_partial",
    "Binder.C36_import_succeeds_partial",
    "Binder.C36_builtin_base_false",
    "Binder.C36_namespace_binder_false"
   ],
   "note": "End-to-end over register/bind/sort/write for class hierarchies without builtin bases and without +binder_for_namespace on a class's namespace; both exceptions are refuted with witnesses."
  },
  {
   "property": "C37",
   "status": "proved",
   "theorems": [
    "Binder.C37_sources_file",
    "Binder.C37_functions",
    "Binder.C37_definitions"
   ],
   "note": ""
  },
  {
   "property": "C38",
   "status": "proved",
   "theorems": [
    "Binder.C38_namespaces",
    "Binder.C38_sorted",
    "Binder.C38_modules_file",
    "Binder.C38_dotted"
   ],
   "note": ""
  },
  {
   "property": "C39",
   "status": "proved",
   "theorems": [
    "Binder.C39_traces_distinct",
    "Binder.C39_traces_in_order",
    "Binder.C39_traced"
   ],
   "note": ""
  },
  {
   "property": "C40",
   "status": "partial",
   "theorems": [
    "Binder.C40_special",
    "Binder.C40_call",
    "Binder.C40_other",
    "Binder.C40_unsupported",
    "Binder.C40_distinct_partial",
    "Binder.C40_address_of_false"
   ],
   "note": "Meaning, arity and names proved for the whole table and all names; two bindable operators share a name only if they are the same operation, except the unary operator& (refuted with a witness)."
  },
  {
   "property": "C41",
   "status": "proved",
   "theorems": [
    "Binder.C41_overloads",
    "Binder.C41_min_arity_exists"
   ],
   "note": ""
  },
  {
   "property": "C42",
   "status": "proved",
   "theorems": [
    "Binder.C42_keywords"
   ],
   "note": ""
  },
  {
   "property": "C43",
   "status": "partial",
   "theorems": [
    "Binder.C43_policy",
    "Binder.C43_rvalue_false"
   ],
   "note": "C43_rvalue_false shows that the two settings for rvalue references decide about no bound function: a function that returns an rvalue reference is never bound."
  },
  {
   "property": "C44",
   "status": "partial",
   "theorems": [
    "Binder.C44_skip_entries",
    "Binder.C44_skip_otherwise",
    "Binder.C44_skip_error",
    "Binder.C44_skip_from_file",
    "Binder.C44_bind_partial",
    "Binder.C44_bind_inline_namespace_false",
    "Binder.C44_typedef_pointer_false"
   ],
   "note": "The precedence rules of skip entries in full; bind entries: the exact rule, which for libc++/libstdc++ inline namespaces differs from the claim (witness), and typedef'd pointers escape -class (witness)."
  },
  {
   "property": "C45",
   "status": "proved",
   "theorems": [
    "Binder.C45_skip_entries",
    "Binder.C45_skip_otherwise",
    "Binder.C45_bind",
    "Binder.C45_skipped_argument",
    "Binder.C45_skip_from_file",
    "Binder.C45_skip_enum"
   ],
   "note": ""
  },
  {
   "property": "C46",
   "status": "partial",
   "theorems": [
    "Binder.C46_class_partial",
    "Binder.C46_class_plain",
    "Binder.C46_class_false",
    "Binder.C46_function",
    "Binder.C46_function_plain",
    "Binder.C46_balanced"
   ],
   "note": "Functions in full, classes if a non-empty argument is left; `std::tuple<>` is printed as `std::tuple>` (witness)."
  },
  {
   "property": "C47",
   "status": "partial",
   "theorems": [
    "Binder.C47_classes",
    "Binder.C47_functions_partial",
    "Binder.C47_fields",
    "Binder.C47_return_typedef_false",
    "Binder.C47_template_argument_false",
    "Binder.C47_enclosing_false"
   ],
   "note": "Exact characterisation through pointers, references and (for parameters) typedefs; results behind typedefs, template arguments and enclosing classes are not checked (witnesses)."
  },
  {
   "property": "C48",
   "status": "partial",
   "theorems": [
    "Binder.C48_base_defaults",
    "Binder.C48_constructors_partial",
    "Binder.C48_methods",
    "Binder.C48_not_deleted",
    "Binder.C48_fields",
    "Binder.C48_enums",
    "Binder.C48_nested_skip_false",
    "Binder.C48_inherited_access_false",
    "Binder.C48_inherited_skip_false",
    "Binder.C48_deleted_default_false"
   ],
   "note": "Exact characterisations for methods, fields, enumerations, nested classes and constructors; inherited constructors, the implicit default constructor and nested classes escape access, deletion or skip entries (witnesses)."
  },
  {
   "property": "C49",
   "status": "partial",
   "theorems": [
    "Binder.C49_overrides_partial",
    "Binder.C49_const_overload_false",
    "Binder.C49_final_false"
   ],
   "note": "Every overridable pure virtual function of every class the structure walks gets an override unless a signature key clash or a final function hides it; both exceptions are witnessed."
  },
  {
   "property": "C50",
   "status": "partial",
   "theorems": [
    "Binder.C50_distinct_partial",
    "Binder.C50_signatures_partial",
    "Binder.C50_signature_false"
   ],
   "note": "No two functions with the same key; no two with the same C++ signature if no parameter has top-level const or a sugared size_t; the exception is witnessed."
  },
  {
   "property": "C51",
   "status": "partial",
   "theorems": [
    "Binder.C51_final_overrider_partial",
    "Binder.C51_two_bases_false",
    "Binder.C51_source",
    "Binder.C51_most_derived_partial",
    "Binder.C51_forwards",
    "Binder.C51_final",
    "Binder.C51_private_false",
    "Binder.C51_diamond_false",
    "Binder.C51_final_false"
   ],
   "note": "Each override forwards to a real implementation; in single inheritance without private overrides to the most derived one, and with several bases, none of them a base in two ways, to the final overrider (C51_final_overrider_partial); private overrides, virtual diamonds and unrelated bases with functions of the same signature (C51_two_bases_false) are refuted."
  },
  {
   "property": "C52",
   "status": "partial",
   "theorems": [
    "Binder.C52_constructors",
    "Binder.C52_default_constructor",
    "Binder.C52_copy_constructor_partial",
    "Binder.C52_copy_default_false"
   ],
   "note": "Exact arities for all constructors except copy constructors with further parameters (witness)."
  },
  {
   "property": "C53",
   "status": "partial",
   "theorems": [
    "Binder.C53_values",
    "Binder.C53_exports_partial",
    "Binder.C53_enum_struct_false"
   ],
   "note": "Entries and values in full; export is wrong for `enum struct` (witness)."
  },
  {
   "property": "C54",
   "status": "proved",
   "theorems": [
    "Binder.C54_terminates",
    "Binder.C54_exact"
   ],
   "note": ""
  },
  {
   "property": "C55",
   "status": "partial",
   "theorems": [
    "Binder.C55_cache_transparent",
    "Binder.C55_tables_right",
    "Binder.C55_names_every_unit",
    "Binder.C55_second_unit_false"
   ],
   "note": "Within one translation unit in full, for every history of calls; for names in every unit; the decisions are stale across units (witness)."
  },
  {
   "property": "C56",
   "status": "partial",
   "theorems": [
    "Binder.C56_false",
    "Binder.C56_nullptr_false",
    "Binder.C56_stable_partial",
    "Binder.C56_outside_std_partial",
    "Binder.C56_normal_partial",
    "Binder.C56_bool_false",
    "Binder.C56_program_false",
    "Binder.C56_program_partial"
   ],
   "note": "Refuted for names that mention nullptr_t and for _Bool as an argument of a container (C56_bool_false). Proved, with the simplification of the program in place, for all names without _Bool in whose normal form none of the thirteen rewritten spellings is left (C56_normal_partial)."
  },
  {
   "property": "C57",
   "status": "partial",
   "theorems": [
    "Binder.C57_functions_partial",
    "Binder.C57_classes_partial",
    "Binder.C57_only_mentioned",
    "Binder.C57_template_argument_false",
    "Binder.C57_parameter_typedef_false",
    "Binder.C57_field_false"
   ],
   "note": "Exact for results and sugar-free parameters and for all bound members of a class; typedef'd parameters, template arguments and fields are not requested (witnesses)."
  },
  {
   "property": "C58",
   "status": "proved",
   "theorems": [
    "Binder.C58_begins_with",
    "Binder.C58_ends_with"
   ],
   "note": ""
  },
  {
   "property": "C59",
   "status": "partial",
   "theorems": [
    "Binder.C59_exceptions_partial",
    "Binder.C59_noexcept_true_false",
    "Binder.C59_noexcept_false_false"
   ],
   "note": "For no specification, throw(), __declspec(nothrow), noexcept; refuted for noexcept(true), noexcept(false) and throw(X)."
  },
  {
   "property": "C60",
   "status": "partial",
   "theorems": [
    "Binder.C60_keywords_partial",
    "Binder.C60_callback_false"
   ],
   "note": "Without callback structure, and always for the statement with all arguments; other statements of a class with a callback structure have no keywords (witness)."
  },
  {
   "property": "C61",
   "status": "proved",
   "theorems": [
    "Binder.C61_class_statement",
    "Binder.C61_bases_requested"
   ],
   "note": ""
  },
  {
   "property": "C62",
   "status": "partial",
   "theorems": [
    "Binder.C62_readonly_partial",
    "Binder.C62_sugar_false"
   ],
   "note": "Exact if the field type is not hidden behind a typedef or elaborated name; otherwise refuted."
  },
  {
   "property": "C63",
   "status": "partial",
   "theorems": [
    "Binder.C63_str",
    "Binder.C63_only_partial",
    "Binder.C63_template_false",
    "Binder.C63_unit"
   ],
   "note": "'Gets one if printable' in full; 'only if' for classes that are no specialisations; refuted for specialisations."
  },
  {
   "property": "C64",
   "status": "proved",
   "theorems": [
    "Binder.C64_nested"
   ],
   "note": ""
  },
  {
   "property": "C65",
   "status": "partial",
   "theorems": [
    "Binder.C65_holder_partial",
    "Binder.C65_shared_holder",
    "Binder.C65_shared_false"
   ],
   "note": "Exact for all classes (C65_holder_partial, C65_shared_holder); refuted for a class with a hidden destructor that inherits from std::enable_shared_from_this."
  },
  {
   "property": "C66",
   "status": "proved",
   "theorems": [
    "Binder.C66_at_most_one",
    "Binder.C66_form",
    "Binder.C66_own_header",
    "Binder.C66_no_header"
   ],
   "note": ""
  },
  {
   "property": "C67",
   "status": "partial",
   "theorems": [
    "Binder.C67_functions",
    "Binder.C67_classes_partial",
    "Binder.C67_inherited_false",
    "Binder.C67_nested_false"
   ],
   "note": "Free functions in full; members declared in the class and classes nested in it; refuted for members of template bases and nested classes defined outside."
  },
  {
   "property": "C68",
   "status": "proved",
   "theorems": [
    "Binder.C68_dispatch"
   ],
   "note": ""
  },
  {
   "property": "C69",
   "status": "proved",
   "theorems": [
    "Binder.C69_exactly_once"
   ],
   "note": "For distinct file names (as C20, C22)."
  },
  {
   "property": "C70",
   "status": "partial",
   "theorems": [
    "Binder.C70_terminates",
    "Binder.C70_deterministic",
    "Binder.C70_zero_false"
   ],
   "note": "Proved for every limit of at least one character; refuted for --max-file-size 0."
  },
  {
   "property": "C71",
   "status": "partial",
   "theorems": [
    "Binder.C71_exit_only_if_missing",
    "Binder.C71_missing_exits",
    "Binder.C71_nested_base_false"
   ],
   "note": "Both directions; refuted where the base is a public nested class, which is declared but bound with its outer class."
  },
  {
   "property": "C72",
   "status": "partial",
   "theorems": [
    "Binder.C72_failed_run_partial",
    "Binder.C72_root_lost_false"
   ],
   "note": "Per kind of failure; refuted for the root module, which is emptied before sorting can fail."
  },
  {
   "property": "C73",
   "status": "partial",
   "theorems": [
    "Binder.C73_last_file_partial",
    "Binder.C73_several_false"
   ],
   "note": "Refuted; the last file's bindings are complete."
  },
  {
   "property": "C74",
   "status": "proved",
   "theorems": [
    "Binder.C74_repeat"
   ],
   "note": "For distinct file names (as C20)."
  },
  {
   "property": "C75",
   "status": "partial",
   "theorems": [
    "Binder.C75_bases_first_partial",
    "Binder.C75_nested_false"
   ],
   "note": "For classes, and for nested classes whose bases are bound before them with the same outermost class; refuted for other nested classes with bases (their dependencies are not passed to the outer class)."
  },
  {
   "property": "C76",
   "status": "proved",
   "theorems": [
    "Binder.C76_headers",
    "Binder.C76_only"
   ],
   "note": "C76_headers: nothing is missing; C76_only: nothing else is included. The headers asked for are those of C54; C67 relates them to the signatures."
  },
  {
   "property": "C77",
   "status": "partial",
   "theorems": [
    "Binder.C77_leftmost_longest",
    "Binder.C77_terminates",
    "Binder.C77_other_names",
    "Binder.C77_stable",
    "Binder.C77_defaults_partial",
    "Binder.C77_streams_partial",
    "Binder.C77_multiset_false",
    "Binder.C77_wide_false",
    "Binder.C77_balanced_false",
    "Binder.C77_other_class_false",
    "Binder.C77_containers_partial",
    "Binder.C77_elements_partial",
    "Binder.C77_nested_partial"
   ],
   "note": "Termination and stability hold for all names. Refuted: multiset becomes a multiset of pointers, brackets can be lost, classes outside std are shortened. Proved for names without multiset: only default arguments are dropped; for the twelve containers of types that are written without default arguments, with or without template arguments: the short name is the right one; for lists of lists, deques of deques and vectors of vectors of any depth: no default argument is left at any level; for the stream classes: those with a name get it, except the wide ones whose row is never used (refuted)."
  },
  {
   "property": "C78",
   "status": "partial",
   "theorems": [
    "Binder.C78_simplify_chars",
    "Binder.C78_plain_names",
    "Binder.C78_well_formed_partial",
    "Binder.C78_char_argument_false",
    "Binder.C78_simplified_false"
   ],
   "note": "Proved for whole runs and unrestricted comments, if names, types, template arguments and configuration texts have no quotes, backslashes, slashes or line ends of their own. Refuted for a class template with a character argument that is a quote. The hypotheses on standard_name are about the names of the program, not about the simplification itself, whose results can be broken (C78_simplified_false); C78_plain_names gives a condition that implies them for the function the program uses."
  },
  {
   "property": "C79",
   "status": "proved",
   "theorems": [
    "Binder.C79_order_independent"
   ],
   "note": "For consistent units (redeclarations agree, as C++ demands) and distinct file names (as C20, C22)."
  },
  {
   "property": "C80",
   "status": "proved",
   "theorems": [
    "Binder.C80_options_are_lines",
    "Binder.C80_words_needed"
   ],
   "note": "For names without spaces, line ends and final carriage return; C80_words_needed shows that the hypothesis is needed."
  },
  {
   "property": "C81",
   "status": "partial",
   "theorems": [
    "Binder.C81_calls",
    "Binder.C81_import_partial",
    "Binder.C81_needed",
    "Binder.C81_same_name_false",
    "Binder.C81_static_false",
    "Binder.C81_diamond_false",
    "Binder.C81_member_binder_false",
    "Binder.C81_hidden_field_false"
   ],
   "note": "Python and pybind11 are a small machine (Spec/Import.lean). Import succeeds for programs whose names do not clash and whose classes have a Python search order, given what C75 assumes; C81_needed shows that these conditions are needed. Refuted for a class and a function of the same name, static and other functions of the same name, virtual bases listed before their derived classes, and binders for member classes. C81_hidden_field_false: a method that hides a data member of a base class makes the import fail, because pybind11 finds the inherited property and refuses to overload it."
  },
  {
   "property": "C82",
   "status": "partial",
   "theorems": [
    "Binder.C82_statement",
    "Binder.C82_default_map_partial",
    "Binder.C82_distinct_maps_partial",
    "Binder.C82_vector_partial",
    "Binder.C82_template_key_false",
    "Binder.C82_underscore_false",
    "Binder.C82_same_vector_name_false",
    "Binder.C82_same_map_name_false",
    "Binder.C82_pointer_false"
   ],
   "note": "The default arguments are recognised if key and value are no template instances, pointers or references and do not end with an underscore; names are different for element, key and value types named by plain words. Refuted for template keys, trailing underscores, other allocators of vectors, names that agree after mangling, and pointers."
  },
  {
   "property": "C83",
   "status": "proved",
   "theorems": [
    "Binder.C83_same_module",
    "Binder.C83_same_end"
   ],
   "note": "Holds for every two sets of values of root, prefix, flat, single-file, max-file-size and trace. The options that the generators of single bindings read (include-pybind11-stl, annotate-includes, annotate-functions, skip-line-number) are part of the environment and not varied here."
  },
  {
   "property": "C84",
   "status": "partial",
   "theorems": [
    "Binder.C84_module_name",
    "Binder.C84_names",
    "Binder.C84_functions",
    "Binder.C84_subclass",
    "Binder.C84_inherited",
    "Binder.C84_modules",
    "Binder.C84_skipped_base_false"
   ],
   "note": "Names, modules and subclasses exactly, for every import that succeeds; inheritance is that of the bases listed in the class statements (C61). Refuted for C++ inheritance through a class that is not bound. C84_module_name: the module has the name of --root-module."
  },
  {
   "property": "C85",
   "status": "proved",
   "theorems": [
    "Binder.C85_same_module",
    "Binder.C85_same_end",
    "Binder.C85_same_code",
    "Binder.C85_same_headers"
   ],
   "note": "Same statements, modules and import (C85_same_module), same kind of end (C85_same_end), same headers (C85_same_headers, for -include entries without blanks), same code apart from comments (C85_same_code, for programs whose names and types have no line ends in them, as C++ demands)."
  },
  {
   "property": "C86",
   "status": "proved",
   "theorems": [
    "Binder.C86_reached",
    "Binder.C86_module",
    "Binder.C86_files"
   ],
   "note": "C86_reached: declarations. C86_module: sources, names of the imported module, modules, subclasses. C86_files: what editing the lines of a configuration file does to the requests. The run with more requests has to return: contradictory requests end it with an exception."
  },
  {
   "property": "C87",
   "status": "proved",
   "theorems": [
    "Binder.C87_unclear",
    "Binder.C87_answers",
    "Binder.C87_contradiction",
    "Binder.C87_succeeds",
    "Binder.C87_no_directory",
    "Binder.C87_no_prefix",
    "Binder.C87_from_file"
   ],
   "note": "C87_unclear: exactly when a query has no answer. C87_answers: it always has one for agreeing requests, so the simplification of queries inside the generator (`answer`) is harmless there. C87_contradiction: the failing case. C87_succeeds: sufficient conditions for success. C87_no_directory, C87_no_prefix: missing output directory, missing option. C87_from_file: the condition in terms of the lines of the file."
  },
  {
   "property": "C88",
   "status": "proved",
   "theorems": [
    "Binder.C88_reached",
    "Binder.C88_module"
   ],
   "note": "C88_reached: declarations, for programs in which declarations of the same name say the same. C88_module: sources, names of the imported module, modules, subclasses, for programs in which no two declarations have the same name. The declarations of the first program have to mean the same in the second (a header that completes a class changes it)."
  },
  {
   "property": "C89",
   "status": "proved",
   "theorems": [
    "Binder.C89_old_or_begun",
    "Binder.C89_recovers",
    "Binder.C89_recovers_whole",
    "Binder.C89_failed_runs",
    "Binder.C89_ends",
    "Binder.C89_sources_before_list",
    "Binder.C89_root_module_last"
   ],
   "note": "For distinct file names (as C20), and list files that are not directories. The files of a run are those of the complete run (big-step model of C69-C76); the small steps are tied to it by C89_recovers, and for runs that fail by C89_failed_runs. C89_root_module_last: the root module is completed last, so both list files can be complete while the root module is empty. `mkdir -p`, reading an old file and opening a file are one operation each."
  },
  {
   "property": "C90",
   "status": "proved",
   "theorems": [
    "Binder.C90_no_failure",
    "Binder.C90_as_if_alone",
    "Binder.C90_old_or_begun",
    "Binder.C90_ends",
    "Binder.C90_progress",
    "Binder.C90_flat",
    "Binder.C90_named_after_headers"
   ],
   "note": "For distinct file names (as C20), and list files that are not directories. C90_named_after_headers: without --flat two modules for the same headers in one directory write the same sources, even one after the other, so the condition on files is needed. Paths are compared as texts."
  },
  {
   "property": "C91",
   "status": "partial",
   "theorems": [
    "Binder.C91_call_partial",
    "Binder.C91_self_false",
    "Binder.C91_function_parameter_false",
    "Binder.C91_template_false",
    "Binder.C91_construct_partial"
   ],
   "note": "For functions and methods (C91_call_partial) and constructors (C91_construct_partial). Refuted: a method parameter named self cannot be given by keyword; default arguments of functions with a function parameter must be given; the lambda for fewer arguments of a template instance calls the template without its arguments."
  },
  {
   "property": "C92",
   "status": "partial",
   "theorems": [
    "Binder.C92_text_partial",
    "Binder.C92_same_line",
    "Binder.C92_function_partial",
    "Binder.C92_class",
    "Binder.C92_enum",
    "Binder.C92_command_false",
    "Binder.C92_variadic_false",
    "Binder.C92_constructor_false"
   ],
   "note": "C92_text_partial, C92_same_line, C92_function_partial, C92_class, C92_enum. Refuted: what commands say (C92_command_false), functions with ... (C92_variadic_false), constructors (C92_constructor_false)."
  },
  {
   "property": "C93",
   "status": "partial",
   "theorems": [
    "Binder.C93_functions",
    "Binder.C93_methods",
    "Binder.C93_call_partial",
    "Binder.C93_inherited"
   ],
   "note": "Partial for the reasons of C91: parameters named `self`, functions that take functions, template instances. Constructors and `__str__` are covered by C60/C91 and C52 and are left out here. Assumed: the module can be imported, the name is not also that of a class, property or enumerator in the same scope."
  },
  {
   "property": "C94",
   "status": "partial",
   "theorems": [
    "Binder.C94_construct_partial",
    "Binder.C94_copy_false"
   ],
   "note": "Partial because of copies of classes with a callback structure that are not abstract (`C94_copy_false`, DESIGN.md section 4). Assumed: the module can be imported, no method or property of the class is named `__init__`."
  },
  {
   "property": "C95",
   "status": "partial",
   "theorems": [
    "Binder.C95_override_partial",
    "Binder.C95_const_false",
    "Binder.C95_private_false"
   ],
   "note": "Partial: `const` functions next to one that differs only in not being `const` and private virtual functions are not overridden (DESIGN.md section 4). Assumed: function can be bound and is not skipped, no function with its signature in the hierarchy is `final`, no custom trampoline. Conversion of values, results and exceptions from Python are left out."
  },
  {
   "property": "C96",
   "status": "partial",
   "theorems": [
    "Binder.C96_order",
    "Binder.C96_hides",
    "Binder.C96_lookup_partial",
    "Binder.C96_unbound_base_false"
   ],
   "note": "Partial: if a base is not bound, a name may be found in a class whose declaration is hidden in C++ (DESIGN.md section 4). Names are those of bound declarations; the import is assumed to succeed (C81)."
  },
  {
   "property": "C97",
   "status": "partial",
   "theorems": [
    "Binder.C97_slots",
    "Binder.C97_field_partial",
    "Binder.C97_hidden_false"
   ],
   "note": "Partial: fields of bases of template specialisations replace fields of the same name (DESIGN.md section 4). Assumed: no field of an anonymous class and nothing else in the Python class has the name; the name of the class does not end with a parenthesis."
  },
  {
   "property": "C98",
   "status": "partial",
   "theorems": [
    "Binder.C98_words_partial",
    "Binder.C98_words_false"
   ],
   "note": "C98_words_partial: if the C++ names are words of Python (and template arguments have only the characters named), all names in the module are. C98_words_false: a data member `from` becomes an attribute that cannot be written, and `Signal<void (int)>` becomes a class named `Signal_void_(int)_t`. Missing: user-defined literals, whose name has quotation marks; class names that contain `nullptr_t`."
  },
  {
   "property": "C99",
   "status": "partial",
   "theorems": [
    "Binder.C99_modules",
    "Binder.C99_dotted_partial",
    "Binder.C99_kinds",
    "Binder.C99_taken_false"
   ],
   "note": "C99_modules: the submodules. C99_dotted_partial: classes, member classes, enumerations, enumerators, functions, if the names on the path are not taken by something else and different namespaces get different Python names. C99_kinds: agreement with the interpreter of C81/C84. C99_taken_false: a data member takes the name of an enumeration in the same class. Missing: functions of the user, which are trusted not to change names; what an attribute of a base class stands for is C96."
  },
  {
   "property": "C100",
   "status": "partial",
   "theorems": [
    "Binder.C100_functions",
    "Binder.C100_operators_partial",
    "Binder.C100_without",
    "Binder.C100_free_false",
    "Binder.C100_swapped_false"
   ],
   "note": "C100_operators_partial: the expressions reach the method in the class where C++ finds the operator, for classes all of whose bases are bound. C100_functions: this method is made of just the bound member operators with the same symbol and number of operands. C100_without: without one, TypeError, but == and != compare identities. C100_free_false: operators that are not members are never bound. C100_swapped_false: a == b where the class of b is derived from that of a. Missing: operators that Python has no table entry for (<, >, ++, ->, ...; C40_unsupported), what the functions return."
  },
  {
   "property": "C101",
   "status": "partial",
   "theorems": [
    "Binder.C101_destroyed_once",
    "Binder.C101_no_dangling",
    "Binder.C101_no_leak",
    "Binder.C101_both_false",
    "Binder.C101_default_false"
   ],
   "note": "C101_destroyed_once, C101_no_dangling, C101_no_leak: each part holds for all histories exactly if the configuration fits. C101_both_false: no configuration fits modules with two methods that return pointers, one of which gives the object away. C101_default_false: the default configuration does not fit a method that returns a pointer to a part of its object. Missing: std::shared_ptr and std::unique_ptr as return types, functions that take ownership of arguments, holder types that do not destroy, memory that is used again."
  },
  {
   "property": "C102",
   "status": "partial",
   "theorems": [
    "Binder.C102_selected_partial",
    "Binder.C102_ambiguous_false",
    "Binder.C102_copy_false",
    "Binder.C102_constructors_partial"
   ],
   "note": "C102_selected_partial gives the exact condition, for every lambda of every bindable function and every set of functions with its name; C102_constructors_partial the same for the lambdas of constructors. C102_ambiguous_false: `int f(int); int f(int, int = 0);`. C102_copy_false: `int f(A, int = 0)` with a class that can only be moved. Missing: function templates (see C91_template_false for instances of templates), access, constructors with all arguments, for which pybind11 makes the call."
  },
  {
   "property": "C103",
   "status": "partial",
   "theorems": [
    "Binder.C103_fallback_partial",
    "Binder.C103_ambiguous_false",
    "Binder.C103_copy_false",
    "Binder.C103_class_name_partial",
    "Binder.C103_class_name_false"
   ],
   "note": "C103_fallback_partial gives the exact condition, for every function of every callback structure and every set of functions with its name. C103_ambiguous_false: `virtual int f(int); int f(int, int = 0);`. C103_copy_false: `virtual int f(B)` with a class that can only be moved. C103_class_name_partial: the class name before `::` is found if no other class in the hierarchy has it; C103_class_name_false: two bases of the same name. Missing: custom trampolines, parameters that are functions, function templates, typedefs that hide the class name."
  },
  {
   "property": "C104",
   "status": "partial",
   "theorems": [
    "Binder.C104_address_partial",
    "Binder.C104_qualifier_false",
    "Binder.C104_result_partial",
    "Binder.C104_result_false",
    "Binder.C104_typedef_false"
   ],
   "note": "C104_address_partial: the address stands for the function exactly if it has no `volatile`, `&`, `&&`. C104_qualifier_false: `int f() &; int f() &&;`. C104_result_partial, C104_result_false, C104_typedef_false: the text of the cast is a C++ type if the type of the result is written before the name; results that are references to functions, or to arrays by a typedef, are accepted. Missing: member pointers as results, function templates called without arguments."
  },
  {
   "property": "C105",
   "status": "partial",
   "theorems": [
    "Binder.C105_address_partial",
    "Binder.C105_bits_false",
    "Binder.C105_unnamed_false"
   ],
   "note": "C105_address_partial: the address is valid exactly if the member has a name and is no bit-field. C105_bits_false, C105_unnamed_false: bit-fields are bound. Missing: members of anonymous structures and unions (their names are in C62)."
  },
  {
   "property": "C106",
   "status": "partial",
   "theorems": [
    "Binder.C106_overrides_partial",
    "Binder.C106_qualifier_false",
    "Binder.C106_function_false"
   ],
   "note": "C106_overrides_partial: a function overrides the method exactly if the method has no `volatile`, `&`, `&&`; types are written before names unless they have function types, or typedefs of pointers and references in results. C106_qualifier_false, C106_function_false: programs. Exception specifications are in C59, final functions in C51."
  },
  {
   "property": "C107",
   "status": "partial",
   "theorems": [
    "Binder.C107_never_bound",
    "Binder.C107_objects_partial",
    "Binder.C107_bytearray_false"
   ],
   "note": "C107_never_bound: all runs. C107_objects_partial: pybind11's classes for Python objects except `bytearray` and `dtype`. C107_bytearray_false: a run that binds pybind11::bytearray."
  },
  {
   "property": "C108",
   "status": "partial",
   "theorems": [
    "Binder.C108_names_partial",
    "Binder.C108_prefix_false",
    "Binder.C108_internal_partial",
    "Binder.C108_internal_false"
   ],
   "note": "C108_names_partial: all listed names but those that begin with std::set_. C108_internal_partial: all listed internal headers but four. C108_prefix_false, C108_internal_false: the exceptions. The lists of the specification are trusted data."
  },
  {
   "property": "C109",
   "status": "partial",
   "theorems": [
    "Binder.C109_choice_partial",
    "Binder.C109_order_false",
    "Binder.C109_derived_false",
    "Binder.C109_const_false"
   ],
   "note": "C109_choice_partial: both choices agree if every function bound earlier either takes no common object or is the better one in C++. C109_order_false: they differ whenever a more general function is bound earlier; C109_derived_false and C109_const_false are concrete classes. Missing: arguments that are not objects of classes, keywords, C++ calls with user-defined conversions."
  },
  {
   "property": "C110",
   "status": "partial",
   "theorems": [
    "Binder.C110_named_partial",
    "Binder.C110_enum_false"
   ],
   "note": "C110_named_partial: functions, classes and nested classes in full; of an enumeration only its own name. C110_enum_false: an enumeration in an anonymous namespace, a function that takes it, and a template with an argument from there are all bound."
  },
  {
   "property": "C111",
   "status": "partial",
   "theorems": [
    "Binder.C111_import_partial",
    "Binder.C111_pointer_partial",
    "Binder.C111_shared",
    "Binder.C111_pointer_false",
    "Binder.C111_import_false",
    "Binder.C111_shipped_partial",
    "Binder.C111_shipped_false"
   ],
   "note": "C111_import_partial and C111_pointer_partial give the exact conditions; C111_shared: for classes that inherit from std::enable_shared_from_this in full. C111_pointer_false: a class with a protected destructor. C111_import_false: std::unique_ptr as configured holder and a base with a protected destructor. C111_shipped_partial: the exact conditions for the classes of the shipped vector and map binders; C111_shipped_false: another configured holder, and a function that takes such a smart pointer to a vector."
  },
  {
   "property": "C112",
   "status": "partial",
   "theorems": [
    "Binder.C112_old_names_partial",
    "Binder.C112_values_partial",
    "Binder.C112_block_false",
    "Binder.C112_anonymous_false",
    "Binder.C112_specialisation_false"
   ],
   "note": "C112_old_names_partial and C112_values_partial: for named contexts that are no explicit specialisations, with extern \"C\" only around all of them. C112_block_false, C112_anonymous_false and C112_specialisation_false: the other contexts."
  },
  {
   "property": "C113",
   "status": "partial",
   "theorems": [
    "Binder.C113_custom_partial",
    "Binder.C113_others",
    "Binder.C113_file_partial",
    "Binder.C113_inherited_false"
   ],
   "note": "C113_custom_partial and C113_file_partial: everything but the type of the object in the structures of derived classes; C113_others in full. C113_inherited_false: in the structure of a derived class the type given is the structure of the base."
  },
  {
   "property": "C114",
   "status": "partial",
   "theorems": [
    "Binder.C114_python",
    "Binder.C114_released_partial",
    "Binder.C114_kept",
    "Binder.C114_virtual_false",
    "Binder.C114_constructor_false"
   ],
   "note": "C114_python and C114_kept in full; C114_released_partial: unless a function of a callback structure is reached. C114_virtual_false: a virtual function that Python does not override runs its C++ code with the lock. C114_constructor_false: constructors are bound without the guard."
  },
  {
   "property": "C115",
   "status": "partial",
   "theorems": [
    "Binder.C115_registered_partial",
    "Binder.C115_clash_false"
   ],
   "note": "C115_registered_partial: name, address and documentation. C115_clash_false: the function operator_km of the same namespace gets the same name."
  },
  {
   "property": "C116",
   "status": "partial",
   "theorems": [
    "Binder.C116_included_partial",
    "Binder.C116_left_partial",
    "Binder.C116_function_false"
   ],
   "note": "C116_included_partial and C116_left_partial: everything converted by pybind11.h (except bytearray, see C107) and stl.h, and headers added by the user. C116_function_false: std::function and std::complex are left to pybind11 without the headers that convert them. The list of headers is trusted data."
  },
  {
   "property": "C117",
   "status": "partial",
   "theorems": [
    "Binder.C117_once_partial",
    "Binder.C117_both_false",
    "Binder.C117_reason_partial"
   ],
   "note": "C117_once_partial: the fixed part of each source includes stl.h exactly if the configuration adds it, whenever a container is bound and the configuration does not deny that Python has it. C117_reason_partial: the same for the whole head of the source, with the reason for each line for the headers of declarations (C76). C117_both_false: with +include <pybind11/stl.h>, or -python_builtin std::vector and --include-pybind11-stl, std::vector is bound and converted. The list of headers is trusted data."
  },
  {
   "property": "C118",
   "status": "partial",
   "theorems": [
    "Binder.C118_result_partial",
    "Binder.C118_union_false"
   ],
   "note": "C118_result_partial: names with or without const and enum, class, struct. C118_union_false: for unions the word stays."
  },
  {
   "property": "C119",
   "status": "partial",
   "theorems": [
    "Binder.C119_renamed_partial",
    "Binder.C119_nullptr_false",
    "Binder.C119_word_false",
    "Binder.C119_whole_partial"
   ],
   "note": "C119_renamed_partial: names without nullptr_t, multiset and wide streams. C119_whole_partial: names as clang prints them, before the containers get their short names: only whole names are replaced. C119_nullptr_false, C119_word_false: the replacements do not look for whole words."
  },
  {
   "property": "C120",
   "status": "proved",
   "theorems": [
    "Binder.C120_history",
    "Binder.C120_callable",
    "Binder.C120_rejected",
    "Binder.C120_outcome"
   ],
   "note": "C120_history, C120_callable, C120_rejected, C120_outcome. The members that pybind11::bind_vector adds are outside of the model, except for its clear."
  },
  {
   "property": "C121",
   "status": "partial",
   "theorems": [
    "Binder.C121_origin",
    "Binder.C121_annotation_partial",
    "Binder.C121_annotation_false",
    "Binder.C121_members_partial",
    "Binder.C121_nested"
   ],
   "note": "C121_origin is for all bindings of the sources, C121_nested for all classes registered, also inside of classes. C121_annotation_partial: the annotation of functions has the signature; missing is that it ends there, which is false (C121_annotation_false: the parameters follow a second time). C121_members_partial says the same of member functions and constructors."
  },
  {
   "property": "C122",
   "status": "proved",
   "theorems": [
    "Binder.C122_called"
   ],
   "note": "C122_called. That the text calls the function is read off the line; that the compiler finds a function of this name is the user's part."
  }
 ]
}