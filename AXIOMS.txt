'Binder.C01_binding_requested' depends on axioms: [propext, Classical.choice, Quot.sound]
'Binder.C01_skipping_requested' depends on axioms: [propext, Quot.sound]
'Binder.C02_exclusive' depends on axioms: [propext, Classical.choice, Quot.sound]
'Binder.C03_order_and_repetition' depends on axioms: [propext, Classical.choice, Quot.sound]
'Binder.C04_reread_partial' depends on axioms: [propext, Classical.choice, Quot.sound]
'Binder.C04_includes_code_false' does not depend on any axioms
'Binder.C05_lines' depends on axioms: [propext, Classical.choice, Quot.sound]
'Binder.C05_directive_shape' depends on axioms: [propext, Quot.sound]
'Binder.C05_accepted_iff' depends on axioms: [propext, Classical.choice, Quot.sound]
'Binder.C05_rejected' depends on axioms: [propext, Classical.choice, Quot.sound]
'Binder.C05_lists' depends on axioms: [propext, Classical.choice, Quot.sound]
'Binder.C05_maps' depends on axioms: [propext, Classical.choice, Quot.sound]
'Binder.C05_scalars' depends on axioms: [propext, Classical.choice, Quot.sound]
'Binder.C06_crlf' depends on axioms: [propext, Classical.choice, Quot.sound]
'Binder.C07_names_up_to_spaces_partial' depends on axioms: [propext, Classical.choice, Quot.sound]
'Binder.C07_names_up_to_spaces_false' does not depend on any axioms
'Binder.C08_exactly_nested_false' depends on axioms: [propext]
'Binder.C08_nested_partial' depends on axioms: [propext, Classical.choice, Quot.sound]
'Binder.C09_python_builtin' depends on axioms: [propext]
'Binder.C09_from_file' depends on axioms: [propext, Classical.choice, Quot.sound]
'Binder.C10_module_local' depends on axioms: [propext]
'Binder.C11_include_block' depends on axioms: [propext, Classical.choice, Quot.sound]
'Binder.C12_replace_loop' depends on axioms: [propext, Quot.sound]
'Binder.C12_replace_spec' depends on axioms: [propext, Classical.choice, Quot.sound]
'Binder.C12_substitution_total_unique' depends on axioms: [propext, Quot.sound]
'Binder.C12_replace_empty_diverges' depends on axioms: [propext, Quot.sound]
'Binder.C13_split_lines' depends on axioms: [propext, Classical.choice, Quot.sound]
'Binder.C13_lines_unique' depends on axioms: [propext, Classical.choice, Quot.sound]
'Binder.C13_split_join' depends on axioms: [propext, Classical.choice, Quot.sound]
'Binder.C13_split_multichar_false' does not depend on any axioms
'Binder.C14_indent_lines' depends on axioms: [propext, Classical.choice, Quot.sound]
'Binder.C14_unindent' depends on axioms: [propext, Classical.choice, Quot.sound]
'Binder.C15_trim' depends on axioms: [propext, Quot.sound]
'Binder.C15_trim_unique' depends on axioms: [propext, Quot.sound]
'Binder.C15_trim_idempotent' depends on axioms: [propext, Quot.sound]
'Binder.C16_base_last' depends on axioms: [propext, Quot.sound]
'Binder.C16_base_last_none' depends on axioms: [propext, Quot.sound]
'Binder.C16_base_shorter' depends on axioms: [propext, Quot.sound]
'Binder.C17_fix_boolean_types_loop' depends on axioms: [propext, Classical.choice, Quot.sound]
'Binder.C17_idempotent' depends on axioms: [propext, Quot.sound]
'Binder.C17_identity' depends on axioms: [propext, Quot.sound]
'Binder.C17_whole_identifier_false' depends on axioms: [propext]
'Binder.C17_whole_identifier_partial' depends on axioms: [propext, Quot.sound]
'Binder.C18_docstring_roundtrip' depends on axioms: [propext, Quot.sound]
'Binder.C18_docstring_injective' depends on axioms: [propext, Quot.sound]
'Binder.C19_no_separators' depends on axioms: [propext]
'Binder.C19_template_names' depends on axioms: [propext, Classical.choice, Quot.sound]
'Binder.C19_other_characters_kept' depends on axioms: [propext, Quot.sound]
'Binder.C19_no_doubled_underscore' depends on axioms: [propext, Quot.sound]
'Binder.C19_plain_unchanged' depends on axioms: [propext, Quot.sound]
'Binder.C19_injective_false' does not depend on any axioms
'Binder.C19_identifier_false' depends on axioms: [propext]
'Binder.C19_identifier_partial' depends on axioms: [propext, Classical.choice, Quot.sound]
'Binder.C20_update' depends on axioms: [propext, Quot.sound]
'Binder.C20_directory' depends on axioms: [propext, Classical.choice, Quot.sound]
'Binder.C20_second_run_writes_nothing' depends on axioms: [propext, Quot.sound]
'Binder.C20_texts_not_empty' depends on axioms: [propext, Classical.choice, Quot.sound]
'Binder.C21_names_safe' depends on axioms: [propext, Classical.choice, Quot.sound]
'Binder.C21_names_flat' depends on axioms: [propext, Classical.choice, Quot.sound]
'Binder.C22_flat_distinct' depends on axioms: [propext, Classical.choice, Quot.sound]
'Binder.C22_headers_partial' depends on axioms: [propext, Classical.choice, Quot.sound]
'Binder.C22_split_collides_false' depends on axioms: [propext]
'Binder.C22_slash_collides_false' depends on axioms: [propext]
'Binder.C22_root_collides_false' depends on axioms: [propext]
'Binder.C23_registered' depends on axioms: [propext, Classical.choice, Quot.sound]
'Binder.C23_no_repetition' depends on axioms: [propext, Quot.sound]
'Binder.C23_complete' depends on axioms: [propext, Classical.choice, Quot.sound]
'Binder.C23_offer_again' depends on axioms: [propext, Classical.choice, Quot.sound]
'Binder.C23_type_lookup' depends on axioms: [propext, Quot.sound]
'Binder.C24_least_closure' depends on axioms: [propext, Classical.choice, Quot.sound]
'Binder.C25_class_text' depends on axioms: [propext, Classical.choice, Quot.sound]
'Binder.C25_terminates' depends on axioms: [propext, Classical.choice, Quot.sound]
'Binder.C25_once' depends on axioms: [propext, Classical.choice, Quot.sound]
'Binder.C25_function_text' depends on axioms: [propext]
'Binder.C25_enum_text' depends on axioms: [propext]
'Binder.C26_order_independent' depends on axioms: [propext, Classical.choice, Quot.sound]
'Binder.C27_never_pulled_in' depends on axioms: [propext, Classical.choice, Quot.sound]
'Binder.C28_permutation' depends on axioms: [propext, Classical.choice, Quot.sound]
'Binder.C29_bases_first' depends on axioms: [propext, Classical.choice, Quot.sound]
'Binder.C29_own_base_first' depends on axioms: [propext, Classical.choice, Quot.sound]
'Binder.C30_terminates' depends on axioms: [propext, Classical.choice, Quot.sound]
'Binder.C30_exit_only_if_missing' depends on axioms: [propext, Classical.choice, Quot.sound]
'Binder.C30_missing_is_fatal' depends on axioms: [propext, Classical.choice, Quot.sound]
'Binder.C30_cycle_diverges' depends on axioms: [propext, Classical.choice, Quot.sound]
'Binder.C31_emitted_once_in_order' depends on axioms: [propext, Classical.choice, Quot.sound]
'Binder.C31_text_of_file' depends on axioms: [propext, Classical.choice, Quot.sound]
'Binder.C32_terminates' depends on axioms: [propext, Classical.choice, Quot.sound]
'Binder.C32_zero_diverges' depends on axioms: [propext, Classical.choice, Quot.sound]
'Binder.C33_namespace_binder' depends on axioms: [propext, Classical.choice, Quot.sound]
'Binder.C33_add_on_partial' depends on axioms: [propext, Classical.choice, Quot.sound]
'Binder.C33_calls_in_own_files' depends on axioms: [propext, Classical.choice, Quot.sound]
'Binder.C33_both_false' depends on axioms: [propext]
'Binder.C34_one_namespace' depends on axioms: [propext, Classical.choice, Quot.sound]
'Binder.C34_size' depends on axioms: [propext, Classical.choice, Quot.sound]
'Binder.C35_modules_created' depends on axioms: [propext, Classical.choice, Quot.sound]
'Binder.C35_lookups_succeed' depends on axioms: [propext, Classical.choice, Quot.sound]
'Binder.C36_bases_registered_partial' depends on axioms: [propext, Classical.choice, Quot.sound]
'Binder.C36_import_succeeds_partial' depends on axioms: [propext, Classical.choice, Quot.sound]
'Binder.C36_builtin_base_false' depends on axioms: [propext]
'Binder.C36_namespace_binder_false' depends on axioms: [propext]
'Binder.C37_sources_file' depends on axioms: [propext, Classical.choice, Quot.sound]
'Binder.C37_functions' depends on axioms: [propext, Classical.choice, Quot.sound]
'Binder.C37_definitions' depends on axioms: [propext, Classical.choice, Quot.sound]
'Binder.C38_namespaces' depends on axioms: [propext, Classical.choice, Quot.sound]
'Binder.C38_sorted' depends on axioms: [propext, Classical.choice, Quot.sound]
'Binder.C38_modules_file' depends on axioms: [propext, Quot.sound]
'Binder.C38_dotted' depends on axioms: [propext, Quot.sound]
'Binder.C39_traces_distinct' depends on axioms: [propext, Classical.choice, Quot.sound]
'Binder.C39_traces_in_order' depends on axioms: [propext, Classical.choice, Quot.sound]
'Binder.C39_traced' depends on axioms: [propext, Classical.choice, Quot.sound]
'Binder.C40_special' depends on axioms: [propext]
'Binder.C40_call' depends on axioms: [propext]
'Binder.C40_other' depends on axioms: [propext]
'Binder.C40_unsupported' depends on axioms: [propext, Classical.choice, Quot.sound]
'Binder.C40_distinct_partial' depends on axioms: [propext, Classical.choice, Quot.sound]
'Binder.C40_address_of_false' depends on axioms: [propext]
'Binder.C41_overloads' depends on axioms: [propext, Classical.choice, Quot.sound]
'Binder.C41_min_arity_exists' depends on axioms: [propext, Classical.choice, Quot.sound]
'Binder.C42_keywords' depends on axioms: [propext, Classical.choice, Quot.sound]
'Binder.C43_policy' depends on axioms: [propext, Quot.sound]
'Binder.C43_rvalue_false' depends on axioms: [propext]
'Binder.C44_skip_entries' depends on axioms: [propext, Quot.sound]
'Binder.C44_skip_otherwise' depends on axioms: [propext, Quot.sound]
'Binder.C44_skip_error' depends on axioms: [propext, Quot.sound]
'Binder.C44_skip_from_file' depends on axioms: [propext, Classical.choice, Quot.sound]
'Binder.C44_bind_partial' depends on axioms: [propext, Quot.sound]
'Binder.C44_bind_inline_namespace_false' depends on axioms: [propext]
'Binder.C44_typedef_pointer_false' depends on axioms: [propext]
'Binder.C45_skip_entries' depends on axioms: [propext, Quot.sound]
'Binder.C45_skip_otherwise' depends on axioms: [propext, Quot.sound]
'Binder.C45_bind' depends on axioms: [propext, Quot.sound]
'Binder.C45_skipped_argument' depends on axioms: [propext, Quot.sound]
'Binder.C45_skip_from_file' depends on axioms: [propext, Classical.choice, Quot.sound]
'Binder.C45_skip_enum' depends on axioms: [propext]
'Binder.C46_class_partial' depends on axioms: [propext, Quot.sound]
'Binder.C46_class_plain' depends on axioms: [propext]
'Binder.C46_class_false' depends on axioms: [propext]
'Binder.C46_function' depends on axioms: [propext, Classical.choice, Quot.sound]
'Binder.C46_function_plain' depends on axioms: [propext]
'Binder.C46_balanced' depends on axioms: [propext, Quot.sound]
'Binder.C47_classes' depends on axioms: [propext]
'Binder.C47_functions_partial' depends on axioms: [propext, Quot.sound]
'Binder.C47_fields' depends on axioms: [propext]
'Binder.C47_return_typedef_false' depends on axioms: [propext]
'Binder.C47_template_argument_false' depends on axioms: [propext]
'Binder.C47_enclosing_false' depends on axioms: [propext]
'Binder.C48_base_defaults' depends on axioms: [propext, Classical.choice, Quot.sound]
'Binder.C48_constructors_partial' depends on axioms: [propext, Quot.sound]
'Binder.C48_methods' depends on axioms: [propext, Classical.choice, Quot.sound]
'Binder.C48_not_deleted' depends on axioms: [propext, Classical.choice, Quot.sound]
'Binder.C48_fields' depends on axioms: [propext, Classical.choice, Quot.sound]
'Binder.C48_enums' depends on axioms: [propext, Classical.choice, Quot.sound]
'Binder.C48_nested_skip_false' depends on axioms: [propext, Classical.choice, Quot.sound]
'Binder.C48_inherited_access_false' depends on axioms: [propext, Quot.sound]
'Binder.C48_inherited_skip_false' depends on axioms: [propext, Classical.choice, Quot.sound]
'Binder.C48_deleted_default_false' depends on axioms: [propext, Quot.sound]
'Binder.C49_overrides_partial' depends on axioms: [propext, Classical.choice, Quot.sound]
'Binder.C49_const_overload_false' depends on axioms: [propext, Quot.sound]
'Binder.C49_final_false' depends on axioms: [propext, Quot.sound]
'Binder.C50_distinct_partial' depends on axioms: [propext, Classical.choice, Quot.sound]
'Binder.C50_signatures_partial' depends on axioms: [propext, Quot.sound]
'Binder.C50_signature_false' depends on axioms: [propext, Classical.choice, Quot.sound]
'Binder.C51_final_overrider_partial' depends on axioms: [propext, Quot.sound]
'Binder.C51_two_bases_false' depends on axioms: [propext, Classical.choice, Quot.sound]
'Binder.C51_source' depends on axioms: [propext, Quot.sound]
'Binder.C51_most_derived_partial' depends on axioms: [propext, Quot.sound]
'Binder.C51_forwards' depends on axioms: [propext, Classical.choice, Quot.sound]
'Binder.C51_final' depends on axioms: [propext, Quot.sound]
'Binder.C51_private_false' depends on axioms: [propext, Classical.choice, Quot.sound]
'Binder.C51_diamond_false' depends on axioms: [propext, Classical.choice, Quot.sound]
'Binder.C51_final_false' depends on axioms: [propext, Classical.choice, Quot.sound]
'Binder.C52_constructors' depends on axioms: [propext, Classical.choice, Quot.sound]
'Binder.C52_default_constructor' depends on axioms: [propext, Classical.choice, Quot.sound]
'Binder.C52_copy_constructor_partial' depends on axioms: [propext, Classical.choice, Quot.sound]
'Binder.C52_copy_default_false' depends on axioms: [propext, Classical.choice, Quot.sound]
'Binder.C53_values' depends on axioms: [propext, Quot.sound]
'Binder.C53_exports_partial' depends on axioms: [propext, Quot.sound]
'Binder.C53_enum_struct_false' depends on axioms: [propext]
'Binder.C54_terminates' depends on axioms: [propext, Classical.choice, Quot.sound]
'Binder.C54_exact' depends on axioms: [propext, Classical.choice, Quot.sound]
'Binder.C55_cache_transparent' depends on axioms: [propext, Classical.choice, Quot.sound]
'Binder.C55_tables_right' depends on axioms: [propext, Classical.choice, Quot.sound]
'Binder.C55_names_every_unit' depends on axioms: [propext, Classical.choice, Quot.sound]
'Binder.C55_second_unit_false' depends on axioms: [propext, Classical.choice, Quot.sound]
'Binder.C56_false' depends on axioms: [propext]
'Binder.C56_nullptr_false' depends on axioms: [propext]
'Binder.C56_stable_partial' depends on axioms: [propext, Classical.choice, Quot.sound]
'Binder.C56_outside_std_partial' depends on axioms: [propext, Classical.choice, Quot.sound]
'Binder.C56_normal_partial' depends on axioms: [propext, Classical.choice, Quot.sound]
'Binder.C56_bool_false' depends on axioms: [propext, Classical.choice, Quot.sound]
'Binder.C56_program_false' depends on axioms: [propext]
'Binder.C56_program_partial' depends on axioms: [propext, Classical.choice, Quot.sound]
'Binder.C57_functions_partial' depends on axioms: [propext, Quot.sound]
'Binder.C57_classes_partial' depends on axioms: [propext, Classical.choice, Quot.sound]
'Binder.C57_only_mentioned' depends on axioms: [propext]
'Binder.C57_template_argument_false' depends on axioms: [propext, Classical.choice, Quot.sound]
'Binder.C57_parameter_typedef_false' depends on axioms: [propext]
'Binder.C57_field_false' depends on axioms: [propext, Classical.choice, Quot.sound]
'Binder.C58_begins_with' depends on axioms: [propext, Quot.sound]
'Binder.C58_ends_with' depends on axioms: [propext, Quot.sound]
'Binder.C59_exceptions_partial' depends on axioms: [propext]
'Binder.C59_noexcept_true_false' depends on axioms: [propext]
'Binder.C59_noexcept_false_false' depends on axioms: [propext]
'Binder.C60_keywords_partial' depends on axioms: [propext, Classical.choice, Quot.sound]
'Binder.C60_callback_false' depends on axioms: [propext, Classical.choice, Quot.sound]
'Binder.C61_class_statement' depends on axioms: [propext, Quot.sound]
'Binder.C61_bases_requested' depends on axioms: [propext, Classical.choice, Quot.sound]
'Binder.C62_readonly_partial' depends on axioms: [propext, Classical.choice, Quot.sound]
'Binder.C62_sugar_false' depends on axioms: [propext, Classical.choice, Quot.sound]
'Binder.C63_str' depends on axioms: [propext, Classical.choice, Quot.sound]
'Binder.C63_only_partial' depends on axioms: [propext, Classical.choice, Quot.sound]
'Binder.C63_template_false' depends on axioms: [propext, Classical.choice, Quot.sound]
'Binder.C63_unit' depends on axioms: [propext, Classical.choice, Quot.sound]
'Binder.C64_nested' depends on axioms: [propext, Classical.choice, Quot.sound]
'Binder.C65_holder_partial' depends on axioms: [propext, Quot.sound]
'Binder.C65_shared_holder' depends on axioms: [propext, Quot.sound]
'Binder.C65_shared_false' depends on axioms: [propext, Classical.choice, Quot.sound]
'Binder.C66_at_most_one' depends on axioms: [propext, Classical.choice, Quot.sound]
'Binder.C66_form' depends on axioms: [propext, Classical.choice, Quot.sound]
'Binder.C66_own_header' depends on axioms: [propext, Classical.choice, Quot.sound]
'Binder.C66_no_header' depends on axioms: [propext, Classical.choice, Quot.sound]
'Binder.C67_functions' depends on axioms: [propext, Classical.choice, Quot.sound]
'Binder.C67_classes_partial' depends on axioms: [propext, Classical.choice, Quot.sound]
'Binder.C67_inherited_false' depends on axioms: [propext, Classical.choice, Quot.sound]
'Binder.C67_nested_false' depends on axioms: [propext, Classical.choice, Quot.sound]
'Binder.C68_dispatch' depends on axioms: [propext, Classical.choice, Quot.sound]
'Binder.C69_exactly_once' depends on axioms: [propext, Classical.choice, Quot.sound]
'Binder.C70_terminates' depends on axioms: [propext, Classical.choice, Quot.sound]
'Binder.C70_deterministic' depends on axioms: [propext, Classical.choice, Quot.sound]
'Binder.C70_zero_false' depends on axioms: [propext, Classical.choice, Quot.sound]
'Binder.C71_exit_only_if_missing' depends on axioms: [propext, Classical.choice, Quot.sound]
'Binder.C71_missing_exits' depends on axioms: [propext, Classical.choice, Quot.sound]
'Binder.C71_nested_base_false' depends on axioms: [propext, Classical.choice, Quot.sound]
'Binder.C72_failed_run_partial' depends on axioms: [propext, Classical.choice, Quot.sound]
'Binder.C72_root_lost_false' depends on axioms: [propext, Classical.choice, Quot.sound]
'Binder.C73_last_file_partial' depends on axioms: [propext, Classical.choice, Quot.sound]
'Binder.C73_several_false' depends on axioms: [propext, Classical.choice, Quot.sound]
'Binder.C74_repeat' depends on axioms: [propext, Classical.choice, Quot.sound]
'Binder.C75_bases_first_partial' depends on axioms: [propext, Classical.choice, Quot.sound]
'Binder.C75_nested_false' depends on axioms: [propext, Classical.choice, Quot.sound]
'Binder.C76_headers' depends on axioms: [propext, Classical.choice, Quot.sound]
'Binder.C76_only' depends on axioms: [propext, Classical.choice, Quot.sound]
'Binder.C77_leftmost_longest' depends on axioms: [propext, Quot.sound]
'Binder.C77_terminates' depends on axioms: [propext, Classical.choice, Quot.sound]
'Binder.C77_other_names' depends on axioms: [propext, Quot.sound]
'Binder.C77_stable' depends on axioms: [propext, Classical.choice, Quot.sound]
'Binder.C77_defaults_partial' depends on axioms: [propext, Classical.choice, Quot.sound]
'Binder.C77_streams_partial' depends on axioms: [propext, Quot.sound]
'Binder.C77_multiset_false' depends on axioms: [propext, Quot.sound]
'Binder.C77_wide_false' depends on axioms: [propext, Quot.sound]
'Binder.C77_balanced_false' depends on axioms: [propext, Quot.sound]
'Binder.C77_other_class_false' depends on axioms: [propext, Quot.sound]
'Binder.C77_containers_partial' depends on axioms: [propext, Quot.sound]
'Binder.C77_elements_partial' depends on axioms: [propext, Classical.choice, Quot.sound]
'Binder.C77_nested_partial' depends on axioms: [propext, Classical.choice, Quot.sound]
'Binder.C78_simplify_chars' depends on axioms: [propext, Classical.choice, Quot.sound]
'Binder.C78_plain_names' depends on axioms: [propext, Classical.choice, Quot.sound]
'Binder.C78_well_formed_partial' depends on axioms: [propext, Classical.choice, Quot.sound]
'Binder.C78_char_argument_false' depends on axioms: [propext, Classical.choice, Quot.sound]
'Binder.C78_simplified_false' depends on axioms: [propext, Classical.choice, Quot.sound]
'Binder.C79_order_independent' depends on axioms: [propext, Classical.choice, Quot.sound]
'Binder.C80_options_are_lines' depends on axioms: [propext, Classical.choice, Quot.sound]
'Binder.C80_words_needed' does not depend on any axioms
'Binder.C81_calls' depends on axioms: [propext, Classical.choice, Quot.sound]
'Binder.C81_import_partial' depends on axioms: [propext, Classical.choice, Quot.sound]
'Binder.C81_needed' depends on axioms: [propext, Classical.choice, Quot.sound]
'Binder.C81_same_name_false' depends on axioms: [propext, Classical.choice, Quot.sound]
'Binder.C81_static_false' depends on axioms: [propext, Classical.choice, Quot.sound]
'Binder.C81_diamond_false' depends on axioms: [propext, Classical.choice, Quot.sound]
'Binder.C81_member_binder_false' depends on axioms: [propext, Classical.choice, Quot.sound]
'Binder.C81_hidden_field_false' depends on axioms: [propext, Classical.choice, Quot.sound]
'Binder.C82_statement' depends on axioms: [propext, Classical.choice, Quot.sound]
'Binder.C82_default_map_partial' depends on axioms: [propext, Classical.choice, Quot.sound]
'Binder.C82_distinct_maps_partial' depends on axioms: [propext, Classical.choice, Quot.sound]
'Binder.C82_vector_partial' depends on axioms: [propext, Quot.sound]
'Binder.C82_template_key_false' depends on axioms: [propext]
'Binder.C82_underscore_false' depends on axioms: [propext]
'Binder.C82_same_vector_name_false' depends on axioms: [propext]
'Binder.C82_same_map_name_false' depends on axioms: [propext]
'Binder.C82_pointer_false' depends on axioms: [propext]
'Binder.C83_same_module' depends on axioms: [propext, Classical.choice, Quot.sound]
'Binder.C83_same_end' depends on axioms: [propext, Classical.choice, Quot.sound]
'Binder.C84_module_name' depends on axioms: [propext, Classical.choice, Quot.sound]
'Binder.C84_names' depends on axioms: [propext, Classical.choice, Quot.sound]
'Binder.C84_functions' depends on axioms: [propext, Classical.choice, Quot.sound]
'Binder.C84_subclass' depends on axioms: [propext, Classical.choice, Quot.sound]
'Binder.C84_inherited' depends on axioms: [propext, Classical.choice, Quot.sound]
'Binder.C84_modules' depends on axioms: [propext, Classical.choice, Quot.sound]
'Binder.C84_skipped_base_false' depends on axioms: [propext, Classical.choice, Quot.sound]
'Binder.C85_same_module' depends on axioms: [propext, Classical.choice, Quot.sound]
'Binder.C85_same_end' depends on axioms: [propext, Classical.choice, Quot.sound]
'Binder.C85_same_code' depends on axioms: [propext, Classical.choice, Quot.sound]
'Binder.C85_same_headers' depends on axioms: [propext, Classical.choice, Quot.sound]
'Binder.C86_reached' depends on axioms: [propext, Classical.choice, Quot.sound]
'Binder.C86_module' depends on axioms: [propext, Classical.choice, Quot.sound]
'Binder.C86_files' depends on axioms: [propext, Classical.choice, Quot.sound]
'Binder.C87_unclear' depends on axioms: [propext, Quot.sound]
'Binder.C87_answers' depends on axioms: [propext, Classical.choice, Quot.sound]
'Binder.C87_contradiction' depends on axioms: [propext, Classical.choice, Quot.sound]
'Binder.C87_succeeds' depends on axioms: [propext, Classical.choice, Quot.sound]
'Binder.C87_no_directory' depends on axioms: [propext, Classical.choice, Quot.sound]
'Binder.C87_no_prefix' depends on axioms: [propext, Classical.choice, Quot.sound]
'Binder.C87_from_file' depends on axioms: [propext, Classical.choice, Quot.sound]
'Binder.C88_reached' depends on axioms: [propext, Classical.choice, Quot.sound]
'Binder.C88_module' depends on axioms: [propext, Classical.choice, Quot.sound]
'Binder.C89_old_or_begun' depends on axioms: [propext, Classical.choice, Quot.sound]
'Binder.C89_recovers' depends on axioms: [propext, Classical.choice, Quot.sound]
'Binder.C89_recovers_whole' depends on axioms: [propext, Classical.choice, Quot.sound]
'Binder.C89_failed_runs' depends on axioms: [propext, Classical.choice, Quot.sound]
'Binder.C89_ends' depends on axioms: [propext, Classical.choice, Quot.sound]
'Binder.C89_sources_before_list' depends on axioms: [propext, Classical.choice, Quot.sound]
'Binder.C89_root_module_last' depends on axioms: [propext, Classical.choice, Quot.sound]
'Binder.C90_no_failure' depends on axioms: [propext, Classical.choice, Quot.sound]
'Binder.C90_as_if_alone' depends on axioms: [propext, Classical.choice, Quot.sound]
'Binder.C90_old_or_begun' depends on axioms: [propext, Classical.choice, Quot.sound]
'Binder.C90_ends' depends on axioms: [propext, Classical.choice, Quot.sound]
'Binder.C90_progress' depends on axioms: [propext, Classical.choice, Quot.sound]
'Binder.C90_flat' depends on axioms: [propext, Classical.choice, Quot.sound]
'Binder.C90_named_after_headers' depends on axioms: [propext, Classical.choice, Quot.sound]
'Binder.C91_call_partial' depends on axioms: [propext, Classical.choice, Quot.sound]
'Binder.C91_self_false' depends on axioms: [propext]
'Binder.C91_function_parameter_false' depends on axioms: [propext]
'Binder.C91_template_false' depends on axioms: [propext]
'Binder.C91_construct_partial' depends on axioms: [propext, Classical.choice, Quot.sound]
'Binder.C92_text_partial' depends on axioms: [propext, Classical.choice, Quot.sound]
'Binder.C92_same_line' depends on axioms: [propext]
'Binder.C92_function_partial' depends on axioms: [propext, Quot.sound]
'Binder.C92_class' depends on axioms: [propext, Quot.sound]
'Binder.C92_enum' depends on axioms: [propext, Quot.sound]
'Binder.C92_command_false' does not depend on any axioms
'Binder.C92_variadic_false' depends on axioms: [propext, Quot.sound]
'Binder.C92_constructor_false' depends on axioms: [propext, Classical.choice, Quot.sound]
'Binder.C93_functions' depends on axioms: [propext, Classical.choice, Quot.sound]
'Binder.C93_methods' depends on axioms: [propext, Classical.choice, Quot.sound]
'Binder.C93_call_partial' depends on axioms: [propext, Classical.choice, Quot.sound]
'Binder.C93_inherited' depends on axioms: [propext, Classical.choice, Quot.sound]
'Binder.C94_construct_partial' depends on axioms: [propext, Classical.choice, Quot.sound]
'Binder.C94_copy_false' depends on axioms: [propext, Classical.choice, Quot.sound]
'Binder.C95_override_partial' depends on axioms: [propext, Classical.choice, Quot.sound]
'Binder.C95_const_false' depends on axioms: [propext, Quot.sound]
'Binder.C95_private_false' depends on axioms: [propext, Quot.sound]
'Binder.C96_order' depends on axioms: [propext, Classical.choice, Quot.sound]
'Binder.C96_hides' depends on axioms: [propext, Classical.choice, Quot.sound]
'Binder.C96_lookup_partial' depends on axioms: [propext, Classical.choice, Quot.sound]
'Binder.C96_unbound_base_false' depends on axioms: [propext, Classical.choice, Quot.sound]
'Binder.C97_slots' depends on axioms: [propext, Classical.choice, Quot.sound]
'Binder.C97_field_partial' depends on axioms: [propext, Classical.choice, Quot.sound]
'Binder.C97_hidden_false' depends on axioms: [propext, Classical.choice, Quot.sound]
'Binder.C98_words_partial' depends on axioms: [propext, Classical.choice, Quot.sound]
'Binder.C98_words_false' depends on axioms: [propext, Classical.choice, Quot.sound]
'Binder.C99_modules' depends on axioms: [propext, Classical.choice, Quot.sound]
'Binder.C99_dotted_partial' depends on axioms: [propext, Classical.choice, Quot.sound]
'Binder.C99_kinds' depends on axioms: [propext, Classical.choice, Quot.sound]
'Binder.C99_taken_false' depends on axioms: [propext, Classical.choice, Quot.sound]
'Binder.C100_functions' depends on axioms: [propext, Classical.choice, Quot.sound]
'Binder.C100_operators_partial' depends on axioms: [propext, Classical.choice, Quot.sound]
'Binder.C100_without' depends on axioms: [propext, Classical.choice, Quot.sound]
'Binder.C100_free_false' depends on axioms: [propext, Classical.choice, Quot.sound]
'Binder.C100_swapped_false' depends on axioms: [propext, Classical.choice, Quot.sound]
'Binder.C101_destroyed_once' depends on axioms: [propext, Quot.sound]
'Binder.C101_no_dangling' depends on axioms: [propext, Quot.sound]
'Binder.C101_no_leak' depends on axioms: [propext, Quot.sound]
'Binder.C101_both_false' depends on axioms: [propext, Quot.sound]
'Binder.C101_default_false' depends on axioms: [propext, Classical.choice, Quot.sound]
'Binder.C102_selected_partial' depends on axioms: [propext, Classical.choice, Quot.sound]
'Binder.C102_ambiguous_false' depends on axioms: [propext, Classical.choice, Quot.sound]
'Binder.C102_copy_false' depends on axioms: [propext]
'Binder.C102_constructors_partial' depends on axioms: [propext, Classical.choice, Quot.sound]
'Binder.C103_fallback_partial' depends on axioms: [propext, Classical.choice, Quot.sound]
'Binder.C103_ambiguous_false' depends on axioms: [propext, Classical.choice, Quot.sound]
'Binder.C103_copy_false' depends on axioms: [propext, Classical.choice, Quot.sound]
'Binder.C103_class_name_partial' depends on axioms: [propext, Quot.sound]
'Binder.C103_class_name_false' depends on axioms: [propext, Classical.choice, Quot.sound]
'Binder.C104_address_partial' depends on axioms: [propext, Classical.choice, Quot.sound]
'Binder.C104_qualifier_false' depends on axioms: [propext]
'Binder.C104_result_partial' depends on axioms: [propext, Quot.sound]
'Binder.C104_result_false' depends on axioms: [propext]
'Binder.C104_typedef_false' depends on axioms: [propext]
'Binder.C105_address_partial' depends on axioms: [propext, Classical.choice, Quot.sound]
'Binder.C105_bits_false' depends on axioms: [propext, Classical.choice, Quot.sound]
'Binder.C105_unnamed_false' depends on axioms: [propext, Classical.choice, Quot.sound]
'Binder.C106_overrides_partial' depends on axioms: [propext, Classical.choice, Quot.sound]
'Binder.C106_qualifier_false' depends on axioms: [propext, Classical.choice, Quot.sound]
'Binder.C106_function_false' depends on axioms: [propext, Classical.choice, Quot.sound]
'Binder.C107_never_bound' depends on axioms: [propext, Classical.choice, Quot.sound]
'Binder.C107_objects_partial' depends on axioms: [propext, Classical.choice, Quot.sound]
'Binder.C107_bytearray_false' depends on axioms: [propext, Classical.choice, Quot.sound]
'Binder.C108_names_partial' depends on axioms: [propext, Quot.sound]
'Binder.C108_prefix_false' depends on axioms: [propext, Quot.sound]
'Binder.C108_internal_partial' depends on axioms: [propext, Quot.sound]
'Binder.C108_internal_false' depends on axioms: [propext, Quot.sound]
'Binder.C109_choice_partial' depends on axioms: [propext, Classical.choice, Quot.sound]
'Binder.C109_order_false' depends on axioms: [propext, Classical.choice, Quot.sound]
'Binder.C109_derived_false' depends on axioms: [propext, Classical.choice, Quot.sound]
'Binder.C109_const_false' depends on axioms: [propext, Classical.choice, Quot.sound]
'Binder.C110_named_partial' depends on axioms: [propext, Classical.choice, Quot.sound]
'Binder.C110_enum_false' depends on axioms: [propext, Classical.choice, Quot.sound]
'Binder.C111_import_partial' depends on axioms: [propext, Classical.choice, Quot.sound]
'Binder.C111_pointer_partial' depends on axioms: [propext, Classical.choice, Quot.sound]
'Binder.C111_shared' depends on axioms: [propext, Classical.choice, Quot.sound]
'Binder.C111_pointer_false' depends on axioms: [propext, Classical.choice, Quot.sound]
'Binder.C111_import_false' depends on axioms: [propext, Classical.choice, Quot.sound]
'Binder.C111_shipped_partial' depends on axioms: [propext, Classical.choice, Quot.sound]
'Binder.C111_shipped_false' depends on axioms: [propext, Classical.choice, Quot.sound]
'Binder.C112_old_names_partial' depends on axioms: [propext, Quot.sound]
'Binder.C112_values_partial' depends on axioms: [propext, Quot.sound]
'Binder.C112_block_false' depends on axioms: [propext]
'Binder.C112_anonymous_false' depends on axioms: [propext]
'Binder.C112_specialisation_false' depends on axioms: [propext]
'Binder.C113_custom_partial' depends on axioms: [propext, Classical.choice, Quot.sound]
'Binder.C113_others' depends on axioms: [propext, Classical.choice, Quot.sound]
'Binder.C113_file_partial' depends on axioms: [propext, Classical.choice, Quot.sound]
'Binder.C113_inherited_false' depends on axioms: [propext, Classical.choice, Quot.sound]
'Binder.C114_python' depends on axioms: [propext, Classical.choice, Quot.sound]
'Binder.C114_released_partial' depends on axioms: [propext, Classical.choice, Quot.sound]
'Binder.C114_kept' depends on axioms: [propext, Classical.choice, Quot.sound]
'Binder.C114_virtual_false' depends on axioms: [propext, Classical.choice, Quot.sound]
'Binder.C114_constructor_false' depends on axioms: [propext, Classical.choice, Quot.sound]
'Binder.C115_registered_partial' depends on axioms: [propext, Quot.sound]
'Binder.C115_clash_false' depends on axioms: [propext]
'Binder.C116_included_partial' depends on axioms: [propext, Classical.choice, Quot.sound]
'Binder.C116_left_partial' depends on axioms: [propext]
'Binder.C116_function_false' depends on axioms: [propext, Classical.choice, Quot.sound]
'Binder.C117_once_partial' depends on axioms: [propext, Classical.choice, Quot.sound]
'Binder.C117_both_false' depends on axioms: [propext, Classical.choice, Quot.sound]
'Binder.C117_reason_partial' depends on axioms: [propext, Classical.choice, Quot.sound]
'Binder.C118_result_partial' depends on axioms: [propext, Classical.choice, Quot.sound]
'Binder.C118_union_false' depends on axioms: [propext, Quot.sound]
'Binder.C119_renamed_partial' depends on axioms: [propext, Classical.choice, Quot.sound]
'Binder.C119_nullptr_false' depends on axioms: [propext]
'Binder.C119_word_false' depends on axioms: [propext]
'Binder.C119_whole_partial' depends on axioms: [propext, Classical.choice, Quot.sound]
'Binder.C120_history' depends on axioms: [propext, Classical.choice, Quot.sound]
'Binder.C120_callable' depends on axioms: [propext, Classical.choice, Quot.sound]
'Binder.C120_rejected' depends on axioms: [propext, Classical.choice, Quot.sound]
'Binder.C120_outcome' depends on axioms: [propext, Quot.sound]
'Binder.C121_origin' depends on axioms: [propext, Classical.choice, Quot.sound]
'Binder.C121_annotation_partial' depends on axioms: [propext, Classical.choice, Quot.sound]
'Binder.C121_annotation_false' depends on axioms: [propext, Classical.choice, Quot.sound]
'Binder.C121_members_partial' depends on axioms: [propext, Classical.choice, Quot.sound]
'Binder.C121_nested' depends on axioms: [propext, Classical.choice, Quot.sound]
'Binder.C122_called' depends on axioms: [propext, Classical.choice, Quot.sound] 