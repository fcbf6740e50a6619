# Axioms of each property theorem

| Theorem | Axioms |
|---|---|
| `C01_any_names` | propext, Classical.choice, Quot.sound |
| `C01_any_names_read` | propext, Classical.choice, Quot.sound |
| `C01_condition_placeholders` | propext, Classical.choice, Quot.sound |
| `C01_exact` | propext, Classical.choice, Quot.sound |
| `C02_any_names_partial` | propext, Classical.choice, Quot.sound |
| `C02_count_false` | propext |
| `C02_count_partial` | propext, Classical.choice, Quot.sound |
| `C02_exact` | propext, Classical.choice, Quot.sound |
| `C03_any_names_count_partial` | propext, Classical.choice, Quot.sound |
| `C03_any_names_partial` | propext, Classical.choice, Quot.sound |
| `C03_count_partial` | propext, Classical.choice, Quot.sound |
| `C03_exact` | propext, Classical.choice, Quot.sound |
| `C03_many_partial` | propext, Classical.choice, Quot.sound |
| `C03_select_partial` | propext, Classical.choice, Quot.sound |
| `C03_single_partial` | propext, Classical.choice, Quot.sound |
| `C03_slices_false` | propext, Quot.sound |
| `C04_any_names_partial` | propext, Classical.choice, Quot.sound |
| `C04_calls_partial` | propext, Classical.choice, Quot.sound |
| `C04_exact` | propext, Classical.choice, Quot.sound |
| `C04_update_false` | propext, Quot.sound |
| `C04_update_partial` | propext, Classical.choice, Quot.sound |
| `C05_calls_partial` | propext, Classical.choice, Quot.sound |
| `C05_exact` | propext, Quot.sound |
| `C05_insert_false` | propext |
| `C05_insert_partial` | propext, Classical.choice, Quot.sound |
| `C06_any_names` | propext, Classical.choice, Quot.sound |
| `C06_any_names_limiter` | propext, Quot.sound |
| `C06_any_names_select` | propext, Classical.choice, Quot.sound |
| `C06_any_names_where` | propext, Classical.choice, Quot.sound |
| `C06_condition_dialects` | propext, Quot.sound |
| `C06_limiter_dialects` | propext, Quot.sound |
| `C06_select_dialects` | propext, Quot.sound |
| `C07_condition_text` | propext, Quot.sound |
| `C07_delete_text` | propext, Quot.sound |
| `C07_insert_text` | propext, Quot.sound |
| `C07_select_text` | propext, Quot.sound |
| `C07_update_text` | propext, Classical.choice, Quot.sound |
| `C08_exact` | propext, Classical.choice, Quot.sound |
| `C08_meaning_false` | propext, Classical.choice, Quot.sound |
| `C08_meaning_partial` | propext, Classical.choice, Quot.sound |
| `C08_reads` | propext, Classical.choice, Quot.sound |
| `C09_and_partial` | propext, Classical.choice, Quot.sound |
| `C09_brackets_false` | propext, Classical.choice, Quot.sound |
| `C09_exact` | propext, Classical.choice, Quot.sound |
| `C09_inside_not_false` | propext, Classical.choice, Quot.sound |
| `C09_join_word_false` | propext, Classical.choice, Quot.sound |
| `C09_leaves` | propext, Classical.choice, Quot.sound |
| `C09_lost_not_false` | propext, Classical.choice, Quot.sound |
| `C10_chain` | propext, Classical.choice, Quot.sound |
| `C10_exact` | propext, Classical.choice, Quot.sound |
| `C10_leaves` | propext, Classical.choice, Quot.sound |
| `C10_lost_not_false` | propext, Classical.choice, Quot.sound |
| `C10_many_false` | propext, Classical.choice, Quot.sound |
| `C10_many_or_false` | propext, Classical.choice, Quot.sound |
| `C10_or_exact` | propext, Classical.choice, Quot.sound |
| `C10_or_partial` | propext, Classical.choice, Quot.sound |
| `C10_where_partial` | propext, Classical.choice, Quot.sound |
| `C11_exact` | propext, Classical.choice, Quot.sound |
| `C11_not_false` | propext, Classical.choice, Quot.sound |
| `C11_not_leaf` | propext |
| `C11_not_partial` | propext, Classical.choice, Quot.sound |
| `C11_twice` | none |
| `C12_exact` | propext, Classical.choice, Quot.sound |
| `C12_leaves` | propext, Quot.sound |
| `C12_not_false` | propext, Classical.choice, Quot.sound |
| `C12_or_false` | propext, Classical.choice, Quot.sound |
| `C12_where_partial` | propext, Classical.choice, Quot.sound |
| `C13_group_values` | propext, Quot.sound |
| `C13_in_turn` | propext, Quot.sound |
| `C13_method_values` | propext, Quot.sound |
| `C13_newGroup_values` | propext, Quot.sound |
| `C13_operation_values` | propext, Quot.sound |
| `C13_where_in_turn` | propext, Quot.sound |
| `C13_where_values` | propext, Quot.sound |
| `C14_exact` | propext, Classical.choice, Quot.sound |
| `C14_isNull_or_panics` | propext |
| `C14_or_partial` | propext |
| `C15_delete_needs_condition` | propext, Classical.choice, Quot.sound |
| `C15_derived_needs_condition` | propext |
| `C15_empty_group_false` | propext |
| `C15_exact` | propext, Quot.sound |
| `C15_sql_has_where_partial` | propext, Quot.sound |
| `C15_update_needs_condition` | propext, Classical.choice, Quot.sound |
| `C16_delete_errors` | propext, Quot.sound |
| `C16_error_empty` | propext, Quot.sound |
| `C16_insert_errors` | propext, Quot.sound |
| `C16_select_no_errors` | propext |
| `C16_update_errors` | propext, Quot.sound |
| `C17_delete_keeps_filter` | propext, Quot.sound |
| `C17_update_exact` | propext, Classical.choice, Quot.sound |
| `C17_update_keeps_filter` | propext, Classical.choice, Quot.sound |
| `C18_count_field` | propext |
| `C18_count_independent` | propext |
| `C18_count_same_rows` | propext, Quot.sound |
| `C19_commute` | propext, Quot.sound |
| `C19_history` | propext |
| `C19_text` | propext, Quot.sound |
| `C20_calls` | propext, Classical.choice, Quot.sound |
| `C20_limiter` | propext, Classical.choice, Quot.sound |
| `C20_many_tail` | propext, Quot.sound |
| `C21_fields_exact` | propext, Quot.sound |
| `C21_fields_false` | propext |
| `C21_of_base` | propext |
| `C21_single_partial` | propext, Quot.sound |
| `C22_alias_false` | propext |
| `C22_base_exact` | propext, Classical.choice, Quot.sound |
| `C22_base_partial` | propext, Classical.choice, Quot.sound |
| `C22_count_exact` | propext, Classical.choice, Quot.sound |
| `C22_count_partial` | propext, Classical.choice, Quot.sound |
| `C22_join_false` | propext |
| `C22_many_exact` | propext, Classical.choice, Quot.sound |
| `C22_many_partial` | propext, Classical.choice, Quot.sound |
| `C22_no_table` | propext, Quot.sound |
| `C22_single_exact` | propext, Classical.choice, Quot.sound |
| `C22_single_partial` | propext, Classical.choice, Quot.sound |
| `C22_star_false` | propext |
| `C22_untabled` | propext, Quot.sound |
| `C23_build` | propext, Quot.sound |
| `C23_join_text` | propext, Quot.sound |
| `C23_joins` | propext, Quot.sound |
| `C23_joins_single_many` | propext, Quot.sound |
| `C23_sequences` | propext, Quot.sound |
| `C23_table` | propext, Quot.sound |
| `C24_exact` | propext, Quot.sound |
| `C24_field_panics` | propext, Quot.sound |
| `C24_forms_false` | propext, Quot.sound |
| `C24_forms_partial` | propext, Classical.choice, Quot.sound |
| `C24_sources` | propext, Quot.sound |
| `C25_as_of` | none |
| `C25_round_trip` | propext, Quot.sound |
| `C26_alias_differs` | propext, Quot.sound |
| `C26_as` | propext |
| `C26_exact` | propext, Quot.sound |
| `C26_forms_false` | propext, Quot.sound |
| `C26_forms_partial` | propext, Quot.sound |
| `C26_round_trip` | propext, Quot.sound |
| `C27_exact` | propext, Classical.choice, Quot.sound |
| `C27_safe_false` | propext |
| `C27_safe_partial` | propext, Classical.choice, Quot.sound |
| `C27_validate` | propext, Classical.choice, Quot.sound |
| `C28_uniq` | propext, Quot.sound |
| `C29_exact` | propext, Classical.choice, Quot.sound |
| `C29_false` | propext |
| `C29_invalid_partial` | propext, Classical.choice, Quot.sound |
| `C29_order` | propext, Quot.sound |
| `C29_valid_partial` | propext, Classical.choice, Quot.sound |
| `C30_idempotent` | propext |
| `C30_spec` | propext, Quot.sound |
| `C30_table` | propext, Quot.sound |
| `C30_where` | propext, Quot.sound |
| `C31_contains_false` | propext |
| `C31_contains_partial` | propext, Quot.sound |
| `C31_exact` | propext, Classical.choice, Quot.sound |
| `C31_no_miss` | propext |
| `C32_empty_false` | propext, Quot.sound |
| `C32_exact` | propext, Classical.choice, Quot.sound |
| `C32_in` | propext, Classical.choice, Quot.sound |
| `C32_slice_false` | propext, Classical.choice, Quot.sound |
| `C32_strings` | propext, Classical.choice, Quot.sound |
| `C33_alias_false` | propext, Quot.sound |
| `C33_column_partial` | propext, Quot.sound |
| `C33_exact` | propext, Quot.sound |
| `C33_own_name` | propext |
| `C34_all_deletes_false` | propext, Classical.choice, Quot.sound |
| `C34_all_inserts_false` | propext, Classical.choice, Quot.sound |
| `C34_all_orders_false` | propext, Classical.choice, Quot.sound |
| `C34_and_false` | propext, Classical.choice, Quot.sound |
| `C34_apart` | propext, Classical.choice, Quot.sound |
| `C34_applySpec_false` | propext, Classical.choice, Quot.sound |
| `C34_applyTable_false` | propext, Classical.choice, Quot.sound |
| `C34_culprit` | propext, Classical.choice, Quot.sound |
| `C34_exact` | propext, Classical.choice, Quot.sound |
| `C34_harmless_partial` | propext, Classical.choice, Quot.sound |
| `C34_harmless_step_partial` | propext, Classical.choice, Quot.sound |
| `C34_join_false` | propext, Classical.choice, Quot.sound |
| `C34_joins_overwritten` | propext, Classical.choice, Quot.sound |
| `C34_on_false` | propext, Classical.choice, Quot.sound |
| `C34_only` | propext, Classical.choice, Quot.sound |
| `C34_orderBy_false` | propext, Classical.choice, Quot.sound |
| `C34_orders_overwritten` | propext, Classical.choice, Quot.sound |
| `C34_partial` | propext, Classical.choice, Quot.sound |
| `C34_set_false` | propext, Classical.choice, Quot.sound |
| `C34_sets_overwritten` | propext, Classical.choice, Quot.sound |
| `C34_twins` | propext, Classical.choice, Quot.sound |
| `C34_unspoilt` | propext, Classical.choice, Quot.sound |
| `C34_values_false` | propext, Classical.choice, Quot.sound |
| `C34_values_overwritten` | propext, Classical.choice, Quot.sound |
| `C34_where_false` | propext, Classical.choice, Quot.sound |
| `C35_apply_false` | propext, Classical.choice, Quot.sound |
| `C35_culprit` | propext, Classical.choice, Quot.sound |
| `C35_linear_partial` | propext, Classical.choice, Quot.sound |
| `C35_lists_partial` | propext, Classical.choice, Quot.sound |
| `C35_lists_weaker` | propext, Quot.sound |
| `C35_runs_partial` | propext, Classical.choice, Quot.sound |
| `C35_untainted` | propext, Classical.choice, Quot.sound |
| `C35_untainted_runs` | propext, Classical.choice, Quot.sound |
| `C36_reading_only_reads` | propext, Classical.choice, Quot.sound |
| `C36_reads_plain` | propext, Classical.choice, Quot.sound |
| `C37_direction_false` | propext |
| `C37_direction_partial` | propext, Classical.choice, Quot.sound |
| `C37_exact` | propext, Quot.sound |
| `C38_definition_value` | propext, Quot.sound |
| `C38_fieldName_value` | propext, Quot.sound |
| `C38_panics` | propext, Quot.sound |
| `C38_values` | propext, Quot.sound |
| `C39_flags` | propext |
| `C40_fields` | propext |
| `C40_len` | propext, Quot.sound |
| `C40_newFields` | propext, Quot.sound |
| `C40_star_iff` | propext, Quot.sound |
| `C41_base_partial` | propext |
| `C41_exact` | propext, Quot.sound |
| `C41_many_false` | propext, Classical.choice, Quot.sound |
| `C42_joinType` | propext, Classical.choice, Quot.sound |
| `C42_operation` | propext, Classical.choice, Quot.sound |
| `C42_words` | propext, Quot.sound |
| `C43_sources` | propext, Quot.sound |
| `C44_calls_partial` | propext, Classical.choice, Quot.sound |
| `C44_exact` | propext, Classical.choice, Quot.sound |
| `C44_insert_partial` | propext, Classical.choice, Quot.sound |
| `C44_slice_false` | propext |
| `C45_calls_partial` | propext, Classical.choice, Quot.sound |
| `C45_exact` | propext, Classical.choice, Quot.sound |
| `C45_slice_false` | propext |
| `C45_update_partial` | propext, Classical.choice, Quot.sound |
| `C46_delete_partial` | propext, Classical.choice, Quot.sound |
| `C46_empty_false` | propext |
| `C46_exact` | propext, Classical.choice, Quot.sound |
| `C47_apply_exact` | propext, Classical.choice, Quot.sound |
| `C47_cycle_false` | propext, Quot.sound |
| `C47_exact` | propext, Classical.choice, Quot.sound |
| `C47_lists_partial` | propext, Classical.choice, Quot.sound |
| `C47_loops` | propext, Classical.choice, Quot.sound |
| `C47_once_partial` | propext, Classical.choice, Quot.sound |
| `C47_partial` | propext, Classical.choice, Quot.sound |
| `C47_returns` | propext, Classical.choice, Quot.sound |
| `C48_handed_out_partial` | propext, Classical.choice, Quot.sound |
| `C48_setValues_exact` | propext, Classical.choice, Quot.sound |
| `C48_setValues_false` | propext |
| `C49_comparisons` | propext, Quot.sound |
| `C49_in` | propext, Quot.sound |
| `C49_isNull` | propext |
| `C49_panics` | propext, Quot.sound |
| `C49_substrings` | propext |
| `C50_exact` | propext, Quot.sound |
| `C50_ident_field` | propext, Quot.sound |
| `C50_tableName_field` | propext, Quot.sound |
| `C50_value_false` | propext |
| `C50_value_partial` | propext, Quot.sound |
| `C51_join` | propext |
| `C51_many` | propext |
| `C51_select` | propext, Quot.sound |
| `C51_write` | propext |
| `C52_operation` | propext, Quot.sound |
| `C53_alias_false` | propext |
| `C53_exact` | propext, Quot.sound |
| `C53_join_partial` | propext, Quot.sound |
| `C53_new` | propext, Quot.sound |
| `C53_panics` | propext, Quot.sound |
| `C54_ordering` | propext |
| `C55_string` | propext, Quot.sound |
| `C56_and_false` | propext, Classical.choice, Quot.sound |
| `C56_and_partial` | propext, Classical.choice, Quot.sound |
| `C56_exact` | propext, Classical.choice, Quot.sound |
| `C56_join` | propext, Quot.sound |
| `C56_or` | propext, Classical.choice, Quot.sound |
| `C56_panics` | propext, Quot.sound |
| `C57_alias_exact` | propext, Quot.sound |
| `C57_alias_false` | propext |
| `C57_alias_partial` | propext, Quot.sound |
| `C57_field` | propext |
| `C57_table` | propext, Quot.sound |
| `C57_write` | propext |
| `C58_group` | propext, Quot.sound |
| `C58_method` | propext, Quot.sound |
| `C58_newGroup` | propext |
| `C58_not` | propext |
| `C58_operation` | propext, Quot.sound |
| `C58_where` | propext, Quot.sound |
| `C59_alias_false` | propext |
| `C59_exact` | propext, Classical.choice, Quot.sound |
| `C59_many_partial` | propext, Classical.choice, Quot.sound |
| `C59_says_tree_partial` | propext, Classical.choice, Quot.sound |
| `C59_says_where_partial` | propext, Classical.choice, Quot.sound |
| `C59_select_partial` | propext, Classical.choice, Quot.sound |
| `C59_single_partial` | propext, Classical.choice, Quot.sound |
| `C59_where_partial` | propext, Classical.choice, Quot.sound |
| `C60_alias_false` | propext |
| `C60_count_partial` | propext, Classical.choice, Quot.sound |
| `C60_exact` | propext, Classical.choice, Quot.sound |
| `C60_field_exact` | propext, Classical.choice, Quot.sound |
| `C61_alias_false` | propext |
| `C61_delete_partial` | propext, Classical.choice, Quot.sound |
| `C61_derived_exact` | propext, Classical.choice, Quot.sound |
| `C61_derived_partial` | propext, Classical.choice, Quot.sound |
| `C61_exact` | propext, Classical.choice, Quot.sound |
| `C61_join_false` | propext |
| `C61_single_false` | propext |
| `C62_alias_false` | propext |
| `C62_columns` | propext, Quot.sound |
| `C62_derived_exact` | propext, Classical.choice, Quot.sound |
| `C62_derived_partial` | propext, Classical.choice, Quot.sound |
| `C62_exact` | propext, Classical.choice, Quot.sound |
| `C62_join_false` | propext |
| `C62_single_false` | propext |
| `C62_slice_false` | propext |
| `C62_update_partial` | propext, Classical.choice, Quot.sound |
| `C62_where_exact` | propext, Classical.choice, Quot.sound |
| `C63_exact` | propext, Classical.choice, Quot.sound |
| `C63_insert_partial` | propext, Classical.choice, Quot.sound |
| `C63_slice_false` | propext |
| `C64_exact` | propext, Classical.choice, Quot.sound |
| `C64_narrow_partial` | propext, Classical.choice, Quot.sound |
| `C64_or_false` | propext |
| `C65_exact` | propext, Classical.choice, Quot.sound |
| `C65_fresh_partial` | propext, Classical.choice, Quot.sound |
| `C65_key_alias` | propext, Quot.sound |
| `C65_key_column` | propext, Quot.sound |
| `C65_limit_partial` | propext, Classical.choice, Quot.sound |
| `C65_limit_zero_false` | propext |
| `C65_one_key` | propext |
| `C65_pages_partial` | propext, Classical.choice, Quot.sound |
| `C65_sorted_partial` | propext, Classical.choice, Quot.sound |
| `C66_condition` | propext, Classical.choice, Quot.sound |
| `C66_delete` | propext, Classical.choice, Quot.sound |
| `C66_delete_exact` | propext, Classical.choice, Quot.sound |
| `C66_many_exact` | propext, Classical.choice, Quot.sound |
| `C66_select` | propext, Classical.choice, Quot.sound |
| `C66_update` | propext, Classical.choice, Quot.sound |
| `C66_update_exact` | propext, Classical.choice, Quot.sound |
| `C67_count_column_exact` | propext, Classical.choice, Quot.sound |
| `C67_count_exact` | propext, Classical.choice, Quot.sound |
| `C67_count_partial` | propext, Classical.choice, Quot.sound |
| `C67_delete_exact` | propext, Classical.choice, Quot.sound |
| `C67_delete_partial` | propext, Classical.choice, Quot.sound |
| `C67_insert` | propext, Classical.choice, Quot.sound |
| `C67_or_false` | propext |
| `C67_rows_exact` | propext, Classical.choice, Quot.sound |
| `C67_rows_partial` | propext, Classical.choice, Quot.sound |
| `C67_select_exact` | propext, Classical.choice, Quot.sound |
| `C67_select_partial` | propext, Classical.choice, Quot.sound |
| `C67_update_exact` | propext, Classical.choice, Quot.sound |
| `C67_update_partial` | propext, Classical.choice, Quot.sound |
| `C68_delete` | propext, Quot.sound |
| `C68_field` | propext, Quot.sound |
| `C68_insert` | propext, Quot.sound |
| `C68_map` | propext, Classical.choice, Quot.sound |
| `C68_select` | propext, Quot.sound |
| `C68_table` | propext, Quot.sound |
| `C68_update` | propext, Quot.sound |
| `C68_validate` | propext, Classical.choice, Quot.sound |
| `C69_exact` | propext, Classical.choice, Quot.sound |
| `C69_false` | propext |
| `C69_field_partial` | propext, Quot.sound |
| `C69_newFields_partial` | propext, Quot.sound |
| `C69_sort_partial` | propext, Classical.choice, Quot.sound |
| `C69_table_partial` | propext, Quot.sound |
| `C69_values_exact` | propext, Classical.choice, Quot.sound |
| `C70_apply` | propext, Quot.sound |
| `C70_combining_why` | propext, Quot.sound |
| `C70_expression` | propext, Quot.sound |
| `C70_no_nil` | propext, Classical.choice, Quot.sound |
| `C70_reading` | propext, Quot.sound |
| `C70_reading_why` | propext, Quot.sound |
| `C70_statement` | propext, Quot.sound |
| `C71_apply` | propext, Quot.sound |
| `C71_combining_partial` | propext, Classical.choice, Quot.sound |
| `C71_exact` | propext, Classical.choice, Quot.sound |
| `C71_first` | propext, Classical.choice, Quot.sound |
| `C71_first_false` | propext, Classical.choice, Quot.sound |
| `C71_new` | propext, Classical.choice, Quot.sound |
| `C71_reading` | propext, Quot.sound |
| `C71_statement` | propext, Classical.choice, Quot.sound |
| `C71_statement_exact` | propext, Classical.choice, Quot.sound |
| `C72_course` | propext, Classical.choice, Quot.sound |
| `C72_guard` | propext, Classical.choice, Quot.sound |
| `C72_runs` | propext, Classical.choice, Quot.sound |
| `C72_runs_exact` | propext, Classical.choice, Quot.sound |
| `C72_text` | propext, Classical.choice, Quot.sound |
| `C73_apart_partial` | propext, Classical.choice, Quot.sound |
| `C73_culprit_partial` | propext, Classical.choice, Quot.sound |
| `C73_kept_partial` | propext, Classical.choice, Quot.sound |
| `C73_put_partial` | propext, Classical.choice, Quot.sound |
| `C73_spelled_partial` | propext, Classical.choice, Quot.sound |
| `C73_untainted_partial` | propext, Classical.choice, Quot.sound |
| `C73_value_slice_false` | propext |
| `C73_value_slice_now_partial` | propext |
| `C73_value_slice_partial` | propext, Quot.sound |
| `C73_value_slice_put_partial` | propext |
| `C73_value_slice_text_partial` | propext |
| `C74_culprit` | propext, Classical.choice, Quot.sound |
| `C74_moments_partial` | propext, Classical.choice, Quot.sound |
| `C74_race_false` | propext, Classical.choice, Quot.sound |
| `C74_reads_partial` | propext, Classical.choice, Quot.sound |
| `C74_threads_partial` | propext, Classical.choice, Quot.sound |
| `C74_turns` | propext, Quot.sound |
| `C74_untainted` | propext, Classical.choice, Quot.sound |
| `C74_writes_partial` | propext, Classical.choice, Quot.sound |
| `C75_each` | propext, Classical.choice, Quot.sound |
| `C75_goroutines` | propext, Classical.choice, Quot.sound |
| `C75_goroutines_calls` | propext, Classical.choice, Quot.sound |
| `C75_goroutines_reads` | propext, Classical.choice, Quot.sound |
| `C75_once` | propext, Classical.choice, Quot.sound |
| `C75_overlapping_calls` | propext, Classical.choice, Quot.sound |
| `C75_overlapping_reads` | propext, Classical.choice, Quot.sound |
| `C75_result` | propext, Classical.choice, Quot.sound |
| `C75_runs` | propext, Classical.choice, Quot.sound |
| `C75_torn_changes` | propext, Quot.sound |
| `C75_twice_changes` | propext, Classical.choice, Quot.sound |
| `C76_base_exact` | propext, Quot.sound |
| `C76_forgets_exact` | propext, Quot.sound |
| `C76_inner_exact` | none |
| `C76_many_exact` | propext, Quot.sound |
| `C76_many_false` | propext |
| `C76_one_false` | propext |
| `C76_rows_partial` | propext, Classical.choice, Quot.sound |
| `C76_same_text_exact` | propext, Classical.choice, Quot.sound |
| `C76_settings_exact` | propext |
| `C76_single_exact` | propext, Quot.sound |
| `C76_single_false` | propext |
| `C77_exact` | propext, Classical.choice, Quot.sound |
| `C77_false` | propext, Classical.choice, Quot.sound |
| `C77_params` | propext, Classical.choice, Quot.sound |
| `C77_partial` | propext, Classical.choice, Quot.sound |
| `C77_partial_rows` | propext, Classical.choice, Quot.sound |
| `C77_where` | propext, Classical.choice, Quot.sound |
| `C77_where_false` | propext, Classical.choice, Quot.sound |
| `C77_where_partial` | propext, Classical.choice, Quot.sound |
| `C78_count_column_exact` | propext, Classical.choice, Quot.sound |
| `C78_count_exact` | propext, Classical.choice, Quot.sound |
| `C78_count_partial` | propext, Classical.choice, Quot.sound |
| `C78_delete_exact` | propext, Classical.choice, Quot.sound |
| `C78_delete_partial` | propext, Classical.choice, Quot.sound |
| `C78_false` | propext, Quot.sound |
| `C78_rows_exact` | propext, Classical.choice, Quot.sound |
| `C78_rows_partial` | propext, Classical.choice, Quot.sound |
| `C78_select_exact` | propext, Classical.choice, Quot.sound |
| `C78_select_partial` | propext, Classical.choice, Quot.sound |
| `C78_update_exact` | propext, Classical.choice, Quot.sound |
| `C78_update_partial` | propext, Classical.choice, Quot.sound |
| `C79_goroutines` | propext, Classical.choice, Quot.sound |
| `C79_goroutines_meant` | propext, Classical.choice, Quot.sound |
| `C79_meant` | propext, Classical.choice, Quot.sound |
| `C79_others` | propext, Classical.choice, Quot.sound |
| `C79_programs` | propext, Classical.choice, Quot.sound |
| `C80_accepted_false` | propext |
| `C80_base` | propext, Classical.choice, Quot.sound |
| `C80_count` | propext, Classical.choice, Quot.sound |
| `C80_delete` | propext, Classical.choice, Quot.sound |
| `C80_false` | propext |
| `C80_insert` | propext, Classical.choice, Quot.sound |
| `C80_many` | propext, Classical.choice, Quot.sound |
| `C80_plain_exact` | propext, Quot.sound |
| `C80_plain_partial` | propext, Quot.sound |
| `C80_single` | propext, Classical.choice, Quot.sound |
| `C80_update` | propext, Classical.choice, Quot.sound |
| `C81_calls` | propext, Classical.choice, Quot.sound |
| `C81_count_column_exact` | propext, Classical.choice, Quot.sound |
| `C81_count_exact` | propext, Classical.choice, Quot.sound |
| `C81_delete` | propext, Classical.choice, Quot.sound |
| `C81_delete_exact` | propext, Classical.choice, Quot.sound |
| `C81_delete_rows_partial` | propext, Classical.choice, Quot.sound |
| `C81_false` | propext |
| `C81_insert` | propext, Classical.choice, Quot.sound |
| `C81_lost` | propext, Classical.choice, Quot.sound |
| `C81_rows_exact` | propext, Classical.choice, Quot.sound |
| `C81_rows_partial` | propext, Classical.choice, Quot.sound |
| `C81_update` | propext, Classical.choice, Quot.sound |
| `C81_update_exact` | propext, Classical.choice, Quot.sound |
| `C81_update_rows_partial` | propext, Classical.choice, Quot.sound |
| `C82_count` | propext, Quot.sound |
| `C82_fields` | propext, Classical.choice, Quot.sound |
| `C82_select` | propext, Quot.sound |
| `C82_write` | propext, Quot.sound |
| `C83_false` | propext |
| `C83_same_text_partial` | propext, Classical.choice, Quot.sound |
| `C84_false` | propext |
| `C84_kept_partial` | propext |
| `C84_later_partial` | propext, Quot.sound |
| `C84_linear_partial` | propext, Classical.choice, Quot.sound |
| `C84_memory_partial` | propext, Quot.sound |
| `C84_once_partial` | propext, Classical.choice, Quot.sound |
| `C84_slice_partial` | propext |
| `C84_untainted_partial` | propext, Classical.choice, Quot.sound |
| `C84_values_partial` | propext, Quot.sound |
| `C85_count_partial` | propext, Classical.choice, Quot.sound |
| `C85_delete_exact` | propext, Classical.choice, Quot.sound |
| `C85_delete_partial` | propext, Classical.choice, Quot.sound |
| `C85_false` | propext, Quot.sound |
| `C85_insert` | propext, Classical.choice, Quot.sound |
| `C85_rows_exact` | propext, Classical.choice, Quot.sound |
| `C85_rows_partial` | propext, Classical.choice, Quot.sound |
| `C85_tests_count_partial` | propext, Classical.choice, Quot.sound |
| `C85_tests_delete_partial` | propext, Classical.choice, Quot.sound |
| `C85_tests_partial` | propext, Classical.choice, Quot.sound |
| `C85_tests_update_partial` | propext, Classical.choice, Quot.sound |
| `C85_update_exact` | propext, Classical.choice, Quot.sound |
| `C85_update_partial` | propext, Classical.choice, Quot.sound |
| `C86_delete` | propext, Classical.choice, Quot.sound |
| `C86_delete_again` | propext, Classical.choice, Quot.sound |
| `C86_insert` | propext, Classical.choice, Quot.sound |
| `C86_right_join_stays` | propext |
| `C86_update` | propext, Classical.choice, Quot.sound |
| `C86_update_again` | propext, Classical.choice, Quot.sound |
| `C87_count_exact` | propext, Classical.choice, Quot.sound |
| `C87_count_partial` | propext, Classical.choice, Quot.sound |
| `C87_delete_exact` | propext, Classical.choice, Quot.sound |
| `C87_delete_partial` | propext, Classical.choice, Quot.sound |
| `C87_false` | propext, Quot.sound |
| `C87_laws` | propext, Quot.sound |
| `C87_rows_exact` | propext, Classical.choice, Quot.sound |
| `C87_rows_partial` | propext, Classical.choice, Quot.sound |
| `C87_update_exact` | propext, Classical.choice, Quot.sound |
| `C87_update_partial` | propext, Classical.choice, Quot.sound |
| `C88_count` | propext, Classical.choice, Quot.sound |
| `C88_delete` | propext, Classical.choice, Quot.sound |
| `C88_goroutines` | propext, Classical.choice, Quot.sound |
| `C88_memory` | propext, Classical.choice, Quot.sound |
| `C88_rows` | propext, Classical.choice, Quot.sound |
| `C88_spelled` | propext, Classical.choice, Quot.sound |
| `C88_update` | propext, Classical.choice, Quot.sound |
| `C89_alias_false` | propext |
| `C89_calls_partial` | propext, Quot.sound |
| `C89_ends_goroutines_partial` | propext, Classical.choice, Quot.sound |
| `C89_ends_partial` | propext, Classical.choice, Quot.sound |
| `C89_goroutines_partial` | propext, Classical.choice, Quot.sound |
| `C89_memory_partial` | propext, Classical.choice, Quot.sound |
| `C89_rows_partial` | propext, Classical.choice, Quot.sound |
| `C89_runs_partial` | propext, Quot.sound |
| `C89_text_partial` | propext, Classical.choice, Quot.sound |
| `C90_condition` | propext, Classical.choice, Quot.sound |
| `C90_count` | propext, Classical.choice, Quot.sound |
| `C90_count_nothing_else` | propext, Classical.choice, Quot.sound |
| `C90_delete` | propext, Classical.choice, Quot.sound |
| `C90_every_condition` | propext, Classical.choice, Quot.sound |
| `C90_every_delete` | propext, Classical.choice, Quot.sound |
| `C90_every_expression` | propext, Quot.sound |
| `C90_every_insert` | propext, Classical.choice, Quot.sound |
| `C90_every_select` | propext, Classical.choice, Quot.sound |
| `C90_every_update` | propext, Classical.choice, Quot.sound |
| `C90_exactly` | propext, Classical.choice, Quot.sound |
| `C90_exactly_delete` | propext, Classical.choice, Quot.sound |
| `C90_exactly_insert` | propext, Classical.choice, Quot.sound |
| `C90_exactly_update` | propext, Classical.choice, Quot.sound |
| `C90_insert` | propext, Classical.choice, Quot.sound |
| `C90_nothing_else` | propext, Classical.choice, Quot.sound |
| `C90_select` | propext, Classical.choice, Quot.sound |
| `C90_select_nothing_else` | propext, Classical.choice, Quot.sound |
| `C90_single` | propext, Classical.choice, Quot.sound |
| `C90_single_nothing_else` | propext, Classical.choice, Quot.sound |
| `C90_update` | propext, Classical.choice, Quot.sound |
| `C91_calls` | propext, Classical.choice, Quot.sound |
| `C91_condition` | propext, Classical.choice, Quot.sound |
| `C91_delete` | propext, Classical.choice, Quot.sound |
| `C91_question_marks` | propext, Classical.choice, Quot.sound |
| `C91_select` | propext, Quot.sound |
| `C91_where` | propext, Classical.choice, Quot.sound |
