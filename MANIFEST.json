{
 "claims": [
  {
   "property": "C01",
   "status": "proved",
   "theorems": [
    "Query.C01_any_names",
    "Query.C01_any_names_read",
    "Query.C01_condition_placeholders",
    "Query.C01_exact"
   ],
   "note": "C01_condition_placeholders reads the placeholders off the text, over names without a dollar sign. C01_any_names: over any names, the text is one list of fixed words and placeholders for every offset, with the placeholders of the values in order and no digit right behind one. C01_any_names_read: read off the text, the numbers above the offset are exactly those of the values."
  },
  {
   "property": "C02",
   "status": "partial",
   "theorems": [
    "Query.C02_any_names_partial",
    "Query.C02_count_false",
    "Query.C02_count_partial",
    "Query.C02_exact"
   ],
   "note": "False of the code for slice values in comparisons (C02_count_false); C02_count_partial: one-parameter values, and any value for IN. C02_exact: the difference for every condition, whatever the values: one too few or as many too many as each comparison's value supplies. C02_any_names_partial: over any names."
  },
  {
   "property": "C03",
   "status": "partial",
   "theorems": [
    "Query.C03_any_names_count_partial",
    "Query.C03_any_names_partial",
    "Query.C03_count_partial",
    "Query.C03_exact",
    "Query.C03_many_partial",
    "Query.C03_select_partial",
    "Query.C03_single_partial",
    "Query.C03_slices_false"
   ],
   "note": "False of the code for slice values in comparisons (C03_slices_false). The _partial theorems: 1..n for selects, single, many and count whose comparisons have one value each, any values for IN. C03_exact: the numbers for every builder whatever the values (each part counts on from the values before it; OFFSET and LIMIT take the last numbers). C03_any_names_partial, C03_any_names_count_partial: the same over any names, dollar signs included."
  },
  {
   "property": "C04",
   "status": "partial",
   "theorems": [
    "Query.C04_any_names_partial",
    "Query.C04_calls_partial",
    "Query.C04_exact",
    "Query.C04_update_false",
    "Query.C04_update_partial"
   ],
   "note": "Proved when every set value supplies exactly one parameter; false otherwise (C04_update_false: only Values()[0] is bound). C04_exact says what is built for all values. C04_calls_partial: the same for a builder made by any calls, in call order. C04_any_names_partial: the placeholders of the WHERE clause over any names."
  },
  {
   "property": "C05",
   "status": "partial",
   "theorems": [
    "Query.C05_calls_partial",
    "Query.C05_exact",
    "Query.C05_insert_false",
    "Query.C05_insert_partial"
   ],
   "note": "Proved when every value supplies exactly one parameter; false for []string values (C05_insert_false). C05_exact says what is built for all values: the placeholders are the running totals. C05_calls_partial: the same for a builder made by any calls, in call order."
  },
  {
   "property": "C06",
   "status": "proved",
   "theorems": [
    "Query.C06_any_names",
    "Query.C06_any_names_limiter",
    "Query.C06_any_names_select",
    "Query.C06_any_names_where",
    "Query.C06_condition_dialects",
    "Query.C06_limiter_dialects",
    "Query.C06_select_dialects"
   ],
   "note": "C06_condition_dialects, C06_limiter_dialects and C06_select_dialects rewrite the text, over names without a dollar sign. The C06_any_names theorems: over any names, one list of fixed words and placeholders gives both dialects at every offset."
  },
  {
   "property": "C07",
   "status": "proved",
   "theorems": [
    "Query.C07_condition_text",
    "Query.C07_delete_text",
    "Query.C07_insert_text",
    "Query.C07_select_text",
    "Query.C07_update_text"
   ],
   "note": ""
  },
  {
   "property": "C08",
   "status": "partial",
   "theorems": [
    "Query.C08_exact",
    "Query.C08_meaning_false",
    "Query.C08_meaning_partial",
    "Query.C08_reads"
   ],
   "note": "Reading proved for every readable tree (C08_reads: unique reading, same comparisons, same values, numbering). Meaning proved where the brackets agree with the tree (C08_meaning_partial); false for a negated group around an unbracketed group (C08_meaning_false). C08_exact says what the text of every readable condition means, safe or not."
  },
  {
   "property": "C09",
   "status": "partial",
   "theorems": [
    "Query.C09_and_partial",
    "Query.C09_brackets_false",
    "Query.C09_exact",
    "Query.C09_inside_not_false",
    "Query.C09_join_word_false",
    "Query.C09_leaves",
    "Query.C09_lost_not_false"
   ],
   "note": "Conjunction proved for leaves in any number, for chains of calls of any length, and for groups of the stated shapes; false for negated groups, for groups whose first member carries the join word OR, and for several arguments with an unbracketed Or (four witnesses, C09_*_false). C09_exact: what And means for all readable conditions of any shape (factors, brackets, lost and doubled NOTs)."
  },
  {
   "property": "C10",
   "status": "partial",
   "theorems": [
    "Query.C10_chain",
    "Query.C10_exact",
    "Query.C10_leaves",
    "Query.C10_lost_not_false",
    "Query.C10_many_false",
    "Query.C10_many_or_false",
    "Query.C10_or_exact",
    "Query.C10_or_partial",
    "Query.C10_where_partial"
   ],
   "note": "Disjunction proved for one argument of the stated shapes and for chains of calls of any length (C10_chain); with two or more arguments the exact, undocumented meaning is proved (C10_exact) and the claim is false (C10_many_false, C10_many_or_false). C10_or_exact: what Or means for all readable conditions of any shape and number."
  },
  {
   "property": "C11",
   "status": "partial",
   "theorems": [
    "Query.C11_exact",
    "Query.C11_not_false",
    "Query.C11_not_leaf",
    "Query.C11_not_partial",
    "Query.C11_twice"
   ],
   "note": "Proved for leaves, groups of several members or with brackets; false for a group around one unbracketed group (C11_not_false); Not of Not is Not (C11_twice). C11_exact says what Not means for every readable condition."
  },
  {
   "property": "C12",
   "status": "partial",
   "theorems": [
    "Query.C12_exact",
    "Query.C12_leaves",
    "Query.C12_not_false",
    "Query.C12_or_false",
    "Query.C12_where_partial"
   ],
   "note": "Proved for chains of any length of plain conditions and of the stated group shapes, on all builders; false for an Or in the first Where (C12_or_false) and for Not of a conjunction (C12_not_false). C12_exact: what any chain of Where calls means, for all readable conditions of any shape."
  },
  {
   "property": "C13",
   "status": "proved",
   "theorems": [
    "Query.C13_group_values",
    "Query.C13_in_turn",
    "Query.C13_method_values",
    "Query.C13_newGroup_values",
    "Query.C13_operation_values",
    "Query.C13_where_in_turn",
    "Query.C13_where_values"
   ],
   "note": ""
  },
  {
   "property": "C14",
   "status": "partial",
   "theorems": [
    "Query.C14_exact",
    "Query.C14_isNull_or_panics",
    "Query.C14_or_partial"
   ],
   "note": "And, Not and Or never panic except IsNull(f).Or(..), which panics for every argument (C14_isNull_or_panics). C14_exact: Or panics for an IS NULL condition and for no other."
  },
  {
   "property": "C15",
   "status": "partial",
   "theorems": [
    "Query.C15_delete_needs_condition",
    "Query.C15_derived_needs_condition",
    "Query.C15_empty_group_false",
    "Query.C15_exact",
    "Query.C15_sql_has_where_partial",
    "Query.C15_update_needs_condition"
   ],
   "note": "No SQL without a condition: proved for every call history. 'WHERE is followed by a condition' holds when groups are not empty; false for an empty group (C15_empty_group_false). What such a text does: nothing, see C66. C15_exact: nothing follows WHERE just if the condition is made of empty groups (Cond.Hollow)."
  },
  {
   "property": "C16",
   "status": "proved",
   "theorems": [
    "Query.C16_delete_errors",
    "Query.C16_error_empty",
    "Query.C16_insert_errors",
    "Query.C16_select_no_errors",
    "Query.C16_update_errors"
   ],
   "note": ""
  },
  {
   "property": "C17",
   "status": "proved",
   "theorems": [
    "Query.C17_delete_keeps_filter",
    "Query.C17_update_exact",
    "Query.C17_update_keeps_filter"
   ],
   "note": "C17_update_keeps_filter: set values of one parameter each; C17_update_exact: any set values (the first of each is bound; a panic if one has none)."
  },
  {
   "property": "C18",
   "status": "proved",
   "theorems": [
    "Query.C18_count_field",
    "Query.C18_count_independent",
    "Query.C18_count_same_rows"
   ],
   "note": ""
  },
  {
   "property": "C19",
   "status": "proved",
   "theorems": [
    "Query.C19_commute",
    "Query.C19_history",
    "Query.C19_text"
   ],
   "note": ""
  },
  {
   "property": "C20",
   "status": "proved",
   "theorems": [
    "Query.C20_calls",
    "Query.C20_limiter",
    "Query.C20_many_tail"
   ],
   "note": "C20_calls: chains of Offset and Limit calls."
  },
  {
   "property": "C21",
   "status": "partial",
   "theorems": [
    "Query.C21_fields_exact",
    "Query.C21_fields_false",
    "Query.C21_of_base",
    "Query.C21_single_partial"
   ],
   "note": "Build, Where and Join proved; Fields loses the whole query for every builder (C21_fields_false). C21_fields_exact: Fields keeps the query just if it had no table, joins and conditions. C21_of_base: a single-row select made from a base select or a table, with its failures."
  },
  {
   "property": "C22",
   "status": "partial",
   "theorems": [
    "Query.C22_alias_false",
    "Query.C22_base_exact",
    "Query.C22_base_partial",
    "Query.C22_count_exact",
    "Query.C22_count_partial",
    "Query.C22_join_false",
    "Query.C22_many_exact",
    "Query.C22_many_partial",
    "Query.C22_no_table",
    "Query.C22_single_exact",
    "Query.C22_single_partial",
    "Query.C22_star_false",
    "Query.C22_untabled"
   ],
   "note": "Proved for every base, single, many and count builder whose identifiers are plain, whose join columns name a table and whose WHERE is readable (no aliased column, empty group or custom condition); false otherwise (C22_join_false, C22_alias_false, C22_star_false: an alias on a bare star). The WHERE expression is the one the condition's own text reads as; what that means is C08. C22_base_exact, C22_single_exact, C22_count_exact, C22_many_exact: the text reads back to what the builder holds just if every join column names a table and the condition is sound (C66); otherwise it is no statement at all (C22_untabled: nor is that of any builder with a join column without table; C22_no_table: nor that of any builder without a table)."
  },
  {
   "property": "C23",
   "status": "proved",
   "theorems": [
    "Query.C23_build",
    "Query.C23_join_text",
    "Query.C23_joins",
    "Query.C23_joins_single_many",
    "Query.C23_sequences",
    "Query.C23_table"
   ],
   "note": ""
  },
  {
   "property": "C24",
   "status": "partial",
   "theorems": [
    "Query.C24_exact",
    "Query.C24_field_panics",
    "Query.C24_forms_false",
    "Query.C24_forms_partial",
    "Query.C24_sources"
   ],
   "note": "Exact characterisation for every text (C24_exact); the documented forms hold for words with sane dots; a.b.c, a. and .a are accepted wrongly (C24_forms_false). The same for a FieldName or a definition as parameter (C24_sources)."
  },
  {
   "property": "C25",
   "status": "proved",
   "theorems": [
    "Query.C25_as_of",
    "Query.C25_round_trip"
   ],
   "note": ""
  },
  {
   "property": "C26",
   "status": "partial",
   "theorems": [
    "Query.C26_alias_differs",
    "Query.C26_as",
    "Query.C26_exact",
    "Query.C26_forms_false",
    "Query.C26_forms_partial",
    "Query.C26_round_trip"
   ],
   "note": "Exact characterisation (C26_exact); 't t' is an error though documented to drop the alias (C26_forms_false). Round trip and alias invariant are proved in full."
  },
  {
   "property": "C27",
   "status": "partial",
   "theorems": [
    "Query.C27_exact",
    "Query.C27_safe_false",
    "Query.C27_safe_partial",
    "Query.C27_validate"
   ],
   "note": "Validate characterised exactly; safety proved for names without white space; a tab passes Validate and makes Field panic (C27_safe_false). C27_exact: of the names Validate accepts, Field takes for what they are exactly those without white space."
  },
  {
   "property": "C28",
   "status": "proved",
   "theorems": [
    "Query.C28_uniq"
   ],
   "note": ""
  },
  {
   "property": "C29",
   "status": "partial",
   "theorems": [
    "Query.C29_exact",
    "Query.C29_false",
    "Query.C29_invalid_partial",
    "Query.C29_order",
    "Query.C29_valid_partial"
   ],
   "note": "Proved for keys without tabs and the like; with them the call panics, depending on iteration order (C29_false). Order independence is proved without restriction. C29_exact: which maps give field values, errors and panics, for every order."
  },
  {
   "property": "C30",
   "status": "proved",
   "theorems": [
    "Query.C30_idempotent",
    "Query.C30_spec",
    "Query.C30_table",
    "Query.C30_where"
   ],
   "note": ""
  },
  {
   "property": "C31",
   "status": "partial",
   "theorems": [
    "Query.C31_contains_false",
    "Query.C31_contains_partial",
    "Query.C31_exact",
    "Query.C31_no_miss"
   ],
   "note": "Pattern meaning proved exactly for texts without %, _ and backslash; false with them (C31_contains_false). C31_exact: what the pattern matches for every text."
  },
  {
   "property": "C32",
   "status": "partial",
   "theorems": [
    "Query.C32_empty_false",
    "Query.C32_exact",
    "Query.C32_in",
    "Query.C32_slice_false",
    "Query.C32_strings"
   ],
   "note": "Proved for values the library takes apart; false for []int and the like and for empty lists (C32_slice_false, C32_empty_false). C32_exact: the text is SQL exactly when there is one value at least."
  },
  {
   "property": "C33",
   "status": "partial",
   "theorems": [
    "Query.C33_alias_false",
    "Query.C33_column_partial",
    "Query.C33_exact",
    "Query.C33_own_name"
   ],
   "note": "Proved for fields without alias; false with alias (C33_alias_false). C33_exact: the AS clause is there exactly if the field has an alias other than its bare name."
  },
  {
   "property": "C34",
   "status": "partial",
   "theorems": [
    "Query.C34_all_deletes_false",
    "Query.C34_all_inserts_false",
    "Query.C34_all_orders_false",
    "Query.C34_and_false",
    "Query.C34_apart",
    "Query.C34_applySpec_false",
    "Query.C34_applyTable_false",
    "Query.C34_culprit",
    "Query.C34_exact",
    "Query.C34_harmless_partial",
    "Query.C34_harmless_step_partial",
    "Query.C34_join_false",
    "Query.C34_joins_overwritten",
    "Query.C34_on_false",
    "Query.C34_only",
    "Query.C34_orderBy_false",
    "Query.C34_orders_overwritten",
    "Query.C34_partial",
    "Query.C34_set_false",
    "Query.C34_sets_overwritten",
    "Query.C34_twins",
    "Query.C34_unspoilt",
    "Query.C34_values_false",
    "Query.C34_values_overwritten",
    "Query.C34_where_false"
   ],
   "note": "False of the code: And, Where, OrderBy, Values, Set, Join, a second On, ApplyFieldTable and ApplyFieldSpec each change a builder obtained earlier (C34_*_false, with Go's append growth for small slices). C34_partial: in every history, with any branching, nothing changes if append leaves no spare capacity, the Apply calls are not used and no join is completed twice. C34_harmless_partial: the same for every growth policy if each append hits a slice that is full or the last in its array. C34_twins says exactly what happens: after any history, two calls of the same method on the same value that append equally many elements to a list with room give one and the same value. C34_all_inserts_false, C34_all_orders_false, C34_all_deletes_false: with Go's growth of small slices (doubling) this hits every INSERT, ORDER BY list and DELETE built by n single calls, for every n that is not a power of two. C34_apart, C34_only: after any history a call of any kind changes no value that is not read from a cell the call may write into (a spare cell behind the list it extends, the last join for On, the cells of the receiver for the Apply calls), and whenever a value reads differently later, some call in between hit it. C34_orders_overwritten, C34_values_overwritten, C34_sets_overwritten, C34_joins_overwritten: if a call does hit a longer list over the same array, the list then reads the appended elements in place of its own. C34_exact says, for any history and any call of any kind, exactly when an earlier value loses something it is read from (Spec/Spoil.lean: the call appends into spare room where the value holds another element, is an On that changes one of its joins, or an Apply call that changes one of its conditions); C34_unspoilt and C34_culprit draw the conclusions for reading."
  },
  {
   "property": "C35",
   "status": "partial",
   "theorems": [
    "Query.C35_apply_false",
    "Query.C35_culprit",
    "Query.C35_linear_partial",
    "Query.C35_lists_partial",
    "Query.C35_lists_weaker",
    "Query.C35_runs_partial",
    "Query.C35_untainted",
    "Query.C35_untainted_runs"
   ],
   "note": "Proved for every history without the two Apply calls, every growth policy, every reading method; ApplyFieldTable changes its receiver even in a linear history (C35_apply_false; C75 has the histories in which the Apply calls do no harm). C35_lists_partial goes beyond linear histories: values may be extended several times as long as no list that may have spare capacity is (C35_lists_weaker: linear histories are among these). C35_untainted covers every history whatsoever, branching and Apply calls included: a value that no call spoilt (in the sense of C34_exact), made from such values only, reads as the plain immutable value; C35_culprit: wherever a value reads wrong, a call spoilt an earlier value. C35_untainted_runs: such a history runs in memory whenever it does on plain values, if no Apply call has a receiver that may read wrong."
  },
  {
   "property": "C36",
   "status": "proved",
   "theorems": [
    "Query.C36_reading_only_reads",
    "Query.C36_reads_plain"
   ],
   "note": ""
  },
  {
   "property": "C37",
   "status": "partial",
   "theorems": [
    "Query.C37_direction_false",
    "Query.C37_direction_partial",
    "Query.C37_exact"
   ],
   "note": "Exact behaviour proved for every name (C37_exact); 'panics exactly on invalid name' fails for names with tabs (C37_direction_false)."
  },
  {
   "property": "C38",
   "status": "proved",
   "theorems": [
    "Query.C38_definition_value",
    "Query.C38_fieldName_value",
    "Query.C38_panics",
    "Query.C38_values"
   ],
   "note": ""
  },
  {
   "property": "C39",
   "status": "proved",
   "theorems": [
    "Query.C39_flags"
   ],
   "note": ""
  },
  {
   "property": "C40",
   "status": "proved",
   "theorems": [
    "Query.C40_fields",
    "Query.C40_len",
    "Query.C40_newFields",
    "Query.C40_star_iff"
   ],
   "note": ""
  },
  {
   "property": "C41",
   "status": "partial",
   "theorems": [
    "Query.C41_base_partial",
    "Query.C41_exact",
    "Query.C41_many_false"
   ],
   "note": "Proved for the base builder; false for many and single builders (C41_many_false). C41_exact: exactly what the promoted Render and Values leave out."
  },
  {
   "property": "C42",
   "status": "proved",
   "theorems": [
    "Query.C42_joinType",
    "Query.C42_operation",
    "Query.C42_words"
   ],
   "note": ""
  },
  {
   "property": "C43",
   "status": "proved",
   "theorems": [
    "Query.C43_sources"
   ],
   "note": ""
  },
  {
   "property": "C44",
   "status": "partial",
   "theorems": [
    "Query.C44_calls_partial",
    "Query.C44_exact",
    "Query.C44_insert_partial",
    "Query.C44_slice_false"
   ],
   "note": "Proved when every value supplies one parameter; false for slices as in C05_insert_false. C44_calls_partial: the same for a builder made by any calls, in call order. With slices: C44_exact says what each column is bound to (the last value), C44_slice_false shows the claim fails."
  },
  {
   "property": "C45",
   "status": "partial",
   "theorems": [
    "Query.C45_calls_partial",
    "Query.C45_exact",
    "Query.C45_slice_false",
    "Query.C45_update_partial"
   ],
   "note": "Proved when every set value supplies one parameter and the condition is readable; see C04_update_false and C46_empty_false for what fails. C45_calls_partial: the same for a builder made by any calls, in call order. With slices: C45_exact says each column is bound to the first value, and an empty slice panics; C45_slice_false."
  },
  {
   "property": "C46",
   "status": "partial",
   "theorems": [
    "Query.C46_delete_partial",
    "Query.C46_empty_false",
    "Query.C46_exact"
   ],
   "note": "Proved for readable conditions; false for an empty group (C46_empty_false) and an aliased column (C33_alias_false). C46_exact: it reads back just if the condition is sound, otherwise it is no statement."
  },
  {
   "property": "C47",
   "status": "partial",
   "theorems": [
    "Query.C47_apply_exact",
    "Query.C47_cycle_false",
    "Query.C47_exact",
    "Query.C47_lists_partial",
    "Query.C47_loops",
    "Query.C47_once_partial",
    "Query.C47_partial",
    "Query.C47_returns"
   ],
   "note": "False of the code: four And/Or calls make a condition that contains itself (C47_cycle_false: exceeds every depth bound). C47_partial, C47_lists_partial: linear histories, histories that extend no list twice, histories whose appends are harmless, or any history when append leaves no spare capacity, without Apply calls. C47_once_partial: histories that use no value twice, Apply calls included. C47_exact: after any history a reading call that goes through all conditions returns if and only if no group in the value contains itself; C47_apply_exact: the same for ApplyFieldSpec and ApplyFieldTable."
  },
  {
   "property": "C48",
   "status": "partial",
   "theorems": [
    "Query.C48_handed_out_partial",
    "Query.C48_setValues_exact",
    "Query.C48_setValues_false"
   ],
   "note": "Proved for all programs that read and write parameters, Values, Conditions and FieldDefinitions after any history, also with groups that contain themselves; false for SetValues, which returns the builder's own slice although its comment says a copy (C48_setValues_false). C48_setValues_exact: a write into the slice SetValues returned changes that one value of the builder and nothing else."
  },
  {
   "property": "C49",
   "status": "proved",
   "theorems": [
    "Query.C49_comparisons",
    "Query.C49_in",
    "Query.C49_isNull",
    "Query.C49_panics",
    "Query.C49_substrings"
   ],
   "note": ""
  },
  {
   "property": "C50",
   "status": "partial",
   "theorems": [
    "Query.C50_exact",
    "Query.C50_ident_field",
    "Query.C50_tableName_field",
    "Query.C50_value_false",
    "Query.C50_value_partial"
   ],
   "note": "Fields of tables proved in full; Value proved for fields with a name, it panics for Field(\"a.\") (C50_value_false). C50_exact: Value panics exactly for definitions without a name."
  },
  {
   "property": "C51",
   "status": "proved",
   "theorems": [
    "Query.C51_join",
    "Query.C51_many",
    "Query.C51_select",
    "Query.C51_write"
   ],
   "note": ""
  },
  {
   "property": "C52",
   "status": "proved",
   "theorems": [
    "Query.C52_operation"
   ],
   "note": ""
  },
  {
   "property": "C53",
   "status": "partial",
   "theorems": [
    "Query.C53_alias_false",
    "Query.C53_exact",
    "Query.C53_join_partial",
    "Query.C53_new",
    "Query.C53_panics"
   ],
   "note": "Proved when the right field's qualifier is a table name; for a field of an aliased table the alias is taken as a table name (C53_alias_false). NewTableJoiner on that table is the same join (C53_new). C53_exact: for a field of a table the join names that table just if it has no alias."
  },
  {
   "property": "C54",
   "status": "proved",
   "theorems": [
    "Query.C54_ordering"
   ],
   "note": ""
  },
  {
   "property": "C55",
   "status": "proved",
   "theorems": [
    "Query.C55_string"
   ],
   "note": ""
  },
  {
   "property": "C56",
   "status": "partial",
   "theorems": [
    "Query.C56_and_false",
    "Query.C56_and_partial",
    "Query.C56_exact",
    "Query.C56_join",
    "Query.C56_or",
    "Query.C56_panics"
   ],
   "note": "OR, values and panics proved in full; AND proved for conditions without OR outside brackets, false otherwise (C56_and_false). C56_exact: what the joined text means for any readable conditions."
  },
  {
   "property": "C57",
   "status": "partial",
   "theorems": [
    "Query.C57_alias_exact",
    "Query.C57_alias_false",
    "Query.C57_alias_partial",
    "Query.C57_field",
    "Query.C57_table",
    "Query.C57_write"
   ],
   "note": "Proved for field definitions, table identifiers (C57_table) and write builders, except that Alias of a field is empty until As is called, against its comment (C57_alias_false). C57_alias_exact: for which specifications the alias is the name before As."
  },
  {
   "property": "C58",
   "status": "proved",
   "theorems": [
    "Query.C58_group",
    "Query.C58_method",
    "Query.C58_newGroup",
    "Query.C58_not",
    "Query.C58_operation",
    "Query.C58_where"
   ],
   "note": ""
  },
  {
   "property": "C59",
   "status": "partial",
   "theorems": [
    "Query.C59_alias_false",
    "Query.C59_exact",
    "Query.C59_many_partial",
    "Query.C59_says_tree_partial",
    "Query.C59_says_where_partial",
    "Query.C59_select_partial",
    "Query.C59_single_partial",
    "Query.C59_where_partial"
   ],
   "note": "Proved for builders over plain identifiers and readable conditions (see C22); conditions mean what the tree says where its brackets do (C08) and the conjunction of all Where calls (C12). C59_exact: any chain of Where calls with any readable conditions returns exactly the rows on which whereSem (C12_exact) is true. A column with alias in a condition gives a text no database runs (C59_alias_false)."
  },
  {
   "property": "C60",
   "status": "partial",
   "theorems": [
    "Query.C60_alias_false",
    "Query.C60_count_partial",
    "Query.C60_exact",
    "Query.C60_field_exact"
   ],
   "note": "Proved for builders over plain identifiers and readable conditions (see C22); Count of an aliased field counts the alias and fails (C60_alias_false). C60_exact: the same for Count of any chain of Where calls. C60_field_exact: Count of any field counts the column its key names."
  },
  {
   "property": "C61",
   "status": "partial",
   "theorems": [
    "Query.C61_alias_false",
    "Query.C61_delete_partial",
    "Query.C61_derived_exact",
    "Query.C61_derived_partial",
    "Query.C61_exact",
    "Query.C61_join_false",
    "Query.C61_single_false"
   ],
   "note": "Proved for builders over plain identifiers and readable conditions (see C22); derived DELETE: proved for selects over one table without alias; false with joins, with a table alias used in conditions, and for limits (C61_join_false, C61_alias_false, C61_single_false). C61_exact: any chain of Where calls removes exactly the rows on which whereSem is true. C61_derived_exact: derived DELETE of any select over one table, whatever columns its conditions read."
  },
  {
   "property": "C62",
   "status": "partial",
   "theorems": [
    "Query.C62_alias_false",
    "Query.C62_columns",
    "Query.C62_derived_exact",
    "Query.C62_derived_partial",
    "Query.C62_exact",
    "Query.C62_join_false",
    "Query.C62_single_false",
    "Query.C62_slice_false",
    "Query.C62_update_partial",
    "Query.C62_where_exact"
   ],
   "note": "Proved for builders over plain identifiers and readable conditions (see C22); derived UPDATE: proved for selects over one table without alias; columns set twice are excluded, the database rejects them. C62_exact: with slices the first value is set; C62_where_exact: any chain of Where calls. False with joins, a table alias, limits and slices (C62_join_false, C62_alias_false, C62_single_false, C62_slice_false). C62_derived_exact: derived UPDATE likewise."
  },
  {
   "property": "C63",
   "status": "partial",
   "theorems": [
    "Query.C63_exact",
    "Query.C63_insert_partial",
    "Query.C63_slice_false"
   ],
   "note": "Proved for plain names and values that bind one parameter (see C44); columns given twice are excluded, the database rejects them. C63_exact: with slices the last value is stored (C63_slice_false)."
  },
  {
   "property": "C64",
   "status": "partial",
   "theorems": [
    "Query.C64_exact",
    "Query.C64_narrow_partial",
    "Query.C64_or_false"
   ],
   "note": "Proved for builders over plain identifiers and readable conditions (see C22); false for an Or in the first Where (C64_or_false). C64_exact: which rows any further Where call leaves, whatever the shapes."
  },
  {
   "property": "C65",
   "status": "partial",
   "theorems": [
    "Query.C65_exact",
    "Query.C65_fresh_partial",
    "Query.C65_key_alias",
    "Query.C65_key_column",
    "Query.C65_limit_partial",
    "Query.C65_limit_zero_false",
    "Query.C65_one_key",
    "Query.C65_pages_partial",
    "Query.C65_sorted_partial"
   ],
   "note": "Proved for builders over plain identifiers and readable conditions (see C22); Limit(0) returns all rows (C65_limit_zero_false). C65_exact: single and many builders with any chain of Where calls. C65_fresh_partial: a new select of many rows carries no page, so it returns every matching row."
  },
  {
   "property": "C66",
   "status": "proved",
   "theorems": [
    "Query.C66_condition",
    "Query.C66_delete",
    "Query.C66_delete_exact",
    "Query.C66_many_exact",
    "Query.C66_select",
    "Query.C66_update",
    "Query.C66_update_exact"
   ],
   "note": ""
  },
  {
   "property": "C67",
   "status": "partial",
   "theorems": [
    "Query.C67_count_column_exact",
    "Query.C67_count_exact",
    "Query.C67_count_partial",
    "Query.C67_delete_exact",
    "Query.C67_delete_partial",
    "Query.C67_insert",
    "Query.C67_or_false",
    "Query.C67_rows_exact",
    "Query.C67_rows_partial",
    "Query.C67_select_exact",
    "Query.C67_select_partial",
    "Query.C67_update_exact",
    "Query.C67_update_partial"
   ],
   "note": "Proved for every program over plain identifiers, `*` and `t.*` in Fields included (`SelectProg.OK`, `UpdateProg.OK`, `DeleteProg.OK`; INSERT without exception); false for an Or in the first Where (C67_or_false). Outside: joins on columns without a table, Or on a test for NULL (see C14, C22). What any clauses in any Where calls do: C67_select_exact, C67_rows_exact, C67_count_exact, C67_update_exact, C67_delete_exact (`wheresSay`), C67_count_column_exact (Count of a column)."
  },
  {
   "property": "C68",
   "status": "proved",
   "theorems": [
    "Query.C68_delete",
    "Query.C68_field",
    "Query.C68_insert",
    "Query.C68_map",
    "Query.C68_select",
    "Query.C68_table",
    "Query.C68_update",
    "Query.C68_validate"
   ],
   "note": ""
  },
  {
   "property": "C69",
   "status": "partial",
   "theorems": [
    "Query.C69_exact",
    "Query.C69_false",
    "Query.C69_field_partial",
    "Query.C69_newFields_partial",
    "Query.C69_sort_partial",
    "Query.C69_table_partial",
    "Query.C69_values_exact"
   ],
   "note": "True for Field, Table, a wrong direction of OrderBy, and NewFields with admitted types. False (C69_false): ASC and DESC of an invalid name, and NewFields with another type, panic with strings. C69_values_exact: Values panics with an error of the package for a valuer that fails in a slice of its own type, and with a runtime error for nil elements. C69_exact: which calls panic with a value outside the package's errors."
  },
  {
   "property": "C70",
   "status": "proved",
   "theorems": [
    "Query.C70_apply",
    "Query.C70_combining_why",
    "Query.C70_expression",
    "Query.C70_no_nil",
    "Query.C70_reading",
    "Query.C70_reading_why",
    "Query.C70_statement"
   ],
   "note": ""
  },
  {
   "property": "C71",
   "status": "partial",
   "theorems": [
    "Query.C71_apply",
    "Query.C71_combining_partial",
    "Query.C71_exact",
    "Query.C71_first",
    "Query.C71_first_false",
    "Query.C71_new",
    "Query.C71_reading",
    "Query.C71_statement",
    "Query.C71_statement_exact"
   ],
   "note": "False for a pointer as first argument of the functions And and Or with further arguments (C71_first_false): And(&g, c) does not bracket g. C71_exact, C71_statement_exact: what every expression with pointers anywhere in it evaluates and renders to (such a first argument counts as a group of one member, C71_first). C71_combining_partial, C71_reading, C71_apply and C71_statement cover the single calls. C71_new: the same for statements on new builders."
  },
  {
   "property": "C72",
   "status": "proved",
   "theorems": [
    "Query.C72_course",
    "Query.C72_guard",
    "Query.C72_runs",
    "Query.C72_runs_exact",
    "Query.C72_text"
   ],
   "note": "C72_runs_exact: calls succeed in memory exactly when they succeed on plain values and no Apply call has a receiver in which a group contains itself."
  },
  {
   "property": "C73",
   "status": "partial",
   "theorems": [
    "Query.C73_apart_partial",
    "Query.C73_culprit_partial",
    "Query.C73_kept_partial",
    "Query.C73_put_partial",
    "Query.C73_spelled_partial",
    "Query.C73_untainted_partial",
    "Query.C73_value_slice_false",
    "Query.C73_value_slice_now_partial",
    "Query.C73_value_slice_partial",
    "Query.C73_value_slice_put_partial",
    "Query.C73_value_slice_text_partial"
   ],
   "note": "Proved for lists passed with `...` to every variadic call, whatever is shared (C73_kept, C73_apart, C73_put), and as equality with the calls written out for programs that extend no list of a value twice (C73_spelled). For programs of any shape (values extended often, Apply calls) C73_untainted_partial: every list holds what was put in, and each value that no call spoilt reads as with the elements written out; C73_culprit_partial: whatever reads otherwise was spoilt by a call, never by a write into a list. False for a slice given as a value (C73_value_slice_false): FieldValue keeps the slice and reads it when the query is built; C73_value_slice_now_partial, C73_value_slice_put_partial, C73_value_slice_partial and C73_value_slice_text_partial say what happens then: the text stays, the parameters are the elements at the time of reading."
  },
  {
   "property": "C74",
   "status": "partial",
   "theorems": [
    "Query.C74_culprit",
    "Query.C74_moments_partial",
    "Query.C74_race_false",
    "Query.C74_reads_partial",
    "Query.C74_threads_partial",
    "Query.C74_turns",
    "Query.C74_untainted",
    "Query.C74_writes_partial"
   ],
   "note": "Proved for goroutines that keep apart: each by itself extends no list and completes no join twice, and no two extend the same list of a shared value (C74_threads_partial, with C74_turns for the turns and C74_writes_partial for what a call may write). False without that condition: two goroutines that call Where on the same select (C74_race_false). A call is one step of the model in C74_threads_partial; C74_writes_partial shows that calls write no cell that existed before, but for On, and C74_moments_partial and C74_reads_partial that a call (or a read) spread over time, seeing each cell at a moment of its own since its operands were made, gives the same value by the same writes. C74_untainted and C74_culprit need no condition on what is shared: a value reads as its goroutine's own calls say unless a call of some goroutine spoilt it or a value it was made from."
  },
  {
   "property": "C75",
   "status": "proved",
   "theorems": [
    "Query.C75_each",
    "Query.C75_goroutines",
    "Query.C75_goroutines_calls",
    "Query.C75_goroutines_reads",
    "Query.C75_once",
    "Query.C75_overlapping_calls",
    "Query.C75_overlapping_reads",
    "Query.C75_result",
    "Query.C75_runs",
    "Query.C75_torn_changes",
    "Query.C75_twice_changes"
   ],
   "note": "Proved for every history that uses no value twice (C75_once, C75_result, C75_each, C75_runs), and for goroutines that together use no value twice (C75_goroutines). Calls and reading need not happen at one moment: a call, Apply calls included, that sees each cell of the memory at some moment since its operands were there returns the same value by the same writes (C75_overlapping_calls, C75_goroutines_calls), and a value not used up reads the same (C75_overlapping_reads, C75_goroutines_reads); C75_torn_changes is a value read while it is being used up. C75_twice_changes shows why once: a group that is an argument of two calls, and ApplyFieldTable on one of the results changes the other."
  },
  {
   "property": "C76",
   "status": "partial",
   "theorems": [
    "Query.C76_base_exact",
    "Query.C76_forgets_exact",
    "Query.C76_inner_exact",
    "Query.C76_many_exact",
    "Query.C76_many_false",
    "Query.C76_one_false",
    "Query.C76_rows_partial",
    "Query.C76_same_text_exact",
    "Query.C76_settings_exact",
    "Query.C76_single_exact",
    "Query.C76_single_false"
   ],
   "note": "Table, joins, fields and conditions stay through any series of calls (C76_inner_exact). Which settings survive is proved for any series (C76_settings_exact, C76_single_exact, C76_many_exact, C76_base_exact, C76_forgets_exact, C76_same_text_exact); with rows for plain builders without settings (C76_rows_partial). False otherwise: Single() drops the ordering (C76_single_false), Many() the page (C76_many_false), OrderBy on a single-row builder the LIMIT 1 (C76_one_false)."
  },
  {
   "property": "C77",
   "status": "partial",
   "theorems": [
    "Query.C77_exact",
    "Query.C77_false",
    "Query.C77_params",
    "Query.C77_partial",
    "Query.C77_partial_rows",
    "Query.C77_where",
    "Query.C77_where_false",
    "Query.C77_where_partial"
   ],
   "note": "What the text of any expression says is computed exactly, with the panics (C77_exact, C77_where), and so are its tests and parameters (C77_params). It is what the expression reads as when every call takes its arguments as its name says (C77_partial, C77_partial_rows, C77_where_partial), which is computed from join words, brackets and NOTs. Otherwise it may not be (C77_false, C77_where_false): And(d, And(Or(a, b), c)) is d OR (a OR b) AND c."
  },
  {
   "property": "C78",
   "status": "partial",
   "theorems": [
    "Query.C78_count_column_exact",
    "Query.C78_count_exact",
    "Query.C78_count_partial",
    "Query.C78_delete_exact",
    "Query.C78_delete_partial",
    "Query.C78_false",
    "Query.C78_rows_exact",
    "Query.C78_rows_partial",
    "Query.C78_select_exact",
    "Query.C78_select_partial",
    "Query.C78_update_exact",
    "Query.C78_update_partial"
   ],
   "note": "Rows, counts, updates and deletes are computed exactly for any nesting, with the panics (C78_*_exact, what the text asks for by the rules of C77). Counting a column: C78_count_column_exact. They are what the expressions read as when every And, Or, Not and Where does what its name says (C78_*_partial; wheresClear is computed from join words, brackets and NOTs, the same on all rows). Otherwise they may not be (C78_false: Delete.Where(Or(a, b)).Where(b) removes rows on which b is false)."
  },
  {
   "property": "C79",
   "status": "proved",
   "theorems": [
    "Query.C79_goroutines",
    "Query.C79_goroutines_meant",
    "Query.C79_meant",
    "Query.C79_others",
    "Query.C79_programs"
   ],
   "note": "C79_programs: select, count, insert, update and delete programs, and programs over selects of any kind that end by reading, counting rows, counting a column or writing through the select (C81), as histories of single calls on the slice heap, from any memory; Says is what C78, C67 and C81 give. Programs whose calls panic (Sound is false) are those of C78_*_exact. C79_others: every reading call on every value made before. C79_goroutines: goroutines with programs of their own, in any order of turns. C79_meant, C79_goroutines_meant: for clear programs the statements do what the programs say, all calls taken at their word."
  },
  {
   "property": "C80",
   "status": "partial",
   "theorems": [
    "Query.C80_accepted_false",
    "Query.C80_base",
    "Query.C80_count",
    "Query.C80_delete",
    "Query.C80_false",
    "Query.C80_insert",
    "Query.C80_many",
    "Query.C80_plain_exact",
    "Query.C80_plain_partial",
    "Query.C80_single",
    "Query.C80_update"
   ],
   "note": "False: names with brackets, commas, semicolons or = and keywords are accepted (C80_false: a DELETE removes a row its condition excludes; C80_accepted_false). What holds, exactly: C80_base/single/many/count/insert/update/delete are equivalences, for builders of any names the text reads back to what the builder holds just if every name is plain; C80_plain_exact: plain names are parts with dots between them, each of word characters, none empty or with a digit first, the first no keyword. The conditions are asked to have the shape of SQL (ShapedNode: one value per comparison, no aliases, no empty groups), see C66 for the others."
  },
  {
   "property": "C81",
   "status": "partial",
   "theorems": [
    "Query.C81_calls",
    "Query.C81_count_column_exact",
    "Query.C81_count_exact",
    "Query.C81_delete",
    "Query.C81_delete_exact",
    "Query.C81_delete_rows_partial",
    "Query.C81_false",
    "Query.C81_insert",
    "Query.C81_lost",
    "Query.C81_rows_exact",
    "Query.C81_rows_partial",
    "Query.C81_update",
    "Query.C81_update_exact",
    "Query.C81_update_rows_partial"
   ],
   "note": "C81_calls: a program makes the select that its calls that count make (KCall.eff: an ordering or page is forgotten by a later Single or Many), seen as one of the kind the calls end with; C81_rows_exact, C81_count_exact and C81_count_column_exact give its rows and count, with the panics; C81_delete, C81_update, C81_insert: writing through the select makes the very builder of the table with the same Where calls; C81_delete_exact, C81_update_exact: what that does, for all conditions. The rows are those asked for when ordering and page come after the last change of kind and not on a select of one row (C81_rows_partial); otherwise they may not be (C81_false: OrderBy then Single reads another row). KindProg.OK leaves out Fields on a select of one row; C81_lost: with it, whatever else is called, the select is no statement, nor is its count, and writing through it is refused."
  },
  {
   "property": "C82",
   "status": "proved",
   "theorems": [
    "Query.C82_count",
    "Query.C82_fields",
    "Query.C82_select",
    "Query.C82_write"
   ],
   "note": ""
  },
  {
   "property": "C83",
   "status": "partial",
   "theorems": [
    "Query.C83_false",
    "Query.C83_same_text_partial"
   ],
   "note": "Proved for builders of all kinds over plain names with readable conditions and one value per set column (C83_same_text_partial; the parameters are the values told in order, so equal parameters and equal values are the same thing). False for names that are no plain names (C83_false: a table called `a, t`)."
  },
  {
   "property": "C84",
   "status": "partial",
   "theorems": [
    "Query.C84_false",
    "Query.C84_kept_partial",
    "Query.C84_later_partial",
    "Query.C84_linear_partial",
    "Query.C84_memory_partial",
    "Query.C84_once_partial",
    "Query.C84_slice_partial",
    "Query.C84_untainted_partial",
    "Query.C84_values_partial"
   ],
   "note": "C84_values_partial and C84_memory_partial: for every replacement of values, on plain values and in shared memory, calls commute with the replacement, failures included; C84_later_partial: reading after the change gives exactly what the same history with the changed values gives, so every theorem about ReadsAs applies; C84_once_partial does this for histories with Apply calls that use every value once, C84_untainted_partial for any value not spoilt in any history; C84_slice_partial ties the replacement to slices in memory. False for FieldName.Value of a ValueProvider, which calls DatabaseValue at once (C84_false)."
  },
  {
   "property": "C85",
   "status": "partial",
   "theorems": [
    "Query.C85_count_partial",
    "Query.C85_delete_exact",
    "Query.C85_delete_partial",
    "Query.C85_false",
    "Query.C85_insert",
    "Query.C85_rows_exact",
    "Query.C85_rows_partial",
    "Query.C85_tests_count_partial",
    "Query.C85_tests_delete_partial",
    "Query.C85_tests_partial",
    "Query.C85_tests_update_partial",
    "Query.C85_update_exact",
    "Query.C85_update_partial"
   ],
   "note": "C85_rows_partial, C85_count_partial, C85_update_partial, C85_delete_partial: for chains in which every And, Or, Not and Where does what its name says, in either order; without this hypothesis for conditions that are tests and negations of tests (C85_tests_…). C85_insert has no exception. False otherwise (C85_false): Where(id = 3).Where(Or(a = 7, id = 3)) and the same two calls in the other order remove different rows. C85_rows_exact, C85_update_exact, C85_delete_exact say for all conditions what the moved chain does: what the first chain would do with the text of the moved Where calls for a condition, so nothing but that text can make a difference."
  },
  {
   "property": "C86",
   "status": "proved",
   "theorems": [
    "Query.C86_delete",
    "Query.C86_delete_again",
    "Query.C86_insert",
    "Query.C86_right_join_stays",
    "Query.C86_update",
    "Query.C86_update_again"
   ],
   "note": "C86_delete, C86_insert, C86_update: run as statements on any database; C86_delete_again, C86_update_again: run twice is run once. The conditions must be ones the builder accepts (wheresSound; otherwise nothing is built, C81). RIGHT and FULL joins are outside the claim: rows without a row of the first table stay after the delete (C86_right_join_stays)."
  },
  {
   "property": "C87",
   "status": "partial",
   "theorems": [
    "Query.C87_count_exact",
    "Query.C87_count_partial",
    "Query.C87_delete_exact",
    "Query.C87_delete_partial",
    "Query.C87_false",
    "Query.C87_laws",
    "Query.C87_rows_exact",
    "Query.C87_rows_partial",
    "Query.C87_update_exact",
    "Query.C87_update_partial"
   ],
   "note": "C87_rows_partial, C87_count_partial, C87_delete_partial, C87_update_partial: for programs in which every And, Or, Not and Where does what its name says, before and after the exchange (wheresClear); C87_laws: the laws hold in three-valued logic and keep the columns. False otherwise (C87_false): Not(Not(a = 7)) reads NOT a = 7. C87_rows_exact says for all conditions what the exchanged program reads: what the first one would read with the text of the exchanged Where calls for a condition; C87_count_exact, C87_delete_exact, C87_update_exact likewise."
  },
  {
   "property": "C88",
   "status": "proved",
   "theorems": [
    "Query.C88_count",
    "Query.C88_delete",
    "Query.C88_goroutines",
    "Query.C88_memory",
    "Query.C88_rows",
    "Query.C88_spelled",
    "Query.C88_update"
   ],
   "note": "C88_spelled: spelled out (Spec/Spelled.lean) every call does what its name says and the text of the WHERE clause says what was meant; C88_rows, C88_count, C88_delete, C88_update: what the statements do, for all conditions. C88_memory, C88_goroutines: lists of programs of every kind in one shared memory, one after another and woven together (Settled: a select that is read has no ordering or page that a change of kind forgot). This is how the exceptions of C09-C12, C67, C78, C81, C85 and C87 can be avoided."
  },
  {
   "property": "C89",
   "status": "partial",
   "theorems": [
    "Query.C89_alias_false",
    "Query.C89_calls_partial",
    "Query.C89_ends_goroutines_partial",
    "Query.C89_ends_partial",
    "Query.C89_goroutines_partial",
    "Query.C89_memory_partial",
    "Query.C89_rows_partial",
    "Query.C89_runs_partial",
    "Query.C89_text_partial"
   ],
   "note": "C89_calls_partial: the condition is the very one written with the columns at once, panics included; C89_text_partial: what its text says, for every nesting, exceptions of C77 included; C89_runs_partial, C89_rows_partial: programs on a select of any kind; C89_memory_partial, C89_goroutines_partial, C89_ends_partial, C89_ends_goroutines_partial: many such programs in one memory and in goroutines, also when they end with Count, Delete, Update or InsertInto. Missing: a field specification with an alias, which makes no statement (C89_alias_false, see C33). That ApplyFieldTable also changes the group it is called on, for whoever uses that group again, is C34, C35 and C75."
  },
  {
   "property": "C90",
   "status": "proved",
   "theorems": [
    "Query.C90_condition",
    "Query.C90_count",
    "Query.C90_count_nothing_else",
    "Query.C90_delete",
    "Query.C90_every_condition",
    "Query.C90_every_delete",
    "Query.C90_every_expression",
    "Query.C90_every_insert",
    "Query.C90_every_select",
    "Query.C90_every_update",
    "Query.C90_exactly",
    "Query.C90_exactly_delete",
    "Query.C90_exactly_insert",
    "Query.C90_exactly_update",
    "Query.C90_insert",
    "Query.C90_nothing_else",
    "Query.C90_select",
    "Query.C90_select_nothing_else",
    "Query.C90_single",
    "Query.C90_single_nothing_else",
    "Query.C90_update"
   ],
   "note": "C90_every_expression: every expression of SQL over the tests of the library, placeholders numbered from left to right, is one that can be wished for (Spec/Wish.lean); C90_condition, C90_every_condition: the calls succeed and the text reads as exactly that expression, at every offset. C90_nothing_else, C90_exactly: the converse, so these are exactly the expressions conditions say, whatever the calls; C90_exactly_delete, C90_exactly_update, C90_exactly_insert: exactly the statements; C90_select_nothing_else, C90_single_nothing_else, C90_count_nothing_else: every SELECT and count has its condition among these, numbered from 1, OFFSET and LIMIT last. C90_delete, C90_update, C90_insert, C90_select, C90_single, C90_count: the statements, placeholder by placeholder; C90_every_select, C90_every_delete, C90_every_update, C90_every_insert: the same starting from SQL. LIKE is said only with percent signs at both ends, as the library adds them."
  },
  {
   "property": "C91",
   "status": "proved",
   "theorems": [
    "Query.C91_calls",
    "Query.C91_condition",
    "Query.C91_delete",
    "Query.C91_question_marks",
    "Query.C91_select",
    "Query.C91_where"
   ],
   "note": "C91_condition: any condition that is SQL, by its tests and groups; C91_calls: any nesting of calls, at most three groups for each combining call; C91_where: chains of Where calls; C91_select, C91_delete: the statements around it. C91_question_marks: the text with question marks is no longer, for all conditions of the library. Upper bounds, not the exact length."
  }
 ]
}
