import Verif.Tests.Base
import Verif.Model.Access
import Verif.Model.Write

/-! Generated by tools/gen_tests.py from the table-driven tests of the repository: field_definition_test.go, field_name_test.go, fields_test.go, join_condition_test.go, join_tables_test.go, join_type_test.go, limiter_test.go, op_type_test.go, ordering_test.go, table_ident_test.go, table_name_test.go, utils_test.go, value_test.go.

Each `example` is one row of a table: the expression of the row, translated call by call into the model, has the result
the authors of the code wrote in the row.  These are tests of the model, not proofs of properties. -/

namespace Query

/-! ### `TestFieldSpec_Render`, field_definition_test.go:63 -/

/-- only_name -/
example : ((field c!"test").bind fun r => Res.ok r.renderSpec) = .ok c!"test" := by rfl
/-- table_dot_name -/
example : (((field c!"test").bind fun x1 => Res.ok (x1.of c!"table")).bind fun r => Res.ok r.renderSpec) = .ok c!"table.test" := by rfl
/-- name_as_alias -/
example : (((field c!"test").bind fun x1 => Res.ok (x1.as c!"Name")).bind fun r => Res.ok r.renderSpec) = .ok c!"test AS Name" := by rfl
/-- table_name_as_alias -/
example : ((((field c!"test").bind fun x1 => Res.ok (x1.of c!"table")).bind fun x2 => Res.ok (x2.as c!"Name")).bind fun r => Res.ok r.renderSpec) = .ok c!"table.test AS Name" := by rfl
/-- empty_table_returns_as without_table -/
example : ((((field c!"test").bind fun x1 => Res.ok (x1.of c!"")).bind fun x2 => Res.ok (x2.as c!"Name")).bind fun r => Res.ok r.renderSpec) = .ok c!"test AS Name" := by rfl
/-- empty_alias_returns_as_without_alias -/
example : (((field c!"test").bind fun x1 => Res.ok (x1.as c!"")).bind fun r => Res.ok r.renderSpec) = .ok c!"test" := by rfl

/-! ### `TestFieldSpec_RenderField`, field_definition_test.go:85 -/

/-- name -/
example : ((field c!"test").bind fun r => Res.ok r.renderField) = .ok c!"test" := by rfl
/-- table_and_name -/
example : (((field c!"test").bind fun x1 => Res.ok (x1.of c!"table")).bind fun r => Res.ok r.renderField) = .ok c!"table.test" := by rfl
/-- alias_no_table -/
example : (((field c!"test").bind fun x1 => Res.ok (x1.as c!"prod")).bind fun r => Res.ok r.renderField) = .ok c!"prod" := by rfl
/-- table_but_alias -/
example : ((((field c!"test").bind fun x1 => Res.ok (x1.of c!"table")).bind fun x2 => Res.ok (x2.as c!"prod")).bind fun r => Res.ok r.renderField) = .ok c!"prod" := by rfl
/-- alias_with_table -/
example : ((((field c!"test").bind fun x1 => Res.ok (x1.as c!"prod")).bind fun x2 => Res.ok (x2.of c!"table")).bind fun r => Res.ok r.renderField) = .ok c!"prod" := by rfl

/-! ### `TestField`, field_definition_test.go:104 -/

/-- ok_simple_field_name -/
example : fieldOrError c!"f1" = .ok ⟨c!"f1", c!"", c!""⟩ := by rfl
/-- ok_table_dot_name -/
example : fieldOrError c!"table.f1" = .ok ⟨c!"f1", c!"table", c!""⟩ := by rfl
/-- ok_name_as_alias -/
example : fieldOrError c!"f1 as field1" = .ok ⟨c!"f1", c!"", c!"field1"⟩ := by rfl
/-- ok_table_dot_name_as_alias -/
example : fieldOrError c!"table.f1 as field1" = .ok ⟨c!"f1", c!"table", c!"field1"⟩ := by rfl
/-- nok_2_tokens -/
example : isErr (fieldOrError c!"table f1") = true := by rfl
/-- nok_3_tokens_but_not_as -/
example : isErr (fieldOrError c!"life is life") = true := by rfl
/-- nok_3_plus_tokens -/
example : isErr (fieldOrError c!"table f1 f2 f3") = true := by rfl

/-! ### `TestFieldName_Validate`, field_name_test.go:11 -/

/-- ok_simple_id -/
example : isErr (validate c!"field") = false := by rfl
/-- ok_table_spec -/
example : isErr (validate c!"table.field") = false := by rfl
/-- nok_empty -/
example : isErr (validate c!"") = true := by rfl
/-- nok_starts_with_dot -/
example : isErr (validate c!".field") = true := by rfl
/-- nok_ends_with_dot -/
example : isErr (validate c!"field.") = true := by rfl
/-- nok_contains_quote -/
example : isErr (validate c!"field'") = true := by rfl
/-- nok_contains_double_quote -/
example : isErr (validate c!"field\"") = true := by rfl
/-- nok_contains_space -/
example : isErr (validate c!"f ie ld ") = true := by rfl
/-- nok_contains_multiple_dots -/
example : isErr (validate c!"database.table.field") = true := by rfl

/-! ### `TestFields_FieldList`, fields_test.go:11 -/

/-- empty -/
example : ((newFields []).bind fun r => Res.ok r.fieldList) = .ok c!"*" := by rfl
/-- str -/
example : (((Res.ok (some (FieldParam.str c!"test"))).bind fun x1 => newFields [x1]).bind fun r => Res.ok r.fieldList) = .ok c!"test" := by rfl
/-- str_as -/
example : (((Res.ok (some (FieldParam.str c!"test as t1"))).bind fun x1 => newFields [x1]).bind fun r => Res.ok r.fieldList) = .ok c!"test AS t1" := by rfl
/-- str_table_as -/
example : (((Res.ok (some (FieldParam.str c!"table.test as t1"))).bind fun x1 => newFields [x1]).bind fun r => Res.ok r.fieldList) = .ok c!"table.test AS t1" := by rfl
/-- name -/
example : (((Res.ok (some (FieldParam.name c!"test"))).bind fun x1 => newFields [x1]).bind fun r => Res.ok r.fieldList) = .ok c!"test" := by rfl
/-- name_as -/
example : (((Res.ok (some (FieldParam.name c!"test as t1"))).bind fun x1 => newFields [x1]).bind fun r => Res.ok r.fieldList) = .ok c!"test AS t1" := by rfl
/-- name_table_as -/
example : (((Res.ok (some (FieldParam.name c!"table.test as t1"))).bind fun x1 => newFields [x1]).bind fun r => Res.ok r.fieldList) = .ok c!"table.test AS t1" := by rfl
/-- name_table_as_x2 -/
example : (((Res.ok (some (FieldParam.name c!"t1.f1 as s1"))).bind fun x1 => (Res.ok (some (FieldParam.name c!"t2.f2 as s2"))).bind fun x2 => newFields [x1, x2]).bind fun r => Res.ok r.fieldList) = .ok c!"t1.f1 AS s1, t2.f2 AS s2" := by rfl
/-- field -/
example : ((((field c!"test").bind fun y => Res.ok (some (FieldParam.defn y))).bind fun x1 => newFields [x1]).bind fun r => Res.ok r.fieldList) = .ok c!"test" := by rfl
/-- field_as -/
example : (((((field c!"test").bind fun x2 => Res.ok (x2.as c!"t1")).bind fun y => Res.ok (some (FieldParam.defn y))).bind fun x1 => newFields [x1]).bind fun r => Res.ok r.fieldList) = .ok c!"test AS t1" := by rfl
/-- field_table_as -/
example : ((((((field c!"test").bind fun x2 => Res.ok (x2.as c!"t1")).bind fun x3 => Res.ok (x3.of c!"table")).bind fun y => Res.ok (some (FieldParam.defn y))).bind fun x1 => newFields [x1]).bind fun r => Res.ok r.fieldList) = .ok c!"table.test AS t1" := by rfl
/-- mix_str_and_name -/
example : (((Res.ok (some (FieldParam.str c!"test"))).bind fun x1 => (Res.ok (some (FieldParam.name c!"test1"))).bind fun x2 => newFields [x1, x2]).bind fun r => Res.ok r.fieldList) = .ok c!"test, test1" := by rfl
/-- mix_str_and_field -/
example : (((Res.ok (some (FieldParam.str c!"test"))).bind fun x1 => ((field c!"test1").bind fun y => Res.ok (some (FieldParam.defn y))).bind fun x2 => newFields [x1, x2]).bind fun r => Res.ok r.fieldList) = .ok c!"test, test1" := by rfl
/-- mix_name_and_field -/
example : (((Res.ok (some (FieldParam.name c!"test"))).bind fun x1 => ((field c!"test1").bind fun y => Res.ok (some (FieldParam.defn y))).bind fun x2 => newFields [x1, x2]).bind fun r => Res.ok r.fieldList) = .ok c!"test, test1" := by rfl
/-- mix_str_name_and_field -/
example : (((Res.ok (some (FieldParam.str c!"f1"))).bind fun x1 => (Res.ok (some (FieldParam.name c!"table1.field2"))).bind fun x2 => ((((field c!"field3").bind fun x4 => Res.ok (x4.of c!"table2")).bind fun x5 => Res.ok (x5.as c!"f3")).bind fun y => Res.ok (some (FieldParam.defn y))).bind fun x3 => newFields [x1, x2, x3]).bind fun r => Res.ok r.fieldList) = .ok c!"f1, table1.field2, table2.field3 AS f3" := by rfl

/-! ### `TestJoinCondition_Render`, join_condition_test.go:9 -/

/-- join_table -/
example : (((field c!"t1.f1").bind fun x1 => (field c!"t2.f2").bind fun x2 => Res.ok (joinFields x1 x2)).bind fun r => Res.ok r.render) = .ok c!"t1.f1=t2.f2" := by rfl
/-- join_as -/
example : (((field c!"t1.f1 as s1").bind fun x1 => (field c!"t2.f2 as s2").bind fun x2 => Res.ok (joinFields x1 x2)).bind fun r => Res.ok r.render) = .ok c!"t1.f1=t2.f2" := by rfl
/-- join_as_left -/
example : (((field c!"t1.f1 as s1").bind fun x1 => (field c!"t2.f2").bind fun x2 => Res.ok (joinFields x1 x2)).bind fun r => Res.ok r.render) = .ok c!"t1.f1=t2.f2" := by rfl
/-- join_as_right -/
example : (((field c!"t1.f1").bind fun x1 => (field c!"t2.f2 as s2").bind fun x2 => Res.ok (joinFields x1 x2)).bind fun r => Res.ok r.render) = .ok c!"t1.f1=t2.f2" := by rfl

/-! ### `TestTableJoiner_RenderFrom`, join_tables_test.go:9 -/

/-- full_definitions_inner -/
example : ((((table c!"table2").bind fun x1 => Res.ok (x1.as c!"t2")).bind fun x2 => ((field c!"table1.field1").bind fun x3 => (field c!"table2.field2").bind fun x4 => Res.ok (joinFields x3 x4)).bind fun x5 => Res.ok (newTableJoiner x2 innerJoin x5)).bind fun r => Res.ok r.renderFrom) = .ok c!"INNER JOIN table2 AS t2 ON table1.field1=table2.field2" := by rfl
/-- full_definitions_left -/
example : ((((table c!"table2").bind fun x1 => Res.ok (x1.as c!"t2")).bind fun x2 => ((field c!"table1.field1").bind fun x3 => (field c!"table2.field2").bind fun x4 => Res.ok (joinFields x3 x4)).bind fun x5 => Res.ok (newTableJoiner x2 leftJoin x5)).bind fun r => Res.ok r.renderFrom) = .ok c!"LEFT JOIN table2 AS t2 ON table1.field1=table2.field2" := by rfl
/-- full_definitions_right -/
example : ((((table c!"table2").bind fun x1 => Res.ok (x1.as c!"t2")).bind fun x2 => ((field c!"table1.field1").bind fun x3 => (field c!"table2.field2").bind fun x4 => Res.ok (joinFields x3 x4)).bind fun x5 => Res.ok (newTableJoiner x2 rightJoin x5)).bind fun r => Res.ok r.renderFrom) = .ok c!"RIGHT JOIN table2 AS t2 ON table1.field1=table2.field2" := by rfl
/-- full_definitions_full -/
example : ((((table c!"table2").bind fun x1 => Res.ok (x1.as c!"t2")).bind fun x2 => ((field c!"table1.field1").bind fun x3 => (field c!"table2.field2").bind fun x4 => Res.ok (joinFields x3 x4)).bind fun x5 => Res.ok (newTableJoiner x2 fullJoin x5)).bind fun r => Res.ok r.renderFrom) = .ok c!"FULL JOIN table2 AS t2 ON table1.field1=table2.field2" := by rfl

/-! ### `TestTableJoinType_String`, join_type_test.go:11 -/

/-- inner -/
example : joinTypeString innerJoin = c!"INNER JOIN" := by rfl
/-- left -/
example : joinTypeString leftJoin = c!"LEFT JOIN" := by rfl
/-- right -/
example : joinTypeString rightJoin = c!"RIGHT JOIN" := by rfl
/-- full -/
example : joinTypeString fullJoin = c!"FULL JOIN" := by rfl

/-! ### `TestTableJoinType_By`, join_type_test.go:29 -/

/-- inner_join -/
example : (((table c!"t1").bind fun x1 => x1.field c!"f1").bind fun x2 => ((table c!"t2").bind fun x3 => x3.field c!"f2").bind fun x4 => (joinTypeBy innerJoin x2 x4).bind fun t => Res.ok t.renderFrom) = .ok c!"INNER JOIN t2 ON t1.f1=t2.f2" := by rfl
/-- left_join -/
example : (((table c!"t1").bind fun x1 => x1.field c!"f1").bind fun x2 => ((table c!"t2").bind fun x3 => x3.field c!"f2").bind fun x4 => (joinTypeBy leftJoin x2 x4).bind fun t => Res.ok t.renderFrom) = .ok c!"LEFT JOIN t2 ON t1.f1=t2.f2" := by rfl
/-- right_join -/
example : (((table c!"t1").bind fun x1 => x1.field c!"f1").bind fun x2 => ((table c!"t2").bind fun x3 => x3.field c!"f2").bind fun x4 => (joinTypeBy rightJoin x2 x4).bind fun t => Res.ok t.renderFrom) = .ok c!"RIGHT JOIN t2 ON t1.f1=t2.f2" := by rfl
/-- full_join -/
example : (((table c!"t1").bind fun x1 => x1.field c!"f1").bind fun x2 => ((table c!"t2").bind fun x3 => x3.field c!"f2").bind fun x4 => (joinTypeBy fullJoin x2 x4).bind fun t => Res.ok t.renderFrom) = .ok c!"FULL JOIN t2 ON t1.f1=t2.f2" := by rfl

/-! ### `TestLimiter_Render`, limiter_test.go:11 -/

/-- empty -/
example : ((Res.ok (⟨0, 0⟩ : Limiter)).bind fun r => Res.ok (r.render 0)) = .ok c!"" := by rfl
/-- empty_shifted -/
example : ((Res.ok (⟨0, 0⟩ : Limiter)).bind fun r => Res.ok (r.render 1)) = .ok c!"" := by rfl
/-- limit -/
example : (((Res.ok (⟨0, 0⟩ : Limiter)).bind fun x1 => Res.ok (x1.setLimit 1)).bind fun r => Res.ok (r.render 0)) = .ok c!"LIMIT $1" := by rfl
/-- limit_shifted -/
example : (((Res.ok (⟨0, 0⟩ : Limiter)).bind fun x1 => Res.ok (x1.setLimit 1)).bind fun r => Res.ok (r.render 1)) = .ok c!"LIMIT $2" := by rfl
/-- offset -/
example : (((Res.ok (⟨0, 0⟩ : Limiter)).bind fun x1 => Res.ok (x1.setOffset 1)).bind fun r => Res.ok (r.render 0)) = .ok c!"OFFSET $1" := by rfl
/-- offset_shifted -/
example : (((Res.ok (⟨0, 0⟩ : Limiter)).bind fun x1 => Res.ok (x1.setOffset 1)).bind fun r => Res.ok (r.render 1)) = .ok c!"OFFSET $2" := by rfl
/-- limit_and_offset -/
example : ((((Res.ok (⟨0, 0⟩ : Limiter)).bind fun x1 => Res.ok (x1.setOffset 1)).bind fun x2 => Res.ok (x2.setLimit 1)).bind fun r => Res.ok (r.render 0)) = .ok c!"OFFSET $1 LIMIT $2" := by rfl
/-- limit_and_offset_shifted -/
example : ((((Res.ok (⟨0, 0⟩ : Limiter)).bind fun x1 => Res.ok (x1.setOffset 1)).bind fun x2 => Res.ok (x2.setLimit 1)).bind fun r => Res.ok (r.render 1)) = .ok c!"OFFSET $2 LIMIT $3" := by rfl

/-! ### `TestLimiter_RenderSQL`, limiter_test.go:36 -/

/-- empty -/
example : ((Res.ok (⟨0, 0⟩ : Limiter)).bind fun r => Res.ok r.renderSQL) = .ok c!"" := by rfl
/-- limit -/
example : (((Res.ok (⟨0, 0⟩ : Limiter)).bind fun x1 => Res.ok (x1.setLimit 1)).bind fun r => Res.ok r.renderSQL) = .ok c!"LIMIT ?" := by rfl
/-- offset -/
example : (((Res.ok (⟨0, 0⟩ : Limiter)).bind fun x1 => Res.ok (x1.setOffset 1)).bind fun r => Res.ok r.renderSQL) = .ok c!"OFFSET ?" := by rfl
/-- limit_and_offset -/
example : ((((Res.ok (⟨0, 0⟩ : Limiter)).bind fun x1 => Res.ok (x1.setOffset 1)).bind fun x2 => Res.ok (x2.setLimit 1)).bind fun r => Res.ok r.renderSQL) = .ok c!"OFFSET ? LIMIT ?" := by rfl

/-! ### `TestLimiter_Values`, limiter_test.go:54 -/

/-- empty -/
example : ((Res.ok (⟨0, 0⟩ : Limiter)).bind fun r => Res.ok r.values) = .ok [] := by rfl
/-- limit -/
example : (((Res.ok (⟨0, 0⟩ : Limiter)).bind fun x1 => Res.ok (x1.setLimit 1)).bind fun r => Res.ok r.values) = .ok [(.uint 1)] := by rfl
/-- offset -/
example : (((Res.ok (⟨0, 0⟩ : Limiter)).bind fun x1 => Res.ok (x1.setOffset 2)).bind fun r => Res.ok r.values) = .ok [(.uint 2)] := by rfl
/-- limit_and_offset -/
example : ((((Res.ok (⟨0, 0⟩ : Limiter)).bind fun x1 => Res.ok (x1.setOffset 3)).bind fun x2 => Res.ok (x2.setLimit 4)).bind fun r => Res.ok r.values) = .ok [(.uint 3), (.uint 4)] := by rfl

/-! ### `TestOperation_String`, op_type_test.go:9 -/

/-- select -/
example : operationString doSelect = c!"SELECT" := by rfl
/-- insert -/
example : operationString doInsert = c!"INSERT" := by rfl
/-- update -/
example : operationString doUpdate = c!"UPDATE" := by rfl
/-- delete -/
example : operationString doDelete = c!"DELETE" := by rfl

/-! ### `TestOrder`, ordering_test.go:11 -/

/-- ok_field_asc -/
example : ((orderBy c!"field" [ascending]).bind fun o => Res.ok o.render) = .ok c!"field ASC" := by rfl
/-- ok_field_desc -/
example : ((orderBy c!"field" [descending]).bind fun o => Res.ok o.render) = .ok c!"field DESC" := by rfl
/-- ok_field_spec_asc -/
example : ((orderBy c!"table.field" [ascending]).bind fun o => Res.ok o.render) = .ok c!"table.field ASC" := by rfl
/-- ok_field_spec_desc -/
example : ((orderBy c!"table.field" [descending]).bind fun o => Res.ok o.render) = .ok c!"table.field DESC" := by rfl
/-- ok_field_default_asc -/
example : ((orderBy c!"field" []).bind fun o => Res.ok o.render) = .ok c!"field ASC" := by rfl
/-- panics_unknown_direction -/
example : isPanic ((orderBy c!"field" [c!"here-and-there"]).bind fun o => Res.ok o.render) = true := by rfl
/-- panics_field_name_starts_with_dot -/
example : isPanic ((orderBy c!".field" [descending]).bind fun o => Res.ok o.render) = true := by rfl
/-- panics_field_name_ends_with_dot -/
example : isPanic ((orderBy c!"field." [descending]).bind fun o => Res.ok o.render) = true := by rfl
/-- panics_field_name_with_quote -/
example : isPanic ((orderBy c!"field'" [descending]).bind fun o => Res.ok o.render) = true := by rfl
/-- panics_field_name_with_double_quote -/
example : isPanic ((orderBy c!"field\"" [descending]).bind fun o => Res.ok o.render) = true := by rfl
/-- panics_field_name_contains_2_dots -/
example : isPanic ((orderBy c!"database.table.field" [descending]).bind fun o => Res.ok o.render) = true := by rfl
/-- panics_field_name_empty -/
example : isPanic ((orderBy c!"" [descending]).bind fun o => Res.ok o.render) = true := by rfl

/-! ### `TestFieldSorting_ApplyFieldSpec`, ordering_test.go:51 -/

/-- ok_plain_name -/
example : ((orderBy c!"f1" []).bind fun x1 => (field c!"f1").bind fun x2 => Res.ok (x1.applyFieldSpec x2).render) = .ok c!"f1 ASC" := by rfl
/-- ok_table_field_name -/
example : ((orderBy c!"f1" []).bind fun x1 => ((field c!"f1").bind fun x2 => Res.ok (x2.of c!"table")).bind fun x3 => Res.ok (x1.applyFieldSpec x3).render) = .ok c!"table.f1 ASC" := by rfl
/-- ok_alias_name -/
example : ((orderBy c!"f1" []).bind fun x1 => ((field c!"f1").bind fun x2 => Res.ok (x2.as c!"field1")).bind fun x3 => Res.ok (x1.applyFieldSpec x3).render) = .ok c!"field1 ASC" := by rfl
/-- ok_table_but_alias -/
example : ((orderBy c!"f1" []).bind fun x1 => (((field c!"f1").bind fun x2 => Res.ok (x2.of c!"table")).bind fun x3 => Res.ok (x3.as c!"field1")).bind fun x4 => Res.ok (x1.applyFieldSpec x4).render) = .ok c!"field1 ASC" := by rfl
/-- nok_not_matched -/
example : ((orderBy c!"f1" []).bind fun x1 => ((field c!"f21").bind fun x2 => Res.ok (x2.as c!"field1")).bind fun x3 => Res.ok (x1.applyFieldSpec x3).render) = .ok c!"f1 ASC" := by rfl

/-! ### `TestNewTableOrError`, table_ident_test.go:11 -/

/-- ok_table_name -/
example : tableOrError c!"baseTable" = .ok ⟨c!"baseTable", c!""⟩ := by rfl
/-- ok_name_as_alias -/
example : tableOrError c!"baseTable as t1" = .ok ⟨c!"baseTable", c!"t1"⟩ := by rfl
/-- ok_name_alias -/
example : tableOrError c!"baseTable t1" = .ok ⟨c!"baseTable", c!"t1"⟩ := by rfl
/-- nok_unexpected_format -/
example : isErr (tableOrError c!"baseTable t1 t2") = true := by rfl

/-! ### `TestTable`, table_ident_test.go:37 -/

/-- ok_table_name -/
example : table c!"baseTable" = .ok ⟨c!"baseTable", c!""⟩ := by rfl
/-- ok_name_as_alias -/
example : table c!"baseTable as t1" = .ok ⟨c!"baseTable", c!"t1"⟩ := by rfl
/-- ok_name_alias -/
example : table c!"baseTable t1" = .ok ⟨c!"baseTable", c!"t1"⟩ := by rfl
/-- nok_unexpected_format -/
example : isPanic (table c!"baseTable t1 t2") = true := by rfl

/-! ### `TestTable_As`, table_ident_test.go:68 -/

/-- set_alias -/
example : ((table c!"test").bind fun r => Res.ok (r.as c!"one").alias) = .ok c!"one" := by rfl
/-- reset_alias -/
example : (((table c!"test").bind fun x1 => Res.ok (x1.as c!"one")).bind fun r => Res.ok (r.as c!"two").alias) = .ok c!"two" := by rfl
/-- set_empty_alias -/
example : (((table c!"test").bind fun x1 => Res.ok (x1.as c!"one")).bind fun r => Res.ok (r.as c!"").alias) = .ok c!"" := by rfl
/-- set_alias_same_as_table_name -/
example : ((table c!"test").bind fun r => Res.ok (r.as c!"test").alias) = .ok c!"" := by rfl

/-! ### `TestTable_RenderFrom`, table_ident_test.go:87 -/

/-- name -/
example : ((table c!"table").bind fun r => Res.ok r.renderFrom) = .ok c!"table" := by rfl
/-- name_and_alias -/
example : (((table c!"table").bind fun x1 => Res.ok (x1.as c!"t1")).bind fun r => Res.ok r.renderFrom) = .ok c!"table AS t1" := by rfl
/-- name_only_if_alias_the_same -/
example : (((table c!"table").bind fun x1 => Res.ok (x1.as c!"table")).bind fun r => Res.ok r.renderFrom) = .ok c!"table" := by rfl

/-! ### `TestTable_Select`, table_ident_test.go:104 -/

/-- name -/
example : ((((table c!"table1").bind fun y => Res.ok (TableParam.ident y)).bind fun y => tableSelect y []).bind fun r => Res.ok r.tableName) = .ok c!"table1" := by rfl
/-- name -/
example : (((((table c!"table1").bind fun y => Res.ok (TableParam.ident y)).bind fun y => tableSelect y []).bind fun r => r.build).bind fun p => .ok p.1) = .ok c!"SELECT * FROM table1" := by rfl
/-- name_as -/
example : (((((table c!"table1").bind fun x2 => Res.ok (x2.as c!"t1")).bind fun y => Res.ok (TableParam.ident y)).bind fun y => tableSelect y []).bind fun r => Res.ok r.tableName) = .ok c!"table1" := by rfl
/-- name_as -/
example : ((((((table c!"table1").bind fun x4 => Res.ok (x4.as c!"t1")).bind fun y => Res.ok (TableParam.ident y)).bind fun y => tableSelect y []).bind fun r => r.build).bind fun p => .ok p.1) = .ok c!"SELECT * FROM table1 AS t1" := by rfl
/-- name_as_internal -/
example : ((((table c!"table1 as t1").bind fun y => Res.ok (TableParam.ident y)).bind fun y => tableSelect y []).bind fun r => Res.ok r.tableName) = .ok c!"table1" := by rfl
/-- name_as_internal -/
example : (((((table c!"table1 as t1").bind fun y => Res.ok (TableParam.ident y)).bind fun y => tableSelect y []).bind fun r => r.build).bind fun p => .ok p.1) = .ok c!"SELECT * FROM table1 AS t1" := by rfl
/-- name_AS_internal -/
example : ((((table c!"table1 AS t1").bind fun y => Res.ok (TableParam.ident y)).bind fun y => tableSelect y []).bind fun r => Res.ok r.tableName) = .ok c!"table1" := by rfl
/-- name_AS_internal -/
example : (((((table c!"table1 AS t1").bind fun y => Res.ok (TableParam.ident y)).bind fun y => tableSelect y []).bind fun r => r.build).bind fun p => .ok p.1) = .ok c!"SELECT * FROM table1 AS t1" := by rfl

/-! ### `TestTableOrError`, table_ident_test.go:127 -/

/-- ok_str -/
example : ((Res.ok (TableParam.str c!"table")).bind fun y => tableOrErrorP y) = .ok ⟨c!"table", c!""⟩ := by rfl
/-- ok_str_as -/
example : ((Res.ok (TableParam.str c!"table as t1")).bind fun y => tableOrErrorP y) = .ok ⟨c!"table", c!"t1"⟩ := by rfl
/-- nok_str_err -/
example : isErr ((Res.ok (TableParam.str c!"table not t1")).bind fun y => tableOrErrorP y) = true := by rfl
/-- ok_name -/
example : ((Res.ok (TableParam.name c!"table")).bind fun y => tableOrErrorP y) = .ok ⟨c!"table", c!""⟩ := by rfl
/-- ok_name_as -/
example : ((Res.ok (TableParam.name c!"table as t1")).bind fun y => tableOrErrorP y) = .ok ⟨c!"table", c!"t1"⟩ := by rfl
/-- nok_name_err -/
example : isErr ((Res.ok (TableParam.name c!"table not t1")).bind fun y => tableOrErrorP y) = true := by rfl
/-- ok_ident -/
example : (((table c!"table").bind fun y => Res.ok (TableParam.ident y)).bind fun y => tableOrErrorP y) = .ok ⟨c!"table", c!""⟩ := by rfl
/-- ok_ident_as_int -/
example : (((table c!"table as t1").bind fun y => Res.ok (TableParam.ident y)).bind fun y => tableOrErrorP y) = .ok ⟨c!"table", c!"t1"⟩ := by rfl
/-- ok_ident_as_ext -/
example : ((((table c!"table").bind fun x1 => Res.ok (x1.as c!"t1")).bind fun y => Res.ok (TableParam.ident y)).bind fun y => tableOrErrorP y) = .ok ⟨c!"table", c!"t1"⟩ := by rfl

/-! ### `TestTableName_Select`, table_name_test.go:11 -/

/-- name -/
example : (((Res.ok (TableParam.name c!"table1")).bind fun y => tableSelect y []).bind fun r => Res.ok r.tableName) = .ok c!"table1" := by rfl
/-- name -/
example : ((((Res.ok (TableParam.name c!"table1")).bind fun y => tableSelect y []).bind fun r => r.build).bind fun p => .ok p.1) = .ok c!"SELECT * FROM table1" := by rfl
/-- name_alias -/
example : (((Res.ok (TableParam.name c!"table1 as t1")).bind fun y => tableSelect y []).bind fun r => Res.ok r.tableName) = .ok c!"table1" := by rfl
/-- name_alias -/
example : ((((Res.ok (TableParam.name c!"table1 as t1")).bind fun y => tableSelect y []).bind fun r => r.build).bind fun p => .ok p.1) = .ok c!"SELECT * FROM table1 AS t1" := by rfl

/-! ### `TestUniqFieldNames`, utils_test.go:11 -/

/-- empty_list -/
example : uniqFieldNames [] = [] := by rfl
/-- single_foo -/
example : uniqFieldNames [c!"foo"] = [c!"foo"] := by rfl
/-- single_empty -/
example : uniqFieldNames [c!""] = [c!""] := by rfl
/-- double_a -/
example : uniqFieldNames [c!"a", c!"a"] = [c!"a"] := by rfl
/-- many_ordered -/
example : uniqFieldNames [c!"a", c!"a", c!"a", c!"b", c!"b", c!"b", c!"c", c!"c", c!"c"] = [c!"a", c!"b", c!"c"] := by rfl
/-- many_mixed -/
example : uniqFieldNames [c!"a", c!"a", c!"b", c!"c", c!"a", c!"b", c!"c", c!"c"] = [c!"a", c!"b", c!"c"] := by rfl

/-! ### `TestFieldValue_Values`, value_test.go:18 -/

/-- int -/
example : ((field c!"field").bind fun f => (f.of c!"table").value (.other 12) |>.bind fun v => v.values) = .ok [(.other 12)] := by rfl
/-- int64 -/
example : ((field c!"field").bind fun f => (f.of c!"table").value (.other 13) |>.bind fun v => v.values) = .ok [(.other 13)] := by rfl
/-- int32 -/
example : ((field c!"field").bind fun f => (f.of c!"table").value (.other 14) |>.bind fun v => v.values) = .ok [(.other 14)] := by rfl
/-- int16 -/
example : ((field c!"field").bind fun f => (f.of c!"table").value (.other 15) |>.bind fun v => v.values) = .ok [(.other 15)] := by rfl
/-- int8 -/
example : ((field c!"field").bind fun f => (f.of c!"table").value (.other 16) |>.bind fun v => v.values) = .ok [(.other 16)] := by rfl
/-- uint -/
example : ((field c!"field").bind fun f => (f.of c!"table").value (.other 12) |>.bind fun v => v.values) = .ok [(.other 12)] := by rfl
/-- uint64 -/
example : ((field c!"field").bind fun f => (f.of c!"table").value (.other 17) |>.bind fun v => v.values) = .ok [(.other 17)] := by rfl
/-- uint32 -/
example : ((field c!"field").bind fun f => (f.of c!"table").value (.other 18) |>.bind fun v => v.values) = .ok [(.other 18)] := by rfl
/-- uint16 -/
example : ((field c!"field").bind fun f => (f.of c!"table").value (.other 19) |>.bind fun v => v.values) = .ok [(.other 19)] := by rfl
/-- uint8 -/
example : ((field c!"field").bind fun f => (f.of c!"table").value (.other 20) |>.bind fun v => v.values) = .ok [(.other 20)] := by rfl
/-- float64 -/
example : ((field c!"field").bind fun f => (f.of c!"table").value (.other 21) |>.bind fun v => v.values) = .ok [(.other 21)] := by rfl
/-- float32 -/
example : ((field c!"field").bind fun f => (f.of c!"table").value (.other 22) |>.bind fun v => v.values) = .ok [(.other 22)] := by rfl
/-- false -/
example : ((field c!"field").bind fun f => (f.of c!"table").value (.other 11) |>.bind fun v => v.values) = .ok [(.other 11)] := by rfl
/-- true -/
example : ((field c!"field").bind fun f => (f.of c!"table").value (.other 23) |>.bind fun v => v.values) = .ok [(.other 23)] := by rfl
/-- str -/
example : ((field c!"field").bind fun f => (f.of c!"table").value (.str c!"i_am") |>.bind fun v => v.values) = .ok [(.str c!"i_am")] := by rfl
/-- []str -/
example : ((field c!"field").bind fun f => (f.of c!"table").value (.strs [c!"one", c!"two"]) |>.bind fun v => v.values) = .ok [(.str c!"one"), (.str c!"two")] := by rfl
/-- uuid -/
example : ((field c!"field").bind fun f => (f.of c!"table").value (.valuer (.str c!"dbc72284-f696-4a5d-98af-79568b0d5141") false) |>.bind fun v => v.values) = .ok [(.str c!"dbc72284-f696-4a5d-98af-79568b0d5141")] := by rfl
/-- []uuid -/
example : ((field c!"field").bind fun f => (f.of c!"table").value (.reflSlice [(.valuer (.str c!"dbc72284-f696-4a5d-98af-79568b0d5141") false), (.valuer (.str c!"dbc72284-f696-4a5d-98af-79568b0d5142") false)]) |>.bind fun v => v.values) = .ok [(.str c!"dbc72284-f696-4a5d-98af-79568b0d5141"), (.str c!"dbc72284-f696-4a5d-98af-79568b0d5142")] := by rfl

end Query
