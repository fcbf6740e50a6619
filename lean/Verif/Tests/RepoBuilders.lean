import Verif.Tests.Base
import Verif.Model.Access
import Verif.Model.Write

/-! Generated by tools/gen_tests.py from the table-driven tests of the repository: delete_test.go, insert_test.go, update_test.go, select_base_test.go, select_many_test.go, select_single_test.go.

Each `example` is one row of a table: the expression of the row, translated call by call into the model, has the result
the authors of the code wrote in the row.  These are tests of the model, not proofs of properties. -/

namespace Query

/-! ### `TestDeleteBuilder_Operation`, delete_test.go:11 -/

/-- constructor -/
example : (((Res.ok (TableParam.str c!"test")).bind fun y => Res.ok (delete y)).bind fun r => Res.ok r.operation) = .ok doDelete := by rfl
/-- via_table_name -/
example : (((Res.ok (TableParam.name c!"t1")).bind fun y => Res.ok (tableDelete y [])).bind fun r => Res.ok r.operation) = .ok doDelete := by rfl
/-- via_table_ident -/
example : ((((table c!"t1").bind fun y => Res.ok (TableParam.ident y)).bind fun y => Res.ok (tableDelete y [])).bind fun r => Res.ok r.operation) = .ok doDelete := by rfl

/-! ### `TestTableDeleter_Render`, delete_test.go:27 -/

/-- error_on_no_conditions -/
example : isErr (((Res.ok (TableParam.str c!"t1")).bind fun y => Res.ok (delete y)).bind fun r => r.build) = true := by rfl
/-- delete_by_one_field -/
example : ((((Res.ok (TableParam.str c!"test")).bind fun y => Res.ok (delete y)).bind fun x1 => (contains c!"f1" c!"a1").bind fun x2 => Res.ok (x1.addWhere [x2])).bind fun r => r.build) = .ok (c!"DELETE FROM test WHERE f1 LIKE $1", [(.str c!"%a1%")]) := by rfl

/-! ### `TestInsertBuilder_Operation`, insert_test.go:11 -/

/-- constructor -/
example : (((Res.ok (TableParam.str c!"test")).bind fun y => Res.ok (insertInto y)).bind fun r => Res.ok r.operation) = .ok doInsert := by rfl
/-- via_table_name -/
example : (((Res.ok (TableParam.name c!"t1")).bind fun y => Res.ok (tableInsertInto y [])).bind fun r => Res.ok r.operation) = .ok doInsert := by rfl
/-- via_table_ident -/
example : ((((table c!"t1").bind fun y => Res.ok (TableParam.ident y)).bind fun y => Res.ok (tableInsertInto y [])).bind fun r => Res.ok r.operation) = .ok doInsert := by rfl

/-! ### `TestInsertBuilder_BuildQueryAndParams`, insert_test.go:27 -/

/-- nok_no_fields -/
example : isErr (((Res.ok (TableParam.name c!"t1")).bind fun y => Res.ok (tableInsertInto y [])).bind fun r => r.build) = true := by rfl
/-- nok_empty_table_name -/
example : isErr ((((Res.ok (TableParam.name c!"")).bind fun y => Res.ok (tableInsertInto y [])).bind fun x1 => (fieldNameValue c!"strField" (.str c!"a1")).bind fun x2 => Res.ok (x1.addValues [x2])).bind fun r => r.build) = true := by rfl
/-- ok_set_one_field -/
example : ((((Res.ok (TableParam.name c!"t1")).bind fun y => Res.ok (tableInsertInto y [])).bind fun x1 => (fieldNameValue c!"strField" (.str c!"a1")).bind fun x2 => Res.ok (x1.addValues [x2])).bind fun r => r.build) = .ok (c!"INSERT INTO t1(strField) VALUES ($1)", [(.str c!"a1")]) := by rfl
/-- ok_set_two_field -/
example : ((((Res.ok (TableParam.name c!"t1")).bind fun y => Res.ok (tableInsertInto y [])).bind fun x1 => (fieldNameValue c!"intField" (.other 10)).bind fun x2 => (fieldNameValue c!"strField" (.str c!"a1")).bind fun x3 => Res.ok (x1.addValues [x2, x3])).bind fun r => r.build) = .ok (c!"INSERT INTO t1(intField, strField) VALUES ($1, $2)", [(.other 10), (.str c!"a1")]) := by rfl

/-! ### `TestUpdateBuilder_Operation`, update_test.go:11 -/

/-- constructor -/
example : (((Res.ok (TableParam.str c!"test")).bind fun y => Res.ok (update y)).bind fun r => Res.ok r.operation) = .ok doUpdate := by rfl
/-- via_table_name -/
example : (((Res.ok (TableParam.name c!"t1")).bind fun y => Res.ok (tableUpdate y [])).bind fun r => Res.ok r.operation) = .ok doUpdate := by rfl
/-- via_table_ident -/
example : ((((table c!"t1").bind fun y => Res.ok (TableParam.ident y)).bind fun y => Res.ok (tableUpdate y [])).bind fun r => Res.ok r.operation) = .ok doUpdate := by rfl

/-! ### `TestTableUpdater_Render`, update_test.go:27 -/

/-- error_on_no_conditions -/
example : isErr ((((Res.ok (TableParam.str c!"t1")).bind fun y => Res.ok (update y)).bind fun x1 => (fieldNameValue c!"intField" (.other 1)).bind fun x2 => Res.ok (x1.set [x2])).bind fun r => r.build) = true := by rfl
/-- set_one_field -/
example : (((((Res.ok (TableParam.str c!"test")).bind fun y => Res.ok (update y)).bind fun x1 => (contains c!"f1" c!"a1").bind fun x2 => Res.ok (x1.addWhere [x2])).bind fun x3 => (fieldNameValue c!"intField" (.other 1)).bind fun x4 => Res.ok (x3.set [x4])).bind fun r => r.build) = .ok (c!"UPDATE test SET intField=$1 WHERE f1 LIKE $2", [(.other 1), (.str c!"%a1%")]) := by rfl
/-- set_two_fields_where_field_contains -/
example : ((((((Res.ok (TableParam.str c!"test")).bind fun y => selectManyFrom y).bind fun x3 => (contains c!"f1" c!"a1").bind fun x4 => Res.ok (x3.addWhere [x4])).bind fun x5 => (fieldNameValue c!"intField" (.other 1)).bind fun x6 => Res.ok (x5.update [x6])).bind fun x7 => (fieldNameValue c!"strField" (.str c!"aaa")).bind fun x8 => Res.ok (x7.set [x8])).bind fun r => r.build) = .ok (c!"UPDATE test SET intField=$1, strField=$2 WHERE f1 LIKE $3", [(.other 1), (.str c!"aaa"), (.str c!"%a1%")]) := by rfl
/-- set_three_fields_where_field_equals -/
example : (((((((Res.ok (TableParam.str c!"test")).bind fun y => selectManyFrom y).bind fun x3 => (fieldNameEqualTo c!"UUID" (.str c!"00-000-00")).bind fun x4 => Res.ok (x3.addWhere [x4])).bind fun x5 => (fieldNameValue c!"intField" (.other 1)).bind fun x6 => Res.ok (x5.update [x6])).bind fun x7 => (fieldNameValue c!"boolField" (.other 11)).bind fun x8 => Res.ok (x7.set [x8])).bind fun x9 => (fieldNameValue c!"strField" (.str c!"aaa")).bind fun x10 => Res.ok (x9.set [x10])).bind fun r => r.build) = .ok (c!"UPDATE test SET intField=$1, boolField=$2, strField=$3 WHERE UUID=$4", [(.other 1), (.other 11), (.str c!"aaa"), (.str c!"00-000-00")]) := by rfl
/-- set_two_fields_with_and_condition -/
example : (((((((Res.ok (TableParam.str c!"test")).bind fun y => Res.ok (update y)).bind fun x1 => (fieldNameEqualTo c!"UUID" (.str c!"00-000-00")).bind fun x2 => Res.ok (x1.addWhere [x2])).bind fun x3 => (fieldNameEqualTo c!"name" (.str c!"testName")).bind fun x4 => Res.ok (x3.addWhere [x4])).bind fun x5 => (fieldNameValue c!"boolField" (.other 11)).bind fun x6 => Res.ok (x5.set [x6])).bind fun x7 => (fieldNameValue c!"strField" (.str c!"ccc")).bind fun x8 => Res.ok (x7.set [x8])).bind fun r => r.build) = .ok (c!"UPDATE test SET boolField=$1, strField=$2 WHERE UUID=$3 AND name=$4", [(.other 11), (.str c!"ccc"), (.str c!"00-000-00"), (.str c!"testName")]) := by rfl

/-! ### `TestSelectFrom`, select_base_test.go:11 -/

/-- str -/
example : (((Res.ok (TableParam.str c!"table1")).bind fun y => selectFrom y).bind fun r => Res.ok r.tableName) = .ok c!"table1" := by rfl
/-- str -/
example : ((((Res.ok (TableParam.str c!"table1")).bind fun y => selectFrom y).bind fun r => r.build).bind fun p => .ok p.1) = .ok c!"SELECT * FROM table1" := by rfl
/-- str_alias -/
example : (((Res.ok (TableParam.str c!"table1 as t1")).bind fun y => selectFrom y).bind fun r => Res.ok r.tableName) = .ok c!"table1" := by rfl
/-- str_alias -/
example : ((((Res.ok (TableParam.str c!"table1 as t1")).bind fun y => selectFrom y).bind fun r => r.build).bind fun p => .ok p.1) = .ok c!"SELECT * FROM table1 AS t1" := by rfl
/-- name -/
example : (((Res.ok (TableParam.name c!"table1")).bind fun y => selectFrom y).bind fun r => Res.ok r.tableName) = .ok c!"table1" := by rfl
/-- name -/
example : ((((Res.ok (TableParam.name c!"table1")).bind fun y => selectFrom y).bind fun r => r.build).bind fun p => .ok p.1) = .ok c!"SELECT * FROM table1" := by rfl
/-- name_alias -/
example : (((Res.ok (TableParam.name c!"table1 as t1")).bind fun y => selectFrom y).bind fun r => Res.ok r.tableName) = .ok c!"table1" := by rfl
/-- name_alias -/
example : ((((Res.ok (TableParam.name c!"table1 as t1")).bind fun y => selectFrom y).bind fun r => r.build).bind fun p => .ok p.1) = .ok c!"SELECT * FROM table1 AS t1" := by rfl
/-- table -/
example : (((Res.ok (TableParam.name c!"table1")).bind fun y => selectFrom y).bind fun r => Res.ok r.tableName) = .ok c!"table1" := by rfl
/-- table -/
example : ((((Res.ok (TableParam.name c!"table1")).bind fun y => selectFrom y).bind fun r => r.build).bind fun p => .ok p.1) = .ok c!"SELECT * FROM table1" := by rfl
/-- table_alias -/
example : ((((table c!"table1 as t1").bind fun y => Res.ok (TableParam.ident y)).bind fun y => selectFrom y).bind fun r => Res.ok r.tableName) = .ok c!"table1" := by rfl
/-- table_alias -/
example : (((((table c!"table1 as t1").bind fun y => Res.ok (TableParam.ident y)).bind fun y => selectFrom y).bind fun r => r.build).bind fun p => .ok p.1) = .ok c!"SELECT * FROM table1 AS t1" := by rfl
/-- table_as -/
example : (((((table c!"table1").bind fun x1 => Res.ok (x1.as c!"t1")).bind fun y => Res.ok (TableParam.ident y)).bind fun y => selectFrom y).bind fun r => Res.ok r.tableName) = .ok c!"table1" := by rfl
/-- table_as -/
example : ((((((table c!"table1").bind fun x2 => Res.ok (x2.as c!"t1")).bind fun y => Res.ok (TableParam.ident y)).bind fun y => selectFrom y).bind fun r => r.build).bind fun p => .ok p.1) = .ok c!"SELECT * FROM table1 AS t1" := by rfl

/-! ### `TestBaseSelectBuilder_Join`, select_base_test.go:71 -/

/-- base -/
example : ((((Res.ok (TableParam.str c!"t1")).bind fun y => selectFrom y).bind fun q => (table c!"t2").bind fun t => (field c!"t1.f1").bind fun x1 => (field c!"t2.f2").bind fun x2 => (q.joinIdent t innerJoin).on x1 x2).bind fun q => q.build.bind fun p => .ok p.1) = .ok c!"SELECT * FROM t1 INNER JOIN t2 ON t1.f1=t2.f2" := by rfl
/-- left_alias_is_not_infer_join_condition -/
example : ((((Res.ok (TableParam.str c!"t1")).bind fun y => selectFrom y).bind fun q => (table c!"t2").bind fun t => (field c!"t1.f1 as field1").bind fun x1 => (field c!"t2.f2").bind fun x2 => (q.joinIdent t innerJoin).on x1 x2).bind fun q => q.build.bind fun p => .ok p.1) = .ok c!"SELECT * FROM t1 INNER JOIN t2 ON t1.f1=t2.f2" := by rfl
/-- right_alias_is_not_infer_join_condition -/
example : ((((Res.ok (TableParam.str c!"t1")).bind fun y => selectFrom y).bind fun q => (table c!"t2").bind fun t => (field c!"t1.f1 as field1").bind fun x1 => (field c!"t2.f2").bind fun x2 => (q.joinIdent t innerJoin).on x1 x2).bind fun q => q.build.bind fun p => .ok p.1) = .ok c!"SELECT * FROM t1 INNER JOIN t2 ON t1.f1=t2.f2" := by rfl
/-- with_fields -/
example : (((((Res.ok (TableParam.str c!"t1")).bind fun y => selectFrom y).bind fun x1 => (field c!"t1.f1 as field1").bind fun x2 => (field c!"t2.f13 as field13").bind fun x3 => Res.ok (x1.setFields [x2, x3])).bind fun q => (table c!"t2").bind fun t => (field c!"t1.f1").bind fun x4 => (field c!"t2.f2").bind fun x5 => (q.joinIdent t innerJoin).on x4 x5).bind fun q => q.build.bind fun p => .ok p.1) = .ok c!"SELECT t1.f1 AS field1, t2.f13 AS field13 FROM t1 INNER JOIN t2 ON t1.f1=t2.f2" := by rfl

/-! ### `TestBaseSelectBuilder_RenderSQL`, select_base_test.go:130 -/

/-- simple_query -/
example : (((Res.ok (TableParam.str c!"table1")).bind fun y => selectFrom y).bind fun r => r.renderSQL) = .ok c!"SELECT * FROM table1" := by rfl
/-- simple_query -/
example : (((Res.ok (TableParam.str c!"table1")).bind fun y => selectFrom y).bind fun r => r.values) = .ok [] := by rfl
/-- fields -/
example : ((((Res.ok (TableParam.str c!"table2")).bind fun y => selectFrom y).bind fun x1 => (field c!"f1").bind fun x2 => (field c!"f2 as field2").bind fun x3 => (field c!"f3").bind fun x4 => Res.ok (x1.setFields [x2, x3, x4])).bind fun r => r.renderSQL) = .ok c!"SELECT f1, f2 AS field2, f3 FROM table2" := by rfl
/-- fields -/
example : ((((Res.ok (TableParam.str c!"table2")).bind fun y => selectFrom y).bind fun x5 => (field c!"f1").bind fun x6 => (field c!"f2 as field2").bind fun x7 => (field c!"f3").bind fun x8 => Res.ok (x5.setFields [x6, x7, x8])).bind fun r => r.values) = .ok [] := by rfl
/-- join -/
example : ((((((Res.ok (TableParam.str c!"table3 as t3")).bind fun y => selectFrom y).bind fun x1 => (table c!"table4 as t4").bind fun x2 => Res.ok (x1.joinIdent x2 leftJoin)).bind fun x3 => (field c!"table3.f1").bind fun x4 => (field c!"table4.f2").bind fun x5 => x3.on x4 x5).bind fun x6 => (field c!"t3.f1").bind fun x7 => (field c!"t3.f2 as field2").bind fun x8 => (field c!"t4.f3 as field3").bind fun x9 => Res.ok (x6.setFields [x7, x8, x9])).bind fun r => r.renderSQL) = .ok c!"SELECT t3.f1, t3.f2 AS field2, t4.f3 AS field3 FROM table3 AS t3 LEFT JOIN table4 AS t4 ON table3.f1=table4.f2" := by rfl
/-- join -/
example : ((((((Res.ok (TableParam.str c!"table3 as t3")).bind fun y => selectFrom y).bind fun x10 => (table c!"table4 as t4").bind fun x11 => Res.ok (x10.joinIdent x11 leftJoin)).bind fun x12 => (field c!"table3.f1").bind fun x13 => (field c!"table4.f2").bind fun x14 => x12.on x13 x14).bind fun x15 => (field c!"t3.f1").bind fun x16 => (field c!"t3.f2 as field2").bind fun x17 => (field c!"t4.f3 as field3").bind fun x18 => Res.ok (x15.setFields [x16, x17, x18])).bind fun r => r.values) = .ok [] := by rfl
/-- join_where -/
example : (((((((Res.ok (TableParam.str c!"table3 as t3")).bind fun y => selectFrom y).bind fun x1 => (table c!"table4 as t4").bind fun x2 => Res.ok (x1.joinIdent x2 leftJoin)).bind fun x3 => (field c!"table3.f1").bind fun x4 => (field c!"table4.f2").bind fun x5 => x3.on x4 x5).bind fun x6 => (field c!"t3.f1").bind fun x7 => (field c!"t3.f2 as field2").bind fun x8 => (field c!"t4.f3 as field3").bind fun x9 => Res.ok (x6.setFields [x7, x8, x9])).bind fun x10 => (fieldNameEqualTo c!"t3.f1" (.other 7)).bind fun x11 => Res.ok (x10.addWhere [x11])).bind fun r => r.renderSQL) = .ok c!"SELECT t3.f1, t3.f2 AS field2, t4.f3 AS field3 FROM table3 AS t3 LEFT JOIN table4 AS t4 ON table3.f1=table4.f2 WHERE t3.f1=?" := by rfl
/-- join_where -/
example : (((((((Res.ok (TableParam.str c!"table3 as t3")).bind fun y => selectFrom y).bind fun x12 => (table c!"table4 as t4").bind fun x13 => Res.ok (x12.joinIdent x13 leftJoin)).bind fun x14 => (field c!"table3.f1").bind fun x15 => (field c!"table4.f2").bind fun x16 => x14.on x15 x16).bind fun x17 => (field c!"t3.f1").bind fun x18 => (field c!"t3.f2 as field2").bind fun x19 => (field c!"t4.f3 as field3").bind fun x20 => Res.ok (x17.setFields [x18, x19, x20])).bind fun x21 => (fieldNameEqualTo c!"t3.f1" (.other 7)).bind fun x22 => Res.ok (x21.addWhere [x22])).bind fun r => r.values) = .ok [(.other 7)] := by rfl

/-! ### `TestTableQuery_Render`, select_many_test.go:11 -/

/-- base -/
example : (((Res.ok (TableParam.str c!"test")).bind fun y => selectManyFrom y).bind fun r => r.build) = .ok (c!"SELECT * FROM test", []) := by rfl
/-- inner_join -/
example : (((((Res.ok (TableParam.str c!"test")).bind fun y => selectManyFrom y).bind fun x1 => x1.join c!"t2" innerJoin).bind fun x2 => (field c!"test.f1").bind fun x3 => (field c!"t2.f1").bind fun x4 => x2.on x3 x4).bind fun r => r.build) = .ok (c!"SELECT * FROM test INNER JOIN t2 ON test.f1=t2.f1", []) := by rfl
/-- left_join -/
example : (((((Res.ok (TableParam.str c!"test")).bind fun y => selectManyFrom y).bind fun x1 => x1.join c!"t2" leftJoin).bind fun x2 => (field c!"test.f1").bind fun x3 => (field c!"t2.f1").bind fun x4 => x2.on x3 x4).bind fun r => r.build) = .ok (c!"SELECT * FROM test LEFT JOIN t2 ON test.f1=t2.f1", []) := by rfl
/-- right_join -/
example : (((((Res.ok (TableParam.str c!"test")).bind fun y => selectManyFrom y).bind fun x1 => x1.join c!"t2" rightJoin).bind fun x2 => (field c!"test.f1").bind fun x3 => (field c!"t2.f1").bind fun x4 => x2.on x3 x4).bind fun r => r.build) = .ok (c!"SELECT * FROM test RIGHT JOIN t2 ON test.f1=t2.f1", []) := by rfl
/-- full_join -/
example : (((((Res.ok (TableParam.str c!"test")).bind fun y => selectManyFrom y).bind fun x1 => x1.join c!"t2" fullJoin).bind fun x2 => (field c!"test.f1").bind fun x3 => (field c!"t2.f1").bind fun x4 => x2.on x3 x4).bind fun r => r.build) = .ok (c!"SELECT * FROM test FULL JOIN t2 ON test.f1=t2.f1", []) := by rfl
/-- base_with_field_specs -/
example : ((((Res.ok (TableParam.str c!"test")).bind fun y => selectManyFrom y).bind fun x1 => (field c!"f1").bind fun x2 => ((field c!"field2").bind fun x3 => Res.ok (x3.as c!"f2")).bind fun x4 => Res.ok (x1.setFields [x2, x4])).bind fun r => r.build) = .ok (c!"SELECT f1, field2 AS f2 FROM test", []) := by rfl
/-- join_with_field_specs -/
example : ((((((Res.ok (TableParam.str c!"t1")).bind fun y => selectManyFrom y).bind fun x1 => x1.join c!"t2" innerJoin).bind fun x2 => (field c!"t1.f1").bind fun x3 => (field c!"t2.field2").bind fun x4 => x2.on x3 x4).bind fun x5 => ((field c!"t1.f1").bind fun x6 => Res.ok (x6.as c!"f1")).bind fun x7 => ((field c!"t2.field2").bind fun x8 => Res.ok (x8.as c!"f2")).bind fun x9 => Res.ok (x5.setFields [x7, x9])).bind fun r => r.build) = .ok (c!"SELECT t1.f1 AS f1, t2.field2 AS f2 FROM t1 INNER JOIN t2 ON t1.f1=t2.field2", []) := by rfl
/-- order_by -/
example : ((((Res.ok (TableParam.str c!"test")).bind fun y => selectManyFrom y).bind fun x1 => (asc c!"field1").bind fun x2 => Res.ok (x1.addOrder [x2])).bind fun r => r.build) = .ok (c!"SELECT * FROM test ORDER BY field1 ASC", []) := by rfl
/-- order_by_specs -/
example : (((((Res.ok (TableParam.str c!"test")).bind fun y => selectManyFrom y).bind fun x1 => (asc c!"field1").bind fun x2 => Res.ok (x1.addOrder [x2])).bind fun x3 => ((field c!"field1").bind fun x4 => Res.ok (x4.as c!"f1")).bind fun x5 => Res.ok (x3.setFields [x5])).bind fun r => r.build) = .ok (c!"SELECT field1 AS f1 FROM test ORDER BY field1 ASC", []) := by rfl
/-- order_by_many -/
example : ((((Res.ok (TableParam.str c!"test")).bind fun y => selectManyFrom y).bind fun x1 => (asc c!"field1").bind fun x2 => (desc c!"field2").bind fun x3 => Res.ok (x1.addOrder [x2, x3])).bind fun r => r.build) = .ok (c!"SELECT * FROM test ORDER BY field1 ASC, field2 DESC", []) := by rfl
/-- order_by_many_with_table_before -/
example : ((((Res.ok (TableParam.str c!"test")).bind fun y => selectManyFrom y).bind fun x1 => (asc c!"test.field1").bind fun x2 => (desc c!"test.field2").bind fun x3 => Res.ok (x1.addOrder [x2, x3])).bind fun r => r.build) = .ok (c!"SELECT * FROM test ORDER BY test.field1 ASC, test.field2 DESC", []) := by rfl
/-- limit -/
example : ((((Res.ok (TableParam.str c!"test")).bind fun y => selectManyFrom y).bind fun x1 => Res.ok (x1.setLimit 1)).bind fun r => r.build) = .ok (c!"SELECT * FROM test LIMIT $1", [(.uint 1)]) := by rfl
/-- offset -/
example : ((((Res.ok (TableParam.str c!"test")).bind fun y => selectManyFrom y).bind fun x1 => Res.ok (x1.setOffset 1)).bind fun r => r.build) = .ok (c!"SELECT * FROM test OFFSET $1", [(.uint 1)]) := by rfl
/-- offset_limit -/
example : (((((Res.ok (TableParam.str c!"test")).bind fun y => selectManyFrom y).bind fun x1 => Res.ok (x1.setLimit 1)).bind fun x2 => Res.ok (x2.setOffset 2)).bind fun r => r.build) = .ok (c!"SELECT * FROM test OFFSET $1 LIMIT $2", [(.uint 2), (.uint 1)]) := by rfl
/-- order_offset_limit -/
example : (((((((Res.ok (TableParam.str c!"test")).bind fun y => selectManyFrom y).bind fun x1 => (asc c!"field1").bind fun x2 => Res.ok (x1.addOrder [x2])).bind fun x3 => Res.ok (x3.setLimit 4)).bind fun x4 => Res.ok (x4.setOffset 3)).bind fun x5 => (desc c!"field2").bind fun x6 => Res.ok (x5.addOrder [x6])).bind fun r => r.build) = .ok (c!"SELECT * FROM test ORDER BY field1 ASC, field2 DESC OFFSET $1 LIMIT $2", [(.uint 3), (.uint 4)]) := by rfl
/-- where_contains_order_offset_limit -/
example : (((((((((Res.ok (TableParam.str c!"test")).bind fun y => selectManyFrom y).bind fun x1 => (contains c!"f1" c!"a1").bind fun x2 => Res.ok (x1.addWhere [x2])).bind fun x3 => (contains c!"f2" c!"b2").bind fun x4 => Res.ok (x3.addWhere [x4])).bind fun x5 => (asc c!"f3").bind fun x6 => Res.ok (x5.addOrder [x6])).bind fun x7 => Res.ok (x7.setLimit 6)).bind fun x8 => Res.ok (x8.setOffset 5)).bind fun x9 => (desc c!"f4").bind fun x10 => Res.ok (x9.addOrder [x10])).bind fun r => r.build) = .ok (c!"SELECT * FROM test WHERE f1 LIKE $1 AND f2 LIKE $2 ORDER BY f3 ASC, f4 DESC OFFSET $3 LIMIT $4", [(.str c!"%a1%"), (.str c!"%b2%"), (.uint 5), (.uint 6)]) := by rfl
/-- where_equals_order_offset_limit -/
example : (((((((Res.ok (TableParam.str c!"test")).bind fun y => selectManyFrom y).bind fun x1 => (equalTo c!"f1" (.other 7)).bind fun x2 => Res.ok (x1.addWhere [x2])).bind fun x3 => (asc c!"f2").bind fun x4 => Res.ok (x3.addOrder [x4])).bind fun x5 => Res.ok (x5.setLimit 6)).bind fun x6 => Res.ok (x6.setOffset 5)).bind fun r => r.build) = .ok (c!"SELECT * FROM test WHERE f1=$1 ORDER BY f2 ASC OFFSET $2 LIMIT $3", [(.other 7), (.uint 5), (.uint 6)]) := by rfl
/-- where_single_not -/
example : ((((Res.ok (TableParam.str c!"test")).bind fun y => selectManyFrom y).bind fun x1 => ((equalTo c!"f1" (.other 7)).bind fun x2 => Res.ok (notC x2)).bind fun x3 => Res.ok (x1.addWhere [x3])).bind fun r => r.build) = .ok (c!"SELECT * FROM test WHERE NOT f1=$1", [(.other 7)]) := by rfl
/-- where_not_equal_or_another_equal -/
example : ((((Res.ok (TableParam.str c!"test")).bind fun y => selectManyFrom y).bind fun x1 => ((equalTo c!"f1" (.other 6)).bind fun x2 => Res.ok (notC x2)).bind fun x3 => ((equalTo c!"f2" (.other 7)).bind fun x4 => Res.ok (orC x4 [])).bind fun x5 => Res.ok (x1.addWhere [x3, x5])).bind fun r => r.build) = .ok (c!"SELECT * FROM test WHERE NOT f1=$1 OR f2=$2", [(.other 6), (.other 7)]) := by rfl

/-! ### `TestSelectManyFrom`, select_many_test.go:222 -/

/-- str -/
example : (((Res.ok (TableParam.str c!"table1")).bind fun y => selectManyFrom y).bind fun r => Res.ok r.base.tableName) = .ok c!"table1" := by rfl
/-- str -/
example : ((((Res.ok (TableParam.str c!"table1")).bind fun y => selectManyFrom y).bind fun r => r.build).bind fun p => .ok p.1) = .ok c!"SELECT * FROM table1" := by rfl
/-- str_alias -/
example : (((Res.ok (TableParam.str c!"table1 as t1")).bind fun y => selectManyFrom y).bind fun r => Res.ok r.base.tableName) = .ok c!"table1" := by rfl
/-- str_alias -/
example : ((((Res.ok (TableParam.str c!"table1 as t1")).bind fun y => selectManyFrom y).bind fun r => r.build).bind fun p => .ok p.1) = .ok c!"SELECT * FROM table1 AS t1" := by rfl
/-- name -/
example : (((Res.ok (TableParam.name c!"table1")).bind fun y => selectManyFrom y).bind fun r => Res.ok r.base.tableName) = .ok c!"table1" := by rfl
/-- name -/
example : ((((Res.ok (TableParam.name c!"table1")).bind fun y => selectManyFrom y).bind fun r => r.build).bind fun p => .ok p.1) = .ok c!"SELECT * FROM table1" := by rfl
/-- name_alias -/
example : (((Res.ok (TableParam.name c!"table1 as t1")).bind fun y => selectManyFrom y).bind fun r => Res.ok r.base.tableName) = .ok c!"table1" := by rfl
/-- name_alias -/
example : ((((Res.ok (TableParam.name c!"table1 as t1")).bind fun y => selectManyFrom y).bind fun r => r.build).bind fun p => .ok p.1) = .ok c!"SELECT * FROM table1 AS t1" := by rfl
/-- table -/
example : (((Res.ok (TableParam.name c!"table1")).bind fun y => selectManyFrom y).bind fun r => Res.ok r.base.tableName) = .ok c!"table1" := by rfl
/-- table -/
example : ((((Res.ok (TableParam.name c!"table1")).bind fun y => selectManyFrom y).bind fun r => r.build).bind fun p => .ok p.1) = .ok c!"SELECT * FROM table1" := by rfl
/-- table_alias -/
example : ((((table c!"table1 as t1").bind fun y => Res.ok (TableParam.ident y)).bind fun y => selectManyFrom y).bind fun r => Res.ok r.base.tableName) = .ok c!"table1" := by rfl
/-- table_alias -/
example : (((((table c!"table1 as t1").bind fun y => Res.ok (TableParam.ident y)).bind fun y => selectManyFrom y).bind fun r => r.build).bind fun p => .ok p.1) = .ok c!"SELECT * FROM table1 AS t1" := by rfl
/-- table_as -/
example : (((((table c!"table1").bind fun x1 => Res.ok (x1.as c!"t1")).bind fun y => Res.ok (TableParam.ident y)).bind fun y => selectManyFrom y).bind fun r => Res.ok r.base.tableName) = .ok c!"table1" := by rfl
/-- table_as -/
example : ((((((table c!"table1").bind fun x2 => Res.ok (x2.as c!"t1")).bind fun y => Res.ok (TableParam.ident y)).bind fun y => selectManyFrom y).bind fun r => r.build).bind fun p => .ok p.1) = .ok c!"SELECT * FROM table1 AS t1" := by rfl

/-! ### `TestSelectOneFrom`, select_single_test.go:11 -/

/-- str -/
example : (((Res.ok (TableParam.str c!"table1")).bind fun y => selectSingleFrom y).bind fun r => Res.ok r.base.tableName) = .ok c!"table1" := by rfl
/-- str -/
example : ((((Res.ok (TableParam.str c!"table1")).bind fun y => selectSingleFrom y).bind fun r => r.build).bind fun p => .ok p.1) = .ok c!"SELECT * FROM table1 LIMIT 1" := by rfl
/-- str_alias -/
example : (((Res.ok (TableParam.str c!"table1 as t1")).bind fun y => selectSingleFrom y).bind fun r => Res.ok r.base.tableName) = .ok c!"table1" := by rfl
/-- str_alias -/
example : ((((Res.ok (TableParam.str c!"table1 as t1")).bind fun y => selectSingleFrom y).bind fun r => r.build).bind fun p => .ok p.1) = .ok c!"SELECT * FROM table1 AS t1 LIMIT 1" := by rfl
/-- name -/
example : (((Res.ok (TableParam.name c!"table1")).bind fun y => selectSingleFrom y).bind fun r => Res.ok r.base.tableName) = .ok c!"table1" := by rfl
/-- name -/
example : ((((Res.ok (TableParam.name c!"table1")).bind fun y => selectSingleFrom y).bind fun r => r.build).bind fun p => .ok p.1) = .ok c!"SELECT * FROM table1 LIMIT 1" := by rfl
/-- name_alias -/
example : (((Res.ok (TableParam.name c!"table1 as t1")).bind fun y => selectSingleFrom y).bind fun r => Res.ok r.base.tableName) = .ok c!"table1" := by rfl
/-- name_alias -/
example : ((((Res.ok (TableParam.name c!"table1 as t1")).bind fun y => selectSingleFrom y).bind fun r => r.build).bind fun p => .ok p.1) = .ok c!"SELECT * FROM table1 AS t1 LIMIT 1" := by rfl
/-- table -/
example : (((Res.ok (TableParam.name c!"table1")).bind fun y => selectSingleFrom y).bind fun r => Res.ok r.base.tableName) = .ok c!"table1" := by rfl
/-- table -/
example : ((((Res.ok (TableParam.name c!"table1")).bind fun y => selectSingleFrom y).bind fun r => r.build).bind fun p => .ok p.1) = .ok c!"SELECT * FROM table1 LIMIT 1" := by rfl
/-- table_alias -/
example : ((((table c!"table1 as t1").bind fun y => Res.ok (TableParam.ident y)).bind fun y => selectSingleFrom y).bind fun r => Res.ok r.base.tableName) = .ok c!"table1" := by rfl
/-- table_alias -/
example : (((((table c!"table1 as t1").bind fun y => Res.ok (TableParam.ident y)).bind fun y => selectSingleFrom y).bind fun r => r.build).bind fun p => .ok p.1) = .ok c!"SELECT * FROM table1 AS t1 LIMIT 1" := by rfl
/-- table_as -/
example : (((((table c!"table1").bind fun x1 => Res.ok (x1.as c!"t1")).bind fun y => Res.ok (TableParam.ident y)).bind fun y => selectSingleFrom y).bind fun r => Res.ok r.base.tableName) = .ok c!"table1" := by rfl
/-- table_as -/
example : ((((((table c!"table1").bind fun x2 => Res.ok (x2.as c!"t1")).bind fun y => Res.ok (TableParam.ident y)).bind fun y => selectSingleFrom y).bind fun r => r.build).bind fun p => .ok p.1) = .ok c!"SELECT * FROM table1 AS t1 LIMIT 1" := by rfl

end Query
