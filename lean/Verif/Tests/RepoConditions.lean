import Verif.Tests.Base
import Verif.Model.Access
import Verif.Model.Write

/-! Generated by tools/gen_tests.py from the table-driven tests of the repository: group_test.go, interfaces_test.go, operations_test.go.

Each `example` is one row of a table: the expression of the row, translated call by call into the model, has the result
the authors of the code wrote in the row.  These are tests of the model, not proofs of properties. -/

namespace Query

/-! ### `Test_group_add`, group_test.go:16 -/

/-- nil_con_one_gives_one -/
example : (((Res.ok (newGroup lAND [])).bind fun x1 => (equalTo c!"t1" (.other 1)).bind fun x2 => Res.ok (x1.toCond.and [x2])).bind fun r => r.render 0) = .ok c!"t1=$1" := by rfl
/-- nil_con_one_gives_one -/
example : (((Res.ok (newGroup lAND [])).bind fun x3 => (equalTo c!"t1" (.other 1)).bind fun x4 => Res.ok (x3.toCond.and [x4])).bind fun r => r.values) = .ok [(.other 1)] := by rfl
/-- nil_dis_one_gives_one -/
example : (((Res.ok (newGroup lAND [])).bind fun x1 => (equalTo c!"t1" (.other 1)).bind fun x2 => Res.ok (x1.toCond.and [x2])).bind fun r => r.render 0) = .ok c!"t1=$1" := by rfl
/-- nil_dis_one_gives_one -/
example : (((Res.ok (newGroup lAND [])).bind fun x3 => (equalTo c!"t1" (.other 1)).bind fun x4 => Res.ok (x3.toCond.and [x4])).bind fun r => r.values) = .ok [(.other 1)] := by rfl
/-- one_con_one_gives_con -/
example : ((((equalTo c!"f1" (.other 1)).bind fun x1 => Res.ok (newGroup lAND [x1])).bind fun x2 => (equalTo c!"f2" (.other 2)).bind fun x3 => Res.ok (x2.toCond.and [x3])).bind fun r => r.render 1) = .ok c!"f1=$2 AND f2=$3" := by rfl
/-- one_con_one_gives_con -/
example : ((((equalTo c!"f1" (.other 1)).bind fun x4 => Res.ok (newGroup lAND [x4])).bind fun x5 => (equalTo c!"f2" (.other 2)).bind fun x6 => Res.ok (x5.toCond.and [x6])).bind fun r => r.values) = .ok [(.other 1), (.other 2)] := by rfl
/-- one_dis_one_gives_dis -/
example : ((((equalTo c!"f1" (.other 1)).bind fun x1 => Res.ok (newGroup lAND [x1])).bind fun x2 => (equalTo c!"f2" (.other 2)).bind fun x3 => x2.toCond.or [x3]).bind fun r => r.render 1) = .ok c!"f1=$2 OR f2=$3" := by rfl
/-- one_dis_one_gives_dis -/
example : ((((equalTo c!"f1" (.other 1)).bind fun x4 => Res.ok (newGroup lAND [x4])).bind fun x5 => (equalTo c!"f2" (.other 2)).bind fun x6 => x5.toCond.or [x6]).bind fun r => r.values) = .ok [(.other 1), (.other 2)] := by rfl
/-- con_con_nil_gives_con -/
example : ((((equalTo c!"f1" (.other 1)).bind fun x1 => (equalTo c!"f2" (.other 2)).bind fun x2 => Res.ok (newGroup lAND [x1, x2])).bind fun x3 => Res.ok (x3.toCond.and [])).bind fun r => r.render 3) = .ok c!"f1=$4 AND f2=$5" := by rfl
/-- con_con_nil_gives_con -/
example : ((((equalTo c!"f1" (.other 1)).bind fun x4 => (equalTo c!"f2" (.other 2)).bind fun x5 => Res.ok (newGroup lAND [x4, x5])).bind fun x6 => Res.ok (x6.toCond.and [])).bind fun r => r.values) = .ok [(.other 1), (.other 2)] := by rfl
/-- con_con_one_gives_con -/
example : ((((equalTo c!"f1" (.other 1)).bind fun x1 => (equalTo c!"f2" (.other 2)).bind fun x2 => Res.ok (newGroup lAND [x1, x2])).bind fun x3 => (contains c!"a1" c!"aaa").bind fun x4 => Res.ok (x3.toCond.and [x4])).bind fun r => r.render 3) = .ok c!"f1=$4 AND f2=$5 AND a1 LIKE $6" := by rfl
/-- con_con_one_gives_con -/
example : ((((equalTo c!"f1" (.other 1)).bind fun x5 => (equalTo c!"f2" (.other 2)).bind fun x6 => Res.ok (newGroup lAND [x5, x6])).bind fun x7 => (contains c!"a1" c!"aaa").bind fun x8 => Res.ok (x7.toCond.and [x8])).bind fun r => r.values) = .ok [(.other 1), (.other 2), (.str c!"%aaa%")] := by rfl
/-- dis_dis_one_gives_dis -/
example : ((((equalTo c!"f1" (.other 1)).bind fun x1 => (equalTo c!"f2" (.other 2)).bind fun x2 => Res.ok (newGroup lOR [x1, x2])).bind fun x3 => (contains c!"a1" c!"aaa").bind fun x4 => x3.toCond.or [x4]).bind fun r => r.render 4) = .ok c!"f1=$5 OR f2=$6 OR a1 LIKE $7" := by rfl
/-- dis_dis_one_gives_dis -/
example : ((((equalTo c!"f1" (.other 1)).bind fun x5 => (equalTo c!"f2" (.other 2)).bind fun x6 => Res.ok (newGroup lOR [x5, x6])).bind fun x7 => (contains c!"a1" c!"aaa").bind fun x8 => x7.toCond.or [x8]).bind fun r => r.values) = .ok [(.other 1), (.other 2), (.str c!"%aaa%")] := by rfl
/-- dis_con_one_gives_dis_con_one -/
example : ((((equalTo c!"f1" (.other 1)).bind fun x1 => (equalTo c!"f2" (.other 2)).bind fun x2 => Res.ok (newGroup lOR [x1, x2])).bind fun x3 => (contains c!"a1" c!"aaa").bind fun x4 => Res.ok (x3.toCond.and [x4])).bind fun r => r.render 3) = .ok c!"(f1=$4 OR f2=$5) AND a1 LIKE $6" := by rfl
/-- dis_con_one_gives_dis_con_one -/
example : ((((equalTo c!"f1" (.other 1)).bind fun x5 => (equalTo c!"f2" (.other 2)).bind fun x6 => Res.ok (newGroup lOR [x5, x6])).bind fun x7 => (contains c!"a1" c!"aaa").bind fun x8 => Res.ok (x7.toCond.and [x8])).bind fun r => r.values) = .ok [(.other 1), (.other 2), (.str c!"%aaa%")] := by rfl
/-- con_dis_one_gives_con_dis_one -/
example : ((((equalTo c!"f1" (.other 1)).bind fun x1 => (equalTo c!"f2" (.other 2)).bind fun x2 => Res.ok (newGroup lAND [x1, x2])).bind fun x3 => (contains c!"a1" c!"aaa").bind fun x4 => x3.toCond.or [x4]).bind fun r => r.render 3) = .ok c!"(f1=$4 AND f2=$5) OR a1 LIKE $6" := by rfl
/-- con_dis_one_gives_con_dis_one -/
example : ((((equalTo c!"f1" (.other 1)).bind fun x5 => (equalTo c!"f2" (.other 2)).bind fun x6 => Res.ok (newGroup lAND [x5, x6])).bind fun x7 => (contains c!"a1" c!"aaa").bind fun x8 => x7.toCond.or [x8]).bind fun r => r.values) = .ok [(.other 1), (.other 2), (.str c!"%aaa%")] := by rfl
/-- dis_con_dis_gives_dis_con_dis -/
example : ((((equalTo c!"f1" (.other 1)).bind fun x1 => (equalTo c!"f2" (.other 2)).bind fun x2 => Res.ok (newGroup lOR [x1, x2])).bind fun x3 => ((equalTo c!"a1" (.other 3)).bind fun x4 => (equalTo c!"a2" (.other 4)).bind fun x5 => Res.ok (newGroup lOR [x4, x5])).bind fun x6 => Res.ok (x3.toCond.and [x6.toCond])).bind fun r => r.render 4) = .ok c!"(f1=$5 OR f2=$6) AND (a1=$7 OR a2=$8)" := by rfl
/-- dis_con_dis_gives_dis_con_dis -/
example : ((((equalTo c!"f1" (.other 1)).bind fun x7 => (equalTo c!"f2" (.other 2)).bind fun x8 => Res.ok (newGroup lOR [x7, x8])).bind fun x9 => ((equalTo c!"a1" (.other 3)).bind fun x10 => (equalTo c!"a2" (.other 4)).bind fun x11 => Res.ok (newGroup lOR [x10, x11])).bind fun x12 => Res.ok (x9.toCond.and [x12.toCond])).bind fun r => r.values) = .ok [(.other 1), (.other 2), (.other 3), (.other 4)] := by rfl
/-- con_dis_con_gives_con_dis_con -/
example : ((((equalTo c!"f1" (.other 1)).bind fun x1 => (equalTo c!"f2" (.other 2)).bind fun x2 => Res.ok (newGroup lAND [x1, x2])).bind fun x3 => ((equalTo c!"a1" (.other 3)).bind fun x4 => (equalTo c!"a2" (.other 4)).bind fun x5 => Res.ok (newGroup lAND [x4, x5])).bind fun x6 => x3.toCond.or [x6.toCond]).bind fun r => r.render 5) = .ok c!"(f1=$6 AND f2=$7) OR (a1=$8 AND a2=$9)" := by rfl
/-- con_dis_con_gives_con_dis_con -/
example : ((((equalTo c!"f1" (.other 1)).bind fun x7 => (equalTo c!"f2" (.other 2)).bind fun x8 => Res.ok (newGroup lAND [x7, x8])).bind fun x9 => ((equalTo c!"a1" (.other 3)).bind fun x10 => (equalTo c!"a2" (.other 4)).bind fun x11 => Res.ok (newGroup lAND [x10, x11])).bind fun x12 => x9.toCond.or [x12.toCond]).bind fun r => r.values) = .ok [(.other 1), (.other 2), (.other 3), (.other 4)] := by rfl
/-- dis_con_con_gives_dis_con_raw -/
example : ((((equalTo c!"f1" (.other 1)).bind fun x1 => (equalTo c!"f2" (.other 2)).bind fun x2 => Res.ok (newGroup lOR [x1, x2])).bind fun x3 => ((equalTo c!"a1" (.other 3)).bind fun x4 => (equalTo c!"a2" (.other 4)).bind fun x5 => Res.ok (newGroup lAND [x4, x5])).bind fun x6 => Res.ok (x3.toCond.and [x6.toCond])).bind fun r => r.render 10) = .ok c!"(f1=$11 OR f2=$12) AND a1=$13 AND a2=$14" := by rfl
/-- dis_con_con_gives_dis_con_raw -/
example : ((((equalTo c!"f1" (.other 1)).bind fun x7 => (equalTo c!"f2" (.other 2)).bind fun x8 => Res.ok (newGroup lOR [x7, x8])).bind fun x9 => ((equalTo c!"a1" (.other 3)).bind fun x10 => (equalTo c!"a2" (.other 4)).bind fun x11 => Res.ok (newGroup lAND [x10, x11])).bind fun x12 => Res.ok (x9.toCond.and [x12.toCond])).bind fun r => r.values) = .ok [(.other 1), (.other 2), (.other 3), (.other 4)] := by rfl
/-- con_con_con_gives_con_raw -/
example : ((((equalTo c!"f1" (.other 1)).bind fun x1 => (equalTo c!"f2" (.other 2)).bind fun x2 => Res.ok (newGroup lAND [x1, x2])).bind fun x3 => ((equalTo c!"a1" (.other 3)).bind fun x4 => (equalTo c!"a2" (.other 4)).bind fun x5 => Res.ok (newGroup lAND [x4, x5])).bind fun x6 => Res.ok (x3.toCond.and [x6.toCond])).bind fun r => r.render 10) = .ok c!"f1=$11 AND f2=$12 AND a1=$13 AND a2=$14" := by rfl
/-- con_con_con_gives_con_raw -/
example : ((((equalTo c!"f1" (.other 1)).bind fun x7 => (equalTo c!"f2" (.other 2)).bind fun x8 => Res.ok (newGroup lAND [x7, x8])).bind fun x9 => ((equalTo c!"a1" (.other 3)).bind fun x10 => (equalTo c!"a2" (.other 4)).bind fun x11 => Res.ok (newGroup lAND [x10, x11])).bind fun x12 => Res.ok (x9.toCond.and [x12.toCond])).bind fun r => r.values) = .ok [(.other 1), (.other 2), (.other 3), (.other 4)] := by rfl
/-- con_con_dis_gives_raw_con_dis -/
example : ((((equalTo c!"f1" (.other 1)).bind fun x1 => (equalTo c!"f2" (.other 2)).bind fun x2 => Res.ok (newGroup lAND [x1, x2])).bind fun x3 => ((equalTo c!"a1" (.other 3)).bind fun x4 => (equalTo c!"a2" (.other 4)).bind fun x5 => Res.ok (newGroup lOR [x4, x5])).bind fun x6 => Res.ok (x3.toCond.and [x6.toCond])).bind fun r => r.render 10) = .ok c!"f1=$11 AND f2=$12 AND (a1=$13 OR a2=$14)" := by rfl
/-- con_con_dis_gives_raw_con_dis -/
example : ((((equalTo c!"f1" (.other 1)).bind fun x7 => (equalTo c!"f2" (.other 2)).bind fun x8 => Res.ok (newGroup lAND [x7, x8])).bind fun x9 => ((equalTo c!"a1" (.other 3)).bind fun x10 => (equalTo c!"a2" (.other 4)).bind fun x11 => Res.ok (newGroup lOR [x10, x11])).bind fun x12 => Res.ok (x9.toCond.and [x12.toCond])).bind fun r => r.values) = .ok [(.other 1), (.other 2), (.other 3), (.other 4)] := by rfl
/-- eq_or_con -/
example : (((equalTo c!"f1" (.other 5)).bind fun x1 => ((equalTo c!"f2" (.other 5)).bind fun x2 => (equalTo c!"f3" (.other 5)).bind fun x3 => Res.ok (x2.and [x3])).bind fun x4 => x1.or [x4]).bind fun r => r.render 0) = .ok c!"f1=$1 OR (f2=$2 AND f3=$3)" := by rfl
/-- eq_or_con -/
example : (((equalTo c!"f1" (.other 5)).bind fun x5 => ((equalTo c!"f2" (.other 5)).bind fun x6 => (equalTo c!"f3" (.other 5)).bind fun x7 => Res.ok (x6.and [x7])).bind fun x8 => x5.or [x8]).bind fun r => r.values) = .ok [(.other 5), (.other 5), (.other 5)] := by rfl

/-! ### `TestGroup_Render`, group_test.go:160 -/

/-- neq_dis_eq_no_brackets -/
example : ((((equalTo c!"f1" (.other 6)).bind fun x1 => Res.ok (notC x1)).bind fun x2 => (equalTo c!"f2" (.other 7)).bind fun x3 => x2.or [x3]).bind fun r => r.render 0) = .ok c!"NOT f1=$1 OR f2=$2" := by rfl
/-- neq_dis_eq_no_brackets_table -/
example : (((((equalTo c!"f1" (.other 6)).bind fun x1 => Res.ok (notC x1)).bind fun x2 => (equalTo c!"f2" (.other 7)).bind fun x3 => x2.or [x3]).bind fun x4 => Res.ok (x4.applyFieldTable c!"test")).bind fun r => r.render 0) = .ok c!"NOT test.f1=$1 OR test.f2=$2" := by rfl
/-- neq_con_eq_no_brackets -/
example : ((((equalTo c!"f1" (.other 6)).bind fun x1 => Res.ok (notC x1)).bind fun x2 => (equalTo c!"f2" (.other 7)).bind fun x3 => Res.ok (x2.and [x3])).bind fun r => r.render 0) = .ok c!"NOT f1=$1 AND f2=$2" := by rfl
/-- eq_dis_not_eq_no_brackets -/
example : (((equalTo c!"f1" (.other 6)).bind fun x1 => ((equalTo c!"f2" (.other 7)).bind fun x2 => Res.ok (notC x2)).bind fun x3 => x1.or [x3]).bind fun r => r.render 0) = .ok c!"f1=$1 OR NOT f2=$2" := by rfl
/-- eq_con_not_eq_no_brackets -/
example : (((equalTo c!"f1" (.other 6)).bind fun x1 => ((equalTo c!"f2" (.other 7)).bind fun x2 => Res.ok (notC x2)).bind fun x3 => Res.ok (x1.and [x3])).bind fun r => r.render 0) = .ok c!"f1=$1 AND NOT f2=$2" := by rfl
/-- eq_con_eq_in_brackets -/
example : (((((equalTo c!"f1" (.other 6)).bind fun x1 => (equalTo c!"f2" (.other 7)).bind fun x2 => Res.ok (x1.and [x2])).bind fun x3 => match x3.asGroup with | some g => Res.ok g | none => Res.panic .typeAssert).bind fun x4 => Res.ok x4.withBrackets).bind fun r => r.toCond.render 0) = .ok c!"(f1=$1 AND f2=$2)" := by rfl
/-- eq_dis_eq_in_brackets -/
example : (((((equalTo c!"f1" (.other 6)).bind fun x1 => (equalTo c!"f2" (.other 7)).bind fun x2 => x1.or [x2]).bind fun x3 => match x3.asGroup with | some g => Res.ok g | none => Res.panic .typeAssert).bind fun x4 => Res.ok x4.withBrackets).bind fun r => r.toCond.render 0) = .ok c!"(f1=$1 OR f2=$2)" := by rfl
/-- not_eq_dis_eq_in_brackets -/
example : ((((((equalTo c!"f1" (.other 6)).bind fun x1 => (equalTo c!"f2" (.other 7)).bind fun x2 => x1.or [x2]).bind fun x3 => match x3.asGroup with | some g => Res.ok g | none => Res.panic .typeAssert).bind fun x4 => Res.ok x4.withBrackets).bind fun x5 => Res.ok (notC x5.toCond)).bind fun r => r.render 0) = .ok c!"NOT (f1=$1 OR f2=$2)" := by rfl
/-- not_eq_dis_eq_in_brackets_table -/
example : (((((((equalTo c!"f1" (.other 6)).bind fun x1 => (equalTo c!"f2" (.other 7)).bind fun x2 => x1.or [x2]).bind fun x3 => match x3.asGroup with | some g => Res.ok g | none => Res.panic .typeAssert).bind fun x4 => Res.ok x4.withBrackets).bind fun x5 => Res.ok (notC x5.toCond)).bind fun x6 => Res.ok (x6.applyFieldTable c!"test")).bind fun r => r.render 0) = .ok c!"NOT (test.f1=$1 OR test.f2=$2)" := by rfl

/-! ### `TestGroup_RenderSQL`, group_test.go:220 -/

/-- neq_dis_eq_no_brackets -/
example : ((((equalTo c!"f1" (.other 6)).bind fun x1 => Res.ok (notC x1)).bind fun x2 => (equalTo c!"f2" (.other 7)).bind fun x3 => x2.or [x3]).bind fun r => r.renderSQL) = .ok c!"NOT f1=? OR f2=?" := by rfl
/-- neq_dis_eq_no_brackets_table -/
example : (((((equalTo c!"f1" (.other 6)).bind fun x1 => Res.ok (notC x1)).bind fun x2 => (equalTo c!"f2" (.other 7)).bind fun x3 => x2.or [x3]).bind fun x4 => Res.ok (x4.applyFieldTable c!"test")).bind fun r => r.renderSQL) = .ok c!"NOT test.f1=? OR test.f2=?" := by rfl
/-- neq_con_eq_no_brackets -/
example : ((((equalTo c!"f1" (.other 6)).bind fun x1 => Res.ok (notC x1)).bind fun x2 => (equalTo c!"f2" (.other 7)).bind fun x3 => Res.ok (x2.and [x3])).bind fun r => r.renderSQL) = .ok c!"NOT f1=? AND f2=?" := by rfl
/-- eq_dis_not_eq_no_brackets -/
example : (((equalTo c!"f1" (.other 6)).bind fun x1 => ((equalTo c!"f2" (.other 7)).bind fun x2 => Res.ok (notC x2)).bind fun x3 => x1.or [x3]).bind fun r => r.renderSQL) = .ok c!"f1=? OR NOT f2=?" := by rfl
/-- eq_con_not_eq_no_brackets -/
example : (((equalTo c!"f1" (.other 6)).bind fun x1 => ((equalTo c!"f2" (.other 7)).bind fun x2 => Res.ok (notC x2)).bind fun x3 => Res.ok (x1.and [x3])).bind fun r => r.renderSQL) = .ok c!"f1=? AND NOT f2=?" := by rfl
/-- eq_con_eq_in_brackets -/
example : (((((equalTo c!"f1" (.other 6)).bind fun x1 => (equalTo c!"f2" (.other 7)).bind fun x2 => Res.ok (x1.and [x2])).bind fun x3 => match x3.asGroup with | some g => Res.ok g | none => Res.panic .typeAssert).bind fun x4 => Res.ok x4.withBrackets).bind fun r => r.toCond.renderSQL) = .ok c!"(f1=? AND f2=?)" := by rfl
/-- eq_dis_eq_in_brackets -/
example : (((((equalTo c!"f1" (.other 6)).bind fun x1 => (equalTo c!"f2" (.other 7)).bind fun x2 => x1.or [x2]).bind fun x3 => match x3.asGroup with | some g => Res.ok g | none => Res.panic .typeAssert).bind fun x4 => Res.ok x4.withBrackets).bind fun r => r.toCond.renderSQL) = .ok c!"(f1=? OR f2=?)" := by rfl
/-- not_eq_dis_eq_in_brackets -/
example : ((((((equalTo c!"f1" (.other 6)).bind fun x1 => (equalTo c!"f2" (.other 7)).bind fun x2 => x1.or [x2]).bind fun x3 => match x3.asGroup with | some g => Res.ok g | none => Res.panic .typeAssert).bind fun x4 => Res.ok x4.withBrackets).bind fun x5 => Res.ok (notC x5.toCond)).bind fun r => r.renderSQL) = .ok c!"NOT (f1=? OR f2=?)" := by rfl
/-- not_eq_dis_eq_in_brackets_table -/
example : (((((((equalTo c!"f1" (.other 6)).bind fun x1 => (equalTo c!"f2" (.other 7)).bind fun x2 => x1.or [x2]).bind fun x3 => match x3.asGroup with | some g => Res.ok g | none => Res.panic .typeAssert).bind fun x4 => Res.ok x4.withBrackets).bind fun x5 => Res.ok (notC x5.toCond)).bind fun x6 => Res.ok (x6.applyFieldTable c!"test")).bind fun r => r.renderSQL) = .ok c!"NOT (test.f1=? OR test.f2=?)" := by rfl

/-! ### `Test_FieldCondition_ApplyFieldTable`, interfaces_test.go:11 -/

/-- contains -/
example : (((contains c!"f1" c!"v1").bind fun x1 => Res.ok (x1.applyFieldTable c!"test")).bind fun r => r.render 0) = .ok c!"test.f1 LIKE $1" := by rfl
/-- equal -/
example : (((equalTo c!"f1" (.str c!"v1")).bind fun x1 => Res.ok (x1.applyFieldTable c!"test")).bind fun r => r.render 0) = .ok c!"test.f1=$1" := by rfl
/-- is_null -/
example : (((isNull c!"f1").bind fun x1 => Res.ok (x1.applyFieldTable c!"test")).bind fun r => r.render 0) = .ok c!"test.f1 IS NULL" := by rfl

/-! ### `TestNot`, operations_test.go:11 -/

/-- negate_eq -/
example : (((equalTo c!"f1" (.other 5)).bind fun x1 => Res.ok (notC x1)).bind fun r => Res.ok r.isNegate) = .ok true := by rfl
/-- negate_eq -/
example : (((equalTo c!"f1" (.other 5)).bind fun x2 => Res.ok (notC x2)).bind fun r => r.render 0) = .ok c!"NOT f1=$1" := by rfl
/-- negate_contains -/
example : (((contains c!"f1" c!"0").bind fun x1 => Res.ok (notC x1)).bind fun r => Res.ok r.isNegate) = .ok true := by rfl
/-- negate_contains -/
example : (((contains c!"f1" c!"0").bind fun x2 => Res.ok (notC x2)).bind fun r => r.render 0) = .ok c!"f1 NOT LIKE $1" := by rfl
/-- negate_icontains -/
example : (((iContains c!"f1" c!"0").bind fun x1 => Res.ok (notC x1)).bind fun r => Res.ok r.isNegate) = .ok true := by rfl
/-- negate_icontains -/
example : (((iContains c!"f1" c!"0").bind fun x2 => Res.ok (notC x2)).bind fun r => r.render 0) = .ok c!"f1 NOT ILIKE $1" := by rfl
/-- negate_is_null -/
example : (((isNull c!"f1").bind fun x1 => Res.ok (notC x1)).bind fun r => Res.ok r.isNegate) = .ok true := by rfl
/-- negate_is_null -/
example : (((isNull c!"f1").bind fun x2 => Res.ok (notC x2)).bind fun r => r.render 0) = .ok c!"f1 IS NOT NULL" := by rfl
/-- negate_dis -/
example : ((((equalTo c!"f1" (.other 5)).bind fun x1 => (equalTo c!"f2" (.other 5)).bind fun x2 => Res.ok (newGroup lOR [x1, x2])).bind fun x3 => Res.ok (notC x3.toCond)).bind fun r => Res.ok r.isNegate) = .ok true := by rfl
/-- negate_dis -/
example : ((((equalTo c!"f1" (.other 5)).bind fun x4 => (equalTo c!"f2" (.other 5)).bind fun x5 => Res.ok (newGroup lOR [x4, x5])).bind fun x6 => Res.ok (notC x6.toCond)).bind fun r => r.render 0) = .ok c!"NOT (f1=$1 OR f2=$2)" := by rfl
/-- negate_con -/
example : ((((equalTo c!"f1" (.other 5)).bind fun x1 => (equalTo c!"f2" (.other 5)).bind fun x2 => Res.ok (newGroup lAND [x1, x2])).bind fun x3 => Res.ok (notC x3.toCond)).bind fun r => Res.ok r.isNegate) = .ok true := by rfl
/-- negate_con -/
example : ((((equalTo c!"f1" (.other 5)).bind fun x4 => (equalTo c!"f2" (.other 5)).bind fun x5 => Res.ok (newGroup lAND [x4, x5])).bind fun x6 => Res.ok (notC x6.toCond)).bind fun r => r.render 0) = .ok c!"NOT (f1=$1 AND f2=$2)" := by rfl
/-- negate_dis_not -/
example : ((((equalTo c!"f1" (.other 5)).bind fun x1 => ((equalTo c!"f2" (.other 5)).bind fun x2 => Res.ok (notC x2)).bind fun x3 => Res.ok (newGroup lOR [x1, x3])).bind fun x4 => Res.ok (notC x4.toCond)).bind fun r => Res.ok r.isNegate) = .ok true := by rfl
/-- negate_dis_not -/
example : ((((equalTo c!"f1" (.other 5)).bind fun x5 => ((equalTo c!"f2" (.other 5)).bind fun x6 => Res.ok (notC x6)).bind fun x7 => Res.ok (newGroup lOR [x5, x7])).bind fun x8 => Res.ok (notC x8.toCond)).bind fun r => r.render 0) = .ok c!"NOT (f1=$1 OR NOT f2=$2)" := by rfl
/-- negate_con_not -/
example : ((((equalTo c!"f1" (.other 5)).bind fun x1 => ((equalTo c!"f2" (.other 5)).bind fun x2 => Res.ok (notC x2)).bind fun x3 => Res.ok (newGroup lAND [x1, x3])).bind fun x4 => Res.ok (notC x4.toCond)).bind fun r => Res.ok r.isNegate) = .ok true := by rfl
/-- negate_con_not -/
example : ((((equalTo c!"f1" (.other 5)).bind fun x5 => ((equalTo c!"f2" (.other 5)).bind fun x6 => Res.ok (notC x6)).bind fun x7 => Res.ok (newGroup lAND [x5, x7])).bind fun x8 => Res.ok (notC x8.toCond)).bind fun r => r.render 0) = .ok c!"NOT (f1=$1 AND NOT f2=$2)" := by rfl
/-- negate_not_dis -/
example : (((((equalTo c!"f1" (.other 5)).bind fun x1 => Res.ok (notC x1)).bind fun x2 => (equalTo c!"f2" (.other 5)).bind fun x3 => Res.ok (newGroup lOR [x2, x3])).bind fun x4 => Res.ok (notC x4.toCond)).bind fun r => Res.ok r.isNegate) = .ok true := by rfl
/-- negate_not_dis -/
example : (((((equalTo c!"f1" (.other 5)).bind fun x5 => Res.ok (notC x5)).bind fun x6 => (equalTo c!"f2" (.other 5)).bind fun x7 => Res.ok (newGroup lOR [x6, x7])).bind fun x8 => Res.ok (notC x8.toCond)).bind fun r => r.render 0) = .ok c!"NOT (NOT f1=$1 OR f2=$2)" := by rfl
/-- negate_not_con -/
example : (((((equalTo c!"f1" (.other 5)).bind fun x1 => Res.ok (notC x1)).bind fun x2 => (equalTo c!"f2" (.other 5)).bind fun x3 => Res.ok (newGroup lAND [x2, x3])).bind fun x4 => Res.ok (notC x4.toCond)).bind fun r => Res.ok r.isNegate) = .ok true := by rfl
/-- negate_not_con -/
example : (((((equalTo c!"f1" (.other 5)).bind fun x5 => Res.ok (notC x5)).bind fun x6 => (equalTo c!"f2" (.other 5)).bind fun x7 => Res.ok (newGroup lAND [x6, x7])).bind fun x8 => Res.ok (notC x8.toCond)).bind fun r => r.render 0) = .ok c!"NOT (NOT f1=$1 AND f2=$2)" := by rfl

/-! ### `TestAnd`, operations_test.go:57 -/

/-- eq_and_eq -/
example : (((equalTo c!"f1" (.other 5)).bind fun x1 => (equalTo c!"f2" (.other 5)).bind fun x2 => Res.ok (x1.and [x2])).bind fun r => r.render 0) = .ok c!"f1=$1 AND f2=$2" := by rfl
/-- eq_and_like -/
example : (((equalTo c!"f1" (.other 5)).bind fun x1 => (contains c!"f2" c!"0").bind fun x2 => Res.ok (x1.and [x2])).bind fun r => r.render 0) = .ok c!"f1=$1 AND f2 LIKE $2" := by rfl
/-- eq_and_null -/
example : (((equalTo c!"f1" (.other 5)).bind fun x1 => (isNull c!"f2").bind fun x2 => Res.ok (x1.and [x2])).bind fun r => r.render 0) = .ok c!"f1=$1 AND f2 IS NULL" := by rfl
/-- eq_and_not_eq -/
example : (((equalTo c!"f1" (.other 5)).bind fun x1 => ((equalTo c!"f2" (.other 5)).bind fun x2 => Res.ok (notC x2)).bind fun x3 => Res.ok (x1.and [x3])).bind fun r => r.render 0) = .ok c!"f1=$1 AND NOT f2=$2" := by rfl
/-- eq_and_not_like -/
example : (((equalTo c!"f1" (.other 5)).bind fun x1 => ((contains c!"f2" c!"0").bind fun x2 => Res.ok (notC x2)).bind fun x3 => Res.ok (x1.and [x3])).bind fun r => r.render 0) = .ok c!"f1=$1 AND f2 NOT LIKE $2" := by rfl
/-- eq_and_not_null -/
example : (((equalTo c!"f1" (.other 5)).bind fun x1 => ((isNull c!"f2").bind fun x2 => Res.ok (notC x2)).bind fun x3 => Res.ok (x1.and [x3])).bind fun r => r.render 0) = .ok c!"f1=$1 AND f2 IS NOT NULL" := by rfl
/-- not_eq_and_eq -/
example : ((((equalTo c!"f1" (.other 5)).bind fun x1 => Res.ok (notC x1)).bind fun x2 => (equalTo c!"f2" (.other 5)).bind fun x3 => Res.ok (x2.and [x3])).bind fun r => r.render 0) = .ok c!"NOT f1=$1 AND f2=$2" := by rfl
/-- not_eq_and_like -/
example : ((((equalTo c!"f1" (.other 5)).bind fun x1 => Res.ok (notC x1)).bind fun x2 => (contains c!"f2" c!"0").bind fun x3 => Res.ok (x2.and [x3])).bind fun r => r.render 0) = .ok c!"NOT f1=$1 AND f2 LIKE $2" := by rfl
/-- not_eq_and_null -/
example : ((((equalTo c!"f1" (.other 5)).bind fun x1 => Res.ok (notC x1)).bind fun x2 => (isNull c!"f2").bind fun x3 => Res.ok (x2.and [x3])).bind fun r => r.render 0) = .ok c!"NOT f1=$1 AND f2 IS NULL" := by rfl
/-- eq_and_con_eq -/
example : (((equalTo c!"f1" (.other 5)).bind fun x1 => ((equalTo c!"f2" (.other 5)).bind fun x2 => (equalTo c!"f3" (.other 5)).bind fun x3 => Res.ok (x2.and [x3])).bind fun x4 => Res.ok (x1.and [x4])).bind fun r => r.render 0) = .ok c!"f1=$1 AND f2=$2 AND f3=$3" := by rfl
/-- eq_and_con_like -/
example : (((equalTo c!"f1" (.other 5)).bind fun x1 => ((contains c!"f2" c!"0").bind fun x2 => (contains c!"f3" c!"0").bind fun x3 => Res.ok (x2.and [x3])).bind fun x4 => Res.ok (x1.and [x4])).bind fun r => r.render 0) = .ok c!"f1=$1 AND f2 LIKE $2 AND f3 LIKE $3" := by rfl
/-- eq_and_con_null -/
example : (((equalTo c!"f1" (.other 5)).bind fun x1 => ((isNull c!"f2").bind fun x2 => (isNull c!"f3").bind fun x3 => Res.ok (x2.and [x3])).bind fun x4 => Res.ok (x1.and [x4])).bind fun r => r.render 0) = .ok c!"f1=$1 AND f2 IS NULL AND f3 IS NULL" := by rfl
/-- con_and_eq -/
example : ((((equalTo c!"f1" (.other 5)).bind fun x1 => (equalTo c!"f2" (.other 5)).bind fun x2 => Res.ok (x1.and [x2])).bind fun x3 => (equalTo c!"f3" (.other 5)).bind fun x4 => Res.ok (x3.and [x4])).bind fun r => r.render 0) = .ok c!"f1=$1 AND f2=$2 AND f3=$3" := by rfl
/-- con_and_like -/
example : ((((equalTo c!"f1" (.other 5)).bind fun x1 => (equalTo c!"f2" (.other 5)).bind fun x2 => Res.ok (x1.and [x2])).bind fun x3 => (contains c!"f3" c!"0").bind fun x4 => Res.ok (x3.and [x4])).bind fun r => r.render 0) = .ok c!"f1=$1 AND f2=$2 AND f3 LIKE $3" := by rfl
/-- con_and_null -/
example : ((((equalTo c!"f1" (.other 5)).bind fun x1 => (equalTo c!"f2" (.other 5)).bind fun x2 => Res.ok (x1.and [x2])).bind fun x3 => (isNull c!"f3").bind fun x4 => Res.ok (x3.and [x4])).bind fun r => r.render 0) = .ok c!"f1=$1 AND f2=$2 AND f3 IS NULL" := by rfl
/-- con_and_dis -/
example : ((((equalTo c!"f1" (.other 5)).bind fun x1 => (equalTo c!"f2" (.other 5)).bind fun x2 => Res.ok (newGroup lAND [x1, x2])).bind fun x3 => ((equalTo c!"f3" (.other 5)).bind fun x4 => (equalTo c!"f4" (.other 5)).bind fun x5 => Res.ok (newGroup lOR [x4, x5])).bind fun x6 => Res.ok (x3.toCond.and [x6.toCond])).bind fun r => r.render 0) = .ok c!"f1=$1 AND f2=$2 AND (f3=$3 OR f4=$4)" := by rfl
/-- dis_and_eq -/
example : ((((equalTo c!"f1" (.other 5)).bind fun x1 => (equalTo c!"f2" (.other 5)).bind fun x2 => Res.ok (newGroup lOR [x1, x2])).bind fun x3 => (equalTo c!"f3" (.other 5)).bind fun x4 => Res.ok (x3.toCond.and [x4])).bind fun r => r.render 0) = .ok c!"(f1=$1 OR f2=$2) AND f3=$3" := by rfl
/-- dis_and_like -/
example : ((((equalTo c!"f1" (.other 5)).bind fun x1 => (equalTo c!"f2" (.other 5)).bind fun x2 => Res.ok (newGroup lOR [x1, x2])).bind fun x3 => (contains c!"f3" c!"0").bind fun x4 => Res.ok (x3.toCond.and [x4])).bind fun r => r.render 0) = .ok c!"(f1=$1 OR f2=$2) AND f3 LIKE $3" := by rfl
/-- dis_and_ilike -/
example : ((((equalTo c!"f1" (.other 5)).bind fun x1 => (equalTo c!"f2" (.other 5)).bind fun x2 => Res.ok (newGroup lOR [x1, x2])).bind fun x3 => (iContains c!"f3" c!"0").bind fun x4 => Res.ok (x3.toCond.and [x4])).bind fun r => r.render 0) = .ok c!"(f1=$1 OR f2=$2) AND f3 ILIKE $3" := by rfl
/-- dis_and_null -/
example : ((((equalTo c!"f1" (.other 5)).bind fun x1 => (equalTo c!"f2" (.other 5)).bind fun x2 => Res.ok (newGroup lOR [x1, x2])).bind fun x3 => (isNull c!"f3").bind fun x4 => Res.ok (x3.toCond.and [x4])).bind fun r => r.render 0) = .ok c!"(f1=$1 OR f2=$2) AND f3 IS NULL" := by rfl
/-- dis_and_con -/
example : ((((equalTo c!"f1" (.other 5)).bind fun x1 => (equalTo c!"f2" (.other 5)).bind fun x2 => x1.or [x2]).bind fun x3 => ((equalTo c!"f3" (.other 5)).bind fun x4 => (equalTo c!"f4" (.other 5)).bind fun x5 => Res.ok (x4.and [x5])).bind fun x6 => Res.ok (x3.and [x6])).bind fun r => r.render 0) = .ok c!"(f1=$1 OR f2=$2) AND f3=$3 AND f4=$4" := by rfl
/-- dis_and_dis -/
example : ((((equalTo c!"f1" (.other 5)).bind fun x1 => (equalTo c!"f2" (.other 5)).bind fun x2 => Res.ok (newGroup lOR [x1, x2])).bind fun x3 => ((equalTo c!"f3" (.other 5)).bind fun x4 => (equalTo c!"f4" (.other 5)).bind fun x5 => Res.ok (newGroup lOR [x4, x5])).bind fun x6 => Res.ok (x3.toCond.and [x6.toCond])).bind fun r => r.render 0) = .ok c!"(f1=$1 OR f2=$2) AND (f3=$3 OR f4=$4)" := by rfl

/-! ### `TestOr`, operations_test.go:161 -/

/-- eq_or_eq -/
example : (((equalTo c!"f1" (.other 5)).bind fun x1 => (equalTo c!"f2" (.other 5)).bind fun x2 => x1.or [x2]).bind fun r => r.render 0) = .ok c!"f1=$1 OR f2=$2" := by rfl
/-- eq_or_like -/
example : (((equalTo c!"f1" (.other 5)).bind fun x1 => (contains c!"f2" c!"0").bind fun x2 => x1.or [x2]).bind fun r => r.render 0) = .ok c!"f1=$1 OR f2 LIKE $2" := by rfl
/-- eq_or_null -/
example : (((equalTo c!"f1" (.other 5)).bind fun x1 => (isNull c!"f2").bind fun x2 => x1.or [x2]).bind fun r => r.render 0) = .ok c!"f1=$1 OR f2 IS NULL" := by rfl
/-- eq_or_not_eq -/
example : (((equalTo c!"f1" (.other 5)).bind fun x1 => ((equalTo c!"f2" (.other 5)).bind fun x2 => Res.ok (notC x2)).bind fun x3 => x1.or [x3]).bind fun r => r.render 0) = .ok c!"f1=$1 OR NOT f2=$2" := by rfl
/-- eq_or_not_like -/
example : (((equalTo c!"f1" (.other 5)).bind fun x1 => ((contains c!"f2" c!"0").bind fun x2 => Res.ok (notC x2)).bind fun x3 => x1.or [x3]).bind fun r => r.render 0) = .ok c!"f1=$1 OR f2 NOT LIKE $2" := by rfl
/-- eq_or_not_null -/
example : (((equalTo c!"f1" (.other 5)).bind fun x1 => ((isNull c!"f2").bind fun x2 => Res.ok (notC x2)).bind fun x3 => x1.or [x3]).bind fun r => r.render 0) = .ok c!"f1=$1 OR f2 IS NOT NULL" := by rfl
/-- not_eq_or_eq -/
example : ((((equalTo c!"f1" (.other 5)).bind fun x1 => Res.ok (notC x1)).bind fun x2 => (equalTo c!"f2" (.other 5)).bind fun x3 => x2.or [x3]).bind fun r => r.render 0) = .ok c!"NOT f1=$1 OR f2=$2" := by rfl
/-- not_eq_or_like -/
example : ((((equalTo c!"f1" (.other 5)).bind fun x1 => Res.ok (notC x1)).bind fun x2 => (contains c!"f2" c!"0").bind fun x3 => x2.or [x3]).bind fun r => r.render 0) = .ok c!"NOT f1=$1 OR f2 LIKE $2" := by rfl
/-- not_eq_or_null -/
example : ((((equalTo c!"f1" (.other 5)).bind fun x1 => Res.ok (notC x1)).bind fun x2 => (isNull c!"f2").bind fun x3 => x2.or [x3]).bind fun r => r.render 0) = .ok c!"NOT f1=$1 OR f2 IS NULL" := by rfl
/-- eq_or_con -/
example : (((equalTo c!"f1" (.other 5)).bind fun x1 => ((equalTo c!"f2" (.other 5)).bind fun x2 => (equalTo c!"f3" (.other 5)).bind fun x3 => Res.ok (x2.and [x3])).bind fun x4 => x1.or [x4]).bind fun r => r.render 0) = .ok c!"f1=$1 OR (f2=$2 AND f3=$3)" := by rfl
/-- con_or_eq -/
example : ((((equalTo c!"f1" (.other 5)).bind fun x1 => (equalTo c!"f2" (.other 5)).bind fun x2 => Res.ok (x1.and [x2])).bind fun x3 => (equalTo c!"f3" (.other 5)).bind fun x4 => x3.or [x4]).bind fun r => r.render 0) = .ok c!"(f1=$1 AND f2=$2) OR f3=$3" := by rfl
/-- con_or_like -/
example : ((((equalTo c!"f1" (.other 5)).bind fun x1 => (equalTo c!"f2" (.other 5)).bind fun x2 => Res.ok (x1.and [x2])).bind fun x3 => (contains c!"f3" c!"0").bind fun x4 => x3.or [x4]).bind fun r => r.render 0) = .ok c!"(f1=$1 AND f2=$2) OR f3 LIKE $3" := by rfl
/-- con_or_null -/
example : ((((equalTo c!"f1" (.other 5)).bind fun x1 => (equalTo c!"f2" (.other 5)).bind fun x2 => Res.ok (x1.and [x2])).bind fun x3 => (isNull c!"f3").bind fun x4 => x3.or [x4]).bind fun r => r.render 0) = .ok c!"(f1=$1 AND f2=$2) OR f3 IS NULL" := by rfl
/-- con_or_dis -/
example : ((((equalTo c!"f1" (.other 5)).bind fun x1 => (equalTo c!"f2" (.other 5)).bind fun x2 => Res.ok (newGroup lAND [x1, x2])).bind fun x3 => ((equalTo c!"f3" (.other 5)).bind fun x4 => (equalTo c!"f4" (.other 5)).bind fun x5 => Res.ok (newGroup lOR [x4, x5])).bind fun x6 => x3.toCond.or [x6.toCond]).bind fun r => r.render 0) = .ok c!"(f1=$1 AND f2=$2) OR f3=$3 OR f4=$4" := by rfl
/-- dis_or_eq -/
example : ((((equalTo c!"f1" (.other 5)).bind fun x1 => (equalTo c!"f2" (.other 5)).bind fun x2 => Res.ok (newGroup lOR [x1, x2])).bind fun x3 => (equalTo c!"f3" (.other 5)).bind fun x4 => x3.toCond.or [x4]).bind fun r => r.render 0) = .ok c!"f1=$1 OR f2=$2 OR f3=$3" := by rfl
/-- dis_or_like -/
example : ((((equalTo c!"f1" (.other 5)).bind fun x1 => (equalTo c!"f2" (.other 5)).bind fun x2 => Res.ok (newGroup lOR [x1, x2])).bind fun x3 => (contains c!"f3" c!"0").bind fun x4 => x3.toCond.or [x4]).bind fun r => r.render 0) = .ok c!"f1=$1 OR f2=$2 OR f3 LIKE $3" := by rfl
/-- dis_or_ilike -/
example : ((((equalTo c!"f1" (.other 5)).bind fun x1 => (equalTo c!"f2" (.other 5)).bind fun x2 => Res.ok (newGroup lOR [x1, x2])).bind fun x3 => (iContains c!"f3" c!"0").bind fun x4 => x3.toCond.or [x4]).bind fun r => r.render 0) = .ok c!"f1=$1 OR f2=$2 OR f3 ILIKE $3" := by rfl
/-- dis_or_null -/
example : ((((equalTo c!"f1" (.other 5)).bind fun x1 => (equalTo c!"f2" (.other 5)).bind fun x2 => Res.ok (newGroup lOR [x1, x2])).bind fun x3 => (isNull c!"f3").bind fun x4 => x3.toCond.or [x4]).bind fun r => r.render 0) = .ok c!"f1=$1 OR f2=$2 OR f3 IS NULL" := by rfl
/-- dis_or_con -/
example : ((((equalTo c!"f1" (.other 5)).bind fun x1 => (equalTo c!"f2" (.other 5)).bind fun x2 => Res.ok (newGroup lOR [x1, x2])).bind fun x3 => ((equalTo c!"f3" (.other 5)).bind fun x4 => (equalTo c!"f4" (.other 5)).bind fun x5 => Res.ok (x4.and [x5])).bind fun x6 => x3.toCond.or [x6]).bind fun r => r.render 0) = .ok c!"f1=$1 OR f2=$2 OR (f3=$3 AND f4=$4)" := by rfl
/-- dis_and_dis -/
example : ((((equalTo c!"f1" (.other 5)).bind fun x1 => (equalTo c!"f2" (.other 5)).bind fun x2 => Res.ok (newGroup lOR [x1, x2])).bind fun x3 => ((equalTo c!"f3" (.other 5)).bind fun x4 => (equalTo c!"f4" (.other 5)).bind fun x5 => Res.ok (newGroup lOR [x4, x5])).bind fun x6 => x3.toCond.or [x6.toCond]).bind fun r => r.render 0) = .ok c!"f1=$1 OR f2=$2 OR f3=$3 OR f4=$4" := by rfl

end Query
