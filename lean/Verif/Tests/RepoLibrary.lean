import Verif.Tests.Base
import Verif.Model.Access
import Verif.Model.Write

/-! Generated by tools/gen_tests.py from the table-driven tests of the repository: lib_equal_test.go, lib_gt_test.go, lib_gte_test.go, lib_lt_test.go, lib_lte_test.go, lib_in_test.go, lib_like_test.go, lib_ilike_test.go, lib_isnull_test.go.

Each `example` is one row of a table: the expression of the row, translated call by call into the model, has the result
the authors of the code wrote in the row.  These are tests of the model, not proofs of properties. -/

namespace Query

/-! ### `Test_EqualTo_Render`, lib_equal_test.go:11 -/

/-- eq_to_string -/
example : ((equalTo c!"f1" (.str c!"aaa")).bind fun r => r.render 0) = .ok c!"f1=$1" := by rfl
/-- eq_to_string -/
example : ((equalTo c!"f1" (.str c!"aaa")).bind fun r => r.values) = .ok [(.str c!"aaa")] := by rfl
/-- eq_to_int -/
example : ((equalTo c!"f1" (.other 1)).bind fun r => r.render 1) = .ok c!"f1=$2" := by rfl
/-- eq_to_int -/
example : ((equalTo c!"f1" (.other 1)).bind fun r => r.values) = .ok [(.other 1)] := by rfl
/-- not_eq -/
example : (((equalTo c!"f1" (.other 2)).bind fun x1 => Res.ok (notC x1)).bind fun r => r.render 2) = .ok c!"NOT f1=$3" := by rfl
/-- not_eq -/
example : (((equalTo c!"f1" (.other 2)).bind fun x2 => Res.ok (notC x2)).bind fun r => r.values) = .ok [(.other 2)] := by rfl

/-! ### `Test_EqualTo_And`, lib_equal_test.go:40 -/

/-- eq_and_eq -/
example : (((equalTo c!"f1" (.str c!"aaa")).bind fun x1 => (equalTo c!"f2" (.str c!"aaa")).bind fun x2 => Res.ok (x1.and [x2])).bind fun r => r.render 0) = .ok c!"f1=$1 AND f2=$2" := by rfl
/-- eq_and_eq -/
example : (((equalTo c!"f1" (.str c!"aaa")).bind fun x3 => (equalTo c!"f2" (.str c!"aaa")).bind fun x4 => Res.ok (x3.and [x4])).bind fun r => r.values) = .ok [(.str c!"aaa"), (.str c!"aaa")] := by rfl
/-- eq_and_con -/
example : (((equalTo c!"f1" (.other 1)).bind fun x1 => ((equalTo c!"f2" (.other 8)).bind fun x2 => (equalTo c!"f3" (.other 9)).bind fun x3 => Res.ok (x2.and [x3])).bind fun x4 => Res.ok (x1.and [x4])).bind fun r => r.render 0) = .ok c!"f1=$1 AND f2=$2 AND f3=$3" := by rfl
/-- eq_and_con -/
example : (((equalTo c!"f1" (.other 1)).bind fun x5 => ((equalTo c!"f2" (.other 8)).bind fun x6 => (equalTo c!"f3" (.other 9)).bind fun x7 => Res.ok (x6.and [x7])).bind fun x8 => Res.ok (x5.and [x8])).bind fun r => r.values) = .ok [(.other 1), (.other 8), (.other 9)] := by rfl
/-- eq_and_dis -/
example : (((equalTo c!"f1" (.other 1)).bind fun x1 => ((equalTo c!"f2" (.str c!"2")).bind fun x2 => (equalTo c!"f3" (.str c!"3")).bind fun x3 => x2.or [x3]).bind fun x4 => Res.ok (x1.and [x4])).bind fun r => r.render 0) = .ok c!"f1=$1 AND (f2=$2 OR f3=$3)" := by rfl
/-- eq_and_dis -/
example : (((equalTo c!"f1" (.other 1)).bind fun x5 => ((equalTo c!"f2" (.str c!"2")).bind fun x6 => (equalTo c!"f3" (.str c!"3")).bind fun x7 => x6.or [x7]).bind fun x8 => Res.ok (x5.and [x8])).bind fun r => r.values) = .ok [(.other 1), (.str c!"2"), (.str c!"3")] := by rfl
/-- ne_and_eq -/
example : ((((equalTo c!"f1" (.str c!"aaa")).bind fun x1 => Res.ok (notC x1)).bind fun x2 => (equalTo c!"f2" (.str c!"aaa")).bind fun x3 => Res.ok (x2.and [x3])).bind fun r => r.render 0) = .ok c!"NOT f1=$1 AND f2=$2" := by rfl
/-- ne_and_eq -/
example : ((((equalTo c!"f1" (.str c!"aaa")).bind fun x4 => Res.ok (notC x4)).bind fun x5 => (equalTo c!"f2" (.str c!"aaa")).bind fun x6 => Res.ok (x5.and [x6])).bind fun r => r.values) = .ok [(.str c!"aaa"), (.str c!"aaa")] := by rfl
/-- ne_and_con -/
example : ((((equalTo c!"f1" (.other 2)).bind fun x1 => Res.ok (notC x1)).bind fun x2 => ((equalTo c!"f2" (.other 3)).bind fun x3 => (equalTo c!"f3" (.other 8)).bind fun x4 => Res.ok (x3.and [x4])).bind fun x5 => Res.ok (x2.and [x5])).bind fun r => r.render 0) = .ok c!"NOT f1=$1 AND f2=$2 AND f3=$3" := by rfl
/-- ne_and_con -/
example : ((((equalTo c!"f1" (.other 2)).bind fun x6 => Res.ok (notC x6)).bind fun x7 => ((equalTo c!"f2" (.other 3)).bind fun x8 => (equalTo c!"f3" (.other 8)).bind fun x9 => Res.ok (x8.and [x9])).bind fun x10 => Res.ok (x7.and [x10])).bind fun r => r.values) = .ok [(.other 2), (.other 3), (.other 8)] := by rfl
/-- ne_and_dis -/
example : ((((equalTo c!"f1" (.other 1)).bind fun x1 => Res.ok (notC x1)).bind fun x2 => ((equalTo c!"f2" (.other 3)).bind fun x3 => (equalTo c!"f3" (.other 6)).bind fun x4 => x3.or [x4]).bind fun x5 => Res.ok (x2.and [x5])).bind fun r => r.render 7) = .ok c!"NOT f1=$8 AND (f2=$9 OR f3=$10)" := by rfl
/-- ne_and_dis -/
example : ((((equalTo c!"f1" (.other 1)).bind fun x6 => Res.ok (notC x6)).bind fun x7 => ((equalTo c!"f2" (.other 3)).bind fun x8 => (equalTo c!"f3" (.other 6)).bind fun x9 => x8.or [x9]).bind fun x10 => Res.ok (x7.and [x10])).bind fun r => r.values) = .ok [(.other 1), (.other 3), (.other 6)] := by rfl

/-! ### `Test_equalTo_RenderSQL`, lib_equal_test.go:97 -/

/-- eq_to_string -/
example : ((equalTo c!"f1" (.str c!"aaa")).bind fun r => r.renderSQL) = .ok c!"f1=?" := by rfl
/-- eq_to_string -/
example : ((equalTo c!"f1" (.str c!"aaa")).bind fun r => r.values) = .ok [(.str c!"aaa")] := by rfl
/-- eq_to_int -/
example : ((equalTo c!"f1" (.other 1)).bind fun r => r.renderSQL) = .ok c!"f1=?" := by rfl
/-- eq_to_int -/
example : ((equalTo c!"f1" (.other 1)).bind fun r => r.values) = .ok [(.other 1)] := by rfl
/-- not_eq -/
example : (((equalTo c!"f1" (.other 2)).bind fun x1 => Res.ok (notC x1)).bind fun r => r.renderSQL) = .ok c!"NOT f1=?" := by rfl
/-- not_eq -/
example : (((equalTo c!"f1" (.other 2)).bind fun x2 => Res.ok (notC x2)).bind fun r => r.values) = .ok [(.other 2)] := by rfl

/-! ### `Test_GreaterThan_Render`, lib_gt_test.go:11 -/

/-- gt_string -/
example : ((greaterThan c!"f1" (.str c!"aaa")).bind fun r => r.render 0) = .ok c!"f1>$1" := by rfl
/-- gt_string -/
example : ((greaterThan c!"f1" (.str c!"aaa")).bind fun r => r.values) = .ok [(.str c!"aaa")] := by rfl
/-- gt_int -/
example : ((greaterThan c!"f1" (.other 1)).bind fun r => r.render 1) = .ok c!"f1>$2" := by rfl
/-- gt_int -/
example : ((greaterThan c!"f1" (.other 1)).bind fun r => r.values) = .ok [(.other 1)] := by rfl
/-- not_gt -/
example : (((greaterThan c!"f1" (.other 2)).bind fun x1 => Res.ok (notC x1)).bind fun r => r.render 2) = .ok c!"NOT f1>$3" := by rfl
/-- not_gt -/
example : (((greaterThan c!"f1" (.other 2)).bind fun x2 => Res.ok (notC x2)).bind fun r => r.values) = .ok [(.other 2)] := by rfl

/-! ### `Test_GreaterThan_And`, lib_gt_test.go:40 -/

/-- eq_and_eq -/
example : (((greaterThan c!"f1" (.str c!"aaa")).bind fun x1 => (greaterThan c!"f2" (.str c!"aaa")).bind fun x2 => Res.ok (x1.and [x2])).bind fun r => r.render 0) = .ok c!"f1>$1 AND f2>$2" := by rfl
/-- eq_and_eq -/
example : (((greaterThan c!"f1" (.str c!"aaa")).bind fun x3 => (greaterThan c!"f2" (.str c!"aaa")).bind fun x4 => Res.ok (x3.and [x4])).bind fun r => r.values) = .ok [(.str c!"aaa"), (.str c!"aaa")] := by rfl
/-- eq_and_con -/
example : (((greaterThan c!"f1" (.other 1)).bind fun x1 => ((greaterThan c!"f2" (.other 8)).bind fun x2 => (greaterThan c!"f3" (.other 9)).bind fun x3 => Res.ok (x2.and [x3])).bind fun x4 => Res.ok (x1.and [x4])).bind fun r => r.render 0) = .ok c!"f1>$1 AND f2>$2 AND f3>$3" := by rfl
/-- eq_and_con -/
example : (((greaterThan c!"f1" (.other 1)).bind fun x5 => ((greaterThan c!"f2" (.other 8)).bind fun x6 => (greaterThan c!"f3" (.other 9)).bind fun x7 => Res.ok (x6.and [x7])).bind fun x8 => Res.ok (x5.and [x8])).bind fun r => r.values) = .ok [(.other 1), (.other 8), (.other 9)] := by rfl
/-- eq_and_dis -/
example : (((greaterThan c!"f1" (.other 1)).bind fun x1 => ((greaterThan c!"f2" (.str c!"2")).bind fun x2 => (greaterThan c!"f3" (.str c!"3")).bind fun x3 => x2.or [x3]).bind fun x4 => Res.ok (x1.and [x4])).bind fun r => r.render 0) = .ok c!"f1>$1 AND (f2>$2 OR f3>$3)" := by rfl
/-- eq_and_dis -/
example : (((greaterThan c!"f1" (.other 1)).bind fun x5 => ((greaterThan c!"f2" (.str c!"2")).bind fun x6 => (greaterThan c!"f3" (.str c!"3")).bind fun x7 => x6.or [x7]).bind fun x8 => Res.ok (x5.and [x8])).bind fun r => r.values) = .ok [(.other 1), (.str c!"2"), (.str c!"3")] := by rfl
/-- ne_and_eq -/
example : ((((greaterThan c!"f1" (.str c!"aaa")).bind fun x1 => Res.ok (notC x1)).bind fun x2 => (greaterThan c!"f2" (.str c!"aaa")).bind fun x3 => Res.ok (x2.and [x3])).bind fun r => r.render 0) = .ok c!"NOT f1>$1 AND f2>$2" := by rfl
/-- ne_and_eq -/
example : ((((greaterThan c!"f1" (.str c!"aaa")).bind fun x4 => Res.ok (notC x4)).bind fun x5 => (greaterThan c!"f2" (.str c!"aaa")).bind fun x6 => Res.ok (x5.and [x6])).bind fun r => r.values) = .ok [(.str c!"aaa"), (.str c!"aaa")] := by rfl
/-- ne_and_con -/
example : ((((greaterThan c!"f1" (.other 2)).bind fun x1 => Res.ok (notC x1)).bind fun x2 => ((greaterThan c!"f2" (.other 3)).bind fun x3 => (greaterThan c!"f3" (.other 8)).bind fun x4 => Res.ok (x3.and [x4])).bind fun x5 => Res.ok (x2.and [x5])).bind fun r => r.render 0) = .ok c!"NOT f1>$1 AND f2>$2 AND f3>$3" := by rfl
/-- ne_and_con -/
example : ((((greaterThan c!"f1" (.other 2)).bind fun x6 => Res.ok (notC x6)).bind fun x7 => ((greaterThan c!"f2" (.other 3)).bind fun x8 => (greaterThan c!"f3" (.other 8)).bind fun x9 => Res.ok (x8.and [x9])).bind fun x10 => Res.ok (x7.and [x10])).bind fun r => r.values) = .ok [(.other 2), (.other 3), (.other 8)] := by rfl
/-- ne_and_dis -/
example : ((((greaterThan c!"f1" (.other 1)).bind fun x1 => Res.ok (notC x1)).bind fun x2 => ((greaterThan c!"f2" (.other 3)).bind fun x3 => (greaterThan c!"f3" (.other 6)).bind fun x4 => x3.or [x4]).bind fun x5 => Res.ok (x2.and [x5])).bind fun r => r.render 7) = .ok c!"NOT f1>$8 AND (f2>$9 OR f3>$10)" := by rfl
/-- ne_and_dis -/
example : ((((greaterThan c!"f1" (.other 1)).bind fun x6 => Res.ok (notC x6)).bind fun x7 => ((greaterThan c!"f2" (.other 3)).bind fun x8 => (greaterThan c!"f3" (.other 6)).bind fun x9 => x8.or [x9]).bind fun x10 => Res.ok (x7.and [x10])).bind fun r => r.values) = .ok [(.other 1), (.other 3), (.other 6)] := by rfl

/-! ### `Test_GreaterThan_RenderSQL`, lib_gt_test.go:97 -/

/-- gt_string -/
example : ((greaterThan c!"f1" (.str c!"aaa")).bind fun r => r.renderSQL) = .ok c!"f1>?" := by rfl
/-- gt_string -/
example : ((greaterThan c!"f1" (.str c!"aaa")).bind fun r => r.values) = .ok [(.str c!"aaa")] := by rfl
/-- gt_int -/
example : ((greaterThan c!"f1" (.other 1)).bind fun r => r.renderSQL) = .ok c!"f1>?" := by rfl
/-- gt_int -/
example : ((greaterThan c!"f1" (.other 1)).bind fun r => r.values) = .ok [(.other 1)] := by rfl
/-- not_gt -/
example : (((greaterThan c!"f1" (.other 2)).bind fun x1 => Res.ok (notC x1)).bind fun r => r.renderSQL) = .ok c!"NOT f1>?" := by rfl
/-- not_gt -/
example : (((greaterThan c!"f1" (.other 2)).bind fun x2 => Res.ok (notC x2)).bind fun r => r.values) = .ok [(.other 2)] := by rfl

/-! ### `Test_GreaterOrEqual_Render`, lib_gte_test.go:11 -/

/-- gte_string -/
example : ((greaterOrEqual c!"f1" (.str c!"aaa")).bind fun r => r.render 0) = .ok c!"f1>=$1" := by rfl
/-- gte_string -/
example : ((greaterOrEqual c!"f1" (.str c!"aaa")).bind fun r => r.values) = .ok [(.str c!"aaa")] := by rfl
/-- gte_int -/
example : ((greaterOrEqual c!"f1" (.other 1)).bind fun r => r.render 1) = .ok c!"f1>=$2" := by rfl
/-- gte_int -/
example : ((greaterOrEqual c!"f1" (.other 1)).bind fun r => r.values) = .ok [(.other 1)] := by rfl
/-- not_gte -/
example : (((greaterOrEqual c!"f1" (.other 2)).bind fun x1 => Res.ok (notC x1)).bind fun r => r.render 2) = .ok c!"NOT f1>=$3" := by rfl
/-- not_gte -/
example : (((greaterOrEqual c!"f1" (.other 2)).bind fun x2 => Res.ok (notC x2)).bind fun r => r.values) = .ok [(.other 2)] := by rfl

/-! ### `Test_GreaterOrEqual_And`, lib_gte_test.go:40 -/

/-- eq_and_eq -/
example : (((greaterOrEqual c!"f1" (.str c!"aaa")).bind fun x1 => (greaterOrEqual c!"f2" (.str c!"aaa")).bind fun x2 => Res.ok (x1.and [x2])).bind fun r => r.render 0) = .ok c!"f1>=$1 AND f2>=$2" := by rfl
/-- eq_and_eq -/
example : (((greaterOrEqual c!"f1" (.str c!"aaa")).bind fun x3 => (greaterOrEqual c!"f2" (.str c!"aaa")).bind fun x4 => Res.ok (x3.and [x4])).bind fun r => r.values) = .ok [(.str c!"aaa"), (.str c!"aaa")] := by rfl
/-- eq_and_con -/
example : (((greaterOrEqual c!"f1" (.other 1)).bind fun x1 => ((greaterOrEqual c!"f2" (.other 8)).bind fun x2 => (greaterOrEqual c!"f3" (.other 9)).bind fun x3 => Res.ok (x2.and [x3])).bind fun x4 => Res.ok (x1.and [x4])).bind fun r => r.render 0) = .ok c!"f1>=$1 AND f2>=$2 AND f3>=$3" := by rfl
/-- eq_and_con -/
example : (((greaterOrEqual c!"f1" (.other 1)).bind fun x5 => ((greaterOrEqual c!"f2" (.other 8)).bind fun x6 => (greaterOrEqual c!"f3" (.other 9)).bind fun x7 => Res.ok (x6.and [x7])).bind fun x8 => Res.ok (x5.and [x8])).bind fun r => r.values) = .ok [(.other 1), (.other 8), (.other 9)] := by rfl
/-- eq_and_dis -/
example : (((greaterOrEqual c!"f1" (.other 1)).bind fun x1 => ((greaterOrEqual c!"f2" (.str c!"2")).bind fun x2 => (greaterOrEqual c!"f3" (.str c!"3")).bind fun x3 => x2.or [x3]).bind fun x4 => Res.ok (x1.and [x4])).bind fun r => r.render 0) = .ok c!"f1>=$1 AND (f2>=$2 OR f3>=$3)" := by rfl
/-- eq_and_dis -/
example : (((greaterOrEqual c!"f1" (.other 1)).bind fun x5 => ((greaterOrEqual c!"f2" (.str c!"2")).bind fun x6 => (greaterOrEqual c!"f3" (.str c!"3")).bind fun x7 => x6.or [x7]).bind fun x8 => Res.ok (x5.and [x8])).bind fun r => r.values) = .ok [(.other 1), (.str c!"2"), (.str c!"3")] := by rfl
/-- ne_and_eq -/
example : ((((greaterOrEqual c!"f1" (.str c!"aaa")).bind fun x1 => Res.ok (notC x1)).bind fun x2 => (greaterOrEqual c!"f2" (.str c!"aaa")).bind fun x3 => Res.ok (x2.and [x3])).bind fun r => r.render 0) = .ok c!"NOT f1>=$1 AND f2>=$2" := by rfl
/-- ne_and_eq -/
example : ((((greaterOrEqual c!"f1" (.str c!"aaa")).bind fun x4 => Res.ok (notC x4)).bind fun x5 => (greaterOrEqual c!"f2" (.str c!"aaa")).bind fun x6 => Res.ok (x5.and [x6])).bind fun r => r.values) = .ok [(.str c!"aaa"), (.str c!"aaa")] := by rfl
/-- ne_and_con -/
example : ((((greaterOrEqual c!"f1" (.other 2)).bind fun x1 => Res.ok (notC x1)).bind fun x2 => ((greaterOrEqual c!"f2" (.other 3)).bind fun x3 => (greaterOrEqual c!"f3" (.other 8)).bind fun x4 => Res.ok (x3.and [x4])).bind fun x5 => Res.ok (x2.and [x5])).bind fun r => r.render 0) = .ok c!"NOT f1>=$1 AND f2>=$2 AND f3>=$3" := by rfl
/-- ne_and_con -/
example : ((((greaterOrEqual c!"f1" (.other 2)).bind fun x6 => Res.ok (notC x6)).bind fun x7 => ((greaterOrEqual c!"f2" (.other 3)).bind fun x8 => (greaterOrEqual c!"f3" (.other 8)).bind fun x9 => Res.ok (x8.and [x9])).bind fun x10 => Res.ok (x7.and [x10])).bind fun r => r.values) = .ok [(.other 2), (.other 3), (.other 8)] := by rfl
/-- ne_and_dis -/
example : ((((greaterOrEqual c!"f1" (.other 1)).bind fun x1 => Res.ok (notC x1)).bind fun x2 => ((greaterOrEqual c!"f2" (.other 3)).bind fun x3 => (greaterOrEqual c!"f3" (.other 6)).bind fun x4 => x3.or [x4]).bind fun x5 => Res.ok (x2.and [x5])).bind fun r => r.render 7) = .ok c!"NOT f1>=$8 AND (f2>=$9 OR f3>=$10)" := by rfl
/-- ne_and_dis -/
example : ((((greaterOrEqual c!"f1" (.other 1)).bind fun x6 => Res.ok (notC x6)).bind fun x7 => ((greaterOrEqual c!"f2" (.other 3)).bind fun x8 => (greaterOrEqual c!"f3" (.other 6)).bind fun x9 => x8.or [x9]).bind fun x10 => Res.ok (x7.and [x10])).bind fun r => r.values) = .ok [(.other 1), (.other 3), (.other 6)] := by rfl

/-! ### `Test_GreaterOrEqual_RenderSQL`, lib_gte_test.go:97 -/

/-- gte_string -/
example : ((greaterOrEqual c!"f1" (.str c!"aaa")).bind fun r => r.renderSQL) = .ok c!"f1>=?" := by rfl
/-- gte_string -/
example : ((greaterOrEqual c!"f1" (.str c!"aaa")).bind fun r => r.values) = .ok [(.str c!"aaa")] := by rfl
/-- gte_int -/
example : ((greaterOrEqual c!"f1" (.other 1)).bind fun r => r.renderSQL) = .ok c!"f1>=?" := by rfl
/-- gte_int -/
example : ((greaterOrEqual c!"f1" (.other 1)).bind fun r => r.values) = .ok [(.other 1)] := by rfl
/-- not_gte -/
example : (((greaterOrEqual c!"f1" (.other 2)).bind fun x1 => Res.ok (notC x1)).bind fun r => r.renderSQL) = .ok c!"NOT f1>=?" := by rfl
/-- not_gte -/
example : (((greaterOrEqual c!"f1" (.other 2)).bind fun x2 => Res.ok (notC x2)).bind fun r => r.values) = .ok [(.other 2)] := by rfl

/-! ### `Test_Less_Render`, lib_lt_test.go:11 -/

/-- lt_string -/
example : ((less c!"f1" (.str c!"aaa")).bind fun r => r.render 0) = .ok c!"f1<$1" := by rfl
/-- lt_string -/
example : ((less c!"f1" (.str c!"aaa")).bind fun r => r.values) = .ok [(.str c!"aaa")] := by rfl
/-- lt_int -/
example : ((less c!"f1" (.other 1)).bind fun r => r.render 1) = .ok c!"f1<$2" := by rfl
/-- lt_int -/
example : ((less c!"f1" (.other 1)).bind fun r => r.values) = .ok [(.other 1)] := by rfl
/-- not_lt -/
example : (((less c!"f1" (.other 2)).bind fun x1 => Res.ok (notC x1)).bind fun r => r.render 2) = .ok c!"NOT f1<$3" := by rfl
/-- not_lt -/
example : (((less c!"f1" (.other 2)).bind fun x2 => Res.ok (notC x2)).bind fun r => r.values) = .ok [(.other 2)] := by rfl

/-! ### `Test_Less_And`, lib_lt_test.go:40 -/

/-- eq_and_eq -/
example : (((less c!"f1" (.str c!"aaa")).bind fun x1 => (less c!"f2" (.str c!"aaa")).bind fun x2 => Res.ok (x1.and [x2])).bind fun r => r.render 0) = .ok c!"f1<$1 AND f2<$2" := by rfl
/-- eq_and_eq -/
example : (((less c!"f1" (.str c!"aaa")).bind fun x3 => (less c!"f2" (.str c!"aaa")).bind fun x4 => Res.ok (x3.and [x4])).bind fun r => r.values) = .ok [(.str c!"aaa"), (.str c!"aaa")] := by rfl
/-- eq_and_con -/
example : (((less c!"f1" (.other 1)).bind fun x1 => ((less c!"f2" (.other 8)).bind fun x2 => (less c!"f3" (.other 9)).bind fun x3 => Res.ok (x2.and [x3])).bind fun x4 => Res.ok (x1.and [x4])).bind fun r => r.render 0) = .ok c!"f1<$1 AND f2<$2 AND f3<$3" := by rfl
/-- eq_and_con -/
example : (((less c!"f1" (.other 1)).bind fun x5 => ((less c!"f2" (.other 8)).bind fun x6 => (less c!"f3" (.other 9)).bind fun x7 => Res.ok (x6.and [x7])).bind fun x8 => Res.ok (x5.and [x8])).bind fun r => r.values) = .ok [(.other 1), (.other 8), (.other 9)] := by rfl
/-- eq_and_dis -/
example : (((less c!"f1" (.other 1)).bind fun x1 => ((less c!"f2" (.str c!"2")).bind fun x2 => (less c!"f3" (.str c!"3")).bind fun x3 => x2.or [x3]).bind fun x4 => Res.ok (x1.and [x4])).bind fun r => r.render 0) = .ok c!"f1<$1 AND (f2<$2 OR f3<$3)" := by rfl
/-- eq_and_dis -/
example : (((less c!"f1" (.other 1)).bind fun x5 => ((less c!"f2" (.str c!"2")).bind fun x6 => (less c!"f3" (.str c!"3")).bind fun x7 => x6.or [x7]).bind fun x8 => Res.ok (x5.and [x8])).bind fun r => r.values) = .ok [(.other 1), (.str c!"2"), (.str c!"3")] := by rfl
/-- ne_and_eq -/
example : ((((less c!"f1" (.str c!"aaa")).bind fun x1 => Res.ok (notC x1)).bind fun x2 => (less c!"f2" (.str c!"aaa")).bind fun x3 => Res.ok (x2.and [x3])).bind fun r => r.render 0) = .ok c!"NOT f1<$1 AND f2<$2" := by rfl
/-- ne_and_eq -/
example : ((((less c!"f1" (.str c!"aaa")).bind fun x4 => Res.ok (notC x4)).bind fun x5 => (less c!"f2" (.str c!"aaa")).bind fun x6 => Res.ok (x5.and [x6])).bind fun r => r.values) = .ok [(.str c!"aaa"), (.str c!"aaa")] := by rfl
/-- ne_and_con -/
example : ((((less c!"f1" (.other 2)).bind fun x1 => Res.ok (notC x1)).bind fun x2 => ((less c!"f2" (.other 3)).bind fun x3 => (less c!"f3" (.other 8)).bind fun x4 => Res.ok (x3.and [x4])).bind fun x5 => Res.ok (x2.and [x5])).bind fun r => r.render 0) = .ok c!"NOT f1<$1 AND f2<$2 AND f3<$3" := by rfl
/-- ne_and_con -/
example : ((((less c!"f1" (.other 2)).bind fun x6 => Res.ok (notC x6)).bind fun x7 => ((less c!"f2" (.other 3)).bind fun x8 => (less c!"f3" (.other 8)).bind fun x9 => Res.ok (x8.and [x9])).bind fun x10 => Res.ok (x7.and [x10])).bind fun r => r.values) = .ok [(.other 2), (.other 3), (.other 8)] := by rfl
/-- ne_and_dis -/
example : ((((less c!"f1" (.other 1)).bind fun x1 => Res.ok (notC x1)).bind fun x2 => ((less c!"f2" (.other 3)).bind fun x3 => (less c!"f3" (.other 6)).bind fun x4 => x3.or [x4]).bind fun x5 => Res.ok (x2.and [x5])).bind fun r => r.render 7) = .ok c!"NOT f1<$8 AND (f2<$9 OR f3<$10)" := by rfl
/-- ne_and_dis -/
example : ((((less c!"f1" (.other 1)).bind fun x6 => Res.ok (notC x6)).bind fun x7 => ((less c!"f2" (.other 3)).bind fun x8 => (less c!"f3" (.other 6)).bind fun x9 => x8.or [x9]).bind fun x10 => Res.ok (x7.and [x10])).bind fun r => r.values) = .ok [(.other 1), (.other 3), (.other 6)] := by rfl

/-! ### `Test_Less_RenderSQL`, lib_lt_test.go:97 -/

/-- lt_string -/
example : ((less c!"f1" (.str c!"aaa")).bind fun r => r.renderSQL) = .ok c!"f1<?" := by rfl
/-- lt_string -/
example : ((less c!"f1" (.str c!"aaa")).bind fun r => r.values) = .ok [(.str c!"aaa")] := by rfl
/-- lt_int -/
example : ((less c!"f1" (.other 1)).bind fun r => r.renderSQL) = .ok c!"f1<?" := by rfl
/-- lt_int -/
example : ((less c!"f1" (.other 1)).bind fun r => r.values) = .ok [(.other 1)] := by rfl
/-- not_lt -/
example : (((less c!"f1" (.other 2)).bind fun x1 => Res.ok (notC x1)).bind fun r => r.renderSQL) = .ok c!"NOT f1<?" := by rfl
/-- not_lt -/
example : (((less c!"f1" (.other 2)).bind fun x2 => Res.ok (notC x2)).bind fun r => r.values) = .ok [(.other 2)] := by rfl

/-! ### `Test_LessOrEqual_Render`, lib_lte_test.go:11 -/

/-- lte_string -/
example : ((lessOrEqual c!"f1" (.str c!"aaa")).bind fun r => r.render 0) = .ok c!"f1<=$1" := by rfl
/-- lte_string -/
example : ((lessOrEqual c!"f1" (.str c!"aaa")).bind fun r => r.values) = .ok [(.str c!"aaa")] := by rfl
/-- lte_int -/
example : ((lessOrEqual c!"f1" (.other 1)).bind fun r => r.render 1) = .ok c!"f1<=$2" := by rfl
/-- lte_int -/
example : ((lessOrEqual c!"f1" (.other 1)).bind fun r => r.values) = .ok [(.other 1)] := by rfl
/-- not_lte -/
example : (((lessOrEqual c!"f1" (.other 2)).bind fun x1 => Res.ok (notC x1)).bind fun r => r.render 2) = .ok c!"NOT f1<=$3" := by rfl
/-- not_lte -/
example : (((lessOrEqual c!"f1" (.other 2)).bind fun x2 => Res.ok (notC x2)).bind fun r => r.values) = .ok [(.other 2)] := by rfl

/-! ### `Test_LessOrEqual_And`, lib_lte_test.go:40 -/

/-- eq_and_eq -/
example : (((lessOrEqual c!"f1" (.str c!"aaa")).bind fun x1 => (lessOrEqual c!"f2" (.str c!"aaa")).bind fun x2 => Res.ok (x1.and [x2])).bind fun r => r.render 0) = .ok c!"f1<=$1 AND f2<=$2" := by rfl
/-- eq_and_eq -/
example : (((lessOrEqual c!"f1" (.str c!"aaa")).bind fun x3 => (lessOrEqual c!"f2" (.str c!"aaa")).bind fun x4 => Res.ok (x3.and [x4])).bind fun r => r.values) = .ok [(.str c!"aaa"), (.str c!"aaa")] := by rfl
/-- eq_and_con -/
example : (((lessOrEqual c!"f1" (.other 1)).bind fun x1 => ((lessOrEqual c!"f2" (.other 8)).bind fun x2 => (lessOrEqual c!"f3" (.other 9)).bind fun x3 => Res.ok (x2.and [x3])).bind fun x4 => Res.ok (x1.and [x4])).bind fun r => r.render 0) = .ok c!"f1<=$1 AND f2<=$2 AND f3<=$3" := by rfl
/-- eq_and_con -/
example : (((lessOrEqual c!"f1" (.other 1)).bind fun x5 => ((lessOrEqual c!"f2" (.other 8)).bind fun x6 => (lessOrEqual c!"f3" (.other 9)).bind fun x7 => Res.ok (x6.and [x7])).bind fun x8 => Res.ok (x5.and [x8])).bind fun r => r.values) = .ok [(.other 1), (.other 8), (.other 9)] := by rfl
/-- eq_and_dis -/
example : (((lessOrEqual c!"f1" (.other 1)).bind fun x1 => ((lessOrEqual c!"f2" (.str c!"2")).bind fun x2 => (lessOrEqual c!"f3" (.str c!"3")).bind fun x3 => x2.or [x3]).bind fun x4 => Res.ok (x1.and [x4])).bind fun r => r.render 0) = .ok c!"f1<=$1 AND (f2<=$2 OR f3<=$3)" := by rfl
/-- eq_and_dis -/
example : (((lessOrEqual c!"f1" (.other 1)).bind fun x5 => ((lessOrEqual c!"f2" (.str c!"2")).bind fun x6 => (lessOrEqual c!"f3" (.str c!"3")).bind fun x7 => x6.or [x7]).bind fun x8 => Res.ok (x5.and [x8])).bind fun r => r.values) = .ok [(.other 1), (.str c!"2"), (.str c!"3")] := by rfl
/-- ne_and_eq -/
example : ((((lessOrEqual c!"f1" (.str c!"aaa")).bind fun x1 => Res.ok (notC x1)).bind fun x2 => (lessOrEqual c!"f2" (.str c!"aaa")).bind fun x3 => Res.ok (x2.and [x3])).bind fun r => r.render 0) = .ok c!"NOT f1<=$1 AND f2<=$2" := by rfl
/-- ne_and_eq -/
example : ((((lessOrEqual c!"f1" (.str c!"aaa")).bind fun x4 => Res.ok (notC x4)).bind fun x5 => (lessOrEqual c!"f2" (.str c!"aaa")).bind fun x6 => Res.ok (x5.and [x6])).bind fun r => r.values) = .ok [(.str c!"aaa"), (.str c!"aaa")] := by rfl
/-- ne_and_con -/
example : ((((lessOrEqual c!"f1" (.other 2)).bind fun x1 => Res.ok (notC x1)).bind fun x2 => ((lessOrEqual c!"f2" (.other 3)).bind fun x3 => (lessOrEqual c!"f3" (.other 8)).bind fun x4 => Res.ok (x3.and [x4])).bind fun x5 => Res.ok (x2.and [x5])).bind fun r => r.render 0) = .ok c!"NOT f1<=$1 AND f2<=$2 AND f3<=$3" := by rfl
/-- ne_and_con -/
example : ((((lessOrEqual c!"f1" (.other 2)).bind fun x6 => Res.ok (notC x6)).bind fun x7 => ((lessOrEqual c!"f2" (.other 3)).bind fun x8 => (lessOrEqual c!"f3" (.other 8)).bind fun x9 => Res.ok (x8.and [x9])).bind fun x10 => Res.ok (x7.and [x10])).bind fun r => r.values) = .ok [(.other 2), (.other 3), (.other 8)] := by rfl
/-- ne_and_dis -/
example : ((((lessOrEqual c!"f1" (.other 1)).bind fun x1 => Res.ok (notC x1)).bind fun x2 => ((lessOrEqual c!"f2" (.other 3)).bind fun x3 => (lessOrEqual c!"f3" (.other 6)).bind fun x4 => x3.or [x4]).bind fun x5 => Res.ok (x2.and [x5])).bind fun r => r.render 7) = .ok c!"NOT f1<=$8 AND (f2<=$9 OR f3<=$10)" := by rfl
/-- ne_and_dis -/
example : ((((lessOrEqual c!"f1" (.other 1)).bind fun x6 => Res.ok (notC x6)).bind fun x7 => ((lessOrEqual c!"f2" (.other 3)).bind fun x8 => (lessOrEqual c!"f3" (.other 6)).bind fun x9 => x8.or [x9]).bind fun x10 => Res.ok (x7.and [x10])).bind fun r => r.values) = .ok [(.other 1), (.other 3), (.other 6)] := by rfl

/-! ### `Test_LessOrEqual_RenderSQL`, lib_lte_test.go:97 -/

/-- lte_string -/
example : ((lessOrEqual c!"f1" (.str c!"aaa")).bind fun r => r.renderSQL) = .ok c!"f1<=?" := by rfl
/-- lte_string -/
example : ((lessOrEqual c!"f1" (.str c!"aaa")).bind fun r => r.values) = .ok [(.str c!"aaa")] := by rfl
/-- lte_int -/
example : ((lessOrEqual c!"f1" (.other 1)).bind fun r => r.renderSQL) = .ok c!"f1<=?" := by rfl
/-- lte_int -/
example : ((lessOrEqual c!"f1" (.other 1)).bind fun r => r.values) = .ok [(.other 1)] := by rfl
/-- not_lte -/
example : (((lessOrEqual c!"f1" (.other 2)).bind fun x1 => Res.ok (notC x1)).bind fun r => r.renderSQL) = .ok c!"NOT f1<=?" := by rfl
/-- not_lte -/
example : (((lessOrEqual c!"f1" (.other 2)).bind fun x2 => Res.ok (notC x2)).bind fun r => r.values) = .ok [(.other 2)] := by rfl

/-! ### `Test_In_Render`, lib_in_test.go:11 -/

/-- in_string -/
example : ((inC c!"f1" (.str c!"aaa")).bind fun r => r.render 0) = .ok c!"f1 IN ($1)" := by rfl
/-- in_string -/
example : ((inC c!"f1" (.str c!"aaa")).bind fun r => r.values) = .ok [(.str c!"aaa")] := by rfl
/-- in_many_strings -/
example : ((inC c!"f1" (.strs [c!"aaa", c!"132"])).bind fun r => r.render 0) = .ok c!"f1 IN ($1,$2)" := by rfl
/-- in_many_strings -/
example : ((inC c!"f1" (.strs [c!"aaa", c!"132"])).bind fun r => r.values) = .ok [(.str c!"aaa"), (.str c!"132")] := by rfl
/-- in_many_strings_with_offset -/
example : ((inC c!"f1" (.strs [c!"aaa", c!"132"])).bind fun r => r.render 1) = .ok c!"f1 IN ($2,$3)" := by rfl
/-- in_many_strings_with_offset -/
example : ((inC c!"f1" (.strs [c!"aaa", c!"132"])).bind fun r => r.values) = .ok [(.str c!"aaa"), (.str c!"132")] := by rfl
/-- in_int -/
example : ((inC c!"f1" (.other 1)).bind fun r => r.render 1) = .ok c!"f1 IN ($2)" := by rfl
/-- in_int -/
example : ((inC c!"f1" (.other 1)).bind fun r => r.values) = .ok [(.other 1)] := by rfl
/-- not_lt -/
example : (((inC c!"f1" (.other 2)).bind fun x1 => Res.ok (notC x1)).bind fun r => r.render 2) = .ok c!"f1 NOT IN ($3)" := by rfl
/-- not_lt -/
example : (((inC c!"f1" (.other 2)).bind fun x2 => Res.ok (notC x2)).bind fun r => r.values) = .ok [(.other 2)] := by rfl
/-- not_lt_many_strings -/
example : (((inC c!"f1" (.strs [c!"123", c!"321"])).bind fun x1 => Res.ok (notC x1)).bind fun r => r.render 2) = .ok c!"f1 NOT IN ($3,$4)" := by rfl
/-- not_lt_many_strings -/
example : (((inC c!"f1" (.strs [c!"123", c!"321"])).bind fun x2 => Res.ok (notC x2)).bind fun r => r.values) = .ok [(.str c!"123"), (.str c!"321")] := by rfl

/-! ### `Test_In_And`, lib_in_test.go:52 -/

/-- in_and_in -/
example : (((inC c!"f1" (.str c!"aaa")).bind fun x1 => (inC c!"f2" (.str c!"aaa")).bind fun x2 => Res.ok (x1.and [x2])).bind fun r => r.render 0) = .ok c!"f1 IN ($1) AND f2 IN ($2)" := by rfl
/-- in_and_in -/
example : (((inC c!"f1" (.str c!"aaa")).bind fun x3 => (inC c!"f2" (.str c!"aaa")).bind fun x4 => Res.ok (x3.and [x4])).bind fun r => r.values) = .ok [(.str c!"aaa"), (.str c!"aaa")] := by rfl
/-- in_and_con -/
example : (((inC c!"f1" (.other 1)).bind fun x1 => ((inC c!"f2" (.other 8)).bind fun x2 => (inC c!"f3" (.other 9)).bind fun x3 => Res.ok (x2.and [x3])).bind fun x4 => Res.ok (x1.and [x4])).bind fun r => r.render 0) = .ok c!"f1 IN ($1) AND f2 IN ($2) AND f3 IN ($3)" := by rfl
/-- in_and_con -/
example : (((inC c!"f1" (.other 1)).bind fun x5 => ((inC c!"f2" (.other 8)).bind fun x6 => (inC c!"f3" (.other 9)).bind fun x7 => Res.ok (x6.and [x7])).bind fun x8 => Res.ok (x5.and [x8])).bind fun r => r.values) = .ok [(.other 1), (.other 8), (.other 9)] := by rfl
/-- eq_and_dis -/
example : (((inC c!"f1" (.other 1)).bind fun x1 => ((inC c!"f2" (.str c!"2")).bind fun x2 => (inC c!"f3" (.str c!"3")).bind fun x3 => x2.or [x3]).bind fun x4 => Res.ok (x1.and [x4])).bind fun r => r.render 0) = .ok c!"f1 IN ($1) AND (f2 IN ($2) OR f3 IN ($3))" := by rfl
/-- eq_and_dis -/
example : (((inC c!"f1" (.other 1)).bind fun x5 => ((inC c!"f2" (.str c!"2")).bind fun x6 => (inC c!"f3" (.str c!"3")).bind fun x7 => x6.or [x7]).bind fun x8 => Res.ok (x5.and [x8])).bind fun r => r.values) = .ok [(.other 1), (.str c!"2"), (.str c!"3")] := by rfl
/-- ne_and_eq -/
example : ((((inC c!"f1" (.str c!"aaa")).bind fun x1 => Res.ok (notC x1)).bind fun x2 => (inC c!"f2" (.str c!"aaa")).bind fun x3 => Res.ok (x2.and [x3])).bind fun r => r.render 0) = .ok c!"f1 NOT IN ($1) AND f2 IN ($2)" := by rfl
/-- ne_and_eq -/
example : ((((inC c!"f1" (.str c!"aaa")).bind fun x4 => Res.ok (notC x4)).bind fun x5 => (inC c!"f2" (.str c!"aaa")).bind fun x6 => Res.ok (x5.and [x6])).bind fun r => r.values) = .ok [(.str c!"aaa"), (.str c!"aaa")] := by rfl
/-- ne_and_con -/
example : ((((inC c!"f1" (.other 2)).bind fun x1 => Res.ok (notC x1)).bind fun x2 => ((inC c!"f2" (.other 3)).bind fun x3 => (inC c!"f3" (.other 8)).bind fun x4 => Res.ok (x3.and [x4])).bind fun x5 => Res.ok (x2.and [x5])).bind fun r => r.render 0) = .ok c!"f1 NOT IN ($1) AND f2 IN ($2) AND f3 IN ($3)" := by rfl
/-- ne_and_con -/
example : ((((inC c!"f1" (.other 2)).bind fun x6 => Res.ok (notC x6)).bind fun x7 => ((inC c!"f2" (.other 3)).bind fun x8 => (inC c!"f3" (.other 8)).bind fun x9 => Res.ok (x8.and [x9])).bind fun x10 => Res.ok (x7.and [x10])).bind fun r => r.values) = .ok [(.other 2), (.other 3), (.other 8)] := by rfl
/-- ne_and_dis -/
example : ((((inC c!"f1" (.other 1)).bind fun x1 => Res.ok (notC x1)).bind fun x2 => ((inC c!"f2" (.other 3)).bind fun x3 => (inC c!"f3" (.other 6)).bind fun x4 => x3.or [x4]).bind fun x5 => Res.ok (x2.and [x5])).bind fun r => r.render 7) = .ok c!"f1 NOT IN ($8) AND (f2 IN ($9) OR f3 IN ($10))" := by rfl
/-- ne_and_dis -/
example : ((((inC c!"f1" (.other 1)).bind fun x6 => Res.ok (notC x6)).bind fun x7 => ((inC c!"f2" (.other 3)).bind fun x8 => (inC c!"f3" (.other 6)).bind fun x9 => x8.or [x9]).bind fun x10 => Res.ok (x7.and [x10])).bind fun r => r.values) = .ok [(.other 1), (.other 3), (.other 6)] := by rfl
/-- ne_and_dis_many -/
example : ((((inC c!"f1" (.strs [c!"1", c!"2"])).bind fun x1 => Res.ok (notC x1)).bind fun x2 => ((inC c!"f2" (.other 3)).bind fun x3 => (inC c!"f3" (.strs [c!"4", c!"5"])).bind fun x4 => x3.or [x4]).bind fun x5 => Res.ok (x2.and [x5])).bind fun r => r.render 7) = .ok c!"f1 NOT IN ($8,$9) AND (f2 IN ($10) OR f3 IN ($11,$12))" := by rfl
/-- ne_and_dis_many -/
example : ((((inC c!"f1" (.strs [c!"1", c!"2"])).bind fun x6 => Res.ok (notC x6)).bind fun x7 => ((inC c!"f2" (.other 3)).bind fun x8 => (inC c!"f3" (.strs [c!"4", c!"5"])).bind fun x9 => x8.or [x9]).bind fun x10 => Res.ok (x7.and [x10])).bind fun r => r.values) = .ok [(.str c!"1"), (.str c!"2"), (.other 3), (.str c!"4"), (.str c!"5")] := by rfl

/-! ### `Test_In_RenderSQL`, lib_in_test.go:119 -/

/-- in_string -/
example : ((inC c!"f1" (.str c!"aaa")).bind fun r => r.renderSQL) = .ok c!"f1 IN (?)" := by rfl
/-- in_string -/
example : ((inC c!"f1" (.str c!"aaa")).bind fun r => r.values) = .ok [(.str c!"aaa")] := by rfl
/-- in_int -/
example : ((inC c!"f1" (.other 1)).bind fun r => r.renderSQL) = .ok c!"f1 IN (?)" := by rfl
/-- in_int -/
example : ((inC c!"f1" (.other 1)).bind fun r => r.values) = .ok [(.other 1)] := by rfl
/-- not_in -/
example : (((inC c!"f1" (.other 2)).bind fun x1 => Res.ok (notC x1)).bind fun r => r.renderSQL) = .ok c!"f1 NOT IN (?)" := by rfl
/-- not_in -/
example : (((inC c!"f1" (.other 2)).bind fun x2 => Res.ok (notC x2)).bind fun r => r.values) = .ok [(.other 2)] := by rfl

/-! ### `Test_contains_Render`, lib_like_test.go:11 -/

/-- field_is_like -/
example : ((contains c!"f1" c!"aaa").bind fun r => r.render 0) = .ok c!"f1 LIKE $1" := by rfl
/-- field_is_like -/
example : ((contains c!"f1" c!"aaa").bind fun r => r.values) = .ok [(.str c!"%aaa%")] := by rfl
/-- field_is_like_table -/
example : (((contains c!"f1" c!"aaa").bind fun x1 => Res.ok (x1.applyFieldTable c!"test")).bind fun r => r.render 0) = .ok c!"test.f1 LIKE $1" := by rfl
/-- field_is_like_table -/
example : (((contains c!"f1" c!"aaa").bind fun x2 => Res.ok (x2.applyFieldTable c!"test")).bind fun r => r.values) = .ok [(.str c!"%aaa%")] := by rfl
/-- field_is_not_like -/
example : (((contains c!"f1" c!"aaa").bind fun x1 => Res.ok (notC x1)).bind fun r => r.render 0) = .ok c!"f1 NOT LIKE $1" := by rfl
/-- field_is_not_like -/
example : (((contains c!"f1" c!"aaa").bind fun x2 => Res.ok (notC x2)).bind fun r => r.values) = .ok [(.str c!"%aaa%")] := by rfl
/-- field_is_not_like_table -/
example : ((((contains c!"f1" c!"aaa").bind fun x1 => Res.ok (notC x1)).bind fun x2 => Res.ok (x2.applyFieldTable c!"test")).bind fun r => r.render 0) = .ok c!"test.f1 NOT LIKE $1" := by rfl
/-- field_is_not_like_table -/
example : ((((contains c!"f1" c!"aaa").bind fun x3 => Res.ok (notC x3)).bind fun x4 => Res.ok (x4.applyFieldTable c!"test")).bind fun r => r.values) = .ok [(.str c!"%aaa%")] := by rfl

/-! ### `Test_contains_RenderSQL`, lib_like_test.go:44 -/

/-- field_is_like -/
example : ((contains c!"f1" c!"aaa").bind fun r => r.renderSQL) = .ok c!"f1 LIKE ?" := by rfl
/-- field_is_like -/
example : ((contains c!"f1" c!"aaa").bind fun r => r.values) = .ok [(.str c!"%aaa%")] := by rfl
/-- field_is_like_table -/
example : (((contains c!"f1" c!"aaa").bind fun x1 => Res.ok (x1.applyFieldTable c!"test")).bind fun r => r.renderSQL) = .ok c!"test.f1 LIKE ?" := by rfl
/-- field_is_like_table -/
example : (((contains c!"f1" c!"aaa").bind fun x2 => Res.ok (x2.applyFieldTable c!"test")).bind fun r => r.values) = .ok [(.str c!"%aaa%")] := by rfl
/-- field_is_not_like -/
example : (((contains c!"f1" c!"aaa").bind fun x1 => Res.ok (notC x1)).bind fun r => r.renderSQL) = .ok c!"f1 NOT LIKE ?" := by rfl
/-- field_is_not_like -/
example : (((contains c!"f1" c!"aaa").bind fun x2 => Res.ok (notC x2)).bind fun r => r.values) = .ok [(.str c!"%aaa%")] := by rfl
/-- field_is_not_like_table -/
example : ((((contains c!"f1" c!"aaa").bind fun x1 => Res.ok (notC x1)).bind fun x2 => Res.ok (x2.applyFieldTable c!"test")).bind fun r => r.renderSQL) = .ok c!"test.f1 NOT LIKE ?" := by rfl
/-- field_is_not_like_table -/
example : ((((contains c!"f1" c!"aaa").bind fun x3 => Res.ok (notC x3)).bind fun x4 => Res.ok (x4.applyFieldTable c!"test")).bind fun r => r.values) = .ok [(.str c!"%aaa%")] := by rfl

/-! ### `Test_iContains_Render`, lib_ilike_test.go:11 -/

/-- field_is_like -/
example : ((iContains c!"f1" c!"aaa").bind fun r => r.render 0) = .ok c!"f1 ILIKE $1" := by rfl
/-- field_is_like -/
example : ((iContains c!"f1" c!"aaa").bind fun r => r.values) = .ok [(.str c!"%aaa%")] := by rfl
/-- field_is_like_table -/
example : (((iContains c!"f1" c!"aaa").bind fun x1 => Res.ok (x1.applyFieldTable c!"test")).bind fun r => r.render 0) = .ok c!"test.f1 ILIKE $1" := by rfl
/-- field_is_like_table -/
example : (((iContains c!"f1" c!"aaa").bind fun x2 => Res.ok (x2.applyFieldTable c!"test")).bind fun r => r.values) = .ok [(.str c!"%aaa%")] := by rfl
/-- field_is_not_like -/
example : (((iContains c!"f1" c!"aaa").bind fun x1 => Res.ok (notC x1)).bind fun r => r.render 0) = .ok c!"f1 NOT ILIKE $1" := by rfl
/-- field_is_not_like -/
example : (((iContains c!"f1" c!"aaa").bind fun x2 => Res.ok (notC x2)).bind fun r => r.values) = .ok [(.str c!"%aaa%")] := by rfl
/-- field_is_not_like_table -/
example : ((((iContains c!"f1" c!"aaa").bind fun x1 => Res.ok (notC x1)).bind fun x2 => Res.ok (x2.applyFieldTable c!"test")).bind fun r => r.render 0) = .ok c!"test.f1 NOT ILIKE $1" := by rfl
/-- field_is_not_like_table -/
example : ((((iContains c!"f1" c!"aaa").bind fun x3 => Res.ok (notC x3)).bind fun x4 => Res.ok (x4.applyFieldTable c!"test")).bind fun r => r.values) = .ok [(.str c!"%aaa%")] := by rfl

/-! ### `Test_iContains_RenderSQL`, lib_ilike_test.go:44 -/

/-- field_is_like -/
example : ((iContains c!"f1" c!"aaa").bind fun r => r.renderSQL) = .ok c!"f1 ILIKE ?" := by rfl
/-- field_is_like -/
example : ((iContains c!"f1" c!"aaa").bind fun r => r.values) = .ok [(.str c!"%aaa%")] := by rfl
/-- field_is_like_table -/
example : (((iContains c!"f1" c!"aaa").bind fun x1 => Res.ok (x1.applyFieldTable c!"test")).bind fun r => r.renderSQL) = .ok c!"test.f1 ILIKE ?" := by rfl
/-- field_is_like_table -/
example : (((iContains c!"f1" c!"aaa").bind fun x2 => Res.ok (x2.applyFieldTable c!"test")).bind fun r => r.values) = .ok [(.str c!"%aaa%")] := by rfl
/-- field_is_not_like -/
example : (((iContains c!"f1" c!"aaa").bind fun x1 => Res.ok (notC x1)).bind fun r => r.renderSQL) = .ok c!"f1 NOT ILIKE ?" := by rfl
/-- field_is_not_like -/
example : (((iContains c!"f1" c!"aaa").bind fun x2 => Res.ok (notC x2)).bind fun r => r.values) = .ok [(.str c!"%aaa%")] := by rfl
/-- field_is_not_like_table -/
example : ((((iContains c!"f1" c!"aaa").bind fun x1 => Res.ok (notC x1)).bind fun x2 => Res.ok (x2.applyFieldTable c!"test")).bind fun r => r.renderSQL) = .ok c!"test.f1 NOT ILIKE ?" := by rfl
/-- field_is_not_like_table -/
example : ((((iContains c!"f1" c!"aaa").bind fun x3 => Res.ok (notC x3)).bind fun x4 => Res.ok (x4.applyFieldTable c!"test")).bind fun r => r.values) = .ok [(.str c!"%aaa%")] := by rfl

/-! ### `Test_nullValue_Render`, lib_isnull_test.go:11 -/

/-- field_is_null -/
example : ((isNull c!"f1").bind fun r => r.render 0) = .ok c!"f1 IS NULL" := by rfl
/-- field_is_null -/
example : ((isNull c!"f1").bind fun r => r.values) = .ok [] := by rfl
/-- field_is_not_null -/
example : (((isNull c!"f1").bind fun x1 => Res.ok (notC x1)).bind fun r => r.render 0) = .ok c!"f1 IS NOT NULL" := by rfl
/-- field_is_not_null -/
example : (((isNull c!"f1").bind fun x2 => Res.ok (notC x2)).bind fun r => r.values) = .ok [] := by rfl

end Query
