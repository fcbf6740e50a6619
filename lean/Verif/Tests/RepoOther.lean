import Verif.Tests.Base
import Verif.Model.Access
import Verif.Model.Write

/-! The tests of the repository that are not tables, translated by hand.  As in the generated files, these are tests of
the model, not proofs of properties. -/

namespace Query

/-- `Test_group_FieldName`, group_test.go:11-14. -/
example : (newGroup lAND []).toCond.fieldName = [] := rfl

/-- `TestBaseBuilder_Operation`, build_base_test.go:11-27. -/
example : operationNew doSelect = doSelect ∧ operationNew doUpdate = doUpdate ∧ operationNew doInsert = doInsert ∧
    operationNew doDelete = doDelete := ⟨rfl, rfl, rfl, rfl⟩

/-- `TestNewFieldSpec`, field_definition_test.go:11-16. -/
example : field c!"test" = .ok ⟨c!"test", [], []⟩ := rfl

/-- `TestFieldSpec_As`, field_definition_test.go:18-39 (that the receiver stays the same is C36). -/
example : ((field c!"test").bind fun f => .ok (f.as c!"prod")) = .ok ⟨c!"test", [], c!"prod"⟩ := rfl

/-- `TestFieldSpec_Of`, field_definition_test.go:41-61. -/
example : ((field c!"test").bind fun f => .ok (f.of c!"someTable")) = .ok ⟨c!"test", c!"someTable", []⟩ := rfl

/-- `TestBaseSelectBuilder_Fields`, select_base_test.go:45-69. -/
example : ((selectFrom (.str c!"table13")).bind fun q => q.build) = .ok (c!"SELECT * FROM table13", []) := rfl
example : ((selectFrom (.str c!"table13")).bind fun q => (field c!"field1").bind fun f => (q.setFields [f]).build) =
    .ok (c!"SELECT field1 FROM table13", []) := rfl
example : ((selectFrom (.str c!"table13")).bind fun q => (field c!"field1").bind fun f => (field c!"field2").bind fun g =>
    (field c!"field3 as f3").bind fun h => ((q.setFields [f]).setFields [g, h]).build) =
    .ok (c!"SELECT field2, field3 AS f3 FROM table13", []) := rfl

/-- `TestBuilder_Fields`, select_many_test.go:195-212. -/
example : ((selectManyFrom (.str c!"table13")).bind fun q => .ok q.fieldDefinitions) = .ok [] := rfl
example : ((selectManyFrom (.str c!"table13")).bind fun q => q.build) = .ok (c!"SELECT * FROM table13", []) := rfl
example : ((selectManyFrom (.str c!"table13")).bind fun q => (field c!"f1").bind fun f =>
    .ok (q.setFields [f.as c!"a1"]).fieldDefinitions.length) = .ok 1 := rfl
example : ((selectManyFrom (.str c!"table13")).bind fun q => (field c!"f1").bind fun f =>
    (q.setFields [f.as c!"a1"]).build) = .ok (c!"SELECT f1 AS a1 FROM table13", []) := rfl

/-- `TestBuilder_Operation`, select_many_test.go:214-216. -/
example : ((selectManyFrom (.str c!"test")).bind fun q => .ok q.operation) = .ok doSelect := rfl

/-- `TestUpdateHelper_Set` and `TestDeleteHelper_Set`, update_test.go:96-101, delete_test.go:63-68. -/
example : (update (.str c!"test")).getValues = [] := rfl
example : ((newFieldValue c!"test" .nil).bind fun v => .ok ((update (.str c!"test")).set [v]).getValues.length) =
    .ok 1 := rfl

/-- `TestValuesMap_FieldValues`, values_map_test.go:9-40. -/
example : mapFieldValues [] = .ok [] := rfl
example : isErr (mapFieldValues [(c!"field name", .other 0)]) = true := rfl
example : ((mapFieldValues [(c!"some_field", .other 0)]).bind fun vs => .ok vs.length) = .ok 1 := rfl
example : ((mapFieldValues [(c!"some_field", .other 0), (c!"some_another_field", .other 1)]).bind fun vs =>
    .ok vs.length) = .ok 2 := rfl
example : ((mapFieldValues [(c!"some_field", .other 0), (c!"some_another_field", .other 1), (c!"once_more", .str c!"str")]).bind
    fun vs => .ok vs.length) = .ok 3 := rfl

end Query
