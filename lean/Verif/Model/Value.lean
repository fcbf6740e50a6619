import Verif.Model.Ident
/-!
# Field values

Models value.go, the value parts of field_name.go and field_definition.go, and values_map.go.
-/
namespace Query

/-- A Go value of type `any`, described by what value.go can observe of its dynamic type (value.go:36-95).

Simplifications: values of no special dynamic type are opaque (`other n`, any distinct value gets its own `n`; slices such
as `[]int` are here too); calling a user's `Value()`/`DatabaseValue()` yields a fixed result and has no effect; those
calls do not panic themselves. -/
inductive Val where
  /-- the nil interface -/
  | nil
  /-- a value of a type value.go does not treat specially -/
  | other (n : Nat)
  /-- a `string` -/
  | str (s : Str)
  /-- a `uint` (offset and limit parameters) -/
  | uint (n : Nat)
  /-- implements `driver.Valuer`: first result of `Value()`, and whether its error is non-nil -/
  | valuer (v : Val) (fails : Bool)
  /-- implements `ValueProvider`: result of `DatabaseValue()` -/
  | provider (db : Val)
  /-- implements both interfaces -/
  | both (v : Val) (fails : Bool) (db : Val)
  /-- `[]driver.Valuer` -/
  | valuers (es : List Val)
  /-- `[]ValueProvider` -/
  | providers (es : List Val)
  /-- `[]string` -/
  | strs (ss : List Str)
  /-- any other slice whose element type implements `driver.Valuer` -/
  | reflSlice (es : List Val)

/-- Result of calling `Value()` on an element: `none` if the element is nil (not a valuer). -/
def Val.callValue : Val → Option (Val × Bool)
  | .valuer v f => some (v, f)
  | .both v f _ => some (v, f)
  | _ => none

/-- Result of calling `DatabaseValue()` on an element: `none` if the element is nil (not a provider). -/
def Val.callDatabaseValue : Val → Option Val
  | .provider d => some d
  | .both _ _ d => some d
  | _ => none

/-- Loop body value.go:43-46: the error is ignored, a nil element panics. -/
def valuerElem (e : Val) : Res Val :=
  match e.callValue with
  | some (v, _) => .ok v
  | none => .panic .nilDeref

/-- Loop body value.go:54-56: a nil element panics. -/
def providerElem (e : Val) : Res Val :=
  match e.callDatabaseValue with
  | some d => .ok d
  | none => .panic .nilDeref

/-- Loop body value.go:79-90: the type assertion on a nil element panics (so the `valuer == nil` branch is dead), and an
error of `Value()` panics. -/
def reflElem (e : Val) : Res Val :=
  match e.callValue with
  | some (v, false) => .ok v
  | some (_, true) => .panic .valuerErr
  | none => .panic .typeAssert

/-- `FieldValue`, value.go:10-13. -/
structure FieldValue where
  fd : FieldDef
  value : Val

namespace FieldValue

/-- `FieldValue.Values`, value.go:33-96. -/
def values (fv : FieldValue) : Res (List Val) :=
  match fv.value with
  | .valuer v _ => .ok [v]
  | .both v _ _ => .ok [v]
  | .valuers es => Res.mapL valuerElem es
  | .provider d => .ok [d]
  | .providers es => Res.mapL providerElem es
  | .strs ss => .ok (ss.map Val.str)
  | .reflSlice es => Res.mapL reflElem es
  | v => .ok [v]

/-- `FieldValue.ApplyFieldTable`, value.go:17-20. -/
def applyFieldTable (fv : FieldValue) (table : Str) : FieldValue :=
  { fv with fd := { fv.fd with tableName := table } }

/-- `FieldValue.ApplyFieldSpec`, value.go:24-30. -/
def applyFieldSpec (fv : FieldValue) (spec : FieldDef) : FieldValue :=
  if fv.fd.fieldName = spec.fieldName then { fv with fd := spec } else fv

end FieldValue

/-- `NewFieldValue`, value.go:99-104 (panics where `Field` does). -/
def newFieldValue (fieldName : Str) (v : Val) : Res FieldValue :=
  (field fieldName).bind fun f => .ok ⟨f, v⟩

/-- `FieldName.Value`, field_name.go:69-76. -/
def fieldNameValue (fn : Str) (v : Val) : Res FieldValue :=
  match v.callDatabaseValue with
  | some d => newFieldValue fn d
  | none => newFieldValue fn v

/-- `FieldDefinition.Value`, field_definition.go:191-193: the field name is parsed again, the alias is dropped. -/
def FieldDef.value (f : FieldDef) (v : Val) : Res FieldValue :=
  (newFieldValue f.fieldName v).bind fun fv => .ok (fv.applyFieldTable f.tableName)

/-- Loop body of `ValuesMap.FieldValues`, values_map.go:19-25. -/
def mapEntry (e : Str × Val) : Res FieldValue :=
  match validate e.1 with
  | .ok _ => newFieldValue e.1 e.2
  | .err _ => .err .badMapKey
  | .panic p => .panic p

/-- `ValuesMap.FieldValues`, values_map.go:15-29, on the map's entries in the order the `range` loop visits them. -/
def mapFieldValues (entries : List (Str × Val)) : Res (List FieldValue) := Res.mapL mapEntry entries

end Query
