import Verif.Base.Err
import Verif.Model.Write
/-!
# What failing calls return

The functions that can fail, with all their results: the error value with its text, and what comes with it.  Successful
calls are those of the other files of `Verif/Model`.  The value carried by a panic is `fieldPanic` and so on; `none` means
that the call does not panic this way.
-/
namespace Query

/-- `fmt.Errorf("%w: …", Error)`. -/
def errf (msg : Str) : ErrVal := .wrapf .root msg

/-- `FieldName.Validate`, field_name.go:18-39: its result. -/
def validateE (fn : Str) : Option ErrVal :=
  if hasChar '\'' fn then some (errf c!"field name contains quote character")
  else if hasChar '"' fn then some (errf c!"field name contains double quote character")
  else if hasChar ' ' fn then some (errf c!"field name contains space character")
  else if countChar '.' fn > 1 then some (errf c!"too many dots inside field name")
  else if fn.length = 0 then some (errf c!"empty field name")
  else if hasSuffixChar '.' fn then some (errf c!"field name could not end with dot")
  else if hasPrefixChar '.' fn then some (errf c!"field name could not start with dot")
  else none

/-- `FieldOrError` on a string or `FieldName`, field_definition.go:28-60: pointer and error. -/
def fieldOrErrorE (s : Str) : Res (Option FieldDef × Option ErrVal) :=
  match fieldOrError s with
  | .ok f => .ok (some f, none)
  | .err _ => .ok (none, some (errf (c!"unexpected field specification: " ++ s)))
  | .panic p => .panic p

/-- `TableOrError` on a string or `TableName`, table_ident.go:31-60: pointer and error. -/
def tableOrErrorE (s : Str) : Res (Option TableIdent × Option ErrVal) :=
  match tableOrError s with
  | .ok t => .ok (some t, none)
  | .err _ => .ok (none, some (errf (c!"unexpected table ident: `" ++ s ++ c!"`")))
  | .panic p => .panic p

/-- Loop of `ValuesMap.FieldValues`, values_map.go:18-26, and its results: on the first invalid key nil and two joined
errors. -/
def mapFieldValuesE : List (Str × Val) → Res (Option (List FieldValue) × Option ErrVal)
  | [] => .ok (some [], none)
  | (k, v) :: rest =>
    match validateE k with
    | some e => .ok (none, some (.join (errf (c!"invalid field name `" ++ k ++ c!"`")) e))
    | none => (newFieldValue k v).bind fun fv => (mapFieldValuesE rest).bind fun r =>
      match r.1, r.2 with
      | some fs, none => .ok (some (fv :: fs), none)
      | _, e => .ok (none, e)

/-- `InsertBuilder.BuildQueryAndParams`, insert.go:36-65: text, parameters, error. -/
def InsertB.buildE (q : InsertB) : Res (Str × List Val × Option ErrVal) :=
  if q.setValues.length = 0 then .ok ([], [], some (errf c!"no fields to insert"))
  else if q.tableName.length = 0 then .ok ([], [], some (errf c!"table name empty"))
  else q.build.bind fun r => .ok (r.1, r.2, none)

/-- `UpdateBuilder.BuildQueryAndParams`, update.go:54-80: text, parameters (nil before anything is appended), error. -/
def UpdateB.buildE (q : UpdateB) : Res (Str × List Val × Option ErrVal) :=
  if q.where_.conds.length = 0 then .ok ([], [], some (errf c!"empty conditions, will not update every record"))
  else if q.setValues.length = 0 then .ok ([], [], some (errf c!"no fields to update set"))
  else if q.tableName.length = 0 then .ok ([], [], some (errf c!"no table name set"))
  else q.build.bind fun r => .ok (r.1, r.2, none)

/-- `DeleteBuilder.BuildQueryAndParams`, delete.go:28-48: text, parameters (nil before anything is appended), error. -/
def DeleteB.buildE (q : DeleteB) : Res (Str × List Val × Option ErrVal) :=
  if q.where_.conds.length = 0 then .ok ([], [], some (errf c!"empty conditions, will not delete every record"))
  else if q.tableName.length = 0 then .ok ([], [], some (errf c!"no table name set"))
  else q.build.bind fun r => .ok (r.1, r.2, none)

/-- `BaseSelectBuilder.BuildQueryAndParams`, select_base.go:90-95: the error is always nil. -/
def BaseSelect.buildE (q : BaseSelect) : Res (Str × List Val × Option ErrVal) := q.build.bind fun r => .ok (r.1, r.2, none)
/-- `SelectSingleBuilder.BuildQueryAndParams`, select_single.go:15-18: the error is always nil. -/
def SelectSingle.buildE (q : SelectSingle) : Res (Str × List Val × Option ErrVal) := q.build.bind fun r => .ok (r.1, r.2, none)
/-- `SelectManyBuilder.BuildQueryAndParams`, select_many.go:27-53: the error is always nil. -/
def SelectMany.buildE (q : SelectMany) : Res (Str × List Val × Option ErrVal) := q.build.bind fun r => .ok (r.1, r.2, none)
/-- `CountBuilder.BuildQueryAndParams`, count.go:22-39: the error is always nil. -/
def CountB.buildE (q : CountB) : Res (Str × List Val × Option ErrVal) := q.build.bind fun r => .ok (r.1, r.2, none)

/-! ## Panics -/

/-- `mustField`, field_definition.go:80-83 (called by `Field`): `panic(err)`. -/
def fieldPanic (s : Str) : Option PanicVal :=
  match fieldOrErrorE s with
  | .ok (_, some e) => some (.error e)
  | _ => none

/-- `Table`, table_ident.go:70-73: `panic(err)`. -/
def tablePanic (s : Str) : Option PanicVal :=
  match tableOrErrorE s with
  | .ok (_, some e) => some (.error e)
  | _ => none

/-- `ASC` and `DESC`, ordering.go:61-68, 73-80: a string for an invalid name; else what `Field` panics with. -/
def sortPanic (fn : Str) : Option PanicVal :=
  match validateE fn with
  | some e => some (.text (c!"invalid field name: " ++ e.text))
  | none => fieldPanic fn

/-- `OrderBy`, ordering.go:86-97: `%v` prints a slice as its elements in square brackets, with spaces between. -/
def orderByPanic (fn : Str) : List Str → Option PanicVal
  | [] => sortPanic fn
  | d :: ds =>
    if d = ascending ∨ d = descending then sortPanic fn
    else some (.error (errf (c!"unexpected order: " ++ fn ++ c!": [" ++ joinWith c!" " (d :: ds) ++ c!"]")))

/-- `NewFields`, fields.go:68-78: the first argument that fails. -/
def newFieldsPanic : List FieldArg → Option PanicVal
  | [] => none
  | some (.defn _) :: rest => newFieldsPanic rest
  | some (.name s) :: rest => (fieldPanic s).or (newFieldsPanic rest)
  | some (.str s) :: rest => (fieldPanic s).or (newFieldsPanic rest)
  | none :: _ => some (.text c!"only string, FieldName or FieldDefinition types allowed")

/-- Calling a method on an element, value.go:44, 55: on nil a runtime error. -/
def nilPanic {α : Type} : Option α → Option PanicVal
  | none => some .runtime
  | some _ => none

/-- `FieldValue.Values`, value.go:33-96: the first element that panics.  `shown` is what `%v(%T)` prints of an element, `told` what `%v`
prints of the error its `Value()` returns, value.go:87. -/
def valuesPanic (shown told : Val → Str) (fv : FieldValue) : Option PanicVal :=
  match fv.value with
  | .valuers es => es.findSome? fun e => nilPanic e.callValue
  | .providers es => es.findSome? fun e => nilPanic e.callDatabaseValue
  | .reflSlice es => es.findSome? fun e => match e.callValue with
    | none => some .runtime
    | some (_, true) => some (.error (errf (c!"translate value " ++ shown e ++ c!": " ++ told e)))
    | some (_, false) => none
  | _ => none

end Query
