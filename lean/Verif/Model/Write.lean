import Verif.Model.Select
/-!
# INSERT, UPDATE, DELETE

Models insert.go, update.go, delete.go and the derivations from selects.

The results that come with an error (an empty text, no parameters) are in `Model/Errors.lean`.
-/
namespace Query

/-- The table name an `InsertInto`, `Update` or `Delete` call takes from its parameter: insert.go:81-88, update.go:96-103,
delete.go:64-71.  Strings are taken as they are, without parsing. -/
def paramTableName : TableParam → Str
  | .str s => s
  | .name s => s
  | .ident t => t.name

/-! ## INSERT -/

/-- `InsertBuilder`, insert.go:10-14. -/
structure InsertB where
  op : Int
  tableName : Str
  setValues : List FieldValue

/-- `InsertInto`, insert.go:75-95. -/
def insertInto (p : TableParam) : InsertB := ⟨doInsert, paramTableName p, []⟩

namespace InsertB

/-- `InsertBuilder.Values`, insert.go:28-31. -/
def addValues (q : InsertB) (vs : List FieldValue) : InsertB := { q with setValues := q.setValues ++ vs }

/-- Loop of `InsertBuilder.BuildQueryAndParams`, insert.go:50-55: the state is params, columns, placeholders. -/
def loop : List FieldValue → List Val → List Str → List Str → Res (List Val × List Str × List Str)
  | [], params, columns, phs => .ok (params, columns, phs)
  | fv :: rest, params, columns, phs =>
    fv.values.bind fun vs =>
      let params := params ++ vs
      loop rest params (columns ++ [fv.fd.fieldName]) (phs ++ [c!"$" ++ itoa params.length])

/-- `InsertBuilder.BuildQueryAndParams`, insert.go:36-65. -/
def build (q : InsertB) : Res (Str × List Val) :=
  if q.setValues.length = 0 then .err .noInsertFields
  else if q.tableName.length = 0 then .err .noTable
  else (loop q.setValues [] [] []).bind fun r =>
    let params := r.1
    let columns := r.2.1
    let phs := r.2.2
    .ok (joinWith c!" " [kwInsert, kwInto, q.tableName ++ c!"(" ++ joinWith c!", " columns ++ c!")", kwValues,
      c!"(" ++ joinWith c!", " phs ++ c!")"], params)

end InsertB

/-! ## UPDATE -/

/-- `UpdateBuilder`, update.go:10-15. -/
structure UpdateB where
  op : Int
  tableName : Str
  where_ : Group
  setValues : List FieldValue

/-- `Update`, update.go:90-111. -/
def update (p : TableParam) : UpdateB := ⟨doUpdate, paramTableName p, newGroup lAND [], []⟩

/-- `fieldValue.Values()[0]`, update.go:45. -/
def firstValue (fv : FieldValue) : Res Val :=
  fv.values.bind fun vs =>
    match vs with
    | [] => .panic .index
    | v :: _ => .ok v

namespace UpdateB

/-- `UpdateBuilder.Set`, update.go:29-32. -/
def set (q : UpdateB) (vs : List FieldValue) : UpdateB := { q with setValues := q.setValues ++ vs }

/-- `UpdateBuilder.Where`, update.go:35-38. -/
def addWhere (q : UpdateB) (cs : List Cond) : UpdateB := { q with where_ := q.where_.groupAND cs }

/-- Loop of `UpdateBuilder.fieldsAndValues`, update.go:44-47: the pairs and the parameters, from index `idx`. -/
def loop : List FieldValue → Nat → Res (List Str × List Val)
  | [], _ => .ok ([], [])
  | fv :: rest, idx =>
    (firstValue fv).bind fun v => (loop rest (idx + 1)).bind fun r =>
      .ok ((fv.fd.fieldName ++ c!"=$" ++ itoa (idx + 1)) :: r.1, v :: r.2)

/-- `UpdateBuilder.fieldsAndValues`, update.go:40-50. -/
def fieldsAndValues (q : UpdateB) : Res (Str × List Val) :=
  (loop q.setValues 0).bind fun r => .ok (joinWith c!", " r.1, r.2)

/-- `UpdateBuilder.BuildQueryAndParams`, update.go:54-80. -/
def build (q : UpdateB) : Res (Str × List Val) :=
  if q.where_.conds.length = 0 then .err .noConditions
  else if q.setValues.length = 0 then .err .noSetFields
  else if q.tableName.length = 0 then .err .noTable
  else q.fieldsAndValues.bind fun r =>
    (q.where_.render r.2.length).bind fun w => q.where_.values.bind fun vs =>
      .ok (joinWith c!" " [kwUpdate, q.tableName, kwSet, r.1, kwWhere, w], r.2 ++ vs)

end UpdateB

/-! ## DELETE -/

/-- `DeleteBuilder`, delete.go:9-13. -/
structure DeleteB where
  op : Int
  tableName : Str
  where_ : Group

/-- `Delete`, delete.go:58-78. -/
def delete (p : TableParam) : DeleteB := ⟨doDelete, paramTableName p, newGroup lAND []⟩

namespace DeleteB

/-- `DeleteBuilder.Where`, delete.go:21-24. -/
def addWhere (q : DeleteB) (cs : List Cond) : DeleteB := { q with where_ := q.where_.groupAND cs }

/-- `DeleteBuilder.BuildQueryAndParams`, delete.go:28-48 (`len(params)` is 0 there). -/
def build (q : DeleteB) : Res (Str × List Val) :=
  if q.where_.conds.length = 0 then .err .noConditions
  else if q.tableName.length = 0 then .err .noTable
  else (q.where_.render 0).bind fun w => q.where_.values.bind fun vs =>
    .ok (joinWith c!" " [kwDelete, kwFrom, q.tableName, kwWhere, w], vs)

end DeleteB

/-! ## Derived builders -/

/-- `BaseSelectBuilder.InsertInto`, select_base.go:141-143. -/
def BaseSelect.insertInto (q : BaseSelect) (vs : List FieldValue) : InsertB :=
  (Query.insertInto (.ident q.baseTable)).addValues vs

/-- `BaseSelectBuilder.Update`, select_base.go:147-149. -/
def BaseSelect.update (q : BaseSelect) (vs : List FieldValue) : UpdateB :=
  ((Query.update (.ident q.baseTable)).addWhere q.where_.conditions).set vs

/-- `BaseSelectBuilder.Delete`, select_base.go:153-155; promoted to `SelectSingleBuilder`. -/
def BaseSelect.delete (q : BaseSelect) : DeleteB :=
  (Query.delete (.ident q.baseTable)).addWhere q.where_.conditions

/-- `SelectSingleBuilder.Update`, select_single.go:46-48. -/
def SelectSingle.update (q : SelectSingle) (vs : List FieldValue) : UpdateB :=
  ((Query.update (.ident q.base.baseTable)).addWhere q.base.where_.conditions).set vs

/-- `SelectSingleBuilder.Delete` (promoted), select_base.go:153-155. -/
def SelectSingle.delete (q : SelectSingle) : DeleteB := q.base.delete

/-- `SelectManyBuilder.Update`, select_many.go:120-122. -/
def SelectMany.update (q : SelectMany) (vs : List FieldValue) : UpdateB :=
  ((Query.update (.name q.base.tableName)).addWhere q.base.where_.conditions).set vs

/-- `SelectManyBuilder.Delete`, select_many.go:126-128. -/
def SelectMany.delete (q : SelectMany) : DeleteB :=
  (Query.delete (.name q.base.tableName)).addWhere q.base.where_.conditions

/-- `TableName.InsertInto` table_name.go:12-14, `TableIdent.InsertInto` table_ident.go:80-82. -/
def tableInsertInto (p : TableParam) (vs : List FieldValue) : InsertB := (insertInto p).addValues vs

/-- `TableName.Update` table_name.go:18-20, `TableIdent.Update` table_ident.go:86-88. -/
def tableUpdate (p : TableParam) (vs : List FieldValue) : UpdateB := (update p).set vs

/-- `TableName.Delete` table_name.go:24-26, `TableIdent.Delete` table_ident.go:92-94. -/
def tableDelete (p : TableParam) (cs : List Cond) : DeleteB := (delete p).addWhere cs

end Query
