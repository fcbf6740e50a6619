import Verif.Base.Res
/-!
# Names: fields and tables

Models field_name.go, field_definition.go, table_ident.go (the parts without builders), keywords.go.
-/
namespace Query

/-- keywords.go:5-18, op_type.go -/
def kwSelect : Str := c!"SELECT"
/-- keywords.go:7 -/
def kwUpdate : Str := c!"UPDATE"
/-- keywords.go:8 -/
def kwInsert : Str := c!"INSERT"
/-- keywords.go:9 -/
def kwInto : Str := c!"INTO"
/-- keywords.go:10 -/
def kwDelete : Str := c!"DELETE"
/-- keywords.go:11 -/
def kwFrom : Str := c!"FROM"
/-- keywords.go:12 -/
def kwWhere : Str := c!"WHERE"
/-- keywords.go:13 -/
def kwCount : Str := c!"COUNT"
/-- keywords.go:14 -/
def kwAs : Str := c!"AS"
/-- keywords.go:15 -/
def kwOn : Str := c!"ON"
/-- keywords.go:16 -/
def kwValues : Str := c!"VALUES"
/-- keywords.go:17 -/
def kwSet : Str := c!"SET"

/-- `FieldName.Validate`, field_name.go:18-39.  The cases are tried in the order of the Go switch. -/
def validate (fn : Str) : Res Unit :=
  if hasChar '\'' fn then .err .nameQuote
  else if hasChar '"' fn then .err .nameDoubleQuote
  else if hasChar ' ' fn then .err .nameSpace
  else if countChar '.' fn > 1 then .err .nameDots
  else if fn.length = 0 then .err .nameEmpty
  else if hasSuffixChar '.' fn then .err .nameDotEnd
  else if hasPrefixChar '.' fn then .err .nameDotStart
  else .ok ()

/-- `FieldDefinition`, field_definition.go:11-15. -/
structure FieldDef where
  fieldName : Str
  tableName : Str
  alias : Str
  deriving DecidableEq, Repr

/-- `FieldOrError` on a string or `FieldName`, field_definition.go:45-59.  `nameTokens[0]`, `nameTokens[1]` are read as
in Go: an index past the end panics (it cannot happen, as the token contains a dot). -/
def fieldOrError (s : Str) : Res FieldDef :=
  match fields s with
  | [t0] =>
    if !hasChar '.' t0 then .ok ⟨t0, [], []⟩
    else match split '.' t0 with
      | n0 :: n1 :: _ => .ok ⟨n1, n0, []⟩
      | _ => .panic .index
  | [t0, t1, t2] =>
    if toUpper t1 = kwAs then
      if !hasChar '.' t0 then .ok ⟨t0, [], t2⟩
      else match split '.' t0 with
        | n0 :: n1 :: _ => .ok ⟨n1, n0, t2⟩
        | _ => .panic .index
    else .err .badField
  | _ => .err .badField

/-- `Field` (and `mustField`) on a string or `FieldName`, field_definition.go:62-106. -/
def field (s : Str) : Res FieldDef := (fieldOrError s).must

/-- The parameter types `FieldNameParameter` admits, interfaces.go:13-15. -/
inductive FieldParam where
  | str (s : Str)
  | name (s : Str)
  | defn (f : FieldDef)
  deriving DecidableEq, Repr

/-- `FieldOrError` on any admitted parameter, field_definition.go:28-43: a definition is returned as it is. -/
def fieldOrErrorP : FieldParam → Res FieldDef
  | .str s => fieldOrError s
  | .name s => fieldOrError s
  | .defn f => .ok f

/-- `Field` on any admitted parameter, field_definition.go:96-106 with mustField 62-86. -/
def fieldP : FieldParam → Res FieldDef
  | .str s => field s
  | .name s => field s
  | .defn f => .ok f

namespace FieldDef

/-- `FieldDefinition.As`, field_definition.go:125-128. -/
def as (f : FieldDef) (alias : Str) : FieldDef := { f with alias := alias }

/-- `FieldDefinition.Of`, field_definition.go:131-134. -/
def of (f : FieldDef) (table : Str) : FieldDef := { f with tableName := table }

/-- `FieldDefinition.RenderSpec`, field_definition.go:137-153. -/
def renderSpec (f : FieldDef) : Str :=
  let items : List Str := if f.tableName.length > 0 then [f.tableName ++ c!"."] else []
  let items := items ++ [f.fieldName]
  let items :=
    if f.alias.length > 0 ∧ f.alias ≠ f.fieldName then items ++ [c!" " ++ kwAs ++ c!" ", f.alias]
    else if f.alias.length > 0 ∧ f.alias = f.fieldName ∧ f.tableName.length > 0 then
      items ++ [c!" " ++ kwAs ++ c!" ", f.alias]
    else items
  joinWith [] items

/-- `FieldDefinition.RenderField`, field_definition.go:156-172 (its local `items` is never used). -/
def renderField (f : FieldDef) : Str :=
  if f.alias.length > 0 ∧ f.alias ≠ f.fieldName then f.alias
  else if f.tableName.length > 0 then f.tableName ++ c!"." ++ f.fieldName
  else f.fieldName

/-- `FieldDefinition.RenderTableSpec` (and `TableFieldName`), field_definition.go:177-185. -/
def renderTableSpec (f : FieldDef) : Str := f.tableName ++ c!"." ++ f.fieldName

end FieldDef

/-- `TableIdent`, table_ident.go:15-18. -/
structure TableIdent where
  name : Str
  alias : Str
  deriving DecidableEq, Repr

/-- The parameter types `TableNameParameter` admits, interfaces.go:8-10. -/
inductive TableParam where
  | str (s : Str)
  | name (s : Str)
  | ident (t : TableIdent)
  deriving DecidableEq, Repr

/-- `TableOrError` on a string or `TableName`, table_ident.go:47-59. -/
def tableOrError (s : Str) : Res TableIdent :=
  match fields s with
  | [t0] => .ok ⟨t0, []⟩
  | [t0, t1, t2] =>
    if toUpper t1 = kwAs ∧ t2.length > 0 ∧ t2 ≠ t0 then .ok ⟨t0, t2⟩
    else if toUpper t1 = kwAs ∧ t2.length > 0 ∧ t2 = t0 then .ok ⟨t0, []⟩
    else .err .badTable
  | [t0, t1] =>
    if t1.length > 0 ∧ t1 ≠ t0 then .ok ⟨t0, t1⟩ else .err .badTable
  | _ => .err .badTable

/-- `TableOrError`, table_ident.go:31-60. -/
def tableOrErrorP : TableParam → Res TableIdent
  | .str s => tableOrError s
  | .name s => tableOrError s
  | .ident t => .ok t

/-- `Table` on a string or `TableName`, table_ident.go:69-76. -/
def table (s : Str) : Res TableIdent := (tableOrError s).must

/-- `Table`, table_ident.go:69-76. -/
def tableP (p : TableParam) : Res TableIdent := (tableOrErrorP p).must

namespace TableIdent

/-- `TableIdent.RenderFrom`, table_ident.go:111-118. -/
def renderFrom (t : TableIdent) : Str :=
  if t.alias.length > 0 ∧ t.alias ≠ t.name then t.name ++ c!" AS " ++ t.alias else t.name

/-- `TableIdent.As`, table_ident.go:122-130. -/
def as (t : TableIdent) (alias : Str) : TableIdent :=
  { t with alias := if alias = t.name then [] else alias }

/-- `TableIdent.aliasOrName`, table_ident.go:140-146. -/
def aliasOrName (t : TableIdent) : Str := if t.alias.length > 0 then t.alias else t.name

/-- `TableIdent.Field`, table_ident.go:135-137. -/
def field (t : TableIdent) (name : Str) : Res FieldDef :=
  (Query.field name).bind fun f => .ok (f.of t.aliasOrName)

end TableIdent

/-- `TableName.Field`, table_name.go:36-38. -/
def tableNameField (tableName fieldName : Str) : Res FieldDef :=
  (field fieldName).bind fun f => .ok (f.of tableName)

/-- `Operation.String`, op_type.go:24-37 (constants `iota`: op_type.go:10-19). -/
def operationString (op : Int) : Str :=
  if op = 0 then kwSelect
  else if op = 1 then kwInsert
  else if op = 2 then kwUpdate
  else if op = 3 then kwDelete
  else c!"unknown(" ++ itoaInt op ++ c!")"

/-- `DoSelect`, op_type.go:12 -/
def doSelect : Int := 0
/-- `DoInsert`, op_type.go:14 -/
def doInsert : Int := 1
/-- `DoUpdate`, op_type.go:16 -/
def doUpdate : Int := 2
/-- `DoDelete`, op_type.go:18 -/
def doDelete : Int := 3

/-- `TableJoinType.String`, join_type.go:29-42 (constants `iota`: join_type.go:10-25). -/
def joinTypeString (j : Int) : Str :=
  if j = 0 then c!"INNER JOIN"
  else if j = 1 then c!"LEFT JOIN"
  else if j = 2 then c!"RIGHT JOIN"
  else if j = 3 then c!"FULL JOIN"
  else c!"unknown JOIN(" ++ itoaInt j ++ c!")"

/-- `InnerJoin`, join_type.go:12 -/
def innerJoin : Int := 0
/-- `LeftJoin`, join_type.go:16 -/
def leftJoin : Int := 1
/-- `RightJoin`, join_type.go:20 -/
def rightJoin : Int := 2
/-- `FullJoin`, join_type.go:24 -/
def fullJoin : Int := 3

/-- `UniqFieldNames`, utils.go:4-19: the inner loop looks for `str` in `answer`. -/
def uniqGo : List Str → List Str → List Str
  | answer, [] => answer
  | answer, s :: rest => if answer.contains s then uniqGo answer rest else uniqGo (answer ++ [s]) rest

/-- `UniqFieldNames`, utils.go:4-19. -/
def uniqFieldNames (a : List Str) : List Str := uniqGo [] a

end Query
