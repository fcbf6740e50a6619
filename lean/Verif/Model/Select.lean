import Verif.Model.Cond
/-!
# SELECT builders

Models fields.go, ordering.go, limiter.go, join_condition.go, join_tables.go, join_type.go, join_unfinished.go,
select_base.go, select_single.go, select_many.go, count.go.
-/
namespace Query

/-! ## Field lists -/

/-- `Fields`, fields.go:9-11. -/
structure Fields where
  specs : List FieldDef
  deriving DecidableEq, Repr

namespace Fields

/-- `Fields.String`, fields.go:14-20. -/
def string (f : Fields) : Str := c!"Fields(" ++ joinWith c!"," (f.specs.map FieldDef.renderSpec) ++ c!")"

/-- `Fields.Len`, fields.go:24-26. -/
def len (f : Fields) : Nat := f.specs.length

/-- `Fields.Fields`, fields.go:29-37: the list is replaced. -/
def setFields (_f : Fields) (specs : List FieldDef) : Fields := ⟨specs⟩

/-- `Fields.FieldDefinitions`, fields.go:40-45. -/
def fieldDefinitions (f : Fields) : List FieldDef := f.specs

/-- `Fields.FieldList`, fields.go:48-59. -/
def fieldList (f : Fields) : Str :=
  if f.specs.length = 0 then c!"*" else joinWith c!", " (f.specs.map FieldDef.renderSpec)

end Fields

/-- An argument of `NewFields`: one of the admitted types, or any other (`none`). -/
abbrev FieldArg := Option FieldParam

/-- Loop body of `NewFields`, fields.go:68-77. -/
def newFieldsArg : FieldArg → Res FieldDef
  | some (.defn f) => .ok f
  | some (.name s) => field s
  | some (.str s) => field s
  | none => .panic .badFieldArg

/-- `NewFields`, fields.go:64-81. -/
def newFields (args : List FieldArg) : Res Fields := (Res.mapL newFieldsArg args).bind fun fs => .ok ⟨fs⟩

/-! ## Sorting -/

/-- `Ascending`, ordering.go:17. -/
def ascending : Str := c!"ASC"
/-- `Descending`, ordering.go:20. -/
def descending : Str := c!"DESC"

/-- `FieldSorting`, ordering.go:24-27. -/
structure FieldSorting where
  fd : FieldDef
  direction : Str
  deriving DecidableEq, Repr

namespace FieldSorting

/-- `FieldSorting.Render`, ordering.go:35-37. -/
def render (o : FieldSorting) : Str := o.fd.renderField ++ c!" " ++ o.direction

/-- `FieldSorting.ApplyFieldSpec`, ordering.go:41-47. -/
def applyFieldSpec (o : FieldSorting) (spec : FieldDef) : FieldSorting :=
  if o.fd.fieldName = spec.fieldName then { o with fd := spec } else o

/-- `FieldSorting.applyFieldTable`, ordering.go:50-54. -/
def applyFieldTable (o : FieldSorting) (table : Str) : FieldSorting :=
  { o with fd := { o.fd with tableName := table } }

end FieldSorting

/-- `ASC`, ordering.go:60-68. -/
def asc (fn : Str) : Res FieldSorting :=
  (validate fn).must.bind fun _ => (field fn).bind fun f => .ok ⟨f, ascending⟩

/-- `DESC`, ordering.go:72-80. -/
def desc (fn : Str) : Res FieldSorting :=
  (validate fn).must.bind fun _ => (field fn).bind fun f => .ok ⟨f, descending⟩

/-- `OrderBy`, ordering.go:86-97. -/
def orderBy (fn : Str) (direction : List Str) : Res FieldSorting :=
  match direction with
  | d :: _ => if d = ascending then asc fn else if d = descending then desc fn else .panic .badDirection
  | [] => asc fn

/-! ## Limiter -/

/-- `Limiter`, limiter.go:12-15. -/
structure Limiter where
  limit : Nat
  offset : Nat
  deriving DecidableEq, Repr

namespace Limiter

/-- `Limiter.Offset`, limiter.go:19-22. -/
def setOffset (l : Limiter) (offset : Nat) : Limiter := { l with offset := offset }

/-- `Limiter.Limit`, limiter.go:27-30. -/
def setLimit (l : Limiter) (limit : Nat) : Limiter := { l with limit := limit }

/-- `Limiter.Render`, limiter.go:36-53. -/
def render (l : Limiter) (paramNum : Nat) : Str :=
  let sql : Str := []
  let (sql, paramNum) :=
    if l.offset > 0 then (sql ++ c!"OFFSET $" ++ itoa (paramNum + 1), paramNum + 1) else (sql, paramNum)
  if l.limit > 0 then
    let sql := if sql.length > 0 then sql ++ c!" " else sql
    sql ++ c!"LIMIT $" ++ itoa (paramNum + 1)
  else sql

/-- `Limiter.RenderSQL`, limiter.go:57-72. -/
def renderSQL (l : Limiter) : Str :=
  let sql : Str := []
  let sql := if l.offset > 0 then sql ++ c!"OFFSET ?" else sql
  if l.limit > 0 then
    let sql := if sql.length > 0 then sql ++ c!" " else sql
    sql ++ c!"LIMIT ?"
  else sql

/-- `Limiter.Values`, limiter.go:77-89. -/
def values (l : Limiter) : List Val :=
  if l.offset > 0 ∧ l.limit > 0 then [.uint l.offset, .uint l.limit]
  else if l.offset > 0 ∧ l.limit = 0 then [.uint l.offset]
  else if l.offset = 0 ∧ l.limit > 0 then [.uint l.limit]
  else []

end Limiter

/-! ## Joins -/

/-- `JoinCondition`, join_condition.go:6-9. -/
structure JoinCondition where
  leftField : FieldDef
  rightField : FieldDef
  deriving DecidableEq, Repr

/-- `JoinFields`, join_condition.go:53-55. -/
def joinFields (l r : FieldDef) : JoinCondition := ⟨l, r⟩

/-- `JoinCondition.Render`, join_condition.go:47-49. -/
def JoinCondition.render (j : JoinCondition) : Str :=
  j.leftField.renderTableSpec ++ c!"=" ++ j.rightField.renderTableSpec

/-- The zero `FieldDefinition`. -/
def zeroFD : FieldDef := ⟨[], [], []⟩

/-- The zero `JoinCondition`. -/
def zeroJC : JoinCondition := ⟨zeroFD, zeroFD⟩

/-- `TableJoiner`, join_tables.go:15-19. -/
structure TableJoiner where
  rightTable : TableIdent
  joinType : Int
  joinCondition : JoinCondition
  deriving DecidableEq, Repr

namespace TableJoiner

/-- `TableJoiner.By`, join_tables.go:32-35. -/
def by' (t : TableJoiner) (l r : FieldDef) : TableJoiner := { t with joinCondition := joinFields l r }

/-- `TableJoiner.RenderFrom`, join_tables.go:38-45. -/
def renderFrom (t : TableJoiner) : Str :=
  joinWith c!" " [joinTypeString t.joinType, t.rightTable.renderFrom, kwOn, t.joinCondition.render]

end TableJoiner

/-- `NewTableJoiner`, join_tables.go:48-50. -/
def newTableJoiner (right : TableIdent) (joinType : Int) (on : JoinCondition) : TableJoiner := ⟨right, joinType, on⟩

/-- `JoinCondition.Using`, join_condition.go:14-20 (also `InnerJoin` … `FullJoin`, 24-44, and `TableJoinType.By`,
join_type.go:45-47). -/
def JoinCondition.using (j : JoinCondition) (joinType : Int) : Res TableJoiner :=
  (table j.rightField.tableName).bind fun t => .ok ⟨t, joinType, j⟩

/-! ## The base SELECT builder -/

/-- `BaseSelectBuilder`, select_base.go:12-18 (`op` is the embedded `BaseBuilder`, build_base.go:4-6). -/
structure BaseSelect where
  op : Int
  baseTable : TableIdent
  joins : List TableJoiner
  fields : Fields
  where_ : WhereClause

/-- `SelectFrom`, select_base.go:246-267. -/
def selectFrom (p : TableParam) : Res BaseSelect :=
  (tableP p).bind fun t => .ok ⟨0, t, [], ⟨[]⟩, newWhere⟩

namespace BaseSelect

/-- The tokens before WHERE, shared by select_base.go:30-39, 49-58, 92-101. -/
def headTokens (q : BaseSelect) : List Str :=
  [operationString doSelect, q.fields.fieldList, kwFrom, q.baseTable.renderFrom] ++ q.joins.map TableJoiner.renderFrom

/-- `BaseSelectBuilder.RenderSQL`, select_base.go:29-46. -/
def renderSQL (q : BaseSelect) : Res Str :=
  if q.where_.conditions.length > 0 then
    q.where_.renderSQL.bind fun w => .ok (joinWith c!" " (q.headTokens ++ [kwWhere, w]))
  else .ok (joinWith c!" " q.headTokens)

/-- `BaseSelectBuilder.Render`, select_base.go:48-65. -/
def render (q : BaseSelect) (n : Nat) : Res Str :=
  if q.where_.conditions.length > 0 then
    (q.where_.render n).bind fun w => .ok (joinWith c!" " (q.headTokens ++ [kwWhere, w]))
  else .ok (joinWith c!" " q.headTokens)

/-- `BaseSelectBuilder.Values`, select_base.go:67-75. -/
def values (q : BaseSelect) : Res (List Val) :=
  if q.where_.conditions.length > 0 then q.where_.values else .ok []

/-- `BaseSelectBuilder.RenderFrom`, select_base.go:77-86. -/
def renderFrom (q : BaseSelect) : Str :=
  joinWith c!" " (q.baseTable.renderFrom :: q.joins.map TableJoiner.renderFrom)

/-- `BaseSelectBuilder.BuildQueryAndParams`, select_base.go:90-109. -/
def build (q : BaseSelect) : Res (Str × List Val) :=
  if q.where_.conditions.length > 0 then
    (q.where_.render 0).bind fun w => q.where_.values.bind fun vs =>
      .ok (joinWith c!" " (q.headTokens ++ [kwWhere, w]), vs)
  else .ok (joinWith c!" " q.headTokens, [])

/-- `BaseSelectBuilder.TableName`, select_base.go:112-114. -/
def tableName (q : BaseSelect) : Str := q.baseTable.name

/-- `BaseSelectBuilder.Fields`, select_base.go:117-122. -/
def setFields (q : BaseSelect) (fs : List FieldDef) : BaseSelect := { q with fields := q.fields.setFields fs }

/-- `BaseSelectBuilder.FieldDefinitions`, select_base.go:125-127. -/
def fieldDefinitions (q : BaseSelect) : List FieldDef := q.fields.fieldDefinitions

/-- `BaseSelectBuilder.Where`, select_base.go:131-136. -/
def addWhere (q : BaseSelect) (cs : List Cond) : BaseSelect := { q with where_ := q.where_.groupAND cs }

/-- `BaseSelectBuilder.String`, select_base.go:21-27; `%T` prints `query.BaseSelectBuilder`. -/
def string (q : BaseSelect) : Res Str :=
  q.where_.string.bind fun w =>
    .ok (joinWith c!"," [c!"query.BaseSelectBuilder(" ++ q.renderFrom ++ c!")", q.fields.string, w])

/-- The builder inside the value returned by `joinIdent` and `Join`, `InnerJoin` … (select_base.go:188-237): a join with
an empty condition is appended. -/
def joinIdent (q : BaseSelect) (right : TableIdent) (joinType : Int) : BaseSelect :=
  { q with joins := q.joins ++ [⟨right, joinType, zeroJC⟩] }

/-- `incompleteBaseJoiner.On`, join_unfinished.go:12-18: the last join gets its condition (the returned value; the write
into the shared array is in `Verif/Heap`).  Index −1 panics. -/
def on (q : BaseSelect) (l r : FieldDef) : Res BaseSelect :=
  match q.joins.reverse with
  | [] => .panic .index
  | j :: rest => .ok { q with joins := (j.by' l r :: rest).reverse }

end BaseSelect

/-- `TableName.Select` table_name.go:49-51, `TableIdent.Select` table_ident.go:151-153. -/
def tableSelect (p : TableParam) (cs : List Cond) : Res BaseSelect :=
  (selectFrom p).bind fun q => .ok (q.addWhere cs)

/-- `TableName.Join` … table_name.go:72-110, `TableIdent.Join` … table_ident.go:180-218, `TableJoinType.Tables`
join_type.go:51-53: the incomplete builder. -/
def tableJoin (p : TableParam) (right : TableIdent) (joinType : Int) : Res BaseSelect :=
  (tableSelect p []).bind fun q => .ok (q.joinIdent right joinType)

/-! ## Single row -/

/-- `SelectSingleBuilder`, select_single.go:4-6. -/
structure SelectSingle where
  base : BaseSelect

/-- The zero `WhereClause` (a zero `Group`). -/
def zeroWhere : WhereClause := ⟨⟨⟨[], false⟩, [], false⟩⟩

/-- The zero `BaseSelectBuilder`. -/
def zeroBaseSelect : BaseSelect := ⟨0, ⟨[], []⟩, [], ⟨[]⟩, zeroWhere⟩

/-- `SelectSingleFromBase`, select_single.go:101-105 and `BaseSelectBuilder.Single`, select_base.go:158-160. -/
def selectSingleFromBase (q : BaseSelect) : SelectSingle := ⟨q⟩

/-- `SelectSingleFrom`, select_single.go:108-110. -/
def selectSingleFrom (p : TableParam) : Res SelectSingle := (selectFrom p).bind fun q => .ok (selectSingleFromBase q)

namespace SelectSingle

/-- `SelectSingleBuilder.BuildQueryAndParams`, select_single.go:15-18. -/
def build (q : SelectSingle) : Res (Str × List Val) :=
  q.base.build.bind fun r => .ok (r.1 ++ c!" LIMIT 1", r.2)

/-- `SelectSingleBuilder.RenderFrom`, select_single.go:9-11. -/
def renderFrom (q : SelectSingle) : Str := q.base.renderFrom

/-- `SelectSingleBuilder.FieldList`, select_single.go:21-23. -/
def fieldList (q : SelectSingle) : Str := q.base.fields.fieldList

/-- `SelectSingleBuilder.Fields`, select_single.go:27-30: it starts from the zero value of the named result, not from the
receiver. -/
def setFields (_q : SelectSingle) (fs : List FieldDef) : SelectSingle := ⟨zeroBaseSelect.setFields fs⟩

/-- `SelectSingleBuilder.FieldDefinitions`, select_single.go:33-35. -/
def fieldDefinitions (q : SelectSingle) : List FieldDef := q.base.fieldDefinitions

/-- `SelectSingleBuilder.Where`, select_single.go:39-42. -/
def addWhere (q : SelectSingle) (cs : List Cond) : SelectSingle := ⟨q.base.addWhere cs⟩

/-- `SelectSingleBuilder.Render` (promoted), select_base.go:48-65. -/
def render (q : SelectSingle) (n : Nat) : Res Str := q.base.render n

/-- `SelectSingleBuilder.RenderSQL` (promoted), select_base.go:29-46. -/
def renderSQL (q : SelectSingle) : Res Str := q.base.renderSQL

/-- `SelectSingleBuilder.Values` (promoted), select_base.go:67-75. -/
def values (q : SelectSingle) : Res (List Val) := q.base.values

/-- `SelectSingleBuilder.joinIdent`, select_single.go:55-59. -/
def joinIdent (q : SelectSingle) (right : TableIdent) (joinType : Int) : SelectSingle :=
  ⟨q.base.joinIdent right joinType⟩

/-- `SelectSingleBuilder.Join` …, select_single.go:64-98: the table name is parsed. -/
def join (q : SelectSingle) (right : Str) (joinType : Int) : Res SelectSingle :=
  (table right).bind fun t => .ok (q.joinIdent t joinType)

/-- `incompleteSingleJoiner.On`, join_unfinished.go:46-52. -/
def on (q : SelectSingle) (l r : FieldDef) : Res SelectSingle := (q.base.on l r).bind fun b => .ok ⟨b⟩

end SelectSingle

/-- `TableName.SelectOne` table_name.go:56-58, `TableIdent.SelectOne` table_ident.go:158-160. -/
def tableSelectOne (p : TableParam) (cs : List Cond) : Res SelectSingle :=
  (selectSingleFrom p).bind fun q => .ok (q.addWhere cs)

/-! ## Many rows -/

/-- `SelectManyBuilder`, select_many.go:12-18.  `uint(query.limit)` of a positive int is that number. -/
structure SelectMany where
  base : BaseSelect
  offset : Nat
  limit : Int
  order : List FieldSorting
  tableSpec : Bool

/-- `noLimit`, select_many.go:8. -/
def noLimit : Int := -1

/-- `SelectManyFromBase`, select_many.go:186-194 and `BaseSelectBuilder.Many`, select_base.go:164-166. -/
def selectManyFromBase (q : BaseSelect) : SelectMany := ⟨q, 0, noLimit, [], false⟩

/-- `SelectManyFrom`, select_many.go:197-205. -/
def selectManyFrom (p : TableParam) : Res SelectMany :=
  (selectFrom p).bind fun q => .ok ⟨q, 0, noLimit, [], false⟩

/-- Loop rendering ORDER BY items, select_many.go:32-37. -/
def orderLoop : List FieldSorting → Nat → Str
  | [], _ => []
  | o :: os, idx => (if idx > 0 then c!", " else []) ++ o.render ++ orderLoop os (idx + 1)

namespace SelectMany

/-- `SelectManyBuilder.BuildQueryAndParams`, select_many.go:27-52. -/
def build (q : SelectMany) : Res (Str × List Val) :=
  q.base.build.bind fun r =>
    let sql := r.1
    let params := r.2
    let sql := if q.order.length > 0 then sql ++ c!" ORDER BY " ++ orderLoop q.order 0 else sql
    let params := if q.offset > 0 then params ++ [.uint q.offset] else params
    let sql := if q.offset > 0 then sql ++ c!" OFFSET $" ++ itoa params.length else sql
    let params := if q.limit > 0 then params ++ [.uint q.limit.toNat] else params
    let sql := if q.limit > 0 then sql ++ c!" LIMIT $" ++ itoa params.length else sql
    .ok (sql, params)

/-- `SelectManyBuilder.RenderFrom`, select_many.go:21-23. -/
def renderFrom (q : SelectMany) : Str := q.base.renderFrom

/-- `SelectManyBuilder.FieldList`, select_many.go:55-57. -/
def fieldList (q : SelectMany) : Str := q.base.fields.fieldList

/-- `SelectManyBuilder.Fields`, select_many.go:61-66. -/
def setFields (q : SelectMany) (fs : List FieldDef) : SelectMany := { q with base := q.base.setFields fs }

/-- `SelectManyBuilder.FieldDefinitions`, select_many.go:69-71. -/
def fieldDefinitions (q : SelectMany) : List FieldDef := q.base.fieldDefinitions

/-- `SelectManyBuilder.applySpecToOrdering`, select_many.go:74-82 (returned value). -/
def applySpecToOrdering (q : SelectMany) (spec : FieldDef) : SelectMany :=
  { q with order := q.order.map fun o => if spec.fieldName = o.fd.fieldName then o.applyFieldSpec spec else o }

/-- `SelectManyBuilder.applyFieldTableToOrdering`, select_many.go:85-91 (returned value). -/
def applyFieldTableToOrdering (q : SelectMany) (t : Str) : SelectMany :=
  { q with order := q.order.map fun o => o.applyFieldTable t }

/-- `SelectManyBuilder.Offset`, select_many.go:94-97. -/
def setOffset (q : SelectMany) (offset : Nat) : SelectMany := { q with offset := offset }

/-- `SelectManyBuilder.Limit`, select_many.go:100-103. -/
def setLimit (q : SelectMany) (limit : Int) : SelectMany := { q with limit := limit }

/-- `SelectManyBuilder.OrderBy`, select_many.go:106-109. -/
def addOrder (q : SelectMany) (os : List FieldSorting) : SelectMany := { q with order := q.order ++ os }

/-- `SelectManyBuilder.Where`, select_many.go:113-116. -/
def addWhere (q : SelectMany) (cs : List Cond) : SelectMany := { q with base := q.base.addWhere cs }

/-- `SelectManyBuilder.Render` (promoted), select_base.go:48-65. -/
def render (q : SelectMany) (n : Nat) : Res Str := q.base.render n

/-- `SelectManyBuilder.RenderSQL` (promoted), select_base.go:29-46. -/
def renderSQL (q : SelectMany) : Res Str := q.base.renderSQL

/-- `SelectManyBuilder.Values` (promoted), select_base.go:67-75. -/
def values (q : SelectMany) : Res (List Val) := q.base.values

/-- `SelectManyBuilder.joinIdent`, select_many.go:135-139. -/
def joinIdent (q : SelectMany) (right : TableIdent) (joinType : Int) : SelectMany :=
  { q with base := q.base.joinIdent right joinType }

/-- `SelectManyBuilder.Join` …, select_many.go:144-178: the table name is parsed. -/
def join (q : SelectMany) (right : Str) (joinType : Int) : Res SelectMany :=
  (table right).bind fun t => .ok (q.joinIdent t joinType)

/-- `incompleteManyJoiner.On`, join_unfinished.go:29-35. -/
def on (q : SelectMany) (l r : FieldDef) : Res SelectMany := (q.base.on l r).bind fun b => .ok { q with base := b }

end SelectMany

/-- `BaseSelectBuilder.Offset`, select_base.go:169-171. -/
def BaseSelect.toOffset (q : BaseSelect) (offset : Nat) : SelectMany := (selectManyFromBase q).setOffset offset
/-- `BaseSelectBuilder.Limit`, select_base.go:174-176. -/
def BaseSelect.toLimit (q : BaseSelect) (limit : Int) : SelectMany := (selectManyFromBase q).setLimit limit
/-- `BaseSelectBuilder.OrderBy`, select_base.go:179-181. -/
def BaseSelect.toOrder (q : BaseSelect) (os : List FieldSorting) : SelectMany := (selectManyFromBase q).addOrder os

/-- `TableName.SelectMany` table_name.go:63-65, `TableIdent.SelectMany` table_ident.go:165-167. -/
def tableSelectMany (p : TableParam) (cs : List Cond) : Res SelectMany :=
  (selectManyFrom p).bind fun q => .ok (q.addWhere cs)

/-! ## COUNT -/

/-- `CountBuilder`, count.go:9-12. -/
structure CountB where
  base : BaseSelect
  countField : FieldDef

/-- `Count`, count.go:42-52; also `BaseSelectBuilder.Count` select_base.go:240-242, `SelectManyBuilder.Count`
select_many.go:181-183. -/
def count (q : BaseSelect) (fieldToCount : List Str) : Res CountB :=
  match fieldToCount with
  | f :: _ => (field f).bind fun fd => .ok ⟨q, fd⟩
  | [] => (field c!"*").bind fun fd => .ok ⟨q, fd⟩

namespace CountB

/-- `CountBuilder.RenderFrom`, count.go:16-18. -/
def renderFrom (q : CountB) : Str := q.base.renderFrom

/-- `CountBuilder.BuildQueryAndParams`, count.go:22-36. -/
def build (q : CountB) : Res (Str × List Val) :=
  let tokens := [operationString doSelect, kwCount ++ c!"(" ++ q.countField.renderField ++ c!")", kwFrom,
    q.base.renderFrom]
  if q.base.where_.conditions.length > 0 then
    (q.base.where_.render 0).bind fun w => q.base.where_.values.bind fun vs =>
      .ok (joinWith c!" " (tokens ++ [kwWhere, w]), vs)
  else .ok (joinWith c!" " tokens, [])

end CountB

/-- `TableIdent.Count`, table_ident.go:171-173. -/
def tableCount (t : TableIdent) (cs : List Cond) : Res CountB :=
  (selectFrom (.ident t)).bind fun q => count (q.addWhere cs) []

end Query
