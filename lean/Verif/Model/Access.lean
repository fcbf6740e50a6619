import Verif.Model.Write
/-!
# Accessors and shorthands

The methods that only return a part of a value, or call one other function: field_name.go, table_name.go, table_ident.go,
field_definition.go, join_condition.go, join_tables.go, join_type.go, logical.go, op_type.go, build_base.go, keywords.go,
ordering.go, insert.go, update.go, delete.go.
-/
namespace Query

/-! ## Strings -/

/-- `FieldName.String`, field_name.go:42-44. -/
def fieldNameString (fn : Str) : Str := fn

/-- `TableName.String`, table_name.go:7-9. -/
def tableNameString (t : Str) : Str := t

/-- `TableName.RenderFrom`, table_name.go:42-44. -/
def tableNameRenderFrom (t : Str) : Str := t

/-- `JoinType.String`, logical.go:7-9. -/
def logicalString (j : Str) : Str := j

/-- `SQLKeyWord.String`, keywords.go:21-23. -/
def keywordString (k : Str) : Str := k

/-- `SortDirection.String`, ordering.go:11-13. -/
def sortDirectionString (d : Str) : Str := d

/-! ## Field names -/

/-- `FieldName.Contains`, field_name.go:47-49. -/
def fieldNameContains (fn s : Str) : Res Cond := contains fn s

/-- `FieldName.IContains`, field_name.go:53-55. -/
def fieldNameIContains (fn s : Str) : Res Cond := iContains fn s

/-- `FieldName.EqualTo`, field_name.go:58-60. -/
def fieldNameEqualTo (fn : Str) (v : Val) : Res Cond := equalTo fn v

/-- `FieldName.In`, field_name.go:63-65. -/
def fieldNameIn (fn : Str) (v : Val) : Res Cond := inC fn v

/-- `FieldName.IsNull`, field_name.go:79-81. -/
def fieldNameIsNull (fn : Str) : Res Cond := isNull fn

/-- `FieldName.Field`, field_name.go:85-87. -/
def fieldNameField (fn : Str) : Res FieldDef := field fn

/-! ## Parts of definitions -/

/-- `FieldDefinition.FieldName`, field_definition.go:109-111. -/
def FieldDef.getName (f : FieldDef) : Str := f.fieldName

/-- `FieldDefinition.Alias`, field_definition.go:114-116. -/
def FieldDef.getAlias (f : FieldDef) : Str := f.alias

/-- `FieldDefinition.TableName`, field_definition.go:119-121. -/
def FieldDef.getTable (f : FieldDef) : Str := f.tableName

/-- `FieldDefinition.TableFieldName`, field_definition.go:183-185. -/
def FieldDef.tableFieldName (f : FieldDef) : Str := f.renderTableSpec

/-- `TableIdent.TableName`, table_ident.go:99-101. -/
def TableIdent.getName (t : TableIdent) : Str := t.name

/-- `TableIdent.Alias`, table_ident.go:104-106. -/
def TableIdent.getAlias (t : TableIdent) : Str := t.alias

/-- `TableName.Ident`, table_name.go:30-32. -/
def tableNameIdent (t : Str) : Res TableIdent := table t

/-- `FieldSorting.Direction`, ordering.go:30-32. -/
def FieldSorting.getDirection (o : FieldSorting) : Str := o.direction

/-! ## Joins -/

/-- `TableJoiner.JoinCondition`, join_tables.go:22-24. -/
def TableJoiner.getCondition (t : TableJoiner) : JoinCondition := t.joinCondition

/-- `TableJoiner.JoinType`, join_tables.go:27-29. -/
def TableJoiner.getType (t : TableJoiner) : Int := t.joinType

/-- `JoinCondition.InnerJoin`, join_condition.go:24-26. -/
def JoinCondition.innerJoin (j : JoinCondition) : Res TableJoiner := j.using Query.innerJoin

/-- `JoinCondition.LeftJoin`, join_condition.go:30-32. -/
def JoinCondition.leftJoin (j : JoinCondition) : Res TableJoiner := j.using Query.leftJoin

/-- `JoinCondition.RightJoin`, join_condition.go:36-38. -/
def JoinCondition.rightJoin (j : JoinCondition) : Res TableJoiner := j.using Query.rightJoin

/-- `JoinCondition.FullJoin`, join_condition.go:42-44. -/
def JoinCondition.fullJoin (j : JoinCondition) : Res TableJoiner := j.using Query.fullJoin

/-- `TableJoinType.By`, join_type.go:45-47. -/
def joinTypeBy (joinType : Int) (l r : FieldDef) : Res TableJoiner := (joinFields l r).using joinType

/-! ## Operations -/

/-- `Operation.New`, op_type.go:40-42, and `BaseBuilder.Operation`, build_base.go:10-12: the builder is its operation. -/
def operationNew (op : Int) : Int := op

/-- `BaseBuilder.Operation` (promoted), build_base.go:10-12. -/
def BaseSelect.operation (q : BaseSelect) : Int := q.op
/-- `BaseBuilder.Operation` (promoted), build_base.go:10-12. -/
def SelectSingle.operation (q : SelectSingle) : Int := q.base.op
/-- `BaseBuilder.Operation` (promoted), build_base.go:10-12. -/
def SelectMany.operation (q : SelectMany) : Int := q.base.op
/-- `BaseBuilder.Operation` (promoted), build_base.go:10-12. -/
def InsertB.operation (q : InsertB) : Int := q.op
/-- `BaseBuilder.Operation` (promoted), build_base.go:10-12. -/
def UpdateB.operation (q : UpdateB) : Int := q.op
/-- `BaseBuilder.Operation` (promoted), build_base.go:10-12. -/
def DeleteB.operation (q : DeleteB) : Int := q.op

/-! ## Parts of builders -/

/-- `InsertBuilder.RenderFrom`, insert.go:17-19. -/
def InsertB.renderFrom (q : InsertB) : Str := tableNameRenderFrom q.tableName
/-- `InsertBuilder.TableName`, insert.go:68-70. -/
def InsertB.getTable (q : InsertB) : Str := q.tableName
/-- `InsertBuilder.SetValues`, insert.go:22-24 (the elements; the slice is the builder's own, see `Verif/Heap/Access.lean`). -/
def InsertB.getValues (q : InsertB) : List FieldValue := q.setValues
/-- `UpdateBuilder.RenderFrom`, update.go:18-20. -/
def UpdateB.renderFrom (q : UpdateB) : Str := tableNameRenderFrom q.tableName
/-- `UpdateBuilder.TableName`, update.go:83-85. -/
def UpdateB.getTable (q : UpdateB) : Str := q.tableName
/-- `UpdateBuilder.SetValues`, update.go:23-25 (the elements; the slice is the builder's own). -/
def UpdateB.getValues (q : UpdateB) : List FieldValue := q.setValues
/-- `DeleteBuilder.RenderFrom`, delete.go:16-18. -/
def DeleteB.renderFrom (q : DeleteB) : Str := tableNameRenderFrom q.tableName
/-- `DeleteBuilder.TableName`, delete.go:51-53. -/
def DeleteB.getTable (q : DeleteB) : Str := q.tableName

end Query
