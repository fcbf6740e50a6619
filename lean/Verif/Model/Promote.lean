import Verif.Model.Write
/-!
# Changing the kind of a select

`SelectSingleBuilder` and `SelectManyBuilder` embed `BaseSelectBuilder` (select_single.go:4-6, select_many.go:12-18), so a method
they do not define themselves is the method of the embedded builder.  This file has those that return another kind of select.
-/
namespace Query

namespace SelectSingle

/-- `SelectSingleBuilder.Single`, promoted, select_base.go:158-160. -/
def single (q : SelectSingle) : SelectSingle := selectSingleFromBase q.base

/-- `SelectSingleBuilder.Many`, promoted, select_base.go:164-166. -/
def many (q : SelectSingle) : SelectMany := selectManyFromBase q.base

/-- `SelectSingleBuilder.Offset`, promoted, select_base.go:169-171. -/
def toOffset (q : SelectSingle) (offset : Nat) : SelectMany := q.base.toOffset offset

/-- `SelectSingleBuilder.Limit`, promoted, select_base.go:174-176. -/
def toLimit (q : SelectSingle) (limit : Int) : SelectMany := q.base.toLimit limit

/-- `SelectSingleBuilder.OrderBy`, promoted, select_base.go:179-181. -/
def toOrder (q : SelectSingle) (os : List FieldSorting) : SelectMany := q.base.toOrder os

end SelectSingle

namespace SelectMany

/-- `SelectManyBuilder.Single`, promoted, select_base.go:158-160. -/
def single (q : SelectMany) : SelectSingle := selectSingleFromBase q.base

/-- `SelectManyBuilder.Many`, promoted, select_base.go:164-166. -/
def many (q : SelectMany) : SelectMany := selectManyFromBase q.base

end SelectMany

/-- A select builder of any kind. -/
inductive SelB where
  | base (q : BaseSelect)
  | single (q : SelectSingle)
  | many (q : SelectMany)

/-- A call that changes the kind of a select, or its ordering and page. -/
inductive Conv where
  | single
  | many
  | offset (n : Nat)
  | limit (n : Int)
  | orderBy (os : List FieldSorting)

/-- The call on a builder of any kind: the method of the builder itself (select_many.go:94-109) or of the builder it embeds
(select_base.go:158-181). -/
def SelB.conv : SelB → Conv → SelB
  | .base q, .single => .single (selectSingleFromBase q)
  | .base q, .many => .many (selectManyFromBase q)
  | .base q, .offset n => .many (q.toOffset n)
  | .base q, .limit n => .many (q.toLimit n)
  | .base q, .orderBy os => .many (q.toOrder os)
  | .single q, .single => .single q.single
  | .single q, .many => .many q.many
  | .single q, .offset n => .many (q.toOffset n)
  | .single q, .limit n => .many (q.toLimit n)
  | .single q, .orderBy os => .many (q.toOrder os)
  | .many q, .single => .single q.single
  | .many q, .many => .many q.many
  | .many q, .offset n => .many (q.setOffset n)
  | .many q, .limit n => .many (q.setLimit n)
  | .many q, .orderBy os => .many (q.addOrder os)

/-- Several such calls, one on the result of the other. -/
def SelB.convs (q : SelB) (cs : List Conv) : SelB := cs.foldl SelB.conv q

/-- `BuildQueryAndParams` of a select of any kind, select_base.go:89-109, select_single.go:15-18, select_many.go:27-52. -/
def SelB.build : SelB → Res (Str × List Val)
  | .base q => q.build
  | .single q => q.build
  | .many q => q.build

/-- `Delete()` of a select of any kind, select_base.go:153-155, select_many.go:126-128. -/
def SelB.delete : SelB → DeleteB
  | .base q => q.delete
  | .single q => q.delete
  | .many q => q.delete

/-- `Update(…)` of a select of any kind, select_base.go:147-149, select_single.go:46-48, select_many.go:120-122. -/
def SelB.update : SelB → List FieldValue → UpdateB
  | .base q, vs => q.update vs
  | .single q, vs => q.update vs
  | .many q, vs => q.update vs

/-- `InsertInto(…)` of a select of any kind, select_base.go:141-143, promoted to the other two. -/
def SelB.insertInto : SelB → List FieldValue → InsertB
  | .base q, vs => q.insertInto vs
  | .single q, vs => q.base.insertInto vs
  | .many q, vs => q.base.insertInto vs

/-- `Count()` of a select of any kind, select_base.go:240-242, select_many.go:181-183. -/
def SelB.count : SelB → Res CountB
  | .base q => Query.count q []
  | .single q => Query.count q.base []
  | .many q => Query.count q.base []

/-- `Count(names…)` of a select of any kind, the same lines. -/
def SelB.countOf : SelB → List Str → Res CountB
  | .base q, names => Query.count q names
  | .single q, names => Query.count q.base names
  | .many q, names => Query.count q.base names

/-- `RenderFrom()` of a select of any kind, select_base.go:77-86, select_single.go:9-11, select_many.go:21-23. -/
def SelB.renderFrom : SelB → Str
  | .base q => q.renderFrom
  | .single q => q.renderFrom
  | .many q => q.renderFrom

/-- `FieldList()` of a select of any kind, select_single.go:21-23, select_many.go:55-57; a base select has no such method, its
`BuildQueryAndParams` takes the list of its fields, select_base.go:94. -/
def SelB.fieldList : SelB → Str
  | .base q => q.fields.fieldList
  | .single q => q.fieldList
  | .many q => q.fieldList

/-- `FieldDefinitions()` of a select of any kind, select_base.go:125-127, select_single.go:33-35, select_many.go:69-71. -/
def SelB.fieldDefinitions : SelB → List FieldDef
  | .base q => q.fieldDefinitions
  | .single q => q.fieldDefinitions
  | .many q => q.fieldDefinitions

/-- `TableName()` of a select of any kind, select_base.go:112-114, promoted to the other two. -/
def SelB.tableName : SelB → Str
  | .base q => q.tableName
  | .single q => q.base.tableName
  | .many q => q.base.tableName

/-- `Values()` of a select of any kind, select_base.go:67-75, promoted to the other two. -/
def SelB.values : SelB → Res (List Val)
  | .base q => q.values
  | .single q => q.values
  | .many q => q.values

end Query
