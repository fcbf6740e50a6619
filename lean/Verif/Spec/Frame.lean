import Verif.Spec.Repr
/-!
# What sharing leaves alone

Specification: the parts of a value in memory that agree with the plain value, whatever other values share its arrays: everything
except the elements of its lists of conditions, joins, sorts and set values.
-/
namespace Query

/-- A group in memory agrees with a group in its join type, negation and brackets, and in whether it has members. -/
def LikeG (g : HGroup) (k : Group) : Prop := g.base = k.base ∧ g.br = k.brackets ∧ (g.s.len = 0 ↔ k.conds = [])

/-- A condition that is no group is the condition itself; a group agrees as in `LikeG`. -/
def LikeC : HCond → Cond → Prop
  | .leaf c', c => c' = c ∧ c.asGroup = none
  | .group b s br, c => ∃ cs, c = .group b cs br ∧ (s.len = 0 ↔ cs = [])

/-- A select agrees in its operation, table, fields and number of joins, and in its where clause as in `LikeG`. -/
structure LikeB (m : Mem) (h : HBase) (q : BaseSelect) : Prop where
  op : h.op = q.op
  tbl : h.baseTable = q.baseTable
  joins : h.joins.len = q.joins.length
  fields : RepS m.defs h.fields q.fields.specs
  cond : LikeG h.where_ q.where_.group

/-- A select of many rows agrees also in offset, limit and the number of sorting keys. -/
structure LikeM (m : Mem) (h : HMany) (q : SelectMany) : Prop where
  base : LikeB m h.base q.base
  offset : h.offset = q.offset
  limit : h.limit = q.limit
  order : h.order.len = q.order.length
  spec : h.tableSpec = q.tableSpec

/-- A value in memory agrees with a plain value in everything but the elements of its lists. -/
def LikeV (m : Mem) : HV → PV → Prop
  | .cond h, .cond c => LikeC h c
  | .base h, .base q => LikeB m h q
  | .single h, .single q => LikeB m h q.base
  | .many h, .many q => LikeM m h q
  | .count h fd, .count q => LikeB m h q.base ∧ fd = q.countField
  | .insert h, .insert q => h.op = q.op ∧ h.tableName = q.tableName ∧ h.setValues.len = q.setValues.length
  | .update h, .update q =>
    h.op = q.op ∧ h.tableName = q.tableName ∧ LikeG h.where_ q.where_ ∧ h.setValues.len = q.setValues.length
  | .delete h, .delete q => h.op = q.op ∧ h.tableName = q.tableName ∧ LikeG h.where_ q.where_
  | .joinB h, .joinB q => LikeB m h q ∧ q.joins ≠ []
  | .joinS h, .joinS q => LikeB m h q.base ∧ q.base.joins ≠ []
  | .joinM h, .joinM q => LikeM m h q ∧ q.base.joins ≠ []
  | _, _ => False

/-- The end of a statement: a WHERE clause if there are conditions. -/
def whereTail (cs : List Cond) (w : Str) : List Str := if cs = [] then [] else [c!"WHERE", w]

/-- The text of a SELECT up to ORDER BY: fields and table as expected, as many joins as expected, and a WHERE clause exactly if
expected. -/
def HeadText (q : BaseSelect) (items : Str) (sql : Str) : Prop :=
  ∃ (js : List Str) (w : Str), js.length = q.joins.length ∧
    sql = joinWith c!" " ([c!"SELECT", items, c!"FROM", q.baseTable.renderFrom] ++ js ++ whereTail q.where_.group.conds w)

/-- What the text built from a plain value and the one built from a value agreeing with it have in common. -/
def Skeleton : PV → Str → Prop
  | .base q, sql => HeadText q q.fields.fieldList sql
  | .single q, sql => ∃ s, HeadText q.base q.base.fields.fieldList s ∧ sql = s ++ c!" LIMIT 1"
  | .many q, sql => ∃ (s : Str) (keys : List Str) (a b : Nat), HeadText q.base q.base.fields.fieldList s ∧ keys.length = q.order.length ∧
    sql = s ++ (if q.order = [] then [] else c!" ORDER BY " ++ joinWith c!", " keys) ++
      (if q.offset > 0 then c!" OFFSET $" ++ itoa a else []) ++ (if q.limit > 0 then c!" LIMIT $" ++ itoa b else [])
  | .count q, sql => HeadText q.base (c!"COUNT(" ++ q.countField.renderField ++ c!")") sql
  | .insert q, sql => ∃ cols phs : List Str, cols.length = q.setValues.length ∧ phs.length = q.setValues.length ∧ q.setValues ≠ [] ∧
    sql = c!"INSERT INTO " ++ q.tableName ++ c!"(" ++ joinWith c!", " cols ++ c!") VALUES (" ++ joinWith c!", " phs ++ c!")"
  | .update q, sql => ∃ (sets : List Str) (w : Str), sets.length = q.setValues.length ∧ q.setValues ≠ [] ∧ q.where_.conds ≠ [] ∧
    sql = c!"UPDATE " ++ q.tableName ++ c!" SET " ++ joinWith c!", " sets ++ c!" WHERE " ++ w
  | .delete q, sql => ∃ w : Str, q.where_.conds ≠ [] ∧ sql = c!"DELETE FROM " ++ q.tableName ++ c!" WHERE " ++ w
  | _, _ => False

end Query
