import Verif.Heap.Cond
/-!
# Builders with shared arrays

The builders of `Verif/Model/Select.lean` and `Verif/Model/Write.lean` with their slices in memory.
-/
namespace Query

/-- The memory, one store for each element type. -/
structure Mem where
  conds : Store HCond
  joins : Store TableJoiner
  sorts : Store FieldSorting
  vals : Store FieldValue
  defs : Store FieldDef

/-- No array allocated. -/
def Mem.empty : Mem := ⟨[], [], [], [], []⟩

/-- What `append` chooses for each element type. -/
structure Policy where
  conds : Grow
  joins : Grow
  sorts : Grow
  vals : Grow

/-- Go's choice for every element type. -/
def goPolicy : Policy := ⟨goGrow, goGrow, goGrow, goGrow⟩

/-- `BaseSelectBuilder`, select_base.go:12-18. -/
structure HBase where
  op : Int
  baseTable : TableIdent
  joins : Sl
  fields : Sl
  where_ : HGroup

/-- `SelectManyBuilder`, select_many.go:12-18. -/
structure HMany where
  base : HBase
  offset : Nat
  limit : Int
  order : Sl
  tableSpec : Bool

/-- `InsertBuilder`, insert.go:10-14. -/
structure HInsert where
  op : Int
  tableName : Str
  setValues : Sl

/-- `UpdateBuilder`, update.go:10-15. -/
structure HUpdate where
  op : Int
  tableName : Str
  where_ : HGroup
  setValues : Sl

/-- `DeleteBuilder`, delete.go:9-13. -/
structure HDelete where
  op : Int
  tableName : Str
  where_ : HGroup

/-! ## Selects -/

/-- `SelectFrom`, select_base.go:246-267. -/
def selectFromH (m : Mem) (p : TableParam) : Res (Mem × HBase) :=
  (tableP p).bind fun t =>
    let j := m.joins.make []
    let f := m.defs.make []
    let w := newGroupH m.conds lAND []
    .ok ({ m with conds := w.1, joins := j.1, defs := f.1 }, ⟨0, t, j.2, f.2, w.2⟩)

/-- The zero `BaseSelectBuilder`: nil slices. -/
def zeroBaseH (m : Mem) : Mem × HBase :=
  let j := m.joins.make []
  let f := m.defs.make []
  let w := m.conds.make []
  ({ m with conds := w.1, joins := j.1, defs := f.1 }, ⟨0, ⟨[], []⟩, j.2, f.2, ⟨⟨[], false⟩, w.2, false⟩⟩)

namespace HBase

/-- `Fields.Fields`, fields.go:29-37: a new array. -/
def setFields (m : Mem) (q : HBase) (fs : List FieldDef) : Mem × HBase :=
  let f := m.defs.make fs
  ({ m with defs := f.1 }, { q with fields := f.2 })

/-- `BaseSelectBuilder.Where`, select_base.go:131-136. -/
def addWhere (pol : Policy) (m : Mem) (q : HBase) (cs : List HCond) : Mem × HBase :=
  let w := q.where_.groupAND pol.conds m.conds cs
  ({ m with conds := w.1 }, { q with where_ := w.2 })

/-- `BaseSelectBuilder.joinIdent`, select_base.go:188-194. -/
def joinIdent (pol : Policy) (m : Mem) (q : HBase) (right : TableIdent) (joinType : Int) : Mem × HBase :=
  let j := m.joins.append pol.joins q.joins [⟨right, joinType, zeroJC⟩]
  ({ m with joins := j.1 }, { q with joins := j.2 })

/-- `incompleteBaseJoiner.On`, join_unfinished.go:12-18: the last element is written in place. -/
def on (m : Mem) (q : HBase) (l r : FieldDef) : Res (Mem × HBase) :=
  match (m.joins.read q.joins)[q.joins.len - 1]? with
  | some j => .ok ({ m with joins := m.joins.write q.joins (q.joins.len - 1) (j.by' l r) }, q)
  | none => .panic .index

/-- `WhereClause.Conditions`, where.go:39-44: a copy. -/
def conditions (m : Mem) (q : HBase) : Mem × Sl :=
  let r := m.conds.make (m.conds.read q.where_.s)
  ({ m with conds := r.1 }, r.2)

end HBase

/-- `SelectManyFromBase`, select_many.go:186-194. -/
def selectManyFromBaseH (m : Mem) (q : HBase) : Mem × HMany :=
  let o := m.sorts.make []
  ({ m with sorts := o.1 }, ⟨q, 0, noLimit, o.2, false⟩)

/-- `SelectManyBuilder.OrderBy`, select_many.go:106-109. -/
def HMany.addOrder (pol : Policy) (m : Mem) (q : HMany) (os : List FieldSorting) : Mem × HMany :=
  let o := m.sorts.append pol.sorts q.order os
  ({ m with sorts := o.1 }, { q with order := o.2 })

/-! ## INSERT, UPDATE, DELETE -/

/-- `InsertInto`, insert.go:75-95. -/
def insertIntoH (m : Mem) (p : TableParam) : Mem × HInsert :=
  let v := m.vals.make []
  ({ m with vals := v.1 }, ⟨doInsert, paramTableName p, v.2⟩)

/-- `InsertBuilder.Values`, insert.go:28-31. -/
def HInsert.addValues (pol : Policy) (m : Mem) (q : HInsert) (vs : List FieldValue) : Mem × HInsert :=
  let v := m.vals.append pol.vals q.setValues vs
  ({ m with vals := v.1 }, { q with setValues := v.2 })

/-- `Update`, update.go:90-111. -/
def updateH (m : Mem) (p : TableParam) : Mem × HUpdate :=
  let v := m.vals.make []
  let w := newGroupH m.conds lAND []
  ({ m with vals := v.1, conds := w.1 }, ⟨doUpdate, paramTableName p, w.2, v.2⟩)

/-- `UpdateBuilder.Set`, update.go:29-32. -/
def HUpdate.set (pol : Policy) (m : Mem) (q : HUpdate) (vs : List FieldValue) : Mem × HUpdate :=
  let v := m.vals.append pol.vals q.setValues vs
  ({ m with vals := v.1 }, { q with setValues := v.2 })

/-- `UpdateBuilder.Where`, update.go:35-38. -/
def HUpdate.addWhere (pol : Policy) (m : Mem) (q : HUpdate) (cs : List HCond) : Mem × HUpdate :=
  let w := q.where_.groupAND pol.conds m.conds cs
  ({ m with conds := w.1 }, { q with where_ := w.2 })

/-- `Delete`, delete.go:58-78. -/
def deleteH (m : Mem) (p : TableParam) : Mem × HDelete :=
  let w := newGroupH m.conds lAND []
  ({ m with conds := w.1 }, ⟨doDelete, paramTableName p, w.2⟩)

/-- `DeleteBuilder.Where`, delete.go:21-24. -/
def HDelete.addWhere (pol : Policy) (m : Mem) (q : HDelete) (cs : List HCond) : Mem × HDelete :=
  let w := q.where_.groupAND pol.conds m.conds cs
  ({ m with conds := w.1 }, { q with where_ := w.2 })

/-- `Update(p).Where(conditions...).Set(values...)`: select_base.go:147-149, select_single.go:46-48,
select_many.go:120-122. -/
def HBase.update (pol : Policy) (m : Mem) (q : HBase) (p : TableParam) (vs : List FieldValue) : Mem × HUpdate :=
  let c := q.conditions m
  let u := updateH c.1 p
  let w := u.2.addWhere pol u.1 (u.1.conds.read c.2)
  w.2.set pol w.1 vs

/-- `Delete(p).Where(conditions...)`: select_base.go:153-155, select_many.go:126-128. -/
def HBase.delete (pol : Policy) (m : Mem) (q : HBase) (p : TableParam) : Mem × HDelete :=
  let c := q.conditions m
  let d := deleteH c.1 p
  d.2.addWhere pol d.1 (d.1.conds.read c.2)

end Query
