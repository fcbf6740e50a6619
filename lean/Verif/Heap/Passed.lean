import Verif.Heap.Build
import Verif.Heap.History
/-!
# Programs that pass lists

The variadic calls again, now called as `f(list...)` with a list the program made before and may change later.  The list is a slice
in the same memory as the slices of the builders, so that a call could keep it or write into it; the functions below follow the
code in reading it.  A nil list is a header of length 0.
-/
namespace Query

/-! ## Conditions -/

/-- `append(s, list...)`. -/
def Store.appendS {α : Type} (gr : Grow) (st : Store α) (s list : Sl) : Store α × Sl := st.append gr s (st.read list)

/-- `NewGroup(joinType, list...)` and `SetToAll`, group.go:35-44, logical.go:31-38: a new array of the length of the list, each
element joined. -/
def newGroupL (st : Store HCond) (j : Str) (list : Sl) : Store HCond × HGroup :=
  let r := st.make ((st.read list).map (·.join j))
  (r.1, ⟨newBase lAND false, r.2, false⟩)

namespace HGroup

/-- `conditionsGroup.conditions = append(conditionsGroup.conditions, list...)`. -/
def appL (gr : Grow) (st : Store HCond) (g : HGroup) (list : Sl) : Store HCond × HGroup :=
  let r := st.appendS gr g.s list
  (r.1, { g with s := r.2 })

/-- `Group.addConditions(op, list...)`, group.go:135-160. -/
def addConditionsL (gr : Grow) (st : Store HCond) (g : HGroup) (op : Str) (list : Sl) : Store HCond × HGroup :=
  let havingAnyAND := g.hasOne st lAND
  let havingAnyOR := g.hasOne st lOR
  let haveConditions := g.s.len > 0
  match st.read list with
  | [] => (st, g)
  | c0 :: more =>
    if !haveConditions then
      let r := g.appL gr st list
      (r.1, { r.2 with base := { g.base with joinType := op } })
    else if more.length = 0 then g.addSingleCondition gr st (c0.join op)
    else if havingAnyOR && op == lAND then
      let r := g.lit st [g.withBrackets.toCond]
      r.2.appL gr r.1 list
    else if havingAnyAND && op == lOR then
      let n := newGroupL st op list
      g.app gr n.1 [n.2.toCond.join op]
    else
      let n := newGroupL st lAND list
      let r := g.lit n.1 [g.withBrackets.toCond]
      r.2.app gr r.1 [n.2.withBrackets.toCond]

/-- `Group.GroupAND(list...)` and `Group.And(list...)`, group.go:197-207. -/
def groupANDL (gr : Grow) (st : Store HCond) (g : HGroup) (list : Sl) : Store HCond × HGroup := g.addConditionsL gr st lAND list

/-- `Group.GroupOR(list...)` and `Group.Or(list...)`, group.go:215-225. -/
def groupORL (gr : Grow) (st : Store HCond) (g : HGroup) (list : Sl) : Store HCond × HGroup := g.addConditionsL gr st lOR list

end HGroup

/-- `NewGroup(j, c)` and then adding the list, as `groupOf`. -/
def groupOfL (gr : Grow) (st : Store HCond) (j : Str) (c : HCond) (list : Sl) : Store HCond × HCond :=
  let n := newGroupH st j [c]
  let r := n.2.addConditionsL gr n.1 j list
  (r.1, r.2.toCond)

/-- `And(c, list...)`, operations.go:10-25. -/
def andHL (gr : Grow) (st : Store HCond) (c : HCond) (list : Sl) : Store HCond × HCond :=
  if list.len = 0 then (st, c.join lAND)
  else
    match c.asGroup with
    | some g =>
      let r := g.groupANDL gr st list
      (r.1, r.2.toCond)
    | none => groupOfL gr st lAND c list

/-- `Or(c, list...)`, operations.go:29-44. -/
def orHL (gr : Grow) (st : Store HCond) (c : HCond) (list : Sl) : Store HCond × HCond :=
  if list.len = 0 then (st, c.join lOR)
  else
    match c.asGroup with
    | some g =>
      let r := g.groupORL gr st list
      (r.1, r.2.toCond.join lOR)
    | none =>
      let r := groupOfL gr st lOR c list
      (r.1, r.2.join lOR)

/-- `Condition.And(list...)`, see `HCond.and`. -/
def HCond.andL (gr : Grow) (st : Store HCond) (c : HCond) (list : Sl) : Store HCond × HCond :=
  match c with
  | .leaf (.fieldc .like _ _) => groupOfL gr st lAND c list
  | .leaf (.fieldc .ilike _ _) => groupOfL gr st lAND c list
  | .leaf (.null _ _) => groupOfL gr st lAND c list
  | .leaf _ => andHL gr st c list
  | .group b s br =>
    let r := (HGroup.mk b s br).groupANDL gr st list
    (r.1, r.2.toCond)

/-- `Condition.Or(list...)`, see `HCond.or`. -/
def HCond.orL (gr : Grow) (st : Store HCond) (c : HCond) (list : Sl) : Res (Store HCond × HCond) :=
  match c with
  | .leaf (.fieldc .like _ _) => .ok (groupOfL gr st lOR c list)
  | .leaf (.fieldc .ilike _ _) => .ok (groupOfL gr st lOR c list)
  | .leaf (.null _ _) => .panic .nilDeref
  | .leaf _ => .ok (orHL gr st c list)
  | .group b s br =>
    let r := (HGroup.mk b s br).groupORL gr st list
    .ok (r.1, r.2.toCond)

/-! ## Builders -/

/-- `BaseSelectBuilder.Where(list...)`, select_base.go:131-136. -/
def HBase.addWhereL (pol : Policy) (m : Mem) (q : HBase) (list : Sl) : Mem × HBase :=
  let w := q.where_.groupANDL pol.conds m.conds list
  ({ m with conds := w.1 }, { q with where_ := w.2 })

/-- `UpdateBuilder.Where(list...)`, update.go:35-38. -/
def HUpdate.addWhereL (pol : Policy) (m : Mem) (q : HUpdate) (list : Sl) : Mem × HUpdate :=
  let w := q.where_.groupANDL pol.conds m.conds list
  ({ m with conds := w.1 }, { q with where_ := w.2 })

/-- `DeleteBuilder.Where(list...)`, delete.go:21-24. -/
def HDelete.addWhereL (pol : Policy) (m : Mem) (q : HDelete) (list : Sl) : Mem × HDelete :=
  let w := q.where_.groupANDL pol.conds m.conds list
  ({ m with conds := w.1 }, { q with where_ := w.2 })

/-- `Fields.Fields(list...)`, fields.go:29-37: a new array of the length of the list, filled one by one. -/
def HBase.setFieldsL (m : Mem) (q : HBase) (list : Sl) : Mem × HBase :=
  let f := m.defs.make (m.defs.read list)
  ({ m with defs := f.1 }, { q with fields := f.2 })

/-- `SelectManyBuilder.OrderBy(list...)`, select_many.go:106-109. -/
def HMany.addOrderL (pol : Policy) (m : Mem) (q : HMany) (list : Sl) : Mem × HMany :=
  let o := m.sorts.appendS pol.sorts q.order list
  ({ m with sorts := o.1 }, { q with order := o.2 })

/-- `InsertBuilder.Values(list...)`, insert.go:28-31. -/
def HInsert.addValuesL (pol : Policy) (m : Mem) (q : HInsert) (list : Sl) : Mem × HInsert :=
  let v := m.vals.appendS pol.vals q.setValues list
  ({ m with vals := v.1 }, { q with setValues := v.2 })

/-- `UpdateBuilder.Set(list...)`, update.go:29-32. -/
def HUpdate.setL (pol : Policy) (m : Mem) (q : HUpdate) (list : Sl) : Mem × HUpdate :=
  let v := m.vals.appendS pol.vals q.setValues list
  ({ m with vals := v.1 }, { q with setValues := v.2 })

/-- `Update(p).Where(conditions...).Set(list...)`, as `HBase.update`. -/
def HBase.updateL (pol : Policy) (m : Mem) (q : HBase) (p : TableParam) (list : Sl) : Mem × HUpdate :=
  let c := q.conditions m
  let u := updateH c.1 p
  let w := u.2.addWhereL pol u.1 c.2
  w.2.setL pol w.1 list

/-! ## Programs -/

/-- A list the program made. -/
inductive Lst where
  | conds (s : Sl)
  | defs (s : Sl)
  | sorts (s : Sl)
  | vals (s : Sl)
  deriving DecidableEq

/-- A step of a program: a call with its arguments written out, making a list, writing into a list, or a call with a list; `u` is
the number of a list, `r` and `n` are numbers of values. -/
inductive PStep where
  | call (c : Call)
  | listConds (ns : List Nat)
  | listDefs (fs : List FieldDef)
  | listSorts (os : List FieldSorting)
  | listVals (vs : List FieldValue)
  | putCond (u i n : Nat)
  | putDef (u i : Nat) (f : FieldDef)
  | putSort (u i : Nat) (o : FieldSorting)
  | putVal (u i : Nat) (v : FieldValue)
  | newGroup (j : Str) (u : Nat)
  | andF (r u : Nat)
  | orF (r u : Nat)
  | and (r u : Nat)
  | or (r u : Nat)
  | where_ (r u : Nat)
  | fields (r u : Nat)
  | orderBy (r u : Nat)
  | insertFrom (r u : Nat)
  | values (r u : Nat)
  | updateFrom (r u : Nat)
  | set (r u : Nat)

/-- Memory, values made so far, lists made so far. -/
structure Prog where
  mem : Mem
  hs : List HV
  ls : List Lst

namespace Prog

/-- Before the first step. -/
def empty : Prog := ⟨Mem.empty, [], []⟩

/-- A new value, and the memory after the call that made it. -/
def made (s : Prog) (x : Mem × HV) : Prog := { s with mem := x.1, hs := s.hs ++ [x.2] }

/-- A new list of conditions. -/
def listConds (s : Prog) (cs : List HCond) : Prog :=
  let r := s.mem.conds.make cs
  { s with mem := { s.mem with conds := r.1 }, ls := s.ls ++ [.conds r.2] }

end Prog

/-- One step in memory; `none` if a value or list is missing or of the wrong kind, an index is out of range, or the call panics. -/
def PStep.run (pol : Policy) (s : Prog) : PStep → Option Prog
  | .call c => (c.heap pol s.mem s.hs).map s.made
  | .listConds ns => (getCondsH s.hs ns).map s.listConds
  | .listDefs fs =>
    let r := s.mem.defs.make fs
    some { s with mem := { s.mem with defs := r.1 }, ls := s.ls ++ [.defs r.2] }
  | .listSorts os =>
    let r := s.mem.sorts.make os
    some { s with mem := { s.mem with sorts := r.1 }, ls := s.ls ++ [.sorts r.2] }
  | .listVals vs =>
    let r := s.mem.vals.make vs
    some { s with mem := { s.mem with vals := r.1 }, ls := s.ls ++ [.vals r.2] }
  | .putCond u i n =>
    match s.ls[u]?, s.hs[n]? with
    | some (.conds l), some (.cond c) =>
      if i < l.len then some { s with mem := { s.mem with conds := s.mem.conds.write l i c } } else none
    | _, _ => none
  | .putDef u i f =>
    match s.ls[u]? with
    | some (.defs l) => if i < l.len then some { s with mem := { s.mem with defs := s.mem.defs.write l i f } } else none
    | _ => none
  | .putSort u i o =>
    match s.ls[u]? with
    | some (.sorts l) => if i < l.len then some { s with mem := { s.mem with sorts := s.mem.sorts.write l i o } } else none
    | _ => none
  | .putVal u i v =>
    match s.ls[u]? with
    | some (.vals l) => if i < l.len then some { s with mem := { s.mem with vals := s.mem.vals.write l i v } } else none
    | _ => none
  | .newGroup j u =>
    match s.ls[u]? with
    | some (.conds l) =>
      let x := newGroupL s.mem.conds j l
      some (s.made ({ s.mem with conds := x.1 }, .cond x.2.toCond))
    | _ => none
  | .andF r u =>
    match s.hs[r]?, s.ls[u]? with
    | some (.cond c), some (.conds l) =>
      let x := andHL pol.conds s.mem.conds c l
      some (s.made ({ s.mem with conds := x.1 }, .cond x.2))
    | _, _ => none
  | .orF r u =>
    match s.hs[r]?, s.ls[u]? with
    | some (.cond c), some (.conds l) =>
      let x := orHL pol.conds s.mem.conds c l
      some (s.made ({ s.mem with conds := x.1 }, .cond x.2))
    | _, _ => none
  | .and r u =>
    match s.hs[r]?, s.ls[u]? with
    | some (.cond c), some (.conds l) =>
      let x := c.andL pol.conds s.mem.conds l
      some (s.made ({ s.mem with conds := x.1 }, .cond x.2))
    | _, _ => none
  | .or r u =>
    match s.hs[r]?, s.ls[u]? with
    | some (.cond c), some (.conds l) =>
      (c.orL pol.conds s.mem.conds l).toOption.map fun x => s.made ({ s.mem with conds := x.1 }, .cond x.2)
    | _, _ => none
  | .where_ r u =>
    match s.hs[r]?, s.ls[u]? with
    | some (.base q), some (.conds l) =>
      let x := q.addWhereL pol s.mem l
      some (s.made (x.1, .base x.2))
    | some (.single q), some (.conds l) =>
      let x := q.addWhereL pol s.mem l
      some (s.made (x.1, .single x.2))
    | some (.many q), some (.conds l) =>
      let x := q.base.addWhereL pol s.mem l
      some (s.made (x.1, .many { q with base := x.2 }))
    | some (.update q), some (.conds l) =>
      let x := q.addWhereL pol s.mem l
      some (s.made (x.1, .update x.2))
    | some (.delete q), some (.conds l) =>
      let x := q.addWhereL pol s.mem l
      some (s.made (x.1, .delete x.2))
    | _, _ => none
  | .fields r u =>
    match s.hs[r]?, s.ls[u]? with
    | some (.base q), some (.defs l) =>
      let x := q.setFieldsL s.mem l
      some (s.made (x.1, .base x.2))
    | some (.single _), some (.defs l) =>
      let z := zeroBaseH s.mem
      let x := z.2.setFieldsL z.1 l
      some (s.made (x.1, .single x.2))
    | some (.many q), some (.defs l) =>
      let x := q.base.setFieldsL s.mem l
      some (s.made (x.1, .many { q with base := x.2 }))
    | _, _ => none
  | .orderBy r u =>
    match s.hs[r]?, s.ls[u]? with
    | some (.many q), some (.sorts l) =>
      let x := q.addOrderL pol s.mem l
      some (s.made (x.1, .many x.2))
    | _, _ => none
  | .insertFrom r u =>
    match s.hs[r]?, s.ls[u]? with
    | some (.base q), some (.vals l) =>
      let x := insertIntoH s.mem (.ident q.baseTable)
      let y := x.2.addValuesL pol x.1 l
      some (s.made (y.1, .insert y.2))
    | _, _ => none
  | .values r u =>
    match s.hs[r]?, s.ls[u]? with
    | some (.insert q), some (.vals l) =>
      let x := q.addValuesL pol s.mem l
      some (s.made (x.1, .insert x.2))
    | _, _ => none
  | .updateFrom r u =>
    match s.hs[r]?, s.ls[u]? with
    | some (.base q), some (.vals l) =>
      let x := q.updateL pol s.mem (.ident q.baseTable) l
      some (s.made (x.1, .update x.2))
    | some (.single q), some (.vals l) =>
      let x := q.updateL pol s.mem (.ident q.baseTable) l
      some (s.made (x.1, .update x.2))
    | some (.many q), some (.vals l) =>
      let x := q.base.updateL pol s.mem (.name q.base.baseTable.name) l
      some (s.made (x.1, .update x.2))
    | _, _ => none
  | .set r u =>
    match s.hs[r]?, s.ls[u]? with
    | some (.update q), some (.vals l) =>
      let x := q.setL pol s.mem l
      some (s.made (x.1, .update x.2))
    | _, _ => none

/-- A program, step by step. -/
def runProg (pol : Policy) (s : Prog) : List PStep → Option Prog
  | [] => some s
  | p :: ps =>
    match p.run pol s with
    | some s' => runProg pol s' ps
    | none => none

end Query
