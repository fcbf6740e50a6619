import Verif.Heap.History
/-!
# Reading: Render, RenderSQL, Values, BuildQueryAndParams, Conditions, FieldDefinitions

The reading functions with the arrays they allocate: arrays of parameters, and the copies made by `Conditions` and
`FieldDefinitions`.  Arrays of strings, and the array `in.Render` gets from `Values` to count it, are not kept by anything and
are left out.

The first argument of functions that descend into groups bounds the depth of groups in groups; when it is too small the
result is a panic (the theorems are about bounds that are large enough).
-/
namespace Query

/-- The memory of builders and the arrays of parameters. -/
structure RMem where
  mem : Mem
  par : Store Val

/-- The bound on the depth was too small. -/
def tooDeep {α : Type} : Res α := .panic .deep

/-- The embedded `BaseCondition`. -/
def HCond.base : HCond → CondBase
  | .leaf c => c.base
  | .group b _ _ => b

/-- What group rendering puts before a member, group.go:239-242. -/
def joinTokenH (c : HCond) (isFirst : Bool) : Str :=
  let t := c.base.renderJoin isFirst
  if t.length > 0 then c!" " ++ t ++ c!" " else []

/-- Loop of `Group.Values`, group.go:300-302. -/
def loopValues (gr : Grow) (f : RMem → HCond → Res (RMem × Sl)) : List HCond → RMem → Sl → Res (RMem × Sl)
  | [], m, acc => .ok (m, acc)
  | c :: cs, m, acc =>
    (f m c).bind fun r =>
      let a := r.1.par.append gr acc (r.1.par.read r.2)
      loopValues gr f cs { r.1 with par := a.1 } a.2

/-- `Condition.Values`: a new array each time. -/
def valuesR (gr : Grow) : Nat → RMem → HCond → Res (RMem × Sl)
  | _, m, .leaf c => c.values.bind fun vs =>
    let r := m.par.make vs
    .ok ({ m with par := r.1 }, r.2)
  | 0, _, .group _ _ _ => tooDeep
  | d + 1, m, .group _ s _ =>
    let r := m.par.make []
    loopValues gr (valuesR gr d) (m.mem.conds.read s) { m with par := r.1 } r.2

/-- Loop of `Group.Render`, group.go:238-246. -/
def loopRender (f : RMem → HCond → Nat → Res (RMem × Str)) (g : RMem → HCond → Res (RMem × Sl)) :
    List HCond → Bool → Nat → RMem → Res (RMem × Str)
  | [], _, _, m => .ok (m, [])
  | c :: cs, isFirst, n, m =>
    (f m c n).bind fun r => (g r.1 c).bind fun v => (loopRender f g cs false (n + v.2.len) v.1).bind fun rest =>
      .ok (rest.1, joinTokenH c isFirst ++ r.2 ++ rest.2)

/-- `Condition.Render`. -/
def renderR (gr : Grow) : Nat → RMem → HCond → Nat → Res (RMem × Str)
  | _, m, .leaf c, n => (c.render n).bind fun s => .ok (m, s)
  | 0, _, .group _ _ _, _ => tooDeep
  | d + 1, m, .group b s br, n =>
    if s.len = 0 then .ok (m, [])
    else (loopRender (renderR gr d) (valuesR gr d) (m.mem.conds.read s) true n m).bind fun r =>
      .ok (r.1, wrapGroup b s.len br r.2)

/-- Loop of `Group.RenderSQL`, group.go:272-279. -/
def loopRenderSQL (f : RMem → HCond → Res (RMem × Str)) : List HCond → Bool → RMem → Res (RMem × Str)
  | [], _, m => .ok (m, [])
  | c :: cs, isFirst, m =>
    (f m c).bind fun r => (loopRenderSQL f cs false r.1).bind fun rest =>
      .ok (rest.1, joinTokenH c isFirst ++ r.2 ++ rest.2)

/-- `Condition.RenderSQL`. -/
def renderSQLR : Nat → RMem → HCond → Res (RMem × Str)
  | _, m, .leaf c => c.renderSQL.bind fun s => .ok (m, s)
  | 0, _, .group _ _ _ => tooDeep
  | d + 1, m, .group b s br =>
    if s.len = 0 then .ok (m, [])
    else (loopRenderSQL (renderSQLR d) (m.mem.conds.read s) true m).bind fun r =>
      .ok (r.1, wrapGroup b s.len br r.2)

namespace HBase

/-- `WhereClause.Conditions`, where.go:39-44, called for its length. -/
def conditionsR (m : RMem) (q : HBase) : RMem × Sl :=
  let r := q.conditions m.mem
  ({ m with mem := r.1 }, r.2)

/-- `Fields.FieldDefinitions`, fields.go:40-45: a copy. -/
def fieldDefinitionsR (m : RMem) (q : HBase) : RMem × Sl :=
  let r := m.mem.defs.make (m.mem.defs.read q.fields)
  ({ m with mem := { m.mem with defs := r.1 } }, r.2)

/-- The tokens before WHERE, select_base.go:92-101. -/
def headTokensR (m : RMem) (q : HBase) : List Str :=
  [operationString doSelect, (Fields.mk (m.mem.defs.read q.fields)).fieldList, kwFrom, q.baseTable.renderFrom] ++
    (m.mem.joins.read q.joins).map TableJoiner.renderFrom

/-- `BaseSelectBuilder.RenderFrom`, select_base.go:77-86. -/
def renderFromR (m : RMem) (q : HBase) : Str :=
  joinWith c!" " (q.baseTable.renderFrom :: (m.mem.joins.read q.joins).map TableJoiner.renderFrom)

/-- `BaseSelectBuilder.BuildQueryAndParams`, select_base.go:90-109. -/
def buildR (gr : Grow) (d : Nat) (m : RMem) (q : HBase) : Res (RMem × Str × Sl) :=
  let p := m.par.make []
  let m : RMem := { m with par := p.1 }
  let tokens := q.headTokensR m
  let c := q.conditionsR m
  if c.2.len > 0 then
    (renderR gr d c.1 q.where_.toCond 0).bind fun w => (valuesR gr d w.1 q.where_.toCond).bind fun v =>
      let a := v.1.par.append gr p.2 (v.1.par.read v.2)
      .ok ({ v.1 with par := a.1 }, joinWith c!" " (tokens ++ [kwWhere, w.2]), a.2)
  else .ok (c.1, joinWith c!" " tokens, p.2)

end HBase

/-- `SelectSingleBuilder.BuildQueryAndParams`, select_single.go:15-18. -/
def buildSingleR (gr : Grow) (d : Nat) (m : RMem) (q : HBase) : Res (RMem × Str × Sl) :=
  (q.buildR gr d m).bind fun r => .ok (r.1, r.2.1 ++ c!" LIMIT 1", r.2.2)

/-- `SelectManyBuilder.BuildQueryAndParams`, select_many.go:27-52. -/
def buildManyR (gr : Grow) (d : Nat) (m : RMem) (q : HMany) : Res (RMem × Str × Sl) :=
  (q.base.buildR gr d m).bind fun r =>
    let m := r.1
    let sql := r.2.1
    let params := r.2.2
    let order := m.mem.sorts.read q.order
    let sql := if q.order.len > 0 then sql ++ c!" ORDER BY " ++ orderLoop order 0 else sql
    let a := if q.offset > 0 then m.par.append gr params [.uint q.offset] else (m.par, params)
    let sql := if q.offset > 0 then sql ++ c!" OFFSET $" ++ itoa a.2.len else sql
    let b := if q.limit > 0 then a.1.append gr a.2 [.uint q.limit.toNat] else a
    let sql := if q.limit > 0 then sql ++ c!" LIMIT $" ++ itoa b.2.len else sql
    .ok ({ m with par := b.1 }, sql, b.2)

/-- `CountBuilder.BuildQueryAndParams`, count.go:22-36: without conditions the parameters are nil. -/
def buildCountR (gr : Grow) (d : Nat) (m : RMem) (q : HBase) (fd : FieldDef) : Res (RMem × Str × Sl) :=
  let tokens := [operationString doSelect, kwCount ++ c!"(" ++ fd.renderField ++ c!")", kwFrom, q.renderFromR m]
  let c := q.conditionsR m
  if c.2.len > 0 then
    (renderR gr d c.1 q.where_.toCond 0).bind fun w => (valuesR gr d w.1 q.where_.toCond).bind fun v =>
      .ok (v.1, joinWith c!" " (tokens ++ [kwWhere, w.2]), v.2)
  else
    let p := c.1.par.make []
    .ok ({ c.1 with par := p.1 }, joinWith c!" " tokens, p.2)

/-- Loop of `InsertBuilder.BuildQueryAndParams`, insert.go:50-55. -/
def loopInsert (gr : Grow) : List FieldValue → RMem → Sl → List Str → List Str → Res (RMem × Sl × List Str × List Str)
  | [], m, params, columns, phs => .ok (m, params, columns, phs)
  | fv :: rest, m, params, columns, phs =>
    fv.values.bind fun vs =>
      let v := m.par.make vs
      let a := v.1.append gr params (v.1.read v.2)
      loopInsert gr rest { m with par := a.1 } a.2 (columns ++ [fv.fd.fieldName]) (phs ++ [c!"$" ++ itoa a.2.len])

/-- `InsertBuilder.BuildQueryAndParams`, insert.go:36-65. -/
def buildInsertR (gr : Grow) (m : RMem) (q : HInsert) : Res (RMem × Str × Sl) :=
  if q.setValues.len = 0 then .err .noInsertFields
  else if q.tableName.length = 0 then .err .noTable
  else
    let p := m.par.make []
    (loopInsert gr (m.mem.vals.read q.setValues) { m with par := p.1 } p.2 [] []).bind fun r =>
      let columns := r.2.2.1
      let phs := r.2.2.2
      .ok (r.1, joinWith c!" " [kwInsert, kwInto, q.tableName ++ c!"(" ++ joinWith c!", " columns ++ c!")", kwValues,
        c!"(" ++ joinWith c!", " phs ++ c!")"], r.2.1)

/-- `UpdateBuilder.BuildQueryAndParams`, update.go:54-80. -/
def buildUpdateR (gr : Grow) (d : Nat) (m : RMem) (q : HUpdate) : Res (RMem × Str × Sl) :=
  if q.where_.s.len = 0 then .err .noConditions
  else if q.setValues.len = 0 then .err .noSetFields
  else if q.tableName.length = 0 then .err .noTable
  else (UpdateB.loop (m.mem.vals.read q.setValues) 0).bind fun r =>
    let p := m.par.make r.2
    (renderR gr d { m with par := p.1 } q.where_.toCond p.2.len).bind fun w =>
      (valuesR gr d w.1 q.where_.toCond).bind fun v =>
        let a := v.1.par.append gr p.2 (v.1.par.read v.2)
        .ok ({ v.1 with par := a.1 },
          joinWith c!" " [kwUpdate, q.tableName, kwSet, joinWith c!", " r.1, kwWhere, w.2], a.2)

/-- `DeleteBuilder.BuildQueryAndParams`, delete.go:28-48: appends to nil. -/
def buildDeleteR (gr : Grow) (d : Nat) (m : RMem) (q : HDelete) : Res (RMem × Str × Sl) :=
  if q.where_.s.len = 0 then .err .noConditions
  else if q.tableName.length = 0 then .err .noTable
  else
    let p := m.par.make []
    (renderR gr d { m with par := p.1 } q.where_.toCond 0).bind fun w =>
      (valuesR gr d w.1 q.where_.toCond).bind fun v =>
        let a := v.1.par.append gr p.2 (v.1.par.read v.2)
        .ok ({ v.1 with par := a.1 }, joinWith c!" " [kwDelete, kwFrom, q.tableName, kwWhere, w.2], a.2)

/-- `BaseSelectBuilder.RenderSQL`, select_base.go:29-46. -/
def HBase.renderSQLR (d : Nat) (m : RMem) (q : HBase) : Res (RMem × Str) :=
  let tokens := q.headTokensR m
  let c := q.conditionsR m
  if c.2.len > 0 then
    (Query.renderSQLR d c.1 q.where_.toCond).bind fun w => .ok (w.1, joinWith c!" " (tokens ++ [kwWhere, w.2]))
  else .ok (c.1, joinWith c!" " tokens)

/-- `BaseSelectBuilder.Render`, select_base.go:48-65. -/
def HBase.renderR (gr : Grow) (d : Nat) (m : RMem) (q : HBase) (n : Nat) : Res (RMem × Str) :=
  let tokens := q.headTokensR m
  let c := q.conditionsR m
  if c.2.len > 0 then
    (Query.renderR gr d c.1 q.where_.toCond n).bind fun w => .ok (w.1, joinWith c!" " (tokens ++ [kwWhere, w.2]))
  else .ok (c.1, joinWith c!" " tokens)

/-- `BaseSelectBuilder.Values`, select_base.go:67-75. -/
def HBase.valuesR (gr : Grow) (d : Nat) (m : RMem) (q : HBase) : Res (RMem × Sl) :=
  let p := m.par.make []
  let c := q.conditionsR { m with par := p.1 }
  if c.2.len > 0 then
    (Query.valuesR gr d c.1 q.where_.toCond).bind fun v =>
      let a := v.1.par.append gr p.2 (v.1.par.read v.2)
      .ok ({ v.1 with par := a.1 }, a.2)
  else .ok (c.1, p.2)

/-! ## All reading calls -/

/-- The reading methods. -/
inductive Look where
  | build
  | render (n : Nat)
  | renderSQL
  | values
  | conditions
  | fieldDefinitions
  deriving DecidableEq, Repr

/-- What a reading call returns: text, parameters, or a copy of a list. -/
inductive HOut where
  | query (sql : Str) (params : Sl)
  | text (sql : Str)
  | vals (params : Sl)
  | conds (cs : Sl)
  | defs (fs : Sl)

/-- The same over plain values. -/
inductive POut where
  | query (sql : Str) (params : List Val)
  | text (sql : Str)
  | vals (params : List Val)
  | conds (cs : List Cond)
  | defs (fs : List FieldDef)

/-- The type has no such method. -/
def noMethod {α : Type} : Res α := .panic .index

/-- Text and parameters. -/
def HOut.ofQuery (r : Res (RMem × Str × Sl)) : Res (RMem × HOut) := r.bind fun r => .ok (r.1, .query r.2.1 r.2.2)
/-- Text. -/
def HOut.ofText (r : Res (RMem × Str)) : Res (RMem × HOut) := r.bind fun r => .ok (r.1, .text r.2)
/-- Parameters. -/
def HOut.ofVals (r : Res (RMem × Sl)) : Res (RMem × HOut) := r.bind fun r => .ok (r.1, .vals r.2)
/-- Text and parameters. -/
def POut.ofQuery (r : Res (Str × List Val)) : Res POut := r.bind fun r => .ok (.query r.1 r.2)
/-- Text. -/
def POut.ofText (r : Res Str) : Res POut := r.bind fun r => .ok (.text r)
/-- Parameters. -/
def POut.ofVals (r : Res (List Val)) : Res POut := r.bind fun r => .ok (.vals r)

/-- A reading call on a select; `b` is what `BuildQueryAndParams` of its type gives. -/
def HBase.look (gr : Grow) (d : Nat) (m : RMem) (q : HBase) (b : Res (RMem × Str × Sl)) : Look → Res (RMem × HOut)
  | .build => HOut.ofQuery b
  | .render n => HOut.ofText (q.renderR gr d m n)
  | .renderSQL => HOut.ofText (q.renderSQLR d m)
  | .values => HOut.ofVals (q.valuesR gr d m)
  | .conditions => let r := q.conditionsR m; .ok (r.1, .conds r.2)
  | .fieldDefinitions => let r := q.fieldDefinitionsR m; .ok (r.1, .defs r.2)

/-- The same over plain values. -/
def BaseSelect.look (q : BaseSelect) (b : Res (Str × List Val)) : Look → Res POut
  | .build => POut.ofQuery b
  | .render n => POut.ofText (q.render n)
  | .renderSQL => POut.ofText q.renderSQL
  | .values => POut.ofVals q.values
  | .conditions => .ok (.conds q.where_.conditions)
  | .fieldDefinitions => .ok (.defs q.fieldDefinitions)

/-- A reading call on a value in memory.  A join that waits for its condition has no reading methods. -/
def HV.look (gr : Grow) (d : Nat) (m : RMem) : HV → Look → Res (RMem × HOut)
  | .cond c, .render n => HOut.ofText (renderR gr d m c n)
  | .cond c, .renderSQL => HOut.ofText (renderSQLR d m c)
  | .cond c, .values => HOut.ofVals (valuesR gr d m c)
  | .base q, l => q.look gr d m (q.buildR gr d m) l
  | .single q, l => q.look gr d m (buildSingleR gr d m q) l
  | .many q, l => q.base.look gr d m (buildManyR gr d m q) l
  | .count q fd, .build => HOut.ofQuery (buildCountR gr d m q fd)
  | .insert q, .build => HOut.ofQuery (buildInsertR gr m q)
  | .update q, .build => HOut.ofQuery (buildUpdateR gr d m q)
  | .delete q, .build => HOut.ofQuery (buildDeleteR gr d m q)
  | _, _ => noMethod

/-- A reading call on a plain value. -/
def PV.look : PV → Look → Res POut
  | .cond c, .render n => POut.ofText (c.render n)
  | .cond c, .renderSQL => POut.ofText c.renderSQL
  | .cond c, .values => POut.ofVals c.values
  | .base q, l => q.look q.build l
  | .single q, l => q.base.look q.build l
  | .many q, l => q.base.look q.build l
  | .count q, .build => POut.ofQuery q.build
  | .insert q, .build => POut.ofQuery q.build
  | .update q, .build => POut.ofQuery q.build
  | .delete q, .build => POut.ofQuery q.build
  | _, _ => noMethod

/-- Reading calls one after another on the values of a history, each as the number of a value and a method; the results.  A
call that fails leaves no memory behind that anything refers to. -/
def lookAll (gr : Grow) (d : Nat) (hs : List HV) : RMem → List (Nat × Look) → RMem × List (Res HOut)
  | m, [] => (m, [])
  | m, (r, l) :: rest =>
    match hs[r]? with
    | none => let x := lookAll gr d hs m rest; (x.1, noMethod :: x.2)
    | some h =>
      match h.look gr d m l with
      | .ok (m', o) => let x := lookAll gr d hs m' rest; (x.1, .ok o :: x.2)
      | .err e => let x := lookAll gr d hs m rest; (x.1, .err e :: x.2)
      | .panic p => let x := lookAll gr d hs m rest; (x.1, .panic p :: x.2)

mutual
/-- Depth of groups in groups. -/
def Cond.depth : Cond → Nat
  | .group _ cs _ => Cond.depthL cs + 1
  | .fieldc _ _ _ => 0
  | .null _ _ => 0
  | .custom _ _ => 0
/-- Depth of the deepest of several. -/
def Cond.depthL : List Cond → Nat
  | [] => 0
  | c :: cs => max c.depth (Cond.depthL cs)
end

/-- Depth of the groups of a value. -/
def PV.depth : PV → Nat
  | .cond c => c.depth
  | .base q => q.where_.group.toCond.depth
  | .single q => q.base.where_.group.toCond.depth
  | .many q => q.base.where_.group.toCond.depth
  | .count q => q.base.where_.group.toCond.depth
  | .update q => q.where_.toCond.depth
  | .delete q => q.where_.toCond.depth
  | .insert _ | .joinB _ | .joinS _ | .joinM _ => 0

end Query
