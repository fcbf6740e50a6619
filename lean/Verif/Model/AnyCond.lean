import Verif.Model.Write
/-!
# Conditions that may be nil or pointers to groups

`Model/Cond.lean` takes conditions that are present and of the types the library makes.  The static type `Condition` of the
parameters admits two more things: nil, and a pointer `*Group`, whose method set contains that of `Group`.  Here the same code is
modelled on them.  A nil `*Group` behaves like nil: the type assertions `.(Group)` fail and every method call panics.

Only the functions whose behaviour depends on it are repeated: combining, rendering, changing fields and building.
-/
namespace Query

/-- The dynamic types of `Condition` values, with nil and `*Group`. -/
inductive CondX where
  | nil
  | fieldc (k : Kind) (b : CondBase) (fv : FieldValue)
  | null (b : CondBase) (fd : FieldDef)
  | custom (b : CondBase) (c : Custom)
  | group (b : CondBase) (conds : List CondX) (brackets : Bool)
  /-- `&g` for a group `g` -/
  | ptr (b : CondBase) (conds : List CondX) (brackets : Bool)

/-- `Group`, group.go:4-8. -/
structure GroupX where
  base : CondBase
  conds : List CondX
  brackets : Bool

/-- A `Group` as a `Condition`. -/
def GroupX.toCond (g : GroupX) : CondX := .group g.base g.conds g.brackets

/-- The pointer to a group as a `Condition`. -/
def GroupX.addr (g : GroupX) : CondX := .ptr g.base g.conds g.brackets

namespace CondX

/-- The type assertion `condition.(Group)` (operations.go:20,39, group.go:111): it fails for nil and for pointers. -/
def asGroup : CondX → Option GroupX
  | .group b cs br => some ⟨b, cs, br⟩
  | _ => none

/-- The embedded `BaseCondition`; methods on nil panic. -/
def base : CondX → Res CondBase
  | .nil => .panic .nilDeref
  | .fieldc _ b _ => .ok b
  | .null b _ => .ok b
  | .custom b _ => .ok b
  | .group b _ _ => .ok b
  | .ptr b _ _ => .ok b

/-- `Condition.JoinType`, base.go:24-26. -/
def joinType (c : CondX) : Res Str := c.base.bind fun b => .ok b.joinType

/-- `Condition.Join`, lib_*.go and group.go:17-20: called through a pointer it returns a `Group`. -/
def join (c : CondX) (j : Str) : Res CondX :=
  match c with
  | .nil => .panic .nilDeref
  | .fieldc k b fv => .ok (.fieldc k (b.join j) fv)
  | .null b fd => .ok (.null (b.join j) fd)
  | .custom b x => .ok (.custom (b.join j) x)
  | .group b cs br => .ok (.group (b.join j) cs br)
  | .ptr b cs br => .ok (.group (b.join j) cs br)

/-- `Condition.Negate`, lib_*.go and group.go:23-26: called through a pointer it returns a `Group`. -/
def setNegate (c : CondX) (n : Bool) : Res CondX :=
  match c with
  | .nil => .panic .nilDeref
  | .fieldc k b fv => .ok (.fieldc k (b.setNegate n) fv)
  | .null b fd => .ok (.null (b.setNegate n) fd)
  | .custom b x => .ok (.custom (b.setNegate n) x)
  | .group b cs br => .ok (.group (b.setNegate n) cs br)
  | .ptr b cs br => .ok (.group (b.setNegate n) cs br)

mutual
/-- `Condition.Values`; groups: group.go:297-305. -/
def values : CondX → Res (List Val)
  | .nil => .panic .nilDeref
  | .fieldc k _ fv => fieldcValues k fv
  | .null _ _ => .ok []
  | .custom _ x => .ok x.vals
  | .group _ cs _ => valuesL cs
  | .ptr _ cs _ => valuesL cs
/-- Loop of `Group.Values`, group.go:300-302. -/
def valuesL : List CondX → Res (List Val)
  | [] => .ok []
  | c :: cs => do
    let v ← c.values
    let vs ← valuesL cs
    pure (v ++ vs)
end

/-- What group rendering puts between two members, group.go:239-242 and 273-276: `RenderJoin` (base.go:68-74) is called on the
member. -/
def joinToken (c : CondX) (isFirst : Bool) : Res Str :=
  c.base.bind fun b =>
    let t := b.renderJoin isFirst
    .ok (if t.length > 0 then c!" " ++ t ++ c!" " else [])

mutual
/-- `Condition.Render`; groups: group.go:231-261. -/
def render : CondX → Nat → Res Str
  | .nil, _ => .panic .nilDeref
  | .fieldc k b fv, n => fieldcRender k b fv n
  | .null b fd, _ => .ok (renderNull b fd)
  | .custom b x, n => .ok (x.text x.fd b.negate n)
  | .group b cs br, n =>
    if cs.length = 0 then .ok []
    else (renderL cs true n).bind fun sql => .ok (wrapGroup b cs.length br sql)
  | .ptr b cs br, n =>
    if cs.length = 0 then .ok []
    else (renderL cs true n).bind fun sql => .ok (wrapGroup b cs.length br sql)
/-- Loop of `Group.Render`, group.go:238-246. -/
def renderL : List CondX → Bool → Nat → Res Str
  | [], _, _ => .ok []
  | c :: cs, isFirst, n => do
    let t ← joinToken c isFirst
    let s ← c.render n
    let vs ← c.values
    let rest ← renderL cs false (n + vs.length)
    pure (t ++ s ++ rest)
end

mutual
/-- `Condition.RenderSQL`; groups: group.go:265-294. -/
def renderSQL : CondX → Res Str
  | .nil => .panic .nilDeref
  | .fieldc k b fv => fieldcRenderSQL k b fv
  | .null b fd => .ok (renderNull b fd)
  | .custom b x => .ok (x.textSQL x.fd b.negate)
  | .group b cs br =>
    if cs.length = 0 then .ok []
    else (renderSQLL cs true).bind fun sql => .ok (wrapGroup b cs.length br sql)
  | .ptr b cs br =>
    if cs.length = 0 then .ok []
    else (renderSQLL cs true).bind fun sql => .ok (wrapGroup b cs.length br sql)
/-- Loop of `Group.RenderSQL`, group.go:272-279. -/
def renderSQLL : List CondX → Bool → Res Str
  | [], _ => .ok []
  | c :: cs, isFirst => do
    let t ← joinToken c isFirst
    let s ← c.renderSQL
    let rest ← renderSQLL cs false
    pure (t ++ s ++ rest)
end

mutual
/-- `Condition.ApplyFieldSpec`, see `Cond.applyFieldSpec`; groups: group.go:309-315, through a pointer the same group is returned.
What is returned; on nil it panics. -/
def applyFieldSpec : CondX → FieldDef → Res CondX
  | .nil, _ => .panic .nilDeref
  | .fieldc k b fv, spec => .ok (.fieldc k b (fv.applyFieldSpec spec))
  | .null b fd, spec => .ok (.null b (applySpecFD fd spec))
  | .custom b x, spec => .ok (.custom b { x with fd := applySpecFD x.fd spec })
  | .group b cs br, spec => (applyFieldSpecL cs spec).bind fun cs => .ok (.group b cs br)
  | .ptr b cs br, spec => (applyFieldSpecL cs spec).bind fun cs => .ok (.group b cs br)
/-- Loop of `Group.ApplyFieldSpec`, group.go:310-312. -/
def applyFieldSpecL : List CondX → FieldDef → Res (List CondX)
  | [], _ => .ok []
  | c :: cs, spec => (c.applyFieldSpec spec).bind fun c => (applyFieldSpecL cs spec).bind fun cs => .ok (c :: cs)
end

mutual
/-- `Condition.ApplyFieldTable`, see `Cond.applyFieldTable`; groups: group.go:319-325. -/
def applyFieldTable : CondX → Str → Res CondX
  | .nil, _ => .panic .nilDeref
  | .fieldc k b fv, t => .ok (.fieldc k b (fv.applyFieldTable t))
  | .null b fd, t => .ok (.null b { fd with tableName := t })
  | .custom b x, t => .ok (.custom b { x with fd := { x.fd with tableName := t } })
  | .group b cs br, t => (applyFieldTableL cs t).bind fun cs => .ok (.group b cs br)
  | .ptr b cs br, t => (applyFieldTableL cs t).bind fun cs => .ok (.group b cs br)
/-- Loop of `Group.ApplyFieldTable`, group.go:320-322. -/
def applyFieldTableL : List CondX → Str → Res (List CondX)
  | [], _ => .ok []
  | c :: cs, t => (c.applyFieldTable t).bind fun c => (applyFieldTableL cs t).bind fun cs => .ok (c :: cs)
end

end CondX

/-- `NewGroup`, group.go:35-44, with `JoinType.SetToAll`, logical.go:31-38. -/
def newGroupX (j : Str) (cs : List CondX) : Res GroupX :=
  (Res.mapL (fun c : CondX => c.join j) cs).bind fun cs => .ok ⟨newBase lAND false, cs, false⟩

namespace GroupX

/-- `Group.WithBrackets`, group.go:11-14. -/
def withBrackets (g : GroupX) : GroupX := { g with brackets := true }

/-- Loop of `Group.hasAll`, group.go:165-172: it stops at the first other join type. -/
def allJoined (j : Str) : List CondX → Res Bool
  | [] => .ok true
  | c :: cs => c.joinType.bind fun t => if t = j then allJoined j cs else .ok false

/-- Loop of `Group.hasOne`, group.go:180-187: it stops at the first such join type. -/
def oneJoined (j : Str) : List CondX → Res Bool
  | [] => .ok false
  | c :: cs => c.joinType.bind fun t => if t = j then .ok true else oneJoined j cs

/-- `Group.hasAll`, group.go:164-175. -/
def hasAll (g : GroupX) (j : Str) : Res Bool := allJoined j (g.conds.drop 1)

/-- `Group.hasOne`, group.go:179-190. -/
def hasOne (g : GroupX) (j : Str) : Res Bool := oneJoined j (g.conds.drop 1)

/-- `Group.addGroup`, group.go:48-101. -/
def addGroup (g another : GroupX) : Res GroupX := do
  let haveNone := g.conds.length == 0
  let haveSingle := g.conds.length == 1
  let havingOnlyAND ← g.hasAll lAND
  let havingOnlyOR ← g.hasAll lOR
  let havingAnyAND ← g.hasOne lAND
  let havingAnyOR ← g.hasOne lOR
  let addingOnlyAnd ← another.hasAll lAND
  let addingAnyAnd ← another.hasOne lAND
  let addingOnlyOR ← another.hasAll lOR
  let addingAnyOR ← another.hasOne lOR
  let op := another.base.joinType
  if haveNone then pure { g with conds := another.conds, base := { g.base with joinType := op } }
  else if haveSingle && op == lAND && addingOnlyAnd then pure { g with conds := g.conds ++ another.conds }
  else if haveSingle && op == lOR && addingOnlyOR then pure { g with conds := g.conds ++ another.conds }
  else if haveSingle then (another.withBrackets.toCond.join op).bind fun c => .ok { g with conds := g.conds ++ [c] }
  else if havingOnlyOR && op == lOR && addingOnlyOR then pure { g with conds := g.conds ++ another.conds }
  else if havingOnlyOR && op == lOR && addingAnyAnd then
    pure { g with conds := g.conds ++ [another.withBrackets.toCond] }
  else if havingAnyOR && op == lAND && addingAnyAnd then
    pure { g with conds := g.withBrackets.toCond :: another.conds }
  else if havingOnlyAND && op == lAND && addingOnlyAnd then pure { g with conds := g.conds ++ another.conds }
  else if havingOnlyAND && op == lAND && addingAnyOR then
    pure { g with conds := g.conds ++ [another.withBrackets.toCond] }
  else if havingAnyAND && op == lOR && addingOnlyOR then
    pure { g with conds := g.withBrackets.toCond :: another.conds }
  else (another.withBrackets.toCond.join op).bind fun c => .ok { g with conds := [g.withBrackets.toCond, c] }

/-- `Group.addSingleCondition`, group.go:105-131. -/
def addSingleCondition (g : GroupX) (c : CondX) : Res GroupX := do
  let haveNone := g.conds.length == 0
  let haveSingle := g.conds.length == 1
  let haveMany := g.conds.length > 1
  let havingOnlyAND ← g.hasAll lAND
  let havingOnlyOR ← g.hasAll lOR
  let op ← c.joinType
  match c.asGroup with
  | some another => g.addGroup another
  | none =>
    if haveNone then pure { g with conds := g.conds ++ [c], base := { g.base with joinType := op } }
    else (c.join op).bind fun cj =>
      if haveSingle then .ok { g with conds := g.conds ++ [cj] }
      else if haveMany && op == lAND && havingOnlyAND then .ok { g with conds := g.conds ++ [cj] }
      else if haveMany && op == lOR && havingOnlyOR then .ok { g with conds := g.conds ++ [cj] }
      else .ok { g with conds := [g.withBrackets.toCond, cj] }

/-- `Group.addConditions`, group.go:135-160. -/
def addConditions (g : GroupX) (op : Str) (cs : List CondX) : Res GroupX := do
  let havingAnyAND ← g.hasOne lAND
  let havingAnyOR ← g.hasOne lOR
  let haveConditions := g.conds.length > 0
  match cs with
  | [] => pure g
  | c0 :: more =>
    if !haveConditions then pure { g with conds := g.conds ++ cs, base := { g.base with joinType := op } }
    else if more.length = 0 then (c0.join op).bind fun c => g.addSingleCondition c
    else if havingAnyOR && op == lAND then pure { g with conds := g.withBrackets.toCond :: cs }
    else if havingAnyAND && op == lOR then
      (newGroupX op cs).bind fun n => (n.toCond.join op).bind fun c => .ok { g with conds := g.conds ++ [c] }
    else (newGroupX lAND cs).bind fun n => .ok { g with conds := [g.withBrackets.toCond, n.withBrackets.toCond] }

/-- `Group.GroupAND` and `Group.And`, group.go:197-207; `WhereClause.GroupAND`, where.go:13-17. -/
def groupAND (g : GroupX) (cs : List CondX) : Res GroupX := g.addConditions lAND cs

/-- `Group.GroupOR` and `Group.Or`, group.go:215-225; `WhereClause.GroupOR`, where.go:24-28. -/
def groupOR (g : GroupX) (cs : List CondX) : Res GroupX := g.addConditions lOR cs

end GroupX

/-- `Not`, operations.go:4-6. -/
def notX (c : CondX) : Res CondX := c.setNegate true

/-- The group `And` and `Or` start from, operations.go:20-22 and 39-41. -/
def groupOfX (j : Str) (c : CondX) : Res GroupX :=
  match c.asGroup with
  | some g => .ok g
  | none => newGroupX j [c]

/-- `And`, operations.go:10-25. -/
def andX (c : CondX) (more : List CondX) : Res CondX :=
  if more.length = 0 then c.join lAND
  else (groupOfX lAND c).bind fun g => (g.groupAND more).bind fun g => .ok g.toCond

/-- `Or`, operations.go:29-44. -/
def orX (c : CondX) (more : List CondX) : Res CondX :=
  if more.length = 0 then c.join lOR
  else (groupOfX lOR c).bind fun g => (g.groupOR more).bind fun g => g.toCond.join lOR

/-- `Condition.And`: lib_*.go, group.go:205-207; called on nil it panics, called through a pointer it is `Group.And`. -/
def CondX.and (c : CondX) (more : List CondX) : Res CondX :=
  let wrapped := (newGroupX lAND [c]).bind fun g => (g.groupAND more).bind fun g => Res.ok g.toCond
  match c with
  | .nil => .panic .nilDeref
  | .fieldc .like _ _ => wrapped
  | .fieldc .ilike _ _ => wrapped
  | .fieldc _ _ _ => andX c more
  | .null _ _ => wrapped
  | .custom _ _ => andX c more
  | .group b cs br => ((⟨b, cs, br⟩ : GroupX).groupAND more).bind fun g => .ok g.toCond
  | .ptr b cs br => ((⟨b, cs, br⟩ : GroupX).groupAND more).bind fun g => .ok g.toCond

/-- `Condition.Or`: lib_*.go, group.go:223-225; IS NULL: lib_isnull.go:70-72 (`NewGroup(LogicalAND, nil)`). -/
def CondX.or (c : CondX) (more : List CondX) : Res CondX :=
  let wrapped := (newGroupX lOR [c]).bind fun g => (g.groupOR more).bind fun g => Res.ok g.toCond
  match c with
  | .nil => .panic .nilDeref
  | .fieldc .like _ _ => wrapped
  | .fieldc .ilike _ _ => wrapped
  | .fieldc _ _ _ => orX c more
  | .null _ _ => (newGroupX lAND [.nil]).bind fun g => (g.groupAND [c]).bind fun g => (g.groupOR more).bind fun g => .ok g.toCond
  | .custom _ _ => orX c more
  | .group b cs br => ((⟨b, cs, br⟩ : GroupX).groupOR more).bind fun g => .ok g.toCond
  | .ptr b cs br => ((⟨b, cs, br⟩ : GroupX).groupOR more).bind fun g => .ok g.toCond

/-- `JoinType.Join`, logical.go:21-28. -/
def joinAllX (j : Str) : List CondX → Res CondX
  | [] => .panic .index
  | [c] => c.join j
  | cs => (newGroupX j cs).bind fun g => .ok g.toCond

/-! ## Building with such conditions -/

/-- The where group of a new builder: `NewGroup(LogicalAND)`, where.go:72-74, update.go:107, delete.go:75. -/
def emptyX : GroupX := ⟨newBase lAND false, [], false⟩

/-- `DeleteBuilder`, delete.go:9-13. -/
structure DeleteX where
  tableName : Str
  where_ : GroupX

/-- `DeleteBuilder.Where`, delete.go:21-24. -/
def DeleteX.addWhere (q : DeleteX) (cs : List CondX) : Res DeleteX :=
  (q.where_.groupAND cs).bind fun g => .ok { q with where_ := g }

/-- `DeleteBuilder.BuildQueryAndParams`, delete.go:28-48. -/
def DeleteX.build (q : DeleteX) : Res (Str × List Val) :=
  if q.where_.conds.length = 0 then .err .noConditions
  else if q.tableName.length = 0 then .err .noTable
  else (q.where_.toCond.render 0).bind fun w => q.where_.toCond.values.bind fun vs =>
    .ok (joinWith c!" " [kwDelete, kwFrom, q.tableName, kwWhere, w], vs)

/-- `UpdateBuilder`, update.go:10-15. -/
structure UpdateX where
  tableName : Str
  where_ : GroupX
  setValues : List FieldValue

/-- `UpdateBuilder.Where`, update.go:35-38. -/
def UpdateX.addWhere (q : UpdateX) (cs : List CondX) : Res UpdateX :=
  (q.where_.groupAND cs).bind fun g => .ok { q with where_ := g }

/-- `UpdateBuilder.BuildQueryAndParams`, update.go:54-80. -/
def UpdateX.build (q : UpdateX) : Res (Str × List Val) :=
  if q.where_.conds.length = 0 then .err .noConditions
  else if q.setValues.length = 0 then .err .noSetFields
  else if q.tableName.length = 0 then .err .noTable
  else (UpdateB.loop q.setValues 0).bind fun r =>
    (q.where_.toCond.render r.2.length).bind fun w => q.where_.toCond.values.bind fun vs =>
      .ok (joinWith c!" " [kwUpdate, q.tableName, kwSet, joinWith c!", " r.1, kwWhere, w], r.2 ++ vs)

/-- `BaseSelectBuilder`, select_base.go:11-17: fields, table and joins (`head`, whose own where clause is not looked at) and the
where clause. -/
structure SelectX where
  head : BaseSelect
  where_ : GroupX

/-- `BaseSelectBuilder.Where`, select_base.go:130-133. -/
def SelectX.addWhere (q : SelectX) (cs : List CondX) : Res SelectX :=
  (q.where_.groupAND cs).bind fun g => .ok { q with where_ := g }

/-- `BaseSelectBuilder.BuildQueryAndParams`, select_base.go:90-109, with `WhereClause.Conditions`, where.go:39-44. -/
def SelectX.build (q : SelectX) : Res (Str × List Val) :=
  if q.where_.conds.length > 0 then
    (q.where_.toCond.render 0).bind fun w => q.where_.toCond.values.bind fun vs =>
      .ok (joinWith c!" " (q.head.headTokens ++ [kwWhere, w]), vs)
  else .ok (joinWith c!" " q.head.headTokens, [])

end Query
