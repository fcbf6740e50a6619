import Verif.Model.Value
/-!
# Conditions

Models base.go (BaseCondition), logical.go, lib_*.go, group.go, where.go, operations.go.

Methods of the Go code have value receivers, so a condition is modelled as a value; the slice of a group is a list here.
What sharing of the backing arrays adds is modelled separately in `Verif/Heap`.
-/
namespace Query

/-- `LogicalAND`, logical.go:13. -/
def lAND : Str := c!"AND"
/-- `LogicalOR`, logical.go:16. -/
def lOR : Str := c!"OR"

/-- `BaseCondition`, base.go:18-21. `joinType` may be any string (logical.go:4). -/
structure CondBase where
  joinType : Str
  negate : Bool
  deriving DecidableEq, Repr

namespace CondBase

/-- `BaseCondition.Join`, base.go:29-32. -/
def join (b : CondBase) (j : Str) : CondBase := { b with joinType := j }

/-- `BaseCondition.Negate`, base.go:35-38. -/
def setNegate (b : CondBase) (n : Bool) : CondBase := { b with negate := n }

/-- `BaseCondition.RenderNegate`, base.go:55-61. -/
def renderNegate (b : CondBase) : Str := if b.negate then c!"NOT" else []

/-- `BaseCondition.RenderJoin`, base.go:68-74. -/
def renderJoin (b : CondBase) (isFirst : Bool) : Str := if !isFirst then b.joinType else []

end CondBase

/-- `newBaseCondition`, base.go:78-80. -/
def newBase (j : Str) (n : Bool) : CondBase := ⟨j, n⟩

/-- The library's conditions on a field and a value. -/
inductive Kind where
  /-- lib_equal.go -/
  | eq
  /-- lib_gt.go -/
  | gt
  /-- lib_gte.go -/
  | gte
  /-- lib_lt.go -/
  | lt
  /-- lib_lte.go -/
  | lte
  /-- lib_like.go -/
  | like
  /-- lib_ilike.go -/
  | ilike
  /-- lib_in.go -/
  | inn
  deriving DecidableEq, Repr

/-- A user's own condition type (interfaces.go:122-161, README "new condition implementations"), embedding
`BaseCondition` and a `FieldDefinition` as the library's own types do: its text with `$n` (given field, negate flag and
parameter count), its text with `?` and its values. -/
structure Custom where
  fd : FieldDef
  text : FieldDef → Bool → Nat → Str
  textSQL : FieldDef → Bool → Str
  vals : List Val

/-- The dynamic types of `Condition` values.

A `*Group` (pointer) passed as a condition, which the type assertions `.(Group)` in operations.go and group.go do not see as a
group, and nil conditions are in `Model/AnyCond.lean`. -/
inductive Cond where
  | fieldc (k : Kind) (b : CondBase) (fv : FieldValue)
  | null (b : CondBase) (fd : FieldDef)
  | custom (b : CondBase) (c : Custom)
  | group (b : CondBase) (conds : List Cond) (brackets : Bool)

/-- `Group`, group.go:4-8. -/
structure Group where
  base : CondBase
  conds : List Cond
  brackets : Bool

/-- A `Group` as a `Condition` (interface conversion). -/
def Group.toCond (g : Group) : Cond := .group g.base g.conds g.brackets

/-- The type assertion `condition.(Group)` (operations.go:20,39, group.go:111). -/
def Cond.asGroup : Cond → Option Group
  | .group b cs br => some ⟨b, cs, br⟩
  | _ => none

/-- The embedded `BaseCondition`. -/
def Cond.base : Cond → CondBase
  | .fieldc _ b _ => b
  | .null b _ => b
  | .custom b _ => b
  | .group b _ _ => b

/-- `Condition.JoinType`, base.go:24-26. -/
def Cond.joinType (c : Cond) : Str := c.base.joinType

/-- `Condition.IsNegate`, base.go:49-51. -/
def Cond.isNegate (c : Cond) : Bool := c.base.negate

/-- `Condition.Join`: lib_equal.go:30-33, lib_gt.go:30-33, lib_gte.go:31-34, lib_lt.go:34-37, lib_lte.go:35-38,
lib_like.go:23-26, lib_ilike.go:25-28, lib_in.go:34-37, lib_isnull.go:31-34, group.go:17-20. -/
def Cond.join (c : Cond) (j : Str) : Cond :=
  match c with
  | .fieldc k b fv => .fieldc k (b.join j) fv
  | .null b fd => .null (b.join j) fd
  | .custom b x => .custom (b.join j) x
  | .group b cs br => .group (b.join j) cs br

/-- `Condition.Negate`: lib_equal.go:36-39, lib_gt.go:36-39, lib_gte.go:37-40, lib_lt.go:40-43, lib_lte.go:41-44,
lib_like.go:29-32, lib_ilike.go:31-34, lib_in.go:40-43, lib_isnull.go:37-40, group.go:23-26. -/
def Cond.setNegate (c : Cond) (n : Bool) : Cond :=
  match c with
  | .fieldc k b fv => .fieldc k (b.setNegate n) fv
  | .null b fd => .null (b.setNegate n) fd
  | .custom b x => .custom (b.setNegate n) x
  | .group b cs br => .group (b.setNegate n) cs br

/-- `Condition.FieldName`: promoted from `FieldDefinition` (field_definition.go:109-111), empty for groups
(group.go:29-31). -/
def Cond.fieldName : Cond → Str
  | .fieldc _ _ fv => fv.fd.fieldName
  | .null _ fd => fd.fieldName
  | .custom _ x => x.fd.fieldName
  | .group _ _ _ => []

/-! ## Values -/

/-- `contains.Values` lib_like.go:81-83 and `iContains.Values` lib_ilike.go:83-85: the type assertion panics unless the
value is a string. -/
def likeValues (fv : FieldValue) : Res (List Val) :=
  match fv.value with
  | .str s => .ok [.str (c!"%" ++ s ++ c!"%")]
  | _ => .panic .typeAssert

/-- `Values` of a condition on a field and a value: promoted `FieldValue.Values` except for LIKE and ILIKE. -/
def fieldcValues (k : Kind) (fv : FieldValue) : Res (List Val) :=
  match k with
  | .like => likeValues fv
  | .ilike => likeValues fv
  | _ => fv.values

mutual
/-- `Condition.Values`; lib_isnull.go:58-60 for IS NULL. -/
def Cond.values : Cond → Res (List Val)
  | .fieldc k _ fv => fieldcValues k fv
  | .null _ _ => .ok []
  | .custom _ x => .ok x.vals
  | .group _ cs _ => Cond.valuesL cs
/-- Loop of `Group.Values`, group.go:297-305. -/
def Cond.valuesL : List Cond → Res (List Val)
  | [] => .ok []
  | c :: cs => do
    let v ← c.values
    let vs ← Cond.valuesL cs
    pure (v ++ vs)
end

/-! ## Rendering -/

/-- The operator of a comparison: lib_equal.go:45, lib_gt.go:45, lib_gte.go:46, lib_lt.go:9, lib_lte.go:9. -/
def cmpSym : Kind → Str
  | .eq => c!"="
  | .gt => c!">"
  | .gte => c!">="
  | .lt => c!"<"
  | .lte => c!"<="
  | .like => c!"LIKE"
  | .ilike => c!"ILIKE"
  | .inn => c!"IN"

/-- `Render` of comparisons: lib_equal.go:42-50, lib_gt.go:42-50, lib_gte.go:43-51, lib_lt.go:46-54, lib_lte.go:47-55. -/
def renderCmp (k : Kind) (b : CondBase) (fd : FieldDef) (n : Nat) : Str :=
  if b.negate then
    joinWith [] [b.renderNegate ++ c!" ", fd.renderSpec, cmpSym k, c!"$" ++ itoa (n + 1)]
  else joinWith [] [fd.renderSpec, cmpSym k, c!"$" ++ itoa (n + 1)]

/-- `RenderSQL` of comparisons: lib_equal.go:54-62, lib_gt.go:54-62, lib_gte.go:55-63, lib_lt.go:58-66,
lib_lte.go:59-67. -/
def renderCmpSQL (k : Kind) (b : CondBase) (fd : FieldDef) : Str :=
  if b.negate then joinWith [] [b.renderNegate ++ c!" ", fd.renderSpec, cmpSym k, c!"?"]
  else joinWith [] [fd.renderSpec, cmpSym k, c!"?"]

/-- `Render` of LIKE and ILIKE: lib_like.go:56-65, lib_ilike.go:58-67. -/
def renderLike (k : Kind) (b : CondBase) (fd : FieldDef) (n : Nat) : Str :=
  if b.negate then joinWith c!" " [fd.renderSpec, b.renderNegate, cmpSym k, c!"$" ++ itoa (n + 1)]
  else joinWith c!" " [fd.renderSpec, cmpSym k, c!"$" ++ itoa (n + 1)]

/-- `RenderSQL` of LIKE and ILIKE: lib_like.go:69-78, lib_ilike.go:71-80. -/
def renderLikeSQL (k : Kind) (b : CondBase) (fd : FieldDef) : Str :=
  if b.negate then joinWith c!" " [fd.renderSpec, b.renderNegate, cmpSym k, c!"?"]
  else joinWith c!" " [fd.renderSpec, cmpSym k, c!"?"]

/-- Loop of `in.Render` filling `placeholders`, lib_in.go:49-53: `count` placeholders numbered from `n + 1`. -/
def inPlaceholders (n count : Nat) : List Str :=
  (List.range count).map fun idx => c!"$" ++ itoa (n + idx + 1)

/-- `in.Render`, lib_in.go:46-64. -/
def renderIn (b : CondBase) (fd : FieldDef) (count n : Nat) : Str :=
  let ph := c!"(" ++ joinWith c!"," (inPlaceholders n count) ++ c!")"
  if b.negate then joinWith c!" " [fd.renderSpec, b.renderNegate, cmpSym .inn, ph]
  else joinWith c!" " [fd.renderSpec, cmpSym .inn, ph]

/-- `in.RenderSQL`, lib_in.go:68-86. -/
def renderInSQL (b : CondBase) (fd : FieldDef) (count : Nat) : Str :=
  let ph := c!"(" ++ joinWith c!"," (List.replicate count c!"?") ++ c!")"
  if b.negate then joinWith c!" " [fd.renderSpec, b.renderNegate, cmpSym .inn, ph]
  else joinWith c!" " [fd.renderSpec, cmpSym .inn, ph]

/-- `nullValue.RenderSQL`, lib_isnull.go:47-55, and `nullValue.Render`, lib_isnull.go:43-45. -/
def renderNull (b : CondBase) (fd : FieldDef) : Str :=
  if b.negate then joinWith c!" " [fd.renderSpec, c!"IS", c!"NOT", c!"NULL"]
  else joinWith c!" " [fd.renderSpec, c!"IS", c!"NULL"]

/-- `Render` of a condition on a field and a value. -/
def fieldcRender (k : Kind) (b : CondBase) (fv : FieldValue) (n : Nat) : Res Str :=
  match k with
  | .like => .ok (renderLike .like b fv.fd n)
  | .ilike => .ok (renderLike .ilike b fv.fd n)
  | .inn => fv.values.bind fun vs => .ok (renderIn b fv.fd vs.length n)
  | k => .ok (renderCmp k b fv.fd n)

/-- `RenderSQL` of a condition on a field and a value. -/
def fieldcRenderSQL (k : Kind) (b : CondBase) (fv : FieldValue) : Res Str :=
  match k with
  | .like => .ok (renderLikeSQL .like b fv.fd)
  | .ilike => .ok (renderLikeSQL .ilike b fv.fd)
  | .inn => fv.values.bind fun vs => .ok (renderInSQL b fv.fd vs.length)
  | k => .ok (renderCmpSQL k b fv.fd)

/-- What group rendering puts between two members, group.go:239-242 and 273-276. -/
def joinToken (c : Cond) (isFirst : Bool) : Str :=
  let t := c.base.renderJoin isFirst
  if t.length > 0 then c!" " ++ t ++ c!" " else []

/-- End of `Group.Render` and `Group.RenderSQL`, group.go:248-260 and 281-293: brackets and negation. -/
def wrapGroup (b : CondBase) (count : Nat) (brackets : Bool) (sql : Str) : Str :=
  let brackets := if b.negate && count > 1 then true else brackets
  let sql := if brackets then c!"(" ++ sql ++ c!")" else sql
  if b.negate then b.renderNegate ++ c!" " ++ sql else sql

mutual
/-- `Condition.Render`; groups: group.go:231-261. -/
def Cond.render : Cond → Nat → Res Str
  | .fieldc k b fv, n => fieldcRender k b fv n
  | .null b fd, _ => .ok (renderNull b fd)
  | .custom b x, n => .ok (x.text x.fd b.negate n)
  | .group b cs br, n =>
    if cs.length = 0 then .ok []
    else (Cond.renderL cs true n).bind fun sql => .ok (wrapGroup b cs.length br sql)
/-- Loop of `Group.Render`, group.go:238-246. -/
def Cond.renderL : List Cond → Bool → Nat → Res Str
  | [], _, _ => .ok []
  | c :: cs, isFirst, n => do
    let s ← c.render n
    let vs ← c.values
    let rest ← Cond.renderL cs false (n + vs.length)
    pure (joinToken c isFirst ++ s ++ rest)
end

mutual
/-- `Condition.RenderSQL`; groups: group.go:265-294. -/
def Cond.renderSQL : Cond → Res Str
  | .fieldc k b fv => fieldcRenderSQL k b fv
  | .null b fd => .ok (renderNull b fd)
  | .custom b x => .ok (x.textSQL x.fd b.negate)
  | .group b cs br =>
    if cs.length = 0 then .ok []
    else (Cond.renderSQLL cs true).bind fun sql => .ok (wrapGroup b cs.length br sql)
/-- Loop of `Group.RenderSQL`, group.go:272-279. -/
def Cond.renderSQLL : List Cond → Bool → Res Str
  | [], _ => .ok []
  | c :: cs, isFirst => do
    let s ← c.renderSQL
    let rest ← Cond.renderSQLL cs false
    pure (joinToken c isFirst ++ s ++ rest)
end

/-! ## Changing the field of conditions -/

/-- `FieldSpec` replacement on a definition: lib_isnull.go:16-18. -/
def applySpecFD (fd spec : FieldDef) : FieldDef := if fd.fieldName = spec.fieldName then spec else fd

mutual
/-- `Condition.ApplyFieldSpec`: lib_equal.go:24-27, lib_gt.go:24-27, lib_gte.go:25-28, lib_lt.go:28-31,
lib_lte.go:29-32, lib_like.go:37-40, lib_ilike.go:39-42, lib_in.go:28-31, lib_isnull.go:15-21, group.go:309-315 (the
returned value; the in-place update is in `Verif/Heap`). -/
def Cond.applyFieldSpec : Cond → FieldDef → Cond
  | .fieldc k b fv, spec => .fieldc k b (fv.applyFieldSpec spec)
  | .null b fd, spec => .null b (applySpecFD fd spec)
  | .custom b x, spec => .custom b { x with fd := applySpecFD x.fd spec }
  | .group b cs br, spec => .group b (Cond.applyFieldSpecL cs spec) br
/-- Loop of `Group.ApplyFieldSpec`, group.go:310-312. -/
def Cond.applyFieldSpecL : List Cond → FieldDef → List Cond
  | [], _ => []
  | c :: cs, spec => c.applyFieldSpec spec :: Cond.applyFieldSpecL cs spec
end

mutual
/-- `Condition.ApplyFieldTable`: lib_equal.go:16-19, lib_gt.go:16-19, lib_gte.go:17-20, lib_lt.go:20-23,
lib_lte.go:21-24, lib_like.go:17-20, lib_ilike.go:19-22, lib_in.go:20-23, lib_isnull.go:25-28, group.go:319-325 (the
returned value). -/
def Cond.applyFieldTable : Cond → Str → Cond
  | .fieldc k b fv, t => .fieldc k b (fv.applyFieldTable t)
  | .null b fd, t => .null b { fd with tableName := t }
  | .custom b x, t => .custom b { x with fd := { x.fd with tableName := t } }
  | .group b cs br, t => .group b (Cond.applyFieldTableL cs t) br
/-- Loop of `Group.ApplyFieldTable`, group.go:320-322. -/
def Cond.applyFieldTableL : List Cond → Str → List Cond
  | [], _ => []
  | c :: cs, t => c.applyFieldTable t :: Cond.applyFieldTableL cs t
end

/-! ## Groups -/

/-- A `Condition` interface value, which may be nil. -/
abbrev CondI := Option Cond

/-- `JoinType.Join` on one condition, logical.go:26-27: calling `Join` on nil panics. -/
def joinOneI (j : Str) : CondI → Res Cond
  | some c => .ok (c.join j)
  | none => .panic .nilDeref

/-- `JoinType.SetToAll`, logical.go:31-38. -/
def setToAllI (j : Str) (cs : List CondI) : Res (List Cond) := Res.mapL (joinOneI j) cs

/-- `NewGroup`, group.go:35-44, on conditions that may be nil interface values. -/
def newGroupI (j : Str) (cs : List CondI) : Res Group :=
  (setToAllI j cs).bind fun cs => .ok ⟨newBase lAND false, cs, false⟩

/-- `JoinType.SetToAll` on non-nil conditions, logical.go:31-38. -/
def setToAll (j : Str) (cs : List Cond) : List Cond := cs.map (·.join j)

/-- `NewGroup` on non-nil conditions, group.go:35-44. -/
def newGroup (j : Str) (cs : List Cond) : Group := ⟨newBase lAND false, setToAll j cs, false⟩

/-- `JoinType.Join`, logical.go:21-28: several conditions make a group, none is an index error. -/
def joinAll (j : Str) : List CondI → Res Cond
  | [] => .panic .index
  | [c] => joinOneI j c
  | cs => (newGroupI j cs).bind fun g => .ok g.toCond

namespace Group

/-- `Group.WithBrackets`, group.go:11-14. -/
def withBrackets (g : Group) : Group := { g with brackets := true }

/-- `Group.hasAll`, group.go:164-175: the first condition is skipped. -/
def hasAll (g : Group) (j : Str) : Bool := (g.conds.drop 1).all fun c => c.joinType == j

/-- `Group.hasOne`, group.go:179-190: the first condition is skipped. -/
def hasOne (g : Group) (j : Str) : Bool := (g.conds.drop 1).any fun c => c.joinType == j

/-- `Group.addGroup`, group.go:48-101; the cases are in the order of the Go switch. -/
def addGroup (g another : Group) : Group :=
  let haveNone := g.conds.length == 0
  let haveSingle := g.conds.length == 1
  let havingOnlyAND := g.hasAll lAND
  let havingOnlyOR := g.hasAll lOR
  let havingAnyAND := g.hasOne lAND
  let havingAnyOR := g.hasOne lOR
  let addingOnlyAnd := another.hasAll lAND
  let addingAnyAnd := another.hasOne lAND
  let addingOnlyOR := another.hasAll lOR
  let addingAnyOR := another.hasOne lOR
  let op := another.base.joinType
  if haveNone then { g with conds := another.conds, base := { g.base with joinType := op } }
  else if haveSingle && op == lAND && addingOnlyAnd then { g with conds := g.conds ++ another.conds }
  else if haveSingle && op == lOR && addingOnlyOR then { g with conds := g.conds ++ another.conds }
  else if haveSingle then { g with conds := g.conds ++ [another.withBrackets.toCond.join op] }
  else if havingOnlyOR && op == lOR && addingOnlyOR then { g with conds := g.conds ++ another.conds }
  else if havingOnlyOR && op == lOR && addingAnyAnd then { g with conds := g.conds ++ [another.withBrackets.toCond] }
  else if havingAnyOR && op == lAND && addingAnyAnd then
    { g with conds := g.withBrackets.toCond :: another.conds }
  else if havingOnlyAND && op == lAND && addingOnlyAnd then { g with conds := g.conds ++ another.conds }
  else if havingOnlyAND && op == lAND && addingAnyOR then { g with conds := g.conds ++ [another.withBrackets.toCond] }
  else if havingAnyAND && op == lOR && addingOnlyOR then
    { g with conds := g.withBrackets.toCond :: another.conds }
  else { g with conds := [g.withBrackets.toCond, another.withBrackets.toCond.join op] }

/-- `Group.addSingleCondition`, group.go:105-131. -/
def addSingleCondition (g : Group) (c : Cond) : Group :=
  let haveNone := g.conds.length == 0
  let haveSingle := g.conds.length == 1
  let haveMany := g.conds.length > 1
  let havingOnlyAND := g.hasAll lAND
  let havingOnlyOR := g.hasAll lOR
  let op := c.joinType
  match c.asGroup with
  | some another => g.addGroup another
  | none =>
    if haveNone then { g with conds := g.conds ++ [c], base := { g.base with joinType := op } }
    else if haveSingle then { g with conds := g.conds ++ [c.join op] }
    else if haveMany && op == lAND && havingOnlyAND then { g with conds := g.conds ++ [c.join op] }
    else if haveMany && op == lOR && havingOnlyOR then { g with conds := g.conds ++ [c.join op] }
    else { g with conds := [g.withBrackets.toCond, c.join op] }

/-- `Group.addConditions`, group.go:135-160. -/
def addConditions (g : Group) (op : Str) (cs : List Cond) : Group :=
  let havingAnyAND := g.hasOne lAND
  let havingAnyOR := g.hasOne lOR
  let haveConditions := g.conds.length > 0
  match cs with
  | [] => g
  | c0 :: more =>
    if !haveConditions then { g with conds := g.conds ++ cs, base := { g.base with joinType := op } }
    else if more.length = 0 then g.addSingleCondition (c0.join op)
    else if havingAnyOR && op == lAND then { g with conds := g.withBrackets.toCond :: cs }
    else if havingAnyAND && op == lOR then { g with conds := g.conds ++ [(newGroup op cs).toCond.join op] }
    else { g with conds := [g.withBrackets.toCond, (newGroup lAND cs).withBrackets.toCond] }

/-- `Group.GroupAND` and `Group.And`, group.go:197-207. -/
def groupAND (g : Group) (cs : List Cond) : Group := g.addConditions lAND cs

/-- `Group.GroupOR` and `Group.Or`, group.go:215-225. -/
def groupOR (g : Group) (cs : List Cond) : Group := g.addConditions lOR cs

/-- `Group.Render`, group.go:231-261. -/
def render (g : Group) (n : Nat) : Res Str := g.toCond.render n

/-- `Group.RenderSQL`, group.go:265-294. -/
def renderSQL (g : Group) : Res Str := g.toCond.renderSQL

/-- `Group.Values`, group.go:297-305. -/
def values (g : Group) : Res (List Val) := g.toCond.values

end Group

/-! ## Operations -/

/-- `Not`, operations.go:4-6. -/
def notC (c : Cond) : Cond := c.setNegate true

/-- `And`, operations.go:10-25. -/
def andC (c : Cond) (more : List Cond) : Cond :=
  if more.length = 0 then c.join lAND
  else
    let g := match c.asGroup with
      | some g => g
      | none => newGroup lAND [c]
    (g.groupAND more).toCond

/-- `Or`, operations.go:29-44. -/
def orC (c : Cond) (more : List Cond) : Cond :=
  if more.length = 0 then c.join lOR
  else
    let g := match c.asGroup with
      | some g => g
      | none => newGroup lOR [c]
    ((g.groupOR more).toCond).join lOR

/-- `Condition.And`: `And(impl, …)` for comparisons and IN (lib_equal.go:66-68, lib_gt.go:66-68, lib_gte.go:67-69,
lib_lt.go:70-72, lib_lte.go:71-73, lib_in.go:90-92), `NewGroup(AND, impl).And(…)` for LIKE, ILIKE and IS NULL
(lib_like.go:44-46, lib_ilike.go:46-48, lib_isnull.go:64-66), `Group.And` for groups (group.go:205-207).  A user's own
type is assumed to be written like the comparisons. -/
def Cond.and (c : Cond) (more : List Cond) : Cond :=
  match c with
  | .fieldc .like _ _ => ((newGroup lAND [c]).groupAND more).toCond
  | .fieldc .ilike _ _ => ((newGroup lAND [c]).groupAND more).toCond
  | .fieldc _ _ _ => andC c more
  | .null _ _ => ((newGroup lAND [c]).groupAND more).toCond
  | .custom _ _ => andC c more
  | .group b cs br => ((⟨b, cs, br⟩ : Group).groupAND more).toCond

/-- `nullValue.Or`, lib_isnull.go:70-72: `NewGroup(LogicalAND, nil)` is a call with one nil condition. -/
def nullOr (c : Cond) (more : List Cond) : Res Cond :=
  (newGroupI lAND [none]).bind fun g => .ok (((g.groupAND [c]).groupOR more).toCond)

/-- `Condition.Or`: `Or(impl, …)` for comparisons and IN (lib_equal.go:72-74, lib_gt.go:72-74, lib_gte.go:73-75,
lib_lt.go:76-78, lib_lte.go:77-79, lib_in.go:96-98), `NewGroup(OR, impl).Or(…)` for LIKE and ILIKE (lib_like.go:50-52,
lib_ilike.go:52-54), IS NULL: lib_isnull.go:70-72, groups: group.go:223-225. -/
def Cond.or (c : Cond) (more : List Cond) : Res Cond :=
  match c with
  | .fieldc .like _ _ => .ok ((newGroup lOR [c]).groupOR more).toCond
  | .fieldc .ilike _ _ => .ok ((newGroup lOR [c]).groupOR more).toCond
  | .fieldc _ _ _ => .ok (orC c more)
  | .null _ _ => nullOr c more
  | .custom _ _ => .ok (orC c more)
  | .group b cs br => .ok ((⟨b, cs, br⟩ : Group).groupOR more).toCond

/-! ## Constructors -/

/-- `EqualTo` lib_equal.go:77-82, `GreaterThan` lib_gt.go:77-82, `GreaterOrEqual` lib_gte.go:79-84, `Less`
lib_lt.go:81-86, `LessOrEqual` lib_lte.go:82-87, `In` lib_in.go:101-106. -/
def mkField (k : Kind) (fn : Str) (v : Val) : Res Cond :=
  (newFieldValue fn v).bind fun fv => .ok (.fieldc k (newBase lAND false) fv)

/-- `EqualTo`, lib_equal.go:77-82. -/
def equalTo (fn : Str) (v : Val) : Res Cond := mkField .eq fn v
/-- `GreaterThan`, lib_gt.go:77-82. -/
def greaterThan (fn : Str) (v : Val) : Res Cond := mkField .gt fn v
/-- `GreaterOrEqual`, lib_gte.go:79-84. -/
def greaterOrEqual (fn : Str) (v : Val) : Res Cond := mkField .gte fn v
/-- `Less`, lib_lt.go:81-86. -/
def less (fn : Str) (v : Val) : Res Cond := mkField .lt fn v
/-- `LessOrEqual`, lib_lte.go:82-87. -/
def lessOrEqual (fn : Str) (v : Val) : Res Cond := mkField .lte fn v
/-- `In`, lib_in.go:101-106. -/
def inC (fn : Str) (v : Val) : Res Cond := mkField .inn fn v
/-- `Contains`, lib_like.go:87-92 (the value is a string). -/
def contains (fn : Str) (s : Str) : Res Cond := mkField .like fn (.str s)
/-- `IContains`, lib_ilike.go:90-95 (the value is a string). -/
def iContains (fn : Str) (s : Str) : Res Cond := mkField .ilike fn (.str s)
/-- `IsNull`, lib_isnull.go:75-80. -/
def isNull (fn : Str) : Res Cond := (field fn).bind fun fd => .ok (.null (newBase lAND false) fd)

/-! ## WHERE clauses -/

/-- `WhereClause`, where.go:4-6. -/
structure WhereClause where
  group : Group

namespace WhereClause

/-- `WhereClause.GroupAND`, where.go:13-17. -/
def groupAND (w : WhereClause) (cs : List Cond) : WhereClause := ⟨w.group.groupAND cs⟩

/-- `WhereClause.GroupOR`, where.go:24-28. -/
def groupOR (w : WhereClause) (cs : List Cond) : WhereClause := ⟨w.group.groupOR cs⟩

/-- `WhereClause.ApplyFieldSpec`, where.go:32-36. -/
def applyFieldSpec (w : WhereClause) (spec : FieldDef) : WhereClause :=
  ⟨{ w.group with conds := Cond.applyFieldSpecL w.group.conds spec }⟩

/-- `WhereClause.Conditions`, where.go:39-44. -/
def conditions (w : WhereClause) : List Cond := w.group.conds

/-- `WhereClause.Render`, where.go:50-52. -/
def render (w : WhereClause) (n : Nat) : Res Str := w.group.render n

/-- `WhereClause.RenderSQL`, where.go:57-59. -/
def renderSQL (w : WhereClause) : Res Str := w.group.renderSQL

/-- `WhereClause.Values`, where.go:62-64. -/
def values (w : WhereClause) : Res (List Val) := w.group.values

/-- `WhereClause.String`, where.go:67-69. -/
def string (w : WhereClause) : Res Str := w.renderSQL.bind fun s => .ok (c!"Where(" ++ s ++ c!")")

end WhereClause

/-- `NewWhere`, where.go:72-74. -/
def newWhere : WhereClause := ⟨newGroup lAND []⟩

end Query
