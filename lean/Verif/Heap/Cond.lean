import Verif.Heap.Store
/-!
# Conditions with shared arrays

The functions of group.go, logical.go, operations.go and lib_*.go as in `Verif/Model/Cond.lean`, with the slice of a group
in memory.
-/
namespace Query

/-- A condition value: the library's and users' conditions on fields hold no slice of conditions (`leaf`, never a group);
a group holds a slice header. -/
inductive HCond where
  | leaf (c : Cond)
  | group (b : CondBase) (s : Sl) (br : Bool)

/-- `Group`, group.go:4-8. -/
structure HGroup where
  base : CondBase
  s : Sl
  br : Bool

/-- A `Group` as a `Condition`. -/
def HGroup.toCond (g : HGroup) : HCond := .group g.base g.s g.br

namespace HCond

/-- The type assertion `condition.(Group)`. -/
def asGroup : HCond → Option HGroup
  | .group b s br => some ⟨b, s, br⟩
  | .leaf _ => none

/-- `Condition.JoinType`, base.go:24-26. -/
def joinType : HCond → Str
  | .leaf c => c.joinType
  | .group b _ _ => b.joinType

/-- `Condition.Join`, lib_*.go and group.go:17-20. -/
def join (j : Str) : HCond → HCond
  | .leaf c => .leaf (c.join j)
  | .group b s br => .group (b.join j) s br

/-- `Condition.Negate`, lib_*.go and group.go:23-26. -/
def setNegate (n : Bool) : HCond → HCond
  | .leaf c => .leaf (c.setNegate n)
  | .group b s br => .group (b.setNegate n) s br

end HCond

/-- `NewGroup` and `SetToAll`, group.go:35-44, logical.go:31-38: a new array of the length of the arguments. -/
def newGroupH (st : Store HCond) (j : Str) (cs : List HCond) : Store HCond × HGroup :=
  let r := st.make (cs.map (·.join j))
  (r.1, ⟨newBase lAND false, r.2, false⟩)

namespace HGroup

/-- `Group.WithBrackets`, group.go:11-14. -/
def withBrackets (g : HGroup) : HGroup := { g with br := true }

/-- `Group.hasAll`, group.go:164-175. -/
def hasAll (st : Store HCond) (g : HGroup) (j : Str) : Bool := ((st.read g.s).drop 1).all fun c => c.joinType == j

/-- `Group.hasOne`, group.go:179-190. -/
def hasOne (st : Store HCond) (g : HGroup) (j : Str) : Bool := ((st.read g.s).drop 1).any fun c => c.joinType == j

/-- `conditionsGroup.conditions = append(conditionsGroup.conditions, …)`. -/
def app (gr : Grow) (st : Store HCond) (g : HGroup) (xs : List HCond) : Store HCond × HGroup :=
  let r := st.append gr g.s xs
  (r.1, { g with s := r.2 })

/-- `conditionsGroup.conditions = []Condition{…}`. -/
def lit (st : Store HCond) (g : HGroup) (xs : List HCond) : Store HCond × HGroup :=
  let r := st.make xs
  (r.1, { g with s := r.2 })

/-- `Group.addGroup`, group.go:48-101. -/
def addGroup (gr : Grow) (st : Store HCond) (g another : HGroup) : Store HCond × HGroup :=
  let haveNone := g.s.len == 0
  let haveSingle := g.s.len == 1
  let havingOnlyAND := g.hasAll st lAND
  let havingOnlyOR := g.hasAll st lOR
  let havingAnyAND := g.hasOne st lAND
  let havingAnyOR := g.hasOne st lOR
  let addingOnlyAnd := another.hasAll st lAND
  let addingAnyAnd := another.hasOne st lAND
  let addingOnlyOR := another.hasAll st lOR
  let addingAnyOR := another.hasOne st lOR
  let op := another.base.joinType
  if haveNone then (st, { g with s := another.s, base := { g.base with joinType := op } })
  else if haveSingle && op == lAND && addingOnlyAnd then g.app gr st (st.read another.s)
  else if haveSingle && op == lOR && addingOnlyOR then g.app gr st (st.read another.s)
  else if haveSingle then g.app gr st [another.withBrackets.toCond.join op]
  else if havingOnlyOR && op == lOR && addingOnlyOR then g.app gr st (st.read another.s)
  else if havingOnlyOR && op == lOR && addingAnyAnd then g.app gr st [another.withBrackets.toCond]
  else if havingAnyOR && op == lAND && addingAnyAnd then
    let r := g.lit st [g.withBrackets.toCond]
    r.2.app gr r.1 (st.read another.s)
  else if havingOnlyAND && op == lAND && addingOnlyAnd then g.app gr st (st.read another.s)
  else if havingOnlyAND && op == lAND && addingAnyOR then g.app gr st [another.withBrackets.toCond]
  else if havingAnyAND && op == lOR && addingOnlyOR then
    let r := g.lit st [g.withBrackets.toCond]
    r.2.app gr r.1 (st.read another.s)
  else g.lit st [g.withBrackets.toCond, another.withBrackets.toCond.join op]

/-- `Group.addSingleCondition`, group.go:105-131. -/
def addSingleCondition (gr : Grow) (st : Store HCond) (g : HGroup) (c : HCond) : Store HCond × HGroup :=
  let haveNone := g.s.len == 0
  let haveSingle := g.s.len == 1
  let haveMany := g.s.len > 1
  let havingOnlyAND := g.hasAll st lAND
  let havingOnlyOR := g.hasAll st lOR
  let op := c.joinType
  match c.asGroup with
  | some another => g.addGroup gr st another
  | none =>
    if haveNone then
      let r := g.app gr st [c]
      (r.1, { r.2 with base := { g.base with joinType := op } })
    else if haveSingle then g.app gr st [c.join op]
    else if haveMany && op == lAND && havingOnlyAND then g.app gr st [c.join op]
    else if haveMany && op == lOR && havingOnlyOR then g.app gr st [c.join op]
    else g.lit st [g.withBrackets.toCond, c.join op]

/-- `Group.addConditions`, group.go:135-160. -/
def addConditions (gr : Grow) (st : Store HCond) (g : HGroup) (op : Str) (cs : List HCond) : Store HCond × HGroup :=
  let havingAnyAND := g.hasOne st lAND
  let havingAnyOR := g.hasOne st lOR
  let haveConditions := g.s.len > 0
  match cs with
  | [] => (st, g)
  | c0 :: more =>
    if !haveConditions then
      let r := g.app gr st cs
      (r.1, { r.2 with base := { g.base with joinType := op } })
    else if more.length = 0 then g.addSingleCondition gr st (c0.join op)
    else if havingAnyOR && op == lAND then
      let r := g.lit st [g.withBrackets.toCond]
      r.2.app gr r.1 cs
    else if havingAnyAND && op == lOR then
      let n := newGroupH st op cs
      g.app gr n.1 [n.2.toCond.join op]
    else
      let n := newGroupH st lAND cs
      let r := g.lit n.1 [g.withBrackets.toCond]
      r.2.app gr r.1 [n.2.withBrackets.toCond]

/-- `Group.GroupAND` and `Group.And`, group.go:197-207. -/
def groupAND (gr : Grow) (st : Store HCond) (g : HGroup) (cs : List HCond) : Store HCond × HGroup :=
  g.addConditions gr st lAND cs

/-- `Group.GroupOR` and `Group.Or`, group.go:215-225. -/
def groupOR (gr : Grow) (st : Store HCond) (g : HGroup) (cs : List HCond) : Store HCond × HGroup :=
  g.addConditions gr st lOR cs

end HGroup

/-- `NewGroup(j, c)` and then adding: LIKE, ILIKE and IS NULL, lib_like.go:44-52, lib_ilike.go:46-54, lib_isnull.go:64-66;
also `And` and `Or` of a condition that is no group. -/
def groupOf (gr : Grow) (st : Store HCond) (j : Str) (c : HCond) (more : List HCond) : Store HCond × HCond :=
  let n := newGroupH st j [c]
  let r := n.2.addConditions gr n.1 j more
  (r.1, r.2.toCond)

/-- `And`, operations.go:10-25. -/
def andH (gr : Grow) (st : Store HCond) (c : HCond) (more : List HCond) : Store HCond × HCond :=
  if more.length = 0 then (st, c.join lAND)
  else
    match c.asGroup with
    | some g =>
      let r := g.groupAND gr st more
      (r.1, r.2.toCond)
    | none => groupOf gr st lAND c more

/-- `Or`, operations.go:29-44. -/
def orH (gr : Grow) (st : Store HCond) (c : HCond) (more : List HCond) : Store HCond × HCond :=
  if more.length = 0 then (st, c.join lOR)
  else
    match c.asGroup with
    | some g =>
      let r := g.groupOR gr st more
      (r.1, r.2.toCond.join lOR)
    | none =>
      let r := groupOf gr st lOR c more
      (r.1, r.2.join lOR)

/-- `Condition.And`, see `Cond.and`. -/
def HCond.and (gr : Grow) (st : Store HCond) (c : HCond) (more : List HCond) : Store HCond × HCond :=
  match c with
  | .leaf (.fieldc .like _ _) => groupOf gr st lAND c more
  | .leaf (.fieldc .ilike _ _) => groupOf gr st lAND c more
  | .leaf (.null _ _) => groupOf gr st lAND c more
  | .leaf _ => andH gr st c more
  | .group b s br =>
    let r := (HGroup.mk b s br).groupAND gr st more
    (r.1, r.2.toCond)

/-- `Condition.Or`, see `Cond.or`; IS NULL panics (lib_isnull.go:70-72). -/
def HCond.or (gr : Grow) (st : Store HCond) (c : HCond) (more : List HCond) : Res (Store HCond × HCond) :=
  match c with
  | .leaf (.fieldc .like _ _) => .ok (groupOf gr st lOR c more)
  | .leaf (.fieldc .ilike _ _) => .ok (groupOf gr st lOR c more)
  | .leaf (.null _ _) => .panic .nilDeref
  | .leaf _ => .ok (orH gr st c more)
  | .group b s br =>
    let r := (HGroup.mk b s br).groupOR gr st more
    .ok (r.1, r.2.toCond)

/-- The loops of `Group.ApplyFieldSpec` and `Group.ApplyFieldTable`, group.go:310-312 and 320-322: every element of the slice
is replaced in place, one after another. -/
def applyLoop (s : Sl) (f : Store HCond → HCond → Option (Store HCond × HCond)) : List Nat → Store HCond → Option (Store HCond)
  | [], st => some st
  | i :: is, st =>
    match (st.cells s.arr)[i]? with
    | none => none
    | some c => (f st c).bind fun r => applyLoop s f is (r.1.write s i r.2)

/-- `Condition.ApplyFieldSpec` with the writes of group.go:309-315.  The first argument bounds the depth of groups in groups;
`none` when it is too small. -/
def applySpecH : Nat → Store HCond → FieldDef → HCond → Option (Store HCond × HCond)
  | _, st, spec, .leaf c => some (st, .leaf (c.applyFieldSpec spec))
  | 0, _, _, .group _ _ _ => none
  | depth + 1, st, spec, .group b s br =>
    (applyLoop s (fun st c => applySpecH depth st spec c) (List.range s.len) st).map fun st => (st, .group b s br)

/-- `Condition.ApplyFieldTable` with the writes of group.go:319-325; the bound as above. -/
def applyTableH : Nat → Store HCond → Str → HCond → Option (Store HCond × HCond)
  | _, st, t, .leaf c => some (st, .leaf (c.applyFieldTable t))
  | 0, _, _, .group _ _ _ => none
  | depth + 1, st, t, .group b s br =>
    (applyLoop s (fun st c => applyTableH depth st t c) (List.range s.len) st).map fun st => (st, .group b s br)

end Query
