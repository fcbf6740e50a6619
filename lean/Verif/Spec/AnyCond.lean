import Verif.Model.AnyCond
/-!
# What nil conditions and pointers to groups stand for

`hasNil`: a nil condition is somewhere in the condition.  `core`: the condition without pointers, as in `Model/Cond.lean`, when
there is no nil.  `TermX`: the expressions a program can write to combine conditions.
-/
namespace Query

mutual
/-- A nil condition at any depth. -/
def CondX.hasNil : CondX → Bool
  | .nil => true
  | .fieldc _ _ _ => false
  | .null _ _ => false
  | .custom _ _ => false
  | .group _ cs _ => CondX.hasNilL cs
  | .ptr _ cs _ => CondX.hasNilL cs
/-- A nil condition at any depth in a list. -/
def CondX.hasNilL : List CondX → Bool
  | [] => false
  | c :: cs => c.hasNil || CondX.hasNilL cs
end

mutual
/-- The condition with pointers followed; there is none when some condition is nil. -/
def CondX.core : CondX → Option Cond
  | .nil => none
  | .fieldc k b fv => some (.fieldc k b fv)
  | .null b fd => some (.null b fd)
  | .custom b x => some (.custom b x)
  | .group b cs br => (CondX.coreL cs).map fun ds => .group b ds br
  | .ptr b cs br => (CondX.coreL cs).map fun ds => .group b ds br
/-- The conditions with pointers followed. -/
def CondX.coreL : List CondX → Option (List Cond)
  | [] => some []
  | c :: cs => c.core.bind fun d => (CondX.coreL cs).map fun ds => d :: ds
end

/-- The group with pointers followed. -/
def GroupX.core (g : GroupX) : Option Group := (CondX.coreL g.conds).map fun ds => ⟨g.base, ds, g.brackets⟩

/-- The call returns a condition that stands for `d`. -/
def GivesX (r : Res CondX) (d : Cond) : Prop := ∃ c, r = .ok c ∧ c.core = some d

/-- The call returns a group that stands for `d`. -/
def GivesGX (r : Res GroupX) (d : Group) : Prop := ∃ g, r = .ok g ∧ g.core = some d

/-- The call panics. -/
def Panics {α : Type} (r : Res α) : Prop := ∃ p, r = .panic p

/-- Expressions that combine conditions: the functions `Not`, `And` and `Or`, the methods `And` and `Or`, `NewGroup`,
`JoinType.Join`, taking the address of a group, `ApplyFieldSpec` and `ApplyFieldTable`. -/
inductive TermX where
  | leaf (c : CondX)
  | notF (t : TermX)
  | andF (t : TermX) (ts : List TermX)
  | orF (t : TermX) (ts : List TermX)
  | andM (t : TermX) (ts : List TermX)
  | orM (t : TermX) (ts : List TermX)
  | newG (j : Str) (ts : List TermX)
  | joinJ (j : Str) (ts : List TermX)
  | addr (t : TermX)
  | spec (t : TermX) (fd : FieldDef)
  | table (t : TermX) (name : Str)

mutual
/-- The value of an expression; operands are evaluated from left to right. -/
def TermX.eval : TermX → Res CondX
  | .leaf c => .ok c
  | .notF t => t.eval.bind fun c => notX c
  | .andF t ts => t.eval.bind fun c => (TermX.evalL ts).bind fun cs => andX c cs
  | .orF t ts => t.eval.bind fun c => (TermX.evalL ts).bind fun cs => orX c cs
  | .andM t ts => t.eval.bind fun c => (TermX.evalL ts).bind fun cs => c.and cs
  | .orM t ts => t.eval.bind fun c => (TermX.evalL ts).bind fun cs => c.or cs
  | .newG j ts => (TermX.evalL ts).bind fun cs => (newGroupX j cs).bind fun g => .ok g.toCond
  | .joinJ j ts => (TermX.evalL ts).bind fun cs => joinAllX j cs
  | .addr t => t.eval.bind fun c =>
    match c.asGroup with
    | some g => .ok g.addr
    | none => .ok c
  | .spec t fd => t.eval.bind fun c => c.applyFieldSpec fd
  | .table t name => t.eval.bind fun c => c.applyFieldTable name
/-- The values of a list of expressions. -/
def TermX.evalL : List TermX → Res (List CondX)
  | [] => .ok []
  | t :: ts => t.eval.bind fun c => (TermX.evalL ts).bind fun cs => .ok (c :: cs)
end

mutual
/-- A nil condition somewhere in the expression. -/
def TermX.hasNil : TermX → Bool
  | .leaf c => c.hasNil
  | .notF t => t.hasNil
  | .andF t ts => t.hasNil || TermX.hasNilL ts
  | .orF t ts => t.hasNil || TermX.hasNilL ts
  | .andM t ts => t.hasNil || TermX.hasNilL ts
  | .orM t ts => t.hasNil || TermX.hasNilL ts
  | .newG _ ts => TermX.hasNilL ts
  | .joinJ _ ts => TermX.hasNilL ts
  | .addr t => t.hasNil
  | .spec t _ => t.hasNil
  | .table t _ => t.hasNil
/-- A nil condition somewhere in a list of expressions. -/
def TermX.hasNilL : List TermX → Bool
  | [] => false
  | t :: ts => t.hasNil || TermX.hasNilL ts
end

/-- The value of the expression is a pointer, when it stands for `d`. -/
def TermX.pointed : TermX → Cond → Bool
  | .leaf (.ptr _ _ _), _ => true
  | .addr _, d => d.asGroup.isSome
  | _, _ => false

mutual
/-- The expression with the groups themselves in place of pointers, except that a pointer as first argument of the functions `And` and
`Or`, with further arguments, stands for a group of one member. -/
def TermX.plain : TermX → Res Cond
  | .leaf c => match c.core with
    | some d => .ok d
    | none => .panic .nilDeref
  | .notF t => t.plain.bind fun d => .ok (notC d)
  | .andF t ts => t.plain.bind fun d => (TermX.plainL ts).bind fun ds =>
    .ok (andC (if t.pointed d && ds.length != 0 then (newGroup lAND [d]).toCond else d) ds)
  | .orF t ts => t.plain.bind fun d => (TermX.plainL ts).bind fun ds =>
    .ok (orC (if t.pointed d && ds.length != 0 then (newGroup lOR [d]).toCond else d) ds)
  | .andM t ts => t.plain.bind fun d => (TermX.plainL ts).bind fun ds => .ok (d.and ds)
  | .orM t ts => t.plain.bind fun d => (TermX.plainL ts).bind fun ds => d.or ds
  | .newG j ts => (TermX.plainL ts).bind fun ds => .ok (newGroup j ds).toCond
  | .joinJ j ts => (TermX.plainL ts).bind fun ds => joinAll j (ds.map some)
  | .addr t => t.plain
  | .spec t fd => t.plain.bind fun d => .ok (d.applyFieldSpec fd)
  | .table t name => t.plain.bind fun d => .ok (d.applyFieldTable name)
/-- The same for a list. -/
def TermX.plainL : List TermX → Res (List Cond)
  | [] => .ok []
  | t :: ts => t.plain.bind fun d => (TermX.plainL ts).bind fun ds => .ok (d :: ds)
end

/-- The where clause after a series of `Where` calls, with the groups themselves in place of pointers. -/
def TermX.wheresPlain (k : Group) : List (List TermX) → Res Group
  | [] => .ok k
  | ts :: rest => (TermX.plainL ts).bind fun ds => TermX.wheresPlain (k.groupAND ds) rest

/-- A result with pointers is the result without. -/
def SameX : Res CondX → Res Cond → Prop
  | r, .ok d => GivesX r d
  | r, .panic p => r = .panic p
  | _, .err _ => False

/-- A series of `Where` calls on a DELETE, with expressions as arguments. -/
def DeleteX.wheres (q : DeleteX) : List (List TermX) → Res DeleteX
  | [] => .ok q
  | ts :: rest => (TermX.evalL ts).bind fun cs => (q.addWhere cs).bind fun q => q.wheres rest

/-- A series of `Where` calls on an UPDATE. -/
def UpdateX.wheres (q : UpdateX) : List (List TermX) → Res UpdateX
  | [] => .ok q
  | ts :: rest => (TermX.evalL ts).bind fun cs => (q.addWhere cs).bind fun q => q.wheres rest

/-- A series of `Where` calls on a SELECT. -/
def SelectX.wheres (q : SelectX) : List (List TermX) → Res SelectX
  | [] => .ok q
  | ts :: rest => (TermX.evalL ts).bind fun cs => (q.addWhere cs).bind fun q => q.wheres rest

end Query
