import Verif.Spec.Program
/-!
# Conditions built by any nesting of calls

An expression of the condition API: tests, `Not`, `And` and `Or` as functions and as methods, `NewGroup`, `WithBrackets`, `Join` and
`Negate(false)`, nested in any way.  For each expression: the library calls (`call`), what it should say (`means`: And is conjunction,
Or is disjunction, Not is negation), and what its text says (`made`), computed from the rules by which texts are put side by side or
in brackets, without trees and without the library.
-/
namespace Query

/-- An expression of the condition API; `o` is OR (`true`) or AND (`false`). -/
inductive CondExp where
  /-- `EqualTo("c", v)` and so on -/
  | test (t : Test)
  /-- `Not(e)` -/
  | not (e : CondExp)
  /-- `e.Negate(false)` -/
  | unnot (e : CondExp)
  /-- `And(e, es...)` or `Or(e, es...)` -/
  | fn (o : Bool) (e : CondExp) (es : List CondExp)
  /-- `e.And(es...)` or `e.Or(es...)` -/
  | method (o : Bool) (e : CondExp) (es : List CondExp)
  /-- `NewGroup(LogicalAND, es...)` -/
  | group (o : Bool) (es : List CondExp)
  /-- `LogicalAND.Join(es...)` -/
  | joinAll (o : Bool) (es : List CondExp)
  /-- `e.Join(LogicalAND)` -/
  | join (o : Bool) (e : CondExp)
  /-- `e.(Group).WithBrackets()`; a condition that is no group has no such method and is left as it is -/
  | brackets (e : CondExp)

/-- The constant of the library. -/
def wordOf (o : Bool) : Str := if o then lOR else lAND

namespace CondExp

mutual
/-- The library calls. -/
def call : CondExp → Res Cond
  | .test t => t.call
  | .not e => e.call.bind fun c => .ok (notC c)
  | .unnot e => e.call.bind fun c => .ok (c.setNegate false)
  | .fn o e es => e.call.bind fun c => (callL es).bind fun cs => .ok (if o then orC c cs else andC c cs)
  | .method o e es => e.call.bind fun c => (callL es).bind fun cs => if o then c.or cs else .ok (c.and cs)
  | .group o es => (callL es).bind fun cs => .ok (newGroup (wordOf o) cs).toCond
  | .joinAll o es => (callL es).bind fun cs => Query.joinAll (wordOf o) (cs.map some)
  | .join o e => e.call.bind fun c => .ok (c.join (wordOf o))
  | .brackets e => e.call.bind fun c => .ok (match c.asGroup with
    | some g => g.withBrackets.toCond
    | none => c)
/-- The library calls of the arguments, from left to right. -/
def callL : List CondExp → Res (List Cond)
  | [] => .ok []
  | e :: es => e.call.bind fun c => (callL es).bind fun cs => .ok (c :: cs)
end

mutual
/-- The tests, from left to right. -/
def tests : CondExp → List Test
  | .test t => [t]
  | .not e => e.tests
  | .unnot e => e.tests
  | .fn _ e es => e.tests ++ testsL es
  | .method _ e es => e.tests ++ testsL es
  | .group _ es => testsL es
  | .joinAll _ es => testsL es
  | .join _ e => e.tests
  | .brackets e => e.tests
/-- The tests of several expressions. -/
def testsL : List CondExp → List Test
  | [] => []
  | e :: es => e.tests ++ testsL es
end

mutual
/-- The tests are fine, and no group is empty. -/
def OK : CondExp → Prop
  | .test t => t.OK
  | .not e => e.OK
  | .unnot e => e.OK
  | .fn _ e es => e.OK ∧ OKL es
  | .method _ e es => e.OK ∧ OKL es
  | .group _ es => es ≠ [] ∧ OKL es
  | .joinAll _ es => es ≠ [] ∧ OKL es
  | .join _ e => e.OK
  | .brackets e => e.OK
/-- All are fine. -/
def OKL : List CondExp → Prop
  | [] => True
  | e :: es => e.OK ∧ OKL es
end

mutual
/-- What the expression should say of a row. -/
def means (row : Row) : CondExp → Tri
  | .test t => t.says row
  | .not e => (e.means row).not
  | .unnot e => e.means row
  | .fn o e es => if o then (e.means row).or (anyOf (meansL row es)) else (e.means row).and (allOf (meansL row es))
  | .method o e es => if o then (e.means row).or (anyOf (meansL row es)) else (e.means row).and (allOf (meansL row es))
  | .group o es => if o then anyOf (meansL row es) else allOf (meansL row es)
  | .joinAll o es => if o then anyOf (meansL row es) else allOf (meansL row es)
  | .join _ e => e.means row
  | .brackets e => e.means row
/-- What several expressions should say. -/
def meansL (row : Row) : List CondExp → List Tri
  | [] => []
  | e :: es => e.means row :: meansL row es
end

end CondExp

/-! ## What the text says -/

/-- Conditions side by side: their factors, the word of the first, no OR and no AND between them, and whether they are several. -/
structure Members where
  facs : List (Bool × Tri)
  first : Bool
  noOr : Bool
  noAnd : Bool
  many : Bool

/-- One condition. -/
def Members.one (o : Bool) (facs : List (Bool × Tri)) : Members := ⟨facs, o, true, true, false⟩

/-- Side by side. -/
def Members.then (p q : Members) : Members :=
  ⟨p.facs ++ q.facs, p.first, p.noOr && !q.first && q.noOr, p.noAnd && q.first && q.noAnd, true⟩

/-- A group: its members, the NOT before it, its word, its brackets. -/
structure MadeGroup where
  mem : Members
  neg : Bool
  word : Bool
  br : Bool

/-- How a test takes And and Or: comparisons and IN as the functions do; LIKE and ILIKE as a group of one; IS NULL as a group of one for And,
and it panics for Or. -/
inductive TestKind where
  | plain | like | null

/-- A condition: a test with its truth value on the row, its NOT and its word; or a group. -/
inductive Made where
  | test (k : TestKind) (x : Tri) (neg word : Bool)
  | group (g : MadeGroup)

/-- The kind of a test. -/
def Test.kind : Test → TestKind
  | .cmp _ _ _ _ => .plain
  | .isIn _ _ _ => .plain
  | .has _ _ => .like
  | .ihas _ _ => .like
  | .null _ => .null

/-- The group in brackets, as one condition. -/
def MadeGroup.box (g : MadeGroup) (o : Bool) : Members := .one o [(o, (joinTri g.mem.facs).notIf g.neg)]

namespace Made

/-- The word before the condition. -/
def word : Made → Bool
  | .test _ _ _ w => w
  | .group g => g.word

/-- The factors of the condition.  A group has brackets if it was given them, or if it is negated and has several members; otherwise its NOT
binds to its first factor. -/
def facs : Made → List (Bool × Tri)
  | .test _ x neg w => [(w, x.notIf neg)]
  | .group g =>
    if g.br || (g.neg && g.mem.many) then [(g.word, (joinTri g.mem.facs).notIf g.neg)]
    else ssetHead g.word (snegHead g.neg g.mem.facs)

/-- With another word. -/
def withWord (o : Bool) : Made → Made
  | .test k x neg _ => .test k x neg o
  | .group g => .group { g with word := o }

/-- With or without NOT. -/
def withNeg (n : Bool) : Made → Made
  | .test k x _ w => .test k x n w
  | .group g => .group { g with neg := n }

/-- Several conditions side by side, with their words. -/
def row : List Made → Members
  | [] => ⟨[], false, true, true, false⟩
  | [m] => .one m.word m.facs
  | m :: ms => (Members.one m.word m.facs).then (Made.row ms)

/-- A new group of conditions, all with the same word. -/
def newGroup (o : Bool) (ms : List Made) : MadeGroup := ⟨Made.row (ms.map (withWord o)), false, false, false⟩

end Made

/-- The members of a group after And: added to them, or to all of them in brackets if there was an OR; a group added comes without its
brackets and its NOT if it has no OR (among members without OR), or if it has an AND (after an OR); otherwise in brackets.  Several are
put in brackets of their own if there was no OR; otherwise side by side with the words they had. -/
def MadeGroup.addAnd (h : MadeGroup) : List Made → Members
  | [] => h.mem
  | [.test k x neg _] => (if h.mem.noOr then h.mem else h.box h.word).then (Made.row [.test k x neg false])
  | [.group a] =>
    if h.mem.noOr then h.mem.then (if a.mem.noOr then a.mem else a.box false)
    else (h.box h.word).then (if a.mem.noAnd then a.box false else a.mem)
  | ms => (h.box h.word).then (if h.mem.noOr then (Made.newGroup false ms).box false else Made.row ms)

/-- The members of a group after Or: added to them, or to all of them in brackets if there was an AND; a group added comes without its
brackets and its NOT if it has no AND.  Several are joined by AND, in brackets, if there was no AND; otherwise by OR. -/
def MadeGroup.addOr (h : MadeGroup) : List Made → Members
  | [] => h.mem
  | [.test k x neg _] => (if h.mem.noAnd then h.mem else h.box h.word).then (Made.row [.test k x neg true])
  | [.group a] => (if h.mem.noAnd then h.mem else h.box h.word).then (if a.mem.noAnd then a.mem else a.box true)
  | ms =>
    if h.mem.noAnd then (h.box h.word).then ((Made.newGroup false ms).box false)
    else h.mem.then (Made.row [.group { Made.newGroup true ms with word := true }])

namespace Made

/-- The group that And and Or add to: a group itself, a test in a new group. -/
def recv (o : Bool) : Made → MadeGroup
  | .group g => g
  | m => Made.newGroup o [m]

/-- `And(m, ms...)` and `Or(m, ms...)`. -/
def fn (o : Bool) (m : Made) : List Made → Made
  | [] => m.withWord o
  | ms => if o then .group { m.recv o with mem := (m.recv o).addOr ms, word := true } else .group { m.recv o with mem := (m.recv o).addAnd ms }

/-- `m.And(ms...)` and `m.Or(ms...)`. -/
def method (o : Bool) (m : Made) (ms : List Made) : Option Made :=
  match m with
  | .test .plain _ _ _ => some (m.fn o ms)
  | .test .null _ _ _ => if o then none else some (.group { m.recv o with mem := (m.recv o).addAnd ms })
  | _ => some (.group { m.recv o with mem := if o then (m.recv o).addOr ms else (m.recv o).addAnd ms })

/-- In brackets, if it is a group. -/
def bracketed : Made → Made
  | .group g => .group { g with br := true }
  | m => m

/-- `LogicalAND.Join(ms...)`. -/
def joinAll (o : Bool) : List Made → Made
  | [m] => m.withWord o
  | ms => .group (Made.newGroup o ms)

end Made

namespace CondExp

mutual
/-- What the calls give, on a row; nothing if a call panics. -/
def made (row : Row) : CondExp → Option Made
  | .test t => some (.test t.kind (t.says row) false false)
  | .not e => (e.made row).map (Made.withNeg true)
  | .unnot e => (e.made row).map (Made.withNeg false)
  | .fn o e es => (e.made row).bind fun m => (madeL row es).map fun ms => m.fn o ms
  | .method o e es => (e.made row).bind fun m => (madeL row es).bind fun ms => m.method o ms
  | .group o es => (madeL row es).map fun ms => .group (Made.newGroup o ms)
  | .joinAll o es => (madeL row es).map fun ms => Made.joinAll o ms
  | .join o e => (e.made row).map (Made.withWord o)
  | .brackets e => (e.made row).map Made.bracketed
/-- What the calls of the arguments give. -/
def madeL (row : Row) : List CondExp → Option (List Made)
  | [] => some []
  | e :: es => (e.made row).bind fun m => (madeL row es).map fun ms => m :: ms
end

/-- The truth value of the text; nothing if a call panics. -/
def says (row : Row) (e : CondExp) : Option Tri := (e.made row).map fun m => joinTri m.facs

end CondExp

/-! ## Calls that say what they should -/

/-- No OR after the first factor. -/
def noOrIn (facs : List (Bool × Tri)) : Bool := (facs.drop 1).all fun p => !p.1

/-- And with these arguments is conjunction: the group is not negated; it has an OR between its members, or none anywhere; the argument is
a test, or a conjunction that is not negated and begins with AND, or several members joined by OR, or has an OR while the group has none;
several arguments have no OR, and begin with AND if the group has an OR. -/
def MadeGroup.takesAnd (h : MadeGroup) : List Made → Bool
  | [] => true
  | [.test _ _ _ _] => !h.neg && (!h.mem.noOr || noOrIn h.mem.facs)
  | [.group a] => !h.neg && (!h.mem.noOr || noOrIn h.mem.facs) &&
    ((!a.neg && !a.mem.first && noOrIn a.mem.facs && a.mem.noOr) || (a.mem.many && a.mem.noAnd) || (!a.mem.noOr && h.mem.noOr))
  | ms => !h.neg && ms.all fun m => noOrIn m.facs && (h.mem.noOr || !m.word)

/-- Or with these arguments is disjunction: the group is not negated; the argument is a test, or has an AND between its members, or is not
negated and begins with OR; several arguments only if the group has an AND between its members. -/
def MadeGroup.takesOr (h : MadeGroup) : List Made → Bool
  | [] => true
  | [.test _ _ _ _] => !h.neg
  | [.group a] => !h.neg && (!a.mem.noAnd || (!a.neg && a.mem.first))
  | _ => !h.neg && !h.mem.noAnd

namespace Made

/-- There is a NOT. -/
def neg : Made → Bool
  | .test _ _ n _ => n
  | .group g => g.neg

/-- Not is negation: there is no NOT yet, and a group has brackets, or several members, or one factor. -/
def takesNot : Made → Bool
  | .test _ _ n _ => !n
  | .group g => !g.neg && (g.br || g.mem.many || g.mem.facs.length == 1)

/-- And or Or with these arguments is conjunction or disjunction. -/
def takes (o : Bool) (m : Made) (ms : List Made) : Bool := if o then (m.recv o).takesOr ms else (m.recv o).takesAnd ms

end Made

namespace CondExp

mutual
/-- Every call of the expression does what its name says.  This looks at join words, brackets and NOTs only, not at truth values. -/
def clear (row : Row) : CondExp → Bool
  | .test _ => true
  | .not e => e.clear row && match e.made row with
    | some m => m.takesNot
    | none => false
  | .unnot e => e.clear row && match e.made row with
    | some m => !m.neg
    | none => false
  | .fn o e es => e.clear row && clearL row es && match e.made row, madeL row es with
    | some m, some ms => m.takes o ms
    | _, _ => false
  | .method o e es => e.clear row && clearL row es && match e.made row, madeL row es with
    | some m, some ms => m.takes o ms && (m.method o ms).isSome
    | _, _ => false
  | .group o es => clearL row es && match madeL row es with
    | some ms => o || ms.all fun m => noOrIn m.facs
    | none => false
  | .joinAll o es => clearL row es && match madeL row es with
    | some ms => o || ms.length == 1 || ms.all fun m => noOrIn m.facs
    | none => false
  | .join _ e => e.clear row
  | .brackets e => e.clear row
/-- All of them. -/
def clearL (row : Row) : List CondExp → Bool
  | [] => true
  | e :: es => e.clear row && clearL row es
end

end CondExp

/-! ## WHERE clauses -/

/-- The conditions of a where clause after calls of `GroupAND` (`false`) and `GroupOR` (`true`): nothing before the first condition. -/
def clauseStep : Option MadeGroup → Bool × List Made → Option MadeGroup
  | s, (_, []) => s
  | none, (o, ms) => some ⟨Made.row ms, false, o, false⟩
  | some g, (false, ms) => some { g with mem := g.addAnd ms }
  | some g, (true, ms) => some { g with mem := g.addOr ms }

/-- What a new where clause says after calls of `GroupAND` and `GroupOR`: `none` if it has no condition. -/
def clauseSays (calls : List (Bool × List Made)) : Option Tri := (calls.foldl clauseStep none).map fun g => joinTri g.mem.facs

/-- Calls of `GroupAND` (`false`) and `GroupOR` (`true`) on a where clause, with expressions. -/
def clauseCalls : WhereClause → List (Bool × List CondExp) → Res WhereClause
  | w, [] => .ok w
  | w, (o, es) :: cs => (CondExp.callL es).bind fun ds => clauseCalls (if o then w.groupOR ds else w.groupAND ds) cs

/-- The arguments of the calls; nothing if a call panics. -/
def clauseMade (row : Row) : List (Bool × List CondExp) → Option (List (Bool × List Made))
  | [] => some []
  | (o, es) :: cs => (CondExp.madeL row es).bind fun ms => (clauseMade row cs).map fun r => (o, ms) :: r

/-- What a where clause should say after a call: all of the conditions after `GroupAND`, any of them after `GroupOR`. -/
def clauseMeansStep (row : Row) : Option Tri → Bool × List CondExp → Option Tri
  | s, (_, []) => s
  | none, (o, es) => some (if o then anyOf (CondExp.meansL row es) else allOf (CondExp.meansL row es))
  | some x, (o, es) => some (if o then x.or (anyOf (CondExp.meansL row es)) else x.and (allOf (CondExp.meansL row es)))

/-- What a new where clause should say after calls: `none` if it has no condition. -/
def clauseMeans (row : Row) (calls : List (Bool × List CondExp)) : Option Tri := calls.foldl (clauseMeansStep row) none

/-- The first conditions of a where clause are put side by side with the words they have: one condition, or all with the word of the call
and, for AND, no OR inside. -/
def firstTakes (o : Bool) (ms : List Made) : Bool :=
  ms.length == 1 || (if o then (ms.drop 1).all (·.word) else ms.all (fun m => noOrIn m.facs) && (ms.drop 1).all fun m => !m.word)

/-- The conditions are taken as the name of the call says. -/
def clauseTakes : Option MadeGroup → Bool → List Made → Bool
  | _, _, [] => true
  | none, o, ms => firstTakes o ms
  | some g, o, ms => if o then g.takesOr ms else g.takesAnd ms

/-- Every call does what its name says. -/
def clauseClear (row : Row) : Option MadeGroup → List (Bool × List CondExp) → Bool
  | _, [] => true
  | s, (o, es) :: cs => CondExp.clearL row es && match CondExp.madeL row es with
    | some ms => clauseTakes s o ms && clauseClear row (clauseStep s (o, ms)) cs
    | none => false

end Query
