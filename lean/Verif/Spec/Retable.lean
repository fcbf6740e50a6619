import Verif.Spec.KindProgram
/-!
# Conditions that are given their table or column afterwards

Expressions of the condition API that may call `ApplyFieldTable` and `ApplyFieldSpec` anywhere (interfaces.go:155-160), the condition that
is written with these columns at once, and what the expressions should say of a row, without the library.
-/
namespace Query

/-! ## Other columns -/

/-- The column of the same name in table `t`. -/
def ColRef.inTable (t : Str) (c : ColRef) : ColRef := ⟨some t, c.name⟩

/-- Column `d` in place of the columns of its name. -/
def ColRef.spec (d c : ColRef) : ColRef := if c.name = d.name then d else c

/-- The same test of another column. -/
def Test.recol (f : ColRef → ColRef) : Test → Test
  | .cmp o c v w => .cmp o (f c) v w
  | .isIn c v ws => .isIn (f c) v ws
  | .has c s => .has (f c) s
  | .ihas c s => .ihas (f c) s
  | .null c => .null (f c)

/-- The row as it is read when `f` says which column to look at. -/
def Row.recol (f : ColRef → ColRef) (row : Row) : Row where
  cmp op w v := row.cmp op (f (colRef w)).text v
  like w v := row.like (f (colRef w)).text v
  ilike w v := row.ilike (f (colRef w)).text v
  isNull w := row.isNull (f (colRef w)).text

mutual
/-- The same expression over other columns. -/
def CondExp.recol (f : ColRef → ColRef) : CondExp → CondExp
  | .test t => .test (t.recol f)
  | .not e => .not (e.recol f)
  | .unnot e => .unnot (e.recol f)
  | .fn o e es => .fn o (e.recol f) (CondExp.recolL f es)
  | .method o e es => .method o (e.recol f) (CondExp.recolL f es)
  | .group o es => .group o (CondExp.recolL f es)
  | .joinAll o es => .joinAll o (CondExp.recolL f es)
  | .join o e => .join o (e.recol f)
  | .brackets e => .brackets (e.recol f)
/-- The same expressions over other columns. -/
def CondExp.recolL (f : ColRef → ColRef) : List CondExp → List CondExp
  | [] => []
  | e :: es => e.recol f :: CondExp.recolL f es
end

/-! ## Expressions -/

/-- An expression of the condition API in which conditions are given a table or a column at any stage. -/
inductive ApExp where
  | test (t : Test)
  | not (e : ApExp)
  | unnot (e : ApExp)
  | fn (o : Bool) (e : ApExp) (es : List ApExp)
  | method (o : Bool) (e : ApExp) (es : List ApExp)
  | group (o : Bool) (es : List ApExp)
  | joinAll (o : Bool) (es : List ApExp)
  | join (o : Bool) (e : ApExp)
  | brackets (e : ApExp)
  /-- `e.ApplyFieldTable("t")` -/
  | table (t : Str) (e : ApExp)
  /-- `e.ApplyFieldSpec(Field("t.c"))` -/
  | spec (c : ColRef) (e : ApExp)

namespace ApExp

mutual
/-- The library calls. -/
def call : ApExp → Res Cond
  | .test t => t.call
  | .not e => e.call.bind fun c => .ok (notC c)
  | .unnot e => e.call.bind fun c => .ok (c.setNegate false)
  | .fn o e es => e.call.bind fun c => (callL es).bind fun cs => .ok (if o then orC c cs else andC c cs)
  | .method o e es => e.call.bind fun c => (callL es).bind fun cs => if o then c.or cs else .ok (c.and cs)
  | .group o es => (callL es).bind fun cs => .ok (newGroup (wordOf o) cs).toCond
  | .joinAll o es => (callL es).bind fun cs => Query.joinAll (wordOf o) (cs.map some)
  | .join o e => e.call.bind fun c => .ok (c.join (wordOf o))
  | .brackets e => e.call.bind fun c => .ok (match c.asGroup with
    | some g => g.withBrackets.toCond
    | none => c)
  | .table t e => e.call.bind fun c => .ok (c.applyFieldTable t)
  | .spec d e => e.call.bind fun c => (field d.text).bind fun fd => .ok (c.applyFieldSpec fd)
/-- The library calls of the arguments, from left to right. -/
def callL : List ApExp → Res (List Cond)
  | [] => .ok []
  | e :: es => e.call.bind fun c => (callL es).bind fun cs => .ok (c :: cs)
end

mutual
/-- The tests are fine, no group is empty, the tables and columns are identifiers. -/
def OK : ApExp → Prop
  | .test t => t.OK
  | .not e => e.OK
  | .unnot e => e.OK
  | .fn _ e es => e.OK ∧ OKL es
  | .method _ e es => e.OK ∧ OKL es
  | .group _ es => es ≠ [] ∧ OKL es
  | .joinAll _ es => es ≠ [] ∧ OKL es
  | .join _ e => e.OK
  | .brackets e => e.OK
  | .table t e => Ident t ∧ e.OK
  | .spec d e => d.OK ∧ e.OK
/-- All are fine. -/
def OKL : List ApExp → Prop
  | [] => True
  | e :: es => e.OK ∧ OKL es
end

mutual
/-- What the expression should say of a row: given table `t`, what it said of the columns, of the columns of `t`. -/
def means (row : Row) : ApExp → Tri
  | .test t => t.says row
  | .not e => (e.means row).not
  | .unnot e => e.means row
  | .fn o e es => if o then (e.means row).or (anyOf (meansL row es)) else (e.means row).and (allOf (meansL row es))
  | .method o e es => if o then (e.means row).or (anyOf (meansL row es)) else (e.means row).and (allOf (meansL row es))
  | .group o es => if o then anyOf (meansL row es) else allOf (meansL row es)
  | .joinAll o es => if o then anyOf (meansL row es) else allOf (meansL row es)
  | .join _ e => e.means row
  | .brackets e => e.means row
  | .table t e => e.means (row.recol (ColRef.inTable t))
  | .spec d e => e.means (row.recol d.spec)
/-- What several expressions should say. -/
def meansL (row : Row) : List ApExp → List Tri
  | [] => []
  | e :: es => e.means row :: meansL row es
end

mutual
/-- The expression written with the columns at once. -/
def plain : ApExp → CondExp
  | .test t => .test t
  | .not e => .not e.plain
  | .unnot e => .unnot e.plain
  | .fn o e es => .fn o e.plain (plainL es)
  | .method o e es => .method o e.plain (plainL es)
  | .group o es => .group o (plainL es)
  | .joinAll o es => .joinAll o (plainL es)
  | .join o e => .join o e.plain
  | .brackets e => .brackets e.plain
  | .table t e => e.plain.recol (ColRef.inTable t)
  | .spec d e => e.plain.recol d.spec
/-- The expressions written with the columns at once. -/
def plainL : List ApExp → List CondExp
  | [] => []
  | e :: es => e.plain :: plainL es
end

end ApExp

/-! ## Programs -/

/-- A call on a select: `Where` with such expressions, or any other. -/
inductive ApCall where
  | addWhere (es : List ApExp)
  | other (c : KCall)

namespace ApCall

/-- The library call. -/
def run : SelB → ApCall → Res SelB
  | q, .other c => c.run q
  | .base q, .addWhere es => (ApExp.callL es).bind fun cs => .ok (.base (q.addWhere cs))
  | .single q, .addWhere es => (ApExp.callL es).bind fun cs => .ok (.single (q.addWhere cs))
  | .many q, .addWhere es => (ApExp.callL es).bind fun cs => .ok (.many (q.addWhere cs))

/-- The calls one after another. -/
def runAll : SelB → List ApCall → Res SelB
  | q, [] => .ok q
  | q, c :: cs => (c.run q).bind fun q => runAll q cs

/-- The call with the conditions written at once. -/
def plain : ApCall → KCall
  | .addWhere es => .call (.addWhere (ApExp.plainL es))
  | .other c => c

/-- The names are identifiers. -/
def OK : ApCall → Prop
  | .addWhere es => ApExp.OKL es
  | .other c => c.OK

/-- What the conditions of the call should say of a row. -/
def means (row : Row) : ApCall → List Tri
  | .addWhere es => ApExp.meansL row es
  | .other (.call (.addWhere es)) => CondExp.meansL row es
  | .other _ => []

end ApCall

/-- A program on a select of any kind, with conditions given their table or column afterwards. -/
structure ApProg where
  start : SelKind
  table : TabRef
  calls : List ApCall

namespace ApProg

/-- The program with the conditions written at once. -/
def plain (p : ApProg) : KindProg := ⟨p.start, p.table, p.calls.map ApCall.plain⟩

/-- The library calls. -/
def run (p : ApProg) : Res SelB := (KindProg.mk p.start p.table []).first.bind fun q => ApCall.runAll q p.calls

/-- What the program asks of a row: all its conditions. -/
def means (row : Row) (p : ApProg) : Tri := allOf (p.calls.flatMap (ApCall.means row))

/-- The names are identifiers and the values as said; `Fields` is not called on a select of one row. -/
structure OK (p : ApProg) : Prop where
  table : p.table.OK
  calls : ∀ c ∈ p.calls, c.OK
  fields : KCall.noFields p.start (p.calls.map ApCall.plain)

end ApProg

end Query
