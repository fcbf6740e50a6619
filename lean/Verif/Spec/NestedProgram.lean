import Verif.Spec.Nested
/-!
# Programs with nested conditions

The programs of `Spec/Program.lean` with any expressions (`Spec/Nested.lean`) in their Where calls.
-/
namespace Query

/-- Tests as clauses.  Names, columns and parameters of a program depend on its tests alone. -/
def testClauses (ts : List Test) : List Clause := ts.map fun t => ⟨⟨false, t⟩, []⟩

/-- What the Where calls make on a row; nothing if a call panics. -/
def wheresMade (row : Row) (wheres : List (List CondExp)) : Option (List (Bool × List Made)) := clauseMade row (wheres.map fun es => (false, es))

/-- What the text of Where calls says of a row; without conditions it holds of all rows. -/
def wheresText (wheres : List (List CondExp)) (row : Row) : Tri := ((wheresMade row wheres).bind clauseSays).getD .t

/-- What Where calls should say of a row: all of the expressions. -/
def wheresMean (wheres : List (List CondExp)) (row : Row) : Tri := allOf (CondExp.meansL row wheres.flatten)

/-- Every call in the Where calls does what its name says. -/
def wheresClear (row : Row) (wheres : List (List CondExp)) : Bool := clauseClear row none (wheres.map fun es => (false, es))

/-- A row for looking at shapes. -/
def someRow : Row := ⟨fun _ _ _ => .t, fun _ _ => .t, fun _ _ => .t, fun _ => true⟩

/-- No call of the Where calls panics. -/
def wheresSound (wheres : List (List CondExp)) : Bool := (wheresMade someRow wheres).isSome

/-! ## SELECT -/

/-- A method call on a select of many rows: `Where` with expressions, or another call. -/
inductive NSCall where
  | addWhere (es : List CondExp)
  | other (c : SCall)

namespace NSCall

/-- The library call. -/
def run (q : SelectMany) : NSCall → Res SelectMany
  | .addWhere es => (CondExp.callL es).bind fun cs => .ok (q.addWhere cs)
  | .other c => c.run q

/-- The tests are fine, no group is empty; other calls as in `SCall.OK`. -/
def OK : NSCall → Prop
  | .addWhere es => CondExp.OKL es
  | .other c => c.OK ∧ c.where? = none

/-- The arguments of a `Where` call. -/
def where? : NSCall → Option (List CondExp)
  | .addWhere es => some es
  | .other _ => none

/-- The call with the tests as clauses. -/
def flat : NSCall → SCall
  | .addWhere es => .addWhere (testClauses (CondExp.testsL es))
  | .other c => c

/-- The calls one after another. -/
def runAll : SelectMany → List NSCall → Res SelectMany
  | q, [] => .ok q
  | q, c :: cs => (c.run q).bind fun q => runAll q cs

end NSCall

/-- `SelectManyFrom("t AS a")` and calls. -/
structure NSelectProg where
  table : TabRef
  calls : List NSCall

namespace NSelectProg

/-- What the library calls give. -/
def run (p : NSelectProg) : Res SelectMany := (selectManyFrom (.str p.table.text)).bind fun q => NSCall.runAll q p.calls

/-- The program with the tests as clauses: its names, SELECT list, joins, sort keys, window and parameters are those of the program. -/
def flat (p : NSelectProg) : SelectProg := ⟨p.table, p.calls.map NSCall.flat⟩

/-- The arguments of the Where calls. -/
def wheres (p : NSelectProg) : List (List CondExp) := p.calls.filterMap NSCall.where?

/-- The program is over identifiers, its values are as said, and no group is empty. -/
structure OK (p : NSelectProg) : Prop where
  table : p.table.OK
  calls : ∀ c ∈ p.calls, c.OK

end NSelectProg

/-! ## UPDATE, DELETE -/

/-- A method call on an update. -/
inductive NUCall where
  /-- `Set(…)` -/
  | set (l : List SetTo)
  /-- `Where(…)` -/
  | addWhere (es : List CondExp)

namespace NUCall

/-- The library call. -/
def run (q : UpdateB) : NUCall → Res UpdateB
  | .set l => (Res.mapL SetTo.call l).bind fun vs => .ok (q.set vs)
  | .addWhere es => (CondExp.callL es).bind fun cs => .ok (q.addWhere cs)

/-- The arguments of a `Where` call. -/
def where? : NUCall → Option (List CondExp)
  | .addWhere es => some es
  | .set _ => none

/-- The call with the tests as clauses. -/
def flat : NUCall → UCall
  | .addWhere es => .addWhere (testClauses (CondExp.testsL es))
  | .set l => .set l

/-- The calls one after another. -/
def runAll : UpdateB → List NUCall → Res UpdateB
  | q, [] => .ok q
  | q, c :: cs => (c.run q).bind fun q => runAll q cs

/-- The tests are fine, no group is empty; columns are identifiers with values. -/
def OK : NUCall → Prop
  | .addWhere es => CondExp.OKL es
  | .set l => ∀ s ∈ l, s.OK

end NUCall

/-- `Update("t")` and calls. -/
structure NUpdateProg where
  table : Str
  calls : List NUCall

namespace NUpdateProg

/-- What the library calls give. -/
def run (p : NUpdateProg) : Res UpdateB := NUCall.runAll (update (.str p.table)) p.calls

/-- The program with the tests as clauses. -/
def flat (p : NUpdateProg) : UpdateProg := ⟨p.table, p.calls.map NUCall.flat⟩

/-- The arguments of the Where calls. -/
def wheres (p : NUpdateProg) : List (List CondExp) := p.calls.filterMap NUCall.where?

/-- The program is over identifiers, sets at least one column and has at least one condition. -/
structure OK (p : NUpdateProg) : Prop where
  table : Ident p.table
  calls : ∀ c ∈ p.calls, c.OK
  some : p.flat.sets ≠ []
  where_ : p.wheres.flatten ≠ []

end NUpdateProg

/-- `Delete("t")` and calls `Where(…)`. -/
structure NDeleteProg where
  table : Str
  wheres : List (List CondExp)

namespace NDeleteProg

/-- Calls of `Where`. -/
def runAll : DeleteB → List (List CondExp) → Res DeleteB
  | q, [] => .ok q
  | q, c :: cs => (CondExp.callL c).bind fun ds => runAll (q.addWhere ds) cs

/-- What the library calls give. -/
def run (p : NDeleteProg) : Res DeleteB := runAll (delete (.str p.table)) p.wheres

/-- The program with the tests as clauses. -/
def flat (p : NDeleteProg) : DeleteProg := ⟨p.table, p.wheres.map fun es => testClauses (CondExp.testsL es)⟩

/-- The program is over identifiers and has at least one condition. -/
structure OK (p : NDeleteProg) : Prop where
  table : Ident p.table
  wheres : ∀ es ∈ p.wheres, CondExp.OKL es
  where_ : p.wheres.flatten ≠ []

end NDeleteProg

end Query
