import Verif.Spec.Program
/-!
# Boolean expressions over tests, to be written with the library

A wish is a boolean expression over tests of columns, nested in any way.  It has a text in SQL, `Wish.exp`, with placeholders
numbered from left to right; and it can be put to the library by calls, `Wish.call`.
-/
namespace Query

/-- A boolean expression over tests. -/
inductive Wish where
  | test (t : Test)
  | not (w : Wish)
  | and (a b : Wish)
  | or (a b : Wish)

/-- The test in SQL, its placeholders numbered from `k + 1`. -/
def Test.exp (k : Nat) : Test → BExp
  | .cmp op c _ _ => .atom (.cmp op.text c.text (k + 1))
  | .isIn c _ ws => .atom (.inn c.text (numbersFrom k ws.length))
  | .has c _ => .atom (.like c.text (k + 1))
  | .ihas c _ => .atom (.ilike c.text (k + 1))
  | .null c => .atom (.isNull c.text)

namespace Wish

/-- The parameters, from left to right. -/
def params : Wish → List Val
  | .test t => t.params
  | .not w => w.params
  | .and a b => a.params ++ b.params
  | .or a b => a.params ++ b.params

/-- The expression in SQL, its placeholders numbered from `k + 1`. -/
def exp : Wish → Nat → BExp
  | .test t, k => t.exp k
  | .not w, k => .not (w.exp k)
  | .and a b, k => .and (a.exp k) (b.exp (k + a.params.length))
  | .or a b, k => .or (a.exp k) (b.exp (k + a.params.length))

/-- Every test is over identifiers, its value stands for its parameters. -/
def OK : Wish → Prop
  | .test t => t.OK
  | .not w => w.OK
  | .and a b => a.OK ∧ b.OK
  | .or a b => a.OK ∧ b.OK

end Wish

/-- `NewGroup(LogicalAND, c).WithBrackets()`. -/
def inBrackets (c : Cond) : Cond := (newGroup lAND [c]).withBrackets.toCond

/-- The calls: the constructors for tests, `Not` of the operand in brackets, `NewGroup` of both operands in brackets. -/
def Wish.call : Wish → Res Cond
  | .test t => t.call
  | .not w => w.call.bind fun c => .ok (notC (inBrackets c))
  | .and a b => a.call.bind fun c => b.call.bind fun d => .ok (newGroup lAND [inBrackets c, inBrackets d]).toCond
  | .or a b => a.call.bind fun c => b.call.bind fun d => .ok (newGroup lOR [inBrackets c, inBrackets d]).toCond

/-- The text of a column over identifiers. -/
def ColText (w : Str) : Prop := ∃ c : ColRef, c.OK ∧ c.text = w

/-- An expression of SQL over what the library can test: columns over identifiers, the comparisons of the library, LIKE and ILIKE with a
text that begins and ends with `%`, IN with at least one value, IS NULL. -/
def BExp.Sayable (env : Nat → Val) : BExp → Prop
  | .atom (.cmp o w _) => o ∈ cmpOps ∧ ColText w
  | .atom (.like w n) => ColText w ∧ ∃ s, env n = .str (c!"%" ++ s ++ c!"%")
  | .atom (.ilike w n) => ColText w ∧ ∃ s, env n = .str (c!"%" ++ s ++ c!"%")
  | .atom (.inn w ns) => ColText w ∧ ns ≠ []
  | .atom (.isNull w) => ColText w
  | .not e => e.Sayable env
  | .and a b => a.Sayable env ∧ b.Sayable env
  | .or a b => a.Sayable env ∧ b.Sayable env

end Query
