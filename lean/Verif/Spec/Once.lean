import Verif.Spec.Reading
/-!
# Values used once

Specification for C75: histories in which no value is used by two calls, neither as the value a call is made on nor as an argument.
Conditions on a field hold no list of conditions and may be used as often as one likes.
-/
namespace Query

/-- The numbers of the values a call uses: the value it is made on, and its arguments. -/
def Call.operands : Call → List Nat
  | .leaf _ | .selectFrom _ | .insertInto _ | .update _ | .delete _ => []
  | .newGroup _ args => args
  | .andF r args | .orF r args | .and r args | .or r args | .where_ r args => r :: args
  | .negate r _ | .join r _ | .withBrackets r | .applySpec r _ | .applyTable r _ => [r]
  | .fields r _ | .joinTable r _ _ | .on r _ _ | .single r | .many r | .embedded r => [r]
  | .offset r _ | .limit r _ | .orderBy r _ | .count r _ => [r]
  | .insertFrom r _ | .values r _ | .updateFrom r _ | .set r _ | .deleteFrom r => [r]

/-- The value with this number is a condition on a field as its constructor made it. -/
def madeAsLeaf (cs : List Call) (i : Nat) : Bool :=
  match cs[i]? with
  | some (.leaf _) => true
  | _ => false

/-- The values used by some call, conditions on fields left out. -/
def usedIn (cs : List Call) : List Nat := (cs.flatMap Call.operands).filter fun i => !madeAsLeaf cs i

/-- No value is used twice. -/
def UsedOnce (cs : List Call) : Prop := (usedIn cs).Nodup

end Query
