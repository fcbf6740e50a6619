import Verif.Spec.Nested

/-!
# How long a text may be

Counting what a program wrote: the tests, and the calls that combine conditions.
-/

namespace Query

mutual
/-- The number of groups in a condition. -/
def Cond.groups : Cond → Nat
  | .group _ cs _ => Cond.groupsL cs + 1
  | _ => 0
/-- The number of groups in several conditions. -/
def Cond.groupsL : List Cond → Nat
  | [] => 0
  | c :: cs => c.groups + Cond.groupsL cs
end

/-- The room a test takes in a text whose numbers have at most `d` digits: column, operator with NOT and spaces, the join word before it, and
for every value a placeholder with its comma. -/
def Leaf.room (d : Nat) (l : Leaf) : Nat := l.col.length + 17 + d + (d + 2) * l.vals.length

/-- The room several tests take. -/
def roomOf (d : Nat) (ls : List Leaf) : Nat := (ls.map (Leaf.room d)).sum

namespace CondExp
mutual
/-- The number of calls that combine conditions. -/
def combines : CondExp → Nat
  | .test _ => 0
  | .not e => e.combines
  | .unnot e => e.combines
  | .fn _ e es => e.combines + combinesL es + 1
  | .method _ e es => e.combines + combinesL es + 1
  | .group _ es => combinesL es + 1
  | .joinAll _ es => combinesL es + 1
  | .join _ e => e.combines
  | .brackets e => e.combines
/-- The same for several expressions. -/
def combinesL : List CondExp → Nat
  | [] => 0
  | e :: es => e.combines + combinesL es
end
end CondExp

/-- The condition is one of the library, not a type of the program. -/
def LibraryNode : Cond → Prop
  | .custom _ _ => False
  | _ => True

end Query
