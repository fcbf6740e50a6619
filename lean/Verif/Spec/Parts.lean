import Verif.Spec.Meaning
/-!
# The parts of a condition

The conditions on fields and the user-defined conditions a tree is made of, each with its negation, without join words and
brackets.
-/
namespace Query

mutual
/-- The parts of a condition, from left to right. -/
def Cond.parts : Cond → List Cond
  | .fieldc k b fv => [.fieldc k ⟨c!"AND", b.negate⟩ fv]
  | .null b fd => [.null ⟨c!"AND", b.negate⟩ fd]
  | .custom b x => [.custom ⟨c!"AND", b.negate⟩ x]
  | .group _ cs _ => Cond.partsL cs
/-- The parts of several conditions. -/
def Cond.partsL : List Cond → List Cond
  | [] => []
  | c :: cs => c.parts ++ Cond.partsL cs
end

end Query
