import Verif.Spec.Spoil
import Verif.Spec.Once
/-!
# Which values of a history may read wrong

Specification, for any history: a value may read wrong after it was spoilt, that is, after a call replaced something the value is read
from by something else; and a value made from one that may read wrong may read wrong too.
-/
namespace Query

/-- The value with this number may read wrong after the history. -/
inductive Taint (pol : Policy) : List Call → Nat → Prop
  /-- A call spoils an earlier value. -/
  | spoilt {cs : List Call} {c : Call} {m : Mem} {hs : List HV} {i : Nat} {x : HV} : runHeap pol Mem.empty [] cs = some (m, hs) →
      hs[i]? = some x → c.spoils m hs x → Taint pol (cs ++ [c]) i
  /-- What may read wrong is not mended. -/
  | stays {cs : List Call} {c : Call} {i : Nat} : Taint pol cs i → Taint pol (cs ++ [c]) i
  /-- A value is made from one that may read wrong. -/
  | made {cs : List Call} {c : Call} {i : Nat} : i ∈ c.operands → Taint pol cs i → Taint pol (cs ++ [c]) cs.length
  /-- A value is made from one that the call spoils; but `On` gives its receiver the condition, and `ApplyFieldSpec` and
  `ApplyFieldTable` change their receiver, as the result needs it. -/
  | own {cs : List Call} {c : Call} {m : Mem} {hs : List HV} {i : Nat} {x : HV} : runHeap pol Mem.empty [] cs = some (m, hs) →
      c.completes = none → c.applied = none → i ∈ c.operands → hs[i]? = some x → c.spoils m hs x → Taint pol (cs ++ [c]) cs.length

end Query
