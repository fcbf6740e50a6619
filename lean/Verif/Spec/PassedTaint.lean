import Verif.Spec.Taint
import Verif.Spec.Passed
/-!
# Which values of a program that passes lists may read wrong

As `Taint`, for programs that make lists, write into them, and pass them.  The call that a step makes is the call with the elements
written out that the lists hold then.  Only calls spoil; making a list and writing into one do not.
-/
namespace Query

/-- The last step of the program makes this call, when there are `n` values. -/
def CallAt (steps : List PStep) (p : PStep) (c : Call) (n : Nat) : Prop :=
  ∃ cs ps ls ls', spellOut [] [] steps = some (cs, ps, ls) ∧ p.spell ps ls = some (some c, ls') ∧ ps.length = n

/-- The value with this number may read wrong after the program. -/
inductive PassTaint (pol : Policy) : List PStep → Nat → Prop
  /-- A call spoils an earlier value. -/
  | spoilt {steps : List PStep} {p : PStep} {c : Call} {n : Nat} {s : Prog} {i : Nat} {x : HV} :
      runProg pol Prog.empty steps = some s → CallAt steps p c n → s.hs[i]? = some x → c.spoils s.mem s.hs x →
      PassTaint pol (steps ++ [p]) i
  /-- What may read wrong is not mended. -/
  | stays {steps : List PStep} {p : PStep} {i : Nat} : PassTaint pol steps i → PassTaint pol (steps ++ [p]) i
  /-- A value is made from one that may read wrong. -/
  | made {steps : List PStep} {p : PStep} {c : Call} {n i : Nat} : CallAt steps p c n → i ∈ c.operands → PassTaint pol steps i →
      PassTaint pol (steps ++ [p]) n
  /-- A value is made from one that the call spoils, as in `Taint.own`. -/
  | own {steps : List PStep} {p : PStep} {c : Call} {n : Nat} {s : Prog} {i : Nat} {x : HV} :
      runProg pol Prog.empty steps = some s → CallAt steps p c n → c.completes = none → c.applied = none → i ∈ c.operands →
      s.hs[i]? = some x → c.spoils s.mem s.hs x → PassTaint pol (steps ++ [p]) n

end Query
