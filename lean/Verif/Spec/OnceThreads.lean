import Verif.Spec.Once
import Verif.Spec.Threads
/-!
# Goroutines that use values once

Specification for C75 in goroutines: some values are made first, then goroutines go on, and no value is used by two calls, whosever they are.
-/
namespace Query

/-- Each goroutine by itself uses no value twice, and no two use the same shared value; conditions on fields may be used by all. -/
structure OnceApart (cs : List Call) (prog : Nat → List Call) : Prop where
  once : ∀ t, UsedOnce (cs ++ prog t)
  shared : ∀ t u, t ≠ u → ∀ x < cs.length, madeAsLeaf cs x = false → x ∈ (prog t).flatMap Call.operands → x ∉ (prog u).flatMap Call.operands

end Query
