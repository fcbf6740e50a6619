import Verif.Base.Res

/-! What the tests ask of a failing call. -/

namespace Query

/-- The call returned a non-nil error. -/
def isErr {α} : Res α → Bool
  | .err _ => true
  | _ => false

/-- The call panicked. -/
def isPanic {α} : Res α → Bool
  | .panic _ => true
  | _ => false

end Query
