import Verif.Model.Value
/-!
# What the end of a many-row SELECT should look like
-/
namespace Query

/-- The limits in force: OFFSET if positive, then LIMIT if positive, each with its value. -/
def limitItems (offset : Nat) (limit : Int) : List (Str × Nat) :=
  (if offset > 0 then [(c!"OFFSET", offset)] else []) ++ (if limit > 0 then [(c!"LIMIT", limit.toNat)] else [])

/-- The limits as text, numbered after `n`. -/
def limitTexts (n : Nat) : List (Str × Nat) → List Str
  | [] => []
  | (kw, _) :: rest => (kw ++ c!" $" ++ itoa (n + 1)) :: limitTexts (n + 1) rest

/-- Each text preceded by a space. -/
def spaced (xs : List Str) : Str := (xs.map fun x => ' ' :: x).flatten

end Query
