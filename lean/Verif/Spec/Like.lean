import Verif.Base.Str
/-!
# SQL LIKE

`%` matches any text, `_` any one character, `\` takes the next character literally (the default escape of PostgreSQL
and MySQL), everything else matches itself.
-/
namespace Query

/-- The characters LIKE treats specially. -/
def isWild (c : Char) : Prop := c = '%' ∨ c = '_' ∨ c = '\\'

/-- `Like p s`: the pattern `p` matches the whole text `s`. -/
inductive Like : Str → Str → Prop
  | nil : Like [] []
  | any {p s t} : Like p t → Like ('%' :: p) (s ++ t)
  | one {p c s} : Like p s → Like ('_' :: p) (c :: s)
  | esc {p c s} : Like p s → Like ('\\' :: c :: p) (c :: s)
  | lit {p c s} : ¬ isWild c → Like p s → Like (c :: p) (c :: s)

/-- ILIKE: matching after folding case, character by character. -/
def ILike (fold : Char → Char) (p s : Str) : Prop := Like (p.map fold) (s.map fold)

/-- A case folding leaves the special characters alone and makes no others special. -/
def IsFold (fold : Char → Char) : Prop := ∀ c, (isWild c → fold c = c) ∧ (isWild (fold c) → fold c = c)

end Query
