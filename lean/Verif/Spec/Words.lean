import Verif.Base.Str
/-!
# Words of a text, independently of `strings.Fields`
-/
namespace Query

/-- Only white space. -/
def AllSpace (s : Str) : Prop := ∀ c ∈ s, isSpace c = true
/-- No white space. -/
def NoSpace (s : Str) : Prop := ∀ c ∈ s, isSpace c = false
/-- The text is empty or begins with white space. -/
def AtGap (s : Str) : Prop := ∀ c ∈ s.head?, isSpace c = true

/-- `Words s ws`: the text consists of the words `ws` (non-empty, without white space) with white space between any two of
them and possibly around them. -/
inductive Words : Str → List Str → Prop
  | nil {s} : AllSpace s → Words s []
  | cons {gap w rest ws} : AllSpace gap → w ≠ [] → NoSpace w → AtGap rest → Words rest ws →
      Words (gap ++ (w ++ rest)) (w :: ws)

/-- The word `AS` in any case: the spellings whose upper case is `AS` (two of them with the long s, U+017F). -/
def IsAs (w : Str) : Prop := w ∈ [c!"AS", c!"As", c!"aS", c!"as", c!"Aſ", c!"aſ"]

/-- A word that reads as a field name, or as table and field name separated by a dot. -/
def Qualified (w table name : Str) : Prop :=
  name ≠ [] ∧ '.' ∉ name ∧ ((table = [] ∧ w = name) ∨ (table ≠ [] ∧ '.' ∉ table ∧ w = table ++ '.' :: name))

end Query
