import Verif.Base.Str
/-!
# Reading placeholders in SQL text

Independent of the model: what a driver sees in the text.
-/
namespace Query

/-- The placeholders `$<number>` of a text from left to right (a lone `$` counts as `$0`). -/
def dollars : Str → List Nat
  | [] => []
  | c :: cs => if c = '$' then Nat.ofDigitChars 10 (cs.takeWhile Char.isDigit) 0 :: dollars cs else dollars cs

/-- Number of `?` placeholders. -/
def qmarks (s : Str) : Nat := s.count '?'

/-- The text with every `$<digits>` replaced by `?`; `skip` says that a placeholder's digits are being dropped. -/
def toQGo : Bool → Str → Str
  | _, [] => []
  | skip, c :: cs =>
    if c = '$' then '?' :: toQGo true cs
    else if skip && c.isDigit then toQGo true cs
    else c :: toQGo false cs

/-- The text with every `$<digits>` replaced by `?`. -/
def toQ (s : Str) : Str := toQGo false s

/-- The numbers `k+1, k+2, …, k+n`. -/
def numbersFrom (k n : Nat) : List Nat := List.range' (k + 1) n

end Query
