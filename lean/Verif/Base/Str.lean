/-!
# Strings and the Go library functions the code uses

A Go string is modelled as the list of its Unicode scalar values (`List Char`).  The code only concatenates strings,
compares them, looks for ASCII characters in them, splits them at white space or at `"."` and asks whether they are
empty; for valid UTF-8 these operations are the same on bytes and on scalar values.  Strings holding invalid UTF-8 are
not modelled.
-/
namespace Query

/-- A Go string. -/
abbrev Str := List Char

open Lean in
/-- `c!"abc"` is the list `['a', 'b', 'c']`: string literals that reduce by plain list computation. -/
macro:max "c!" s:str : term => do
  let cs := s.getString.toList
  let elems ← cs.mapM fun c => `($(Lean.Syntax.mkCharLit c))
  `(([$(elems.toArray),*] : List Char))

/-- `strings.Join(items, sep)`. -/
def joinWith (sep : Str) : List Str → Str
  | [] => []
  | [x] => x
  | x :: y :: rest => x ++ sep ++ joinWith sep (y :: rest)

/-- `strconv.Itoa` on a non-negative number: its decimal digits. -/
def itoa (n : Nat) : Str := Nat.toDigits 10 n

/-- `strconv.Itoa` on any integer. -/
def itoaInt : Int → Str
  | .ofNat n => itoa n
  | .negSucc n => '-' :: itoa (n + 1)

/-- `unicode.IsSpace`: the white space characters `strings.Fields` splits at. -/
def isSpace (c : Char) : Bool :=
  c == '\t' || c == '\n' || c == '\x0b' || c == '\x0c' || c == '\r' || c == ' '
  || c == '\u0085' || c == '\u00a0' || c == '\u1680'
  || (0x2000 ≤ c.toNat && c.toNat ≤ 0x200a)
  || c == '\u2028' || c == '\u2029' || c == '\u202f' || c == '\u205f' || c == '\u3000'

/-- Loop of `strings.Fields`: `cur` is the word being read. -/
def fieldsGo : Str → Str → List Str
  | cur, [] => if cur = [] then [] else [cur]
  | cur, c :: cs =>
    if isSpace c then
      if cur = [] then fieldsGo [] cs else cur :: fieldsGo [] cs
    else fieldsGo (cur ++ [c]) cs

/-- `strings.Fields(s)`: the maximal runs of non-space characters. -/
def fields (s : Str) : List Str := fieldsGo [] s

/-- Loop of `strings.Split` with a one-character separator. -/
def splitGo (sep : Char) : Str → Str → List Str
  | cur, [] => [cur]
  | cur, c :: cs => if c = sep then cur :: splitGo sep [] cs else splitGo sep (cur ++ [c]) cs

/-- `strings.Split(s, sep)` for a one-character separator. -/
def split (sep : Char) (s : Str) : List Str := splitGo sep [] s

/-- `strings.Contains(s, c)` for a one-character needle. -/
def hasChar (c : Char) (s : Str) : Bool := s.contains c

/-- `strings.Count(s, c)` for a one-character needle. -/
def countChar (c : Char) (s : Str) : Nat := s.count c

/-- `strings.HasSuffix(s, c)` for a one-character suffix. -/
def hasSuffixChar (c : Char) (s : Str) : Bool := s.getLast? == some c

/-- `strings.HasPrefix(s, c)` for a one-character prefix. -/
def hasPrefixChar (c : Char) (s : Str) : Bool := s.head? == some c

/-- `unicode.ToUpper`, exact for every character whose upper case is an ASCII character (ASCII letters, `ſ` U+017F and
`ı` U+0131).  Other characters are left alone: their upper case is never ASCII, and the result is only ever compared
with `"AS"`. -/
def toUpperChar (c : Char) : Char :=
  if c.isLower then c.toUpper
  else if c = 'ſ' then 'S'
  else if c = 'ı' then 'I'
  else c

/-- `strings.ToUpper`, see `toUpperChar`. -/
def toUpper (s : Str) : Str := s.map toUpperChar

end Query
