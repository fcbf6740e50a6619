import Verif.Model.Value
/-!
# Reading SQL boolean expressions

A lexer, the grammar of boolean expressions (NOT binds tighter than AND, AND tighter than OR), their three-valued
meaning, and a deterministic reader.  Independent of how the library builds its text.
-/
namespace Query

/-! ## Tokens -/

/-- A token of SQL text. -/
inductive Tok where
  /-- a word: keyword, name, qualified name, number -/
  | word (s : Str)
  | lpar
  | rpar
  | comma
  /-- a comparison operator -/
  | op (s : Str)
  /-- a placeholder `$n` -/
  | dollar (n : Nat)
  /-- a character with another meaning in SQL: quotes, semicolon, minus, … -/
  | sym (c : Char)
  deriving DecidableEq, Repr

/-- The token being read. -/
inductive Pend where
  | none
  | word (s : Str)
  | op (s : Str)
  | num (n : Nat)
  deriving DecidableEq, Repr

/-- The token being read is finished. -/
def Pend.flush : Pend → List Tok
  | .none => []
  | .word s => [.word s]
  | .op s => [.op s]
  | .num n => [.dollar n]

/-- Characters of comparison operators. -/
def isOpChar (c : Char) : Bool := c == '=' || c == '<' || c == '>'

/-- ASCII characters that stand in no word: all but letters, digits, `_`, the dot of qualified names and the star. -/
def isSymChar (c : Char) : Bool := decide (c.toNat < 128) && !(c.isAlphanum || c == '_' || c == '.' || c == '*')

/-- The lexer reads one character: what it emits and what it goes on reading. -/
def lexChar (p : Pend) (c : Char) : List Tok × Pend :=
  if isSpace c then (p.flush, .none)
  else if c = '(' then (p.flush ++ [.lpar], .none)
  else if c = ')' then (p.flush ++ [.rpar], .none)
  else if c = ',' then (p.flush ++ [.comma], .none)
  else if c = '$' then (p.flush, .num 0)
  else if isOpChar c then
    match p with
    | .op s => ([], .op (s ++ [c]))
    | _ => (p.flush, .op [c])
  else if isSymChar c then (p.flush ++ [.sym c], .none)
  else
    match p with
    | .word s => ([], .word (s ++ [c]))
    | .num n => if c.isDigit then ([], .num (10 * n + (c.toNat - '0'.toNat))) else (p.flush, .word [c])
    | _ => (p.flush, .word [c])

/-- The lexer reads a text: what it emits and what it goes on reading. -/
def lexRun : Pend → Str → List Tok × Pend
  | p, [] => ([], p)
  | p, c :: cs =>
    let r := lexChar p c
    let r' := lexRun r.2 cs
    (r.1 ++ r'.1, r'.2)

/-- The tokens of a text. -/
def lex (s : Str) : List Tok := (lexRun .none s).1 ++ (lexRun .none s).2.flush

/-! ## Boolean expressions -/

/-- A condition on one column; parameters are given by placeholder number. -/
inductive Atom where
  | cmp (op col : Str) (n : Nat)
  | like (col : Str) (n : Nat)
  | ilike (col : Str) (n : Nat)
  | inn (col : Str) (ns : List Nat)
  | isNull (col : Str)
  deriving DecidableEq, Repr

/-- A boolean expression. -/
inductive BExp where
  | atom (a : Atom)
  | not (e : BExp)
  | and (a b : BExp)
  | or (a b : BExp)
  deriving DecidableEq, Repr

/-- Words that cannot be names: the words of PostgreSQL that are reserved for columns and tables, and those that begin a clause here. -/
def reserved : List Str :=
  [c!"SELECT", c!"FROM", c!"WHERE", c!"AND", c!"OR", c!"NOT", c!"IN", c!"LIKE", c!"ILIKE", c!"IS", c!"NULL", c!"AS",
   c!"ON", c!"INNER", c!"LEFT", c!"RIGHT", c!"FULL", c!"JOIN", c!"ORDER", c!"ASC", c!"DESC", c!"OFFSET",
   c!"LIMIT", c!"INSERT", c!"INTO", c!"VALUES", c!"UPDATE", c!"SET", c!"DELETE",
   c!"ALL", c!"ANALYSE", c!"ANALYZE", c!"ANY", c!"ARRAY", c!"ASYMMETRIC", c!"AUTHORIZATION", c!"BINARY", c!"BOTH", c!"CASE",
   c!"CAST", c!"CHECK", c!"COLLATE", c!"COLLATION", c!"COLUMN", c!"CONCURRENTLY", c!"CONSTRAINT", c!"CREATE", c!"CROSS",
   c!"CURRENT_CATALOG", c!"CURRENT_DATE", c!"CURRENT_ROLE", c!"CURRENT_SCHEMA", c!"CURRENT_TIME", c!"CURRENT_TIMESTAMP",
   c!"CURRENT_USER", c!"DEFAULT", c!"DEFERRABLE", c!"DISTINCT", c!"DO", c!"ELSE", c!"END", c!"EXCEPT", c!"FALSE", c!"FETCH",
   c!"FOR", c!"FOREIGN", c!"FREEZE", c!"GRANT", c!"GROUP", c!"HAVING", c!"INITIALLY", c!"INTERSECT", c!"ISNULL", c!"LATERAL",
   c!"LEADING", c!"LOCALTIME", c!"LOCALTIMESTAMP", c!"NATURAL", c!"NOTNULL", c!"ONLY", c!"OUTER", c!"OVERLAPS", c!"PLACING",
   c!"PRIMARY", c!"REFERENCES", c!"RETURNING", c!"SESSION_USER", c!"SIMILAR", c!"SOME", c!"SYMMETRIC", c!"SYSTEM_USER",
   c!"TABLE", c!"TABLESAMPLE", c!"THEN", c!"TO", c!"TRAILING", c!"TRUE", c!"UNION", c!"UNIQUE", c!"USER", c!"USING",
   c!"VARIADIC", c!"VERBOSE", c!"WHEN", c!"WINDOW", c!"WITH"]

/-- Parts with dots between them, none empty, none with a digit first or a star; `true`: at the beginning of a part. -/
def dotted : Bool → Str → Bool
  | true, [] => false
  | false, [] => true
  | true, c :: cs => !c.isDigit && c != '.' && c != '*' && dotted false cs
  | false, c :: cs => if c = '.' then dotted true cs else c != '*' && dotted false cs

/-- A name, perhaps qualified by the names before its dots; the first part is no keyword, in any case (`Char.toUpper` is for ASCII). -/
def isName (w : Str) : Bool := dotted true w && !reserved.contains ((w.takeWhile (· != '.')).map Char.toUpper)

/-- The comparison operators. -/
def cmpOps : List Str := [c!"=", c!"<", c!">", c!"<=", c!">="]

/-- `$n1 , $n2 , …`. -/
def listToks : List Nat → List Tok
  | [] => []
  | [n] => [.dollar n]
  | n :: m :: ns => .dollar n :: .comma :: listToks (m :: ns)

mutual
/-- Factors: conditions on one column, bracketed expressions, negations. -/
inductive IsF : List Tok → BExp → Prop
  | cmp {w o n} : isName w = true → o ∈ cmpOps → IsF [.word w, .op o, .dollar n] (.atom (.cmp o w n))
  | like {w n} : isName w = true → IsF [.word w, .word c!"LIKE", .dollar n] (.atom (.like w n))
  | notLike {w n} : isName w = true →
      IsF [.word w, .word c!"NOT", .word c!"LIKE", .dollar n] (.not (.atom (.like w n)))
  | ilike {w n} : isName w = true → IsF [.word w, .word c!"ILIKE", .dollar n] (.atom (.ilike w n))
  | notIlike {w n} : isName w = true →
      IsF [.word w, .word c!"NOT", .word c!"ILIKE", .dollar n] (.not (.atom (.ilike w n)))
  | inn {w ns} : isName w = true → ns ≠ [] →
      IsF (.word w :: .word c!"IN" :: .lpar :: (listToks ns ++ [.rpar])) (.atom (.inn w ns))
  | notInn {w ns} : isName w = true → ns ≠ [] →
      IsF (.word w :: .word c!"NOT" :: .word c!"IN" :: .lpar :: (listToks ns ++ [.rpar])) (.not (.atom (.inn w ns)))
  | isNull {w} : isName w = true → IsF [.word w, .word c!"IS", .word c!"NULL"] (.atom (.isNull w))
  | isNotNull {w} : isName w = true →
      IsF [.word w, .word c!"IS", .word c!"NOT", .word c!"NULL"] (.not (.atom (.isNull w)))
  | paren {ts e} : IsE ts e → IsF (.lpar :: (ts ++ [.rpar])) e
  | neg {ts e} : IsF ts e → IsF (.word c!"NOT" :: ts) (.not e)
/-- Terms: factors joined by AND. -/
inductive IsT : List Tok → BExp → Prop
  | one {ts e} : IsF ts e → IsT ts e
  | and {ts us a b} : IsT ts a → IsF us b → IsT (ts ++ .word c!"AND" :: us) (.and a b)
/-- Expressions: terms joined by OR. -/
inductive IsE : List Tok → BExp → Prop
  | one {ts e} : IsT ts e → IsE ts e
  | or {ts us a b} : IsE ts a → IsT us b → IsE (ts ++ .word c!"OR" :: us) (.or a b)
end

/-- The text reads as the boolean expression. -/
def Reads (s : Str) (e : BExp) : Prop := IsE (lex s) e

/-! ## Meaning -/

/-- The truth values of SQL. -/
inductive Tri where
  | t
  | f
  | u
  deriving DecidableEq, Repr

namespace Tri

/-- NOT -/
def not : Tri → Tri
  | t => f
  | f => t
  | u => u

/-- AND -/
def and : Tri → Tri → Tri
  | t, x => x
  | f, _ => f
  | u, f => f
  | u, _ => u

/-- OR -/
def or : Tri → Tri → Tri
  | f, x => x
  | t, _ => t
  | u, t => t
  | u, _ => u

/-- Truth value of a boolean -/
def ofBool : Bool → Tri
  | true => t
  | false => f

end Tri

/-- What a row of a database says about its columns: comparison with a value, LIKE, ILIKE, IS NULL.  Nothing is assumed
about them. -/
structure Row where
  cmp : Str → Str → Val → Tri
  like : Str → Val → Tri
  ilike : Str → Val → Tri
  isNull : Str → Bool

/-- Meaning of a condition on one column, with the values of the placeholders. -/
def Atom.eval (row : Row) (env : Nat → Val) : Atom → Tri
  | .cmp o w n => row.cmp o w (env n)
  | .like w n => row.like w (env n)
  | .ilike w n => row.ilike w (env n)
  | .inn w ns => (ns.map fun n => row.cmp c!"=" w (env n)).foldr Tri.or .f
  | .isNull w => Tri.ofBool (row.isNull w)

/-- Meaning of a boolean expression. -/
def BExp.eval (row : Row) (env : Nat → Val) : BExp → Tri
  | .atom a => a.eval row env
  | .not e => (e.eval row env).not
  | .and a b => (a.eval row env).and (b.eval row env)
  | .or a b => (a.eval row env).or (b.eval row env)

/-- The parameters as bound by a driver: placeholder `$(k+i)` takes the `i`-th value, counting from 1. -/
def bound (k : Nat) (vs : List Val) (j : Nat) : Val := (vs[j - k - 1]?).getD .nil

/-! ## The reader -/

/-- What has been read of one bracket level: the terms joined by OR, the factors joined by AND since, the NOTs since. -/
structure Frame where
  ors : Option BExp
  ands : Option BExp
  nots : Nat
  deriving DecidableEq, Repr

/-- Where the reader is. -/
inductive Mode where
  | operand
  | after
  | col (w : Str)
  | cmp (w o : Str)
  | colNot (w : Str)
  | like (w : Str) (neg ilike : Bool)
  | inOpen (w : Str) (neg : Bool)
  | inItem (w : Str) (neg : Bool) (acc : List Nat)
  | inSep (w : Str) (neg : Bool) (acc : List Nat)
  | isM (w : Str)
  | isNot (w : Str)
  deriving DecidableEq, Repr

/-- State of the reader: mode, current bracket level, enclosing levels. -/
structure RState where
  mode : Mode
  frame : Frame
  stack : List Frame
  deriving DecidableEq, Repr

/-- An empty level. -/
def Frame.empty : Frame := ⟨none, none, 0⟩

/-- Apply the pending NOTs. -/
def negTimes : Nat → BExp → BExp
  | 0, e => e
  | n + 1, e => .not (negTimes n e)

/-- A factor has been read. -/
def Frame.push (fr : Frame) (e : BExp) : Frame :=
  let e := negTimes fr.nots e
  { fr with ands := some (match fr.ands with | none => e | some a => .and a e), nots := 0 }

/-- The expression read on a level. -/
def Frame.close (fr : Frame) : Option BExp :=
  match fr.ands with
  | none => none
  | some a => some (match fr.ors with | none => a | some o => .or o a)

/-- Negate if asked. -/
def negIf (neg : Bool) (e : BExp) : BExp := if neg then .not e else e

/-- The reader reads a token; `none` is a syntax error. -/
def readTok (st : RState) (t : Tok) : Option RState :=
  let pushed (e : BExp) : Option RState := some ⟨.after, st.frame.push e, st.stack⟩
  let to (m : Mode) : Option RState := some ⟨m, st.frame, st.stack⟩
  match st.mode, t with
  | .operand, .lpar => some ⟨.operand, .empty, st.frame :: st.stack⟩
  | .operand, .word w =>
    if w = c!"NOT" then some ⟨.operand, { st.frame with nots := st.frame.nots + 1 }, st.stack⟩
    else if isName w then to (.col w)
    else none
  | .after, .word w =>
    if w = c!"AND" then to .operand
    else if w = c!"OR" then
      match st.frame.close with
      | some e => some ⟨.operand, ⟨some e, none, 0⟩, st.stack⟩
      | none => none
    else none
  | .after, .rpar =>
    match st.frame.close, st.stack with
    | some e, fr :: rest => some ⟨.after, fr.push e, rest⟩
    | _, _ => none
  | .col w, .op o => if o ∈ cmpOps then to (.cmp w o) else none
  | .col w, .word k =>
    if k = c!"NOT" then to (.colNot w)
    else if k = c!"LIKE" then to (.like w false false)
    else if k = c!"ILIKE" then to (.like w false true)
    else if k = c!"IN" then to (.inOpen w false)
    else if k = c!"IS" then to (.isM w)
    else none
  | .cmp w o, .dollar n => pushed (.atom (.cmp o w n))
  | .colNot w, .word k =>
    if k = c!"LIKE" then to (.like w true false)
    else if k = c!"ILIKE" then to (.like w true true)
    else if k = c!"IN" then to (.inOpen w true)
    else none
  | .like w neg false, .dollar n => pushed (negIf neg (.atom (.like w n)))
  | .like w neg true, .dollar n => pushed (negIf neg (.atom (.ilike w n)))
  | .inOpen w neg, .lpar => to (.inItem w neg [])
  | .inItem w neg acc, .dollar n => to (.inSep w neg (acc ++ [n]))
  | .inSep w neg acc, .comma => to (.inItem w neg acc)
  | .inSep w neg acc, .rpar => pushed (negIf neg (.atom (.inn w acc)))
  | .isM w, .word k =>
    if k = c!"NULL" then pushed (.atom (.isNull w))
    else if k = c!"NOT" then to (.isNot w)
    else none
  | .isNot w, .word k => if k = c!"NULL" then pushed (.not (.atom (.isNull w))) else none
  | _, _ => none

/-- The reader reads tokens. -/
def readToks : RState → List Tok → Option RState
  | st, [] => some st
  | st, t :: ts =>
    match readTok st t with
    | some st' => readToks st' ts
    | none => none

/-- The reader at the end of the input. -/
def RState.finish (st : RState) : Option BExp :=
  match st.mode, st.stack with
  | .after, [] => st.frame.close
  | _, _ => none

/-- The boolean expression a token list reads as. -/
def readBool (ts : List Tok) : Option BExp :=
  match readToks ⟨.operand, .empty, []⟩ ts with
  | some st => st.finish
  | none => none

end Query
