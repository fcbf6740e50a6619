import Verif.Spec.Meaning
import Verif.Model.Write
/-!
# Reading SQL statements

A reader for SELECT, INSERT, UPDATE and DELETE statements: the text is cut into tokens, the tokens at the words that begin
a clause, and each clause is read by its own grammar.  It accepts names, placeholders and conditions only in the forms
below, and clauses only in the order of SQL.
-/
namespace Query

/-! ## Statements -/

/-- A column, perhaps with its table. -/
structure ColRef where
  table : Option Str
  name : Str
  deriving DecidableEq, Repr

/-- An item of a SELECT list. -/
inductive SelItem where
  | col (c : ColRef) (alias : Option Str)
  | count (c : ColRef)
  deriving DecidableEq, Repr

/-- A table, perhaps with an alias. -/
structure TabRef where
  name : Str
  alias : Option Str
  deriving DecidableEq, Repr

/-- A join: its kind, its table, the two columns that are to be equal. -/
structure JoinRef where
  kind : Str
  table : TabRef
  left : ColRef
  right : ColRef
  deriving DecidableEq, Repr

/-- A number of rows: a placeholder or a literal. -/
inductive Rows where
  | param (n : Nat)
  | lit (s : Str)
  deriving DecidableEq, Repr

/-- A SELECT statement. -/
structure SelectStmt where
  items : List SelItem
  table : TabRef
  joins : List JoinRef
  cond : Option BExp
  order : List (ColRef × Str)
  offset : Option Rows
  limit : Option Rows
  deriving DecidableEq, Repr

/-- A statement. -/
inductive Stmt where
  | select (s : SelectStmt)
  | insert (table : Str) (cols : List Str) (vals : List Nat)
  | update (table : Str) (sets : List (Str × Nat)) (cond : BExp)
  | delete (table : Str) (cond : BExp)
  deriving DecidableEq, Repr

/-! ## Clauses -/

/-- Words that begin a clause. -/
def clauseWords : List Str :=
  [c!"SELECT", c!"FROM", c!"INNER", c!"LEFT", c!"RIGHT", c!"FULL", c!"WHERE", c!"ORDER", c!"OFFSET", c!"LIMIT", c!"UPDATE",
   c!"SET", c!"INSERT", c!"INTO", c!"VALUES", c!"DELETE"]

/-- The clause a token begins. -/
def Tok.clause? : Tok → Option Str
  | .word w => if w ∈ clauseWords then some w else none
  | _ => none

/-- Cut at the words that begin a clause: what is before the first, and each clause with its tokens. -/
def clauses : List Tok → List Tok × List (Str × List Tok)
  | [] => ([], [])
  | t :: ts =>
    match t.clause? with
    | some k => ([], (k, (clauses ts).1) :: (clauses ts).2)
    | none => (t :: (clauses ts).1, (clauses ts).2)

/-- Cut at commas. -/
def commas : List Tok → List (List Tok)
  | [] => [[]]
  | .comma :: ts => [] :: commas ts
  | t :: ts =>
    match commas ts with
    | [] => [[t]]
    | l :: ls => (t :: l) :: ls

/-- Read every element. -/
def readAll {α β : Type} (f : α → Option β) : List α → Option (List β)
  | [] => some []
  | a :: as =>
    match f a, readAll f as with
    | some b, some bs => some (b :: bs)
    | _, _ => none

/-! ## Parts -/

/-- A column: the name is what follows the last dot, the table what is before it. -/
def colRef (w : Str) : ColRef :=
  let name := (w.reverse.takeWhile (· != '.')).reverse
  match w.reverse.dropWhile (· != '.') with
  | [] => ⟨none, name⟩
  | _ :: t => ⟨some t.reverse, name⟩

/-- A column. -/
def readCol (w : Str) : Option ColRef := if isName w then some (colRef w) else none

/-- A name without dots. -/
def isIdent (w : Str) : Bool := isName w && !w.contains '.'

/-- `*`, or `*` after a name and a dot. -/
def isStar (w : Str) : Bool :=
  match w.reverse with
  | ['*'] => true
  | '*' :: '.' :: t => isName t.reverse
  | _ => false

/-- What can be selected or counted: a column, or all columns. -/
def isItem (w : Str) : Bool := isName w || isStar w

/-- A column or all columns. -/
def readCols (w : Str) : Option ColRef := if isItem w then some (colRef w) else none

/-- `name` or `name AS alias`. -/
def readTable : List Tok → Option TabRef
  | [.word w] => if isName w then some ⟨w, none⟩ else none
  | [.word w, .word k, .word a] => if isName w ∧ k = c!"AS" ∧ isIdent a then some ⟨w, some a⟩ else none
  | _ => none

/-- `column`, `column AS alias` or `COUNT(column)`; `*` by itself has no alias, the alias of `t.*` means nothing. -/
def readItem : List Tok → Option SelItem
  | [.word w] => (readCols w).map fun c => .col c none
  | [.word w, .word k, .word a] => if k = c!"AS" ∧ isIdent a ∧ w ≠ c!"*" then (readCols w).map fun c => .col c (some a) else none
  | [.word k, .lpar, .word w, .rpar] => if k = c!"COUNT" then (readCols w).map .count else none
  | _ => none

/-- Words that begin a join. -/
def joinWords : List Str := [c!"INNER", c!"LEFT", c!"RIGHT", c!"FULL"]

/-- `JOIN table ON column = column`. -/
def readJoin (kind : Str) : List Tok → Option JoinRef
  | [.word j, .word w, .word on, .word l, .op o, .word r] =>
    if j = c!"JOIN" ∧ on = c!"ON" ∧ o = c!"=" then
      match readTable [.word w], readCol l, readCol r with
      | some t, some cl, some cr => some ⟨kind, t, cl, cr⟩
      | _, _, _ => none
    else none
  | [.word j, .word w, .word as, .word a, .word on, .word l, .op o, .word r] =>
    if j = c!"JOIN" ∧ on = c!"ON" ∧ o = c!"=" then
      match readTable [.word w, .word as, .word a], readCol l, readCol r with
      | some t, some cl, some cr => some ⟨kind, t, cl, cr⟩
      | _, _, _ => none
    else none
  | _ => none

/-- The joins, and the clauses after them. -/
def readJoins : List (Str × List Tok) → Option (List JoinRef × List (Str × List Tok))
  | [] => some ([], [])
  | (k, ts) :: rest =>
    if k ∈ joinWords then
      match readJoin k ts, readJoins rest with
      | some j, some r => some (j :: r.1, r.2)
      | _, _ => none
    else some ([], (k, ts) :: rest)

/-- A clause that may be left out: what it holds, and the clauses after it. -/
def readOpt {α : Type} (kw : Str) (f : List Tok → Option α) :
    List (Str × List Tok) → Option (Option α × List (Str × List Tok))
  | [] => some (none, [])
  | (k, ts) :: rest =>
    if k = kw then
      match f ts with
      | some a => some (some a, rest)
      | none => none
    else some (none, (k, ts) :: rest)

/-- `column ASC` or `column DESC`. -/
def readKey : List Tok → Option (ColRef × Str)
  | [.word w, .word d] => if d = c!"ASC" ∨ d = c!"DESC" then (readCol w).map fun c => (c, d) else none
  | _ => none

/-- `BY key, key, …`. -/
def readOrder : List Tok → Option (List (ColRef × Str))
  | .word b :: ts => if b = c!"BY" then readAll readKey (commas ts) else none
  | _ => none

/-- A placeholder or a number. -/
def readRows : List Tok → Option Rows
  | [.dollar n] => some (.param n)
  | [.word w] => if w ≠ [] ∧ w.all Char.isDigit then some (.lit w) else none
  | _ => none

/-- A name alone. -/
def readName : List Tok → Option Str
  | [.word w] => if isName w then some w else none
  | _ => none

/-- A name without dots alone. -/
def readIdent : List Tok → Option Str
  | [.word w] => if isIdent w then some w else none
  | _ => none

/-- A placeholder alone. -/
def readParam : List Tok → Option Nat
  | [.dollar n] => some n
  | _ => none

/-- `name = $n`. -/
def readSet : List Tok → Option (Str × Nat)
  | [.word w, .op o, .dollar n] => if isIdent w ∧ o = c!"=" then some (w, n) else none
  | _ => none

/-- `( x, x, … )`. -/
def readList {α : Type} (f : List Tok → Option α) : List Tok → Option (List α)
  | .lpar :: ts =>
    match ts.reverse with
    | .rpar :: body => readAll f (commas body.reverse)
    | _ => none
  | _ => none

/-- `table ( column, … )`. -/
def readInto : List Tok → Option (Str × List Str)
  | .word w :: ts => if isName w then (readList readIdent ts).map fun cols => (w, cols) else none
  | _ => none

/-! ## Statements -/

/-- A SELECT statement: the clauses in the order of SQL, nothing left over. -/
def readSelect (items from_ : List Tok) (rest : List (Str × List Tok)) : Option SelectStmt :=
  match readAll readItem (commas items), readTable from_, readJoins rest with
  | some is, some t, some (js, rest) =>
    match readOpt c!"WHERE" readBool rest with
    | some (w, rest) =>
      match readOpt c!"ORDER" readOrder rest with
      | some (o, rest) =>
        match readOpt c!"OFFSET" readRows rest with
        | some (off, rest) =>
          match readOpt c!"LIMIT" readRows rest with
          | some (lim, []) => some ⟨is, t, js, w, o.getD [], off, lim⟩
          | _ => none
        | none => none
      | none => none
    | none => none
  | _, _, _ => none

/-- A statement: by the clauses it has. -/
def readClauses : List (Str × List Tok) → Option Stmt
  | (k1, ts1) :: (k2, ts2) :: rest =>
    if k1 = c!"SELECT" ∧ k2 = c!"FROM" then (readSelect ts1 ts2 rest).map .select
    else if k1 = c!"INSERT" ∧ k2 = c!"INTO" ∧ ts1 = [] then
      match readInto ts2, rest with
      | some (t, cols), [(k3, ts3)] =>
        if k3 = c!"VALUES" then (readList readParam ts3).map fun ns => .insert t cols ns else none
      | _, _ => none
    else if k1 = c!"UPDATE" ∧ k2 = c!"SET" then
      match readName ts1, readAll readSet (commas ts2), rest with
      | some t, some sets, [(k3, ts3)] =>
        if k3 = c!"WHERE" then (readBool ts3).map fun e => .update t sets e else none
      | _, _, _ => none
    else if k1 = c!"DELETE" ∧ k2 = c!"FROM" ∧ ts1 = [] then
      match readName ts2, rest with
      | some t, [(k3, ts3)] => if k3 = c!"WHERE" then (readBool ts3).map fun e => .delete t e else none
      | _, _ => none
    else none
  | _ => none

/-- The statement a text reads as. -/
def readStmt (sql : Str) : Option Stmt :=
  match clauses (lex sql) with
  | ([], cs) => readClauses cs
  | _ => none

/-! ## What builders hold -/

/-- A plain name without a dot. -/
def PlainIdent (w : Str) : Prop := PlainName w ∧ '.' ∉ w

/-- A text or nothing. -/
def optStr (s : Str) : Option Str := if s = [] then none else some s

/-- The column of a field. -/
def FieldDef.ref (fd : FieldDef) : ColRef := ⟨optStr fd.tableName, fd.fieldName⟩

/-- The alias of a field; an alias equal to the bare name of the column says nothing. -/
def FieldDef.asName (fd : FieldDef) : Option Str :=
  if fd.alias = fd.fieldName ∧ fd.tableName = [] then none else optStr fd.alias

/-- What an ORDER BY key names: the alias, if it differs from the name of the column, or else the column. -/
def FieldDef.key (fd : FieldDef) : ColRef :=
  if fd.alias = [] ∨ fd.alias = fd.fieldName then fd.ref else ⟨none, fd.alias⟩

/-- A plain word for what can be selected or counted: a column, or all columns (`*`, `t.*`). -/
def PlainItem (w : Str) : Prop := (∀ c ∈ w, isWordChar c = true) ∧ isItem w = true

/-- A field whose column and alias, if it says something, are plain names; the last dot is the one before the name; all columns have
no alias. -/
structure PlainDef (fd : FieldDef) : Prop where
  col : PlainItem fd.col
  dot : '.' ∉ fd.fieldName
  alias : ∀ a, fd.asName = some a → PlainIdent a ∧ fd.col ≠ c!"*"

/-- A field as a column of a condition: the same, and no star. -/
structure ColDef (fd : FieldDef) : Prop where
  col : PlainName fd.col
  dot : '.' ∉ fd.fieldName
  alias : ∀ a, fd.asName = some a → PlainIdent a

/-- A field that is a plain name as an ORDER BY key: by its alias or by its column. -/
def KeyDef (fd : FieldDef) : Prop :=
  if fd.alias = [] ∨ fd.alias = fd.fieldName then PlainName fd.col ∧ '.' ∉ fd.fieldName else PlainIdent fd.alias

/-- A field that can be counted: by its alias or by its column, all columns if this is a star. -/
def CountDef (fd : FieldDef) : Prop :=
  if fd.alias = [] ∨ fd.alias = fd.fieldName then PlainItem fd.col ∧ '.' ∉ fd.fieldName
  else PlainItem fd.alias ∧ '.' ∉ fd.alias

/-- A field that is a word as a column of a join, always written with its table; if it has a table, it is a plain name. -/
structure SideDef (fd : FieldDef) : Prop where
  table : ∀ c ∈ fd.tableName, isWordChar c = true
  name : ∀ c ∈ fd.fieldName, isWordChar c = true
  dot : '.' ∉ fd.fieldName
  plain : fd.tableName ≠ [] → isName fd.renderTableSpec = true

/-- The table and its alias; an alias equal to the name says nothing. -/
def TableIdent.ref (t : TableIdent) : TabRef := ⟨t.name, if t.alias = t.name then none else optStr t.alias⟩

/-- A table whose name and alias, if it says something, are plain names. -/
structure PlainTable (t : TableIdent) : Prop where
  name : PlainName t.name
  alias : ∀ a, t.ref.alias = some a → PlainIdent a

/-- The kind of a join. -/
def joinKind : Int → Option Str
  | 0 => some c!"INNER"
  | 1 => some c!"LEFT"
  | 2 => some c!"RIGHT"
  | 3 => some c!"FULL"
  | _ => none

/-- A join over plain identifiers, of one of the four kinds, between columns with tables. -/
structure PlainJoin (j : TableJoiner) : Prop where
  kind : joinKind j.joinType ≠ none
  table : PlainTable j.rightTable
  left : SideDef j.joinCondition.leftField ∧ j.joinCondition.leftField.tableName ≠ []
  right : SideDef j.joinCondition.rightField ∧ j.joinCondition.rightField.tableName ≠ []

/-- The join a builder holds. -/
def TableJoiner.ref (j : TableJoiner) : JoinRef :=
  ⟨(joinKind j.joinType).getD [], j.rightTable.ref, j.joinCondition.leftField.ref, j.joinCondition.rightField.ref⟩

/-- A join over plain identifiers, of one of the four kinds; its columns may lack a table. -/
structure NamedJoin (j : TableJoiner) : Prop where
  kind : joinKind j.joinType ≠ none
  table : PlainTable j.rightTable
  left : SideDef j.joinCondition.leftField
  right : SideDef j.joinCondition.rightField

/-- The SELECT list a builder holds. -/
def Fields.refs (f : Fields) : List SelItem :=
  if f.specs = [] then [.col ⟨none, c!"*"⟩ none] else f.specs.map fun fd => .col fd.ref fd.asName

/-- A builder over plain identifiers. -/
structure PlainSelect (q : BaseSelect) : Prop where
  fields : ∀ fd ∈ q.fields.specs, PlainDef fd
  table : PlainTable q.baseTable
  joins : ∀ j ∈ q.joins, PlainJoin j
  cond : q.where_.conditions = [] ∨ q.where_.group.toCond.Readable

/-- A builder over plain identifiers, whose join columns may lack a table. -/
structure NamedSelect (q : BaseSelect) : Prop where
  fields : ∀ fd ∈ q.fields.specs, PlainDef fd
  table : PlainTable q.baseTable
  joins : ∀ j ∈ q.joins, NamedJoin j
  cond : q.where_.conditions = [] ∨ q.where_.group.toCond.Readable

/-- The expression read from a WHERE clause is the builder's: it is what the text of the condition alone reads as; with the
parameters of the statement bound, its comparisons are those of the condition (operator, column, values) in order, and on
every row it has the truth value of the condition. -/
structure CondRead (c : Cond) (params : List Val) (e : BExp) : Prop where
  text : ∃ k s, c.render k = .ok s ∧ Reads s e
  leaves : e.leaves (bound 0 params) = c.leaves
  means : ∀ row x, TextMeans c row x → e.eval row (bound 0 params) = x

/-- What the WHERE clause of a builder reads as. -/
def WhereRead (q : BaseSelect) (params : List Val) (w : Option BExp) : Prop :=
  if q.where_.conditions = [] then w = none else ∃ e, w = some e ∧ CondRead q.where_.group.toCond params e

/-- A sort key over plain identifiers. -/
def PlainKey (o : FieldSorting) : Prop := KeyDef o.fd ∧ (o.direction = c!"ASC" ∨ o.direction = c!"DESC")

/-- A limit read from a statement: absent, or a parameter bound to the number of the builder. -/
def RowsRead (params : List Val) (n : Nat) (r : Option Rows) : Prop :=
  if n = 0 then r = none else ∃ i, r = some (.param i) ∧ bound 0 params i = .uint n

end Query
