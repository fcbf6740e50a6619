import Verif.Spec.Stmt
/-!
# Running SQL statements

What a database does with the statements of `Spec/Stmt.lean`: rows of the joined tables, WHERE, ORDER BY, OFFSET and LIMIT,
the columns asked for, COUNT; and what INSERT, UPDATE and DELETE leave in the tables.  How values compare is left open (`Engine`).
Column names must be in scope and unambiguous, otherwise the statement fails.

Not modelled: types and constraints of columns, concurrent statements.
-/
namespace Query

/-! ## Databases -/

/-- A cell: NULL or a value. -/
abbrev Cell := Option Val

/-- A row of a table. -/
abbrev Rec := Str → Cell

/-- A table: its columns, what a column not given in INSERT gets, its rows. -/
structure Tab where
  cols : List Str
  dflt : Rec
  rows : List Rec

/-- A database: its tables by name. -/
abbrev Db := Str → Tab

/-- How values compare; nothing is assumed. -/
structure Engine where
  /-- `a op b` of two values that are not NULL -/
  cmp : Str → Val → Val → Tri
  like : Val → Val → Tri
  ilike : Val → Val → Tri
  /-- the first is not after the second in ascending order -/
  le : Cell → Cell → Bool

/-- A parameter as a cell. -/
def cellOf : Val → Cell
  | .nil => none
  | v => some v

/-! ## Rows of a statement -/

/-- A row of a table under the name the statement gives the table. -/
structure Src where
  qual : Str
  cols : List Str
  row : Rec

/-- A row of a statement: a row of each of its tables. -/
abbrev Env := List Src

/-- What names a statement knows: the tables under their names in the statement, with their columns. -/
abbrev Scope := List (Str × List Str)

/-- The column is one column of one of the tables. -/
def Scope.has (sc : Scope) (c : ColRef) : Bool :=
  match c.table with
  | some t => sc.any fun s => s.1 == t && s.2.contains c.name
  | none => (sc.filter fun s => s.2.contains c.name).length == 1

/-- The value of a column. -/
def Env.get (env : Env) (c : ColRef) : Cell :=
  match c.table with
  | some t => (env.find? fun s => s.qual == t).bind fun s => s.row c.name
  | none => (env.find? fun s => s.cols.contains c.name).bind fun s => s.row c.name

/-- What a row says of its columns; comparison with NULL is unknown. -/
def Engine.row (eng : Engine) (env : Env) : Row where
  cmp op w v := match env.get (colRef w), cellOf v with
    | some x, some y => eng.cmp op x y
    | _, _ => .u
  like w v := match env.get (colRef w), cellOf v with
    | some x, some y => eng.like x y
    | _, _ => .u
  ilike w v := match env.get (colRef w), cellOf v with
    | some x, some y => eng.ilike x y
    | _, _ => .u
  isNull w := (env.get (colRef w)).isNone

/-! ## FROM -/

/-- The name a table has in the statement. -/
def TabRef.qual (t : TabRef) : Str := t.alias.getD t.name

/-- The rows of a table. -/
def TabRef.srcs (db : Db) (t : TabRef) : List Src := (db t.name).rows.map fun r => ⟨t.qual, (db t.name).cols, r⟩

/-- A row of NULLs. -/
def TabRef.nulls (db : Db) (t : TabRef) : Src := ⟨t.qual, (db t.name).cols, fun _ => none⟩

/-- The columns of the join are equal. -/
def JoinRef.on (eng : Engine) (j : JoinRef) (env : Env) : Bool :=
  match env.get j.left, env.get j.right with
  | some x, some y => eng.cmp c!"=" x y == .t
  | _, _ => false

/-- The rows after a join: `ls` the rows so far, `null` their row of NULLs. -/
def JoinRef.rows (eng : Engine) (db : Db) (j : JoinRef) (null : Env) (ls : List Env) : List Env :=
  let rs := j.table.srcs db
  let keepL := j.kind = c!"LEFT" ∨ j.kind = c!"FULL"
  let keepR := j.kind = c!"RIGHT" ∨ j.kind = c!"FULL"
  (ls.flatMap fun l =>
    let ms := (rs.map fun r => l ++ [r]).filter (j.on eng)
    if ms = [] ∧ keepL then [l ++ [j.table.nulls db]] else ms) ++
  (if keepR then (rs.filter fun r => (ls.all fun l => !j.on eng (l ++ [r]))).map fun r => null ++ [r] else [])

/-- The rows after several joins. -/
def joinRows (eng : Engine) (db : Db) : List JoinRef → Env → List Env → List Env
  | [], _, ls => ls
  | j :: js, null, ls => joinRows eng db js (null ++ [j.table.nulls db]) (j.rows eng db null ls)

/-- The rows of a FROM clause. -/
def fromRows (eng : Engine) (db : Db) (t : TabRef) (js : List JoinRef) : List Env :=
  joinRows eng db js [t.nulls db] ((t.srcs db).map fun r => [r])

/-- The names a FROM clause introduces. -/
def fromScope (db : Db) (t : TabRef) (js : List JoinRef) : Scope :=
  (t :: js.map (·.table)).map fun t => (t.qual, (db t.name).cols)

/-- The tables have different names, and each ON knows its columns. -/
def fromOK (db : Db) (t : TabRef) (js : List JoinRef) : Bool :=
  ((fromScope db t js).map (·.1)).Nodup &&
    (List.range js.length).all fun i =>
      match js[i]? with
      | some j => (fromScope db t (js.take (i + 1))).has j.left && (fromScope db t (js.take (i + 1))).has j.right
      | none => true

/-! ## SELECT -/

/-- The columns of a comparison. -/
def Atom.col : Atom → Str
  | .cmp _ w _ => w
  | .like w _ => w
  | .ilike w _ => w
  | .inn w _ => w
  | .isNull w => w

/-- The columns of an expression. -/
def BExp.cols : BExp → List Str
  | .atom a => [a.col]
  | .not e => e.cols
  | .and a b => a.cols ++ b.cols
  | .or a b => a.cols ++ b.cols

/-- All columns. -/
def star : ColRef := ⟨none, c!"*"⟩

/-- A name of a SELECT list is known: a column, all columns, or all columns of a known table. -/
def Scope.hasItem (sc : Scope) (c : ColRef) : Bool :=
  if c.name = c!"*" then
    match c.table with
    | none => true
    | some t => sc.any fun s => s.1 == t
  else sc.has c

/-- An item of a SELECT list names known columns. -/
def SelItem.ok (sc : Scope) : SelItem → Bool
  | .col c _ => sc.hasItem c
  | .count c => c == star || sc.has c

/-- A row of a result: names and values. -/
abbrev OutRow := List (Str × Cell)

/-- All columns of all tables, or of one. -/
def Env.all (env : Env) (t : Option Str) : OutRow :=
  List.flatMap (fun s : Src => s.cols.map fun c => (c, s.row c)) <|
    match t with
    | none => env
    | some t => env.filter fun s => s.qual == t

/-- The columns of a SELECT list. -/
def SelItem.out (env : Env) : SelItem → OutRow
  | .col c a => if c.name = c!"*" then env.all c.table else [(a.getD c.name, env.get c)]
  | .count _ => []

/-- The column of an item, if the name is its alias. -/
def SelItem.named (k : ColRef) : SelItem → Option ColRef
  | .col c (some a) => if k = ⟨none, a⟩ ∧ c.name ≠ c!"*" then some c else none
  | _ => none

/-- The column an ORDER BY key names: a key without a table that is the alias of an item is that item's column. -/
def keyCol (items : List SelItem) (k : ColRef) : ColRef := (items.findSome? (SelItem.named k)).getD k

/-- One row is not after another, by several keys. -/
def keysLe (eng : Engine) : List (ColRef × Str) → Env → Env → Bool
  | [], _, _ => true
  | (c, d) :: ks, a, b =>
    let le := eng.le (a.get c) (b.get c)
    let ge := eng.le (b.get c) (a.get c)
    if le && ge then keysLe eng ks a b else if d = c!"DESC" then ge else le

/-- Put a row before the first row it is not after. -/
def insertRow (le : Env → Env → Bool) (a : Env) : List Env → List Env
  | [] => [a]
  | b :: l => if le a b then a :: b :: l else b :: insertRow le a l

/-- Sorted by keys; rows with equal keys keep their order. -/
def sortRows (eng : Engine) (ks : List (ColRef × Str)) (rows : List Env) : List Env :=
  rows.foldr (insertRow (keysLe eng ks)) []

/-- The number a digit text denotes. -/
def digitsNat (s : Str) : Nat := s.foldl (fun n c => 10 * n + (c.toNat - '0'.toNat)) 0

/-- A number of rows. -/
def Rows.num (params : List Val) : Rows → Option Nat
  | .param i => match bound 0 params i with
    | .uint n => some n
    | _ => none
  | .lit s => some (digitsNat s)

/-- An optional number of rows: fails only if it is there and is no number. -/
def optNum (params : List Val) : Option Rows → Option (Option Nat)
  | none => some none
  | some r => (r.num params).map some

/-- OFFSET and LIMIT. -/
def window {α : Type} (off lim : Option Nat) (rows : List α) : List α :=
  let rows := rows.drop (off.getD 0)
  match lim with
  | none => rows
  | some n => rows.take n

/-- The rows on which the condition is true. -/
def whereRows (eng : Engine) (params : List Val) (cond : Option BExp) (rows : List Env) : List Env :=
  match cond with
  | none => rows
  | some e => rows.filter fun env => e.eval (eng.row env) (bound 0 params) == .t

/-- A condition names known columns. -/
def Scope.hasCond (sc : Scope) : Option BExp → Bool
  | none => true
  | some e => e.cols.all fun w => sc.has (colRef w)

/-- The item is a count. -/
def SelItem.isCount : SelItem → Bool
  | .count _ => true
  | .col _ _ => false

/-- The statement names known columns. -/
def SelectStmt.ok (db : Db) (s : SelectStmt) : Bool :=
  let sc := fromScope db s.table s.joins
  fromOK db s.table s.joins && s.items.all (SelItem.ok sc) &&
    sc.hasCond s.cond &&
    s.order.all fun k => sc.has (keyCol s.items k.1)

/-- How many rows have a value in the column. -/
def countRows (c : ColRef) (rows : List Env) : Nat :=
  if c = star then rows.length else (rows.filter fun env => (env.get c).isSome).length

/-- Run a SELECT. -/
def SelectStmt.run (eng : Engine) (db : Db) (params : List Val) (s : SelectStmt) : Option (List OutRow) :=
  if s.ok db then
    match optNum params s.offset, optNum params s.limit with
    | some off, some lim =>
      let rows := whereRows eng params s.cond (fromRows eng db s.table s.joins)
      match s.items with
      | [.count c] => some (window off lim [[(c!"count", some (.uint (countRows c rows)))]])
      | items =>
        if items.any SelItem.isCount then none
        else
          let keys := s.order.map fun k => (keyCol items k.1, k.2)
          some ((window off lim (sortRows eng keys rows)).map fun env => items.flatMap (SelItem.out env))
    | _, _ => none
  else none

/-- Run the text of a query. -/
def runQuery (eng : Engine) (db : Db) (sql : Str) (params : List Val) : Option (List OutRow) :=
  match readStmt sql with
  | some (.select s) => s.run eng db params
  | _ => none

/-! ## INSERT, UPDATE, DELETE -/

/-- A database with one table changed. -/
def Db.set (db : Db) (t : Str) (tab : Tab) : Db := fun u => if u = t then tab else db u

/-- Columns set to values, one after another. -/
def assign : List (Str × Cell) → Rec → Rec
  | [], r => r
  | (c, v) :: l, r => assign l fun u => if u = c then v else r u

/-- The rows of one table as rows of a statement. -/
def Tab.env (tab : Tab) (name : Str) (r : Rec) : Env := [⟨name, tab.cols, r⟩]

/-- The condition is true on a row of the table. -/
def holdsOn (eng : Engine) (tab : Tab) (name : Str) (params : List Val) (e : BExp) (r : Rec) : Bool :=
  e.eval (eng.row (tab.env name r)) (bound 0 params) == .t

/-- The table with another list of rows. -/
def Tab.withRows (tab : Tab) (rows : List Rec) : Tab := ⟨tab.cols, tab.dflt, rows⟩

/-- Run a statement that changes a table. -/
def Stmt.run (eng : Engine) (db : Db) (params : List Val) : Stmt → Option Db
  | .select _ => none
  | .insert t cols vals =>
    let tab := db t
    if cols.Nodup ∧ cols.length = vals.length ∧ ∀ c ∈ cols, c ∈ tab.cols then
      some (db.set t (tab.withRows (tab.rows ++
        [assign (cols.zip (vals.map fun n => cellOf (bound 0 params n))) tab.dflt])))
    else none
  | .update t sets e =>
    let tab := db t
    if (sets.map (·.1)).Nodup ∧ (∀ s ∈ sets, s.1 ∈ tab.cols) ∧ e.cols.all (fun w => Scope.has [(t, tab.cols)] (colRef w)) = true then
      some (db.set t (tab.withRows (tab.rows.map fun r =>
        if holdsOn eng tab t params e r then assign (sets.map fun s => (s.1, cellOf (bound 0 params s.2))) r else r)))
    else none
  | .delete t e =>
    let tab := db t
    if e.cols.all (fun w => Scope.has [(t, tab.cols)] (colRef w)) then
      some (db.set t (tab.withRows (tab.rows.filter fun r => !holdsOn eng tab t params e r)))
    else none

/-- Run the text of a statement that changes a table. -/
def runStmt (eng : Engine) (db : Db) (sql : Str) (params : List Val) : Option Db :=
  match readStmt sql with
  | some s => s.run eng db params
  | none => none

end Query
