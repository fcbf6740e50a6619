import Verif.Spec.Exec
import Verif.Spec.Convert
import Verif.Spec.Shape
/-!
# Programs that use the library

A program is what the caller writes: names as texts, values, and a list of method calls.  For each program: what the library
calls give (`run`), and, without the library, the statement it describes and what that does to a database.
-/
namespace Query

/-! ## Names as texts -/

/-- A column as text: `name` or `table.name`. -/
def ColRef.text (c : ColRef) : Str :=
  match c.table with
  | none => c.name
  | some t => t ++ c!"." ++ c.name

/-- A name as text, with its alias. -/
def asText (s : Str) : Option Str → Str
  | none => s
  | some a => s ++ c!" AS " ++ a

/-- A table as text: `name` or `name AS alias`. -/
def TabRef.text (t : TabRef) : Str := asText t.name t.alias

/-- A plain identifier without quotes. -/
structure Ident (w : Str) : Prop where
  plain : PlainIdent w
  quote : '\'' ∉ w
  dquote : '"' ∉ w

/-- A column over identifiers. -/
structure ColRef.OK (c : ColRef) : Prop where
  name : Ident c.name
  table : ∀ t ∈ c.table, Ident t

/-- What can be selected, over identifiers: a column, all columns (`*`), or all columns of a table (`t.*`). -/
structure ColRef.OKItem (c : ColRef) : Prop where
  name : Ident c.name ∨ c.name = c!"*"
  table : ∀ t ∈ c.table, Ident t

/-- A table over identifiers; the alias, if any, differs from the name. -/
structure TabRef.OK (t : TabRef) : Prop where
  name : Ident t.name
  alias : ∀ a ∈ t.alias, Ident a ∧ a ≠ t.name

/-! ## Conditions -/

/-- Comparisons. -/
inductive CmpOp where
  | eq | gt | gte | lt | lte

/-- The comparison in SQL. -/
def CmpOp.text : CmpOp → Str
  | .eq => c!"="
  | .gt => c!">"
  | .gte => c!">="
  | .lt => c!"<"
  | .lte => c!"<="

/-- A test of a column.  A value is given as it is passed, with the parameters it stands for. -/
inductive Test where
  | cmp (op : CmpOp) (c : ColRef) (v w : Val)
  | isIn (c : ColRef) (v : Val) (ws : List Val)
  | has (c : ColRef) (s : Str)
  | ihas (c : ColRef) (s : Str)
  | null (c : ColRef)

namespace Test

/-- The library call: `EqualTo("c", v)` and so on. -/
def call : Test → Res Cond
  | .cmp .eq c v _ => equalTo c.text v
  | .cmp .gt c v _ => greaterThan c.text v
  | .cmp .gte c v _ => greaterOrEqual c.text v
  | .cmp .lt c v _ => less c.text v
  | .cmp .lte c v _ => lessOrEqual c.text v
  | .isIn c v _ => inC c.text v
  | .has c s => contains c.text s
  | .ihas c s => iContains c.text s
  | .null c => isNull c.text

/-- The column. -/
def col : Test → ColRef
  | .cmp _ c _ _ => c
  | .isIn c _ _ => c
  | .has c _ => c
  | .ihas c _ => c
  | .null c => c

/-- The parameters. -/
def params : Test → List Val
  | .cmp _ _ _ w => [w]
  | .isIn _ _ ws => ws
  | .has _ s => [.str (c!"%" ++ s ++ c!"%")]
  | .ihas _ s => [.str (c!"%" ++ s ++ c!"%")]
  | .null _ => []

/-- What the test says of a row. -/
def says (row : Row) : Test → Tri
  | .cmp op c _ w => row.cmp op.text c.text w
  | .isIn c _ ws => anyOf (ws.map fun w => row.cmp c!"=" c.text w)
  | .has c s => row.like c.text (.str (c!"%" ++ s ++ c!"%"))
  | .ihas c s => row.ilike c.text (.str (c!"%" ++ s ++ c!"%"))
  | .null c => Tri.ofBool (row.isNull c.text)

/-- The operator in SQL. -/
def op : Test → Str
  | .cmp op _ _ _ => op.text
  | .isIn _ _ _ => c!"IN"
  | .has _ _ => c!"LIKE"
  | .ihas _ _ => c!"ILIKE"
  | .null _ => c!"IS NULL"

/-- The value stands for the parameters, by the documented conversion; IN has at least one. -/
def OK : Test → Prop
  | .cmp _ c v w => c.OK ∧ Converts v [w]
  | .isIn c v ws => c.OK ∧ Converts v ws ∧ ws ≠ []
  | .has c _ => c.OK
  | .ihas c _ => c.OK
  | .null c => c.OK

/-- The test is for NULL. -/
def isNullTest : Test → Bool
  | .null _ => true
  | _ => false

end Test

/-- A test or its negation. -/
structure Lit where
  neg : Bool
  test : Test

/-- `Not(test)` or `test`. -/
def Lit.call (l : Lit) : Res Cond := l.test.call.bind fun c => .ok (if l.neg then notC c else c)

/-- What a literal says of a row. -/
def Lit.says (row : Row) (l : Lit) : Tri := (l.test.says row).notIf l.neg

/-- Alternatives, at least one. -/
structure Clause where
  first : Lit
  more : List Lit

/-- `.Or(l).Or(l)…`. -/
def orAll : Cond → List Lit → Res Cond
  | c, [] => .ok c
  | c, l :: ls => l.call.bind fun d => (c.or [d]).bind fun r => orAll r ls

/-- `first.Or(l).Or(l)…`. -/
def Clause.call (c : Clause) : Res Cond := c.first.call.bind fun d => orAll d c.more

/-- The alternatives. -/
def Clause.lits (c : Clause) : List Lit := c.first :: c.more

/-- What a clause says of a row: one of the alternatives. -/
def Clause.says (row : Row) (c : Clause) : Tri := anyOf (c.lits.map (Lit.says row))

/-- All tests are fine, and `Or` is not called on a test for NULL (see C14). -/
structure Clause.OK (c : Clause) : Prop where
  tests : ∀ l ∈ c.lits, l.test.OK
  null : c.more ≠ [] → c.first.test.isNullTest = false

/-- The arguments of the Where calls: alternatives not in the first call, and later only alone in a call (see C12). -/
def wheresOK : List (List Clause) → Prop
  | [] => True
  | [] :: calls => wheresOK calls
  | (c :: cs) :: calls =>
    (∀ d ∈ c :: cs, d.more = []) ∧ ∀ ds ∈ calls, ds.length ≤ 1 ∨ ∀ d ∈ ds, d.more = []

/-- What a list of clauses says of a row: all of them. -/
def saysAll (row : Row) (cs : List Clause) : Tri := allOf (cs.map (Clause.says row))

/-- The word before the clause among the arguments of a Where call: OR (`true`) before alternatives that begin with a comparison or IN;
alternatives that begin with LIKE or ILIKE have AND, as single tests have. -/
def Clause.word (c : Clause) : Bool :=
  !c.more.isEmpty && match c.first.test with
    | .cmp _ _ _ _ => true
    | .isIn _ _ _ => true
    | _ => false

/-- The alternatives as factors of a text without brackets. -/
def Clause.facs (row : Row) (c : Clause) : List (Bool × Tri) := (c.word, c.first.says row) :: c.more.map fun l => (true, l.says row)

/-- What one more Where call makes of the text so far: its factors, and whether its members are not joined by OR.  The clauses of the
first call are written side by side; a clause alone in a later call is one factor; several clauses are written side by side, in
brackets of their own if there was no OR before. -/
def wheresStep (row : Row) : Option (List (Bool × Tri) × Bool) → List Clause → Option (List (Bool × Tri) × Bool)
  | s, [] => s
  | none, ds => some (ds.flatMap (Clause.facs row), (ds.drop 1).all fun d => !d.word)
  | some (fs, noOr), [d] => some ((if noOr then fs else [(false, joinTri fs)]) ++ [(false, d.says row)], true)
  | some (fs, noOr), ds =>
    some ((false, joinTri fs) ::
      (if noOr then [(false, joinTri (ds.flatMap fun d => ssetHead false (d.facs row)))] else ds.flatMap (Clause.facs row)),
      noOr || ds.all fun d => !d.word)

/-- What the text of the Where calls says of a row: AND binds tighter than OR. -/
def wheresSay (row : Row) (calls : List (List Clause)) : Tri :=
  ((calls.foldl (wheresStep row) none).map fun s => joinTri s.1).getD .t

/-- The tests of a list of clauses, from left to right. -/
def testsOf (cs : List Clause) : List Test := cs.flatMap fun c => c.lits.map (·.test)

/-- The parameters of a list of clauses. -/
def paramsOf (cs : List Clause) : List Val := (testsOf cs).flatMap Test.params

/-- The condition of a statement has the clauses and says `S`: there is none if there are no clauses; otherwise its truth value on
every row is `S`, and its tests are those of the clauses, in order. -/
def CondIs (cs : List Clause) (S : Row → Tri) (params : List Val) (w : Option BExp) : Prop :=
  if cs = [] then w = none
  else ∃ e, w = some e ∧ (∀ row, e.eval row (bound 0 params) = S row) ∧
    e.leaves (bound 0 params) = (testsOf cs).map fun t => ⟨t.op, t.col.text, t.params⟩

/-- The columns of the clauses are known. -/
def knownIn (sc : Scope) (cs : List Clause) : Bool := (testsOf cs).all fun t => sc.has t.col

/-! ## SELECT -/

/-- Kinds of joins. -/
inductive JoinKind where
  | inner | left | right | full

/-- The kind in SQL. -/
def JoinKind.text : JoinKind → Str
  | .inner => c!"INNER"
  | .left => c!"LEFT"
  | .right => c!"RIGHT"
  | .full => c!"FULL"

/-- The constant of the library. -/
def JoinKind.type : JoinKind → Int
  | .inner => innerJoin
  | .left => leftJoin
  | .right => rightJoin
  | .full => fullJoin

/-- A method call on a select of many rows. -/
inductive SCall where
  /-- `Fields(Field("c AS a"), …)` -/
  | fields (l : List (ColRef × Option Str))
  /-- `LeftJoin("t AS a").On(Field("l"), Field("r"))` -/
  | join (kind : JoinKind) (t : TabRef) (l r : ColRef)
  /-- `Where(…)` -/
  | addWhere (cs : List Clause)
  /-- `OrderBy(DESC("c"), …)`; `true` is descending -/
  | orderBy (ks : List (ColRef × Bool))
  /-- `Offset(n)` -/
  | offset (n : Nat)
  /-- `Limit(n)` -/
  | limit (n : Int)

namespace SCall

/-- The library call. -/
def run (q : SelectMany) : SCall → Res SelectMany
  | .fields l => (Res.mapL (fun p : ColRef × Option Str => field (asText p.1.text p.2)) l).bind fun fs => .ok (q.setFields fs)
  | .join k t l r => (q.join t.text k.type).bind fun q => (field l.text).bind fun l => (field r.text).bind fun r => q.on l r
  | .addWhere cs => (Res.mapL Clause.call cs).bind fun cs => .ok (q.addWhere cs)
  | .orderBy ks =>
    (Res.mapL (fun p : ColRef × Bool => if p.2 then desc p.1.text else asc p.1.text) ks).bind fun os => .ok (q.addOrder os)
  | .offset n => .ok (q.setOffset n)
  | .limit n => .ok (q.setLimit n)

/-- The call is over identifiers, and joins are between columns with tables (see C22); an alias says something, and is not that of
all columns. -/
def OK : SCall → Prop
  | .fields l => ∀ p ∈ l, p.1.OKItem ∧ ∀ a ∈ p.2, Ident a ∧ (p.1.table = none → a ≠ p.1.name ∧ p.1.name ≠ c!"*")
  | .join _ t l r => t.OK ∧ l.OK ∧ r.OK ∧ l.table ≠ none ∧ r.table ≠ none
  | .addWhere cs => ∀ c ∈ cs, c.OK
  | .orderBy ks => ∀ p ∈ ks, p.1.OK
  | .offset _ => True
  | .limit _ => True

/-- The fields of a `Fields` call. -/
def fields? : SCall → Option (List (ColRef × Option Str))
  | .fields l => some l
  | _ => none

/-- The join of a join call. -/
def join? : SCall → Option JoinRef
  | .join k t l r => some ⟨k.text, t, l, r⟩
  | _ => none

/-- The clauses of a `Where` call. -/
def where? : SCall → Option (List Clause)
  | .addWhere cs => some cs
  | _ => none

/-- The keys of an `OrderBy` call. -/
def keys? : SCall → Option (List (ColRef × Bool))
  | .orderBy ks => some ks
  | _ => none

/-- The number of an `Offset` call. -/
def offset? : SCall → Option Nat
  | .offset n => some n
  | _ => none

/-- The number of a `Limit` call. -/
def limit? : SCall → Option Int
  | .limit n => some n
  | _ => none

end SCall

/-- The calls one after another. -/
def runCalls : SelectMany → List SCall → Res SelectMany
  | q, [] => .ok q
  | q, c :: cs => (c.run q).bind fun q => runCalls q cs

/-- `SelectManyFrom("t AS a")` and calls. -/
structure SelectProg where
  table : TabRef
  calls : List SCall

namespace SelectProg

/-- What the library calls give. -/
def run (p : SelectProg) : Res SelectMany := (selectManyFrom (.str p.table.text)).bind fun q => runCalls q p.calls

/-- The joins asked for. -/
def joins (p : SelectProg) : List JoinRef := p.calls.filterMap SCall.join?

/-- The SELECT list: that of the last `Fields`; all columns without one. -/
def items (p : SelectProg) : List SelItem :=
  match (p.calls.filterMap SCall.fields?).getLast?.getD [] with
  | [] => [.col star none]
  | l => l.map fun q => .col q.1 q.2

/-- The arguments of the Where calls. -/
def wheres (p : SelectProg) : List (List Clause) := p.calls.filterMap SCall.where?

/-- The clauses of all Where calls. -/
def clauses (p : SelectProg) : List Clause := p.wheres.flatten

/-- The sort keys: all, in order. -/
def keys (p : SelectProg) : List (ColRef × Str) :=
  (p.calls.filterMap SCall.keys?).flatten.map fun k => (k.1, if k.2 then c!"DESC" else c!"ASC")

/-- The offset: the last one. -/
def offset (p : SelectProg) : Nat := (p.calls.filterMap SCall.offset?).getLast?.getD 0

/-- The limit: the last one; not positive: none. -/
def limit (p : SelectProg) : Int := (p.calls.filterMap SCall.limit?).getLast?.getD (-1)

/-- The parameters: those of the tests, then offset and limit. -/
def params (p : SelectProg) : List Val :=
  paramsOf p.clauses ++ (if p.offset > 0 then [.uint p.offset] else []) ++
    (if p.limit > 0 then [.uint p.limit.toNat] else [])

/-- The program is over identifiers and its values are as said. -/
structure Names (p : SelectProg) : Prop where
  table : p.table.OK
  calls : ∀ c ∈ p.calls, c.OK

/-- The program is over identifiers, its values are as said, and its alternatives are where they do no harm. -/
structure OK (p : SelectProg) : Prop extends Names p where
  wheres : wheresOK p.wheres

/-- The names the program may use. -/
def scope (db : Db) (p : SelectProg) : Scope := fromScope db p.table p.joins

/-- The names of the program are known in the database. -/
def known (db : Db) (p : SelectProg) : Bool :=
  fromOK db p.table p.joins && p.items.all (SelItem.ok (p.scope db)) && knownIn (p.scope db) p.clauses &&
    p.keys.all fun k => (p.scope db).has (keyCol p.items k.1)

/-- Of the rows of the joined tables, those on which `S` holds, sorted, without the first `offset`, at most `limit`, with the columns
asked for. -/
def rowsBy (S : Row → Tri) (eng : Engine) (db : Db) (p : SelectProg) : List OutRow :=
  let matching := (fromRows eng db p.table p.joins).filter fun env => S (eng.row env) == .t
  let sorted := (sortRows eng (p.keys.map fun k => (keyCol p.items k.1, k.2)) matching).drop p.offset
  (if p.limit > 0 then sorted.take p.limit.toNat else sorted).map fun env => p.items.flatMap (SelItem.out env)

/-- The rows the program asks for: those on which all clauses hold. -/
def rows (eng : Engine) (db : Db) (p : SelectProg) : List OutRow := p.rowsBy (fun row => saysAll row p.clauses) eng db

end SelectProg

/-! ## INSERT, UPDATE, DELETE -/

/-- A column and a value: name, the value passed, the parameter it stands for. -/
structure SetTo where
  name : Str
  value : Val
  param : Val

/-- `NewFieldValue("c", v)`. -/
def SetTo.call (s : SetTo) : Res FieldValue := newFieldValue s.name s.value

/-- The name is an identifier, the value stands for the parameter. -/
structure SetTo.OK (s : SetTo) : Prop where
  name : Ident s.name
  value : Converts s.value [s.param]

/-- `InsertInto("t")` and calls `Values(…)`. -/
structure InsertProg where
  table : Str
  calls : List (List SetTo)

namespace InsertProg

/-- Calls of `Values`. -/
def runCalls : InsertB → List (List SetTo) → Res InsertB
  | q, [] => .ok q
  | q, c :: cs => (Res.mapL SetTo.call c).bind fun vs => runCalls (q.addValues vs) cs

/-- What the library calls give. -/
def run (p : InsertProg) : Res InsertB := runCalls (insertInto (.str p.table)) p.calls

/-- All columns and values. -/
def sets (p : InsertProg) : List SetTo := p.calls.flatten

/-- The program is over identifiers and gives at least one column. -/
structure OK (p : InsertProg) : Prop where
  table : Ident p.table
  sets : ∀ s ∈ p.sets, s.OK
  some : p.sets ≠ []

/-- What the program does: a row with the values in their columns, defaults in the others; fails if a column is named twice or
unknown. -/
def effect (db : Db) (p : InsertProg) : Option Db :=
  let tab := db p.table
  if (p.sets.map (·.name)).Nodup ∧ ∀ s ∈ p.sets, s.name ∈ tab.cols then
    some (db.set p.table (tab.withRows (tab.rows ++ [assign (p.sets.map fun s => (s.name, cellOf s.param)) tab.dflt])))
  else none

end InsertProg

/-- A method call on an update. -/
inductive UCall where
  /-- `Set(…)` -/
  | set (l : List SetTo)
  /-- `Where(…)` -/
  | addWhere (cs : List Clause)

/-- The library call. -/
def UCall.run (q : UpdateB) : UCall → Res UpdateB
  | .set l => (Res.mapL SetTo.call l).bind fun vs => .ok (q.set vs)
  | .addWhere cs => (Res.mapL Clause.call cs).bind fun cs => .ok (q.addWhere cs)

/-- The columns and values of a `Set` call. -/
def UCall.set? : UCall → Option (List SetTo)
  | .set l => some l
  | _ => none

/-- The clauses of a `Where` call. -/
def UCall.where? : UCall → Option (List Clause)
  | .addWhere cs => some cs
  | _ => none

/-- `Update("t")` and calls. -/
structure UpdateProg where
  table : Str
  calls : List UCall

namespace UpdateProg

/-- The calls one after another. -/
def runCalls : UpdateB → List UCall → Res UpdateB
  | q, [] => .ok q
  | q, c :: cs => (c.run q).bind fun q => runCalls q cs

/-- What the library calls give. -/
def run (p : UpdateProg) : Res UpdateB := runCalls (update (.str p.table)) p.calls

/-- All columns and values. -/
def sets (p : UpdateProg) : List SetTo := (p.calls.filterMap UCall.set?).flatten

/-- The arguments of the Where calls. -/
def wheres (p : UpdateProg) : List (List Clause) := p.calls.filterMap UCall.where?

/-- The clauses of all Where calls. -/
def clauses (p : UpdateProg) : List Clause := p.wheres.flatten

/-- The parameters: the new values, then those of the tests. -/
def params (p : UpdateProg) : List Val := p.sets.map (·.param) ++ paramsOf p.clauses

/-- The program is over identifiers, sets at least one column and has at least one clause. -/
structure Names (p : UpdateProg) : Prop where
  table : Ident p.table
  sets : ∀ s ∈ p.sets, s.OK
  some : p.sets ≠ []
  clauses : ∀ c ∈ p.clauses, c.OK
  where_ : p.clauses ≠ []

/-- Besides, its alternatives are where they do no harm. -/
structure OK (p : UpdateProg) : Prop extends Names p where
  wheres : wheresOK p.wheres

/-- In the rows on which `S` holds, the columns get the values; fails if a column is named twice or unknown. -/
def effectBy (S : Row → Tri) (eng : Engine) (db : Db) (p : UpdateProg) : Option Db :=
  let tab := db p.table
  if (p.sets.map (·.name)).Nodup ∧ (∀ s ∈ p.sets, s.name ∈ tab.cols) ∧ knownIn [(p.table, tab.cols)] p.clauses = true then
    some (db.set p.table (tab.withRows (tab.rows.map fun r =>
      if S (eng.row (tab.env p.table r)) == .t then assign (p.sets.map fun s => (s.name, cellOf s.param)) r
      else r)))
  else none

/-- What the program does: the columns of the rows on which all clauses hold get the values. -/
def effect (eng : Engine) (db : Db) (p : UpdateProg) : Option Db := p.effectBy (fun row => saysAll row p.clauses) eng db

end UpdateProg

/-- `Delete("t")` and calls `Where(…)`. -/
structure DeleteProg where
  table : Str
  wheres : List (List Clause)

namespace DeleteProg

/-- Calls of `Where`. -/
def runCalls : DeleteB → List (List Clause) → Res DeleteB
  | q, [] => .ok q
  | q, c :: cs => (Res.mapL Clause.call c).bind fun ds => runCalls (q.addWhere ds) cs

/-- What the library calls give. -/
def run (p : DeleteProg) : Res DeleteB := runCalls (delete (.str p.table)) p.wheres

/-- The clauses of all Where calls. -/
def clauses (p : DeleteProg) : List Clause := p.wheres.flatten

/-- The program is over identifiers and has at least one clause. -/
structure Names (p : DeleteProg) : Prop where
  table : Ident p.table
  clauses : ∀ c ∈ p.clauses, c.OK
  where_ : p.clauses ≠ []

/-- Besides, its alternatives are where they do no harm. -/
structure OK (p : DeleteProg) : Prop extends Names p where
  wheres : wheresOK p.wheres

/-- The rows on which `S` holds are removed; fails if a column is unknown. -/
def effectBy (S : Row → Tri) (eng : Engine) (db : Db) (p : DeleteProg) : Option Db :=
  let tab := db p.table
  if knownIn [(p.table, tab.cols)] p.clauses = true then
    some (db.set p.table (tab.withRows (tab.rows.filter fun r => !(S (eng.row (tab.env p.table r)) == .t))))
  else none

/-- What the program does: the rows on which all clauses hold are removed. -/
def effect (eng : Engine) (db : Db) (p : DeleteProg) : Option Db := p.effectBy (fun row => saysAll row p.clauses) eng db

end DeleteProg

end Query
