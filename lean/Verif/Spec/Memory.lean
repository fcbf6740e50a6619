import Verif.Spec.NestedProgram
import Verif.Spec.KindProgram
import Verif.Spec.Reading
/-!
# Programs as histories of calls

A program with nested conditions as Go runs it: one call after another, arguments first, each call made on numbered values made
earlier (`Verif/Heap/History.lean`).  `n` is the number of values there are before.
-/
namespace Query

/-- The value of a call that returned. -/
def Res.gave {α : Type} (d : α) : Res α → α
  | .ok a => a
  | _ => d

mutual
/-- The calls of an expression, and the number of the value it makes. -/
def CondExp.trace (n : Nat) : CondExp → List Call × Nat
  | .test t => ([.leaf (t.call.gave (.null ⟨[], false⟩ zeroFD))], n)
  | .not e => let x := e.trace n; (x.1 ++ [.negate x.2 true], n + x.1.length)
  | .unnot e => let x := e.trace n; (x.1 ++ [.negate x.2 false], n + x.1.length)
  | .fn o e es =>
    let x := e.trace n
    let y := CondExp.traceL (n + x.1.length) es
    (x.1 ++ (y.1 ++ [if o then .orF x.2 y.2 else .andF x.2 y.2]), n + x.1.length + y.1.length)
  | .method o e es =>
    let x := e.trace n
    let y := CondExp.traceL (n + x.1.length) es
    (x.1 ++ (y.1 ++ [if o then .or x.2 y.2 else .and x.2 y.2]), n + x.1.length + y.1.length)
  | .group o es => let y := CondExp.traceL n es; (y.1 ++ [.newGroup (wordOf o) y.2], n + y.1.length)
  | .joinAll o es =>
    let y := CondExp.traceL n es
    (y.1 ++ [match y.2 with
      | [i] => .join i (wordOf o)
      | is => .newGroup (wordOf o) is], n + y.1.length)
  | .join o e => let x := e.trace n; (x.1 ++ [.join x.2 (wordOf o)], n + x.1.length)
  | .brackets e =>
    let x := e.trace n
    match e.call with
    | .ok (.group _ _ _) => (x.1 ++ [.withBrackets x.2], n + x.1.length)
    | _ => x
/-- The calls of several expressions, from left to right, and the numbers of the values. -/
def CondExp.traceL (n : Nat) : List CondExp → List Call × List Nat
  | [] => ([], [])
  | e :: es =>
    let x := e.trace n
    let y := CondExp.traceL (n + x.1.length) es
    (x.1 ++ y.1, x.2 :: y.2)
end

/-- The fields, sorting keys and values a call is given. -/
def fieldsOf (l : List (ColRef × Option Str)) : List FieldDef :=
  (Res.mapL (fun p : ColRef × Option Str => field (asText p.1.text p.2)) l).gave []
/-- Sorting keys. -/
def keysOf (ks : List (ColRef × Bool)) : List FieldSorting :=
  (Res.mapL (fun p : ColRef × Bool => if p.2 then desc p.1.text else asc p.1.text) ks).gave []
/-- Values. -/
def setsOf (l : List SetTo) : List FieldValue := (Res.mapL SetTo.call l).gave []

/-- The calls of a method call on the select with number `r`, and the number of the select it makes. -/
def NSCall.trace (n r : Nat) : NSCall → List Call × Nat
  | .addWhere es => let y := CondExp.traceL n es; (y.1 ++ [.where_ r y.2], n + y.1.length)
  | .other (.fields l) => ([.fields r (fieldsOf l)], n)
  | .other (.join k t x y) =>
    ([.joinTable r ((table t.text).gave ⟨[], []⟩) k.type, .on n ((field x.text).gave zeroFD) ((field y.text).gave zeroFD)], n + 1)
  | .other (.orderBy ks) => ([.orderBy r (keysOf ks)], n)
  | .other (.offset k) => ([.offset r k], n)
  | .other (.limit k) => ([.limit r k], n)
  | .other (.addWhere _) => ([], r)

/-- The calls one after another, each on the select the one before made. -/
def NSCall.traceAll (n r : Nat) : List NSCall → List Call × Nat
  | [] => ([], r)
  | c :: cs =>
    let x := c.trace n r
    let y := NSCall.traceAll (n + x.1.length) x.2 cs
    (x.1 ++ y.1, y.2)

/-- `SelectManyFrom` and the calls. -/
def NSelectProg.trace (n : Nat) (p : NSelectProg) : List Call × Nat :=
  let y := NSCall.traceAll (n + 2) (n + 1) p.calls
  ([.selectFrom (.str p.table.text), .many n] ++ y.1, y.2)

/-- The same and `Count()`. -/
def NSelectProg.traceCount (n : Nat) (p : NSelectProg) : List Call × Nat :=
  let y := p.trace n
  (y.1 ++ [.count y.2 []], n + y.1.length)

/-- The calls of a method call on an update. -/
def NUCall.trace (n r : Nat) : NUCall → List Call × Nat
  | .set l => ([.set r (setsOf l)], n)
  | .addWhere es => let y := CondExp.traceL n es; (y.1 ++ [.where_ r y.2], n + y.1.length)

/-- The calls one after another. -/
def NUCall.traceAll (n r : Nat) : List NUCall → List Call × Nat
  | [] => ([], r)
  | c :: cs =>
    let x := c.trace n r
    let y := NUCall.traceAll (n + x.1.length) x.2 cs
    (x.1 ++ y.1, y.2)

/-- `Update` and the calls. -/
def NUpdateProg.trace (n : Nat) (p : NUpdateProg) : List Call × Nat :=
  let y := NUCall.traceAll (n + 1) n p.calls
  (.update (.str p.table) :: y.1, y.2)

/-- The calls of `Where` one after another. -/
def NDeleteProg.traceAll (n r : Nat) : List (List CondExp) → List Call × Nat
  | [] => ([], r)
  | es :: calls =>
    let x := CondExp.traceL n es
    let y := NDeleteProg.traceAll (n + x.1.length + 1) (n + x.1.length) calls
    (x.1 ++ .where_ r x.2 :: y.1, y.2)

/-- `Delete` and the calls. -/
def NDeleteProg.trace (n : Nat) (p : NDeleteProg) : List Call × Nat :=
  let y := NDeleteProg.traceAll (n + 1) n p.wheres
  (.delete (.str p.table) :: y.1, y.2)

/-- The calls of `Values` one after another. -/
def InsertProg.traceAll (n r : Nat) : List (List SetTo) → List Call × Nat
  | [] => ([], r)
  | l :: calls =>
    let y := InsertProg.traceAll (n + 1) n calls
    (.values r (setsOf l) :: y.1, y.2)

/-- `InsertInto` and the calls. -/
def InsertProg.trace (n : Nat) (p : InsertProg) : List Call × Nat :=
  let y := InsertProg.traceAll (n + 1) n p.calls
  (.insertInto (.str p.table) :: y.1, y.2)

/-! ## Selects of any kind -/

/-- The embedded base select of the select with number `r`. -/
def SelKind.toBase (n r : Nat) : SelKind → List Call × Nat
  | .base => ([], r)
  | _ => ([.embedded r], n)

/-- The calls of a method call on the select with number `r` and kind `k`, and the number of the select it makes: a method the kind
does not have itself is called on the embedded select. -/
def KCall.trace (k : SelKind) (n r : Nat) : KCall → List Call × Nat
  | .single => let x := k.toBase n r; (x.1 ++ [.single x.2], n + x.1.length)
  | .many => let x := k.toBase n r; (x.1 ++ [.many x.2], n + x.1.length)
  | .call c =>
    if c.isSetting && k != .many then
      let x := k.toBase n r
      let y := c.trace (n + x.1.length + 1) (n + x.1.length)
      (x.1 ++ .many x.2 :: y.1, y.2)
    else c.trace n r

/-- The calls one after another. -/
def KCall.traceAll (k : SelKind) (n r : Nat) : List KCall → List Call × Nat
  | [] => ([], r)
  | c :: cs =>
    let x := c.trace k n r
    let y := KCall.traceAll (KCall.next k c) (n + x.1.length) x.2 cs
    (x.1 ++ y.1, y.2)

/-- The first call, and the number of the select it makes. -/
def KindProg.traceFirst (n : Nat) (p : KindProg) : List Call × Nat :=
  match p.start with
  | .base => ([.selectFrom (.str p.table.text)], n)
  | .single => ([.selectFrom (.str p.table.text), .single n], n + 1)
  | .many => ([.selectFrom (.str p.table.text), .many n], n + 1)

/-- All calls of a program. -/
def KindProg.trace (n : Nat) (p : KindProg) : List Call × Nat :=
  let x := p.traceFirst n
  let y := KCall.traceAll p.start (n + x.1.length) x.2 p.calls
  (x.1 ++ y.1, y.2)

/-- What is done with the select in the end. -/
inductive KEnd where
  /-- it is built -/
  | read
  /-- `Count()` -/
  | count
  /-- `Count(column, …)` -/
  | countCol (c : ColRef) (more : List Str)
  /-- `Delete()` and calls `Where(…)` -/
  | delete (more : List (List CondExp))
  /-- `Update(…)` and calls -/
  | update (sets : List SetTo) (more : List NUCall)
  /-- `InsertInto(…)` and calls `Values(…)` -/
  | insert (sets : List SetTo) (more : List (List SetTo))

/-- Its calls, on the select with number `r` and kind `k`. -/
def KEnd.trace (k : SelKind) (n r : Nat) : KEnd → List Call × Nat
  | .read => ([], r)
  | .count =>
    match k with
    | .single => ([.embedded r, .count n []], n + 1)
    | _ => ([.count r []], n)
  | .countCol c more =>
    match k with
    | .single => ([.embedded r, .count n (c.text :: more)], n + 1)
    | _ => ([.count r (c.text :: more)], n)
  | .delete more =>
    let y := NDeleteProg.traceAll (n + 1) n more
    (.deleteFrom r :: y.1, y.2)
  | .update sets more =>
    let y := NUCall.traceAll (n + 1) n more
    (.updateFrom r (setsOf sets) :: y.1, y.2)
  | .insert sets more =>
    let x := k.toBase n r
    let y := InsertProg.traceAll (n + x.1.length + 1) (n + x.1.length) more
    (x.1 ++ .insertFrom x.2 (setsOf sets) :: y.1, y.2)

/-- All calls of a program that ends so. -/
def KindProg.traceTo (n : Nat) (p : KindProg) (e : KEnd) : List Call × Nat :=
  let x := p.trace n
  let y := e.trace p.kind (n + x.1.length) x.2
  (x.1 ++ y.1, y.2)

/-! ## Programs of every kind -/

/-- A program of one of the kinds. -/
inductive AnyProg where
  | select (p : NSelectProg)
  | count (p : NSelectProg)
  | insert (p : InsertProg)
  | update (p : NUpdateProg)
  | delete (p : NDeleteProg)
  | kind (p : KindProg) (e : KEnd)

/-- Text and parameters are those of an INSERT. -/
def InsertProg.Says (db : Db) (eng : Engine) (p : InsertProg) (sql : Str) (params : List Val) : Prop :=
  params = p.sets.map (·.param) ∧
    (∃ ns, readStmt sql = some (.insert p.table (p.sets.map (·.name)) ns) ∧ ns.map (bound 0 params) = p.sets.map (·.param)) ∧
    runStmt eng db sql params = p.effect db

/-- Text and parameters are those of an UPDATE. -/
def NUpdateProg.Says (db : Db) (eng : Engine) (p : NUpdateProg) (sql : Str) (params : List Val) : Prop :=
  params = p.flat.params ∧
    (∃ sets e, readStmt sql = some (.update p.table sets e) ∧
      (sets.map fun s => (s.1, bound 0 params s.2)) = p.flat.sets.map (fun s => (s.name, s.param)) ∧
      CondIs p.flat.clauses (wheresText p.wheres) params (some e)) ∧
    runStmt eng db sql params = p.flat.effectBy (wheresText p.wheres) eng db

/-- Text and parameters are those of a DELETE. -/
def NDeleteProg.Says (db : Db) (eng : Engine) (p : NDeleteProg) (sql : Str) (params : List Val) : Prop :=
  params = paramsOf p.flat.clauses ∧
    (∃ e, readStmt sql = some (.delete p.table e) ∧ CondIs p.flat.clauses (wheresText p.wheres) params (some e)) ∧
    runStmt eng db sql params = p.flat.effectBy (wheresText p.wheres) eng db

/-- The DELETE, UPDATE and INSERT of the table that a program over a select ends with. -/
def KindProg.deleteProg (p : KindProg) (more : List (List CondExp)) : NDeleteProg := ⟨p.table.name, p.wheres ++ more⟩
/-- The UPDATE. -/
def KindProg.updateProg (p : KindProg) (sets : List SetTo) (more : List NUCall) : NUpdateProg :=
  ⟨p.table.name, p.wheres.map NUCall.addWhere ++ .set sets :: more⟩
/-- The INSERT. -/
def KindProg.insertProg (p : KindProg) (sets : List SetTo) (more : List (List SetTo)) : InsertProg := ⟨p.table.name, sets :: more⟩

/-- The end is over identifiers; a DELETE and an UPDATE have conditions, an UPDATE and an INSERT columns. -/
def KEnd.OK (p : KindProg) : KEnd → Prop
  | .read | .count => True
  | .countCol c _ => c.OK
  | .delete more => (p.deleteProg more).OK
  | .update sets more => (p.updateProg sets more).OK
  | .insert sets more => (p.insertProg sets more).OK

/-- No call panics. -/
def KEnd.Sound (p : KindProg) : KEnd → Prop
  | .read | .count | .countCol _ _ | .insert _ _ => wheresSound p.wheres = true
  | .delete more => wheresSound (p.deleteProg more).wheres = true
  | .update sets more => wheresSound (p.updateProg sets more).wheres = true

/-- Text and parameters are what the program describes. -/
def KEnd.Says (db : Db) (eng : Engine) (p : KindProg) : KEnd → Str → List Val → Prop
  | .read, sql, params => params = p.eff.flat.params ∧
    runQuery eng db sql params = if p.eff.flat.known db then some (p.rowsBy (wheresText p.wheres) eng db) else none
  | .count, sql, params => params = paramsOf p.said.flat.clauses ∧
    runQuery eng db sql params =
      if fromOK db p.table p.said.flat.joins && knownIn (p.said.flat.scope db) p.said.flat.clauses then
        some [[(c!"count", some (.uint ((fromRows eng db p.table p.said.flat.joins).filter fun env =>
          wheresText p.wheres (eng.row env) == .t).length))]]
      else none
  | .countCol c _, sql, params => params = paramsOf p.said.flat.clauses ∧
    runQuery eng db sql params =
      if fromOK db p.table p.said.flat.joins && (p.said.flat.scope db).has c && knownIn (p.said.flat.scope db) p.said.flat.clauses then
        some [[(c!"count", some (.uint (countedBy (wheresText p.wheres) c eng (fromRows eng db p.table p.said.flat.joins))))]]
      else none
  | .delete more, sql, params => (p.deleteProg more).Says db eng sql params
  | .update sets more, sql, params => (p.updateProg sets more).Says db eng sql params
  | .insert sets more, sql, params => (p.insertProg sets more).Says db eng sql params

namespace AnyProg

/-- Its calls and the number of the builder it makes. -/
def trace (n : Nat) : AnyProg → List Call × Nat
  | .select p => p.trace n
  | .count p => p.traceCount n
  | .insert p => p.trace n
  | .update p => p.trace n
  | .delete p => p.trace n
  | .kind p e => p.traceTo n e

/-- The calls of several programs one after another. -/
def traceAll (n : Nat) : List AnyProg → List Call × List Nat
  | [] => ([], [])
  | p :: ps =>
    let x := p.trace n
    let y := traceAll (n + x.1.length) ps
    (x.1 ++ y.1, x.2 :: y.2)

/-- It is over identifiers. -/
def OK : AnyProg → Prop
  | .select p | .count p => p.OK
  | .insert p => p.OK
  | .update p => p.OK
  | .delete p => p.OK
  | .kind p e => p.OK ∧ e.OK p

/-- No call panics: the rules of C77 make something of the conditions. -/
def Sound : AnyProg → Prop
  | .select p | .count p => wheresSound p.wheres = true
  | .insert _ => True
  | .update p => wheresSound p.wheres = true
  | .delete p => wheresSound p.wheres = true
  | .kind p e => e.Sound p

/-- Text and parameters are what the program describes: they read as the statement, and running them on `db` does it. -/
def Says (eng : Engine) (db : Db) : AnyProg → Str → List Val → Prop
  | .select p, sql, params => params = p.flat.params ∧
    (∃ s, readStmt sql = some (.select s) ∧ s.items = p.flat.items ∧ s.table = p.table ∧ s.joins = p.flat.joins ∧
      s.order = p.flat.keys ∧ CondIs p.flat.clauses (wheresText p.wheres) params s.cond ∧
      RowsRead params p.flat.offset s.offset ∧ RowsRead params p.flat.limit.toNat s.limit) ∧
    runQuery eng db sql params = if p.flat.known db then some (p.flat.rowsBy (wheresText p.wheres) eng db) else none
  | .count p, sql, params => params = paramsOf p.flat.clauses ∧
    runQuery eng db sql params =
      if fromOK db p.table p.flat.joins && knownIn (p.flat.scope db) p.flat.clauses then
        some [[(c!"count", some (.uint ((fromRows eng db p.table p.flat.joins).filter fun env =>
          wheresText p.wheres (eng.row env) == .t).length))]]
      else none
  | .insert p, sql, params => p.Says db eng sql params
  | .update p, sql, params => p.Says db eng sql params
  | .delete p, sql, params => p.Says db eng sql params
  | .kind p e, sql, params => e.Says db eng p sql params

/-- Every call does what its name says: conditions are clear (`wheresClear`), and a read select has no ordering or page that a change of
kind forgets. -/
def Clear : AnyProg → Prop
  | .select p | .count p => wheresClear someRow p.wheres = true
  | .insert _ => True
  | .update p => wheresClear someRow p.wheres = true
  | .delete p => wheresClear someRow p.wheres = true
  | .kind p .read => wheresClear someRow p.wheres = true ∧ KindProg.Kept p.start p.calls
  | .kind p .count => wheresClear someRow p.wheres = true
  | .kind p (.countCol _ _) => wheresClear someRow p.wheres = true
  | .kind p (.delete more) => wheresClear someRow (p.wheres ++ more) = true
  | .kind p (.update _ more) => wheresClear someRow (p.wheres ++ more.filterMap NUCall.where?) = true
  | .kind p (.insert _ _) => wheresClear someRow p.wheres = true

/-- Running text and parameters on `db` does what the program says, all calls taken at their word: `wheresMean`, the conjunction of all
expressions given to `Where`, is the condition. -/
def Does (eng : Engine) (db : Db) : AnyProg → Str → List Val → Prop
  | .select p, sql, params => runQuery eng db sql params = if p.flat.known db then some (p.flat.rowsBy (wheresMean p.wheres) eng db) else none
  | .count p, sql, params => runQuery eng db sql params =
      if fromOK db p.table p.flat.joins && knownIn (p.flat.scope db) p.flat.clauses then
        some [[(c!"count", some (.uint ((fromRows eng db p.table p.flat.joins).filter fun env =>
          wheresMean p.wheres (eng.row env) == .t).length))]]
      else none
  | .insert p, sql, params => runStmt eng db sql params = p.effect db
  | .update p, sql, params => runStmt eng db sql params = p.flat.effectBy (wheresMean p.wheres) eng db
  | .delete p, sql, params => runStmt eng db sql params = p.flat.effectBy (wheresMean p.wheres) eng db
  | .kind p .read, sql, params => runQuery eng db sql params =
      if p.said.flat.known db then some (p.askedBy (wheresMean p.wheres) eng db) else none
  | .kind p .count, sql, params => runQuery eng db sql params =
      if fromOK db p.table p.said.flat.joins && knownIn (p.said.flat.scope db) p.said.flat.clauses then
        some [[(c!"count", some (.uint ((fromRows eng db p.table p.said.flat.joins).filter fun env =>
          wheresMean p.wheres (eng.row env) == .t).length))]]
      else none
  | .kind p (.countCol c _), sql, params => runQuery eng db sql params =
      if fromOK db p.table p.said.flat.joins && (p.said.flat.scope db).has c && knownIn (p.said.flat.scope db) p.said.flat.clauses then
        some [[(c!"count", some (.uint (countedBy (wheresMean p.wheres) c eng (fromRows eng db p.table p.said.flat.joins))))]]
      else none
  | .kind p (.delete more), sql, params => runStmt eng db sql params =
      (p.deleteProg more).flat.effectBy (wheresMean (p.wheres ++ more)) eng db
  | .kind p (.update sets more), sql, params => runStmt eng db sql params =
      (p.updateProg sets more).flat.effectBy (wheresMean (p.wheres ++ more.filterMap NUCall.where?)) eng db
  | .kind p (.insert sets more), sql, params => runStmt eng db sql params = (p.insertProg sets more).effect db

end AnyProg

/-- `BuildSQL` on a value gives text and parameters such that `P` holds, each time it is called, whatever parameter arrays there
are. -/
def HV.Builds (gr : Grow) (m : Mem) (x : HV) (P : Str → List Val → Prop) : Prop :=
  ∃ sql params, P sql params ∧ ∃ D, ∀ d ≥ D, ∀ par, ∃ m' s, x.look gr d ⟨m, par⟩ .build = .ok (m', .query sql s) ∧ m'.par.read s = params

end Query
