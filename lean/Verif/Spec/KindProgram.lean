import Verif.Spec.NestedProgram
import Verif.Model.Promote
/-!
# Programs over selects of any kind

Programs that begin with any of the three kinds of select, change the kind on the way (`Single()`, `Many()`, an ordering or a page on a
select that has none), and end by reading, counting, or writing through the select.  The calls that count are found by looking at the
calls alone (`KCall.eff`, `KCall.ends`).
-/
namespace Query

/-- The kinds of select. -/
inductive SelKind where
  | base | single | many
  deriving DecidableEq

/-- The kind of a select. -/
def SelB.kind : SelB → SelKind
  | .base _ => .base
  | .single _ => .single
  | .many _ => .many

/-- A method call on a select of any kind. -/
inductive KCall where
  /-- `Fields`, a join, `Where`, `OrderBy`, `Offset`, `Limit` -/
  | call (c : NSCall)
  /-- `Single()` -/
  | single
  /-- `Many()` -/
  | many

/-- A call that sets ordering or page. -/
def NSCall.isSetting : NSCall → Bool
  | .other (.orderBy _) => true
  | .other (.offset _) => true
  | .other (.limit _) => true
  | _ => false

/-- A call of `Fields`. -/
def NSCall.isFields : NSCall → Bool
  | .other (.fields _) => true
  | _ => false

namespace KCall

/-- The library call on a base select. -/
def runBase (q : BaseSelect) : NSCall → Res SelB
  | .addWhere es => (CondExp.callL es).bind fun cs => .ok (.base (q.addWhere cs))
  | .other (.fields l) =>
    (Res.mapL (fun p : ColRef × Option Str => field (asText p.1.text p.2)) l).bind fun fs => .ok (.base (q.setFields fs))
  | .other (.join k t l r) =>
    (table t.text).bind fun t => (field l.text).bind fun l => (field r.text).bind fun r =>
      ((q.joinIdent t k.type).on l r).bind fun q => .ok (.base q)
  | .other (.addWhere cs) => (Res.mapL Clause.call cs).bind fun cs => .ok (.base (q.addWhere cs))
  | .other (.orderBy ks) =>
    (Res.mapL (fun p : ColRef × Bool => if p.2 then desc p.1.text else asc p.1.text) ks).bind fun os =>
      .ok ((SelB.base q).conv (.orderBy os))
  | .other (.offset n) => .ok ((SelB.base q).conv (.offset n))
  | .other (.limit n) => .ok ((SelB.base q).conv (.limit n))

/-- The library call on a select of one row. -/
def runSingle (q : SelectSingle) : NSCall → Res SelB
  | .addWhere es => (CondExp.callL es).bind fun cs => .ok (.single (q.addWhere cs))
  | .other (.fields l) =>
    (Res.mapL (fun p : ColRef × Option Str => field (asText p.1.text p.2)) l).bind fun fs => .ok (.single (q.setFields fs))
  | .other (.join k t l r) =>
    (q.join t.text k.type).bind fun q => (field l.text).bind fun l => (field r.text).bind fun r => (q.on l r).bind fun q => .ok (.single q)
  | .other (.addWhere cs) => (Res.mapL Clause.call cs).bind fun cs => .ok (.single (q.addWhere cs))
  | .other (.orderBy ks) =>
    (Res.mapL (fun p : ColRef × Bool => if p.2 then desc p.1.text else asc p.1.text) ks).bind fun os =>
      .ok ((SelB.single q).conv (.orderBy os))
  | .other (.offset n) => .ok ((SelB.single q).conv (.offset n))
  | .other (.limit n) => .ok ((SelB.single q).conv (.limit n))

/-- The library call. -/
def run : SelB → KCall → Res SelB
  | q, .single => .ok (q.conv .single)
  | q, .many => .ok (q.conv .many)
  | .base q, .call c => runBase q c
  | .single q, .call c => runSingle q c
  | .many q, .call c => (c.run q).bind fun q => .ok (.many q)

/-- The calls one after another. -/
def runAll : SelB → List KCall → Res SelB
  | q, [] => .ok q
  | q, c :: cs => (run q c).bind fun q => runAll q cs

/-- `Single()` or `Many()`. -/
def isConv : KCall → Bool
  | .call _ => false
  | _ => true

/-- The kind of the select after a call. -/
def next (k : SelKind) : KCall → SelKind
  | .single => .single
  | .many => .many
  | .call c => if c.isSetting then .many else k

/-- The kind of the select after the calls. -/
def ends (k : SelKind) (cs : List KCall) : SelKind := cs.foldl next k

/-- The calls that count: an ordering or a page is forgotten by a later `Single()` or `Many()`. -/
def eff : List KCall → List NSCall
  | [] => []
  | .call c :: cs => if c.isSetting && cs.any isConv then eff cs else c :: eff cs
  | _ :: cs => eff cs

/-- All calls but the changes of kind. -/
def said (cs : List KCall) : List NSCall := cs.filterMap fun
  | .call c => some c
  | _ => none

/-- The names are identifiers and the values as said. -/
def OK : KCall → Prop
  | .call c => c.OK
  | _ => True

/-- `Fields` is not called on a select of one row, which would lose the query (see C21). -/
def noFields : SelKind → List KCall → Prop
  | _, [] => True
  | k, c :: cs => (match c with
      | .call c => ¬ (k = .single ∧ c.isFields = true)
      | _ => True) ∧ noFields (next k c) cs

end KCall

/-- `SelectFrom`, `SelectSingleFrom` or `SelectManyFrom`, and calls. -/
structure KindProg where
  start : SelKind
  table : TabRef
  calls : List KCall

namespace KindProg

/-- The first call. -/
def first (p : KindProg) : Res SelB :=
  match p.start with
  | .base => (selectFrom (.str p.table.text)).bind fun q => .ok (.base q)
  | .single => (selectSingleFrom (.str p.table.text)).bind fun q => .ok (.single q)
  | .many => (selectManyFrom (.str p.table.text)).bind fun q => .ok (.many q)

/-- What the library calls give. -/
def run (p : KindProg) : Res SelB := p.first.bind fun q => KCall.runAll q p.calls

/-- The kind of the select the program makes. -/
def kind (p : KindProg) : SelKind := KCall.ends p.start p.calls

/-- The program with the calls that count. -/
def eff (p : KindProg) : NSelectProg := ⟨p.table, KCall.eff p.calls⟩

/-- The program with all calls, as if kinds did not matter. -/
def said (p : KindProg) : NSelectProg := ⟨p.table, KCall.said p.calls⟩

/-- The arguments of the Where calls. -/
def wheres (p : KindProg) : List (List CondExp) := p.said.wheres

/-- The program is over identifiers, its values are as said, no group is empty, and `Fields` is not called on a select of one row. -/
structure OK (p : KindProg) : Prop where
  table : p.table.OK
  calls : ∀ c ∈ p.calls, c.OK
  fields : KCall.noFields p.start p.calls

/-- The rows the program asks for, with `S` as its condition: those of the calls that count, and the first alone if the select is one
of one row. -/
def rowsBy (S : Row → Tri) (eng : Engine) (db : Db) (p : KindProg) : List OutRow :=
  if p.kind = .single then (p.eff.flat.rowsBy S eng db).take 1 else p.eff.flat.rowsBy S eng db

/-- The kind last asked for: by the first call, `Single()` or `Many()`. -/
def wanted (p : KindProg) : SelKind := p.calls.foldl (fun k c => match c with
  | .single => .single
  | .many => .many
  | .call _ => k) p.start

/-- The rows the program asks for, taken at its word, with `S` as its condition: those of all calls, in the order and the page asked
for at any time; the first alone if one row was asked for last. -/
def askedBy (S : Row → Tri) (eng : Engine) (db : Db) (p : KindProg) : List OutRow :=
  if p.wanted = .single then (p.said.flat.rowsBy S eng db).take 1 else p.said.flat.rowsBy S eng db

/-- No ordering and no page before a `Single()` or `Many()`, and none on a select of one row. -/
def Kept : SelKind → List KCall → Prop
  | _, [] => True
  | k, c :: cs => (match c with
      | .call c => c.isSetting = true → k ≠ .single ∧ cs.any KCall.isConv = false
      | _ => True) ∧ Kept (KCall.next k c) cs

end KindProg

/-! ## Writing through a select -/

/-- The DELETE that removes from the table of the select what its Where calls, and those made afterwards, say. -/
def NSelectProg.deleteProg (p : NSelectProg) (more : List (List CondExp)) : NDeleteProg := ⟨p.table.name, p.wheres ++ more⟩

/-- The UPDATE of the table of the select with its Where calls, the values given, and the calls made afterwards. -/
def NSelectProg.updateProg (p : NSelectProg) (sets : List SetTo) (more : List NUCall) : NUpdateProg :=
  ⟨p.table.name, p.wheres.map NUCall.addWhere ++ .set sets :: more⟩

/-- The number of rows on which `S` holds and that have a value in a column. -/
def countedBy (S : Row → Tri) (c : ColRef) (eng : Engine) (rows : List Env) : Nat :=
  (rows.filter fun env => S (eng.row env) == .t && (env.get c).isSome).length

end Query
