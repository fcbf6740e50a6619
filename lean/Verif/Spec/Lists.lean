import Verif.Spec.Repr
/-!
# Which lists the values of a history hold, and which calls extend them

Specification: a builder holds up to four lists (conditions, joins, ordering keys, values); a group holds one (its members).
Copying a builder keeps its lists.  Which calls make, keep and extend which list is said here, without any memory.
-/
namespace Query

/-- What a call does with a list. -/
inductive Act where
  /-- the result holds no such list -/
  | none
  /-- the result holds a new list without spare capacity -/
  | full
  /-- the result holds a new list -/
  | fresh
  /-- the result holds the list of the operand -/
  | copy (r : Nat)
  /-- the result holds the list of the operand with more elements -/
  | app (r : Nat)
  deriving DecidableEq, Repr

/-- The conditions of a builder, the members of a group. -/
def Call.condsAct : Call → Act
  | .andF r _ | .orF r _ | .and r _ | .or r _ | .where_ r _ => .app r
  | .negate r _ | .join r _ | .withBrackets r | .applySpec r _ | .applyTable r _ => .copy r
  | .fields r _ | .joinTable r _ _ | .on r _ _ | .single r | .many r | .embedded r => .copy r
  | .offset r _ | .limit r _ | .orderBy r _ | .set r _ => .copy r
  | .newGroup _ _ | .selectFrom _ | .update _ | .delete _ => .full
  | .updateFrom _ _ | .deleteFrom _ => .fresh
  | .leaf _ | .count _ _ | .insertInto _ | .insertFrom _ _ | .values _ _ => .none

/-- The joins of a select. -/
def Call.joinsAct : Call → Act
  | .joinTable r _ _ => .app r
  | .fields r _ | .where_ r _ | .on r _ _ | .single r | .many r | .embedded r | .offset r _ | .limit r _ | .orderBy r _ => .copy r
  | .selectFrom _ => .full
  | _ => .none

/-- The ordering keys of a select of many rows. -/
def Call.sortsAct : Call → Act
  | .orderBy r _ => .app r
  | .fields r _ | .where_ r _ | .joinTable r _ _ | .on r _ _ | .offset r _ | .limit r _ => .copy r
  | .many _ => .full
  | _ => .none

/-- The values of INSERT and UPDATE. -/
def Call.valsAct : Call → Act
  | .values r _ | .set r _ => .app r
  | .where_ r _ => .copy r
  | .insertInto _ | .update _ => .full
  | .insertFrom _ _ | .updateFrom _ _ => .fresh
  | _ => .none

/-- The lists the values hold after one more call; a list is named by the number of the call that made it.  Lists without spare
capacity are not counted: `append` copies them. -/
def Act.push (ts : List (Option Nat)) : Act → List (Option Nat)
  | .none | .full => ts ++ [Option.none]
  | .fresh | .app _ => ts ++ [some ts.length]
  | .copy r => ts ++ [(ts[r]?).join]

/-- The list a call extends. -/
def Act.extended (ts : List (Option Nat)) : Act → Option Nat
  | .app r => (ts[r]?).join
  | _ => Option.none

/-- The lists extended in a history, in order. -/
def extendedLists (ts : List (Option Nat)) : List Act → List Nat
  | [] => []
  | a :: as => (a.extended ts).toList ++ extendedLists (a.push ts) as

/-- No list is extended twice, other than those made without spare capacity: the empty lists of new builders and the members of a
`NewGroup`.  A value may be extended many times, in different lists; conditions that are no groups may be extended at will. -/
structure ListsOnce (cs : List Call) : Prop where
  conds : (extendedLists [] (cs.map Call.condsAct)).Nodup
  joins : (extendedLists [] (cs.map Call.joinsAct)).Nodup
  sorts : (extendedLists [] (cs.map Call.sortsAct)).Nodup
  vals : (extendedLists [] (cs.map Call.valsAct)).Nodup

/-! ## Room behind the lists

Whether an `append` can hurt depends on the array behind the slice: it is harmless if the slice is full, for then the array is
copied, and if nothing lies behind the slice in its array. -/

/-- The slice is full, or the last in its array. -/
def lastOrFull {α : Type} (st : Store α) (s : Sl) : Bool := (st.cells s.arr).length == s.len || decide (s.cap ≤ s.len)

/-- The slice of conditions of a value. -/
def HV.condsSl : HV → Option Sl
  | .cond (.group _ s _) => some s
  | .base q | .single q | .joinB q | .joinS q => some q.where_.s
  | .many q | .joinM q => some q.base.where_.s
  | .update q => some q.where_.s
  | .delete q => some q.where_.s
  | .cond (.leaf _) | .count _ _ | .insert _ => none

/-- The slice of joins of a select. -/
def HV.joinsSl : HV → Option Sl
  | .base q | .single q | .joinB q | .joinS q => some q.joins
  | .many q | .joinM q => some q.base.joins
  | _ => none

/-- The slice of ordering keys of a select of many rows. -/
def HV.sortsSl : HV → Option Sl
  | .many q | .joinM q => some q.order
  | _ => none

/-- The slice of values of INSERT and UPDATE. -/
def HV.valsSl : HV → Option Sl
  | .insert q => some q.setValues
  | .update q => some q.setValues
  | _ => none

/-- The operand of an `append`. -/
def Act.operand : Act → Option Nat
  | .app r => some r
  | _ => Option.none

/-- The operand's slice, if the call appends to it, is harmless to append to. -/
def harmlessOn {α : Type} (st : Store α) (hs : List HV) (sl : HV → Option Sl) (a : Act) : Bool :=
  match (a.operand.bind (hs[·]?)).bind sl with
  | some s => lastOrFull st s
  | Option.none => true

/-- All appends of a call are harmless. -/
def harmlessCall (m : Mem) (hs : List HV) (c : Call) : Bool :=
  harmlessOn m.conds hs HV.condsSl c.condsAct && harmlessOn m.joins hs HV.joinsSl c.joinsAct &&
    harmlessOn m.sorts hs HV.sortsSl c.sortsAct && harmlessOn m.vals hs HV.valsSl c.valsAct

/-- All appends of a history are harmless when it runs. -/
def harmlessRun (pol : Policy) : Mem → List HV → List Call → Bool
  | _, _, [] => true
  | m, hs, c :: cs => harmlessCall m hs c &&
    match c.heap pol m hs with
    | some x => harmlessRun pol x.1 (hs ++ [x.2]) cs
    | Option.none => true

end Query
