import Verif.Spec.Lists
import Verif.Spec.Reading
/-!
# Which cells a value is read from, and which cells a call writes

Specification, for any history: the cells of arrays that reading a value looks at, and the cells that a call may write into.  A call
writes into the spare cells behind the list it extends; `On` writes the last join of its receiver; the two Apply calls write the
cells their receiver is read from.  Nothing else is ever written.
-/
namespace Query

/-- The slices a condition is read through: the members of a group, and those of the groups among the members, and so on. -/
inductive HCond.Through (st : Store HCond) : HCond → Sl → Prop
  | own {b : CondBase} {s : Sl} {br : Bool} : HCond.Through st (.group b s br) s
  | deep {b : CondBase} {s t : Sl} {br : Bool} {c : HCond} : c ∈ st.read s → HCond.Through st c t → HCond.Through st (.group b s br) t

/-- The condition of a value: the value itself, or the where clause. -/
def HV.root : HV → Option HCond
  | .cond c => some c
  | .base q | .single q | .count q _ | .joinB q | .joinS q => some q.where_.toCond
  | .many q | .joinM q => some q.base.where_.toCond
  | .insert _ => none
  | .update q => some q.where_.toCond
  | .delete q => some q.where_.toCond

/-- The joins of a value. -/
def HV.joinList : HV → Option Sl
  | .base q | .single q | .count q _ | .joinB q | .joinS q => some q.joins
  | .many q | .joinM q => some q.base.joins
  | _ => none

/-- The cell is one of the cells of the slice. -/
def Sl.covers (s : Sl) (a i : Nat) : Prop := s.arr = a ∧ i < s.len

/-- The cell is one of the spare cells behind the slice. -/
def Sl.spare (s : Sl) (a i : Nat) : Prop := s.arr = a ∧ s.len ≤ i ∧ i < s.cap

/-- A value is read from this cell of conditions. -/
def HV.usesCond (m : Mem) (h : HV) (a i : Nat) : Prop := ∃ c s, h.root = some c ∧ c.Through m.conds s ∧ s.covers a i

/-- A value is read from this cell of joins. -/
def HV.usesJoin (h : HV) (a i : Nat) : Prop := ∃ s, h.joinList = some s ∧ s.covers a i

/-- A value is read from this cell of ordering keys. -/
def HV.usesSort (h : HV) (a i : Nat) : Prop := ∃ s, h.sortsSl = some s ∧ s.covers a i

/-- A value is read from this cell of values to set. -/
def HV.usesVal (h : HV) (a i : Nat) : Prop := ∃ s, h.valsSl = some s ∧ s.covers a i

/-- The list of the operand, if the call extends it. -/
def Act.slice (hs : List HV) (sl : HV → Option Sl) (a : Act) : Option Sl := (a.operand.bind (hs[·]?)).bind sl

/-- A call may write into this cell of conditions. -/
def Call.writesCond (m : Mem) (hs : List HV) (c : Call) (a i : Nat) : Prop :=
  (∃ s, c.condsAct.slice hs HV.condsSl = some s ∧ s.spare a i) ∨
    (c.noApply = false ∧ ∃ r h, c.extends = some r ∧ hs[r]? = some h ∧ h.usesCond m a i)

/-- A call may write into this cell of joins. -/
def Call.writesJoin (hs : List HV) (c : Call) (a i : Nat) : Prop :=
  (∃ s, c.joinsAct.slice hs HV.joinsSl = some s ∧ s.spare a i) ∨
    ∃ r h s, c.completes = some r ∧ hs[r]? = some h ∧ h.joinList = some s ∧ s.arr = a ∧ i + 1 = s.len

/-- A call may write into this cell of ordering keys. -/
def Call.writesSort (hs : List HV) (c : Call) (a i : Nat) : Prop := ∃ s, c.sortsAct.slice hs HV.sortsSl = some s ∧ s.spare a i

/-- A call may write into this cell of values to set. -/
def Call.writesVal (hs : List HV) (c : Call) (a i : Nat) : Prop := ∃ s, c.valsAct.slice hs HV.valsSl = some s ∧ s.spare a i

/-- Some cell the value is read from is a cell the call may write into. -/
def Call.hits (m : Mem) (hs : List HV) (c : Call) (h : HV) : Prop :=
  ∃ a i, (c.writesCond m hs a i ∧ h.usesCond m a i) ∨ (c.writesJoin hs a i ∧ h.usesJoin a i) ∨
    (c.writesSort hs a i ∧ h.usesSort a i) ∨ (c.writesVal hs a i ∧ h.usesVal a i)

end Query
