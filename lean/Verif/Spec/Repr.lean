import Verif.Heap.History
/-!
# When a value in memory stands for a plain value

Specification: a slice stands for the list of its elements, a group for the group of what its elements stand for, and so on.
-/
namespace Query

/-- A slice stands for a list. -/
def RepS {α : Type} (st : Store α) (s : Sl) (xs : List α) : Prop :=
  s.arr < st.length ∧ s.len ≤ (st.cells s.arr).length ∧ st.read s = xs

mutual
/-- A condition in memory stands for a condition. -/
def Rep (st : Store HCond) : HCond → Cond → Prop
  | .leaf c', c => c' = c ∧ c.asGroup = none
  | .group b s br, .group b' cs br' =>
    b = b' ∧ br = br' ∧ s.arr < st.length ∧ s.len ≤ (st.cells s.arr).length ∧ RepL st (st.read s) cs
  | .group _ _ _, .fieldc _ _ _ => False
  | .group _ _ _, .null _ _ => False
  | .group _ _ _, .custom _ _ => False
/-- Conditions in memory stand for conditions, one by one. -/
def RepL (st : Store HCond) : List HCond → List Cond → Prop
  | [], [] => True
  | h :: hs, c :: cs => Rep st h c ∧ RepL st hs cs
  | [], _ :: _ => False
  | _ :: _, [] => False
end

/-- A group in memory stands for a group. -/
def RepG (st : Store HCond) (g : HGroup) (G : Group) : Prop := Rep st g.toCond G.toCond

/-- A base select in memory stands for a base select. -/
structure RepB (m : Mem) (h : HBase) (q : BaseSelect) : Prop where
  op : h.op = q.op
  tbl : h.baseTable = q.baseTable
  joins : RepS m.joins h.joins q.joins
  fields : RepS m.defs h.fields q.fields.specs
  cond : RepG m.conds h.where_ q.where_.group

/-- A select of many rows in memory stands for one. -/
structure RepM (m : Mem) (h : HMany) (q : SelectMany) : Prop where
  base : RepB m h.base q.base
  offset : h.offset = q.offset
  limit : h.limit = q.limit
  order : RepS m.sorts h.order q.order
  spec : h.tableSpec = q.tableSpec

/-- A value in memory stands for a plain value. -/
def RepV (m : Mem) : HV → PV → Prop
  | .cond h, .cond c => Rep m.conds h c
  | .base h, .base q => RepB m h q
  | .single h, .single q => RepB m h q.base
  | .many h, .many q => RepM m h q
  | .count h fd, .count q => RepB m h q.base ∧ fd = q.countField
  | .insert h, .insert q => h.op = q.op ∧ h.tableName = q.tableName ∧ RepS m.vals h.setValues q.setValues
  | .update h, .update q =>
    h.op = q.op ∧ h.tableName = q.tableName ∧ RepG m.conds h.where_ q.where_ ∧ RepS m.vals h.setValues q.setValues
  | .delete h, .delete q => h.op = q.op ∧ h.tableName = q.tableName ∧ RepG m.conds h.where_ q.where_
  | .joinB h, .joinB q => RepB m h q
  | .joinS h, .joinS q => RepB m h q.base
  | .joinM h, .joinM q => RepM m h q
  | _, _ => False

/-! ## Which operands a call extends -/

/-- The operand whose slices the result of the call continues, if any.  Arguments, and the operands of calls that only copy
(`Count`, `InsertInto`, `Update`, `Delete` of a select), are not counted. -/
def Call.extends : Call → Option Nat
  | .andF r _ | .orF r _ | .and r _ | .or r _ | .negate r _ | .join r _ | .withBrackets r => some r
  | .applySpec r _ | .applyTable r _ => some r
  | .fields r _ | .where_ r _ | .joinTable r _ _ | .on r _ _ | .single r | .many r | .embedded r => some r
  | .offset r _ | .limit r _ | .orderBy r _ | .values r _ | .set r _ => some r
  | _ => none

/-- The join a call completes. -/
def Call.completes : Call → Option Nat
  | .on r _ _ => some r
  | _ => none

/-- Not one of the two calls that write into their operand's array. -/
def Call.noApply : Call → Bool
  | .applySpec _ _ => false
  | .applyTable _ _ => false
  | _ => true

/-- No value is extended twice. -/
def Linear (cs : List Call) : Prop := (cs.filterMap Call.extends).Nodup

/-- No join is completed twice. -/
def JoinsOnce (cs : List Call) : Prop := (cs.filterMap Call.completes).Nodup

/-- Joins that wait for their condition. -/
def HV.isJoiner : HV → Bool
  | .joinB _ | .joinS _ | .joinM _ => true
  | _ => false

end Query
