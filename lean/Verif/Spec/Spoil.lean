import Verif.Spec.Spill
/-!
# When exactly a call spoils an earlier value

Specification, for any history: what a call writes behind the list it extends, and when that replaces an element of another list in
the same array by a different one.
-/
namespace Query

/-- Appending these elements to `s` replaces an element of `t` by another one: there is room behind `s`, the array is the same, and
`t` holds something else at the place of one of the new elements. -/
def Spoils {α : Type} (st : Store α) (s : Sl) (xs : List α) (t : Sl) : Prop :=
  s.len + xs.length ≤ s.cap ∧ t.arr = s.arr ∧ ∃ i x y, xs[i]? = some x ∧ (st.read t)[s.len + i]? = some y ∧ x ≠ y

/-- The ordering keys a call adds. -/
def Call.newSorts : Call → List FieldSorting
  | .orderBy _ os => os
  | _ => []

/-- The values a call adds. -/
def Call.newVals : Call → List FieldValue
  | .values _ vs | .set _ vs => vs
  | _ => []

/-- The join a call adds, without condition yet. -/
def Call.newJoins : Call → List TableJoiner
  | .joinTable _ t j => [⟨t, j, zeroJC⟩]
  | _ => []

/-- All conditions but the first are connected by the operator. -/
def allBy (op : Str) (cs : List HCond) : Bool := (cs.drop 1).all fun c => c.joinType == op

/-- Some condition but the first is connected by the operator. -/
def someBy (op : Str) (cs : List HCond) : Bool := (cs.drop 1).any fun c => c.joinType == op

/-- What adding conditions to a group writes behind the members of the group.  Into a group without members, the conditions
themselves.  One condition, to a group all of whose members are connected by the operator: the condition; of a group, the members if
these are all connected by the operator, otherwise the group in brackets, if it is the second member or some of its members are connected
by the other operator.  Several, connected by OR, to a group with an AND: a new group.  Otherwise nothing: the members then are copied
into a new array. -/
def behind (st : Store HCond) (s : Sl) (op other : Str) : List HCond → List HCond
  | [] => []
  | [c] =>
    if s.len = 0 then [c]
    else if allBy op (st.read s) = false then []
    else
      match c with
      | .leaf c => [.leaf (c.join op)]
      | .group b s' _ =>
        if allBy op (st.read s') then st.read s'
        else if s.len = 1 ∨ someBy other (st.read s') then [.group (b.join op) s' true]
        else []
  | c :: d :: cs =>
    if s.len = 0 then c :: d :: cs
    else if op = lOR ∧ someBy lAND (st.read s) then [.group ⟨lOR, false⟩ ⟨st.length, cs.length + 2, cs.length + 2⟩ false]
    else []

/-- The conditions a call writes behind those it extends. -/
def Call.newConds (m : Mem) (hs : List HV) (s : Sl) : Call → List HCond
  | .andF _ args | .and _ args | .where_ _ args => behind m.conds s lAND lOR ((getCondsH hs args).getD [])
  | .orF _ args | .or _ args => behind m.conds s lOR lAND ((getCondsH hs args).getD [])
  | _ => []

/-- The value whose conditions an Apply call changes, and the change. -/
def Call.applied : Call → Option (Nat × (Cond → Cond))
  | .applySpec r spec => some (r, (·.applyFieldSpec spec))
  | .applyTable r t => some (r, (·.applyFieldTable t))
  | _ => none

/-- The call replaces a condition the value is read from by another: it appends into the spare room, or it is `ApplyFieldSpec` or
`ApplyFieldTable` and its receiver is read from the same cell, which holds a condition that the call changes. -/
def Call.spoilsConds (m : Mem) (hs : List HV) (c : Call) (x : HV) : Prop :=
  (∃ s d t, c.condsAct.slice hs HV.condsSl = some s ∧ x.root = some d ∧ d.Through m.conds t ∧ Spoils m.conds s (c.newConds m hs s) t) ∨
    ∃ r f h a i k, c.applied = some (r, f) ∧ hs[r]? = some h ∧ h.usesCond m a i ∧ x.usesCond m a i ∧
      (m.conds.cells a)[i]? = some (.leaf k) ∧ f k ≠ k

/-- The call replaces a join of the value by another: a new join, or the last join of the receiver of `On`, which gets its condition. -/
def Call.spoilsJoins (m : Mem) (hs : List HV) (c : Call) (x : HV) : Prop :=
  (∃ s t, c.joinsAct.slice hs HV.joinsSl = some s ∧ x.joinList = some t ∧ Spoils m.joins s c.newJoins t) ∨
    ∃ r l l' h s t n j, c = .on r l l' ∧ hs[r]? = some h ∧ h.joinsSl = some s ∧ x.joinList = some t ∧ t.arr = s.arr ∧ s.len = n + 1 ∧
      (m.joins.read t)[n]? = some j ∧ j.by' l l' ≠ j

/-- The call replaces an ordering key of the value by another. -/
def Call.spoilsSorts (m : Mem) (hs : List HV) (c : Call) (x : HV) : Prop :=
  ∃ s t, c.sortsAct.slice hs HV.sortsSl = some s ∧ x.sortsSl = some t ∧ Spoils m.sorts s c.newSorts t

/-- The call replaces a value to set by another. -/
def Call.spoilsVals (m : Mem) (hs : List HV) (c : Call) (x : HV) : Prop :=
  ∃ s t, c.valsAct.slice hs HV.valsSl = some s ∧ x.valsSl = some t ∧ Spoils m.vals s c.newVals t

/-- The call replaces something the value is read from by something else. -/
def Call.spoils (m : Mem) (hs : List HV) (c : Call) (x : HV) : Prop :=
  c.spoilsConds m hs x ∨ c.spoilsJoins m hs x ∨ c.spoilsSorts m hs x ∨ c.spoilsVals m hs x

/-- All lists a value is read through hold the same: conditions, also those of groups within groups, joins, ordering keys, values. -/
structure HV.Intact (m m' : Mem) (x : HV) : Prop where
  conds : ∀ d t, x.root = some d → d.Through m.conds t → m'.conds.read t = m.conds.read t
  joins : ∀ t, x.joinList = some t → m'.joins.read t = m.joins.read t
  sorts : ∀ t, x.sortsSl = some t → m'.sorts.read t = m.sorts.read t
  vals : ∀ t, x.valsSl = some t → m'.vals.read t = m.vals.read t

end Query
