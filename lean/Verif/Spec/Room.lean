import Verif.Spec.Reading
/-!
# Two calls that append to the same place

Specification for the exact form of C34: two calls of the same method on the same value, appending equally many elements to a list
that has room for them.
-/
namespace Query

/-- The list `OrderBy` appends to. -/
def HV.orderSl : HV → Option Sl
  | .many q => some q.order
  | _ => none

/-- The list joins append to. -/
def HV.joinListSl : HV → Option Sl
  | .base q | .single q => some q.joins
  | .many q => some q.base.joins
  | _ => none

/-- The list `Values` and `Set` append to. -/
def HV.setsSl : HV → Option Sl
  | .insert q => some q.setValues
  | .update q => some q.setValues
  | _ => none

/-- The group `Where` and `And` append to. -/
def HV.groupH : HV → Option HGroup
  | .cond (.group b s br) => some ⟨b, s, br⟩
  | .base q | .single q => some q.where_
  | .many q => some q.base.where_
  | .update q => some q.where_
  | .delete q => some q.where_
  | _ => none

/-- The slice has room for `n` more. -/
def Sl.roomFor (s : Sl) (n : Nat) : Prop := s.len + n ≤ s.cap

/-- A condition on a field, at this number. -/
def LeafAt (hs : List HV) (i : Nat) : Prop := ∃ c, hs[i]? = some (.cond (.leaf c))

/-- A group with members, joined by AND, and room for one more. -/
def HGroup.open1 (st : Store HCond) (g : HGroup) : Prop := 0 < g.s.len ∧ g.s.roomFor 1 ∧ g.hasAll st lAND = true

/-- Two calls that append equally many elements to the same list of the same value, which has room for them. -/
inductive Twins (m : Mem) (hs : List HV) : Call → Call → Prop
  | orderBy {r : Nat} {h : HV} {s : Sl} {xs ys : List FieldSorting} (e : hs[r]? = some h) (hl : h.orderSl = some s)
      (room : s.roomFor xs.length) (same : xs.length = ys.length) : Twins m hs (.orderBy r xs) (.orderBy r ys)
  | values {r : Nat} {q : HInsert} {xs ys : List FieldValue} (e : hs[r]? = some (.insert q))
      (room : q.setValues.roomFor xs.length) (same : xs.length = ys.length) : Twins m hs (.values r xs) (.values r ys)
  | set {r : Nat} {q : HUpdate} {xs ys : List FieldValue} (e : hs[r]? = some (.update q))
      (room : q.setValues.roomFor xs.length) (same : xs.length = ys.length) : Twins m hs (.set r xs) (.set r ys)
  | joinTable {r : Nat} {h : HV} {s : Sl} {t u : TableIdent} {j k : Int} (e : hs[r]? = some h) (hl : h.joinListSl = some s)
      (room : s.roomFor 1) : Twins m hs (.joinTable r t j) (.joinTable r u k)
  | where_ {r i k : Nat} {h : HV} {g : HGroup} (e : hs[r]? = some h) (hl : h.groupH = some g) (hc : ∀ c, h ≠ .cond c)
      (room : g.open1 m.conds) (li : LeafAt hs i) (lk : LeafAt hs k) : Twins m hs (.where_ r [i]) (.where_ r [k])
  | and {r i k : Nat} {c : HCond} {g : HGroup} (e : hs[r]? = some (.cond c)) (hl : (HV.cond c).groupH = some g)
      (room : g.open1 m.conds) (li : LeafAt hs i) (lk : LeafAt hs k) : Twins m hs (.and r [i]) (.and r [k])

/-! ## Lists built one by one -/

/-- `Values` with one value each, from the insert with number `k` on. -/
def valuesFrom (k : Nat) : List FieldValue → List Call
  | [] => []
  | v :: vs => .values k [v] :: valuesFrom (k + 1) vs

/-- `InsertInto(t).Values(v1).Values(v2)…`: the builder has the number of values as number. -/
def insertCalls (t : Str) (vs : List FieldValue) : List Call := .insertInto (.name t) :: valuesFrom 0 vs

/-- `OrderBy` with one key each, from the select with number `k` on. -/
def orderFrom (k : Nat) : List FieldSorting → List Call
  | [] => []
  | v :: vs => .orderBy k [v] :: orderFrom (k + 1) vs

/-- `SelectFrom(t)`, made a select of many rows, then `OrderBy(k1).OrderBy(k2)…`: the builder has the number of keys and one as
number. -/
def orderCalls (t : TableIdent) (ks : List FieldSorting) : List Call := .selectFrom (.ident t) :: .many 0 :: orderFrom 1 ks

/-- A condition, and `Where` with it, again and again from the delete with number `k` on. -/
def whereFrom (k : Nat) : List Cond → List Call
  | [] => []
  | c :: cs => .leaf c :: .where_ k [k + 1] :: whereFrom (k + 2) cs

/-- Conditions `x` and `y`, then `Delete(t).Where(c1).Where(c2)…`: the builder has twice the number of conditions and two as
number. -/
def deleteCalls (t : Str) (x y : Cond) (cs : List Cond) : List Call := .leaf x :: .leaf y :: .delete (.name t) :: whereFrom 2 cs

/-- The conditions of a builder after `Where` with each. -/
def conj : List Cond → List Cond
  | [] => []
  | c :: cs => c :: cs.map (·.join lAND)

end Query
