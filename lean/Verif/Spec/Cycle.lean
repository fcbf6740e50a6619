import Verif.Spec.Spill
/-!
# Groups that contain themselves
-/
namespace Query

/-- Somewhere in the condition there is a group that contains itself: one of its members is read through its own slice. -/
def HCond.Loops (st : Store HCond) (c : HCond) : Prop := ∃ s x, c.Through st s ∧ x ∈ st.read s ∧ x.Through st s

/-- A condition that is no group, somewhere in the condition. -/
def HCond.Holds (st : Store HCond) (c : HCond) (e : Cond) : Prop := c = .leaf e ∨ ∃ s, c.Through st s ∧ .leaf e ∈ st.read s

/-- A group in the condition of the value, or in its where clause, contains itself. -/
def HV.Loops (m : Mem) (h : HV) : Prop := ∃ c, h.root = some c ∧ c.Loops m.conds

/-- The values of every comparison in the value can be listed (they cannot for, say, LIKE with a number). -/
def HV.listable (m : Mem) (h : HV) : Prop := ∀ c, h.root = some c → ∀ e, c.Holds m.conds e → ∃ vs, e.values = .ok vs

/-- The reading calls that go through all conditions of a value: for UPDATE and DELETE there must be a table and, for UPDATE, SET
values, each of which has a first value to give. -/
def HV.readsAll (m : Mem) : HV → Look → Prop
  | .cond _, .render _ | .cond _, .renderSQL | .cond _, .values => True
  | .base _, l | .single _, l | .many _, l => l ≠ .conditions ∧ l ≠ .fieldDefinitions
  | .count _ _, .build => True
  | .update q, .build => q.tableName ≠ [] ∧ q.setValues.len ≠ 0 ∧ ∀ fv ∈ m.vals.read q.setValues, ∃ v vs, fv.values = .ok (v :: vs)
  | .delete q, .build => q.tableName ≠ []
  | _, _ => False

end Query
