import Verif.Heap.Read
/-!
# SetValues

The slice the insert and update builders give out.
-/
namespace Query

/-- `InsertBuilder.SetValues`, insert.go:22-24: the builder's own slice. -/
def HInsert.getValues (q : HInsert) : Sl := q.setValues

/-- `UpdateBuilder.SetValues`, update.go:23-25: the builder's own slice. -/
def HUpdate.getValues (q : HUpdate) : Sl := q.setValues

/-- The user's `s[i] = fv` on a slice of field values. -/
def RMem.setValue (m : RMem) (s : Sl) (i : Nat) (fv : FieldValue) : RMem :=
  { m with mem := { m.mem with vals := m.mem.vals.write s i fv } }

end Query
