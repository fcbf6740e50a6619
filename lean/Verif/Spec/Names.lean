import Verif.Spec.Hyp
/-!
# Names of builders: hypotheses that a character occurs in no identifier of a builder
-/
namespace Query

/-- The character occurs in neither name nor alias. -/
def TableIdent.Free (ch : Char) (t : TableIdent) : Prop := ch ∉ t.name ∧ ch ∉ t.alias

/-- The character occurs in no identifier of the join. -/
def TableJoiner.Free (ch : Char) (j : TableJoiner) : Prop :=
  j.rightTable.Free ch ∧ j.joinCondition.leftField.Free ch ∧ j.joinCondition.rightField.Free ch

/-- The character occurs in no identifier of the select's field list, base table and joins. -/
def BaseSelect.HeadFree (ch : Char) (q : BaseSelect) : Prop :=
  q.baseTable.Free ch ∧ (∀ j ∈ q.joins, j.Free ch) ∧ (∀ f ∈ q.fields.specs, f.Free ch)

/-- The character occurs in no identifier of the ordering. -/
def FieldSorting.Free (ch : Char) (o : FieldSorting) : Prop := o.fd.Free ch ∧ ch ∉ o.direction

end Query
