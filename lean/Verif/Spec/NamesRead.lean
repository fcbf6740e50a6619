import Verif.Spec.Stmt
import Verif.Spec.Exact
/-!
# The names of a statement, and conditions whatever their names
-/
namespace Query

/-- What reading asks of one node of a condition tree, apart from the names of columns: no alias, one value for comparisons, a
string for LIKE, at least one value for IN; groups not empty and joined by AND and OR; no user-defined conditions. -/
def ShapedNode : Cond → Prop
  | .fieldc .inn _ fv => fv.fd.asName = none ∧ ∃ v vs, fv.values = .ok (v :: vs)
  | .fieldc .like _ fv => fv.fd.asName = none ∧ ∃ s, fv.value = .str s
  | .fieldc .ilike _ fv => fv.fd.asName = none ∧ ∃ s, fv.value = .str s
  | .fieldc _ _ fv => fv.fd.asName = none ∧ OneParam fv
  | .null _ fd => fd.asName = none
  | .custom _ _ => False
  | .group _ cs _ => cs ≠ [] ∧ ∀ c ∈ cs.drop 1, c.joinType = c!"AND" ∨ c.joinType = c!"OR"

/-- A condition that has the shape of a SQL condition, whatever the names of its columns. -/
def Cond.Shaped (c : Cond) : Prop := c.Every ShapedNode

/-- Every column of the condition is a plain name. -/
def Cond.PlainCols (c : Cond) : Prop := ∀ l ∈ c.leaves, PlainName l.col

/-- A column written as a plain name. -/
def ColRef.Plain (c : ColRef) : Prop := ∃ w, PlainName w ∧ c = colRef w

/-- A column, or all columns. -/
def ColRef.PlainItem (c : ColRef) : Prop := ∃ w, Query.PlainItem w ∧ c = colRef w

/-- An item of plain names. -/
def SelItem.Plain : SelItem → Prop
  | .col c a => c.PlainItem ∧ ∀ x, a = some x → PlainIdent x ∧ c ≠ ⟨none, c!"*"⟩
  | .count c => c.PlainItem

/-- A table of plain names. -/
def TabRef.Plain (t : TabRef) : Prop := PlainName t.name ∧ ∀ x, t.alias = some x → PlainIdent x

/-- A join of plain names. -/
def JoinRef.Plain (j : JoinRef) : Prop := j.table.Plain ∧ j.left.Plain ∧ j.right.Plain

/-- A statement of plain names, outside its WHERE clause. -/
def Stmt.Plain : Stmt → Prop
  | .select s => (∀ i ∈ s.items, i.Plain) ∧ s.table.Plain ∧ (∀ j ∈ s.joins, j.Plain) ∧
      ∀ k ∈ s.order, k.1.Plain ∧ (k.2 = c!"ASC" ∨ k.2 = c!"DESC")
  | .insert t cols _ => PlainName t ∧ ∀ c ∈ cols, PlainIdent c
  | .update t sets _ => PlainName t ∧ ∀ s ∈ sets, PlainIdent s.1
  | .delete t _ => PlainName t

end Query
