import Verif.Model.Promote
/-!
# The settings of a select, read off the calls
-/
namespace Query

/-- The call sets ordering or page. -/
def Conv.isSetting : Conv → Bool
  | .single | .many => false
  | _ => true

/-- The sorting keys given by calls, in order. -/
def ordersIn (cs : List Conv) : List FieldSorting := cs.flatMap fun
  | .orderBy os => os
  | _ => []

/-- The offset given last. -/
def offsetIn (cs : List Conv) : Option Nat := (cs.filterMap fun
  | .offset n => some n
  | _ => none).getLast?

/-- The limit given last. -/
def limitIn (cs : List Conv) : Option Int := (cs.filterMap fun
  | .limit n => some n
  | _ => none).getLast?

/-- The embedded builder. -/
def SelB.inner : SelB → BaseSelect
  | .base q => q
  | .single q => q.base
  | .many q => q.base

/-- The builder says nothing that the builder it embeds does not say: no ordering, no offset, no limit. -/
def SelB.Unset : SelB → Prop
  | .base _ => True
  | .single _ => False
  | .many q => q.order = [] ∧ q.offset = 0 ∧ q.limit ≤ 0

end Query
