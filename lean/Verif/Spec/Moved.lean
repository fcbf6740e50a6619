import Verif.Spec.NestedProgram
/-!
# Calls in another order

What may change places in a chain of calls without changing what is asked for: calls of different kinds, Where calls among
themselves, conditions within a Where call; and conditions may be passed in one Where call or in several.  Columns of an INSERT or
UPDATE may be given in any order.
-/
namespace Query

/-- Two calls are of one kind: both name fields, both join, both sort, both set the offset, or both the limit. -/
def SCall.alike : SCall → SCall → Bool
  | .fields _, .fields _ => true
  | .join _ _ _ _, .join _ _ _ _ => true
  | .addWhere _, .addWhere _ => true
  | .orderBy _, .orderBy _ => true
  | .offset _, .offset _ => true
  | .limit _, .limit _ => true
  | _, _ => false

/-- Calls of a SELECT in another order: calls of different kinds and Where calls change places, Where calls are split and put
together, the conditions of a Where call change places. -/
inductive MovedS : List NSCall → List NSCall → Prop
  | refl (l : List NSCall) : MovedS l l
  | kinds {l pre post : List NSCall} {a b : SCall} :
      MovedS l (pre ++ .other a :: .other b :: post) → a.alike b = false → MovedS l (pre ++ .other b :: .other a :: post)
  | down {l pre post : List NSCall} {es : List CondExp} {a : SCall} :
      MovedS l (pre ++ .other a :: .addWhere es :: post) → MovedS l (pre ++ .addWhere es :: .other a :: post)
  | up {l pre post : List NSCall} {es : List CondExp} {a : SCall} :
      MovedS l (pre ++ .addWhere es :: .other a :: post) → MovedS l (pre ++ .other a :: .addWhere es :: post)
  | wheres {l pre post : List NSCall} {es es' : List CondExp} :
      MovedS l (pre ++ .addWhere es :: .addWhere es' :: post) → MovedS l (pre ++ .addWhere es' :: .addWhere es :: post)
  | split {l pre post : List NSCall} {es es' : List CondExp} :
      MovedS l (pre ++ .addWhere (es ++ es') :: post) → MovedS l (pre ++ .addWhere es :: .addWhere es' :: post)
  | merge {l pre post : List NSCall} {es es' : List CondExp} :
      MovedS l (pre ++ .addWhere es :: .addWhere es' :: post) → MovedS l (pre ++ .addWhere (es ++ es') :: post)
  | within {l pre post : List NSCall} {es es' : List CondExp} :
      MovedS l (pre ++ .addWhere es :: post) → es.Perm es' → MovedS l (pre ++ .addWhere es' :: post)

/-- Calls of an UPDATE in another order: any two calls change places, calls are split and put together, and what is in a call changes
places. -/
inductive MovedU : List NUCall → List NUCall → Prop
  | refl (l : List NUCall) : MovedU l l
  | swap {l pre post : List NUCall} {a b : NUCall} : MovedU l (pre ++ a :: b :: post) → MovedU l (pre ++ b :: a :: post)
  | split {l pre post : List NUCall} {es es' : List CondExp} :
      MovedU l (pre ++ .addWhere (es ++ es') :: post) → MovedU l (pre ++ .addWhere es :: .addWhere es' :: post)
  | merge {l pre post : List NUCall} {es es' : List CondExp} :
      MovedU l (pre ++ .addWhere es :: .addWhere es' :: post) → MovedU l (pre ++ .addWhere (es ++ es') :: post)
  | within {l pre post : List NUCall} {es es' : List CondExp} :
      MovedU l (pre ++ .addWhere es :: post) → es.Perm es' → MovedU l (pre ++ .addWhere es' :: post)
  | splitSet {l pre post : List NUCall} {s s' : List SetTo} :
      MovedU l (pre ++ .set (s ++ s') :: post) → MovedU l (pre ++ .set s :: .set s' :: post)
  | mergeSet {l pre post : List NUCall} {s s' : List SetTo} :
      MovedU l (pre ++ .set s :: .set s' :: post) → MovedU l (pre ++ .set (s ++ s') :: post)
  | withinSet {l pre post : List NUCall} {s s' : List SetTo} :
      MovedU l (pre ++ .set s :: post) → s.Perm s' → MovedU l (pre ++ .set s' :: post)

end Query
