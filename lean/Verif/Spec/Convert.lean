import Verif.Model.Value
/-!
# How a Go value becomes parameters, as documented (value.go:31-32)
-/
namespace Query

/-- Two lists related element by element. -/
inductive Each {α β : Type} (R : α → β → Prop) : List α → List β → Prop
  | nil : Each R [] []
  | cons {a b as bs} : R a b → Each R as bs → Each R (a :: as) (b :: bs)

/-- `Value()` of the value yields `v` (whatever the error). -/
inductive GivesValue : Val → Val → Prop
  | valuer {v f} : GivesValue (.valuer v f) v
  | both {v f d} : GivesValue (.both v f d) v

/-- `Value()` of the value yields `v` without error. -/
inductive GivesValueOk : Val → Val → Prop
  | valuer {v} : GivesValueOk (.valuer v false) v
  | both {v d} : GivesValueOk (.both v false d) v

/-- `DatabaseValue()` of the value yields `v`. -/
inductive GivesDatabaseValue : Val → Val → Prop
  | provider {d} : GivesDatabaseValue (.provider d) d
  | both {v f d} : GivesDatabaseValue (.both v f d) d

/-- The value has no special type. -/
def Val.Ordinary : Val → Prop
  | .nil => True
  | .other _ => True
  | .str _ => True
  | .uint _ => True
  | _ => False

/-- The documented conversion: a valuer gives its `Value()`, else a provider its `DatabaseValue()`, slices of those and
`[]string` go element by element, everything else is one parameter, unchanged. -/
inductive Converts : Val → List Val → Prop
  | value {x v} : GivesValue x v → Converts x [v]
  | database {x v} : (∀ w, ¬ GivesValue x w) → GivesDatabaseValue x v → Converts x [v]
  | valuers {es vs} : Each GivesValue es vs → Converts (.valuers es) vs
  | providers {es vs} : Each GivesDatabaseValue es vs → Converts (.providers es) vs
  | reflSlice {es vs} : Each GivesValueOk es vs → Converts (.reflSlice es) vs
  | strs {ss} : Converts (.strs ss) (ss.map .str)
  | ordinary {x} : x.Ordinary → Converts x [x]

end Query
