import Verif.Spec.Parts
import Verif.Spec.Hyp
import Verif.Spec.Like
import Verif.Spec.Stmt
/-!
# What any condition tree, any values and any pattern give

Vocabulary of the exact forms of C01, C02, C05, C15 and C31, which hold without restriction on the values.
-/
namespace Query

/-- The number of values a condition supplies. -/
def Cond.size (c : Cond) : Nat :=
  match c.values with
  | .ok vs => vs.length
  | _ => 0

/-- The placeholders of a part when `n` values precede it: one for a comparison, LIKE or ILIKE whatever its value, one per
value for IN, none for IS NULL, its own for a user's condition. -/
def partNumbers (n : Nat) : Cond → List Nat
  | .fieldc .inn b fv => numbersFrom n (Cond.fieldc .inn b fv).size
  | .fieldc _ _ _ => [n + 1]
  | .null _ _ => []
  | .custom b x => dollars (x.text x.fd b.negate n)
  | .group _ _ _ => []

/-- The placeholders of parts in sequence: each part counts the values of those before it. -/
def numbering : Nat → List Cond → List Nat
  | _, [] => []
  | n, c :: cs => partNumbers n c ++ numbering (n + c.size) cs

/-- No dollar sign in names or join words, join words not empty.  Nothing is asked of values and of users' conditions. -/
def DollarFreeNode : Cond → Prop
  | .fieldc _ _ fv => fv.fd.Free '$'
  | .null _ fd => fd.Free '$'
  | .custom _ _ => True
  | .group _ cs _ => ∀ c ∈ cs.drop 1, c.joinType ≠ [] ∧ '$' ∉ c.joinType

/-- A comparison, LIKE or ILIKE: one placeholder whatever the value. -/
def Cond.isSingle : Cond → Bool
  | .fieldc .inn _ _ => false
  | .fieldc _ _ _ => true
  | _ => false

/-- The running totals of a list of numbers. -/
def totals : Nat → List Nat → List Nat
  | _, [] => []
  | n, x :: xs => (n + x) :: totals (n + x) xs

/-- What can be given to the library over plain identifiers: fields with or without table and alias, one value for a
comparison, any number for IN, groups of any size joined by AND and OR; no user-defined conditions. -/
def WritableNode : Cond → Prop
  | .fieldc .inn _ fv => ColDef fv.fd ∧ ∃ vs, fv.values = .ok vs
  | .fieldc .like _ fv => ColDef fv.fd ∧ ∃ s, fv.value = .str s
  | .fieldc .ilike _ fv => ColDef fv.fd ∧ ∃ s, fv.value = .str s
  | .fieldc _ _ fv => ColDef fv.fd ∧ OneParam fv
  | .null _ fd => ColDef fd
  | .custom _ _ => False
  | .group _ cs _ => ∀ c ∈ cs.drop 1, c.joinType = c!"AND" ∨ c.joinType = c!"OR"

/-- What SQL asks besides: no alias on the column, at least one value for IN, no empty group. -/
def SoundNode : Cond → Prop
  | .fieldc .inn _ fv => fv.fd.asName = none ∧ fv.values ≠ .ok []
  | .fieldc _ _ fv => fv.fd.asName = none
  | .null _ fd => fd.asName = none
  | .custom _ _ => True
  | .group _ cs _ => cs ≠ []

/-- The pattern ends in a backslash that escapes nothing. -/
def dangling : Str → Bool
  | [] => false
  | [c] => c == '\\'
  | c :: d :: s => if c = '\\' then dangling s else dangling (d :: s)

end Query
