import Verif.Spec.Stmt
import Verif.Spec.Hyp
/-!
# What a builder tells, apart from its text

For C83: a builder of any kind, what it asks for (tables, columns, tests, values), and the same without the values.
-/
namespace Query

/-- A builder of any kind. -/
inductive Builder where
  | select (q : BaseSelect)
  | one (q : SelectSingle)
  | many (q : SelectMany)
  | count (q : CountB)
  | insert (q : InsertB)
  | update (q : UpdateB)
  | delete (q : DeleteB)

/-- The statement of the builder. -/
def Builder.build : Builder → Res (Str × List Val)
  | .select q => q.build
  | .one q => q.build
  | .many q => q.build
  | .count q => q.build
  | .insert q => q.build
  | .update q => q.build
  | .delete q => q.build

/-- Column values over plain names, each bound to one parameter. -/
def PlainSets (vs : List FieldValue) : Prop := vs ≠ [] ∧ ∀ fv ∈ vs, PlainIdent fv.fd.fieldName ∧ OneParam fv

/-- A builder over plain names whose condition is SQL. -/
def Builder.Plain : Builder → Prop
  | .select q => PlainSelect q
  | .one q => PlainSelect q.base
  | .many q => PlainSelect q.base ∧ ∀ o ∈ q.order, PlainKey o
  | .count q => PlainSelect q.base ∧ CountDef q.countField
  | .insert q => PlainName q.tableName ∧ PlainSets q.setValues
  | .update q => PlainName q.tableName ∧ PlainSets q.setValues ∧ q.where_.toCond.Readable
  | .delete q => PlainName q.tableName ∧ q.where_.toCond.Readable

/-- How many rows are asked for. -/
inductive RowLimit where
  | all
  | rows (n : Nat)
  | one

/-- A limit with its number left out. -/
def RowLimit.blank : RowLimit → RowLimit
  | .all => .all
  | .rows _ => .rows 1
  | .one => .one

/-- What a builder asks for. -/
inductive Told where
  | select (items : List SelItem) (table : TabRef) (joins : List JoinRef) (filter : Bool) (tests : List Leaf)
      (order : List (ColRef × Str)) (offset : Nat) (limit : RowLimit)
  | insert (table : Str) (sets : List (Str × Val))
  | update (table : Str) (sets : List (Str × Val)) (tests : List Leaf)
  | delete (table : Str) (tests : List Leaf)

/-- The one value of a field value. -/
def FieldValue.only (fv : FieldValue) : Val :=
  match fv.values with
  | .ok [v] => v
  | _ => .nil

/-- What the calls have put into the builder, in order. -/
def Builder.told : Builder → Told
  | .select q => .select q.fields.refs q.baseTable.ref (q.joins.map TableJoiner.ref) (!q.where_.conditions.isEmpty)
      q.where_.group.toCond.leaves [] 0 .all
  | .one q => .select q.base.fields.refs q.base.baseTable.ref (q.base.joins.map TableJoiner.ref)
      (!q.base.where_.conditions.isEmpty) q.base.where_.group.toCond.leaves [] 0 .one
  | .many q => .select q.base.fields.refs q.base.baseTable.ref (q.base.joins.map TableJoiner.ref)
      (!q.base.where_.conditions.isEmpty) q.base.where_.group.toCond.leaves (q.order.map fun o => (o.fd.key, o.direction))
      q.offset (if q.limit > 0 then .rows q.limit.toNat else .all)
  | .count q => .select [.count q.countField.key] q.base.baseTable.ref (q.base.joins.map TableJoiner.ref)
      (!q.base.where_.conditions.isEmpty) q.base.where_.group.toCond.leaves [] 0 .all
  | .insert q => .insert q.tableName (q.setValues.map fun fv => (fv.fd.fieldName, fv.only))
  | .update q => .update q.tableName (q.setValues.map fun fv => (fv.fd.fieldName, fv.only)) q.where_.toCond.leaves
  | .delete q => .delete q.tableName q.where_.toCond.leaves

/-- The number a limit binds, as a parameter. -/
def RowLimit.values : RowLimit → List Val
  | .rows n => [.uint n]
  | _ => []

/-- The values asked for, one after the other. -/
def Told.values : Told → List Val
  | .select _ _ _ _ ts _ off lim => ts.flatMap (·.vals) ++ (if off = 0 then [] else [.uint off]) ++ lim.values
  | .insert _ sets => sets.map (·.2)
  | .update _ sets ts => sets.map (·.2) ++ ts.flatMap (·.vals)
  | .delete _ ts => ts.flatMap (·.vals)

/-- A test with its values left out. -/
def Leaf.blank (l : Leaf) : Leaf := { l with vals := l.vals.map fun _ => .nil }

/-- What is asked for, with the values left out. -/
def Told.blank : Told → Told
  | .select i t j f ts o off lim => .select i t j f (ts.map Leaf.blank) o (min off 1) lim.blank
  | .insert t sets => .insert t (sets.map fun p => (p.1, .nil))
  | .update t sets ts => .update t (sets.map fun p => (p.1, .nil)) (ts.map Leaf.blank)
  | .delete t ts => .delete t (ts.map Leaf.blank)

/-- The condition of a builder, if it has one. -/
def Builder.cond : Builder → Option Cond
  | .select q => if q.where_.conditions = [] then none else some q.where_.group.toCond
  | .one q => if q.base.where_.conditions = [] then none else some q.base.where_.group.toCond
  | .many q => if q.base.where_.conditions = [] then none else some q.base.where_.group.toCond
  | .count q => if q.base.where_.conditions = [] then none else some q.base.where_.group.toCond
  | .insert _ => none
  | .update q => some q.where_.toCond
  | .delete q => some q.where_.toCond

/-- Two conditions with their parameters are one boolean expression, with values of its own each. -/
def SameLogic (c d : Option Cond) (ps qs : List Val) : Prop :=
  match c, d with
  | none, none => True
  | some c, some d => ∃ e, CondRead c ps e ∧ CondRead d qs e
  | _, _ => False

end Query
