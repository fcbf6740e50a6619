import Verif.Spec.Exec
import Verif.Model.Select
/-!
# What the caller of the builders wants from the database

Said on the contents of the builders, without SQL text.
-/
namespace Query

/-- The rows of the tables of a builder, joined as it asks. -/
def BaseSelect.tables (eng : Engine) (db : Db) (q : BaseSelect) : List Env :=
  fromRows eng db q.baseTable.ref (q.joins.map TableJoiner.ref)

/-- The names a builder may use. -/
def BaseSelect.scope (db : Db) (q : BaseSelect) : Scope := fromScope db q.baseTable.ref (q.joins.map TableJoiner.ref)

/-- The name of a field in the result. -/
def FieldDef.outName (fd : FieldDef) : Str := if fd.alias = [] then fd.fieldName else fd.alias

/-- The columns a field asks for. -/
def FieldDef.wanted (env : Env) (fd : FieldDef) : OutRow :=
  if fd.fieldName = c!"*" then env.all (optStr fd.tableName) else [(fd.outName, env.get fd.ref)]

/-- The columns a builder asks for: its fields in order, or all columns. -/
def BaseSelect.wanted (q : BaseSelect) (env : Env) : OutRow :=
  if q.fields.specs = [] then env.all none else q.fields.specs.flatMap (FieldDef.wanted env)

/-- The conditions of a builder have the truth value `x` on the row. -/
def BaseSelect.Says (q : BaseSelect) (row : Row) (x : Tri) : Prop :=
  if q.where_.conditions = [] then x = .t else TextMeans q.where_.group.toCond row x

/-- The builder names tables and columns of the database. -/
structure BaseSelect.InScope (db : Db) (q : BaseSelect) : Prop where
  tables : fromOK db q.baseTable.ref (q.joins.map TableJoiner.ref) = true
  fields : ∀ fd ∈ q.fields.specs, (q.scope db).hasItem fd.ref = true
  cond : ∀ l ∈ q.where_.group.toCond.leaves, (q.scope db).has (colRef l.col) = true

/-- A sort key names the column of its field. -/
def BaseSelect.KeyInScope (db : Db) (q : BaseSelect) (o : FieldSorting) : Prop :=
  keyCol q.fields.refs o.fd.key = o.fd.ref ∧ (q.scope db).has o.fd.ref = true

/-- The rows on which the conditions are true. -/
def BaseSelect.matching (eng : Engine) (db : Db) (q : BaseSelect) (y : Env → Tri) : List Env :=
  (q.tables eng db).filter fun env => y env == .t

/-- Sorted by the fields asked for; in the order of the tables if none is. -/
def sortedBy (eng : Engine) (os : List FieldSorting) (rows : List Env) : List Env :=
  sortRows eng (os.map fun o => (o.fd.ref, o.direction)) rows

/-- The rows after the first `off`, at most `lim` of them; `lim` not positive: all. -/
def page {α : Type} (off : Nat) (lim : Int) (rows : List α) : List α :=
  if lim > 0 then (rows.drop off).take lim.toNat else rows.drop off

end Query
