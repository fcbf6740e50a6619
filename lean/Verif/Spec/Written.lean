import Verif.Spec.KindProgram
/-!
# Writing through a select, and reading again

What a program may expect of statements run one after another: what was deleted through a select is no longer found by it, what was
set or inserted is found by asking for it.
-/
namespace Query

/-- No join adds rows that have no row of the first table. -/
def ownRows (js : List JoinRef) : Prop := ∀ j ∈ js, j.kind ≠ c!"RIGHT" ∧ j.kind ≠ c!"FULL"

/-- The tests of the Where calls. -/
def KindProg.tests (p : KindProg) : List Test := CondExp.testsL p.wheres.flatten

/-- The select speaks of the columns of its table as a statement on the table alone does: the table has no alias, or the columns are
named without a table. -/
def KindProg.Bare (p : KindProg) : Prop := p.table.alias = none ∨ ∀ t ∈ p.tests, t.col.table = none

/-- `EqualTo(c, v)` for every column and value. -/
def holding (sets : List SetTo) : List CondExp := sets.map fun s => .test (.cmp .eq ⟨none, s.name⟩ s.value s.param)

/-- A select of any kind from a table, of the rows that have the values in the columns. -/
def readBack (k : SelKind) (t : Str) (sets : List SetTo) : KindProg := ⟨k, ⟨t, none⟩, [.call (.addWhere (holding sets))]⟩

/-- The values are not NULL and equal to themselves. -/
def selfEqual (eng : Engine) (sets : List SetTo) : Prop := ∀ s ∈ sets, s.param ≠ .nil ∧ eng.cmp c!"=" s.param s.param = .t

/-- The result of a count. -/
def counted (n : Nat) : List OutRow := [[(c!"count", some (.uint n))]]

end Query
