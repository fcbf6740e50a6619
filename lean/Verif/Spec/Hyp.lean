import Verif.Model.Write
import Verif.Spec.Scan
/-!
# Vocabulary of hypotheses: what a statement assumes of names, values and condition trees
-/
namespace Query

mutual
/-- `p` holds of the condition and of every condition below it. -/
def Cond.Every (p : Cond → Prop) : Cond → Prop
  | .fieldc k b fv => p (.fieldc k b fv)
  | .null b fd => p (.null b fd)
  | .custom b x => p (.custom b x)
  | .group b cs br => p (.group b cs br) ∧ Cond.EveryL p cs
/-- `p` holds of all conditions of the list and of every condition below them. -/
def Cond.EveryL (p : Cond → Prop) : List Cond → Prop
  | [] => True
  | c :: cs => Cond.Every p c ∧ Cond.EveryL p cs
end

/-- The names of a field do not contain the character. -/
def FieldDef.Free (ch : Char) (fd : FieldDef) : Prop := ch ∉ fd.fieldName ∧ ch ∉ fd.tableName ∧ ch ∉ fd.alias

/-- The value supplies exactly one parameter. -/
def OneParam (fv : FieldValue) : Prop := ∃ v, fv.values = .ok [v]

/-- What C01 asks of one node of a condition tree: no dollar sign in names or join words, join words not empty,
comparisons other than IN carry one parameter; a user's own condition keeps the contract of interfaces.go:88-97. -/
def NumberedNode : Cond → Prop
  | .fieldc .inn _ fv => fv.fd.Free '$'
  | .fieldc .like _ fv => fv.fd.Free '$'
  | .fieldc .ilike _ fv => fv.fd.Free '$'
  | .fieldc _ _ fv => fv.fd.Free '$' ∧ OneParam fv
  | .null _ fd => fd.Free '$'
  | .custom b x => ∀ n, dollars (x.text x.fd b.negate n) = numbersFrom n x.vals.length
  | .group _ cs _ => ∀ c ∈ cs.drop 1, c.joinType ≠ [] ∧ '$' ∉ c.joinType

/-- What C06 asks of one node: as `NumberedNode`, but any number of values; a user's own condition renders both dialects
alike and its text does not end inside a placeholder. -/
def DialectNode : Cond → Prop
  | .fieldc _ _ fv => fv.fd.Free '$'
  | .null _ fd => fd.Free '$'
  | .custom b x => ∀ n, toQ (x.text x.fd b.negate n) = x.textSQL x.fd b.negate
  | .group _ cs _ => ∀ c ∈ cs.drop 1, c.joinType ≠ [] ∧ '$' ∉ c.joinType

/-- What C15 asks of one node: groups hold at least one condition, a user's own condition prints something. -/
def NonEmptyNode : Cond → Prop
  | .custom b x => ∀ n, x.text x.fd b.negate n ≠ []
  | .group _ cs _ => cs ≠ []
  | _ => True

end Query
