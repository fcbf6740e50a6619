import Verif.Model.Cond
import Verif.Spec.Hyp
import Verif.Spec.Sql
/-!
# What the caller of the condition builders means

The meaning of a condition tree on a row, in SQL's three-valued logic, said without text: a group is its members, each
taken as a unit, joined by the members' join words with AND binding tighter than OR, and negated if the group is.
-/
namespace Query

/-- Joined truth values: `o` the finished terms, `a` the term being read, then (is the join word OR?, next value). -/
def joinFrom : Tri → Tri → List (Bool × Tri) → Tri
  | o, a, [] => o.or a
  | o, a, (false, x) :: l => joinFrom o (a.and x) l
  | o, a, (true, x) :: l => joinFrom (o.or a) x l

/-- Truth values joined by AND (false) and OR (true), AND first; the first join word does not matter. -/
def joinTri : List (Bool × Tri) → Tri
  | [] => .t
  | (_, x) :: l => joinFrom .f x l

/-- Negate if asked. -/
def Tri.notIf (neg : Bool) (x : Tri) : Tri := if neg then x.not else x

/-- The column a field names. -/
def FieldDef.col (fd : FieldDef) : Str :=
  if fd.tableName = [] then fd.fieldName else fd.tableName ++ c!"." ++ fd.fieldName

/-- The operator of a comparison. -/
def Kind.opText : Kind → Str
  | .eq => c!"="
  | .gt => c!">"
  | .gte => c!">="
  | .lt => c!"<"
  | .lte => c!"<="
  | .like => c!"LIKE"
  | .ilike => c!"ILIKE"
  | .inn => c!"IN"

/-- What a condition on a field and values says of a row: comparison with the value, LIKE, ILIKE, equality with one of
the values. -/
def Kind.says (row : Row) (k : Kind) (col : Str) (vs : List Val) : Tri :=
  match k, vs with
  | .inn, vs => (vs.map fun v => row.cmp c!"=" col v).foldr Tri.or .f
  | .like, v :: _ => row.like col v
  | .ilike, v :: _ => row.ilike col v
  | k, v :: _ => row.cmp k.opText col v
  | _, [] => .u

/-- The values a condition on a field and a value binds. -/
def bindsOf (k : Kind) (fv : FieldValue) : List Val :=
  match fieldcValues k fv with
  | .ok vs => vs
  | _ => []

/-- The join word is OR. -/
def Cond.isOr (c : Cond) : Bool := c.joinType == c!"OR"

mutual
/-- The meaning of a condition on a row. -/
def Cond.means (row : Row) : Cond → Tri
  | .fieldc k b fv => (k.says row fv.fd.col (bindsOf k fv)).notIf b.negate
  | .null b fd => (Tri.ofBool (row.isNull fd.col)).notIf b.negate
  | .custom _ _ => .u
  | .group b cs _ => (joinTri (Cond.meansL row cs)).notIf b.negate
/-- The members of a group: join word and meaning. -/
def Cond.meansL (row : Row) : List Cond → List (Bool × Tri)
  | [] => []
  | c :: cs => (c.isOr, c.means row) :: Cond.meansL row cs
end

/-- One comparison: operator, column, values. -/
structure Leaf where
  op : Str
  col : Str
  vals : List Val

mutual
/-- The comparisons the caller built, from left to right. -/
def Cond.leaves : Cond → List Leaf
  | .fieldc k _ fv => [⟨k.opText, fv.fd.col, bindsOf k fv⟩]
  | .null _ fd => [⟨c!"IS NULL", fd.col, []⟩]
  | .custom _ _ => []
  | .group _ cs _ => Cond.leavesL cs
/-- The comparisons of several conditions. -/
def Cond.leavesL : List Cond → List Leaf
  | [] => []
  | c :: cs => c.leaves ++ Cond.leavesL cs
end

/-- One comparison as read from SQL text, with the values of its placeholders. -/
def Atom.leaf (env : Nat → Val) : Atom → Leaf
  | .cmp o w n => ⟨o, w, [env n]⟩
  | .like w n => ⟨c!"LIKE", w, [env n]⟩
  | .ilike w n => ⟨c!"ILIKE", w, [env n]⟩
  | .inn w ns => ⟨c!"IN", w, ns.map env⟩
  | .isNull w => ⟨c!"IS NULL", w, []⟩

/-- The comparisons of a boolean expression, from left to right. -/
def BExp.leaves (env : Nat → Val) : BExp → List Leaf
  | .atom a => [a.leaf env]
  | .not e => e.leaves env
  | .and a b => a.leaves env ++ b.leaves env
  | .or a b => a.leaves env ++ b.leaves env

/-- Placeholder numbers of a comparison. -/
def Atom.nums : Atom → List Nat
  | .cmp _ _ n => [n]
  | .like _ n => [n]
  | .ilike _ n => [n]
  | .inn _ ns => ns
  | .isNull _ => []

/-- Placeholder numbers of a boolean expression, from left to right. -/
def BExp.nums : BExp → List Nat
  | .atom a => a.nums
  | .not e => e.nums
  | .and a b => a.nums ++ b.nums
  | .or a b => a.nums ++ b.nums

/-! ## Conditions whose text is SQL -/

/-- A character of a word. -/
def isWordChar (c : Char) : Bool :=
  !isSpace c && !(c == '(') && !(c == ')') && !(c == ',') && !(c == '$') && !isOpChar c && !isSymChar c

/-- A plain word that is no keyword. -/
def PlainName (w : Str) : Prop := w ≠ [] ∧ (∀ c ∈ w, isWordChar c = true) ∧ isName w = true

/-- A field without an effective alias (see C33), whose column is a plain name. -/
def PlainField (fd : FieldDef) : Prop :=
  (fd.alias = [] ∨ fd.alias = fd.fieldName ∧ fd.tableName = []) ∧ PlainName fd.col

/-- What reading asks of one node of a condition tree: plain fields, one value for comparisons, a string for LIKE, at
least one value for IN; groups not empty and joined by AND and OR; no user-defined conditions. -/
def ReadableNode : Cond → Prop
  | .fieldc .inn _ fv => PlainField fv.fd ∧ ∃ v vs, fv.values = .ok (v :: vs)
  | .fieldc .like _ fv => PlainField fv.fd ∧ ∃ s, fv.value = .str s
  | .fieldc .ilike _ fv => PlainField fv.fd ∧ ∃ s, fv.value = .str s
  | .fieldc _ _ fv => PlainField fv.fd ∧ OneParam fv
  | .null _ fd => PlainField fd
  | .custom _ _ => False
  | .group _ cs _ => cs ≠ [] ∧ ∀ c ∈ cs.drop 1, c.joinType = c!"AND" ∨ c.joinType = c!"OR"

/-- A condition whose text is SQL: every node is as `ReadableNode` asks. -/
def Cond.Readable (c : Cond) : Prop := c.Every ReadableNode

/-- The text of the condition, at every offset and with its values bound, reads as a boolean expression that has the
truth value `x` on the row. -/
def TextMeans (c : Cond) (row : Row) (x : Tri) : Prop :=
  ∀ k, ∃ s vs e, c.render k = .ok s ∧ c.values = .ok vs ∧ Reads s e ∧ e.eval row (bound k vs) = x

/-! ## What the text says where its brackets are not those of the tree

A group without brackets is read as its members put in its place: the first is joined by the join word of the group, and a NOT
before the group binds to the first member alone. -/

/-- Whether the text of a group is in brackets: when asked for, and around several members after NOT. -/
def effBr (b : CondBase) (count : Nat) (br : Bool) : Bool := if b.negate && count > 1 then true else br

/-- The first factor is joined by OR (`true`) or AND. -/
def ssetHead (o : Bool) : List (Bool × Tri) → List (Bool × Tri)
  | [] => []
  | (_, x) :: l => (o, x) :: l

/-- The first factor is negated, if asked. -/
def snegHead (b : Bool) : List (Bool × Tri) → List (Bool × Tri)
  | [] => []
  | (o, x) :: l => (o, x.notIf b) :: l

mutual
/-- Join words and truth values of the factors of the text. -/
def Cond.sflat (row : Row) : Cond → List (Bool × Tri)
  | .fieldc k b fv => [(b.joinType == c!"OR", (k.says row fv.fd.col (bindsOf k fv)).notIf b.negate)]
  | .null b fd => [(b.joinType == c!"OR", (Tri.ofBool (row.isNull fd.col)).notIf b.negate)]
  | .custom _ _ => []
  | .group b cs br =>
    if effBr b cs.length br then [(b.joinType == c!"OR", (joinTri (Cond.sflatL row cs)).notIf b.negate)]
    else ssetHead (b.joinType == c!"OR") (snegHead b.negate (Cond.sflatL row cs))
/-- The factors of several conditions. -/
def Cond.sflatL (row : Row) : List Cond → List (Bool × Tri)
  | [] => []
  | c :: cs => c.sflat row ++ Cond.sflatL row cs
end

/-- The truth value of the text. -/
def Cond.textSem (row : Row) (c : Cond) : Tri := joinTri (c.sflat row)

end Query
