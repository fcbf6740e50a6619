import Verif.Spec.Shape
/-!
# What And, Or and Where make of any conditions

Vocabulary of the exact forms of C09, C10 and C12.  A text is a list of factors, each with the word that joins it (`true`: OR) and its
truth value on the row, read with AND first (`joinTri`).  Adding to a group either puts the new factors after the old ones, or takes the
old ones as one factor in brackets.  A group added may come as one factor in brackets, or lose its brackets and its NOT and come as
its factors.
-/
namespace Query

/-- AND or OR. -/
def IsWord (j : Str) : Prop := j = c!"AND" ∨ j = c!"OR"

/-- The join word of the condition, and that of its first member, are AND or OR: so it is with everything made by the API, unless a
program calls Join with some other word. -/
def Cond.Worded : Cond → Prop
  | .group b cs _ => IsWord b.joinType ∧ IsWord (headWord cs)
  | c => IsWord c.joinType

/-- What a condition holds: the factors of its members, no OR between members, no AND between members, a NOT before it, joined by OR. -/
structure Held where
  facs : List (Bool × Tri)
  noOr : Bool
  noAnd : Bool
  neg : Bool
  word : Bool

/-- What a condition holds, as receiver of And and Or: a group its members, any other itself. -/
def Cond.held (row : Row) (first : Bool) : Cond → Held
  | .group b cs _ => ⟨Cond.sflatL row cs, allAnd cs, allOr cs, b.negate, b.joinType == c!"OR"⟩
  | c => ⟨ssetHead first (c.sflat row), true, true, false, false⟩

/-- All of it in brackets, as one factor joined by AND or OR. -/
def Held.box (h : Held) (o : Bool) : Bool × Tri := (o, (joinTri h.facs).notIf h.neg)

/-- The factors of several conditions, each joined by AND or OR. -/
def joinedBy (row : Row) (o : Bool) (ds : List Cond) : List (Bool × Tri) := ds.flatMap fun d => ssetHead o (d.sflat row)

/-- The factors after And. -/
def Held.addAnd (row : Row) (h : Held) : List Cond → List (Bool × Tri)
  | [] => h.facs
  | [.group b cs br] =>
    let a := (Cond.group b cs br).held row false
    if h.noOr then h.facs ++ (if a.noOr then a.facs else [a.box false])
    else h.box h.word :: (if a.noAnd then [a.box false] else a.facs)
  | [d] => (if h.noOr then h.facs else [h.box h.word]) ++ ssetHead false (d.sflat row)
  | ds => h.box h.word :: (if h.noOr then [(false, joinTri (joinedBy row false ds))] else Cond.sflatL row ds)

/-- The factors after Or. -/
def Held.addOr (row : Row) (h : Held) : List Cond → List (Bool × Tri)
  | [] => h.facs
  | [.group b cs br] =>
    let a := (Cond.group b cs br).held row true
    (if h.noAnd then h.facs else [h.box h.word]) ++ (if a.noAnd then a.facs else [a.box true])
  | [d] => (if h.noAnd then h.facs else [h.box h.word]) ++ ssetHead true (d.sflat row)
  | ds => if h.noAnd then [h.box h.word, (false, joinTri (joinedBy row false ds))] else h.facs ++ ssetHead true (joinedBy row true ds)

/-- The truth value of `c.And(ds...)`: that of the factors, after the NOT of the receiver. -/
def andSem (row : Row) (c : Cond) : List Cond → Tri
  | [] => c.textSem row
  | ds => (joinTri ((c.held row false).addAnd row ds)).notIf (c.held row false).neg

/-- The truth value of `c.Or(ds...)`. -/
def orSem (row : Row) (c : Cond) : List Cond → Tri
  | [] => c.textSem row
  | ds => (joinTri ((c.held row true).addOr row ds)).notIf (c.held row true).neg

/-- No OR between the members after And: where a group was taken in as its members, its first member counts too. -/
def Held.andNoOr (h : Held) : List Cond → Bool
  | [] => h.noOr
  | [.group _ cs _] =>
    if h.noOr then !allAnd cs || headWord cs != c!"OR" else allOr cs || (headWord cs != c!"OR" && allAnd cs)
  | [_] => true
  | ds => h.noOr || ds.all fun d => !d.isOr

/-- The conditions of a builder after one more Where call: its factors, and no OR between members; none before the first condition. -/
def whereStep (row : Row) : Option (List (Bool × Tri) × Bool) → List Cond → Option (List (Bool × Tri) × Bool)
  | s, [] => s
  | none, ds => some (Cond.sflatL row ds, allAnd ds)
  | some (facs, noOr), ds =>
    let h : Held := ⟨facs, noOr, false, false, false⟩
    some (h.addAnd row ds, h.andNoOr ds)

/-- The truth value of the WHERE clause after Where calls. -/
def whereSem (row : Row) (calls : List (List Cond)) : Option Tri := (calls.foldl (whereStep row) none).map fun s => joinTri s.1

end Query
