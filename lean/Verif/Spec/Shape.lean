import Verif.Spec.Meaning
/-!
# Shapes of condition trees

Groups are rendered with or without brackets.  These notions say when leaving out the brackets does no harm.
-/
namespace Query

mutual
/-- The text is one factor: a leaf, a group in brackets, or a group holding one such condition. -/
def Cond.single : Cond → Bool
  | .fieldc _ _ _ => true
  | .null _ _ => true
  | .custom _ _ => true
  | .group b cs br => br || (b.negate && cs.length > 1) || Cond.singleL cs
/-- The list holds one condition whose text is one factor. -/
def Cond.singleL : List Cond → Bool
  | [c] => c.single
  | _ => false
end

mutual
/-- The text has no OR outside brackets. -/
def Cond.orFree : Cond → Bool
  | .fieldc _ _ _ => true
  | .null _ _ => true
  | .custom _ _ => true
  | .group b cs br => br || (b.negate && cs.length > 1) || (Cond.orFreeL cs && (cs.drop 1).all fun c => !c.isOr)
/-- None of the texts has an OR outside brackets. -/
def Cond.orFreeL : List Cond → Bool
  | [] => true
  | c :: cs => c.orFree && Cond.orFreeL cs
end

/-- The next condition of a group, if any, is joined by OR. -/
def nextOr : List Cond → Bool
  | [] => true
  | c :: _ => c.isOr

mutual
/-- The brackets in the text say what the tree says. -/
def Cond.safe : Cond → Bool
  | .fieldc _ _ _ => true
  | .null _ _ => true
  | .custom _ _ => false
  | .group b cs br => Cond.safeL true cs && (!b.negate || br || cs.length > 1 || Cond.singleL cs)
/-- Every member of a group is one factor, or has no OR outside brackets, or stands alone between ORs; `first` says that
nothing is before it. -/
def Cond.safeL : Bool → List Cond → Bool
  | _, [] => true
  | first, c :: cs =>
    c.safe && (c.single || c.orFree || ((first || c.isOr) && nextOr cs)) && Cond.safeL false cs
end

/-- A leaf: no group, no user-defined condition. -/
def Cond.isLeaf : Cond → Bool
  | .fieldc _ _ _ => true
  | .null _ _ => true
  | _ => false

/-- The members of a group after the first are all joined by AND. -/
def allAnd (cs : List Cond) : Bool := (cs.drop 1).all fun c => !c.isOr

/-- The members of a group after the first are all joined by OR. -/
def allOr (cs : List Cond) : Bool := (cs.drop 1).all fun c => c.isOr

/-- The join word of the first member, which is not part of the group's text. -/
def headWord : List Cond → Str
  | [] => []
  | c :: _ => c.joinType

/-- What C09 asks of the receiver of And: a leaf, or a group that is not negated, and that has an OR between members or
none anywhere outside brackets. -/
def Cond.andRecv : Cond → Bool
  | .group b cs _ => !b.negate && (!allAnd cs || Cond.orFreeL cs)
  | c => c.isLeaf

/-- The members of the receiver are all joined by AND (or it is a leaf). -/
def Cond.recvAllAnd : Cond → Bool
  | .group _ cs _ => allAnd cs
  | _ => true

/-- The members of the receiver are all joined by OR (or it is a leaf). -/
def Cond.recvAllOr : Cond → Bool
  | .group _ cs _ => allOr cs
  | _ => true

/-- What C09 asks of a single argument of And: a leaf; a conjunction that is not negated and whose first member has join
word AND; two or more members joined by OR; or an OR between members, if the receiver has none. -/
def Cond.andArg : Cond → Cond → Bool
  | .group b cs _, recv =>
    (!b.negate && headWord cs == c!"AND" && Cond.orFreeL cs && allAnd cs)
      || (cs.length > 1 && allOr cs)
      || (!allAnd cs && recv.recvAllAnd)
  | c, _ => c.isLeaf

/-- What C09 asks of the arguments of And: one as in `Cond.andArg`, or several without OR outside brackets, and with join
word AND if the receiver has an OR. -/
def Cond.andArgs (recv : Cond) : List Cond → Bool
  | [] => true
  | [d] => d.andArg recv
  | ds => ds.all fun d => d.orFree && (recv.recvAllAnd || d.joinType == c!"AND")

/-- What C10 asks of the receiver of Or: a leaf, or a group that is not negated. -/
def Cond.orRecv : Cond → Bool
  | .group b _ _ => !b.negate
  | c => c.isLeaf

/-- What C10 asks of the argument of Or: a leaf; a group with an AND between members; or a group that is not negated and
whose first member has join word OR. -/
def Cond.orArg : Cond → Bool
  | .group b cs _ => !allOr cs || (!b.negate && headWord cs == c!"OR")
  | c => c.isLeaf

/-- What a chain of And and Or calls asks of the argument of And: a leaf; a conjunction that is not negated and whose first
member has join word AND; or two or more members joined by OR. -/
def Cond.stepAnd : Cond → Bool
  | .group b cs _ => (!b.negate && headWord cs == c!"AND" && Cond.orFreeL cs && allAnd cs) || (cs.length > 1 && allOr cs)
  | c => c.isLeaf

/-- What a chain of And and Or calls asks of the argument of Or: a leaf; a group with an AND between members; or a
disjunction that is not negated and whose first member has join word OR. -/
def Cond.stepOr : Cond → Bool
  | .group b cs _ => !allOr cs || (!b.negate && headWord cs == c!"OR" && Cond.orFreeL cs)
  | c => c.isLeaf

/-- A chain of method calls on a condition, Or (`true`) or And (`false`), with one argument each. -/
def callChain : Cond → List (Bool × Cond) → Res Cond
  | c, [] => .ok c
  | c, (true, d) :: steps => (c.or [d]).bind fun r => callChain r steps
  | c, (false, d) :: steps => callChain (c.and [d]) steps

/-- What a chain of calls should mean. -/
def chainMeans (y : Cond → Tri) : Tri → List (Bool × Cond) → Tri
  | x, [] => x
  | x, (true, d) :: steps => chainMeans y (x.or (y d)) steps
  | x, (false, d) :: steps => chainMeans y (x.and (y d)) steps

/-- What C12 asks of a single condition of a later Where call: a leaf; a group with an OR between members; or a
conjunction that is not negated and whose first member has join word AND. -/
def Cond.narrows : Cond → Bool
  | .group b cs _ => !allAnd cs || (!b.negate && headWord cs == c!"AND" && Cond.orFreeL cs)
  | c => c.isLeaf

/-- What C12 asks of the conditions of the first Where call: no OR outside brackets, join word AND after the first. -/
def whereFirst (ds : List Cond) : Bool := (ds.all fun d => d.orFree) && (ds.drop 1).all fun d => d.joinType == c!"AND"

/-- What C12 asks of the conditions of a later Where call. -/
def whereNext : List Cond → Bool
  | [] => true
  | [d] => d.narrows
  | ds => ds.all fun d => d.orFree

/-- What C12 asks of a chain of Where calls. -/
def whereCalls : List (List Cond) → Bool
  | [] => true
  | [] :: calls => whereCalls calls
  | (d :: ds) :: calls => whereFirst (d :: ds) && calls.all whereNext

/-- Conjunction. -/
def allOf (xs : List Tri) : Tri := xs.foldr Tri.and .t

/-- Disjunction. -/
def anyOf (xs : List Tri) : Tri := xs.foldr Tri.or .f

end Query
