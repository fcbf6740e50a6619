import Verif.Spec.Hyp
/-!
# Texts made of fixed pieces and placeholders

A text with placeholders is described without reading it: a list of pieces, each a fixed text or the placeholder of the `i`-th
parameter.  The list says which dollar signs are placeholders, so names may contain dollar signs, question marks and digits.
-/
namespace Query

/-- A piece of a text: words printed as they are, or the placeholder of the parameter with this index (from 0). -/
inductive Piece where
  | txt (s : Str)
  | hole (i : Nat)
  deriving DecidableEq, Repr

/-- A piece in the numbered dialect, after `k` other parameters: `$k+i+1` for the parameter `i`. -/
def Piece.numbered (k : Nat) : Piece → Str
  | .txt s => s
  | .hole i => '$' :: itoa (k + i + 1)

/-- A piece in the question-mark dialect. -/
def Piece.question : Piece → Str
  | .txt s => s
  | .hole _ => ['?']

/-- The text in the numbered dialect. -/
def numberedText (k : Nat) (ps : List Piece) : Str := ps.flatMap (Piece.numbered k)

/-- The text in the question-mark dialect. -/
def questionText (ps : List Piece) : Str := ps.flatMap Piece.question

/-- The parameters whose placeholders occur, from left to right. -/
def holes : List Piece → List Nat
  | [] => []
  | .txt _ :: ps => holes ps
  | .hole i :: ps => i :: holes ps

/-- No digit directly follows a placeholder, whatever the numbers: a reader of the numbered text sees each number whole. -/
def Ended : List Piece → Prop
  | [] => True
  | .txt _ :: ps => Ended ps
  | .hole _ :: ps => (∀ k, ∀ c ∈ (numberedText k ps).head?, c.isDigit = false) ∧ Ended ps

/-- The two renderings of one text: fixed words are the same in both, placeholders differ. -/
def Says (ps : List Piece) (q : Str) (r : Nat → Str) : Prop := q = questionText ps ∧ ∀ k, r k = numberedText k ps

/-- A user's own condition that keeps the contract of both renderings (interfaces.go:88-97). -/
def KeepsContract : Cond → Prop
  | .custom b x => ∃ ps, Says ps (x.textSQL x.fd b.negate) (x.text x.fd b.negate)
  | _ => True

/-- As `KeepsContract`; besides, comparisons other than IN have one value and a user's own condition one placeholder per value, in
order. -/
def OneEach : Cond → Prop
  | .custom b x => ∃ ps, Says ps (x.textSQL x.fd b.negate) (x.text x.fd b.negate) ∧ holes ps = List.range x.vals.length ∧
      Ended ps
  | .fieldc .inn _ _ => True
  | .fieldc .like _ _ => True
  | .fieldc .ilike _ _ => True
  | .fieldc _ _ fv => OneParam fv
  | _ => True

/-- Join words between the members of a group are not empty. -/
def SpacedNode : Cond → Prop
  | .group _ cs _ => ∀ c ∈ cs.drop 1, c.joinType ≠ []
  | _ => True

/-- The pieces after the base select of a many select that has `n` parameters: ordering, then OFFSET, then LIMIT. -/
def pagePieces (order : Str) (offset : Nat) (limit : Int) (n : Nat) : List Piece :=
  (if order = [] then [] else [.txt (c!" ORDER BY " ++ order)]) ++
  (if offset > 0 then [.txt c!" OFFSET ", .hole n] else []) ++
  (if limit > 0 then [.txt c!" LIMIT ", .hole (if offset > 0 then n + 1 else n)] else [])

end Query
