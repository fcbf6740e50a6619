import Verif.Model.Write
/-!
# Memory: arrays, slices, append

Go's slices as the library uses them: a header names a backing array, a length and a capacity.  The library never reslices,
so every slice starts at the first cell of its array.
-/
namespace Query

/-- A slice header.  A nil slice is a header with capacity 0 (as for `append` and reading). -/
structure Sl where
  arr : Nat
  len : Nat
  cap : Nat
  deriving DecidableEq, Repr

/-- Backing arrays by number; of each, the cells written so far. -/
abbrev Store (α : Type) := List (List α)

/-- What `append` chooses when it has to allocate: for the number of the new array, the old capacity and the needed length,
how many cells more than needed the new array has. -/
abbrev Grow := Nat → Nat → Nat → Nat

/-- Go's choice for small slices (runtime.growslice): double the old capacity if that is enough. -/
def goGrow : Grow := fun _ cap need => 2 * cap - need

/-- Cells written from index `i` on. -/
def writeAt {α : Type} (cs : List α) (i : Nat) (xs : List α) : List α := cs.take i ++ xs ++ cs.drop (i + xs.length)

namespace Store
variable {α : Type}

/-- The cells of an array. -/
def cells (st : Store α) (a : Nat) : List α := (st[a]?).getD []

/-- The elements of a slice. -/
def read (st : Store α) (s : Sl) : List α := (st.cells s.arr).take s.len

/-- A new array with these cells and this capacity, and a slice of all of them. -/
def alloc (st : Store α) (xs : List α) (cap : Nat) : Store α × Sl := (st ++ [xs], ⟨st.length, xs.length, cap⟩)

/-- `make` of this length and filling it, or a slice literal: capacity is length. -/
def make (st : Store α) (xs : List α) : Store α × Sl := st.alloc xs xs.length

/-- `append(s, xs...)`: in place when the capacity allows, otherwise a copy in a new array. -/
def append (gr : Grow) (st : Store α) (s : Sl) (xs : List α) : Store α × Sl :=
  if s.len + xs.length ≤ s.cap then
    (st.set s.arr (writeAt (st.cells s.arr) s.len xs), { s with len := s.len + xs.length })
  else st.alloc (st.read s ++ xs) (s.len + xs.length + gr st.length s.cap (s.len + xs.length))

/-- `s[i] = x`. -/
def write (st : Store α) (s : Sl) (i : Nat) (x : α) : Store α := st.set s.arr ((st.cells s.arr).set i x)

end Store

end Query
