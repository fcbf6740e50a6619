import Verif.Spec.Lists
import Verif.Spec.Reading
/-!
# Goroutines

Specification for C74.  Some values are made first; then goroutines go on, each with calls of its own on the values made first and on
its own values.  They take turns in any order, a call at a time.
-/
namespace Query

/-- The call with its operands renumbered. -/
def Call.rename (f : Nat → Nat) : Call → Call
  | .leaf c => .leaf c
  | .newGroup j args => .newGroup j (args.map f)
  | .andF r args => .andF (f r) (args.map f)
  | .orF r args => .orF (f r) (args.map f)
  | .and r args => .and (f r) (args.map f)
  | .or r args => .or (f r) (args.map f)
  | .negate r n => .negate (f r) n
  | .join r j => .join (f r) j
  | .withBrackets r => .withBrackets (f r)
  | .applySpec r spec => .applySpec (f r) spec
  | .applyTable r t => .applyTable (f r) t
  | .selectFrom p => .selectFrom p
  | .fields r fs => .fields (f r) fs
  | .where_ r args => .where_ (f r) (args.map f)
  | .joinTable r t j => .joinTable (f r) t j
  | .on r l x => .on (f r) l x
  | .single r => .single (f r)
  | .embedded r => .embedded (f r)
  | .many r => .many (f r)
  | .offset r n => .offset (f r) n
  | .limit r n => .limit (f r) n
  | .orderBy r os => .orderBy (f r) os
  | .count r fs => .count (f r) fs
  | .insertInto p => .insertInto p
  | .insertFrom r vs => .insertFrom (f r) vs
  | .values r vs => .values (f r) vs
  | .update p => .update p
  | .updateFrom r vs => .updateFrom (f r) vs
  | .set r vs => .set (f r) vs
  | .delete p => .delete p
  | .deleteFrom r => .deleteFrom (f r)

/-- The numbers a goroutine uses, in the numbering of all calls: the first `n` values are shared, the others its own. -/
def place (n : Nat) (own : List Nat) (i : Nat) : Nat := if i < n then i else (own[i - n]?).getD 0

/-- The calls made so far after the shared ones, and for every goroutine the numbers of its values among all values. -/
structure Weave where
  calls : List Call
  own : Nat → List Nat

/-- The next call of goroutine `t`, if it has one left. -/
def Weave.step (n : Nat) (prog : Nat → List Call) (w : Weave) (t : Nat) : Weave :=
  match (prog t)[(w.own t).length]? with
  | none => w
  | some c => ⟨w.calls ++ [c.rename (place n (w.own t))], fun u => if u = t then w.own t ++ [n + w.calls.length] else w.own u⟩

/-- The calls of all goroutines in the order of a schedule. -/
def weave (n : Nat) (prog : Nat → List Call) (sched : List Nat) : Weave := sched.foldl (Weave.step n prog) ⟨[], fun _ => []⟩

/-- The lists of the values after some calls, as in `extendedLists`. -/
def tracks (as : List Act) : List (Option Nat) := as.foldl Act.push []

/-- The lists that calls extend after the shared ones. -/
def extends_ (act : Call → Act) (cs p : List Call) : List Nat := extendedLists (tracks (cs.map act)) (p.map act)

/-- The goroutines keep apart: each by itself extends no list twice and completes no join twice, and no list of the shared values is
extended, no join completed, by two of them. -/
structure KeepApart (cs : List Call) (prog : Nat → List Call) : Prop where
  lists : ∀ t, ListsOnce (cs ++ prog t)
  joins : ∀ t, JoinsOnce (cs ++ prog t)
  shared : ∀ act ∈ [Call.condsAct, Call.joinsAct, Call.sortsAct, Call.valsAct], ∀ t u, t ≠ u → ∀ x < cs.length,
    x ∈ extends_ act cs (prog t) → x ∉ extends_ act cs (prog u)
  completed : ∀ t u, t ≠ u → ∀ x < cs.length, x ∈ (prog t).filterMap Call.completes → x ∉ (prog u).filterMap Call.completes

/-- Every cell keeps its content; there may be new ones. -/
def CellsKept {α : Type} (st st' : Store α) : Prop := ∀ (a k : Nat) (x : α), (st.cells a)[k]? = some x → (st'.cells a)[k]? = some x

/-- A call writes new cells only, except that `On` writes the last join of its operand. -/
structure WritesNew (m m' : Mem) (hs : List HV) (c : Call) : Prop where
  conds : CellsKept m.conds m'.conds
  sorts : CellsKept m.sorts m'.sorts
  vals : CellsKept m.vals m'.vals
  defs : CellsKept m.defs m'.defs
  joins : ∀ (a k : Nat) (x : TableJoiner), (m.joins.cells a)[k]? = some x → (m'.joins.cells a)[k]? = some x ∨
    ∃ (r : Nat) (h : HV) (s : Sl), c.completes = some r ∧ hs[r]? = some h ∧ h.joinsSl = some s ∧ a = s.arr ∧ k = s.len - 1

/-! ## Calls that overlap in time -/

/-- The memory after the first `n` calls. -/
def memAt (pol : Policy) (cs : List Call) (n : Nat) : Mem := ((runHeap pol Mem.empty [] (cs.take n)).map (·.1)).getD Mem.empty

/-- What may be seen between two moments: each cell that was there at the first is as it was at some moment in between, every cell at
a moment of its own.  The other cells, which may be about to be written, may hold anything. -/
def GlimpseOf {α : Type} (at_ : Nat → Store α) (j k : Nat) (R : Store α) : Prop :=
  R.length = (at_ k).length ∧ ∀ (a i : Nat) (x : α), ((at_ j).cells a)[i]? = some x →
    ∃ n, j ≤ n ∧ n ≤ k ∧ (R.cells a)[i]? = ((at_ n).cells a)[i]?

/-- The same for all of the memory. -/
structure Glimpse (at_ : Nat → Mem) (j k : Nat) (R : Mem) : Prop where
  conds : GlimpseOf (fun n => (at_ n).conds) j k R.conds
  joins : GlimpseOf (fun n => (at_ n).joins) j k R.joins
  sorts : GlimpseOf (fun n => (at_ n).sorts) j k R.sorts
  vals : GlimpseOf (fun n => (at_ n).vals) j k R.vals
  defs : GlimpseOf (fun n => (at_ n).defs) j k R.defs

/-- Two memories change by the same writes: a cell is left as it is in both, or gets the same content. -/
structure SameWrites {α : Type} (st st' R R' : Store α) : Prop where
  size : R'.length = st'.length
  cells : ∀ (a i : Nat), ((st'.cells a)[i]? = (st.cells a)[i]? ∧ (R'.cells a)[i]? = (R.cells a)[i]?) ∨
    ∃ x, (st'.cells a)[i]? = some x ∧ (R'.cells a)[i]? = some x

/-- The same for all of the memory. -/
structure SameM (m m' R R' : Mem) : Prop where
  conds : SameWrites m.conds m'.conds R.conds R'.conds
  joins : SameWrites m.joins m'.joins R.joins R'.joins
  sorts : SameWrites m.sorts m'.sorts R.sorts R'.sorts
  vals : SameWrites m.vals m'.vals R.vals R'.vals
  defs : SameWrites m.defs m'.defs R.defs R'.defs

end Query
