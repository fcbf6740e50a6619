import Verif.Heap.Passed
import Verif.Heap.Values
import Verif.Spec.Reading
/-!
# Lists passed to calls

Specification for C73.
-/
namespace Query

/-! ## Slices given as values -/

/-- The value with what its slice holds now. -/
def RVal.now (m : VMem) : RVal → Val
  | .plain v => v
  | .valuers s => .valuers (m.elems.read s)
  | .providers s => .providers (m.elems.read s)
  | .strs s => .strs (m.strs.read s)
  | .reflSlice s => .reflSlice (m.elems.read s)

/-! ## The program with the elements written out -/

/-- A list as the program sees it; conditions by the numbers of the values put in. -/
inductive PLst where
  | conds (ns : List Nat)
  | defs (fs : List FieldDef)
  | sorts (os : List FieldSorting)
  | vals (vs : List FieldValue)

/-- A step with the elements of the list, as they are now, written out: the call, if the step is one, and the lists after it. -/
def PStep.spell (ps : List PV) (ls : List PLst) : PStep → Option (Option Call × List PLst)
  | .call c => some (some c, ls)
  | .listConds ns => (getConds ps ns).map fun _ => (none, ls ++ [.conds ns])
  | .listDefs fs => some (none, ls ++ [.defs fs])
  | .listSorts os => some (none, ls ++ [.sorts os])
  | .listVals vs => some (none, ls ++ [.vals vs])
  | .putCond u i n =>
    match ls[u]?, ps[n]? with
    | some (.conds ns), some (.cond _) => if i < ns.length then some (none, ls.set u (.conds (ns.set i n))) else none
    | _, _ => none
  | .putDef u i f =>
    match ls[u]? with
    | some (.defs fs) => if i < fs.length then some (none, ls.set u (.defs (fs.set i f))) else none
    | _ => none
  | .putSort u i o =>
    match ls[u]? with
    | some (.sorts os) => if i < os.length then some (none, ls.set u (.sorts (os.set i o))) else none
    | _ => none
  | .putVal u i v =>
    match ls[u]? with
    | some (.vals vs) => if i < vs.length then some (none, ls.set u (.vals (vs.set i v))) else none
    | _ => none
  | .newGroup j u =>
    match ls[u]? with
    | some (.conds ns) => some (some (.newGroup j ns), ls)
    | _ => none
  | .andF r u =>
    match ls[u]? with
    | some (.conds ns) => some (some (.andF r ns), ls)
    | _ => none
  | .orF r u =>
    match ls[u]? with
    | some (.conds ns) => some (some (.orF r ns), ls)
    | _ => none
  | .and r u =>
    match ls[u]? with
    | some (.conds ns) => some (some (.and r ns), ls)
    | _ => none
  | .or r u =>
    match ls[u]? with
    | some (.conds ns) => some (some (.or r ns), ls)
    | _ => none
  | .where_ r u =>
    match ls[u]? with
    | some (.conds ns) => some (some (.where_ r ns), ls)
    | _ => none
  | .fields r u =>
    match ls[u]? with
    | some (.defs fs) => some (some (.fields r fs), ls)
    | _ => none
  | .orderBy r u =>
    match ls[u]? with
    | some (.sorts os) => some (some (.orderBy r os), ls)
    | _ => none
  | .insertFrom r u =>
    match ls[u]? with
    | some (.vals vs) => some (some (.insertFrom r vs), ls)
    | _ => none
  | .values r u =>
    match ls[u]? with
    | some (.vals vs) => some (some (.values r vs), ls)
    | _ => none
  | .updateFrom r u =>
    match ls[u]? with
    | some (.vals vs) => some (some (.updateFrom r vs), ls)
    | _ => none
  | .set r u =>
    match ls[u]? with
    | some (.vals vs) => some (some (.set r vs), ls)
    | _ => none

/-- A program with the elements of every list written out at every call: the calls, the plain values they make, and what the
lists hold at the end. -/
def spellOut (ps : List PV) (ls : List PLst) : List PStep → Option (List Call × List PV × List PLst)
  | [] => some ([], ps, ls)
  | p :: rest =>
    match p.spell ps ls with
    | none => none
    | some (none, ls') => spellOut ps ls' rest
    | some (some c, ls') =>
      match c.pure ps with
      | none => none
      | some v => (spellOut (ps ++ [v]) ls' rest).map fun x => (c :: x.1, x.2)

/-- The value number `r` of a program, read by `l`, gives `out`. -/
def Prog.ReadsAs (gr : Grow) (s : Prog) (r : Nat) (l : Look) (out : Res POut) : Prop :=
  ∃ h, s.hs[r]? = some h ∧ ∃ D, ∀ d ≥ D, ∀ par, RepRes (fun a b => RepOut a.1 a.2 b) (h.look gr d ⟨s.mem, par⟩ l) out

/-- A list in memory holds what the program has put in. -/
def Lst.Holds (s : Prog) : Lst → PLst → Prop
  | .conds l, .conds ns => getCondsH s.hs ns = some (s.mem.conds.read l)
  | .defs l, .defs fs => s.mem.defs.read l = fs
  | .sorts l, .sorts os => s.mem.sorts.read l = os
  | .vals l, .vals vs => s.mem.vals.read l = vs
  | _, _ => False

/-! ## What belongs to the lists -/

/-- The array of conditions belongs to a list. -/
def inConds (ls : List Lst) (a : Nat) : Prop := ∃ l, Lst.conds l ∈ ls ∧ l.arr = a
/-- The array of fields belongs to a list. -/
def inDefs (ls : List Lst) (a : Nat) : Prop := ∃ l, Lst.defs l ∈ ls ∧ l.arr = a
/-- The array of sorts belongs to a list. -/
def inSorts (ls : List Lst) (a : Nat) : Prop := ∃ l, Lst.sorts l ∈ ls ∧ l.arr = a
/-- The array of values belongs to a list. -/
def inVals (ls : List Lst) (a : Nat) : Prop := ∃ l, Lst.vals l ∈ ls ∧ l.arr = a

/-- The memories differ at most in what the lists hold. -/
structure OnlyLists (ls : List Lst) (m m' : Mem) : Prop where
  conds : ∀ a, ¬ inConds ls a → m'.conds[a]? = m.conds[a]?
  defs : ∀ a, ¬ inDefs ls a → m'.defs[a]? = m.defs[a]?
  sorts : ∀ a, ¬ inSorts ls a → m'.sorts[a]? = m.sorts[a]?
  vals : ∀ a, ¬ inVals ls a → m'.vals[a]? = m.vals[a]?
  joins : m'.joins = m.joins

/-- The array of the list is the same in both memories. -/
def Lst.Same (m m' : Mem) : Lst → Prop
  | .conds l => m'.conds[l.arr]? = m.conds[l.arr]?
  | .defs l => m'.defs[l.arr]? = m.defs[l.arr]?
  | .sorts l => m'.sorts[l.arr]? = m.sorts[l.arr]?
  | .vals l => m'.vals[l.arr]? = m.vals[l.arr]?

/-- A step that writes into a list. -/
def PStep.isPut : PStep → Bool
  | .putCond _ _ _ | .putDef _ _ _ | .putSort _ _ _ | .putVal _ _ _ => true
  | _ => false

end Query
