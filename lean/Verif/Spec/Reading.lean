import Verif.Heap.Read
import Verif.Spec.Repr
/-!
# What it means that reading changes nothing

Specification for C36.
-/
namespace Query

/-- Every array there was still is there, with exactly the cells it had; new arrays may follow. -/
structure Kept (m m' : RMem) : Prop where
  conds : m.mem.conds <+: m'.mem.conds
  joins : m.mem.joins <+: m'.mem.joins
  sorts : m.mem.sorts <+: m'.mem.sorts
  vals : m.mem.vals <+: m'.mem.vals
  defs : m.mem.defs <+: m'.mem.defs
  par : m.par <+: m'.par

/-- A result in memory stands for a plain result: same text, same elements. -/
def RepOut (m : RMem) : HOut → POut → Prop
  | .query s p, .query s' vs => s = s' ∧ RepS m.par p vs
  | .text s, .text s' => s = s'
  | .vals p, .vals vs => RepS m.par p vs
  | .conds s, .conds cs =>
    s.arr < m.mem.conds.length ∧ s.len ≤ (m.mem.conds.cells s.arr).length ∧ RepL m.mem.conds (m.mem.conds.read s) cs
  | .defs s, .defs fs => RepS m.mem.defs s fs
  | _, _ => False

/-- The slice a result gives out is new: it shares no array with anything in `m`. -/
def NewOut (m : RMem) : HOut → Prop
  | .query _ p => m.par.length ≤ p.arr
  | .text _ => True
  | .vals p => m.par.length ≤ p.arr
  | .conds s => m.mem.conds.length ≤ s.arr
  | .defs s => m.mem.defs.length ≤ s.arr

/-- Success stands for success with such a result, the same error for an error, the same panic for a panic. -/
def RepRes {α β : Type} (R : α → β → Prop) : Res α → Res β → Prop
  | .ok a, .ok b => R a b
  | .err e, .err e' => e = e'
  | .panic p, .panic p' => p = p'
  | _, _ => False

/-- A result with the elements of its slice. -/
inductive Content where
  | query (sql : Str) (params : List Val)
  | text (sql : Str)
  | vals (params : List Val)
  | conds (cs : List HCond)
  | defs (fs : List FieldDef)

/-- What a program finds in a result. -/
def HOut.content (m : RMem) : HOut → Content
  | .query s p => .query s (m.par.read p)
  | .text s => .text s
  | .vals p => .vals (m.par.read p)
  | .conds s => .conds (m.mem.conds.read s)
  | .defs s => .defs (m.mem.defs.read s)

/-- What a program finds in a result, right after the call; or the error, or the panic. -/
def contentNow : Res (RMem × HOut) → Res Content
  | .ok (m, o) => .ok (o.content m)
  | .err e => .err e
  | .panic p => .panic p

/-- What a program finds in a result it holds, when the memory is `m`. -/
def contentIn (m : RMem) : Res HOut → Res Content
  | .ok o => .ok (o.content m)
  | .err e => .err e
  | .panic p => .panic p

/-- Groups nest at most so deep. -/
def HCond.nested (st : Store HCond) : Nat → HCond → Prop
  | _, .leaf _ => True
  | 0, .group _ _ _ => False
  | d + 1, .group _ s _ => ∀ c ∈ st.read s, HCond.nested st d c

/-- The conditions of a value nest at most so deep. -/
def HV.nested (m : Mem) (d : Nat) : HV → Prop
  | .cond c => c.nested m.conds d
  | .base q | .single q | .count q _ | .joinB q | .joinS q => q.where_.toCond.nested m.conds d
  | .many q | .joinM q => q.base.where_.toCond.nested m.conds d
  | .insert _ => True
  | .update q => q.where_.toCond.nested m.conds d
  | .delete q => q.where_.toCond.nested m.conds d

/-- The results of plain reading calls. -/
def lookAllPure (ps : List PV) (ls : List (Nat × Look)) : List (Res POut) :=
  ls.map fun rl =>
    match ps[rl.1]? with
    | none => noMethod
    | some p => p.look rl.2

/-- Results one by one. -/
def RepOuts (m : RMem) : List (Res HOut) → List (Res POut) → Prop
  | [], [] => True
  | a :: as, b :: bs => RepRes (RepOut m) a b ∧ RepOuts m as bs
  | _, _ => False

/-- After a history, the reading call `l` on its value number `r` gives `out`, whatever arrays of parameters there are and
for every depth bound that is large enough. -/
def ReadsAs (pol : Policy) (gr : Grow) (cs : List Call) (r : Nat) (l : Look) (out : Res POut) : Prop :=
  ∃ m hs h, runHeap pol Mem.empty [] cs = some (m, hs) ∧ hs[r]? = some h ∧
    ∃ D, ∀ d ≥ D, ∀ par, RepRes (fun a b => RepOut a.1 a.2 b) (h.look gr d ⟨m, par⟩ l) out

/-- Calls made after a history change what reading an earlier value gives. -/
def Changes (pol : Policy) (gr : Grow) (cs cs' : List Call) (r : Nat) (l : Look) : Prop :=
  ∃ out, ReadsAs pol gr cs r l out ∧ ¬ ReadsAs pol gr (cs ++ cs') r l out

/-- `append` never leaves spare capacity. -/
def NoSpare (pol : Policy) : Prop :=
  (∀ a c n, pol.conds a c n = 0) ∧ (∀ a c n, pol.joins a c n = 0) ∧ (∀ a c n, pol.sorts a c n = 0) ∧ ∀ a c n, pol.vals a c n = 0

end Query
