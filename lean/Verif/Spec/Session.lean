import Verif.Spec.Reading
/-!
# A program that writes into the lists it was given

Specification for C48.
-/
namespace Query

/-- The two stores differ at most in the cells of this array. -/
def Store.OnlyAt {α : Type} (a : Nat) (st st' : Store α) : Prop := st.length = st'.length ∧ ∀ b, b ≠ a → st[b]? = st'[b]?

/-- The program writes anything into the array behind a result (also beyond its length, as `append` does). -/
def Overwrites : HOut → RMem → RMem → Prop
  | .query _ p, m, m' | .vals p, m, m' => m'.mem = m.mem ∧ Store.OnlyAt p.arr m.par m'.par
  | .text _, m, m' => m' = m
  | .conds s, m, m' => m'.par = m.par ∧ (∃ cs, m'.mem = { m.mem with conds := cs } ∧ Store.OnlyAt s.arr m.mem.conds cs)
  | .defs s, m, m' => m'.par = m.par ∧ (∃ fs, m'.mem = { m.mem with defs := fs } ∧ Store.OnlyAt s.arr m.mem.defs fs)

/-- The memories a program can get to, and the results it holds, by reading values and by writing into the results it holds. -/
inductive Session (gr : Grow) (d : Nat) (hs : List HV) (m0 : RMem) : RMem → List HOut → Prop
  | start : Session gr d hs m0 m0 []
  | look {m m' : RMem} {outs : List HOut} {r : Nat} {h : HV} {l : Look} {o : HOut} : Session gr d hs m0 m outs →
      hs[r]? = some h → h.look gr d m l = .ok (m', o) → Session gr d hs m0 m' (o :: outs)
  | write {m m' : RMem} {outs : List HOut} {o : HOut} : Session gr d hs m0 m outs → o ∈ outs → Overwrites o m m' →
      Session gr d hs m0 m' outs

end Query
