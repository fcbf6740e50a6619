import Verif.Props.Immutable
import Verif.Spec.Session
import Verif.Heap.Access
/-!
# C48: lists that are handed out
-/
namespace Query

theorem onlyAt_prefix {α : Type} {a : Nat} {st0 st st' : Store α} (h : st0 <+: st) (ha : st0.length ≤ a) (o : Store.OnlyAt a st st') :
    st0 <+: st' := by
  obtain ⟨t, rfl⟩ := h
  have e : st0 = st'.take st0.length := by
    apply List.ext_getElem?
    intro i
    by_cases hi : i < st0.length
    · have := o.2 i (by omega)
      rw [List.getElem?_append_left hi] at this
      rw [this, List.getElem?_take_of_lt hi]
    · rw [List.getElem?_eq_none (by omega), List.getElem?_eq_none (by simp; omega)]
  rw [e]
  exact List.take_prefix _ _

theorem newOut_mono {m m' : RMem} (k : Kept m m') {o : HOut} (h : NewOut m' o) : NewOut m o := by
  cases o <;> simp only [NewOut] at h ⊢
  · exact Nat.le_trans k.par.length_le h
  · exact Nat.le_trans k.par.length_le h
  · exact Nat.le_trans k.conds.length_le h
  · exact Nat.le_trans k.defs.length_le h

theorem kept_overwrites {m0 m m' : RMem} (k : Kept m0 m) {o : HOut} (hn : NewOut m0 o) (h : Overwrites o m m') : Kept m0 m' := by
  cases o with
  | query s p =>
    obtain ⟨e, h⟩ := h
    exact ⟨e ▸ k.conds, e ▸ k.joins, e ▸ k.sorts, e ▸ k.vals, e ▸ k.defs, onlyAt_prefix k.par hn h⟩
  | vals p =>
    obtain ⟨e, h⟩ := h
    exact ⟨e ▸ k.conds, e ▸ k.joins, e ▸ k.sorts, e ▸ k.vals, e ▸ k.defs, onlyAt_prefix k.par hn h⟩
  | text s => simp only [Overwrites] at h; subst h; exact k
  | conds s =>
    obtain ⟨e, cs, e', h⟩ := h
    exact ⟨e' ▸ onlyAt_prefix k.conds hn h, e' ▸ k.joins, e' ▸ k.sorts, e' ▸ k.vals, e' ▸ k.defs, e ▸ k.par⟩
  | defs s =>
    obtain ⟨e, cs, e', h⟩ := h
    exact ⟨e' ▸ k.conds, e' ▸ k.joins, e' ▸ k.sorts, e' ▸ k.vals, e' ▸ onlyAt_prefix k.defs hn h, e ▸ k.par⟩

/-- **C48.**  After any history (branching, Apply calls, groups that contain themselves), a program that reads the values and writes
whatever it likes into the parameter lists, condition lists and field lists it got, in any order, never changes an array that a
builder or condition uses: every reading call on every value still gives what it would have given before.  Missing: `SetValues`
(`C48_setValues_false`). -/
theorem C48_handed_out_partial (pol : Policy) (cs : List Call) (m : Mem) (hs : List HV)
    (h : runHeap pol Mem.empty [] cs = some (m, hs)) (d : Nat) (gr : Grow) (par : Store Val) (m' : RMem) (outs : List HOut)
    (hse : Session gr d hs ⟨m, par⟩ m' outs) :
    Kept ⟨m, par⟩ m' ∧ ∀ (i : Nat) (x : HV) (l : Look), hs[i]? = some x →
      contentNow (x.look gr d m' l) = contentNow (x.look gr d ⟨m, par⟩ l) := by
  obtain ⟨sb, hb⟩ := run_bnd0 pol cs (m, hs) h
  have inv : Kept ⟨m, par⟩ m' ∧ ∀ o ∈ outs, NewOut ⟨m, par⟩ o := by
    induction hse with
    | start => exact ⟨Kept.refl _, by simp⟩
    | @look m1 m2 outs r x k o _ hx hl ih =>
      have s := same_look gr d m1 x (fine_kept ih.1 d sb (hb r x hx)) k
      rw [hl] at s
      cases hp : x.lookP d m1.mem k with
      | ok b =>
        rw [hp] at s
        obtain ⟨a, ea, s1, _, _, s3⟩ := s
        simp at ea
        subst ea
        refine ⟨ih.1.trans s1, ?_⟩
        intro o' ho'
        rcases List.mem_cons.mp ho' with rfl | ho'
        · exact newOut_mono ih.1 s3
        · exact ih.2 o' ho'
      | err e => rw [hp] at s; simp [SimR] at s
      | panic e => rw [hp] at s; simp [SimR] at s
    | write _ ho hw ih => exact ⟨kept_overwrites ih.1 (ih.2 _ ho) hw, ih.2⟩
  exact ⟨inv.1, fun i x l hx => look_kept gr gr d inv.1 x sb (hb i x hx) l⟩

/-- A history with a query, and a session that reads its parameters and overwrites them. -/
example : ∃ m hs m1 o m2, runHeap goPolicy Mem.empty [] (wWhere.take 7) = some (m, hs) ∧
    Session goGrow 3 hs ⟨m, []⟩ m1 [o] ∧ Overwrites o m1 m2 ∧ m2.par ≠ m1.par := by
  refine ⟨_, _, ⟨_, [[], [.other 0], [], [.other 0], [.other 0], [.other 0]]⟩, .query _ ⟨5, 1, 1⟩,
    ⟨_, [[], [.other 0], [], [.other 0], [.other 0], [.other 9, .other 8]]⟩, rfl,
    .look (r := 6) (l := .build) .start rfl rfl, ⟨rfl, rfl, fun b hb => ?_⟩, by simp⟩
  match b with
  | 0 | 1 | 2 | 3 | 4 => rfl
  | 5 => exact absurd rfl hb
  | b + 6 => rfl

/-- **C48, false for SetValues.**  `vs := q.SetValues(); vs[0] = z` changes the query of `q`. -/
theorem C48_setValues_false : ∃ m hs q, runHeap goPolicy Mem.empty [] (wValues.take 3) = some (m, hs) ∧ hs[2]? = some (.insert q) ∧
    ∀ d, outText (HV.look goGrow d ⟨m, []⟩ (.insert q) .build) = some c!"INSERT INTO t(a, b) VALUES ($1, $2)" ∧
      outText (HV.look goGrow d (RMem.setValue ⟨m, []⟩ q.getValues 0 (wVal c!"z")) (.insert q) .build) =
        some c!"INSERT INTO t(z, b) VALUES ($1, $2)" :=
  ⟨_, _, _, rfl, rfl, fun _ => ⟨rfl, rfl⟩⟩

end Query
