import Verif.Props.HandedOut
import Verif.Props.Shared
/-!
# C48: what writing into the slice of SetValues does
-/
namespace Query

/-- The slice `SetValues` gives out, insert.go:22-24, update.go:23-25. -/
def HV.valSlice : HV → Option Sl
  | .insert q => some q.getValues
  | .update q => some q.getValues
  | _ => none

/-- The values of an insert or update builder. -/
def PV.valList : PV → List FieldValue
  | .insert q => q.setValues
  | .update q => q.setValues
  | _ => []

/-- The builder with another value at a place of its list. -/
def PV.setAt (i : Nat) (fv : FieldValue) : PV → PV
  | .insert q => .insert { q with setValues := q.setValues.set i fv }
  | .update q => .update { q with setValues := q.setValues.set i fv }
  | p => p

theorem read_setAt {α : Type} (st : Store α) (s s' : Sl) (i : Nat) (x : α) (h : s.arr < st.length) :
    (st.write s i x).read s' = if s'.arr = s.arr then (st.read s').set i x else st.read s' := by
  unfold Store.write Store.read Store.cells
  split
  · rename_i e
    rw [e, List.getElem?_set_self h]
    simp [List.take_set, List.getElem?_eq_getElem h]
  · rename_i e
    rw [List.getElem?_set_ne (fun k => e k.symm)]

theorem repS_write {α : Type} {st : Store α} {s s' : Sl} {xs : List α} (i : Nat) (x : α) (h : s.arr < st.length)
    (r : RepS st s' xs) : RepS (st.write s i x) s' (if s'.arr = s.arr then xs.set i x else xs) := by
  refine ⟨by simpa [Store.write] using r.1, ?_, ?_⟩
  · have := r.2.1
    unfold Store.write Store.cells at *
    by_cases e : s'.arr = s.arr
    · rw [e, List.getElem?_set_self h]
      rw [e] at this
      simpa using this
    · rw [List.getElem?_set_ne (fun k => e k.symm)]
      exact this
  · rw [read_setAt st s s' i x h, r.2.2]

theorem repV_write {m : Mem} {s : Sl} {y : HV} {p : PV} (i : Nat) (fv : FieldValue) (h : s.arr < m.vals.length) (r : RepV m y p) :
    RepV { m with vals := m.vals.write s i fv } y (if (y.valSlice.map Sl.arr) = some s.arr then p.setAt i fv else p) := by
  have hb : ∀ {h : HBase} {q : BaseSelect}, RepB m h q → RepB { m with vals := m.vals.write s i fv } h q :=
    fun r => ⟨r.op, r.tbl, r.joins, r.fields, r.cond⟩
  have hm : ∀ {h : HMany} {q : SelectMany}, RepM m h q → RepM { m with vals := m.vals.write s i fv } h q :=
    fun r => ⟨hb r.base, r.offset, r.limit, r.order, r.spec⟩
  cases y <;> cases p <;> simp only [RepV] at r
  · rw [if_neg (by simp [HV.valSlice])]; exact r
  · rw [if_neg (by simp [HV.valSlice])]; exact hb r
  · rw [if_neg (by simp [HV.valSlice])]; exact hb r
  · rw [if_neg (by simp [HV.valSlice])]; exact hm r
  · rw [if_neg (by simp [HV.valSlice])]; exact ⟨hb r.1, r.2⟩
  · have k := repS_write i fv h r.2.2
    simp only [HV.valSlice, Option.map_some, Option.some.injEq, HInsert.getValues]
    split
    · rename_i e; rw [if_pos e] at k; exact ⟨r.1, r.2.1, k⟩
    · rename_i e; rw [if_neg e] at k; exact ⟨r.1, r.2.1, k⟩
  · have k := repS_write i fv h r.2.2.2
    simp only [HV.valSlice, Option.map_some, Option.some.injEq, HUpdate.getValues]
    split
    · rename_i e; rw [if_pos e] at k; exact ⟨r.1, r.2.1, r.2.2.1, k⟩
    · rename_i e; rw [if_neg e] at k; exact ⟨r.1, r.2.1, r.2.2.1, k⟩
  · rw [if_neg (by simp [HV.valSlice])]; exact r
  · rw [if_neg (by simp [HV.valSlice])]; exact hb r
  · rw [if_neg (by simp [HV.valSlice])]; exact hb r
  · rw [if_neg (by simp [HV.valSlice])]; exact hm r

theorem setAt_depth (i : Nat) (fv : FieldValue) (p : PV) : (p.setAt i fv).depth = p.depth := by cases p <;> rfl
theorem setAt_joiner (i : Nat) (fv : FieldValue) (p : PV) : (p.setAt i fv).isJoiner = p.isJoiner := by cases p <;> rfl

/-- **C48, exactly**, for SetValues.  In histories as in `C35_lists_partial`, `vs := q.SetValues(); vs[i] = fv` makes every reading
call on `q` give what it gives on the builder with `fv` at place `i` of its values; so it does for every other builder whose list is
in the same array, and every other value reads as before. -/
theorem C48_setValues_exact (pol : Policy) (gr : Grow) (cs : List Call) (hna : ∀ c ∈ cs, c.noApply = true) (hl : ListsOnce cs)
    (hj : JoinsOnce cs) (ps : List PV) (h : runPure [] cs = some ps) :
    ∃ m hs, runHeap pol Mem.empty [] cs = some (m, hs) ∧
      ∀ (r : Nat) (x : HV) (p : PV) (s : Sl), hs[r]? = some x → ps[r]? = some p → x.valSlice = some s →
        s.len = p.valList.length ∧ ∀ (i : Nat) (fv : FieldValue) (k : Nat) (y : HV) (p' : PV), hs[k]? = some y → ps[k]? = some p' →
          ∀ d ≥ p'.depth, ∀ (par : Store Val) (l : Look),
            RepRes (fun a b => RepOut a.1 a.2 b) (y.look gr d (RMem.setValue ⟨m, par⟩ s i fv) l)
              ((if (y.valSlice.map Sl.arr) = some s.arr then p'.setAt i fv else p').look l) := by
  obtain ⟨m, hs, used, h1, inv⟩ := run_lists pol cs ps hna hl hj h
  refine ⟨m, hs, h1, fun r x p s hx hp hs' => ?_⟩
  have xj : x.isJoiner = false := by cases x <;> simp [HV.valSlice, HV.isJoiner] at hs' ⊢
  have rp := inv.rep r x p hx hp (fun k => by rw [xj] at k; cases k)
  have rs : RepS m.vals s p.valList := by
    cases x <;> simp only [HV.valSlice, Option.some.injEq, reduceCtorEq] at hs' <;> cases p <;> simp only [RepV] at rp
    · rw [← hs']; exact rp.2.2
    · rw [← hs']; exact rp.2.2.2
  refine ⟨?_, fun i fv k y p' hy hp' d hd par l => ?_⟩
  · have := congrArg List.length rs.2.2
    rw [← this]
    unfold Store.read
    rw [List.length_take]
    have := rs.2.1
    omega
  · have kk := inv.kind k y p' hy hp'
    have sv : Serves (RMem.setValue ⟨m, par⟩ s i fv).mem d y
        (if (y.valSlice.map Sl.arr) = some s.arr then p'.setAt i fv else p') := by
      cases hxj : y.isJoiner with
      | true =>
        refine .inr ⟨hxj, ?_⟩
        split
        · rw [setAt_joiner, ← kk]; exact hxj
        · rw [← kk]; exact hxj
      | false =>
        refine .inl ⟨repV_write i fv rs.1 (inv.rep k y p' hy hp' (fun h => by rw [hxj] at h; cases h)), ?_⟩
        split
        · rw [setAt_depth]; exact hd
        · exact hd
    exact (look_serves gr d _ y _ sv l).imp fun a b q => q.2.1

/-- The hypotheses hold of the history of `C48_setValues_false`; its builder has two values. -/
example : (∀ c ∈ wValues.take 3, c.noApply = true) ∧ ListsOnce (wValues.take 3) ∧ JoinsOnce (wValues.take 3) ∧
    ∃ ps q, runPure [] (wValues.take 3) = some ps ∧ ps[2]? = some q ∧ q.valList.length = 2 := by
  refine ⟨by decide, ?_, ?_, _, _, rfl, rfl, rfl⟩
  · exact (C35_lists_weaker _ (by unfold Linear; decide)).1
  · exact (C35_lists_weaker _ (by unfold Linear; decide)).2

end Query
