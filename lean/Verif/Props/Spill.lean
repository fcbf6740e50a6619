import Verif.Proof.SpillLook
import Verif.Proof.Room
import Verif.Props.Immutable
/-!
# C34: which values a call can change

After any history whatsoever: a value changes only through a call that may write into a cell the value is read from.
-/
namespace Query
open Store

/-- One step. -/
theorem step_apart (pol : Policy) (cs : List Call) (m : Mem) (hs : List HV) (h : runHeap pol Mem.empty [] cs = some (m, hs)) (c : Call)
    (m' : Mem) (v : HV) (hc : c.heap pol m hs = some (m', v)) (r : Nat) (x : HV) (hx : hs[r]? = some x) (hn : ¬ c.hits m hs x) :
    x.Same m m' ∧ StB m.conds ∧ x.bnd m ∧ StB m'.conds ∧ x.bnd m' ∧ ∀ s, InB m.conds s → InB m'.conds s := by
  obtain ⟨sb, hb⟩ := run_bnd0 pol cs (m, hs) h
  have st := step_call pol sb hb c (m', v) hc
  exact ⟨same_of_apart (sparM_call pol c (m', v) hc) sb (hb r x hx) hn, sb, hb r x hx, st.1.2, (hb r x hx).mono st.1.1,
    fun s i => i.mono st.1.1.conds⟩

/-- **C34, what a call leaves alone.**  After any history (branching, Apply calls, groups that contain themselves), every reading
call on every value gives after one more call of any kind what it gave before, unless the value is read from a cell the call may
write into: a spare cell behind the list it extends, the last join for `On`, the cells of the receiver for `ApplyFieldSpec` and
`ApplyFieldTable`. -/
theorem C34_apart (pol : Policy) (cs : List Call) (m : Mem) (hs : List HV) (h : runHeap pol Mem.empty [] cs = some (m, hs)) (c : Call)
    (m' : Mem) (v : HV) (hc : c.heap pol m hs = some (m', v)) (r : Nat) (x : HV) (hx : hs[r]? = some x) (hn : ¬ c.hits m hs x)
    (gr gr' : Grow) (d : Nat) (par par' : Store Val) (l : Look) :
    contentNow (x.look gr' d ⟨m', par'⟩ l) = contentNow (x.look gr d ⟨m, par⟩ l) := by
  obtain ⟨k, h1, h2, h3, h4, _⟩ := step_apart pol cs m hs h c m' v hc r x hx hn
  exact look_same (m := ⟨m, par⟩) (m' := ⟨m', par'⟩) gr gr' d x k h1 h2 h3 h4 l

theorem runHeap_snoc {pol : Policy} {cs : List Call} {c : Call} {m' : Mem} {hs' : List HV}
    (h : runHeap pol Mem.empty [] (cs ++ [c]) = some (m', hs')) :
    ∃ m hs v, runHeap pol Mem.empty [] cs = some (m, hs) ∧ c.heap pol m hs = some (m', v) ∧ hs' = hs ++ [v] := by
  rw [runHeap_append] at h
  cases e : runHeap pol Mem.empty [] cs with
  | none => rw [e] at h; cases h
  | some x =>
    rw [e] at h
    simp only [Option.bind, runHeap] at h
    cases e' : c.heap pol x.1 x.2 with
    | none => rw [e'] at h; cases h
    | some y => rw [e'] at h; cases h; exact ⟨_, _, _, rfl, e', rfl⟩

/-- Reading does not change in one step. -/
theorem readsAs_step {pol : Policy} {gr : Grow} {cs : List Call} {c : Call} {m m' : Mem} {hs : List HV} {v : HV}
    (h : runHeap pol Mem.empty [] cs = some (m, hs)) (hc : c.heap pol m hs = some (m', v)) {r : Nat} {x : HV} (hx : hs[r]? = some x)
    (hn : ¬ c.hits m hs x) {l : Look} {out : Res POut} (e : ReadsAs pol gr cs r l out) : ReadsAs pol gr (cs ++ [c]) r l out := by
  obtain ⟨k, h1, h2, h3, h4, h5⟩ := step_apart pol cs m hs h c m' v hc r x hx hn
  obtain ⟨m0, hs0, x0, a1, a2, D, a3⟩ := e
  rw [h] at a1
  cases a1
  rw [hx] at a2
  cases a2
  refine ⟨m', hs ++ [v], x, ?_, ?_, D, fun d hd par => ?_⟩
  · rw [runHeap_append, h]; simp [runHeap, hc]
  · rw [List.getElem?_append_left (List.getElem?_eq_some_iff.1 hx).1]; exact hx
  · exact (reads_same (m := ⟨m, par⟩) (m' := ⟨m', par⟩) gr d x k h1 h2 h3 h4 h5 l out).2 (a3 d hd par)

theorem only_aux (pol : Policy) (gr : Grow) (r : Nat) (l : Look) (out : Res POut) : ∀ (cs' cs : List Call),
    (runHeap pol Mem.empty [] (cs ++ cs')).isSome = true → ReadsAs pol gr cs r l out → ¬ ReadsAs pol gr (cs ++ cs') r l out →
    ∃ cs1 c cs2 m hs x, cs' = cs1 ++ c :: cs2 ∧ runHeap pol Mem.empty [] (cs ++ cs1) = some (m, hs) ∧ hs[r]? = some x ∧ c.hits m hs x
  | [], cs, _, h, hn => absurd (by simpa using h) hn
  | c :: cs', cs, hr, h, hn => by
    have ra : cs ++ c :: cs' = (cs ++ [c]) ++ cs' := by simp
    rw [ra] at hr hn
    have h0 := h
    obtain ⟨m, hs, x, a1, a2, _⟩ := h0
    have hr1 := hr
    rw [runHeap_append] at hr1
    cases e : runHeap pol Mem.empty [] (cs ++ [c]) with
    | none => rw [e] at hr1; cases hr1
    | some y =>
      obtain ⟨m0, hs0, v, b1, b2, _⟩ := runHeap_snoc (m' := y.1) (hs' := y.2) e
      rw [a1] at b1
      cases b1
      by_cases hit : c.hits m hs x
      · exact ⟨[], c, cs', m, hs, x, rfl, by simpa using a1, a2, hit⟩
      · obtain ⟨cs1, c', cs2, m1, hs1, x1, e1, e2, e3, e4⟩ := only_aux pol gr r l out cs' (cs ++ [c]) hr (readsAs_step a1 b2 a2 hit h) hn
        exact ⟨c :: cs1, c', cs2, m1, hs1, x1, by rw [e1]; rfl, by simpa using e2, e3, e4⟩

/-- **C34, the culprit.**  If, after any history, further calls change what reading an earlier value gives, then one of these calls,
at the time it was made, might write into a cell the value is read from. -/
theorem C34_only (pol : Policy) (gr : Grow) (cs cs' : List Call) (hr : (runHeap pol Mem.empty [] (cs ++ cs')).isSome = true) (r : Nat)
    (l : Look) (h : Changes pol gr cs cs' r l) :
    ∃ cs1 c cs2 m hs x, cs' = cs1 ++ c :: cs2 ∧ runHeap pol Mem.empty [] (cs ++ cs1) = some (m, hs) ∧ hs[r]? = some x ∧ c.hits m hs x := by
  obtain ⟨out, h1, h2⟩ := h
  exact only_aux pol gr r l out cs' cs hr h1 h2

theorem not_spare_full {α : Type} {st : Store α} {s t : Sl} (h : lastOrFull st s = true) (hb : InB st t) {a i : Nat} (hs : s.spare a i)
    (ht : t.covers a i) : False := by
  simp only [lastOrFull, Bool.or_eq_true, beq_iff_eq, decide_eq_true_eq] at h
  obtain ⟨rfl, h2, h3⟩ := hs
  obtain ⟨e, h4⟩ := ht
  have := hb.2
  rw [e] at this
  omega

/-- A harmless call may write into no cell a value is read from. -/
theorem harmless_apart (pol : Policy) (cs : List Call) (m : Mem) (hs : List HV) (h : runHeap pol Mem.empty [] cs = some (m, hs))
    (c : Call) (ha : c.noApply = true) (ho : c.completes = none) (hl : harmlessCall m hs c = true) (r : Nat) (x : HV)
    (hx : hs[r]? = some x) : ¬ c.hits m hs x := by
  obtain ⟨sb, hb⟩ := run_bnd0 pol cs (m, hs) h
  have hbx := hb r x hx
  simp only [harmlessCall, Bool.and_eq_true] at hl
  obtain ⟨⟨⟨l1, l2⟩, l3⟩, l4⟩ := hl
  have key : ∀ {α : Type} (st : Store α) (sl : HV → Option Sl) (act : Act), harmlessOn st hs sl act = true → ∀ s t : Sl,
      act.slice hs sl = some s → InB st t → ∀ a i, s.spare a i → t.covers a i → False := by
    intro α st sl act k s t e ib a i w u
    simp only [harmlessOn] at k
    simp only [Act.slice] at e
    rw [e] at k
    exact not_spare_full k ib w u
  rintro ⟨a, i, k | k | k | k⟩
  · obtain ⟨w, y, t, e1, e2, u⟩ := k
    have hbd : y.bnd m.conds := by
      cases x <;> simp only [HV.root, Option.some.injEq, reduceCtorEq] at e1 <;> subst e1 <;> simp only [HV.bnd] at hbx
      · exact hbx
      · exact hbx.cond
      · exact hbx.cond
      · exact hbx.1.cond
      · exact hbx.cond
      · exact hbx.1
      · exact hbx
      · exact hbx.cond
      · exact hbx.cond
      · exact hbx.1.cond
    rcases w with ⟨s, e, w⟩ | ⟨w, _⟩
    · exact key _ _ _ l1 s t e (through_bnd sb e2 hbd) a i w u
    · rw [ha] at w; cases w
  · obtain ⟨w, t, e1, u⟩ := k
    have ib : InB m.joins t := by
      cases x <;> simp only [HV.joinList, Option.some.injEq, reduceCtorEq] at e1 <;> subst e1 <;> simp only [HV.bnd] at hbx <;>
        first | exact hbx.joins | exact hbx.1.joins
    rcases w with ⟨s, e, w⟩ | ⟨r', _, _, w, _⟩
    · exact key _ _ _ l2 s t e ib a i w u
    · rw [ho] at w; cases w
  · obtain ⟨⟨s, e, w⟩, t, e1, u⟩ := k
    have ib : InB m.sorts t := by
      cases x <;> simp only [HV.sortsSl, Option.some.injEq, reduceCtorEq] at e1 <;> subst e1 <;> simp only [HV.bnd] at hbx <;> exact hbx.2
    exact key _ _ _ l3 s t e ib a i w u
  · obtain ⟨⟨s, e, w⟩, t, e1, u⟩ := k
    have ib : InB m.vals t := by
      cases x <;> simp only [HV.valsSl, Option.some.injEq, reduceCtorEq] at e1 <;> subst e1 <;> simp only [HV.bnd] at hbx <;>
        first | exact hbx | exact hbx.2
    exact key _ _ _ l4 s t e ib a i w u

/-- **C34 for one harmless call**, whatever went before.  A call that is none of `On`, `ApplyFieldSpec` and `ApplyFieldTable` and
extends a list that is full or the last in its array changes what no earlier value reads, also if the values before it have
overwritten one another.  Missing: the calls left out (`C34_on_false`, `C34_applySpec_false`) and other appends (`C34_where_false`). -/
theorem C34_harmless_step_partial (pol : Policy) (cs : List Call) (m : Mem) (hs : List HV) (h : runHeap pol Mem.empty [] cs = some (m, hs))
    (c : Call) (ha : c.noApply = true) (ho : c.completes = none) (hl : harmlessCall m hs c = true) (m' : Mem) (v : HV)
    (hc : c.heap pol m hs = some (m', v)) (r : Nat) (x : HV) (hx : hs[r]? = some x) (gr gr' : Grow) (d : Nat) (par par' : Store Val)
    (l : Look) : contentNow (x.look gr' d ⟨m', par'⟩ l) = contentNow (x.look gr d ⟨m, par⟩ l) :=
  C34_apart pol cs m hs h c m' v hc r x hx (harmless_apart pol cs m hs h c ha ho hl r x hx) gr gr' d par par' l

/-! ## What an overwritten list holds -/

theorem read_overwritten {α : Type} (gr : Grow) {st : Store α} {s t : Sl} (xs : List α) (hr : s.len + xs.length ≤ s.cap) (hb : InB st t)
    (ha : t.arr = s.arr) : (st.append gr s xs).1.read t = (writeAt (st.read t) s.len xs).take t.len := by
  have hl := hb.1
  have hc := hb.2
  simp only [Store.append, hr, if_true, Store.read]
  rw [ha] at hl hc ⊢
  rw [cells_set_self _ _ _ hl]
  simp only [writeAt]
  rcases Nat.lt_or_ge t.len s.len with k | k
  · rw [List.append_assoc, List.take_append_of_le_length (by simp; omega), List.append_assoc,
      List.take_append_of_le_length (by simp; omega), List.take_take, List.take_take, List.take_take]
    congr 1; omega
  · have e : (List.take s.len (st.cells s.arr)).length = s.len := by simp; omega
    have e2 : List.take s.len (List.take t.len (st.cells s.arr)) = List.take s.len (st.cells s.arr) := by
      rw [List.take_take]; congr 1; omega
    have e3 : List.take (t.len - s.len - xs.length) (List.drop (s.len + xs.length) (List.take t.len (st.cells s.arr))) =
        List.take (t.len - s.len - xs.length) (List.drop (s.len + xs.length) (st.cells s.arr)) := by
      rw [List.drop_take, List.take_take]; congr 1; omega
    rw [e2, List.append_assoc, List.append_assoc]
    simp only [List.take_append, e, e3]

/-- **C34, what an overwritten list holds**, for ORDER BY.  If there is room behind the keys of `q`, then after `q.OrderBy(ks...)` every
earlier query whose keys lie in the same array has the keys `ks` from the place on where those of `q` end, as far as its keys reach. -/
theorem C34_orders_overwritten (pol : Policy) (cs : List Call) (m : Mem) (hs : List HV) (h : runHeap pol Mem.empty [] cs = some (m, hs))
    (r : Nat) (q : HMany) (hq : hs[r]? = some (.many q)) (ks : List FieldSorting) (room : q.order.len + ks.length ≤ q.order.cap) :
    ∃ m' v, (Call.orderBy r ks).heap pol m hs = some (m', v) ∧ ∀ (k : Nat) (p : HMany), hs[k]? = some (.many p) → p.order.arr = q.order.arr →
      m'.sorts.read p.order = (writeAt (m.sorts.read p.order) q.order.len ks).take p.order.len := by
  obtain ⟨_, hb⟩ := run_bnd0 pol cs (m, hs) h
  refine ⟨(q.addOrder pol m ks).1, .many (q.addOrder pol m ks).2, by simp only [Call.heap, hq], fun k p hp ha => ?_⟩
  exact read_overwritten _ _ room (hb k _ hp).2 ha

/-- **C34, what an overwritten list holds**, for the values of INSERT. -/
theorem C34_values_overwritten (pol : Policy) (cs : List Call) (m : Mem) (hs : List HV) (h : runHeap pol Mem.empty [] cs = some (m, hs))
    (r : Nat) (q : HInsert) (hq : hs[r]? = some (.insert q)) (vs : List FieldValue) (room : q.setValues.len + vs.length ≤ q.setValues.cap) :
    ∃ m' v, (Call.values r vs).heap pol m hs = some (m', v) ∧ ∀ (k : Nat) (p : HInsert), hs[k]? = some (.insert p) →
      p.setValues.arr = q.setValues.arr →
      m'.vals.read p.setValues = (writeAt (m.vals.read p.setValues) q.setValues.len vs).take p.setValues.len := by
  obtain ⟨_, hb⟩ := run_bnd0 pol cs (m, hs) h
  refine ⟨(q.addValues pol m vs).1, .insert (q.addValues pol m vs).2, by simp only [Call.heap, hq], fun k p hp ha => ?_⟩
  exact read_overwritten _ _ room (hb k _ hp) ha

/-- **C34, what an overwritten list holds**, for the assignments of UPDATE. -/
theorem C34_sets_overwritten (pol : Policy) (cs : List Call) (m : Mem) (hs : List HV) (h : runHeap pol Mem.empty [] cs = some (m, hs))
    (r : Nat) (q : HUpdate) (hq : hs[r]? = some (.update q)) (vs : List FieldValue) (room : q.setValues.len + vs.length ≤ q.setValues.cap) :
    ∃ m' v, (Call.set r vs).heap pol m hs = some (m', v) ∧ ∀ (k : Nat) (p : HUpdate), hs[k]? = some (.update p) →
      p.setValues.arr = q.setValues.arr →
      m'.vals.read p.setValues = (writeAt (m.vals.read p.setValues) q.setValues.len vs).take p.setValues.len := by
  obtain ⟨_, hb⟩ := run_bnd0 pol cs (m, hs) h
  refine ⟨(q.set pol m vs).1, .update (q.set pol m vs).2, by simp only [Call.heap, hq], fun k p hp ha => ?_⟩
  exact read_overwritten _ _ room (hb k _ hp).2 ha

/-- **C34, what an overwritten list holds**, for joins: the place behind the joins of `q` holds the new join, without condition yet. -/
theorem C34_joins_overwritten (pol : Policy) (cs : List Call) (m : Mem) (hs : List HV) (h : runHeap pol Mem.empty [] cs = some (m, hs))
    (r : Nat) (q : HBase) (hq : hs[r]? = some (.base q)) (t : TableIdent) (j : Int) (room : q.joins.len + 1 ≤ q.joins.cap) :
    ∃ m' v, (Call.joinTable r t j).heap pol m hs = some (m', v) ∧ ∀ (k : Nat) (p : HBase), hs[k]? = some (.base p) →
      p.joins.arr = q.joins.arr →
      m'.joins.read p.joins = (writeAt (m.joins.read p.joins) q.joins.len [⟨t, j, zeroJC⟩]).take p.joins.len := by
  obtain ⟨_, hb⟩ := run_bnd0 pol cs (m, hs) h
  refine ⟨(q.joinIdent pol m t j).1, .joinB (q.joinIdent pol m t j).2, by simp only [Call.heap, hq], fun k p hp ha => ?_⟩
  exact read_overwritten _ _ room (show BaseB m p from hb k _ hp).joins ha

/-! ## Examples -/

/-- `q := InsertInto("t").Values(a).Values(b).Values(c)` (number 3), with room for a fourth value. -/
def wSpill3 : List Call := [.insertInto (.str c!"t"), .values 0 [wVal c!"a"], .values 1 [wVal c!"b"], .values 2 [wVal c!"c"]]

/-- `q.Values(d)` writes behind the values of `q` and so leaves `q` alone, although the append is in place. -/
example : ∃ m hs x v, runHeap goPolicy Mem.empty [] wSpill3 = some (m, hs) ∧ hs[3]? = some x ∧
    (Call.values 3 [wVal c!"d"]).heap goPolicy m hs = some v ∧ v.1.vals.length = m.vals.length ∧
    ¬ (Call.values 3 [wVal c!"d"]).hits m hs x := by
  refine ⟨_, _, _, _, rfl, rfl, rfl, rfl, ?_⟩
  rintro ⟨a, i, ⟨_, _, _, k, _⟩ | ⟨_, _, k, _⟩ | ⟨_, _, k, _⟩ | ⟨⟨s, e, _, h1, _⟩, t, k, _, h2⟩⟩
  · cases k
  · cases k
  · cases k
  · cases e; cases k; exact absurd h2 (Nat.not_lt.2 h1)

/-- Once it was called, a second `q.Values(e)` may write into the fourth value of the first result, and does. -/
example : ∃ m hs q p, runHeap goPolicy Mem.empty [] (wSpill3 ++ [.values 3 [wVal c!"d"]]) = some (m, hs) ∧ hs[3]? = some (.insert q) ∧
    hs[4]? = some (.insert p) ∧ q.setValues.len + 1 ≤ q.setValues.cap ∧ p.setValues.arr = q.setValues.arr ∧
    (Call.values 3 [wVal c!"e"]).hits m hs (.insert p) ∧ m.vals.read p.setValues = [wVal c!"a", wVal c!"b", wVal c!"c", wVal c!"d"] ∧
    (writeAt (m.vals.read p.setValues) q.setValues.len [wVal c!"e"]).take p.setValues.len =
      [wVal c!"a", wVal c!"b", wVal c!"c", wVal c!"e"] := by
  refine ⟨_, _, _, _, rfl, rfl, rfl, by decide, rfl, ?_, rfl, rfl⟩
  exact ⟨3, 3, .inr (.inr (.inr ⟨⟨_, rfl, rfl, by decide, by decide⟩, _, rfl, rfl, by decide⟩))⟩

/-- After a history in which a value was overwritten (`C34_where_false`), a further call on the overwritten value is harmless: its
four conditions fill their array. -/
example : ∃ m hs, runHeap goPolicy Mem.empty [] (wWhere ++ [.where_ 8 [4]]) = some (m, hs) ∧
    harmlessCall m hs (.where_ 9 [0]) = true ∧ harmlessCall m hs (.where_ 8 [0]) = false ∧
    ((Call.where_ 9 [0]).heap goPolicy m hs).isSome = true := ⟨_, _, rfl, rfl, rfl, rfl⟩

/-- The hypotheses of `C34_only`. -/
example : (runHeap goPolicy Mem.empty [] (wWhere ++ [.where_ 8 [4]])).isSome = true ∧ Changes goPolicy goGrow wWhere [.where_ 8 [4]] 9 .build :=
  ⟨rfl, C34_where_false⟩

end Query
