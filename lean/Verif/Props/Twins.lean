import Verif.Proof.Room
import Verif.Props.Immutable
/-!
# C34 exactly: two calls on a builder whose list has room

When a list has spare capacity, two calls that append to it make one and the same value: the builder of the first call turns into
that of the second.
-/
namespace Query
open Store

/-- **C34, what happens.**  After any history, with any sharing and any growth of lists: two calls of the same method on the same
value, appending equally many elements to a list with room for them, give the same value twice.  So every reading call on the first
result gives what it gives on the second. -/
theorem C34_twins (pol : Policy) (cs : List Call) (m : Mem) (hs : List HV) (h : runHeap pol Mem.empty [] cs = some (m, hs)) (c d : Call)
    (t : Twins m hs c d) : ∃ m' x, runHeap pol Mem.empty [] (cs ++ [c, d]) = some (m', hs ++ [x, x]) := by
  obtain ⟨m1, x, e1, m2, e2⟩ := twins_heap pol (run_bnd0 pol cs (m, hs) h).2 t
  refine ⟨m2, x, ?_⟩
  rw [runHeap_append, h]
  simp only [Option.bind_some, runHeap, e1, e2, List.append_assoc, List.cons_append, List.nil_append]

/-- Three conditions added to a delete by single calls: there is room for a fourth, twice. -/
example : ∃ m hs, runHeap goPolicy Mem.empty [] (deleteCalls c!"t" (wEq c!"x") (wEq c!"y") [wEq c!"a", wEq c!"b", wEq c!"c"]) = some (m, hs) ∧
    Twins m hs (.where_ 8 [0]) (.where_ 8 [1]) := by
  refine ⟨_, _, rfl, .where_ rfl rfl (fun c h => by cases h) ⟨by decide, ?_, rfl⟩ ⟨_, rfl⟩ ⟨_, rfl⟩⟩
  exact (by decide : (3 : Nat) + 1 ≤ 4)

/-- **C34, false for INSERTs of every size but powers of two.**  `q := InsertInto(t).Values(v1)…Values(vn)`, `a := q.Values(x)`,
`b := q.Values(y)`: `a` inserted `x`, and after the last call it inserts `y`.  With Go's growth of small slices. -/
theorem C34_all_inserts_false (gr : Grow) (t : Str) (vs : List FieldValue) (x y : FieldValue) (h0 : 0 < vs.length)
    (hp : ∀ k, vs.length ≠ 2 ^ k) (l : Look) :
    ReadsAs goPolicy gr (insertCalls t vs ++ [.values vs.length [x]]) (vs.length + 1) l ((PV.insert ⟨doInsert, t, vs ++ [x]⟩).look l) ∧
    ReadsAs goPolicy gr (insertCalls t vs ++ [.values vs.length [x], .values vs.length [y]]) (vs.length + 1) l
      ((PV.insert ⟨doInsert, t, vs ++ [y]⟩).look l) := by
  obtain ⟨m, hs, s, h1, h2, h3, h4, h5⟩ := values_chain vs 0 { Mem.empty with vals := (Store.make [] []).1 }
    [.insert ⟨doInsert, t, (Store.make ([] : Store FieldValue) []).2⟩] ⟨doInsert, t, (Store.make ([] : Store FieldValue) []).2⟩ [] rfl rfl
    (rep_make _ _) (.inl ⟨rfl, rfl⟩)
  simp only [Nat.zero_add, List.nil_append] at h2 h3 h4 h5
  have run : runHeap goPolicy Mem.empty [] (insertCalls t vs) = some (m, hs) := h1
  have room : s.roomFor 1 := by
    have := goCap_room h5 h0 hp
    have := h4.length
    unfold Sl.roomFor; omega
  have r1 := rep_append goPolicy.vals m.vals s [x] vs h4.1 h4
  have r2 := rep_append goPolicy.vals _ s [y] vs (rep_append_self goPolicy.vals m.vals s vs [x] h4 room).1
    (rep_append_self goPolicy.vals m.vals s vs [x] h4 room)
  constructor
  · refine reads_of_rep gr (m := { m with vals := (m.vals.append goPolicy.vals s [x]).1 })
      (hs := hs ++ [.insert ⟨doInsert, t, (m.vals.append goPolicy.vals s [x]).2⟩]) ?_ (x := .insert ⟨doInsert, t, (m.vals.append goPolicy.vals s [x]).2⟩) (p := .insert ⟨doInsert, t, vs ++ [x]⟩) ?_ ⟨rfl, rfl, r1⟩ l
    · rw [runHeap_append, run]
      simp only [Option.bind_some, runHeap, Call.heap, h3, HInsert.addValues]
    · rw [List.getElem?_append_right (by omega), h2]; simp
  · refine reads_of_rep gr (m := { m with vals := (Store.append goPolicy.vals (m.vals.append goPolicy.vals s [x]).1 s [y]).1 })
      (hs := hs ++ [.insert ⟨doInsert, t, (m.vals.append goPolicy.vals s [x]).2⟩] ++
        [.insert ⟨doInsert, t, (Store.append goPolicy.vals (m.vals.append goPolicy.vals s [x]).1 s [y]).2⟩]) ?_
      (x := .insert ⟨doInsert, t, (Store.append goPolicy.vals (m.vals.append goPolicy.vals s [x]).1 s [y]).2⟩) (p := .insert ⟨doInsert, t, vs ++ [y]⟩) ?_ ⟨rfl, rfl, r2⟩ l
    · rw [runHeap_append, run]
      simp only [Option.bind_some, runHeap, Call.heap, h3, HInsert.addValues, get_left h3]
    · rw [List.getElem?_append_left (by simp [h2]), List.getElem?_append_right (by omega), h2]
      simp only [Nat.sub_self, List.getElem?_cons_zero, append_room _ _ s [x] room, append_room _ _ s [y] room]
      rfl

/-- Three values: the parameters of the two texts differ whenever those of `x` and `y` do. -/
example : 0 < [wVal c!"a", wVal c!"b", wVal c!"c"].length ∧ (∀ k, [wVal c!"a", wVal c!"b", wVal c!"c"].length ≠ 2 ^ k) := by
  refine ⟨by decide, fun k => ?_⟩
  match k with
  | 0 => decide
  | 1 => decide
  | k + 2 => simp only [Nat.pow_succ, List.length_cons, List.length_nil]; have := Nat.two_pow_pos k; omega

/-- **C34, false for ORDER BY lists of every size but powers of two.** -/
theorem C34_all_orders_false (gr : Grow) (t : TableIdent) (ks : List FieldSorting) (x y : FieldSorting) (h0 : 0 < ks.length)
    (hp : ∀ k, ks.length ≠ 2 ^ k) (l : Look) :
    ReadsAs goPolicy gr (orderCalls t ks ++ [.orderBy (ks.length + 1) [x]]) (ks.length + 2) l
      ((PV.many ⟨⟨0, t, [], ⟨[]⟩, newWhere⟩, 0, noLimit, ks ++ [x], false⟩).look l) ∧
    ReadsAs goPolicy gr (orderCalls t ks ++ [.orderBy (ks.length + 1) [x], .orderBy (ks.length + 1) [y]]) (ks.length + 2) l
      ((PV.many ⟨⟨0, t, [], ⟨[]⟩, newWhere⟩, 0, noLimit, ks ++ [y], false⟩).look l) := by
  let b : HBase := ⟨0, t, (Store.make ([] : Store TableJoiner) []).2, (Store.make ([] : Store FieldDef) []).2, (newGroupH [] lAND []).2⟩
  let m0 : Mem := { conds := (newGroupH [] lAND []).1, joins := (Store.make [] []).1, defs := (Store.make [] []).1, sorts := (Store.make [] []).1, vals := [] }
  let q0 : HMany := ⟨b, 0, noLimit, (Store.make ([] : Store FieldSorting) []).2, false⟩
  obtain ⟨st, hs, s, h1, h2, h3, h4, h5⟩ := orders_chain ks 1 m0 [.base b, .many q0] q0 [] rfl rfl (rep_make _ _) (.inl ⟨rfl, rfl⟩)
  simp only [List.nil_append] at h4 h5
  have run : runHeap goPolicy Mem.empty [] (orderCalls t ks) = some ({ m0 with sorts := st }, hs) := h1
  have room : s.roomFor 1 := by
    have := goCap_room h5 h0 hp
    have := h4.length
    unfold Sl.roomFor; omega
  have rb : ∀ st, RepB { m0 with sorts := st } b ⟨0, t, [], ⟨[]⟩, newWhere⟩ := fun st =>
    ⟨rfl, rfl, rep_make _ _, rep_make _ _, (sim_newGroup (tight := false) lAND (st := ([] : Store HCond)) (hs := []) (cs := []) trivial).2⟩
  have r1 := rep_append goPolicy.sorts st s [x] ks h4.1 h4
  have r2 := rep_append goPolicy.sorts _ s [y] ks (rep_append_self goPolicy.sorts st s ks [x] h4 room).1
    (rep_append_self goPolicy.sorts st s ks [x] h4 room)
  rw [show 1 + ks.length = ks.length + 1 by omega] at h2 h3
  constructor
  · refine reads_of_rep gr (m := { m0 with sorts := (st.append goPolicy.sorts s [x]).1 })
      (hs := hs ++ [.many { q0 with order := (st.append goPolicy.sorts s [x]).2 }]) ?_
      (x := .many { q0 with order := (st.append goPolicy.sorts s [x]).2 })
      (p := .many ⟨⟨0, t, [], ⟨[]⟩, newWhere⟩, 0, noLimit, ks ++ [x], false⟩) ?_ ⟨rb _, rfl, rfl, r1, rfl⟩ l
    · rw [runHeap_append, run]
      simp only [Option.bind_some, runHeap, Call.heap, h3, HMany.addOrder]
    · rw [List.getElem?_append_right (by omega), h2]; simp
  · refine reads_of_rep gr (m := { m0 with sorts := (Store.append goPolicy.sorts (st.append goPolicy.sorts s [x]).1 s [y]).1 })
      (hs := hs ++ [.many { q0 with order := (st.append goPolicy.sorts s [x]).2 }] ++
        [.many { q0 with order := (Store.append goPolicy.sorts (st.append goPolicy.sorts s [x]).1 s [y]).2 }]) ?_
      (x := .many { q0 with order := (Store.append goPolicy.sorts (st.append goPolicy.sorts s [x]).1 s [y]).2 })
      (p := .many ⟨⟨0, t, [], ⟨[]⟩, newWhere⟩, 0, noLimit, ks ++ [y], false⟩) ?_ ⟨rb _, rfl, rfl, r2, rfl⟩ l
    · rw [runHeap_append, run]
      simp only [Option.bind_some, runHeap, Call.heap, h3, HMany.addOrder, get_left h3]
    · rw [List.getElem?_append_left (by simp [h2]), List.getElem?_append_right (by omega), h2]
      simp only [Nat.sub_self, List.getElem?_cons_zero, append_room _ _ s [x] room, append_room _ _ s [y] room]
      rfl

/-- **C34, false for DELETEs with any number of conditions but powers of two.**  `q := Delete(t).Where(c1)…Where(cn)`,
`a := q.Where(x)`, `b := q.Where(y)`: `a` deleted the rows with `x`, and after the last call it deletes those with `y`. -/
theorem C34_all_deletes_false (gr : Grow) (t : Str) (cs : List Cond) (x y : Cond) (hl : ∀ c ∈ x :: y :: cs, c.asGroup = none)
    (h0 : 0 < cs.length) (hp : ∀ k, cs.length ≠ 2 ^ k) (l : Look) :
    ReadsAs goPolicy gr (deleteCalls t x y cs ++ [.where_ (2 + 2 * cs.length) [0]]) (3 + 2 * cs.length) l
      ((PV.delete ⟨doDelete, t, ⟨newBase lAND false, conj (cs ++ [x]), false⟩⟩).look l) ∧
    ReadsAs goPolicy gr (deleteCalls t x y cs ++ [.where_ (2 + 2 * cs.length) [0], .where_ (2 + 2 * cs.length) [1]]) (3 + 2 * cs.length) l
      ((PV.delete ⟨doDelete, t, ⟨newBase lAND false, conj (cs ++ [y]), false⟩⟩).look l) := by
  have hx := hl x (by simp)
  have hy := hl y (by simp)
  have hcs : ∀ c ∈ cs, c.asGroup = none := fun c hc => hl c (by simp [hc])
  have hne : cs ≠ [] := fun e => by rw [e] at h0; simp at h0
  let q0 : HDelete := ⟨doDelete, t, (newGroupH [] lAND []).2⟩
  let m0 : Mem := { Mem.empty with conds := (newGroupH [] lAND []).1 }
  obtain ⟨st, hs, s, h1, h2, h6, h3, h4, h5⟩ := wheres_chain cs 2 m0 [.cond (.leaf x), .cond (.leaf y), .delete q0] q0 [] hcs rfl rfl rfl
    (rep_make _ _) (.inl ⟨rfl, rfl⟩)
  simp only [List.nil_append] at h4 h5
  have run : runHeap goPolicy Mem.empty [] (deleteCalls t x y cs) = some ({ m0 with conds := st }, hs) := by
    simp only [deleteCalls, runHeap, Call.heap, hx, hy, Option.isSome_none, Bool.false_eq_true, if_false]
    exact h1
  have room : s.roomFor 1 := by
    have := goCap_room h5 h0 hp
    have l := h4.length
    rw [List.length_map, length_conj] at l
    unfold Sl.roomFor; omega
  have i0 : hs[0]? = some (.cond (.leaf x)) := h6 0 (by omega)
  have i1 : hs[1]? = some (.cond (.leaf y)) := h6 1 (by omega)
  have w1 := where_oneH goPolicy.conds st ⟨newBase lAND false, s, false⟩ cs x rfl h4
  have k1 := rep_append_self goPolicy.conds st s _ [HCond.leaf (x.join lAND)] h4 room
  have w2 := where_oneH goPolicy.conds _ ⟨newBase lAND false, s, false⟩ cs y rfl k1
  rw [if_neg hne] at w1 w2
  have r1 := rep_append goPolicy.conds st s [HCond.leaf (x.join lAND)] _ h4.1 h4
  have r2 := rep_append goPolicy.conds _ s [HCond.leaf (y.join lAND)] _ k1.1 k1
  have c1 : (conj cs).map HCond.leaf ++ [HCond.leaf (x.join lAND)] = (conj (cs ++ [x])).map .leaf := by rw [conj_snoc _ _ hne]; simp
  have c2 : (conj cs).map HCond.leaf ++ [HCond.leaf (y.join lAND)] = (conj (cs ++ [y])).map .leaf := by rw [conj_snoc _ _ hne]; simp
  rw [c1] at r1; rw [c2] at r2
  have h3' : hs[2 + 2 * cs.length]? = some (.delete ⟨doDelete, t, ⟨newBase lAND false, s, false⟩⟩) := h3
  constructor
  · refine reads_of_rep gr (m := { m0 with conds := (st.append goPolicy.conds s [HCond.leaf (x.join lAND)]).1 })
      (hs := hs ++ [.delete ⟨doDelete, t, ⟨newBase lAND false, (st.append goPolicy.conds s [HCond.leaf (x.join lAND)]).2, false⟩⟩]) ?_
      (x := .delete ⟨doDelete, t, ⟨newBase lAND false, (st.append goPolicy.conds s [HCond.leaf (x.join lAND)]).2, false⟩⟩)
      (p := .delete ⟨doDelete, t, ⟨newBase lAND false, conj (cs ++ [x]), false⟩⟩) ?_
      ⟨rfl, rfl, repG_conj (g := ⟨newBase lAND false, _, false⟩) ?_ r1⟩ l
    · rw [runHeap_append, run]
      simp only [Option.bind_some, runHeap, Call.heap, h3', getCondsH, i0, HDelete.addWhere, w1, HGroup.app]
    · rw [List.getElem?_append_right (by omega), h2, show 3 + 2 * cs.length - (2 + 2 * cs.length + 1) = 0 by omega]; rfl
    · intro c hc; exact hl c (by simp at hc ⊢; rcases hc with h | h <;> simp [h])
  · refine reads_of_rep gr (m := { m0 with conds := (Store.append goPolicy.conds (st.append goPolicy.conds s [HCond.leaf (x.join lAND)]).1 s [HCond.leaf (y.join lAND)]).1 })
      (hs := hs ++ [.delete ⟨doDelete, t, ⟨newBase lAND false, (st.append goPolicy.conds s [HCond.leaf (x.join lAND)]).2, false⟩⟩] ++
        [.delete ⟨doDelete, t, ⟨newBase lAND false, (Store.append goPolicy.conds (st.append goPolicy.conds s [HCond.leaf (x.join lAND)]).1 s [HCond.leaf (y.join lAND)]).2, false⟩⟩]) ?_
      (x := .delete ⟨doDelete, t, ⟨newBase lAND false, (Store.append goPolicy.conds (st.append goPolicy.conds s [HCond.leaf (x.join lAND)]).1 s [HCond.leaf (y.join lAND)]).2, false⟩⟩)
      (p := .delete ⟨doDelete, t, ⟨newBase lAND false, conj (cs ++ [y]), false⟩⟩) ?_
      ⟨rfl, rfl, repG_conj (g := ⟨newBase lAND false, _, false⟩) ?_ r2⟩ l
    · rw [runHeap_append, run]
      simp only [HGroup.app] at w1 w2
      simp only [Option.bind_some, runHeap, Call.heap, h3', getCondsH, i0, HDelete.addWhere, w1, get_left h3', get_left i1, w2]
    · rw [List.getElem?_append_left (by simp [h2]; omega), List.getElem?_append_right (by omega), h2,
        show 3 + 2 * cs.length - (2 + 2 * cs.length + 1) = 0 by omega]
      simp only [List.getElem?_cons_zero, append_room _ _ _ _ (show s.roomFor [HCond.leaf (x.join lAND)].length from room),
        append_room _ _ _ _ (show s.roomFor [HCond.leaf (y.join lAND)].length from room)]
      rfl
    · intro c hc; exact hl c (by simp at hc ⊢; rcases hc with h | h <;> simp [h])

/-- The two texts, for three conditions. -/
example : poutText ((PV.delete ⟨doDelete, c!"t", ⟨newBase lAND false, conj ([wEq c!"a", wEq c!"b", wEq c!"c"] ++ [wEq c!"x"]), false⟩⟩).look .build)
      = some c!"DELETE FROM t WHERE a=$1 AND b=$2 AND c=$3 AND x=$4" ∧
    poutText ((PV.delete ⟨doDelete, c!"t", ⟨newBase lAND false, conj ([wEq c!"a", wEq c!"b", wEq c!"c"] ++ [wEq c!"y"]), false⟩⟩).look .build)
      = some c!"DELETE FROM t WHERE a=$1 AND b=$2 AND c=$3 AND y=$4" ∧
    (∀ c ∈ wEq c!"x" :: wEq c!"y" :: [wEq c!"a", wEq c!"b", wEq c!"c"], c.asGroup = none) := by
  refine ⟨by decide +kernel, by decide +kernel, fun c hc => ?_⟩
  simp only [List.mem_cons, List.not_mem_nil, or_false] at hc
  rcases hc with rfl | rfl | rfl | rfl | rfl <;> rfl

end Query
