import Verif.Spec.Room
import Verif.Proof.HeapHistory
import Verif.Proof.Logic
/-!
# Appending twice to a list with room
-/
namespace Query
open Store

theorem append_room {α : Type} (gr : Grow) (st : Store α) (s : Sl) (xs : List α) (h : s.roomFor xs.length) :
    (st.append gr s xs).2 = { s with len := s.len + xs.length } := by
  unfold Store.append Sl.roomFor at *
  rw [if_pos h]

theorem read_append_room {α : Type} (gr : Grow) (st : Store α) (s : Sl) (xs : List α) (h : s.roomFor xs.length) (hb : InB st s) :
    Store.read (st.append gr s xs).1 s = st.read s := by
  unfold Store.append Sl.roomFor at *
  rw [if_pos h]
  simp only [Store.read]
  rw [cells_set_self _ _ _ hb.1]
  have := hb.2
  simp only [writeAt]
  rw [List.append_assoc, List.take_append_of_le_length (by simp; omega), List.take_of_length_le (by simp; omega)]

theorem hasAll_congr {st st' : Store HCond} {g : HGroup} (j : Str) (h : Store.read st' g.s = Store.read st g.s) : g.hasAll st' j = g.hasAll st j := by
  simp only [HGroup.hasAll, h]

/-- One more condition on a field, for a group joined by AND. -/
theorem addConditions_more (gr : Grow) (st : Store HCond) (g : HGroup) (c : Cond) (h1 : 0 < g.s.len) (h3 : g.hasAll st lAND = true) :
    g.addConditions gr st lAND [.leaf c] = g.app gr st [.leaf ((c.join lAND).join lAND)] := by
  have e : ((HCond.leaf c).join lAND).joinType = lAND := by simp only [HCond.join, HCond.joinType]; exact joinType_join c lAND
  have l : (decide (g.s.len > 0)) = true := by simp; omega
  have n0 : (g.s.len == 0) = false := by simp; omega
  simp only [HGroup.addConditions, l, List.length_nil, Bool.not_true, Bool.false_eq_true, if_false, if_true, HGroup.addSingleCondition,
    HCond.join, HCond.asGroup, n0, HCond.joinType, joinType_join]
  by_cases hs : g.s.len = 1
  · simp only [hs, beq_self_eq_true, if_true]
  · have : (g.s.len == 1) = false := by simp; omega
    have m1 : (decide (g.s.len > 1)) = true := by simp; omega
    simp only [this, Bool.false_eq_true, if_false, m1, beq_self_eq_true, h3, Bool.and_self, if_true]

theorem addConditions_open (gr : Grow) (st : Store HCond) (g : HGroup) (c : Cond) (h : g.open1 st) :
    g.addConditions gr st lAND [.leaf c] = g.app gr st [.leaf ((c.join lAND).join lAND)] :=
  addConditions_more gr st g c h.1 h.2.2

/-- Two more conditions on fields, each for the same group with room. -/
theorem groupAND_twice (gr : Grow) (st : Store HCond) (g : HGroup) (c d : Cond) (h : g.open1 st) (hb : InB st g.s) :
    (g.groupAND gr (g.groupAND gr st [.leaf c]).1 [.leaf d]).2 = (g.groupAND gr st [.leaf c]).2 := by
  simp only [HGroup.groupAND]
  have h' : g.open1 (g.addConditions gr st lAND [.leaf c]).1 := by
    refine ⟨h.1, h.2.1, ?_⟩
    rw [hasAll_congr lAND (st := st)]
    · exact h.2.2
    · rw [addConditions_open gr st g c h]
      exact read_append_room gr st g.s _ h.2.1 hb
  rw [addConditions_open gr _ g d h', addConditions_open gr st g c h]
  simp only [HGroup.app]
  rw [append_room _ _ _ _ h.2.1, append_room _ _ _ _ h.2.1]
  rfl

theorem getCondsH_one {hs : List HV} {i : Nat} (h : LeafAt hs i) : ∃ c, getCondsH hs [i] = some [.leaf c] := by
  obtain ⟨c, e⟩ := h
  exact ⟨c, by simp only [getCondsH, e]⟩

theorem get_left {hs : List HV} {r : Nat} {h : HV} (e : hs[r]? = some h) (x : HV) : (hs ++ [x])[r]? = some h := by
  rw [List.getElem?_append_left (List.getElem?_eq_some_iff.1 e).1]; exact e

theorem getCondsH_one' {hs : List HV} {i : Nat} (h : LeafAt hs i) : ∃ c, ∀ x, getCondsH (hs ++ [x]) [i] = some [.leaf c] := by
  obtain ⟨c, e⟩ := h
  exact ⟨c, fun x => by simp only [getCondsH, get_left e x]⟩

theorem ex_of_map {x : Option (Mem × HV)} {h : HV} (e : x.map Prod.snd = some h) : ∃ m, x = some (m, h) := by
  cases x with
  | none => cases e
  | some y => obtain ⟨m, h'⟩ := y; simp only [Option.map_some, Option.some.injEq] at e; subst e; exact ⟨m, rfl⟩

/-- The second of two such calls gives the very value of the first. -/
theorem twins_heap (pol : Policy) {m : Mem} {hs : List HV} (hb : ∀ (i : Nat) (h : HV), hs[i]? = some h → h.bnd m) {c d : Call}
    (t : Twins m hs c d) : ∃ m1 h, c.heap pol m hs = some (m1, h) ∧ ∃ m2, d.heap pol m1 (hs ++ [h]) = some (m2, h) := by
  cases t with
  | orderBy e hl room same =>
    rename_i r h s xs ys
    cases h <;> simp only [HV.orderSl, Option.some.injEq, reduceCtorEq] at hl
    rename_i q
    subst hl
    refine ⟨_, _, by simp only [Call.heap, e]; rfl, ex_of_map ?_⟩
    simp only [Option.map_some, Call.heap, get_left e, HMany.addOrder]
    rw [append_room _ _ _ _ room, append_room _ _ _ _ (by rw [← same]; exact room), same]
  | values e room same =>
    refine ⟨_, _, by simp only [Call.heap, e]; rfl, ex_of_map ?_⟩
    simp only [Option.map_some, Call.heap, get_left e, HInsert.addValues]
    rw [append_room _ _ _ _ room, append_room _ _ _ _ (by rw [← same]; exact room), same]
  | set e room same =>
    refine ⟨_, _, by simp only [Call.heap, e]; rfl, ex_of_map ?_⟩
    simp only [Option.map_some, Call.heap, get_left e, HUpdate.set]
    rw [append_room _ _ _ _ room, append_room _ _ _ _ (by rw [← same]; exact room), same]
  | joinTable e hl room =>
    rename_i r h s t u j k
    cases h <;> simp only [HV.joinListSl, Option.some.injEq, reduceCtorEq] at hl
    all_goals
      subst hl
      refine ⟨_, _, by simp only [Call.heap, e]; rfl, ex_of_map ?_⟩
      simp only [Option.map_some, Call.heap, get_left e, HBase.joinIdent]
      rw [append_room _ _ _ _ room, append_room _ _ _ _ room]
      rfl
  | where_ e hl hc room li lk =>
    rename_i r i k h g
    obtain ⟨a, ea⟩ := getCondsH_one li
    have bd := hb _ _ e
    cases h <;> simp only [HV.groupH, Option.some.injEq, reduceCtorEq] at hl
    · exact absurd rfl (hc _)
    all_goals
      subst hl
      obtain ⟨b, eb⟩ := getCondsH_one' lk
      refine ⟨_, _, by simp only [Call.heap, e, ea]; rfl, ex_of_map ?_⟩
      simp only [Option.map_some, Call.heap, get_left e, eb, HBase.addWhere, HUpdate.addWhere, HDelete.addWhere]
      first
        | rw [groupAND_twice _ _ _ _ _ room bd.cond]
        | rw [groupAND_twice _ _ _ _ _ room bd.1.cond]
        | rw [groupAND_twice _ _ _ _ _ room bd.1]
        | rw [groupAND_twice _ _ _ _ _ room bd]
  | and e hl room li lk =>
    rename_i r i k c g
    obtain ⟨a, ea⟩ := getCondsH_one li
    have bd := hb _ _ e
    cases c <;> simp only [HV.groupH, Option.some.injEq, reduceCtorEq] at hl
    subst hl
    obtain ⟨b, eb⟩ := getCondsH_one' lk
    refine ⟨_, _, by simp only [Call.heap, e, ea]; rfl, ex_of_map ?_⟩
    simp only [Option.map_some, Call.heap, get_left e, eb, HCond.and]
    rw [groupAND_twice _ _ _ _ _ room bd]

theorem runHeap_append (pol : Policy) : ∀ (cs cs' : List Call) (m : Mem) (hs : List HV),
    runHeap pol m hs (cs ++ cs') = (runHeap pol m hs cs).bind fun x => runHeap pol x.1 x.2 cs'
  | [], _, _, _ => rfl
  | c :: cs, cs', m, hs => by
    simp only [List.cons_append, runHeap]
    split
    · exact runHeap_append pol cs cs' _ _
    · rfl

/-! ## Capacities of lists built one by one, with Go's growth -/

/-- The capacity after `n` appends of one element each: 0, or the least power of two that is enough. -/
def GoCap (n c : Nat) : Prop := (n = 0 ∧ c = 0) ∨ ∃ k, c = 2 ^ k ∧ n ≤ 2 ^ k ∧ 2 ^ k < 2 * n

theorem goCap_append {α : Type} (st : Store α) (s : Sl) (ys : List α) (x : α) (h : RepS st s ys) (g : GoCap ys.length s.cap) :
    GoCap (ys ++ [x]).length (st.append goGrow s [x]).2.cap := by
  have l := h.length
  simp only [List.length_append, List.length_cons, List.length_nil, Nat.zero_add]
  unfold Store.append
  split
  · rename_i hl
    simp only [List.length_cons, List.length_nil] at hl ⊢
    rcases g with ⟨h1, h2⟩ | ⟨k, h1, h2, h3⟩
    · omega
    · exact .inr ⟨k, h1, by omega, by omega⟩
  · rename_i hl
    simp only [List.length_cons, List.length_nil, Store.alloc, goGrow] at hl ⊢
    rcases g with ⟨h1, h2⟩ | ⟨k, h1, h2, h3⟩
    · exact .inr ⟨0, by rw [Nat.pow_zero]; omega, by rw [Nat.pow_zero]; omega, by rw [Nat.pow_zero]; omega⟩
    · exact .inr ⟨k + 1, by rw [Nat.pow_succ]; omega, by rw [Nat.pow_succ]; omega, by rw [Nat.pow_succ]; omega⟩

theorem goCap_room {n c : Nat} (g : GoCap n c) (h0 : 0 < n) (hp : ∀ k, n ≠ 2 ^ k) : n < c := by
  rcases g with ⟨h1, _⟩ | ⟨k, h1, h2, _⟩
  · omega
  · have := hp k; omega

/-- The list stays as it was when something is appended to it in place. -/
theorem rep_append_self {α : Type} (gr : Grow) (st : Store α) (s : Sl) (ys xs : List α) (h : RepS st s ys) (hr : s.roomFor xs.length) :
    RepS (st.append gr s xs).1 s ys :=
  ⟨Nat.lt_of_lt_of_le h.1 (sz_append gr st s xs ⟨h.1, h.2.1⟩).1, Nat.le_trans h.2.1 ((sz_append gr st s xs ⟨h.1, h.2.1⟩).2 _),
    by rw [read_append_room gr st s xs hr ⟨h.1, h.2.1⟩]; exact h.2.2⟩

/-- What reading a value gives, from what it stands for. -/
theorem reads_of_rep {pol : Policy} (gr : Grow) {cs : List Call} {m : Mem} {hs : List HV} {r : Nat} {x : HV} {p : PV}
    (h1 : runHeap pol Mem.empty [] cs = some (m, hs)) (h2 : hs[r]? = some x) (h3 : RepV m x p) (l : Look) :
    ReadsAs pol gr cs r l (p.look l) :=
  ⟨m, hs, x, h1, h2, p.depth, fun d hd par => (look_serves gr d ⟨m, par⟩ x p (.inl ⟨h3, hd⟩) l).imp fun _ _ q => q.2.1⟩

/-! ## INSERT -/

theorem values_chain : ∀ (vs : List FieldValue) (k : Nat) (m : Mem) (hs : List HV) (q : HInsert) (old : List FieldValue),
    hs.length = k + 1 → hs[k]? = some (.insert q) → RepS m.vals q.setValues old → GoCap old.length q.setValues.cap →
    ∃ m' hs' s', runHeap goPolicy m hs (valuesFrom k vs) = some (m', hs') ∧ hs'.length = k + vs.length + 1 ∧
      hs'[k + vs.length]? = some (.insert { q with setValues := s' }) ∧ RepS m'.vals s' (old ++ vs) ∧ GoCap (old ++ vs).length s'.cap
  | [], k, m, hs, q, old, hl, e, r, g => ⟨m, hs, q.setValues, rfl, by simpa using hl, by simpa using e, by simpa using r, by simpa using g⟩
  | v :: vs, k, m, hs, q, old, hl, e, r, g => by
    have r' := rep_append goPolicy.vals m.vals q.setValues [v] old r.1 r
    have g' := goCap_append m.vals q.setValues old v r g
    obtain ⟨m', hs', s', h1, h2, h3, h4, h5⟩ := values_chain vs (k + 1)
      { m with vals := (m.vals.append goPolicy.vals q.setValues [v]).1 }
      (hs ++ [.insert { q with setValues := (m.vals.append goPolicy.vals q.setValues [v]).2 }])
      { q with setValues := (m.vals.append goPolicy.vals q.setValues [v]).2 } (old ++ [v]) (by simp [hl])
      (by rw [List.getElem?_append_right (by omega), hl]; simp) r' g'
    refine ⟨m', hs', s', ?_, by rw [h2]; simp; omega, ?_, by simpa using h4, by simpa using h5⟩
    · simp only [valuesFrom, runHeap, Call.heap, e, HInsert.addValues]
      exact h1
    · rw [show k + (v :: vs).length = k + 1 + vs.length by simp; omega]; exact h3

/-! ## ORDER BY -/

theorem orders_chain : ∀ (ks : List FieldSorting) (k : Nat) (m : Mem) (hs : List HV) (q : HMany) (old : List FieldSorting),
    hs.length = k + 1 → hs[k]? = some (.many q) → RepS m.sorts q.order old → GoCap old.length q.order.cap →
    ∃ st hs' s', runHeap goPolicy m hs (orderFrom k ks) = some ({ m with sorts := st }, hs') ∧ hs'.length = k + ks.length + 1 ∧
      hs'[k + ks.length]? = some (.many { q with order := s' }) ∧ RepS st s' (old ++ ks) ∧ GoCap (old ++ ks).length s'.cap
  | [], k, m, hs, q, old, hl, e, r, g => ⟨m.sorts, hs, q.order, rfl, by simpa using hl, by simpa using e, by simpa using r, by simpa using g⟩
  | v :: vs, k, m, hs, q, old, hl, e, r, g => by
    have r' := rep_append goPolicy.sorts m.sorts q.order [v] old r.1 r
    have g' := goCap_append m.sorts q.order old v r g
    obtain ⟨st, hs', s', h1, h2, h3, h4, h5⟩ := orders_chain vs (k + 1)
      { m with sorts := (m.sorts.append goPolicy.sorts q.order [v]).1 }
      (hs ++ [.many { q with order := (m.sorts.append goPolicy.sorts q.order [v]).2 }])
      { q with order := (m.sorts.append goPolicy.sorts q.order [v]).2 } (old ++ [v]) (by simp [hl])
      (by rw [List.getElem?_append_right (by omega), hl]; simp) r' g'
    refine ⟨st, hs', s', ?_, by rw [h2]; simp; omega, ?_, by simpa using h4, by simpa using h5⟩
    · simp only [orderFrom, runHeap, Call.heap, e, HMany.addOrder]
      exact h1
    · rw [show k + (v :: vs).length = k + 1 + vs.length by simp; omega]; exact h3

/-! ## WHERE -/

theorem conj_snoc (cs : List Cond) (c : Cond) (h : cs ≠ []) : conj (cs ++ [c]) = conj cs ++ [c.join lAND] := by
  cases cs with
  | nil => exact absurd rfl h
  | cons a as => simp [conj]

theorem length_conj (cs : List Cond) : (conj cs).length = cs.length := by cases cs <;> simp [conj]

theorem hasAll_conj {st : Store HCond} {g : HGroup} {cs : List Cond} (r : RepS st g.s ((conj cs).map .leaf)) : g.hasAll st lAND = true := by
  simp only [HGroup.hasAll, r.2.2]
  cases cs with
  | nil => rfl
  | cons a as =>
    simp only [conj, List.map_cons, List.drop_succ_cons, List.drop_zero, List.map_map, List.all_map, List.all_eq_true]
    intro c _
    simp only [Function.comp, HCond.joinType, joinType_join, beq_self_eq_true]

/-- One more `Where` on a builder all of whose conditions were added that way. -/
theorem where_oneH (gr : Grow) (st : Store HCond) (g : HGroup) (cs : List Cond) (c : Cond) (hb : g.base.joinType = lAND)
    (r : RepS st g.s ((conj cs).map .leaf)) :
    g.groupAND gr st [.leaf c] = g.app gr st [.leaf (if cs = [] then c else c.join lAND)] := by
  have l := r.length
  rw [List.length_map, length_conj] at l
  simp only [HGroup.groupAND]
  cases cs with
  | nil =>
    simp only [List.length_nil] at l
    simp only [HGroup.addConditions, ← l, if_true]
    simp only [HGroup.app]
    simp
    cases g with
    | mk b s br => cases b; simp only at hb; simp only [hb]
  | cons a as =>
    rw [addConditions_more gr st g c (by rw [← l]; simp) (hasAll_conj r), join_join, if_neg (by simp)]

theorem conj_add (cs : List Cond) (c : Cond) : conj (cs ++ [c]) = conj cs ++ [if cs = [] then c else c.join lAND] := by
  cases cs with
  | nil => rfl
  | cons a as => rw [conj_snoc _ _ (by simp), if_neg (by simp)]

theorem wheres_chain : ∀ (cs : List Cond) (k : Nat) (m : Mem) (hs : List HV) (q : HDelete) (old : List Cond),
    (∀ c ∈ cs, c.asGroup = none) → q.where_.base.joinType = lAND →
    hs.length = k + 1 → hs[k]? = some (.delete q) → RepS m.conds q.where_.s ((conj old).map .leaf) → GoCap old.length q.where_.s.cap →
    ∃ st hs' s', runHeap goPolicy m hs (whereFrom k cs) = some ({ m with conds := st }, hs') ∧ hs'.length = k + 2 * cs.length + 1 ∧
      (∀ i, i < k → hs'[i]? = hs[i]?) ∧
      hs'[k + 2 * cs.length]? = some (.delete { q with where_ := { q.where_ with s := s' } }) ∧
      RepS st s' ((conj (old ++ cs)).map .leaf) ∧ GoCap (old ++ cs).length s'.cap
  | [], k, m, hs, q, old, _, _, hl, e, r, g =>
    ⟨m.conds, hs, q.where_.s, rfl, by simpa using hl, fun _ _ => rfl, by simpa using e, by simpa using r, by simpa using g⟩
  | c :: cs, k, m, hs, q, old, hc, hb, hl, e, r, g => by
    have hcg := hc c (List.mem_cons_self ..)
    have r' := rep_append goPolicy.conds m.conds q.where_.s [HCond.leaf (if old = [] then c else c.join lAND)] _ r.1 r
    have g' := goCap_append m.conds q.where_.s _ (HCond.leaf (if old = [] then c else c.join lAND)) r
      (by rw [List.length_map, length_conj]; exact g)
    have ew := where_oneH goPolicy.conds m.conds q.where_ old c hb r
    obtain ⟨st, hs', s', h1, h2, h6, h3, h4, h5⟩ := wheres_chain cs (k + 2)
      { m with conds := (m.conds.append goPolicy.conds q.where_.s [HCond.leaf (if old = [] then c else c.join lAND)]).1 }
      (hs ++ [.cond (.leaf c)] ++ [.delete { q with where_ := { q.where_ with s := (m.conds.append goPolicy.conds q.where_.s [HCond.leaf (if old = [] then c else c.join lAND)]).2 } }])
      { q with where_ := { q.where_ with s := (m.conds.append goPolicy.conds q.where_.s [HCond.leaf (if old = [] then c else c.join lAND)]).2 } }
      (old ++ [c]) (fun d hd => hc d (List.mem_cons_of_mem _ hd)) hb (by simp [hl])
      (by rw [List.getElem?_append_right (by simp [hl])]; simp [hl])
      (by rw [conj_add, List.map_append]; exact r')
      (by rw [List.length_append, List.length_map, length_conj] at g'; rw [List.length_append]; exact g')
    refine ⟨st, hs', s', ?_, by rw [h2]; simp; omega, ?_, ?_, by simpa using h4, by simpa using h5⟩
    · have e1 : (hs ++ [HV.cond (.leaf c)])[k]? = some (.delete q) := get_left e _
      have e2 : (hs ++ [HV.cond (.leaf c)])[k + 1]? = some (.cond (.leaf c)) := by
        rw [List.getElem?_append_right (by omega), hl]; simp
      simp only [whereFrom, runHeap, Call.heap, hcg, Option.isSome_none, Bool.false_eq_true, if_false, getCondsH, e1, e2, HDelete.addWhere, ew, HGroup.app]
      exact h1
    · intro i hi
      rw [h6 i (by omega), List.getElem?_append_left (by simp; omega), List.getElem?_append_left (by omega)]
    · rw [show k + 2 * (c :: cs).length = k + 2 + 2 * cs.length by simp; omega]; exact h3

theorem repL_leaves {st : Store HCond} : ∀ (cs : List Cond), (∀ c ∈ cs, c.asGroup = none) → RepL st (cs.map .leaf) cs
  | [], _ => by simp [RepL]
  | c :: cs, h => by
    simp only [List.map_cons, RepL]
    exact ⟨rep_leaf_iff.2 ⟨rfl, h c (List.mem_cons_self ..)⟩, repL_leaves cs fun d hd => h d (List.mem_cons_of_mem _ hd)⟩

theorem conj_leaves {cs : List Cond} (h : ∀ c ∈ cs, c.asGroup = none) : ∀ c ∈ conj cs, c.asGroup = none := by
  cases cs with
  | nil => intro c hc; cases hc
  | cons a as =>
    intro c hc
    rcases List.mem_cons.1 hc with rfl | hc
    · exact h _ (List.mem_cons_self ..)
    · obtain ⟨d, hd, rfl⟩ := List.mem_map.1 hc
      rw [asGroup_join, h d (List.mem_cons_of_mem _ hd)]; rfl

theorem repG_conj {st : Store HCond} {g : HGroup} {cs : List Cond} (h : ∀ c ∈ cs, c.asGroup = none) (r : RepS st g.s ((conj cs).map .leaf)) :
    RepG st g ⟨g.base, conj cs, g.br⟩ :=
  rep_group_iff.2 ⟨rfl, rfl, r.1, r.2.1, by rw [r.2.2]; exact repL_leaves _ (conj_leaves h)⟩

end Query
