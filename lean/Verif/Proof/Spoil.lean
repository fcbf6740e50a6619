import Verif.Proof.SpillLook
import Verif.Props.Spill
import Verif.Spec.Spoil
/-!
# When exactly a call spoils an earlier value: proofs
-/
namespace Query
open Store

section
variable {α : Type}

theorem getElem?_writeAt (cs xs : List α) (n j : Nat) (hn : n ≤ cs.length) (hj : j < cs.length) :
    (writeAt cs n xs)[j]? = if n ≤ j ∧ j < n + xs.length then xs[j - n]? else cs[j]? := by
  simp only [writeAt]
  have e : (cs.take n).length = n := by simp; omega
  rw [List.append_assoc]
  rcases Nat.lt_or_ge j n with h | h
  · rw [List.getElem?_append_left (by omega), if_neg (by omega), List.getElem?_take_of_lt h]
  · rw [List.getElem?_append_right (by omega), e]
    rcases Nat.lt_or_ge j (n + xs.length) with k | k
    · rw [if_pos ⟨h, k⟩, List.getElem?_append_left (by omega)]
    · rw [if_neg (by omega), List.getElem?_append_right (by omega), List.getElem?_drop]
      congr 1; omega

theorem writeAt_take_eq (cs xs : List α) (n : Nat) :
    (writeAt cs n xs).take cs.length = cs ↔ ∀ i x y, xs[i]? = some x → cs[n + i]? = some y → x = y := by
  rcases Nat.lt_or_ge cs.length n with h | h
  · constructor
    · intro _ i x y _ k
      have := (List.getElem?_eq_some_iff.1 k).1
      omega
    · intro _
      simp only [writeAt]
      rw [List.take_of_length_le (Nat.le_of_lt h), List.append_assoc, List.take_append_of_le_length (Nat.le_refl _)]
      simp
  · constructor
    · intro e i x y hx hy
      have l1 := (List.getElem?_eq_some_iff.1 hx).1
      have l2 := (List.getElem?_eq_some_iff.1 hy).1
      have k := congrArg (·[n + i]?) e
      rw [List.getElem?_take_of_lt l2, getElem?_writeAt cs xs n _ h l2, if_pos (by omega), hy, Nat.add_sub_cancel_left, hx] at k
      exact Option.some.inj k
    · intro hk
      refine List.ext_getElem? fun j => ?_
      rcases Nat.lt_or_ge j cs.length with l | l
      · rw [List.getElem?_take_of_lt l, getElem?_writeAt cs xs n j h l]
        split
        · rename_i c
          have l3 : j - n < xs.length := by omega
          have := hk (j - n) xs[j - n] cs[j] (List.getElem?_eq_getElem l3) (by
            rw [Nat.add_sub_cancel' c.1]; exact List.getElem?_eq_getElem l)
          rw [List.getElem?_eq_getElem l3, List.getElem?_eq_getElem l, this]
        · rfl
      · rw [List.getElem?_eq_none (by simp; omega), List.getElem?_eq_none l]

theorem read_len_inB {st : Store α} {t : Sl} (h : InB st t) : (st.read t).length = t.len := by
  have := h.2
  simp only [Store.read, List.length_take]
  omega

theorem read_alloc_old {st : Store α} {t : Sl} (h : InB st t) (xs : List α) (cap : Nat) : Store.read (st.alloc xs cap).1 t = st.read t := by
  simp only [Store.read, Store.alloc, cells_append_lt _ _ _ h.1]

theorem inB_alloc {st : Store α} {t : Sl} (h : InB st t) (xs : List α) (cap : Nat) : InB (st.alloc xs cap).1 t := by
  refine ⟨?_, ?_⟩
  · simp only [Store.alloc, List.length_append, List.length_singleton]; exact Nat.lt_succ_of_lt h.1
  · simp only [Store.alloc, cells_append_lt _ _ _ h.1]; exact h.2

/-- Appending changes a list exactly if it spoils it. -/
theorem append_spoils (gr : Grow) {st : Store α} {s t : Sl} (ht : InB st t) (xs : List α) :
    (st.append gr s xs).1.read t ≠ st.read t ↔ Spoils st s xs t := by
  by_cases room : s.len + xs.length ≤ s.cap
  · by_cases ha : t.arr = s.arr
    · rw [read_overwritten gr xs room ht ha]
      have e := read_len_inB ht
      conv => lhs; lhs; rw [← e]
      constructor
      · intro h
        have h' := mt (writeAt_take_eq (st.read t) xs s.len).2 h
        refine ⟨room, ha, ?_⟩
        apply Classical.byContradiction
        intro hn
        exact h' fun i x y hx hy => Classical.byContradiction fun hne => hn ⟨i, x, y, hx, hy, hne⟩
      · rintro ⟨_, _, i, x, y, hx, hy, hne⟩ h
        exact hne ((writeAt_take_eq (st.read t) xs s.len).1 h i x y hx hy)
    · constructor
      · intro h
        refine absurd ?_ h
        simp only [Store.append, if_pos room, Store.read]
        rw [cells_set_ne _ _ _ _ (Ne.symm ha)]
      · rintro ⟨_, h, _⟩; exact absurd h ha
  · constructor
    · intro h
      refine absurd ?_ h
      simp only [Store.append, if_neg room]
      exact read_alloc_old ht _ _
    · rintro ⟨h, _⟩; exact absurd h room

/-- Nothing is spoilt by adding nothing. -/
theorem not_spoils_nil {st : Store α} {s t : Sl} : ¬ Spoils st s [] t := by
  rintro ⟨_, _, i, x, y, h, _⟩; simp at h

theorem write_changes {st : Store α} {s t : Sl} (ht : InB st t) (n : Nat) (x : α) :
    (st.write s n x).read t ≠ st.read t ↔ t.arr = s.arr ∧ ∃ y, (st.read t)[n]? = some y ∧ x ≠ y := by
  simp only [Store.write, Store.read]
  by_cases ha : t.arr = s.arr
  · rw [ha, cells_set_self _ _ _ (ha ▸ ht.1)]
    have hl := ha ▸ ht.2
    rcases Nat.lt_or_ge n t.len with k | k
    · rw [List.getElem?_take_of_lt k, List.getElem?_eq_getElem (by omega)]
      rw [List.take_set]
      constructor
      · intro h
        refine ⟨rfl, _, rfl, fun e => h ?_⟩
        refine List.ext_getElem? fun j => ?_
        by_cases ej : n = j
        · subst ej
          rw [List.getElem?_set_self (by simp; omega), List.getElem?_take_of_lt k, List.getElem?_eq_getElem (by omega), e]
        · rw [List.getElem?_set_ne ej]
      · rintro ⟨_, y, e, hne⟩ h
        have := congrArg (·[n]?) h
        rw [List.getElem?_set_self (by simp; omega), List.getElem?_take_of_lt k, List.getElem?_eq_getElem (by omega), e] at this
        exact hne (Option.some.inj this)
    · constructor
      · intro h
        refine absurd ?_ h
        rw [List.take_set, List.set_eq_of_length_le (by simp; omega)]
      · rintro ⟨_, y, e, _⟩
        have := (List.getElem?_eq_some_iff.1 e).1
        simp at this
        omega
  · constructor
    · intro h
      rw [cells_set_ne _ _ _ _ (Ne.symm ha)] at h
      exact absurd rfl h
    · rintro ⟨h, _⟩; exact absurd h ha

end

/-! ## Conditions -/

section
variable {st : Store HCond} {t : Sl}

theorem read_lit {g : HGroup} (ht : InB st t) (xs : List HCond) : (g.lit st xs).1.read t = st.read t := read_alloc_old ht xs xs.length

theorem inB_lit {g : HGroup} (ht : InB st t) (xs : List HCond) : InB (g.lit st xs).1 t := inB_alloc ht xs xs.length

/-- Appending to a new array leaves the old ones alone. -/
theorem read_litApp (gr : Grow) {g : HGroup} (ht : InB st t) (xs ys : List HCond) :
    ((g.lit st xs).2.app gr (g.lit st xs).1 ys).1.read t = st.read t := by
  apply Classical.byContradiction
  intro h
  have h1 : ((g.lit st xs).1.append gr (g.lit st xs).2.s ys).1.read t ≠ (g.lit st xs).1.read t := by
    rw [read_lit ht]; exact h
  obtain ⟨_, ha, _⟩ := (append_spoils gr (inB_lit ht xs) ys).1 h1
  have : t.arr = st.length := ha
  exact absurd ht.1 (by omega)

theorem read_groupNew {j : Str} (ht : InB st t) (xs : List HCond) : (newGroupH st j xs).1.read t = st.read t := read_alloc_old ht _ (xs.map (·.join j)).length

theorem inB_groupNew {j : Str} (ht : InB st t) (xs : List HCond) : InB (newGroupH st j xs).1 t := inB_alloc ht _ (xs.map (·.join j)).length

theorem append_nil_read (gr : Grow) {s : Sl} (ht : InB st t) : (st.append gr s []).1.read t = st.read t :=
  Classical.byContradiction fun h => not_spoils_nil ((append_spoils gr ht []).1 h)

theorem hasAll_allBy (g : HGroup) (op : Str) : g.hasAll st op = allBy op (st.read g.s) := rfl
theorem hasOne_someBy (g : HGroup) (op : Str) : g.hasOne st op = someBy op (st.read g.s) := rfl

theorem allBy_short {op : Str} {cs : List HCond} (h : cs.length ≤ 1) : allBy op cs = true := by
  match cs, h with
  | [], _ => rfl
  | [_], _ => rfl

/-- Two operators are not both those of all members of a group of two or more. -/
theorem allBy_not {op op' : Str} (hne : op ≠ op') {cs : List HCond} (hl : 2 ≤ cs.length) (h : allBy op cs = true) :
    allBy op' cs = false ∧ someBy op' cs = false ∧ someBy op cs = true := by
  match cs, hl with
  | _ :: d :: cs, _ =>
    simp only [allBy, List.drop_succ_cons, List.drop_zero, List.all_cons, Bool.and_eq_true, beq_iff_eq, List.all_eq_true, someBy, List.any_cons,
      Bool.or_eq_true, Bool.and_eq_false_iff, Bool.or_eq_false_iff, List.any_eq_false] at h ⊢
    refine ⟨.inl ?_, ⟨?_, fun c hc => ?_⟩, .inl h.1⟩
    · rw [h.1]; simpa using hne
    · rw [h.1]; simpa using hne
    · rw [h.2 c hc]; exact hne

theorem lAND_ne_lOR : lAND ≠ lOR := by decide

theorem addGroup_read (gr : Grow) (g : HGroup) (hg : InB st g.s) (ht : InB st t) (b : CondBase) (s' : Sl) (br : Bool) (hl : g.s.len ≠ 0)
    (op other : Str) (ho : op = lAND ∧ other = lOR ∨ op = lOR ∧ other = lAND) :
    (g.addGroup gr st ⟨b.join op, s', br⟩).1.read t = (st.append gr g.s (behind st g.s op other [.group b s' br])).1.read t := by
  have hlen := read_len_inB hg
  have e0 : (g.s.len == 0) = false := by simpa using hl
  simp only [HGroup.addGroup, hasAll_allBy, hasOne_someBy, e0, Bool.false_eq_true, if_false, behind, if_neg hl]
  by_cases h1 : g.s.len = 1
  · have a1 : ∀ o, allBy o (st.read g.s) = true := fun o => allBy_short (by omega)
    simp only [h1, beq_self_eq_true, Bool.true_and, a1, Bool.true_eq_false, if_false, true_or, if_true]
    rcases ho with ⟨rfl, rfl⟩ | ⟨rfl, rfl⟩
    · have : ((b.join lAND).joinType == lOR) = false := (by decide : (lAND == lOR) = false)
      simp only [CondBase.join] at this ⊢
      simp only [beq_self_eq_true, Bool.true_and, this, Bool.false_and]
      split
      · rename_i h; first | rfl | (simp only [h, if_true]; rfl)
      · rename_i h; first | rfl | (simp only [h, Bool.false_eq_true, if_false]; rfl)
    · have : ((b.join lOR).joinType == lAND) = false := (by decide : (lOR == lAND) = false)
      simp only [CondBase.join] at this ⊢
      simp only [beq_self_eq_true, Bool.true_and, this, Bool.false_and, Bool.false_eq_true, if_false]
      split
      · rename_i h; first | rfl | (simp only [h, if_true]; rfl)
      · rename_i h; first | rfl | (simp only [h, Bool.false_eq_true, if_false]; rfl)
  · have e1 : (g.s.len == 1) = false := by simpa using h1
    have l2 : 2 ≤ (st.read g.s).length := by omega
    simp only [e1, Bool.false_and, Bool.false_eq_true, if_false, h1, false_or]
    have nothing : (st.append gr g.s []).1.read t = st.read t := append_nil_read gr ht
    rcases ho with ⟨rfl, rfl⟩ | ⟨rfl, rfl⟩
    · have x1 : ((b.join lAND).joinType == lOR) = false := (by decide : (lAND == lOR) = false)
      have x2 : ((b.join lAND).joinType == lAND) = true := (by decide : (lAND == lAND) = true)
      simp only [x1, x2, Bool.and_false, Bool.false_and, Bool.false_eq_true, if_false, Bool.and_true]
      cases ha : allBy lAND (st.read g.s) with
      | true =>
        obtain ⟨_, y2, _⟩ := allBy_not lAND_ne_lOR l2 ha
        simp only [y2, Bool.false_and, Bool.true_and, Bool.false_eq_true, if_false, Bool.true_eq_false]
        split
        · rename_i h; first | rfl | (simp only [h, if_true]; rfl)
        · rename_i h; try simp only [h, Bool.false_eq_true, if_false]
          split
          · rename_i h; rfl
          · rw [nothing]; exact read_lit ht _
      | false =>
        simp only [if_true, nothing, Bool.false_and, Bool.false_eq_true, if_false]
        split
        · exact read_litApp gr ht _ _
        · exact read_lit ht _
    · have x1 : ((b.join lOR).joinType == lOR) = true := (by decide : (lOR == lOR) = true)
      have x2 : ((b.join lOR).joinType == lAND) = false := (by decide : (lOR == lAND) = false)
      simp only [x1, x2, Bool.and_false, Bool.false_and, Bool.false_eq_true, if_false, Bool.and_true]
      cases ha : allBy lOR (st.read g.s) with
      | true =>
        obtain ⟨_, y2, _⟩ := allBy_not lAND_ne_lOR.symm l2 ha
        simp only [y2, Bool.false_and, Bool.true_and, Bool.false_eq_true, if_false, Bool.true_eq_false]
        split
        · rename_i h; first | rfl | (simp only [h, if_true]; rfl)
        · rename_i h; try simp only [h, Bool.false_eq_true, if_false]
          split
          · rename_i h; rfl
          · rw [nothing]; exact read_lit ht _
      | false =>
        simp only [if_true, nothing, Bool.false_and, Bool.false_eq_true, if_false]
        split
        · exact read_litApp gr ht _ _
        · exact read_lit ht _

/-- An append reads the same from old lists if an array was allocated before. -/
theorem append_newer (gr : Grow) {g : HGroup} (hg : InB st g.s) (ht : InB st t) (ys xs : List HCond) :
    (g.app gr (newGroupH st lOR ys).1 xs).1.read t = (st.append gr g.s xs).1.read t := by
  have ht' := inB_groupNew (j := lOR) ht ys
  have e := read_groupNew (j := lOR) ht ys
  show ((newGroupH st lOR ys).1.append gr g.s xs).1.read t = _
  by_cases room : g.s.len + xs.length ≤ g.s.cap
  · by_cases ha : t.arr = g.s.arr
    · rw [read_overwritten gr xs room ht' ha, read_overwritten gr xs room ht ha, e]
    · simp only [Store.append, if_pos room, Store.read]
      rw [cells_set_ne _ _ _ _ (Ne.symm ha), cells_set_ne _ _ _ _ (Ne.symm ha)]
      exact e
  · simp only [Store.append, if_neg room]
    rw [read_alloc_old ht', read_alloc_old ht, e]

theorem addConditions_read (gr : Grow) (g : HGroup) (hg : InB st g.s) (ht : InB st t) (cs : List HCond)
    (op other : Str) (ho : op = lAND ∧ other = lOR ∨ op = lOR ∧ other = lAND) :
    (g.addConditions gr st op cs).1.read t = (st.append gr g.s (behind st g.s op other cs)).1.read t := by
  have nothing : (st.append gr g.s []).1.read t = st.read t := append_nil_read gr ht
  match cs with
  | [] => simp only [HGroup.addConditions, behind, nothing]
  | [c] =>
    by_cases hl : g.s.len = 0
    · simp only [HGroup.addConditions, behind, hl, gt_iff_lt, Nat.lt_irrefl, decide_false, Bool.not_false, if_true]
      rfl
    · have l0 : decide (g.s.len > 0) = true := by simpa using Nat.pos_of_ne_zero hl
      simp only [HGroup.addConditions, l0, Bool.not_true, Bool.false_eq_true, if_false, List.length_nil, if_true]
      cases c with
      | group b s' br =>
        rw [← addGroup_read gr g hg ht b s' br hl op other ho]
        rfl
      | leaf c =>
        simp only [behind, if_neg hl, HCond.join, HGroup.addSingleCondition, HCond.asGroup, HCond.joinType, joinType_join, join_join,
          hasAll_allBy]
        have e0 : (g.s.len == 0) = false := by simpa using hl
        simp only [e0, Bool.false_eq_true, if_false]
        have hlen := read_len_inB hg
        by_cases h1 : g.s.len = 1
        · have a1 : allBy op (st.read g.s) = true := allBy_short (by omega)
          simp only [h1, beq_self_eq_true, if_true, a1, Bool.true_eq_false, if_false]
          rfl
        · have e1 : (g.s.len == 1) = false := by simpa using h1
          have e2 : decide (g.s.len > 1) = true := by simp; omega
          simp only [e1, e2, Bool.false_eq_true, if_false, Bool.true_and]
          rcases ho with ⟨rfl, rfl⟩ | ⟨rfl, rfl⟩
          · have x1 : (lAND == lOR) = false := by decide
            simp only [beq_self_eq_true, Bool.true_and, x1, Bool.false_and, Bool.false_eq_true, if_false]
            cases allBy lAND (st.read g.s) with
            | true => rfl
            | false => simp only [Bool.false_eq_true, if_false, if_true, nothing]; exact read_lit ht _
          · have x1 : (lOR == lAND) = false := by decide
            simp only [beq_self_eq_true, Bool.true_and, x1, Bool.false_and, Bool.false_eq_true, if_false]
            cases allBy lOR (st.read g.s) with
            | true => rfl
            | false => simp only [Bool.false_eq_true, if_false, if_true, nothing]; exact read_lit ht _
  | c :: d :: cs =>
    by_cases hl : g.s.len = 0
    · simp only [HGroup.addConditions, behind, hl, gt_iff_lt, Nat.lt_irrefl, decide_false, Bool.not_false, if_true]
      rfl
    · have l0 : decide (g.s.len > 0) = true := by simpa using Nat.pos_of_ne_zero hl
      simp only [HGroup.addConditions, l0, Bool.not_true, Bool.false_eq_true, if_false, List.length_cons, Nat.succ_ne_zero, hasOne_someBy,
        behind, if_neg hl]
      rcases ho with ⟨rfl, rfl⟩ | ⟨rfl, rfl⟩
      · have x1 : (lAND == lOR) = false := by decide
        simp only [beq_self_eq_true, Bool.and_true, x1, Bool.and_false, Bool.false_eq_true, if_false, lAND_ne_lOR, false_and, nothing]
        split
        · exact read_litApp gr ht _ _
        · rw [read_litApp gr (inB_groupNew ht _), read_groupNew ht]
      · have x1 : (lOR == lAND) = false := by decide
        simp only [beq_self_eq_true, Bool.and_true, x1, Bool.and_false, Bool.false_eq_true, if_false, true_and]
        cases hw : someBy lAND (st.read g.s) with
        | true =>
          simp only [if_true]
          rw [show (HGroup.toCond (newGroupH st lOR (c :: d :: cs)).2).join lOR =
            .group ⟨lOR, false⟩ ⟨st.length, cs.length + 2, cs.length + 2⟩ false from by
              simp [newGroupH, HGroup.toCond, HCond.join, Store.make, Store.alloc, newBase, CondBase.join]]
          exact append_newer gr hg ht _ _
        | false =>
          simp only [Bool.false_eq_true, if_false, nothing]
          rw [read_litApp gr (inB_groupNew ht _), read_groupNew ht]

end

end Query
