import Verif.Proof.Spoil
/-!
# When exactly each call spoils an earlier list
-/
namespace Query
open Store

section
variable {m m' : Mem} {hs : List HV} {v : HV} {t : Sl}

theorem sorts_call (pol : Policy) (c : Call) (hc : c.heap pol m hs = some (m', v)) (ht : InB m.sorts t) :
    m'.sorts.read t ≠ m.sorts.read t ↔ ∃ s, c.sortsAct.slice hs HV.sortsSl = some s ∧ Spoils m.sorts s c.newSorts t := by
  by_cases ho : ∃ r os, c = .orderBy r os
  · obtain ⟨r, os, rfl⟩ := ho
    simp only [Call.heap] at hc
    split at hc
    · rename_i q hr
      cases hc
      simp only [Call.sortsAct, Act.slice, Act.operand, Option.bind_some, hr, HV.sortsSl, Call.newSorts, Option.some.injEq, exists_eq_left']
      exact append_spoils _ ht _
    · cases hc
  · have hn : c.sortsAct.slice hs HV.sortsSl = none := by
      cases c <;> first | rfl | exact absurd ⟨_, _, rfl⟩ ho
    constructor
    · intro h
      refine absurd ((sparM_call pol c (m', v) hc).sorts.read ht fun a i cv w => ?_) h
      rcases w with ⟨s, e, _⟩ | w
      · rw [hn] at e; cases e
      · exact absurd ht.1 (by rw [cv.1]; exact Nat.not_lt.2 w)
    · rintro ⟨s, e, _⟩; rw [hn] at e; cases e

theorem vals_call (pol : Policy) (c : Call) (hc : c.heap pol m hs = some (m', v)) (ht : InB m.vals t) :
    m'.vals.read t ≠ m.vals.read t ↔ ∃ s, c.valsAct.slice hs HV.valsSl = some s ∧ Spoils m.vals s c.newVals t := by
  by_cases ho : ∃ r vs, c = .values r vs ∨ c = .set r vs
  · obtain ⟨r, vs, rfl | rfl⟩ := ho
    all_goals
      simp only [Call.heap] at hc
      split at hc
      · rename_i q hr
        cases hc
        simp only [Call.valsAct, Act.slice, Act.operand, Option.bind_some, hr, HV.valsSl, Call.newVals, Option.some.injEq, exists_eq_left']
        exact append_spoils _ ht _
      · cases hc
  · have hn : c.valsAct.slice hs HV.valsSl = none := by
      cases c <;> first | rfl | exact absurd ⟨_, _, .inl rfl⟩ ho | exact absurd ⟨_, _, .inr rfl⟩ ho
    constructor
    · intro h
      refine absurd ((sparM_call pol c (m', v) hc).vals.read ht fun a i cv w => ?_) h
      rcases w with ⟨s, e, _⟩ | w
      · rw [hn] at e; cases e
      · exact absurd ht.1 (by rw [cv.1]; exact Nat.not_lt.2 w)
    · rintro ⟨s, e, _⟩; rw [hn] at e; cases e

/-- `On` replaces the last join. -/
theorem on_changes {q : HBase} {l r : FieldDef} {x : Mem × HBase} (h : q.on m l r = .ok x) (hq : InB m.joins q.joins) (ht : InB m.joins t) :
    x.1.joins.read t ≠ m.joins.read t ↔
      ∃ n j, t.arr = q.joins.arr ∧ q.joins.len = n + 1 ∧ (m.joins.read t)[n]? = some j ∧ j.by' l r ≠ j := by
  simp only [HBase.on] at h
  split at h
  · rename_i j hj
    cases h
    have hl := (List.getElem?_eq_some_iff.1 hj).1
    rw [read_len_inB hq] at hl
    rw [write_changes ht]
    have same : ∀ y, t.arr = q.joins.arr → (m.joins.read t)[q.joins.len - 1]? = some y → y = j := by
      intro y ha hy
      have l2 := (List.getElem?_eq_some_iff.1 hy).1
      rw [read_len_inB ht] at l2
      simp only [Store.read, ha] at hy hj
      rw [List.getElem?_take_of_lt l2] at hy
      rw [List.getElem?_take_of_lt hl, hy] at hj
      exact Option.some.inj hj
    constructor
    · rintro ⟨ha, y, hy, hne⟩
      refine ⟨q.joins.len - 1, y, ha, by omega, hy, ?_⟩
      rw [same y ha hy] at hne ⊢
      exact hne
    · rintro ⟨n, y, ha, hn, hy, hne⟩
      have e : q.joins.len - 1 = n := by omega
      rw [← e] at hy
      refine ⟨ha, y, hy, ?_⟩
      rw [same y ha hy] at hne ⊢
      exact hne
  · cases h

theorem joins_call (pol : Policy) (hb : ∀ (r : Nat) (x : HV), hs[r]? = some x → x.bnd m) (c : Call) (hc : c.heap pol m hs = some (m', v))
    (ht : InB m.joins t) :
    m'.joins.read t ≠ m.joins.read t ↔ (∃ s, c.joinsAct.slice hs HV.joinsSl = some s ∧ Spoils m.joins s c.newJoins t) ∨
      ∃ r l l' h s n j, c = .on r l l' ∧ hs[r]? = some h ∧ h.joinsSl = some s ∧ t.arr = s.arr ∧ s.len = n + 1 ∧
        (m.joins.read t)[n]? = some j ∧ j.by' l l' ≠ j := by
  by_cases ho : ∃ r tb j, c = .joinTable r tb j
  · obtain ⟨r, tb, j, rfl⟩ := ho
    have no : ¬ ∃ r' l l' h s n j', Call.joinTable r tb j = .on r' l l' ∧ hs[r']? = some h ∧ h.joinsSl = some s ∧ t.arr = s.arr ∧ s.len = n + 1 ∧
        (m.joins.read t)[n]? = some j' ∧ j'.by' l l' ≠ j' := by
      rintro ⟨_, _, _, _, _, _, _, e, _⟩; cases e
    simp only [no, or_false]
    simp only [Call.heap] at hc
    split at hc
    case h_4 => cases hc
    all_goals
      rename_i q hr
      cases hc
      simp only [Call.joinsAct, Act.slice, Act.operand, Option.bind_some, hr, HV.joinsSl, Call.newJoins, Option.some.injEq, exists_eq_left']
      exact append_spoils _ ht _
  · have hn : c.joinsAct.slice hs HV.joinsSl = none := by
      cases c <;> first | rfl | exact absurd ⟨_, _, _, rfl⟩ ho
    have hn' : ¬ ∃ s, c.joinsAct.slice hs HV.joinsSl = some s ∧ Spoils m.joins s c.newJoins t := by
      rintro ⟨s, e, _⟩; rw [hn] at e; cases e
    simp only [hn', false_or]
    by_cases h2 : ∃ r l l', c = .on r l l'
    · obtain ⟨r, l, l', rfl⟩ := h2
      simp only [Call.heap] at hc
      have fin : ∀ (q : HBase) (h : HV) (x : Mem × HBase), hs[r]? = some h → h.joinsSl = some q.joins → InB m.joins q.joins →
          q.on m l l' = .ok x → x.1 = m' →
          (m'.joins.read t ≠ m.joins.read t ↔ ∃ r' k k' h s n j, Call.on r l l' = .on r' k k' ∧ hs[r']? = some h ∧ h.joinsSl = some s ∧
            t.arr = s.arr ∧ s.len = n + 1 ∧ (m.joins.read t)[n]? = some j ∧ j.by' k k' ≠ j) := by
        intro q h x hr hj hq ex e
        rw [← e, on_changes ex hq ht]
        constructor
        · rintro ⟨n, j, h1, h2, h3, h4⟩
          exact ⟨r, l, l', h, q.joins, n, j, rfl, hr, hj, h1, h2, h3, h4⟩
        · rintro ⟨_, _, _, h', s, n, j, e, hr', hj', h1, h2, h3, h4⟩
          cases e
          rw [hr] at hr'
          cases hr'
          rw [hj] at hj'
          cases hj'
          exact ⟨n, j, h1, h2, h3, h4⟩
      split at hc
      case h_4 => cases hc
      all_goals
        rename_i q hr
        obtain ⟨y, e, e2⟩ := Option.map_eq_some_iff.1 hc
        have hbq := hb r _ hr
        simp only [HV.bnd] at hbq
      · exact fin q _ y hr rfl hbq.joins (ok_of_toOption e) (congrArg Prod.fst e2)
      · exact fin q _ y hr rfl hbq.joins (ok_of_toOption e) (congrArg Prod.fst e2)
      · exact fin q.base _ y hr rfl hbq.1.joins (ok_of_toOption e) (congrArg Prod.fst e2)
    · have h3 : ¬ ∃ r l l' h s n j, c = .on r l l' ∧ hs[r]? = some h ∧ h.joinsSl = some s ∧ t.arr = s.arr ∧ s.len = n + 1 ∧
          (m.joins.read t)[n]? = some j ∧ j.by' l l' ≠ j := by
        rintro ⟨r, l, l', _, _, _, _, e, _⟩; exact h2 ⟨r, l, l', e⟩
      have hcp : c.completes = none := by
        cases c <;> first | rfl | exact absurd ⟨_, _, _, rfl⟩ h2
      simp only [h3, iff_false, ne_eq, Decidable.not_not]
      refine ((sparM_call pol c (m', v) hc).joins.read ht fun a i cv w => ?_)
      rcases w with (⟨s, e, _⟩ | ⟨_, _, _, e, _⟩) | w
      · rw [hn] at e; cases e
      · rw [hcp] at e; cases e
      · exact absurd ht.1 (by rw [cv.1]; exact Nat.not_lt.2 w)

end

section
variable {m m' : Mem} {hs : List HV} {v : HV} {t : Sl}

theorem read_groupOf (gr : Grow) {st : Store HCond} (ht : InB st t) (j : Str) (c : HCond) (more : List HCond) :
    (groupOf gr st j c more).1.read t = st.read t :=
  (spar_groupOf gr (W := fun a _ => st.length ≤ a) (fun _ _ h => h) j c more).read ht fun a i cv w =>
    absurd ht.1 (by rw [cv.1]; exact Nat.not_lt.2 w)

/-- Adding conditions to a group. -/
theorem added_spoils (gr : Grow) {st : Store HCond} (g : HGroup) (hg : InB st g.s) (ht : InB st t) (cs : List HCond)
    (op other : Str) (ho : op = lAND ∧ other = lOR ∨ op = lOR ∧ other = lAND) :
    (g.addConditions gr st op cs).1.read t ≠ st.read t ↔ Spoils st g.s (behind st g.s op other cs) t := by
  rw [addConditions_read gr g hg ht cs op other ho]
  exact append_spoils gr ht _

theorem conds_call (pol : Policy) (hb : ∀ (r : Nat) (x : HV), hs[r]? = some x → x.bnd m) (c : Call) (ha : c.noApply = true)
    (hc : c.heap pol m hs = some (m', v)) (ht : InB m.conds t) :
    m'.conds.read t ≠ m.conds.read t ↔ ∃ s, c.condsAct.slice hs HV.condsSl = some s ∧ Spoils m.conds s (c.newConds m hs s) t := by
  have aO : lAND = lAND ∧ lOR = lOR ∨ lAND = lOR ∧ lOR = lAND := .inl ⟨rfl, rfl⟩
  have oA : lOR = lAND ∧ lAND = lOR ∨ lOR = lOR ∧ lAND = lAND := .inr ⟨rfl, rfl⟩
  cases c
  case andF r args =>
    simp only [Call.heap] at hc
    split at hc
    · rename_i d cs hr hcs
      have hd := hb r _ hr
      cases hc
      cases d with
      | leaf d =>
        simp only [Call.condsAct, Act.slice, Act.operand, Option.bind_some, hr, HV.condsSl, reduceCtorEq, false_and, exists_false, iff_false, ne_eq]
        refine fun h => h ?_
        simp only [andH]
        split
        · rfl
        · exact read_groupOf _ ht _ _ _
      | group b s br =>
        simp only [Call.condsAct, Act.slice, Act.operand, Option.bind_some, hr, HV.condsSl, Call.newConds, hcs, Option.getD_some,
          Option.some.injEq, exists_eq_left']
        simp only [andH]
        split
        · rename_i h0
          have : cs = [] := List.eq_nil_of_length_eq_zero h0
          subst this
          simp only [behind]
          exact iff_of_false (fun h => h rfl) not_spoils_nil
        · exact added_spoils _ ⟨b, s, br⟩ hd ht cs _ _ aO
    · cases hc
  case orF r args =>
    simp only [Call.heap] at hc
    split at hc
    · rename_i d cs hr hcs
      have hd := hb r _ hr
      cases hc
      cases d with
      | leaf d =>
        simp only [Call.condsAct, Act.slice, Act.operand, Option.bind_some, hr, HV.condsSl, reduceCtorEq, false_and, exists_false, iff_false, ne_eq]
        refine fun h => h ?_
        simp only [orH]
        split
        · rfl
        · exact read_groupOf _ ht _ _ _
      | group b s br =>
        simp only [Call.condsAct, Act.slice, Act.operand, Option.bind_some, hr, HV.condsSl, Call.newConds, hcs, Option.getD_some,
          Option.some.injEq, exists_eq_left']
        simp only [orH]
        split
        · rename_i h0
          have : cs = [] := List.eq_nil_of_length_eq_zero h0
          subst this
          simp only [behind]
          exact iff_of_false (fun h => h rfl) not_spoils_nil
        · exact added_spoils _ ⟨b, s, br⟩ hd ht cs _ _ oA
    · cases hc
  case and r args =>
    simp only [Call.heap] at hc
    split at hc
    · rename_i d cs hr hcs
      have hd := hb r _ hr
      cases hc
      cases d with
      | leaf d =>
        simp only [Call.condsAct, Act.slice, Act.operand, Option.bind_some, hr, HV.condsSl, reduceCtorEq, false_and, exists_false, iff_false, ne_eq]
        refine fun h => h ?_
        simp only [HCond.and]
        split
        · exact read_groupOf _ ht _ _ _
        · exact read_groupOf _ ht _ _ _
        · exact read_groupOf _ ht _ _ _
        · simp only [andH]
          split
          · rfl
          · exact read_groupOf _ ht _ _ _
        · rename_i e; cases e
      | group b s br =>
        simp only [Call.condsAct, Act.slice, Act.operand, Option.bind_some, hr, HV.condsSl, Call.newConds, hcs, Option.getD_some,
          Option.some.injEq, exists_eq_left']
        exact added_spoils _ ⟨b, s, br⟩ hd ht cs _ _ aO
    · cases hc
  case or r args =>
    simp only [Call.heap] at hc
    split at hc
    · rename_i d cs hr hcs
      have hd := hb r _ hr
      obtain ⟨y, e, e2⟩ := Option.map_eq_some_iff.1 hc
      have e3 := ok_of_toOption e
      cases e2
      cases d with
      | leaf d =>
        simp only [Call.condsAct, Act.slice, Act.operand, Option.bind_some, hr, HV.condsSl, reduceCtorEq, false_and, exists_false, iff_false, ne_eq]
        refine fun h => h ?_
        simp only [HCond.or] at e3
        split at e3
        · cases e3; exact read_groupOf _ ht _ _ _
        · cases e3; exact read_groupOf _ ht _ _ _
        · cases e3
        · cases e3
          simp only [orH]
          split
          · rfl
          · exact read_groupOf _ ht _ _ _
        · rename_i e; cases e
      | group b s br =>
        simp only [Call.condsAct, Act.slice, Act.operand, Option.bind_some, hr, HV.condsSl, Call.newConds, hcs, Option.getD_some,
          Option.some.injEq, exists_eq_left']
        cases e3
        exact added_spoils _ ⟨b, s, br⟩ hd ht cs _ _ oA
    · cases hc
  case where_ r args =>
    simp only [Call.heap] at hc
    split at hc
    case h_6 => cases hc
    all_goals
      rename_i q cs hr hcs
      have hd := hb r _ hr
      simp only [HV.bnd] at hd
      cases hc
      simp only [Call.condsAct, Act.slice, Act.operand, Option.bind_some, hr, HV.condsSl, Call.newConds, hcs, Option.getD_some,
        Option.some.injEq, exists_eq_left']
    · exact added_spoils _ q.where_ hd.cond ht cs _ _ aO
    · exact added_spoils _ q.where_ hd.cond ht cs _ _ aO
    · exact added_spoils _ q.base.where_ hd.1.cond ht cs _ _ aO
    · exact added_spoils _ q.where_ hd.1 ht cs _ _ aO
    · exact added_spoils _ q.where_ hd ht cs _ _ aO
  case applySpec => cases ha
  case applyTable => cases ha
  all_goals
    simp only [Call.condsAct, Act.slice, Act.operand, Option.bind_none, reduceCtorEq, false_and, exists_false, iff_false, ne_eq]
    refine fun h => h ((sparM_call pol _ (m', v) hc).conds.read ht fun a i cv w => ?_)
    rcases w with (⟨s, e, _⟩ | ⟨w, _⟩) | w
    · cases e
    · cases w
    · exact absurd ht.1 (by rw [cv.1]; exact Nat.not_lt.2 w)

end

end Query
