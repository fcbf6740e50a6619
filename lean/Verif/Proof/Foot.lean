import Verif.Proof.HeapCalls
/-!
# The arrays a condition is made of

`foot` lists the arrays of a condition in memory, groups within groups included.  Every call makes a condition out of the arrays of
its operands and new ones, each no more often than before.
-/
namespace Query
open Store

mutual
def foot (st : Store HCond) : HCond → Cond → List Nat
  | .leaf _, _ => []
  | .group _ s _, .group _ cs _ => s.arr :: footL st (st.read s) cs
  | .group _ _ _, .fieldc _ _ _ => []
  | .group _ _ _, .null _ _ => []
  | .group _ _ _, .custom _ _ => []
def footL (st : Store HCond) : List HCond → List Cond → List Nat
  | [], [] => []
  | h :: hs, c :: cs => foot st h c ++ footL st hs cs
  | [], _ :: _ => []
  | _ :: _, [] => []
end

/-! The arrays of a condition kept or made longer: it stands for the same. -/
mutual
theorem Rep.kept {st st' : Store HCond} (l : st.length ≤ st'.length) : ∀ (c : Cond) (h : HCond), Rep st h c →
    (∀ a ∈ foot st h c, st.cells a <+: st'.cells a) → Rep st' h c ∧ foot st' h c = foot st h c
  | .fieldc _ _ _, .leaf _, r, _ => ⟨r, by simp only [foot]⟩
  | .null _ _, .leaf _, r, _ => ⟨r, by simp only [foot]⟩
  | .custom _ _, .leaf _, r, _ => ⟨r, by simp only [foot]⟩
  | .group _ _ _, .leaf _, r, _ => ⟨r, by simp only [foot]⟩
  | .fieldc _ _ _, .group _ _ _, r, _ => by simp only [Rep] at r
  | .null _ _, .group _ _ _, r, _ => by simp only [Rep] at r
  | .custom _ _, .group _ _ _, r, _ => by simp only [Rep] at r
  | .group _ cs _, .group _ s _, r, k => by
    simp only [Rep] at r
    simp only [foot] at k
    obtain ⟨h1, h2, h3, h4, h5⟩ := r
    have e : st'.read s = st.read s := by
      obtain ⟨t, ht⟩ := k s.arr (List.mem_cons_self ..)
      simp only [Store.read]; rw [← ht, List.take_append_of_le_length h4]
    obtain ⟨r1, r2⟩ := RepL.kept l cs _ h5 fun a ha => k a (List.mem_cons_of_mem _ ha)
    refine ⟨?_, ?_⟩
    · simp only [Rep]
      exact ⟨h1, h2, Nat.lt_of_lt_of_le h3 l, Nat.le_trans h4 (k s.arr (List.mem_cons_self ..)).length_le, by rw [e]; exact r1⟩
    · simp only [foot]; rw [e, r2]
theorem RepL.kept {st st' : Store HCond} (l : st.length ≤ st'.length) : ∀ (cs : List Cond) (hs : List HCond), RepL st hs cs →
    (∀ a ∈ footL st hs cs, st.cells a <+: st'.cells a) → RepL st' hs cs ∧ footL st' hs cs = footL st hs cs
  | [], [], r, _ => ⟨r, by simp only [footL]⟩
  | [], _ :: _, r, _ => by simp only [RepL] at r
  | _ :: _, [], r, _ => by simp only [RepL] at r
  | c :: cs, h :: hs, r, k => by
    simp only [RepL] at r
    simp only [footL, List.mem_append] at k
    obtain ⟨a1, a2⟩ := Rep.kept l c h r.1 fun a ha => k a (.inl ha)
    obtain ⟨b1, b2⟩ := RepL.kept l cs hs r.2 fun a ha => k a (.inr ha)
    refine ⟨?_, ?_⟩
    · simp only [RepL]; exact ⟨a1, b1⟩
    · simp only [footL, a2, b2]
end

mutual
theorem Rep.foot_lt {st : Store HCond} : ∀ (c : Cond) (h : HCond), Rep st h c → ∀ a ∈ foot st h c, a < st.length
  | .fieldc _ _ _, .leaf _, _, a, ha => by simp only [foot, List.not_mem_nil] at ha
  | .null _ _, .leaf _, _, a, ha => by simp only [foot, List.not_mem_nil] at ha
  | .custom _ _, .leaf _, _, a, ha => by simp only [foot, List.not_mem_nil] at ha
  | .group _ _ _, .leaf _, _, a, ha => by simp only [foot, List.not_mem_nil] at ha
  | .fieldc _ _ _, .group _ _ _, _, a, ha => by simp only [foot, List.not_mem_nil] at ha
  | .null _ _, .group _ _ _, _, a, ha => by simp only [foot, List.not_mem_nil] at ha
  | .custom _ _, .group _ _ _, _, a, ha => by simp only [foot, List.not_mem_nil] at ha
  | .group _ cs _, .group _ s _, r, a, ha => by
    simp only [Rep] at r
    simp only [foot, List.mem_cons] at ha
    rcases ha with rfl | ha
    · exact r.2.2.1
    · exact RepL.foot_lt cs _ r.2.2.2.2 a ha
theorem RepL.foot_lt {st : Store HCond} : ∀ (cs : List Cond) (hs : List HCond), RepL st hs cs → ∀ a ∈ footL st hs cs, a < st.length
  | [], [], _, a, ha => by simp only [footL, List.not_mem_nil] at ha
  | [], _ :: _, _, a, ha => by simp only [footL, List.not_mem_nil] at ha
  | _ :: _, [], _, a, ha => by simp only [footL, List.not_mem_nil] at ha
  | c :: cs, h :: hs, r, a, ha => by
    simp only [RepL] at r
    simp only [footL, List.mem_append] at ha
    exact ha.elim (Rep.foot_lt c h r.1 a) (RepL.foot_lt cs hs r.2 a)
end

variable {st st' : Store HCond} {gr : Grow}

theorem Rep.foot_le {h : HCond} {c : Cond} (r : Rep st h c) (l : Le st st') : foot st' h c = foot st h c :=
  (Rep.kept l.size c h r fun a _ => l.pre a).2

theorem RepL.foot_le {hs : List HCond} {cs : List Cond} (r : RepL st hs cs) (l : Le st st') : footL st' hs cs = footL st hs cs :=
  (RepL.kept l.size cs hs r fun a _ => l.pre a).2

theorem footL_append : ∀ {hs : List HCond} {cs : List Cond} (_ : RepL st hs cs) (hs' : List HCond) (cs' : List Cond),
    footL st (hs ++ hs') (cs ++ cs') = footL st hs cs ++ footL st hs' cs'
  | [], [], _, _, _ => by simp [footL]
  | [], _ :: _, r, _, _ => by simp only [RepL] at r
  | _ :: _, [], r, _, _ => by simp only [RepL] at r
  | h :: hs, c :: cs, r, hs', cs' => by
    simp only [RepL] at r
    simp only [List.cons_append, footL, footL_append r.2 hs' cs', List.append_assoc]

theorem footL_one (h : HCond) (c : Cond) : footL st [h] [c] = foot st h c := by simp [footL]

theorem footL_two (h h' : HCond) (c c' : Cond) : footL st [h, h'] [c, c'] = foot st h c ++ foot st h' c' := by simp [footL]

theorem foot_group (g : HGroup) (G : Group) : foot st g.toCond G.toCond = g.s.arr :: footL st (st.read g.s) G.conds := by
  simp only [HGroup.toCond, Group.toCond, foot]

theorem Rep.foot_join {h : HCond} {c : Cond} (r : Rep st h c) (j : Str) : foot st (h.join j) (c.join j) = foot st h c := by
  rcases r.cases with ⟨g, G, rfl, rfl, rg⟩ | ⟨rfl, hn⟩
  · simp only [HGroup.toCond, Group.toCond, HCond.join, Cond.join, foot]
  · simp only [HCond.join, foot]

theorem Rep.foot_negate {h : HCond} {c : Cond} (r : Rep st h c) (n : Bool) :
    foot st (h.setNegate n) (c.setNegate n) = foot st h c := by
  rcases r.cases with ⟨g, G, rfl, rfl, rg⟩ | ⟨rfl, hn⟩
  · simp only [HGroup.toCond, Group.toCond, HCond.setNegate, Cond.setNegate, foot]
  · simp only [HCond.setNegate, foot]

theorem footL_join (j : Str) : ∀ {hs : List HCond} {cs : List Cond}, RepL st hs cs →
    footL st (hs.map (·.join j)) (cs.map (·.join j)) = footL st hs cs
  | [], [], _ => by simp [footL]
  | [], _ :: _, r => by simp only [RepL] at r
  | _ :: _, [], r => by simp only [RepL] at r
  | _ :: _, _ :: _, r => by
    simp only [RepL] at r
    simp only [List.map_cons, footL, r.1.foot_join, footL_join j r.2]

/-! ## Counting -/

/-- No array more often than before, and new arrays at most once. -/
def Bnd (n n' : Nat) (F F' : List Nat) : Prop := ∀ a, F'.count a ≤ F.count a + (if n ≤ a ∧ a < n' then 1 else 0)

theorem Bnd.trans {n n' n'' : Nat} {F F' F'' : List Nat} (h : Bnd n n' F F') (k : Bnd n' n'' F' F'') (l : n ≤ n') (l' : n' ≤ n'') :
    Bnd n n'' F F'' := by
  intro a
  have h := h a
  have k := k a
  split at h <;> split at k <;> split <;> omega

theorem Bnd.append {n n' : Nat} {F F' : List Nat} (h : Bnd n n' F F') (K : List Nat) : Bnd n n' (F ++ K) (F' ++ K) := by
  intro a
  have h := h a
  simp only [List.count_append]
  omega

theorem Bnd.weak {n n' : Nat} {F F' K : List Nat} (h : Bnd n n' F F') (k : ∀ a, F.count a ≤ K.count a) : Bnd n n' K F' := by
  intro a
  have h := h a
  have k := k a
  omega

theorem Bnd.less {n n' : Nat} {F F' K : List Nat} (h : Bnd n n' F F') (k : ∀ a, K.count a ≤ F'.count a) : Bnd n n' F K := by
  intro a
  have h := h a
  have k := k a
  omega

theorem Bnd.of_le {n n' : Nat} {F F' : List Nat} (h : ∀ a, F'.count a ≤ F.count a) : Bnd n n' F F' := by
  intro a; have := h a; omega

theorem Bnd.refl (n n' : Nat) (F : List Nat) : Bnd n n' F F := Bnd.of_le fun _ => Nat.le_refl _

/-- A call on a group: as `Sim`, and nothing is contained twice that was not before. -/
structure FSim (st : Store HCond) (s : Sl) (F : List Nat) (r : Store HCond × HGroup) (G : Group) : Prop where
  sim : Sim false st s r G
  bnd : Bnd st.length r.1.length F (foot r.1 r.2.toCond G.toCond)

theorem growOK_false (gr : Grow) : GrowOK false gr := fun h => by cases h

theorem arr_append (gr : Grow) (st : Store HCond) (s : Sl) (xs : List HCond) :
    (st.append gr s xs).2.arr = s.arr ∨ (st.append gr s xs).2.arr = st.length ∧ (st.append gr s xs).1.length = st.length + 1 := by
  unfold Store.append
  split
  · exact .inl rfl
  · exact .inr ⟨rfl, by simp [Store.alloc]⟩

theorem fsim_app (gr : Grow) {g : HGroup} {G : Group} {xs : List HCond} {ys : List Cond}
    (he : Ext false st g.s) (r : RepG st g G) (rx : RepL st xs ys) :
    FSim st g.s (foot st g.toCond G.toCond ++ footL st xs ys) (g.app gr st xs) { G with conds := G.conds ++ ys } := by
  have k := sim_app (growOK_false gr) he r rx
  refine ⟨k, ?_⟩
  have r' := rep_group_iff.1 r
  have h := rep_append gr st g.s xs _ he.arr ⟨r'.2.2.1, r'.2.2.2.1, rfl⟩
  have e1 : (g.app gr st xs).1.read (g.app gr st xs).2.s = st.read g.s ++ xs := h.2.2
  rw [foot_group, foot_group, e1]
  simp only
  rw [(r.conds.append rx).foot_le k.tr.le, footL_append r.conds]
  intro a
  simp only [List.count_append, List.count_cons]
  rcases arr_append gr st g.s xs with e | ⟨e, e'⟩
  · simp only [HGroup.app, e]; omega
  · simp only [HGroup.app, e, e']
    by_cases hx : st.length = a
    · subst hx
      simp only [Nat.le_refl, Nat.lt_succ_self, and_self, if_true, beq_self_eq_true]
      omega
    · have : (st.length == a) = false := by simpa using hx
      simp only [this, Bool.false_eq_true, if_false]
      omega

theorem fsim_lit {g : HGroup} {G : Group} {xs : List HCond} {ys : List Cond}
    (r : RepG st g G) (rx : RepL st xs ys) (s : Sl) :
    FSim st s (footL st xs ys) (g.lit st xs) { G with conds := ys } := by
  have k := sim_lit (tight := false) r rx s
  refine ⟨k, ?_⟩
  have e1 : (g.lit st xs).1.read (g.lit st xs).2.s = xs := (rep_make st xs).2.2
  rw [foot_group, e1]
  simp only
  rw [rx.foot_le k.tr.le]
  have e2 : (g.lit st xs).2.s.arr = st.length := rfl
  have e3 : (g.lit st xs).1.length = st.length + 1 := by simp [HGroup.lit, Store.make, Store.alloc]
  rw [e2, e3]
  intro a
  simp only [List.count_cons]
  by_cases hx : st.length = a
  · subst hx
    simp only [Nat.le_refl, Nat.lt_succ_self, and_self, if_true, beq_self_eq_true]
  · have : (st.length == a) = false := by simpa using hx
    simp only [this, Bool.false_eq_true, if_false]
    omega

theorem FSim.weak {s : Sl} {F K : List Nat} {r : Store HCond × HGroup} {G : Group} (h : FSim st s F r G)
    (k : ∀ a, F.count a ≤ K.count a) : FSim st s K r G := ⟨h.sim, h.bnd.weak k⟩

theorem fsim_litApp (gr : Grow) {g : HGroup} {G : Group} {xs zs : List HCond} {ys ws : List Cond}
    (r : RepG st g G) (rx : RepL st xs ys) (rz : RepL st zs ws) (s : Sl) :
    FSim st s (footL st xs ys ++ footL st zs ws) ((g.lit st xs).2.app gr (g.lit st xs).1 zs) { G with conds := ys ++ ws } := by
  have h := fsim_lit r rx s
  have k := fsim_app gr (h.sim.tr.ext _ (by simp)) h.sim.rep (RepL.mono h.sim.tr.le _ _ rz)
  rw [rz.foot_le h.sim.tr.le] at k
  exact ⟨⟨h.sim.tr.trans k.sim.tr, k.sim.rep⟩, (h.bnd.append _).trans k.bnd h.sim.tr.le.size k.sim.tr.le.size⟩

theorem foot_brackets (g : HGroup) (G : Group) : foot st g.withBrackets.toCond G.withBrackets.toCond = foot st g.toCond G.toCond := by
  simp only [foot_group]; rfl

theorem conds_le_foot (g : HGroup) (G : Group) (a : Nat) :
    (footL st (st.read g.s) G.conds).count a ≤ (foot st g.toCond G.toCond).count a := by
  rw [foot_group, List.count_cons]; omega

theorem fsim_addGroup (gr : Grow) {g a : HGroup} {G A : Group} (he : Ext false st g.s) (r : RepG st g G)
    (ra : RepG st a A) (hne : G.conds.length ≠ 0) :
    FSim st g.s (foot st g.toCond G.toCond ++ foot st a.toCond A.toCond) (g.addGroup gr st a) (G.addGroup A) := by
  unfold HGroup.addGroup Group.addGroup
  simp only [r.hasAll, r.hasOne, ra.hasAll, ra.hasOne, r.len, ra.base]
  have e0 : (G.conds.length == 0) = false := by simpa using hne
  simp only [e0, Bool.false_eq_true, if_false]
  have hj : Rep st (a.withBrackets.toCond.join A.base.joinType) (A.withBrackets.toCond.join A.base.joinType) :=
    Rep.join ra.brackets _
  have fj : foot st (a.withBrackets.toCond.join A.base.joinType) (A.withBrackets.toCond.join A.base.joinType) = foot st a.toCond A.toCond := by
    rw [Rep.foot_join (Rep.mono (.refl _) _ _ ra.brackets), foot_brackets]
  have ca := conds_le_foot (st := st) a A
  have p1 := (fsim_app gr he r ra.conds).weak (K := foot st g.toCond G.toCond ++ foot st a.toCond A.toCond)
    (fun x => by have := ca x; simp only [List.count_append]; omega)
  have p2 := (fsim_app gr he r (repL_one hj)).weak (K := foot st g.toCond G.toCond ++ foot st a.toCond A.toCond)
    (fun x => by rw [footL_one, fj]; exact Nat.le_refl _)
  have p3 := (fsim_app gr he r (repL_one ra.brackets)).weak (K := foot st g.toCond G.toCond ++ foot st a.toCond A.toCond)
    (fun x => by rw [footL_one, foot_brackets]; exact Nat.le_refl _)
  have p4 := (fsim_litApp gr r (repL_one r.brackets) ra.conds g.s).weak (K := foot st g.toCond G.toCond ++ foot st a.toCond A.toCond)
    (fun x => by rw [footL_one, foot_brackets]; have := ca x; simp only [List.count_append]; omega)
  have p5 := (fsim_lit r (repL_two r.brackets hj) g.s).weak (K := foot st g.toCond G.toCond ++ foot st a.toCond A.toCond)
    (fun x => by rw [footL_two, foot_brackets, fj]; exact Nat.le_refl _)
  repeat' split
  all_goals first
    | exact p1
    | exact p2
    | exact p3
    | exact p4
    | exact p5

theorem fsim_addSingle (gr : Grow) {g : HGroup} {G : Group} {h : HCond} {c : Cond} (he : Ext false st g.s)
    (r : RepG st g G) (rc : Rep st h c) (hne : G.conds.length ≠ 0) :
    FSim st g.s (foot st g.toCond G.toCond ++ foot st h c) (g.addSingleCondition gr st h) (G.addSingleCondition c) := by
  unfold HGroup.addSingleCondition Group.addSingleCondition
  simp only [r.hasAll, r.len, rc.joinType_eq]
  have e0 : (G.conds.length == 0) = false := by simpa using hne
  rcases rc.cases with ⟨a, A, rfl, rfl, ra⟩ | ⟨rfl, hn⟩
  · exact fsim_addGroup gr he r ra hne
  · simp only [HCond.asGroup, hn, e0, Bool.false_eq_true, if_false]
    have p1 := (fsim_app gr he r (repL_one (rc.join c.joinType))).weak (K := foot st g.toCond G.toCond ++ foot st (.leaf c) c)
      (fun x => by rw [footL_one, rc.foot_join]; exact Nat.le_refl _)
    have p2 := (fsim_lit r (repL_two r.brackets (rc.join c.joinType)) g.s).weak (K := foot st g.toCond G.toCond ++ foot st (.leaf c) c)
      (fun x => by rw [footL_two, rc.foot_join, foot_brackets]; exact Nat.le_refl _)
    repeat' split
    all_goals first
      | exact p1
      | exact p2

theorem bnd_newGroup (j : Str) {hs : List HCond} {cs : List Cond} (r : RepL st hs cs) :
    Bnd st.length (newGroupH st j hs).1.length (footL st hs cs)
      (foot (newGroupH st j hs).1 (newGroupH st j hs).2.toCond (newGroup j cs).toCond) := by
  have tr := tr_make (tight := false) st (hs.map (·.join j))
  have e1 : (newGroupH st j hs).1.read (newGroupH st j hs).2.s = hs.map (·.join j) := (rep_make st _).2.2
  have e4 : (newGroup j cs).conds = cs.map (·.join j) := rfl
  rw [foot_group, e1, e4]
  have e5 : footL (newGroupH st j hs).1 (hs.map (·.join j)) (cs.map (·.join j)) = footL st hs cs := by
    rw [(r.map_join j).foot_le (st' := (newGroupH st j hs).1) tr.le, footL_join j r]
  rw [e5]
  have e2 : (newGroupH st j hs).2.s.arr = st.length := rfl
  have e3 : (newGroupH st j hs).1.length = st.length + 1 := by simp [newGroupH, Store.make, Store.alloc]
  rw [e2, e3]
  intro a
  simp only [List.count_cons]
  by_cases hx : st.length = a
  · subst hx
    simp only [Nat.le_refl, Nat.lt_succ_self, and_self, if_true, beq_self_eq_true]
  · have : (st.length == a) = false := by simpa using hx
    simp only [this, Bool.false_eq_true, if_false]
    omega

theorem fsim_addConditions (gr : Grow) {g : HGroup} {G : Group} {hs : List HCond} {cs : List Cond}
    (he : Ext false st g.s) (r : RepG st g G) (rc : RepL st hs cs) (op : Str) :
    FSim st g.s (foot st g.toCond G.toCond ++ footL st hs cs) (g.addConditions gr st op hs) (G.addConditions op cs) := by
  refine ⟨sim_addConditions (growOK_false gr) he r rc op, ?_⟩
  unfold HGroup.addConditions Group.addConditions
  simp only [r.hasOne, r.len]
  match hs, cs, rc with
  | [], [], _ => exact Bnd.of_le fun x => by simp only [List.count_append]; omega
  | [], _ :: _, rc => simp [RepL] at rc
  | _ :: _, [], rc => simp [RepL] at rc
  | h0 :: hs, c0 :: cs, rc =>
    have hl : hs.length = cs.length := by have := rc.length; simpa using this
    simp only [hl]
    have r0 : Rep st h0 c0 := by simp only [RepL] at rc; exact rc.1
    split
    · have h := (fsim_app gr he r rc).bnd
      rw [foot_group] at h ⊢
      exact h
    · rename_i hh
      have hne : G.conds.length ≠ 0 := by
        intro e; simp [e] at hh
      split
      · refine ((fsim_addSingle gr he r (r0.join op) hne).weak (fun x => ?_)).bnd
        rw [r0.foot_join]
        simp only [footL, List.count_append]; omega
      · split
        · refine ((fsim_litApp gr r (repL_one r.brackets) rc g.s).weak (fun x => ?_)).bnd
          rw [footL_one, foot_brackets]; exact Nat.le_refl _
        · split
          · obtain ⟨t1, rn⟩ := sim_newGroup (tight := false) op rc
            have bn := bnd_newGroup op rc
            have he' : Ext false (newGroupH st op (h0 :: hs)).1 g.s := by
              have := t1.frame g.s.arr he.arr (fun s hs => by cases hs)
              exact ⟨Nat.lt_of_lt_of_le he.arr t1.le.size, by rw [this]; exact he.len, he.full, by rw [this]; exact he.last⟩
            have k := fsim_app gr he' (r.mono t1.le) (repL_one (Rep.join rn op))
            have kb := k.bnd
            have e1 : foot (newGroupH st op (h0 :: hs)).1 g.toCond G.toCond = foot st g.toCond G.toCond := Rep.foot_le r t1.le
            rw [footL_one, Rep.foot_join rn, e1] at kb
            refine ((bn.append (foot st g.toCond G.toCond)).weak (K := foot st g.toCond G.toCond ++ footL st (h0 :: hs) (c0 :: cs))
              (fun x => by simp only [List.count_append]; omega)).trans (kb.weak (fun x => ?_)) t1.le.size k.sim.tr.le.size
            simp only [List.count_append]; omega
          · obtain ⟨t1, rn⟩ := sim_newGroup (tight := false) lAND rc
            have bn := bnd_newGroup lAND rc
            have r1 := r.mono t1.le
            have k := fsim_litApp (G := G) (ys := [G.withBrackets.toCond]) (ws := [(newGroup lAND (c0 :: cs)).withBrackets.toCond])
              gr r1 (repL_one r1.brackets) (repL_one rn.brackets) (newGroupH st lAND (h0 :: hs)).2.s
            have kb := k.bnd
            have e1 : foot (newGroupH st lAND (h0 :: hs)).1 g.toCond G.toCond = foot st g.toCond G.toCond := Rep.foot_le r t1.le
            rw [footL_one, footL_one, foot_brackets, foot_brackets, e1] at kb
            refine ((bn.append (foot st g.toCond G.toCond)).weak (K := foot st g.toCond G.toCond ++ footL st (h0 :: hs) (c0 :: cs))
              (fun x => by simp only [List.count_append]; omega)).trans (kb.weak (fun x => ?_)) t1.le.size k.sim.tr.le.size
            simp only [List.count_append]; omega

end Query
