import Verif.Proof.HeapStore
/-!
# Groups in memory do what groups as values do
-/
namespace Query
open Store

mutual
theorem Rep.mono {st st' : Store HCond} (l : Le st st') : ∀ (c : Cond) (h : HCond), Rep st h c → Rep st' h c
  | .fieldc _ _ _, .leaf _, r => r
  | .null _ _, .leaf _, r => r
  | .custom _ _, .leaf _, r => r
  | .group _ _ _, .leaf _, r => r
  | .fieldc _ _ _, .group _ _ _, r => r
  | .null _ _, .group _ _ _, r => r
  | .custom _ _, .group _ _ _, r => r
  | .group _ cs _, .group _ s _, r => by
    simp only [Rep] at r ⊢
    obtain ⟨h1, h2, h3, h4, h5⟩ := r
    exact ⟨h1, h2, Nat.lt_of_lt_of_le h3 l.size, Nat.le_trans h4 (l.pre s.arr).length_le,
      by rw [read_le l s h4]; exact RepL.mono l cs _ h5⟩
theorem RepL.mono {st st' : Store HCond} (l : Le st st') : ∀ (cs : List Cond) (hs : List HCond), RepL st hs cs → RepL st' hs cs
  | [], [], r => r
  | [], _ :: _, r => r
  | _ :: _, [], r => r
  | c :: cs, h :: hs, r => by
    simp only [RepL] at r ⊢
    exact ⟨Rep.mono l c h r.1, RepL.mono l cs hs r.2⟩
end

theorem RepL.length {st : Store HCond} : ∀ {hs : List HCond} {cs : List Cond}, RepL st hs cs → hs.length = cs.length
  | [], [], _ => rfl
  | [], _ :: _, r => by simp [RepL] at r
  | _ :: _, [], r => by simp [RepL] at r
  | _ :: hs, _ :: cs, r => by simp only [RepL] at r; simp [RepL.length r.2]

theorem RepL.append {st : Store HCond} : ∀ {hs : List HCond} {cs : List Cond} {hs' : List HCond} {cs' : List Cond},
    RepL st hs cs → RepL st hs' cs' → RepL st (hs ++ hs') (cs ++ cs')
  | [], [], _, _, _, r' => r'
  | [], _ :: _, _, _, r, _ => by simp [RepL] at r
  | _ :: _, [], _, _, r, _ => by simp [RepL] at r
  | _ :: _, _ :: _, _, _, r, r' => by
    simp only [RepL, List.cons_append] at r ⊢
    exact ⟨r.1, RepL.append r.2 r'⟩

theorem rep_group_iff {st : Store HCond} {b b' : CondBase} {s : Sl} {br br' : Bool} {cs : List Cond} :
    Rep st (.group b s br) (.group b' cs br') ↔
      b = b' ∧ br = br' ∧ s.arr < st.length ∧ s.len ≤ (st.cells s.arr).length ∧ RepL st (st.read s) cs := by
  simp only [Rep]

theorem rep_leaf_iff {st : Store HCond} {c' c : Cond} : Rep st (.leaf c') c ↔ c' = c ∧ c.asGroup = none := by
  cases c <;> simp only [Rep]

/-- Either both are groups or neither is. -/
theorem Rep.cases {st : Store HCond} {h : HCond} {c : Cond} (r : Rep st h c) :
    (∃ g G, h = HGroup.toCond g ∧ c = Group.toCond G ∧ RepG st g G) ∨ (h = .leaf c ∧ c.asGroup = none) := by
  cases h with
  | leaf c' => rw [rep_leaf_iff] at r; exact .inr ⟨by rw [r.1], r.2⟩
  | group b s br =>
    cases c with
    | group b' cs br' => exact .inl ⟨⟨b, s, br⟩, ⟨b', cs, br'⟩, rfl, rfl, r⟩
    | fieldc _ _ _ => simp [Rep] at r
    | null _ _ => simp [Rep] at r
    | custom _ _ => simp [Rep] at r

theorem Rep.joinType_eq {st : Store HCond} {h : HCond} {c : Cond} (r : Rep st h c) : h.joinType = c.joinType := by
  rcases r.cases with ⟨g, G, rfl, rfl, rg⟩ | ⟨rfl, _⟩
  · have := (rep_group_iff.1 rg).1
    simp [HGroup.toCond, Group.toCond, HCond.joinType, Cond.joinType, Cond.base, this]
  · rfl

theorem leaf_join (c : Cond) (j : Str) (h : c.asGroup = none) : (c.join j).asGroup = none := by
  cases c <;> first | rfl | simp [Cond.asGroup] at h

theorem asGroup_negate (c : Cond) (n : Bool) (h : c.asGroup = none) : (c.setNegate n).asGroup = none := by
  cases c <;> first | rfl | simp [Cond.asGroup] at h

theorem Rep.join {st : Store HCond} {h : HCond} {c : Cond} (r : Rep st h c) (j : Str) : Rep st (h.join j) (c.join j) := by
  rcases r.cases with ⟨g, G, rfl, rfl, rg⟩ | ⟨rfl, hn⟩
  · obtain ⟨h1, h2⟩ := rep_group_iff.1 rg
    exact rep_group_iff.2 ⟨by rw [h1], h2⟩
  · exact rep_leaf_iff.2 ⟨rfl, leaf_join c j hn⟩

theorem Rep.negate {st : Store HCond} {h : HCond} {c : Cond} (r : Rep st h c) (n : Bool) :
    Rep st (h.setNegate n) (c.setNegate n) := by
  rcases r.cases with ⟨g, G, rfl, rfl, rg⟩ | ⟨rfl, hn⟩
  · obtain ⟨h1, h2⟩ := rep_group_iff.1 rg
    exact rep_group_iff.2 ⟨by rw [h1], h2⟩
  · exact rep_leaf_iff.2 ⟨rfl, asGroup_negate c n hn⟩

theorem RepL.map_join {st : Store HCond} (j : Str) : ∀ {hs : List HCond} {cs : List Cond}, RepL st hs cs →
    RepL st (hs.map (·.join j)) (cs.map (·.join j))
  | [], [], r => r
  | [], _ :: _, r => by simp [RepL] at r
  | _ :: _, [], r => by simp [RepL] at r
  | _ :: _, _ :: _, r => by
    simp only [RepL, List.map_cons] at r ⊢
    exact ⟨r.1.join j, RepL.map_join j r.2⟩

theorem RepL.drop {st : Store HCond} : ∀ {hs : List HCond} {cs : List Cond}, RepL st hs cs → RepL st (hs.drop 1) (cs.drop 1)
  | [], [], r => r
  | [], _ :: _, r => by simp [RepL] at r
  | _ :: _, [], r => by simp [RepL] at r
  | _ :: _, _ :: _, r => by
    simp only [RepL] at r; exact r.2

theorem RepL.all {st : Store HCond} (p : Str → Bool) : ∀ {hs : List HCond} {cs : List Cond}, RepL st hs cs →
    (hs.all fun c => p c.joinType) = cs.all fun c => p c.joinType
  | [], [], _ => rfl
  | [], _ :: _, r => by simp [RepL] at r
  | _ :: _, [], r => by simp [RepL] at r
  | _ :: _, _ :: _, r => by
    simp only [RepL] at r
    simp only [List.all_cons, r.1.joinType_eq, RepL.all p r.2]

theorem RepL.any {st : Store HCond} (p : Str → Bool) : ∀ {hs : List HCond} {cs : List Cond}, RepL st hs cs →
    (hs.any fun c => p c.joinType) = cs.any fun c => p c.joinType
  | [], [], _ => rfl
  | [], _ :: _, r => by simp [RepL] at r
  | _ :: _, [], r => by simp [RepL] at r
  | _ :: _, _ :: _, r => by
    simp only [RepL] at r
    simp only [List.any_cons, r.1.joinType_eq, RepL.any p r.2]

namespace RepG

variable {st : Store HCond} {g : HGroup} {G : Group}

theorem conds (r : RepG st g G) : RepL st (st.read g.s) G.conds := (rep_group_iff.1 r).2.2.2.2

theorem base (r : RepG st g G) : g.base = G.base := (rep_group_iff.1 r).1

theorem hasAll (r : RepG st g G) (j : Str) : g.hasAll st j = G.hasAll j := RepL.all (· == j) r.conds.drop

theorem hasOne (r : RepG st g G) (j : Str) : g.hasOne st j = G.hasOne j := RepL.any (· == j) r.conds.drop

theorem len (r : RepG st g G) : g.s.len = G.conds.length := by
  rw [← r.conds.length]; simp [Store.read, (rep_group_iff.1 r).2.2.2.1]

theorem mono {st' : Store HCond} (r : RepG st g G) (l : Le st st') : RepG st' g G := Rep.mono l _ _ r

theorem brackets (r : RepG st g G) : RepG st g.withBrackets G.withBrackets := by
  obtain ⟨h1, _, h2⟩ := rep_group_iff.1 r
  exact rep_group_iff.2 ⟨h1, rfl, h2⟩

end RepG

/-- From a slice of conditions to a group. -/
theorem repG_of {st : Store HCond} {g : HGroup} {G : Group} {xs : List HCond} (hb : g.base = G.base) (hbr : g.br = G.brackets)
    (r : RepS st g.s xs) (l : RepL st xs G.conds) : RepG st g G := by
  refine rep_group_iff.2 ⟨hb, hbr, r.1, r.2.1, ?_⟩
  rw [r.2.2]; exact l

variable {tight : Bool} {gr : Grow} {st : Store HCond}

/-- What a call on a group has to do: new slice safe to append to, and the right conditions. -/
structure Sim (tight : Bool) (st : Store HCond) (s : Sl) (r : Store HCond × HGroup) (G : Group) : Prop where
  tr : Tr tight st r.1 [s] [r.2.s]
  rep : RepG r.1 r.2 G

theorem sim_app (hg : GrowOK tight gr) {g : HGroup} {G : Group} {xs : List HCond} {ys : List Cond}
    (he : Ext tight st g.s) (r : RepG st g G) (rx : RepL st xs ys) :
    Sim tight st g.s (g.app gr st xs) { G with conds := G.conds ++ ys } := by
  have tr := tr_append gr hg st g.s xs he
  refine ⟨tr, ?_⟩
  have r' := rep_group_iff.1 r
  have h := rep_append gr st g.s xs _ he.arr ⟨r'.2.2.1, r'.2.2.2.1, rfl⟩
  exact repG_of r.base r'.2.1 h ((RepL.mono tr.le _ _ (r.conds.append rx)))

theorem sim_lit {g : HGroup} {G : Group} {xs : List HCond} {ys : List Cond}
    (r : RepG st g G) (rx : RepL st xs ys) (s : Sl) :
    Sim tight st s (g.lit st xs) { G with conds := ys } := by
  have tr := tr_make (tight := tight) st xs
  refine ⟨tr.weak _, ?_⟩
  exact repG_of r.base (rep_group_iff.1 r).2.1 (rep_make st xs) (RepL.mono tr.le _ _ rx)

theorem sim_litApp (hg : GrowOK tight gr) {g : HGroup} {G : Group} {xs zs : List HCond} {ys ws : List Cond}
    (r : RepG st g G) (rx : RepL st xs ys) (rz : RepL st zs ws) (s : Sl) :
    Sim tight st s ((g.lit st xs).2.app gr (g.lit st xs).1 zs) { G with conds := ys ++ ws } := by
  have h := sim_lit (tight := tight) r rx s
  have k := sim_app hg (h.tr.ext _ (by simp)) h.rep (RepL.mono h.tr.le _ _ rz)
  exact ⟨h.tr.trans k.tr, k.rep⟩

theorem repL_one {h : HCond} {c : Cond} (r : Rep st h c) : RepL st [h] [c] := by
  simp only [RepL]; exact ⟨r, trivial⟩

theorem repL_two {h h' : HCond} {c c' : Cond} (r : Rep st h c) (r' : Rep st h' c') : RepL st [h, h'] [c, c'] := by
  simp only [RepL]; exact ⟨r, r', trivial⟩

theorem sim_addGroup (hg : GrowOK tight gr) {g a : HGroup} {G A : Group} (he : Ext tight st g.s) (r : RepG st g G)
    (ra : RepG st a A) (hne : G.conds.length ≠ 0) : Sim tight st g.s (g.addGroup gr st a) (G.addGroup A) := by
  unfold HGroup.addGroup Group.addGroup
  simp only [r.hasAll, r.hasOne, ra.hasAll, ra.hasOne, r.len, ra.base]
  have e0 : (G.conds.length == 0) = false := by simpa using hne
  simp only [e0, Bool.false_eq_true, if_false]
  have hj : Rep st (a.withBrackets.toCond.join A.base.joinType) (A.withBrackets.toCond.join A.base.joinType) :=
    Rep.join ra.brackets _
  repeat' split
  all_goals first
    | exact sim_app hg he r ra.conds
    | exact sim_app hg he r (repL_one hj)
    | exact sim_app hg he r (repL_one ra.brackets)
    | exact sim_litApp hg r (repL_one r.brackets) ra.conds _
    | exact sim_lit r (repL_two r.brackets hj) _

theorem sim_addSingle (hg : GrowOK tight gr) {g : HGroup} {G : Group} {h : HCond} {c : Cond} (he : Ext tight st g.s)
    (r : RepG st g G) (rc : Rep st h c) (hne : G.conds.length ≠ 0) :
    Sim tight st g.s (g.addSingleCondition gr st h) (G.addSingleCondition c) := by
  unfold HGroup.addSingleCondition Group.addSingleCondition
  simp only [r.hasAll, r.len, rc.joinType_eq]
  have e0 : (G.conds.length == 0) = false := by simpa using hne
  rcases rc.cases with ⟨a, A, rfl, rfl, ra⟩ | ⟨rfl, hn⟩
  · exact sim_addGroup hg he r ra hne
  · simp only [HCond.asGroup, hn, e0, Bool.false_eq_true, if_false]
    repeat' split
    all_goals first
      | exact sim_app hg he r (repL_one (rc.join _))
      | exact sim_lit r (repL_two r.brackets (rc.join _)) _

theorem sim_newGroup (j : Str) {hs : List HCond} {cs : List Cond} (r : RepL st hs cs) :
    Tr tight st (newGroupH st j hs).1 [] [(newGroupH st j hs).2.s] ∧
      RepG (newGroupH st j hs).1 (newGroupH st j hs).2 (newGroup j cs) := by
  have tr := tr_make (tight := tight) st (hs.map (·.join j))
  refine ⟨tr, ?_⟩
  exact repG_of (G := newGroup j cs) rfl rfl (rep_make st _) (RepL.mono tr.le _ _ (r.map_join j))

theorem sim_addConditions (hg : GrowOK tight gr) {g : HGroup} {G : Group} {hs : List HCond} {cs : List Cond}
    (he : Ext tight st g.s) (r : RepG st g G) (rc : RepL st hs cs) (op : Str) :
    Sim tight st g.s (g.addConditions gr st op hs) (G.addConditions op cs) := by
  unfold HGroup.addConditions Group.addConditions
  simp only [r.hasOne, r.len]
  match hs, cs, rc with
  | [], [], _ =>
    refine ⟨Tr.same ?_, r⟩
    intro s hs
    simp only [List.mem_singleton] at hs; subst hs; exact he
  | [], _ :: _, rc => simp [RepL] at rc
  | _ :: _, [], rc => simp [RepL] at rc
  | h0 :: hs, c0 :: cs, rc =>
    have hl : hs.length = cs.length := by have := rc.length; simpa using this
    simp only [hl]
    have r0 : Rep st h0 c0 := by simp only [RepL] at rc; exact rc.1
    split
    · have h := sim_app hg he r rc
      refine ⟨h.tr, ?_⟩
      obtain ⟨h1, h2⟩ := rep_group_iff.1 h.rep
      refine rep_group_iff.2 ⟨?_, h2⟩
      simp [r.base]
    · rename_i hh
      have hne : G.conds.length ≠ 0 := by
        intro e; simp [e] at hh
      split
      · exact sim_addSingle hg he r (r0.join op) hne
      · split
        · exact sim_litApp hg r (repL_one r.brackets) rc _
        · split
          · obtain ⟨t1, rn⟩ := sim_newGroup (tight := tight) op rc
            have t1' : Tr tight st (newGroupH st op (h0 :: hs)).1 [g.s] [g.s] :=
              ⟨t1.le, fun s hs' => by
                simp only [List.mem_singleton] at hs'; subst hs'
                have := t1.frame g.s.arr he.arr (fun s hs => by cases hs)
                exact ⟨Nat.lt_of_lt_of_le he.arr t1.le.size, by rw [this]; exact he.len, he.full, by rw [this]; exact he.last⟩,
                fun a ha _ => t1.frame a ha (fun s hs => by cases hs),
                fun s hs => .inl ⟨s, hs, rfl, .inr rfl⟩⟩
            have k := sim_app hg (t1'.ext _ (by simp)) (r.mono t1.le) (repL_one (Rep.join rn op))
            exact ⟨t1'.trans k.tr, k.rep⟩
          · obtain ⟨t1, rn⟩ := sim_newGroup (tight := tight) lAND rc
            have r1 := r.mono t1.le
            have k := sim_litApp (G := G) (ys := [G.withBrackets.toCond]) (ws := [(newGroup lAND (c0 :: cs)).withBrackets.toCond])
              hg r1 (repL_one r1.brackets) (repL_one rn.brackets) (newGroupH st lAND (h0 :: hs)).2.s
            exact ⟨(t1.trans k.tr).weak _, k.rep⟩

end Query
