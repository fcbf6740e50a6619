import Verif.Props.Spoil
import Verif.Spec.Taint
/-!
# Values that were not spoilt stand for plain values: proofs
-/
namespace Query
open Store

section
variable {gr : Grow} {st st' : Store HCond}

theorem rep_bnd {h : HCond} {c : Cond} (r : Rep st h c) : h.bnd st := by
  rcases r.cases with ⟨g, G, rfl, rfl, rg⟩ | ⟨rfl, hn⟩
  · have := rep_group_iff.1 rg
    exact ⟨this.2.2.1, this.2.2.2.1⟩
  · exact hn

theorem repL_bnd : ∀ {hs : List HCond} {cs : List Cond}, RepL st hs cs → ∀ h ∈ hs, h.bnd st
  | [], _, _, _, hh => by cases hh
  | _ :: _, [], r, _, _ => by simp [RepL] at r
  | a :: hs, c :: cs, r, h, hh => by
    simp only [RepL] at r
    rcases List.mem_cons.1 hh with rfl | hh
    · exact rep_bnd r.1
    · exact repL_bnd r.2 h hh

/-- The store before is sound, and nothing gets lost. -/
structure Moves (st st' : Store HCond) : Prop where
  sound : StB st
  keeps : ∀ s, InB st s → InB st' s

theorem Moves.rep (mv : Moves st st') {h : HCond} {c : Cond} (r : Rep st h c) (k : h.same st st') : Rep st' h c :=
  (rep_same mv.sound mv.keeps h c (rep_bnd r) k).2 r

theorem Moves.repL (mv : Moves st st') {hs : List HCond} {cs : List Cond} (r : RepL st hs cs) (k : ∀ h ∈ hs, h.same st st') : RepL st' hs cs :=
  (repL_same mv.sound mv.keeps hs cs (repL_bnd r) k).2 r

theorem same_join {h : HCond} (k : h.same st st') (j : Str) : (h.join j).same st st' := by
  cases h with
  | leaf c => intro s t; cases t
  | group b s br =>
    intro t ht
    cases ht with
    | own => exact k _ .own
    | deep hc hk => exact k _ (.deep hc hk)

theorem same_brackets {g : HGroup} (k : g.toCond.same st st') : g.withBrackets.toCond.same st st' := by
  intro t ht
  cases ht with
  | own => exact k _ .own
  | deep hc hk => exact k _ (.deep hc hk)

/-- A call gives the right group if the conditions it uses stay as they were. -/
def Fair (st : Store HCond) (O : List HCond) (x : Store HCond × HGroup) (G : Group) : Prop :=
  Moves st x.1 → (∀ h ∈ O, h.same st x.1) → RepG x.1 x.2 G

theorem repG_app (gr : Grow) {g : HGroup} {G : Group} {xs : List HCond} {ys : List Cond} (r : RepG st g G)
    (k : RepL (g.app gr st xs).1 (st.read g.s) G.conds) (kx : RepL (g.app gr st xs).1 xs ys) :
    RepG (g.app gr st xs).1 (g.app gr st xs).2 { G with conds := G.conds ++ ys } := by
  have r' := rep_group_iff.1 r
  have h := rep_append gr st g.s xs _ r'.2.2.1 ⟨r'.2.2.1, r'.2.2.2.1, rfl⟩
  exact repG_of r.base r'.2.1 h (k.append kx)

theorem same_members {g : HGroup} {O : List HCond} (hg : g.toCond ∈ O) (k : ∀ h ∈ O, h.same st st') : ∀ h ∈ st.read g.s, h.same st st' :=
  fun _ hh => (k _ hg).mem hh

theorem fair_app (gr : Grow) {g : HGroup} {G : Group} {xs : List HCond} {ys : List Cond} {O : List HCond} (r : RepG st g G)
    (rx : RepL st xs ys) (hg : g.toCond ∈ O) (hx : ∀ st', (∀ h ∈ O, h.same st st') → ∀ h ∈ xs, h.same st st') :
    Fair st O (g.app gr st xs) { G with conds := G.conds ++ ys } :=
  fun mv k => repG_app gr r (mv.repL r.conds (same_members hg k)) (mv.repL rx (hx _ k))

theorem fair_lit {g : HGroup} {G : Group} {xs : List HCond} {ys : List Cond} {O : List HCond} (r : RepG st g G)
    (rx : RepL st xs ys) : Fair st O (g.lit st xs) { G with conds := ys } :=
  fun _ _ => (sim_lit (tight := false) r rx ⟨0, 0, 0⟩).rep

theorem growOK_any (gr : Grow) : GrowOK false gr := fun h => by cases h

theorem fair_litApp (gr : Grow) {g : HGroup} {G : Group} {xs zs : List HCond} {ys ws : List Cond} {O : List HCond}
    (r : RepG st g G) (rx : RepL st xs ys) (rz : RepL st zs ws) :
    Fair st O ((g.lit st xs).2.app gr (g.lit st xs).1 zs) { G with conds := ys ++ ws } :=
  fun _ _ => (sim_litApp (tight := false) (growOK_any gr) r rx rz ⟨0, 0, 0⟩).rep

theorem fair_addGroup (gr : Grow) {g a : HGroup} {G A : Group} {O : List HCond} (r : RepG st g G)
    (ra : RepG st a A) (hne : G.conds.length ≠ 0) (hg : g.toCond ∈ O) (ha : ∀ st', (∀ h ∈ O, h.same st st') → a.toCond.same st st') :
    Fair st O (g.addGroup gr st a) (G.addGroup A) := by
  unfold HGroup.addGroup Group.addGroup
  simp only [r.hasAll, r.hasOne, ra.hasAll, ra.hasOne, r.len, ra.base]
  have e0 : (G.conds.length == 0) = false := by simpa using hne
  simp only [e0, Bool.false_eq_true, if_false]
  have hj : Rep st (a.withBrackets.toCond.join A.base.joinType) (A.withBrackets.toCond.join A.base.joinType) :=
    Rep.join ra.brackets _
  have s1 : ∀ st', (∀ h ∈ O, h.same st st') → ∀ h ∈ st.read a.s, h.same st st' := fun st' k h hh => (ha st' k).mem hh
  have s2 : ∀ st', (∀ h ∈ O, h.same st st') → ∀ h ∈ [a.withBrackets.toCond.join A.base.joinType], h.same st st' := fun st' k h hh => by
    cases List.mem_singleton.1 hh; exact same_join (same_brackets (ha st' k)) _
  have s3 : ∀ st', (∀ h ∈ O, h.same st st') → ∀ h ∈ [a.withBrackets.toCond], h.same st st' := fun st' k h hh => by
    cases List.mem_singleton.1 hh; exact same_brackets (ha st' k)
  repeat' split
  all_goals first
    | exact fair_app gr r ra.conds hg s1
    | exact fair_app gr r (repL_one hj) hg s2
    | exact fair_app gr r (repL_one ra.brackets) hg s3
    | exact fair_litApp gr r (repL_one r.brackets) ra.conds
    | exact fair_lit r (repL_two r.brackets hj)

theorem fair_addSingle (gr : Grow) {g : HGroup} {G : Group} {h : HCond} {c : Cond} {O : List HCond}
    (r : RepG st g G) (rc : Rep st h c) (hne : G.conds.length ≠ 0) (hg : g.toCond ∈ O)
    (hh : ∀ st', (∀ h ∈ O, h.same st st') → h.same st st') :
    Fair st O (g.addSingleCondition gr st h) (G.addSingleCondition c) := by
  unfold HGroup.addSingleCondition Group.addSingleCondition
  simp only [r.hasAll, r.len, rc.joinType_eq]
  have e0 : (G.conds.length == 0) = false := by simpa using hne
  rcases rc.cases with ⟨a, A, rfl, rfl, ra⟩ | ⟨rfl, hn⟩
  · exact fair_addGroup gr r ra hne hg hh
  · simp only [HCond.asGroup, hn, e0, Bool.false_eq_true, if_false]
    have s2 : ∀ (j : Str) st', (∀ h ∈ O, h.same st st') → ∀ h ∈ [(HCond.leaf c).join j], h.same st st' := fun j st' k h hh => by
      cases List.mem_singleton.1 hh; intro t ht; cases ht
    repeat' split
    all_goals first
      | exact fair_app gr r (repL_one (rc.join _)) hg (s2 _)
      | exact fair_lit r (repL_two r.brackets (rc.join _))

theorem fair_addConditions (gr : Grow) {g : HGroup} {G : Group} {hs : List HCond} {cs : List Cond} {O : List HCond}
    (r : RepG st g G) (rc : RepL st hs cs) (op : Str) (hg : g.toCond ∈ O) (hO : ∀ h ∈ hs, h ∈ O) :
    Fair st O (g.addConditions gr st op hs) (G.addConditions op cs) := by
  unfold HGroup.addConditions Group.addConditions
  simp only [r.hasOne, r.len]
  match hs, cs, rc with
  | [], [], _ => exact fun _ _ => r
  | [], _ :: _, rc => simp [RepL] at rc
  | _ :: _, [], rc => simp [RepL] at rc
  | h0 :: hs, c0 :: cs, rc =>
    have hl : hs.length = cs.length := by have := rc.length; simpa using this
    simp only [hl]
    have r0 : Rep st h0 c0 := by simp only [RepL] at rc; exact rc.1
    have s0 : ∀ st', (∀ h ∈ O, h.same st st') → ∀ h ∈ h0 :: hs, h.same st st' := fun st' k h hh => k h (hO h hh)
    split
    · intro mv k
      have h := fair_app gr r rc hg s0 mv k
      obtain ⟨h1, h2⟩ := rep_group_iff.1 h
      refine rep_group_iff.2 ⟨?_, h2⟩
      simp [r.base]
    · rename_i hh
      have hne : G.conds.length ≠ 0 := by
        intro e; simp [e] at hh
      split
      · exact fair_addSingle gr r (r0.join op) hne hg fun st' k => same_join (s0 st' k h0 (List.mem_cons_self ..)) _
      · split
        · exact fair_litApp gr r (repL_one r.brackets) rc
        · split
          · intro mv k
            obtain ⟨t1, rn⟩ := sim_newGroup (tight := false) op rc
            have ib := rep_group_iff.1 r
            refine repG_app gr (r.mono t1.le) ?_ ?_
            · have e := read_groupNew (j := op) (st := st) (t := g.s) ⟨ib.2.2.1, ib.2.2.2.1⟩ (h0 :: hs)
              rw [e]
              exact mv.repL r.conds (same_members hg k)
            · refine repL_one (Rep.join ?_ op)
              have rb := rep_group_iff.1 rn
              have ra : (newGroupH st op (h0 :: hs)).2.s.arr = st.length := rfl
              have e : (g.app gr (newGroupH st op (h0 :: hs)).1 [(newGroupH st op (h0 :: hs)).2.toCond.join op]).1.read
                  (newGroupH st op (h0 :: hs)).2.s = (newGroupH st op (h0 :: hs)).1.read (newGroupH st op (h0 :: hs)).2.s := by
                apply Classical.byContradiction
                intro hne'
                obtain ⟨_, ha, _⟩ := (append_spoils gr (st := (newGroupH st op (h0 :: hs)).1) (s := g.s)
                  (t := (newGroupH st op (h0 :: hs)).2.s) ⟨rb.2.2.1, rb.2.2.2.1⟩ _).1 hne'
                rw [ra] at ha
                have := ib.2.2.1
                omega
              have e2 : (newGroupH st op (h0 :: hs)).1.read (newGroupH st op (h0 :: hs)).2.s = (h0 :: hs).map (·.join op) :=
                (rep_make st _).2.2
              have iz : InB (g.app gr (newGroupH st op (h0 :: hs)).1 [(newGroupH st op (h0 :: hs)).2.toCond.join op]).1
                  (newGroupH st op (h0 :: hs)).2.s := InB.mono ⟨rb.2.2.1, rb.2.2.2.1⟩ (sz_append gr _ _ _ (inB_groupNew ⟨ib.2.2.1, ib.2.2.2.1⟩ _))
              refine rep_group_iff.2 ⟨rb.1, rb.2.1, iz.1, iz.2, ?_⟩
              rw [e, e2]
              exact (mv.repL rc (s0 _ k)).map_join op
          · intro mv k
            obtain ⟨t1, rn⟩ := sim_newGroup (tight := false) lAND rc
            have r1 := r.mono t1.le
            exact (sim_litApp (G := G) (ys := [G.withBrackets.toCond]) (ws := [(newGroup lAND (c0 :: cs)).withBrackets.toCond])
              (growOK_any gr) r1 (repL_one r1.brackets) (repL_one rn.brackets) (newGroupH st lAND (h0 :: hs)).2.s).rep

/-- A call gives the right condition if the conditions it uses stay as they were. -/
def FairC (st : Store HCond) (O : List HCond) (x : Store HCond × HCond) (c : Cond) : Prop :=
  Moves st x.1 → (∀ h ∈ O, h.same st x.1) → Rep x.1 x.2 c

theorem FairC.join {O : List HCond} {x : Store HCond × HCond} {c : Cond} (h : FairC st O x c) (j : Str) :
    FairC st O (x.1, x.2.join j) (c.join j) := fun mv k => (h mv k).join j

theorem fair_groupOf (gr : Grow) (j : Str) {h : HCond} {c : Cond} {hs : List HCond} {cs : List Cond}
    (r : Rep st h c) (rs : RepL st hs cs) (O : List HCond) :
    FairC st O (groupOf gr st j h hs) (((newGroup j [c]).addConditions j cs).toCond) :=
  fun _ _ => (sim_groupOf (tight := false) (growOK_any gr) j r rs []).rep

theorem fair_and (gr : Grow) {h : HCond} {c : Cond} {hs : List HCond} {cs : List Cond} (r : Rep st h c) (rs : RepL st hs cs) :
    FairC st (h :: hs) (andH gr st h hs) (andC c cs) := by
  unfold andH andC
  simp only [rs.length]
  split
  · exact fun _ _ => r.join _
  · rcases r.cases with ⟨g, G, rfl, rfl, rg⟩ | ⟨rfl, hn⟩
    · exact fair_addConditions gr rg rs lAND (List.mem_cons_self ..) fun h hh => List.mem_cons_of_mem _ hh
    · simp only [HCond.asGroup, hn]
      exact fair_groupOf gr lAND r rs _

theorem fair_or (gr : Grow) {h : HCond} {c : Cond} {hs : List HCond} {cs : List Cond} (r : Rep st h c) (rs : RepL st hs cs) :
    FairC st (h :: hs) (orH gr st h hs) (orC c cs) := by
  unfold orH orC
  simp only [rs.length]
  split
  · exact fun _ _ => r.join _
  · rcases r.cases with ⟨g, G, rfl, rfl, rg⟩ | ⟨rfl, hn⟩
    · have k := fair_addConditions gr rg rs lOR (O := g.toCond :: hs) (List.mem_cons_self ..) fun h hh => List.mem_cons_of_mem _ hh
      exact FairC.join (x := (_, _)) k lOR
    · simp only [HCond.asGroup, hn]
      exact FairC.join (fair_groupOf gr lOR r rs _) lOR

theorem fair_andM (gr : Grow) {h : HCond} {c : Cond} {hs : List HCond} {cs : List Cond} (r : Rep st h c) (rs : RepL st hs cs) :
    FairC st (h :: hs) (h.and gr st hs) (c.and cs) := by
  have ha := fair_and gr r rs
  have hgo := fair_groupOf gr lAND r rs (h :: hs)
  rcases r.cases with ⟨g, G, rfl, rfl, rg⟩ | ⟨rfl, hn⟩
  · exact fair_addConditions gr rg rs lAND (List.mem_cons_self ..) fun h hh => List.mem_cons_of_mem _ hh
  · cases c with
    | fieldc kind b fv => cases kind <;> first | exact ha | exact hgo
    | null b fd => exact hgo
    | custom b x => exact ha
    | group b cs br => simp [Cond.asGroup] at hn

theorem fair_orM (gr : Grow) {h : HCond} {c c' : Cond} {hs : List HCond} {cs : List Cond} (r : Rep st h c) (rs : RepL st hs cs)
    (ho : c.or cs = .ok c') : ∃ x, h.or gr st hs = .ok x ∧ FairC st (h :: hs) x c' := by
  have ha := fair_or gr r rs
  have hgo := fair_groupOf gr lOR r rs (h :: hs)
  rcases r.cases with ⟨g, G, rfl, rfl, rg⟩ | ⟨rfl, hn⟩
  · have k := fair_addConditions gr rg rs lOR (O := g.toCond :: hs) (List.mem_cons_self ..) fun h hh => List.mem_cons_of_mem _ hh
    simp only [Cond.or, Group.toCond, Res.ok.injEq] at ho
    subst ho
    exact ⟨_, rfl, k⟩
  · cases c with
    | fieldc kind b fv =>
      cases kind <;> simp only [Cond.or, Res.ok.injEq] at ho <;> subst ho <;> first | exact ⟨_, rfl, ha⟩ | exact ⟨_, rfl, hgo⟩
    | null b fd => simp [Cond.or, nullOr, newGroupI, setToAllI, Res.mapL, joinOneI] at ho
    | custom b x =>
      simp only [Cond.or, Res.ok.injEq] at ho; subst ho; exact ⟨_, rfl, ha⟩
    | group b cs br => simp [Cond.asGroup] at hn

/-! ## The Apply calls -/

theorem read_upped {f : Cond → Cond} {c : HCond} (h : AllUp f st st' c) {s : Sl} (ht : c.Through st s) (ib : InB st s) :
    st'.read s = (st.read s).map (·.up f) := by
  simp only [Store.read]
  refine List.ext_getElem? fun i => ?_
  rw [List.getElem?_map]
  rcases Nat.lt_or_ge i s.len with l | l
  · rw [List.getElem?_take_of_lt l, List.getElem?_take_of_lt l]
    have hlt : i < (st.cells s.arr).length := Nat.lt_of_lt_of_le l ib.2
    have hi : (st.cells s.arr)[i]? = some (st.cells s.arr)[i] := List.getElem?_eq_getElem hlt
    rw [hi, h s ht i l _ hi]; rfl
  · rw [List.getElem?_eq_none (by simp; omega), List.getElem?_eq_none (by simp; omega)]; rfl

/-- What the Apply calls do with a condition. -/
structure Applies (f : Cond → Cond) : Prop where
  leaf : ∀ c, c.asGroup = none → (f c).asGroup = none
  group : ∀ b cs br, f (.group b cs br) = .group b (cs.map f) br

mutual
theorem rep_up {f : Cond → Cond} (hf : Applies f) (hi : ∀ s, InB st s → InB st' s) : ∀ (c : Cond) (h : HCond), AllUp f st st' h →
    Rep st h c → Rep st' (h.up f) (f c)
  | .group b' cs br', .group b s br, k, r => by
    obtain ⟨e1, e2, e3, e4, e5⟩ := rep_group_iff.1 r
    have ib := hi s ⟨e3, e4⟩
    rw [hf.group]
    refine rep_group_iff.2 ⟨e1, e2, ib.1, ib.2, ?_⟩
    rw [read_upped k .own ⟨e3, e4⟩]
    exact repL_up hf hi cs (st.read s) (fun h hh t ht => k t (.deep hh ht)) e5
  | .group _ _ _, .leaf _, _, r => by rw [rep_leaf_iff] at r; cases r.2
  | .fieldc a b c, .leaf _, _, r => by
    rw [rep_leaf_iff] at r; obtain ⟨rfl, h⟩ := r
    exact rep_leaf_iff.2 ⟨rfl, hf.leaf _ h⟩
  | .null a b, .leaf _, _, r => by
    rw [rep_leaf_iff] at r; obtain ⟨rfl, h⟩ := r
    exact rep_leaf_iff.2 ⟨rfl, hf.leaf _ h⟩
  | .custom a b, .leaf _, _, r => by
    rw [rep_leaf_iff] at r; obtain ⟨rfl, h⟩ := r
    exact rep_leaf_iff.2 ⟨rfl, hf.leaf _ h⟩
  | .fieldc _ _ _, .group _ _ _, _, r => by simp [Rep] at r
  | .null _ _, .group _ _ _, _, r => by simp [Rep] at r
  | .custom _ _, .group _ _ _, _, r => by simp [Rep] at r
theorem repL_up {f : Cond → Cond} (hf : Applies f) (hi : ∀ s, InB st s → InB st' s) : ∀ (cs : List Cond) (hs : List HCond),
    (∀ h ∈ hs, AllUp f st st' h) → RepL st hs cs → RepL st' (hs.map (·.up f)) (cs.map f)
  | [], [], _, _ => by simp [RepL]
  | c :: cs, h :: hs, k, r => by
    simp only [RepL, List.map_cons] at r ⊢
    exact ⟨rep_up hf hi c h (k h (List.mem_cons_self ..)) r.1, repL_up hf hi cs hs (fun x hx => k x (List.mem_cons_of_mem _ hx)) r.2⟩
  | [], _ :: _, _, r => by simp [RepL] at r
  | _ :: _, [], _, r => by simp [RepL] at r
end

end
end Query
