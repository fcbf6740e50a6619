import Verif.Proof.HeapOn
/-!
# Every call in memory does what it does on values
-/
namespace Query
open Store

variable {tight : Bool} {gr : Grow} {st : Store HCond}

/-- What a call making a condition has to do. -/
structure SimC (tight : Bool) (st : Store HCond) (O : List Sl) (r : Store HCond × HCond) (c : Cond) : Prop where
  tr : Tr tight st r.1 O r.2.sl
  rep : Rep r.1 r.2 c

theorem sl_join (h : HCond) (j : Str) : (h.join j).sl = h.sl := by cases h <;> rfl
theorem sl_negate (h : HCond) (n : Bool) : (h.setNegate n).sl = h.sl := by cases h <;> rfl

theorem SimC.join {O : List Sl} {r : Store HCond × HCond} {c : Cond} (h : SimC tight st O r c) (j : Str) :
    SimC tight st O (r.1, r.2.join j) (c.join j) :=
  ⟨by simp only [sl_join]; exact h.tr, h.rep.join j⟩

theorem sim_groupOf (hg : GrowOK tight gr) (j : Str) {h : HCond} {c : Cond} {hs : List HCond} {cs : List Cond}
    (r : Rep st h c) (rs : RepL st hs cs) (O : List Sl) :
    SimC tight st O (groupOf gr st j h hs) (((newGroup j [c]).addConditions j cs).toCond) := by
  obtain ⟨t, rn⟩ := sim_newGroup (tight := tight) j (repL_one r)
  have k := sim_addConditions hg (t.ext _ (by simp)) rn (RepL.mono t.le _ _ rs) j
  exact ⟨(t.trans k.tr).weak O, k.rep⟩

theorem sim_same {h : HCond} {c : Cond} (he : ∀ s ∈ h.sl, Ext tight st s) (r : Rep st h c) (j : Str) :
    SimC tight st h.sl (st, h.join j) (c.join j) :=
  ⟨by simp only [sl_join]; exact Tr.same he, r.join j⟩

theorem sim_and (hg : GrowOK tight gr) {h : HCond} {c : Cond} {hs : List HCond} {cs : List Cond}
    (he : ∀ s ∈ h.sl, Ext tight st s) (r : Rep st h c) (rs : RepL st hs cs) :
    SimC tight st h.sl (andH gr st h hs) (andC c cs) := by
  unfold andH andC
  simp only [rs.length]
  split
  · exact sim_same he r _
  · rcases r.cases with ⟨g, G, rfl, rfl, rg⟩ | ⟨rfl, hn⟩
    · have k := sim_addConditions hg (he g.s (by simp [HGroup.toCond, HCond.sl])) rg rs lAND
      exact ⟨k.tr, k.rep⟩
    · simp only [HCond.asGroup, hn]
      exact sim_groupOf hg lAND r rs _

theorem sim_or (hg : GrowOK tight gr) {h : HCond} {c : Cond} {hs : List HCond} {cs : List Cond}
    (he : ∀ s ∈ h.sl, Ext tight st s) (r : Rep st h c) (rs : RepL st hs cs) :
    SimC tight st h.sl (orH gr st h hs) (orC c cs) := by
  unfold orH orC
  simp only [rs.length]
  split
  · exact sim_same he r _
  · rcases r.cases with ⟨g, G, rfl, rfl, rg⟩ | ⟨rfl, hn⟩
    · have k := sim_addConditions hg (he g.s (by simp [HGroup.toCond, HCond.sl])) rg rs lOR
      exact SimC.join (r := (_, _)) ⟨k.tr, k.rep⟩ lOR
    · simp only [HCond.asGroup, hn]
      exact SimC.join (sim_groupOf hg lOR r rs _) lOR

theorem sim_andM (hg : GrowOK tight gr) {h : HCond} {c : Cond} {hs : List HCond} {cs : List Cond}
    (he : ∀ s ∈ h.sl, Ext tight st s) (r : Rep st h c) (rs : RepL st hs cs) :
    SimC tight st h.sl (h.and gr st hs) (c.and cs) := by
  have ha := sim_and hg he r rs
  have hgo := sim_groupOf hg lAND r rs h.sl
  rcases r.cases with ⟨g, G, rfl, rfl, rg⟩ | ⟨rfl, hn⟩
  · have k := sim_addConditions hg (he g.s (by simp [HGroup.toCond, HCond.sl])) rg rs lAND
    exact ⟨k.tr, k.rep⟩
  · cases c with
    | fieldc kind b fv => cases kind <;> first | exact ha | exact hgo
    | null b fd => exact hgo
    | custom b x => exact ha
    | group b cs br => simp [Cond.asGroup] at hn

theorem sim_orM (hg : GrowOK tight gr) {h : HCond} {c c' : Cond} {hs : List HCond} {cs : List Cond}
    (he : ∀ s ∈ h.sl, Ext tight st s) (r : Rep st h c) (rs : RepL st hs cs) (ho : c.or cs = .ok c') :
    ∃ x, h.or gr st hs = .ok x ∧ SimC tight st h.sl x c' := by
  have ha := sim_or hg he r rs
  have hgo := sim_groupOf hg lOR r rs h.sl
  rcases r.cases with ⟨g, G, rfl, rfl, rg⟩ | ⟨rfl, hn⟩
  · have k := sim_addConditions hg (he g.s (by simp [HGroup.toCond, HCond.sl])) rg rs lOR
    simp only [Cond.or, Group.toCond, Res.ok.injEq] at ho
    subst ho
    exact ⟨_, rfl, ⟨k.tr, k.rep⟩⟩
  · cases c with
    | fieldc kind b fv =>
      cases kind <;> simp only [Cond.or, Res.ok.injEq] at ho <;> subst ho <;> first | exact ⟨_, rfl, ha⟩ | exact ⟨_, rfl, hgo⟩
    | null b fd => simp [Cond.or, nullOr, newGroupI, setToAllI, Res.mapL, joinOneI] at ho
    | custom b x =>
      simp only [Cond.or, Res.ok.injEq] at ho; subst ho; exact ⟨_, rfl, ha⟩
    | group b cs br => simp [Cond.asGroup] at hn

end Query
