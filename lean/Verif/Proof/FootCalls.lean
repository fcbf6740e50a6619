import Verif.Proof.Foot
import Verif.Proof.HeapRun
import Verif.Spec.Once
/-!
# The arrays of the value a call makes
-/
namespace Query
open Store

variable {m : Mem} {hs : List HV} {ps : List PV} {p : PV} {st : Store HCond}

def HV.foot (m : Mem) : HV → PV → List Nat
  | .cond h, .cond c => Query.foot m.conds h c
  | .base h, .base q => Query.foot m.conds h.where_.toCond q.where_.group.toCond
  | .single h, .single q => Query.foot m.conds h.where_.toCond q.base.where_.group.toCond
  | .many h, .many q => Query.foot m.conds h.base.where_.toCond q.base.where_.group.toCond
  | .count h _, .count q => Query.foot m.conds h.where_.toCond q.base.where_.group.toCond
  | .update h, .update q => Query.foot m.conds h.where_.toCond q.where_.toCond
  | .delete h, .delete q => Query.foot m.conds h.where_.toCond q.where_.toCond
  | .joinB h, .joinB q => Query.foot m.conds h.where_.toCond q.where_.group.toCond
  | .joinS h, .joinS q => Query.foot m.conds h.where_.toCond q.base.where_.group.toCond
  | .joinM h, .joinM q => Query.foot m.conds h.base.where_.toCond q.base.where_.group.toCond
  | _, _ => []

/-- The arrays of the value with a number. -/
def footAt (m : Mem) (hs : List HV) (ps : List PV) (i : Nat) : List Nat :=
  match hs[i]?, ps[i]? with
  | some h, some p => h.foot m p
  | _, _ => []

theorem footAt_of {i : Nat} {h : HV} {p : PV} (e1 : hs[i]? = some h) (e2 : ps[i]? = some p) : footAt m hs ps i = h.foot m p := by
  simp only [footAt, e1, e2]

theorem foot_conds : ∀ (args : List Nat) (hcs : List HCond) (cs : List Cond), getCondsH hs args = some hcs →
    getConds ps args = some cs → args.flatMap (footAt m hs ps) = footL m.conds hcs cs
  | [], hcs, cs, e1, e2 => by
    simp only [getConds, getCondsH, Option.some.injEq] at e1 e2
    subst e1; subst e2; simp [footL]
  | i :: is, hcs, cs, e1, e2 => by
    simp only [getConds, getCondsH] at e1 e2
    split at e1
    · rename_i a1 a2
      split at e2
      · rename_i b1 b2
        simp only [Option.some.injEq] at e1 e2
        subst e1; subst e2
        simp only [List.flatMap_cons, footL, footAt_of a1 b1, HV.foot]
        rw [foot_conds is _ _ a2 b2]
      · cases e2
    · cases e1

theorem bnd_groupOf (gr : Grow) (j : Str) {h : HCond} {c : Cond} {hs : List HCond} {cs : List Cond}
    (r : Rep st h c) (rs : RepL st hs cs) :
    Bnd st.length (groupOf gr st j h hs).1.length (foot st h c ++ footL st hs cs)
      (foot (groupOf gr st j h hs).1 (groupOf gr st j h hs).2 (((newGroup j [c]).addConditions j cs).toCond)) := by
  obtain ⟨t, rn⟩ := sim_newGroup (tight := false) j (repL_one r)
  have bn := bnd_newGroup j (repL_one r)
  have k := fsim_addConditions gr (t.ext _ (by simp)) rn (RepL.mono t.le _ _ rs) j
  have kb := k.bnd
  rw [rs.foot_le t.le] at kb
  rw [footL_one] at bn
  exact (bn.append _).trans kb t.le.size k.sim.tr.le.size

theorem bnd_and (gr : Grow) {h : HCond} {c : Cond} {hs : List HCond} {cs : List Cond}
    (he : ∀ s ∈ h.sl, Ext false st s) (r : Rep st h c) (rs : RepL st hs cs) :
    Bnd st.length (andH gr st h hs).1.length (foot st h c ++ footL st hs cs) (foot (andH gr st h hs).1 (andH gr st h hs).2 (andC c cs)) := by
  unfold andH andC
  simp only [rs.length]
  split
  · simp only [r.foot_join]
    exact Bnd.of_le fun x => by simp only [List.count_append]; omega
  · rcases r.cases with ⟨g, G, rfl, rfl, rg⟩ | ⟨rfl, hn⟩
    · exact (fsim_addConditions gr (he g.s (by simp [HGroup.toCond, HCond.sl])) rg rs lAND).bnd
    · simp only [HCond.asGroup, hn]
      exact bnd_groupOf gr lAND r rs

theorem bnd_or (gr : Grow) {h : HCond} {c : Cond} {hs : List HCond} {cs : List Cond}
    (he : ∀ s ∈ h.sl, Ext false st s) (r : Rep st h c) (rs : RepL st hs cs) :
    Bnd st.length (orH gr st h hs).1.length (foot st h c ++ footL st hs cs) (foot (orH gr st h hs).1 (orH gr st h hs).2 (orC c cs)) := by
  unfold orH orC
  simp only [rs.length]
  split
  · simp only [r.foot_join]
    exact Bnd.of_le fun x => by simp only [List.count_append]; omega
  · rcases r.cases with ⟨g, G, rfl, rfl, rg⟩ | ⟨rfl, hn⟩
    · have k := fsim_addConditions gr (he g.s (by simp [HGroup.toCond, HCond.sl])) rg rs lOR
      have kb := k.bnd
      rw [← Rep.foot_join (Rep.mono (.refl _) _ _ k.sim.rep) lOR] at kb
      exact kb
    · simp only [HCond.asGroup, hn]
      have k := bnd_groupOf gr lOR r rs
      rw [← Rep.foot_join (sim_groupOf (growOK_false gr) lOR r rs []).rep lOR] at k
      exact k

theorem bnd_andM (gr : Grow) {h : HCond} {c : Cond} {hs : List HCond} {cs : List Cond}
    (he : ∀ s ∈ h.sl, Ext false st s) (r : Rep st h c) (rs : RepL st hs cs) :
    Bnd st.length (h.and gr st hs).1.length (foot st h c ++ footL st hs cs) (foot (h.and gr st hs).1 (h.and gr st hs).2 (c.and cs)) := by
  have ha := bnd_and gr he r rs
  have hgo := bnd_groupOf gr lAND r rs
  rcases r.cases with ⟨g, G, rfl, rfl, rg⟩ | ⟨rfl, hn⟩
  · exact (fsim_addConditions gr (he g.s (by simp [HGroup.toCond, HCond.sl])) rg rs lAND).bnd
  · cases c with
    | fieldc kind b fv => cases kind <;> first | exact ha | exact hgo
    | null b fd => exact hgo
    | custom b x => exact ha
    | group b cs br => simp [Cond.asGroup] at hn

theorem bnd_orM (gr : Grow) {h : HCond} {c c' : Cond} {hs : List HCond} {cs : List Cond} {x : Store HCond × HCond}
    (he : ∀ s ∈ h.sl, Ext false st s) (r : Rep st h c) (rs : RepL st hs cs) (ho : c.or cs = .ok c') (hx : h.or gr st hs = .ok x) :
    Bnd st.length x.1.length (foot st h c ++ footL st hs cs) (foot x.1 x.2 c') := by
  have ha := bnd_or gr he r rs
  have hgo := bnd_groupOf gr lOR r rs
  rcases r.cases with ⟨g, G, rfl, rfl, rg⟩ | ⟨rfl, hn⟩
  · have k := (fsim_addConditions gr (he g.s (by simp [HGroup.toCond, HCond.sl])) rg rs lOR).bnd
    simp only [Cond.or, Group.toCond, Res.ok.injEq] at ho
    simp only [HCond.or, HGroup.toCond, Res.ok.injEq] at hx
    subst ho; subst hx
    exact k
  · cases c with
    | fieldc kind b fv =>
      cases kind <;> simp only [Cond.or, Res.ok.injEq] at ho <;> simp only [HCond.or, Res.ok.injEq] at hx <;> subst ho <;> subst hx <;>
        first | exact ha | exact hgo
    | null b fd => simp [HCond.or] at hx
    | custom b x =>
      simp only [Cond.or, Res.ok.injEq] at ho; simp only [HCond.or, Res.ok.injEq] at hx; subst ho; subst hx; exact ha
    | group b cs br => simp [Cond.asGroup] at hn

theorem Bnd.start {n n' n'' : Nat} {F F' : List Nat} (h : Bnd n' n'' F F') (l : n ≤ n') : Bnd n n'' F F' := by
  intro a
  have h := h a
  split at h <;> split <;> omega

theorem polOK_any (pol : Policy) : PolOK false pol := ⟨growOK_false _, fun h => (by cases h), fun h => (by cases h), fun h => (by cases h)⟩

theorem bnd_where (pol : Policy) {h : HBase} {q : BaseSelect} {hcs : List HCond} {cs : List Cond} (r : RepB m h q)
    (he : Ext false m.conds h.where_.s) (rc : RepL m.conds hcs cs) :
    Bnd m.conds.length (h.addWhere pol m hcs).1.conds.length (foot m.conds h.where_.toCond q.where_.group.toCond ++ footL m.conds hcs cs)
      (foot (h.addWhere pol m hcs).1.conds (h.addWhere pol m hcs).2.where_.toCond (q.addWhere cs).where_.group.toCond) :=
  (fsim_addConditions pol.conds he r.cond rc lAND).bnd

/-- A new group of the elements of the where of a select: the arrays of its elements, and new ones. -/
theorem bnd_copy (gr : Grow) {g : HGroup} {G : Group} (r : RepG st g G) :
    let c := st.make (st.read g.s)
    let n := newGroupH c.1 lAND []
    let w := n.2.groupAND gr n.1 (n.1.read c.2)
    Bnd st.length w.1.length (foot st g.toCond G.toCond) (foot w.1 w.2.toCond ((newGroup lAND []).groupAND G.conds).toCond) := by
  have tc := tr_make (tight := false) st (st.read g.s)
  have rc := rep_make st (st.read g.s)
  obtain ⟨t1, r1⟩ := sim_newGroup (tight := false) (st := (st.make (st.read g.s)).1) lAND (hs := []) (cs := [])
    (by simp [RepL])
  have b1 := bnd_newGroup (st := (st.make (st.read g.s)).1) lAND (hs := []) (cs := []) (by simp [RepL])
  have er : (newGroupH (st.make (st.read g.s)).1 lAND []).1.read (st.make (st.read g.s)).2 = st.read g.s := (rc.mono t1.le).2.2
  have rl : RepL (newGroupH (st.make (st.read g.s)).1 lAND []).1
      ((newGroupH (st.make (st.read g.s)).1 lAND []).1.read (st.make (st.read g.s)).2) G.conds := by
    rw [er]
    exact RepL.mono (tc.le.trans t1.le) _ _ r.conds
  have k := fsim_addConditions gr (t1.ext _ (by simp)) r1 rl lAND
  have kb := k.bnd
  have e2 : footL (newGroupH (st.make (st.read g.s)).1 lAND []).1
      ((newGroupH (st.make (st.read g.s)).1 lAND []).1.read (st.make (st.read g.s)).2) G.conds = footL st (st.read g.s) G.conds := by
    rw [er]; exact r.conds.foot_le (tc.le.trans t1.le)
  rw [e2] at kb
  have b2 := (b1.append (footL st (st.read g.s) G.conds)).trans kb t1.le.size k.sim.tr.le.size
  have b3 := b2.weak (K := foot st g.toCond G.toCond) (fun a => by
    have := conds_le_foot (st := st) g G a
    simp only [footL, List.nil_append]; exact this)
  intro c n w
  exact b3.start tc.le.size

theorem Bnd.one {n n' : Nat} {i : Nat} {F K : List Nat} (h : Bnd n n' F K) (e : footAt m hs ps i = F) :
    Bnd n n' ([i].flatMap (footAt m hs ps)) K := by simpa [e] using h

theorem Bnd.many {n n' : Nat} {i : Nat} {args : List Nat} {F F' K : List Nat} (h : Bnd n n' (F ++ F') K) (e : footAt m hs ps i = F)
    (e' : args.flatMap (footAt m hs ps) = F') : Bnd n n' ((i :: args).flatMap (footAt m hs ps)) K := by
  rw [List.flatMap_cons, e, e']; exact h

theorem on_where {q q' : BaseSelect} {l x : FieldDef} (e : q.on l x = .ok q') : q'.where_ = q.where_ := by
  unfold BaseSelect.on at e
  cases hr : q.joins.reverse with
  | nil => rw [hr] at e; cases e
  | cons j rest =>
    rw [hr] at e
    simp only [Res.ok.injEq] at e
    subst e; rfl

theorem count_parts {q : BaseSelect} {fs : List Str} {y : CountB} (e : Query.count q fs = .ok y) :
    y.base = q ∧ countedField fs = .ok y.countField := by
  unfold Query.count at e
  unfold countedField
  cases fs with
  | nil =>
    simp only at e ⊢
    cases hfd : field c!"*" with
    | ok fd => rw [hfd] at e; simp only [Res.bind_ok, Res.ok.injEq] at e; subst e; exact ⟨rfl, rfl⟩
    | err _ => rw [hfd] at e; cases e
    | panic _ => rw [hfd] at e; cases e
  | cons f _ =>
    simp only at e ⊢
    cases hfd : field f with
    | ok fd => rw [hfd] at e; simp only [Res.bind_ok, Res.ok.injEq] at e; subst e; exact ⟨rfl, rfl⟩
    | err _ => rw [hfd] at e; cases e
    | panic _ => rw [hfd] at e; cases e

/-- The arrays of the value made by a call. -/
theorem call_foot (inv : Inv false [] m hs ps) (pol : Policy) (c : Call) (hna : c.noApply = true) {x : Mem × HV}
    (hx : c.heap pol m hs = some x) (hc : c.pure ps = some p) :
    Bnd m.conds.length x.1.conds.length (c.operands.flatMap (footAt m hs ps)) (x.2.foot x.1 p) := by
  have own : ∀ {r : Nat} {h : HV}, hs[r]? = some h → OwnExt false m h.own := fun e => inv.own e fun _ => by simp
  cases c with
  | leaf c =>
    simp only [Call.pure] at hc
    simp only [Call.heap] at hx
    split at hc
    · cases hc
    · rename_i hn
      simp only [hn, Option.some.injEq] at hc hx; subst hc
      simp only [Bool.false_eq_true, if_false, Option.some.injEq] at hx; subst hx
      exact Bnd.of_le fun a => by simp [HV.foot, Query.foot]
  | newGroup j args =>
    simp only [Call.pure] at hc
    obtain ⟨cs, e1, rfl⟩ := getConds_none_map hc
    obtain ⟨hcs, k1, k2⟩ := inv.conds args cs e1
    simp only [Call.heap, k1, Option.map_some, Option.some.injEq] at hx; subst hx
    simp only [Call.operands, foot_conds args hcs cs k1 e1]
    exact bnd_newGroup j k2
  | andF r args =>
    simp only [Call.pure] at hc
    split at hc
    · rename_i c cs e1 e2
      simp only [Option.some.injEq] at hc; subst hc
      obtain ⟨hcs, k1, k2⟩ := inv.conds args cs e2
      obtain ⟨h, e3, rv, hj⟩ := inv.fetch e1 rfl
      cases h <;> simp only [RepV] at rv
      simp only [Call.heap, e3, k1, Option.some.injEq] at hx; subst hx
      exact (bnd_and pol.conds (own e3).c rv k2).many (footAt_of e3 e1) (foot_conds args hcs cs k1 e2)
    · cases hc
  | orF r args =>
    simp only [Call.pure] at hc
    split at hc
    · rename_i c cs e1 e2
      simp only [Option.some.injEq] at hc; subst hc
      obtain ⟨hcs, k1, k2⟩ := inv.conds args cs e2
      obtain ⟨h, e3, rv, hj⟩ := inv.fetch e1 rfl
      cases h <;> simp only [RepV] at rv
      simp only [Call.heap, e3, k1, Option.some.injEq] at hx; subst hx
      exact (bnd_or pol.conds (own e3).c rv k2).many (footAt_of e3 e1) (foot_conds args hcs cs k1 e2)
    · cases hc
  | and r args =>
    simp only [Call.pure] at hc
    split at hc
    · rename_i c cs e1 e2
      simp only [Option.some.injEq] at hc; subst hc
      obtain ⟨hcs, k1, k2⟩ := inv.conds args cs e2
      obtain ⟨h, e3, rv, hj⟩ := inv.fetch e1 rfl
      cases h <;> simp only [RepV] at rv
      simp only [Call.heap, e3, k1, Option.some.injEq] at hx; subst hx
      exact (bnd_andM pol.conds (own e3).c rv k2).many (footAt_of e3 e1) (foot_conds args hcs cs k1 e2)
    · cases hc
  | or r args =>
    simp only [Call.pure] at hc
    split at hc
    · rename_i c cs e1 e2
      obtain ⟨c', ec, rfl⟩ := toOption_map hc
      obtain ⟨hcs, k1, k2⟩ := inv.conds args cs e2
      obtain ⟨h, e3, rv, hj⟩ := inv.fetch e1 rfl
      cases h <;> simp only [RepV] at rv
      obtain ⟨y, ey, _⟩ := sim_orM (growOK_false pol.conds) (own e3).c rv k2 ec
      simp only [Call.heap, e3, k1, ey, Res.toOption, Option.map_some, Option.some.injEq] at hx; subst hx
      exact (bnd_orM pol.conds (own e3).c rv k2 ec ey).many (footAt_of e3 e1) (foot_conds args hcs cs k1 e2)
    · cases hc
  | negate r n =>
    simp only [Call.pure] at hc
    split at hc
    · rename_i c e1
      simp only [Option.some.injEq] at hc; subst hc
      obtain ⟨h, e3, rv, hj⟩ := inv.fetch e1 rfl
      cases h <;> simp only [RepV] at rv
      simp only [Call.heap, e3, Option.some.injEq] at hx; subst hx
      refine Bnd.one ?_ (footAt_of e3 e1)
      simp only [HV.foot, rv.foot_negate]
      exact Bnd.refl _ _ _
    · cases hc
  | join r j =>
    simp only [Call.pure] at hc
    split at hc
    · rename_i c e1
      simp only [Option.some.injEq] at hc; subst hc
      obtain ⟨h, e3, rv, hj⟩ := inv.fetch e1 rfl
      cases h <;> simp only [RepV] at rv
      simp only [Call.heap, e3, Option.some.injEq] at hx; subst hx
      refine Bnd.one ?_ (footAt_of e3 e1)
      simp only [HV.foot, rv.foot_join]
      exact Bnd.refl _ _ _
    · cases hc
  | withBrackets r =>
    simp only [Call.pure] at hc
    split at hc
    · rename_i b cs br e1
      simp only [Option.some.injEq] at hc; subst hc
      obtain ⟨h, e3, rv, hj⟩ := inv.fetch e1 rfl
      cases h <;> simp only [RepV] at rv
      rename_i h
      cases h with
      | leaf c => simp [Rep, Cond.asGroup] at rv
      | group b' s br' =>
        simp only [Call.heap, e3, Option.some.injEq] at hx; subst hx
        refine Bnd.one ?_ (footAt_of e3 e1)
        simp only [HV.foot, Query.foot]
        exact Bnd.refl _ _ _
    · cases hc
  | applySpec r spec => cases hna
  | applyTable r t => cases hna
  | selectFrom t =>
    simp only [Call.pure] at hc
    obtain ⟨q, eq', rfl⟩ := toOption_map hc
    unfold Query.selectFrom at eq'
    cases ht : tableP t with
    | err _ => rw [ht] at eq'; cases eq'
    | panic _ => rw [ht] at eq'; cases eq'
    | ok ti =>
      rw [ht] at eq'
      simp only [Res.bind_ok, Res.ok.injEq] at eq'
      subst eq'
      simp only [Call.heap, selectFromH, ht, Res.bind_ok, Res.toOption, Option.map_some, Option.some.injEq] at hx; subst hx
      have b := bnd_newGroup (st := m.conds) lAND (hs := []) (cs := []) (by simp [RepL])
      simp only [footL] at b
      exact b
  | fields r fs =>
    simp only [Call.pure] at hc
    split at hc
    · rename_i q e1
      simp only [Option.some.injEq] at hc; subst hc
      obtain ⟨h, e3, rv, hj⟩ := inv.fetch e1 rfl
      cases h <;> simp only [RepV] at rv
      simp only [Call.heap, e3, Option.some.injEq] at hx; subst hx
      refine Bnd.one ?_ (footAt_of e3 e1)
      exact Bnd.refl _ _ _
    · rename_i q e1
      simp only [Option.some.injEq] at hc; subst hc
      obtain ⟨h, e3, rv, hj⟩ := inv.fetch e1 rfl
      cases h <;> simp only [RepV] at rv
      simp only [Call.heap, e3, Option.some.injEq] at hx; subst hx
      have b := bnd_newGroup (st := m.conds) lAND (hs := []) (cs := []) (by simp [RepL])
      simp only [footL, foot_group] at b
      refine (b.weak (K := [r].flatMap (footAt m hs ps)) (fun a => by simp)).less fun a => ?_
      simp only [HV.foot, foot_group]
      exact Nat.le_refl _
    · rename_i q e1
      simp only [Option.some.injEq] at hc; subst hc
      obtain ⟨h, e3, rv, hj⟩ := inv.fetch e1 rfl
      cases h <;> simp only [RepV] at rv
      simp only [Call.heap, e3, Option.some.injEq] at hx; subst hx
      refine Bnd.one ?_ (footAt_of e3 e1)
      exact Bnd.refl _ _ _
    · cases hc
  | where_ r args =>
    simp only [Call.pure] at hc
    split at hc
    · rename_i q cs e1 e2
      simp only [Option.some.injEq] at hc; subst hc
      obtain ⟨hcs, k1, k2⟩ := inv.conds args cs e2
      obtain ⟨h, e3, rv, hj⟩ := inv.fetch e1 rfl
      cases h <;> simp only [RepV] at rv
      simp only [Call.heap, e3, k1, Option.some.injEq] at hx; subst hx
      exact (bnd_where pol rv ((own e3).c _ (by simp [HV.own])) k2).many (footAt_of e3 e1) (foot_conds args hcs cs k1 e2)
    · rename_i q cs e1 e2
      simp only [Option.some.injEq] at hc; subst hc
      obtain ⟨hcs, k1, k2⟩ := inv.conds args cs e2
      obtain ⟨h, e3, rv, hj⟩ := inv.fetch e1 rfl
      cases h <;> simp only [RepV] at rv
      simp only [Call.heap, e3, k1, Option.some.injEq] at hx; subst hx
      exact (bnd_where pol rv ((own e3).c _ (by simp [HV.own])) k2).many (footAt_of e3 e1) (foot_conds args hcs cs k1 e2)
    · rename_i q cs e1 e2
      simp only [Option.some.injEq] at hc; subst hc
      obtain ⟨hcs, k1, k2⟩ := inv.conds args cs e2
      obtain ⟨h, e3, rv, hj⟩ := inv.fetch e1 rfl
      cases h <;> simp only [RepV] at rv
      simp only [Call.heap, e3, k1, Option.some.injEq] at hx; subst hx
      exact (bnd_where pol rv.base ((own e3).c _ (by simp [HV.own])) k2).many (footAt_of e3 e1) (foot_conds args hcs cs k1 e2)
    · rename_i q cs e1 e2
      simp only [Option.some.injEq] at hc; subst hc
      obtain ⟨hcs, k1, k2⟩ := inv.conds args cs e2
      obtain ⟨h, e3, rv, hj⟩ := inv.fetch e1 rfl
      cases h <;> simp only [RepV] at rv
      simp only [Call.heap, e3, k1, Option.some.injEq] at hx; subst hx
      have k := fsim_addConditions pol.conds ((own e3).c _ (by simp [HV.own])) rv.2.2.1 k2 lAND
      exact k.bnd.many (footAt_of e3 e1) (foot_conds args hcs cs k1 e2)
    · rename_i q cs e1 e2
      simp only [Option.some.injEq] at hc; subst hc
      obtain ⟨hcs, k1, k2⟩ := inv.conds args cs e2
      obtain ⟨h, e3, rv, hj⟩ := inv.fetch e1 rfl
      cases h <;> simp only [RepV] at rv
      simp only [Call.heap, e3, k1, Option.some.injEq] at hx; subst hx
      have k := fsim_addConditions pol.conds ((own e3).c _ (by simp [HV.own])) rv.2.2 k2 lAND
      exact k.bnd.many (footAt_of e3 e1) (foot_conds args hcs cs k1 e2)
    · cases hc
  | joinTable r t j =>
    simp only [Call.pure] at hc
    split at hc
    all_goals first | cases hc; done | skip
    all_goals
      rename_i q e1
      simp only [Option.some.injEq] at hc; subst hc
      obtain ⟨h, e3, rv, hj⟩ := inv.fetch e1 rfl
      cases h <;> simp only [RepV] at rv
      simp only [Call.heap, e3, Option.some.injEq] at hx; subst hx
      refine Bnd.one ?_ (footAt_of e3 e1)
      exact Bnd.refl _ _ _
  | on r l y =>
    simp only [Call.pure] at hc
    split at hc
    · rename_i q e1
      obtain ⟨q', eq', rfl⟩ := toOption_map hc
      obtain ⟨h, e3, rv, hj⟩ := inv.fetchJ e1 (by simp)
      cases h <;> simp only [RepV] at rv
      obtain ⟨y', ey, rb⟩ := rep_on rv l y eq'
      simp only [Call.heap, e3, ey, Res.toOption, Option.map_some, Option.some.injEq] at hx; subst hx
      refine Bnd.one ?_ (footAt_of e3 e1)
      simp only [HV.foot, on_where eq']
      exact Bnd.refl _ _ _
    · rename_i q e1
      obtain ⟨q', eq', rfl⟩ := toOption_map hc
      obtain ⟨h, e3, rv, hj⟩ := inv.fetchJ e1 (by simp)
      cases h <;> simp only [RepV] at rv
      unfold SelectSingle.on at eq'
      cases hq : q.base.on l y with
      | err _ => rw [hq] at eq'; cases eq'
      | panic _ => rw [hq] at eq'; cases eq'
      | ok b =>
        rw [hq] at eq'
        simp only [Res.bind_ok, Res.ok.injEq] at eq'; subst eq'
        obtain ⟨y', ey, rb⟩ := rep_on rv l y hq
        simp only [Call.heap, e3, ey, Res.toOption, Option.map_some, Option.some.injEq] at hx; subst hx
        refine Bnd.one ?_ (footAt_of e3 e1)
        simp only [HV.foot, on_where hq]
        exact Bnd.refl _ _ _
    · rename_i q e1
      obtain ⟨q', eq', rfl⟩ := toOption_map hc
      obtain ⟨h, e3, rv, hj⟩ := inv.fetchJ e1 (by simp)
      cases h <;> simp only [RepV] at rv
      unfold SelectMany.on at eq'
      cases hq : q.base.on l y with
      | err _ => rw [hq] at eq'; cases eq'
      | panic _ => rw [hq] at eq'; cases eq'
      | ok b =>
        rw [hq] at eq'
        simp only [Res.bind_ok, Res.ok.injEq] at eq'; subst eq'
        obtain ⟨y', ey, rb⟩ := rep_on rv.base l y hq
        simp only [Call.heap, e3, ey, Res.toOption, Option.map_some, Option.some.injEq] at hx; subst hx
        refine Bnd.one ?_ (footAt_of e3 e1)
        simp only [HV.foot, on_where hq]
        exact Bnd.refl _ _ _
    · cases hc
  | single r =>
    simp only [Call.pure] at hc
    split at hc
    · rename_i q e1
      simp only [Option.some.injEq] at hc; subst hc
      obtain ⟨h, e3, rv, hj⟩ := inv.fetch e1 rfl
      cases h <;> simp only [RepV] at rv
      simp only [Call.heap, e3, Option.some.injEq] at hx; subst hx
      refine Bnd.one ?_ (footAt_of e3 e1)
      exact Bnd.refl _ _ _
    · cases hc
  | embedded r =>
    simp only [Call.pure] at hc
    split at hc
    · rename_i q e1
      simp only [Option.some.injEq] at hc; subst hc
      obtain ⟨h, e3, rv, hj⟩ := inv.fetch e1 rfl
      cases h <;> simp only [RepV] at rv
      simp only [Call.heap, e3, Option.some.injEq] at hx; subst hx
      refine Bnd.one ?_ (footAt_of e3 e1)
      exact Bnd.refl _ _ _
    · rename_i q e1
      simp only [Option.some.injEq] at hc; subst hc
      obtain ⟨h, e3, rv, hj⟩ := inv.fetch e1 rfl
      cases h <;> simp only [RepV] at rv
      simp only [Call.heap, e3, Option.some.injEq] at hx; subst hx
      refine Bnd.one ?_ (footAt_of e3 e1)
      exact Bnd.refl _ _ _
    · cases hc
  | many r =>
    simp only [Call.pure] at hc
    split at hc
    · rename_i q e1
      simp only [Option.some.injEq] at hc; subst hc
      obtain ⟨h, e3, rv, hj⟩ := inv.fetch e1 rfl
      cases h <;> simp only [RepV] at rv
      simp only [Call.heap, e3, Option.some.injEq] at hx; subst hx
      refine Bnd.one ?_ (footAt_of e3 e1)
      exact Bnd.refl _ _ _
    · cases hc
  | offset r n =>
    simp only [Call.pure] at hc
    split at hc
    · rename_i q e1
      simp only [Option.some.injEq] at hc; subst hc
      obtain ⟨h, e3, rv, hj⟩ := inv.fetch e1 rfl
      cases h <;> simp only [RepV] at rv
      simp only [Call.heap, e3, Option.some.injEq] at hx; subst hx
      refine Bnd.one ?_ (footAt_of e3 e1)
      exact Bnd.refl _ _ _
    · cases hc
  | limit r n =>
    simp only [Call.pure] at hc
    split at hc
    · rename_i q e1
      simp only [Option.some.injEq] at hc; subst hc
      obtain ⟨h, e3, rv, hj⟩ := inv.fetch e1 rfl
      cases h <;> simp only [RepV] at rv
      simp only [Call.heap, e3, Option.some.injEq] at hx; subst hx
      refine Bnd.one ?_ (footAt_of e3 e1)
      exact Bnd.refl _ _ _
    · cases hc
  | orderBy r os =>
    simp only [Call.pure] at hc
    split at hc
    · rename_i q e1
      simp only [Option.some.injEq] at hc; subst hc
      obtain ⟨h, e3, rv, hj⟩ := inv.fetch e1 rfl
      cases h <;> simp only [RepV] at rv
      simp only [Call.heap, e3, Option.some.injEq] at hx; subst hx
      refine Bnd.one ?_ (footAt_of e3 e1)
      exact Bnd.refl _ _ _
    · cases hc
  | count r fs =>
    simp only [Call.pure] at hc
    split at hc
    · rename_i q e1
      obtain ⟨y, ey, rfl⟩ := toOption_map hc
      obtain ⟨h, e3, rv, hj⟩ := inv.fetch e1 rfl
      cases h <;> simp only [RepV] at rv
      obtain ⟨b1, b2⟩ := count_parts ey
      simp only [Call.heap, e3, b2, Res.toOption, Option.map_some, Option.some.injEq] at hx; subst hx
      refine Bnd.one ?_ (footAt_of e3 e1)
      simp only [HV.foot, b1]
      exact Bnd.refl _ _ _
    · rename_i q e1
      obtain ⟨y, ey, rfl⟩ := toOption_map hc
      obtain ⟨h, e3, rv, hj⟩ := inv.fetch e1 rfl
      cases h <;> simp only [RepV] at rv
      obtain ⟨b1, b2⟩ := count_parts ey
      simp only [Call.heap, e3, b2, Res.toOption, Option.map_some, Option.some.injEq] at hx; subst hx
      refine Bnd.one ?_ (footAt_of e3 e1)
      simp only [HV.foot, b1]
      exact Bnd.refl _ _ _
    · cases hc
  | insertInto t =>
    simp only [Call.pure, Option.some.injEq] at hc; subst hc
    simp only [Call.heap, Option.some.injEq] at hx; subst hx
    exact Bnd.of_le fun a => by simp [HV.foot]
  | insertFrom r vs =>
    simp only [Call.pure] at hc
    split at hc
    · rename_i q e1
      simp only [Option.some.injEq] at hc; subst hc
      obtain ⟨h, e3, rv, hj⟩ := inv.fetch e1 rfl
      cases h <;> simp only [RepV] at rv
      simp only [Call.heap, e3, Option.some.injEq] at hx; subst hx
      exact Bnd.of_le fun a => by simp [HV.foot]
    · cases hc
  | values r vs =>
    simp only [Call.pure] at hc
    split at hc
    · rename_i q e1
      simp only [Option.some.injEq] at hc; subst hc
      obtain ⟨h, e3, rv, hj⟩ := inv.fetch e1 rfl
      cases h <;> simp only [RepV] at rv
      simp only [Call.heap, e3, Option.some.injEq] at hx; subst hx
      exact Bnd.of_le fun a => by simp [HV.foot]
    · cases hc
  | update t =>
    simp only [Call.pure, Option.some.injEq] at hc; subst hc
    simp only [Call.heap, Option.some.injEq] at hx; subst hx
    have b := bnd_newGroup (st := m.conds) lAND (hs := []) (cs := []) (by simp [RepL])
    simp only [footL] at b
    exact b
  | updateFrom r vs =>
    simp only [Call.pure] at hc
    split at hc
    all_goals first | cases hc; done | skip
    · rename_i q e1
      simp only [Option.some.injEq] at hc; subst hc
      obtain ⟨h, e3, rv, hj⟩ := inv.fetch e1 rfl
      cases h <;> simp only [RepV] at rv
      simp only [Call.heap, e3, Option.some.injEq] at hx; subst hx
      exact (bnd_copy pol.conds rv.cond).one (footAt_of e3 e1)
    · rename_i q e1
      simp only [Option.some.injEq] at hc; subst hc
      obtain ⟨h, e3, rv, hj⟩ := inv.fetch e1 rfl
      cases h <;> simp only [RepV] at rv
      simp only [Call.heap, e3, Option.some.injEq] at hx; subst hx
      exact (bnd_copy pol.conds rv.cond).one (footAt_of e3 e1)
    · rename_i q e1
      simp only [Option.some.injEq] at hc; subst hc
      obtain ⟨h, e3, rv, hj⟩ := inv.fetch e1 rfl
      cases h <;> simp only [RepV] at rv
      simp only [Call.heap, e3, Option.some.injEq] at hx; subst hx
      exact (bnd_copy pol.conds rv.base.cond).one (footAt_of e3 e1)
  | set r vs =>
    simp only [Call.pure] at hc
    split at hc
    · rename_i q e1
      simp only [Option.some.injEq] at hc; subst hc
      obtain ⟨h, e3, rv, hj⟩ := inv.fetch e1 rfl
      cases h <;> simp only [RepV] at rv
      simp only [Call.heap, e3, Option.some.injEq] at hx; subst hx
      refine Bnd.one ?_ (footAt_of e3 e1)
      exact Bnd.refl _ _ _
    · cases hc
  | delete t =>
    simp only [Call.pure, Option.some.injEq] at hc; subst hc
    simp only [Call.heap, Option.some.injEq] at hx; subst hx
    have b := bnd_newGroup (st := m.conds) lAND (hs := []) (cs := []) (by simp [RepL])
    simp only [footL] at b
    exact b
  | deleteFrom r =>
    simp only [Call.pure] at hc
    split at hc
    all_goals first | cases hc; done | skip
    · rename_i q e1
      simp only [Option.some.injEq] at hc; subst hc
      obtain ⟨h, e3, rv, hj⟩ := inv.fetch e1 rfl
      cases h <;> simp only [RepV] at rv
      simp only [Call.heap, e3, Option.some.injEq] at hx; subst hx
      exact (bnd_copy pol.conds rv.cond).one (footAt_of e3 e1)
    · rename_i q e1
      simp only [Option.some.injEq] at hc; subst hc
      obtain ⟨h, e3, rv, hj⟩ := inv.fetch e1 rfl
      cases h <;> simp only [RepV] at rv
      simp only [Call.heap, e3, Option.some.injEq] at hx; subst hx
      exact (bnd_copy pol.conds rv.cond).one (footAt_of e3 e1)
    · rename_i q e1
      simp only [Option.some.injEq] at hc; subst hc
      obtain ⟨h, e3, rv, hj⟩ := inv.fetch e1 rfl
      cases h <;> simp only [RepV] at rv
      simp only [Call.heap, e3, Option.some.injEq] at hx; subst hx
      exact (bnd_copy pol.conds rv.base.cond).one (footAt_of e3 e1)

end Query
