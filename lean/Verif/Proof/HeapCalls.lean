import Verif.Proof.HeapStep
/-!
# Every history in memory does what it does on values
-/
namespace Query
open Store

variable {tight : Bool} {used : List Nat} {m : Mem} {hs : List HV} {ps : List PV}

theorem Inv.conds (inv : Inv tight used m hs ps) : ∀ (args : List Nat) (cs : List Cond), getConds ps args = some cs →
    ∃ hcs, getCondsH hs args = some hcs ∧ RepL m.conds hcs cs
  | [], cs, h => by
    simp only [getConds, Option.some.injEq] at h; subst h
    exact ⟨[], rfl, by simp [RepL]⟩
  | i :: is, cs, h => by
    simp only [getConds] at h
    split at h
    · rename_i c cs' e1 e2
      simp only [Option.some.injEq] at h; subst h
      obtain ⟨hcs, k1, k2⟩ := inv.conds is cs' e2
      have hl : i < hs.length := by rw [inv.len]; exact (List.getElem?_eq_some_iff.1 e1).1
      have e3 := List.getElem?_eq_getElem hl
      have kd := inv.kind i _ _ e3 e1
      have rv := inv.rep i _ _ e3 e1 (fun e => by rw [kd] at e; cases e)
      cases hh : hs[i] <;> rw [hh] at rv e3 <;> simp only [RepV] at rv
      rename_i x
      exact ⟨x :: hcs, by simp only [getCondsH, e3, k1], by simp only [RepL]; exact ⟨rv, k2⟩⟩
    · cases h

/-- The value in memory of a plain value that is no waiting join. -/
theorem Inv.fetch (inv : Inv tight used m hs ps) {i : Nat} {p : PV} (e : ps[i]? = some p) (hj : p.isJoiner = false) :
    ∃ h, hs[i]? = some h ∧ RepV m h p ∧ h.isJoiner = false := by
  have hl : i < hs.length := by rw [inv.len]; exact (List.getElem?_eq_some_iff.1 e).1
  have e3 := List.getElem?_eq_getElem hl
  have kd := inv.kind i _ _ e3 e
  exact ⟨_, e3, inv.rep i _ _ e3 e (fun x => by rw [kd, hj] at x; cases x), kd.trans hj⟩

theorem Inv.fetchJ (inv : Inv tight used m hs ps) {i : Nat} {p : PV} (e : ps[i]? = some p) (hu : i ∉ used) :
    ∃ h, hs[i]? = some h ∧ RepV m h p ∧ h.isJoiner = p.isJoiner := by
  have hl : i < hs.length := by rw [inv.len]; exact (List.getElem?_eq_some_iff.1 e).1
  have e3 := List.getElem?_eq_getElem hl
  exact ⟨_, e3, inv.rep i _ _ e3 e (fun _ => hu), inv.kind i _ _ e3 e⟩

/-- The values no longer usable after a call. -/
def after (tight : Bool) (c : Call) (used : List Nat) : List Nat :=
  if tight = true then c.completes.toList ++ used else c.extends.toList ++ used

structure PolOK (tight : Bool) (pol : Policy) : Prop where
  conds : GrowOK tight pol.conds
  joins : GrowOK tight pol.joins
  sorts : GrowOK tight pol.sorts
  vals : GrowOK tight pol.vals

/-- Only the conditions change. -/
theorem TrM.conds {o o' : Own} {st : Store HCond} (he : OwnExt tight m o) (t : Tr tight m.conds st o.c o'.c)
    (hj : o'.j = o.j) (hs : o'.s = o.s) (hv : o'.v = o.v) : TrM tight m { m with conds := st } o o' :=
  ⟨t, by rw [hj]; exact Tr.same he.j, by rw [hs]; exact Tr.same he.s, by rw [hv]; exact Tr.same he.v, Le.refl _⟩

/-- Nothing in memory changes. -/
theorem TrM.same {o o' : Own} (he : OwnExt tight m o) (e : o' = o) : TrM tight m m o o' := by
  subst e; exact ⟨Tr.same he.c, Tr.same he.j, Tr.same he.s, Tr.same he.v, Le.refl _⟩

theorem TrM.nothing (o : Own) : TrM tight m m o ⟨[], [], [], []⟩ :=
  ⟨Tr.none _ _, Tr.none _ _, Tr.none _ _, Tr.none _ _, Le.refl _⟩

/-- New slices only. -/
theorem Tr.fresh2 {α : Type} {st st' : Store α} {O P : List Sl} (t : Tr tight st st' [] P) : Tr tight st st' O P := t.weak O

theorem rep_join {m : Mem} {pol : Policy} {h : HBase} {q : BaseSelect} (hp : PolOK tight pol) (r : RepB m h q)
    (he : Ext tight m.joins h.joins) (t : TableIdent) (j : Int) :
    Tr tight m.joins (h.joinIdent pol m t j).1.joins [h.joins] [(h.joinIdent pol m t j).2.joins] ∧
      RepB (h.joinIdent pol m t j).1 (h.joinIdent pol m t j).2 (q.joinIdent t j) := by
  have tr := tr_append pol.joins hp.joins m.joins h.joins [⟨t, j, zeroJC⟩] he
  have rp := rep_append pol.joins m.joins h.joins [⟨t, j, zeroJC⟩] _ he.arr r.joins
  exact ⟨tr, ⟨r.op, r.tbl, rp, r.fields, r.cond⟩⟩

/-- The slice of a new join is new or longer than the operand's. -/
theorem join_longer {pol : Policy} {h : HBase} (hp : PolOK tight pol) (he : Ext tight m.joins h.joins) (t : TableIdent) (j : Int) :
    m.joins.length ≤ (h.joinIdent pol m t j).2.joins.arr ∨
      (tight = false ∧ h.joins.arr = (h.joinIdent pol m t j).2.joins.arr ∧ h.joins.len < (h.joinIdent pol m t j).2.joins.len ∧
        (m.joins.cells h.joins.arr).length = h.joins.len) := by
  simp only [HBase.joinIdent, Store.append]
  split
  · rename_i hle
    right
    simp only [List.length_singleton] at hle ⊢
    cases tight with
    | false => exact ⟨rfl, trivial, by omega, (he.last rfl).resolve_right (by omega)⟩
    | true => have := he.full rfl; omega
  · left; simp [Store.alloc]

theorem rep_where {m : Mem} {pol : Policy} {h : HBase} {q : BaseSelect} {hcs : List HCond} {cs : List Cond} (hp : PolOK tight pol)
    (r : RepB m h q) (he : Ext tight m.conds h.where_.s) (rc : RepL m.conds hcs cs) :
    Tr tight m.conds (h.addWhere pol m hcs).1.conds [h.where_.s] [(h.addWhere pol m hcs).2.where_.s] ∧
      RepB (h.addWhere pol m hcs).1 (h.addWhere pol m hcs).2 (q.addWhere cs) := by
  have k := sim_addConditions hp.conds he r.cond rc lAND
  exact ⟨k.tr, ⟨r.op, r.tbl, r.joins, r.fields, k.rep⟩⟩

theorem rep_fields {m : Mem} {h : HBase} {q : BaseSelect} (r : RepB m h q) (fs : List FieldDef) :
    Le m.defs (h.setFields m fs).1.defs ∧ RepB (h.setFields m fs).1 (h.setFields m fs).2 (q.setFields fs) := by
  have tr := tr_make (tight := true) m.defs fs
  exact ⟨tr.le, ⟨r.op, r.tbl, r.joins, rep_make m.defs fs, r.cond⟩⟩

/-- The selects made from nothing. -/
theorem rep_newBase (m : Mem) (t : TableIdent) :
    TrM tight m { m with conds := (newGroupH m.conds lAND []).1, joins := (m.joins.make []).1, defs := (m.defs.make []).1 }
        ⟨[], [], [], []⟩ (HV.base ⟨0, t, (m.joins.make []).2, (m.defs.make []).2, (newGroupH m.conds lAND []).2⟩).own ∧
      RepB { m with conds := (newGroupH m.conds lAND []).1, joins := (m.joins.make []).1, defs := (m.defs.make []).1 }
        ⟨0, t, (m.joins.make []).2, (m.defs.make []).2, (newGroupH m.conds lAND []).2⟩ ⟨0, t, [], ⟨[]⟩, newWhere⟩ := by
  obtain ⟨t1, r1⟩ := sim_newGroup (tight := tight) (st := m.conds) lAND (hs := []) (cs := []) (by simp [RepL])
  have tj := tr_make (tight := tight) m.joins []
  have td := tr_make (tight := tight) m.defs []
  exact ⟨⟨t1, tj, Tr.none _ _, Tr.none _ _, td.le⟩, ⟨rfl, rfl, rep_make m.joins [], rep_make m.defs [], r1⟩⟩

theorem rep_zero (m : Mem) :
    TrM tight m (zeroBaseH m).1 ⟨[], [], [], []⟩ (HV.base (zeroBaseH m).2).own ∧
      RepB (zeroBaseH m).1 (zeroBaseH m).2 zeroBaseSelect := by
  have tc := tr_make (tight := tight) m.conds []
  have tj := tr_make (tight := tight) m.joins []
  have td := tr_make (tight := tight) m.defs []
  refine ⟨⟨tc, tj, Tr.none _ _, Tr.none _ _, td.le⟩, ⟨rfl, rfl, rep_make m.joins [], rep_make m.defs [], ?_⟩⟩
  exact repG_of (G := ⟨⟨[], false⟩, [], false⟩) rfl rfl (rep_make m.conds []) (by simp [RepL])

theorem rep_update {pol : Policy} {h : HBase} {q : BaseSelect} (hp : PolOK tight pol) (r : RepB m h q) (p : TableParam)
    (vs : List FieldValue) :
    TrM tight m (h.update pol m p vs).1 ⟨[], [], [], []⟩ (HV.update (h.update pol m p vs).2).own ∧
      RepV (h.update pol m p vs).1 (.update (h.update pol m p vs).2)
        (.update (((Query.update p).addWhere q.where_.conditions).set vs)) := by
  have tc := tr_make (tight := tight) m.conds (m.conds.read h.where_.s)
  have rc := rep_make m.conds (m.conds.read h.where_.s)
  obtain ⟨t1, r1⟩ := sim_newGroup (tight := tight) (st := (m.conds.make (m.conds.read h.where_.s)).1) lAND (hs := []) (cs := [])
    (by simp [RepL])
  have rl : RepL (newGroupH (m.conds.make (m.conds.read h.where_.s)).1 lAND []).1
      ((newGroupH (m.conds.make (m.conds.read h.where_.s)).1 lAND []).1.read (m.conds.make (m.conds.read h.where_.s)).2)
      q.where_.group.conds := by
    rw [(rc.mono t1.le).2.2]
    exact RepL.mono (tc.le.trans t1.le) _ _ r.cond.conds
  have k := sim_addConditions hp.conds (t1.ext _ (by simp)) r1 rl lAND
  have tv := tr_make (tight := tight) m.vals []
  have ta := tr_append pol.vals hp.vals (m.vals.make []).1 (m.vals.make []).2 vs (tv.ext _ (by simp))
  have ra := rep_append pol.vals (m.vals.make []).1 (m.vals.make []).2 vs _ (tv.ext (m.vals.make []).2 (by simp)).arr (rep_make m.vals [])
  exact ⟨⟨tc.drop.trans (t1.trans k.tr), Tr.none _ _, Tr.none _ _, tv.trans ta, Le.refl _⟩, rfl, rfl, k.rep, ra⟩

theorem rep_delete {pol : Policy} {h : HBase} {q : BaseSelect} (hp : PolOK tight pol) (r : RepB m h q) (p : TableParam) :
    TrM tight m (h.delete pol m p).1 ⟨[], [], [], []⟩ (HV.delete (h.delete pol m p).2).own ∧
      RepV (h.delete pol m p).1 (.delete (h.delete pol m p).2)
        (.delete ((Query.delete p).addWhere q.where_.conditions)) := by
  have tc := tr_make (tight := tight) m.conds (m.conds.read h.where_.s)
  have rc := rep_make m.conds (m.conds.read h.where_.s)
  obtain ⟨t1, r1⟩ := sim_newGroup (tight := tight) (st := (m.conds.make (m.conds.read h.where_.s)).1) lAND (hs := []) (cs := [])
    (by simp [RepL])
  have rl : RepL (newGroupH (m.conds.make (m.conds.read h.where_.s)).1 lAND []).1
      ((newGroupH (m.conds.make (m.conds.read h.where_.s)).1 lAND []).1.read (m.conds.make (m.conds.read h.where_.s)).2)
      q.where_.group.conds := by
    rw [(rc.mono t1.le).2.2]
    exact RepL.mono (tc.le.trans t1.le) _ _ r.cond.conds
  have k := sim_addConditions hp.conds (t1.ext _ (by simp)) r1 rl lAND
  exact ⟨⟨tc.drop.trans (t1.trans k.tr), Tr.none _ _, Tr.none _ _, Tr.none _ _, Le.refl _⟩, rfl, rfl, k.rep⟩

theorem rep_on {h : HBase} {q q' : BaseSelect} (r : RepB m h q) (l x : FieldDef) (e : q.on l x = .ok q') :
    ∃ y, h.on m l x = .ok ({ m with joins := m.joins.write h.joins (h.joins.len - 1) y }, h) ∧
      RepB { m with joins := m.joins.write h.joins (h.joins.len - 1) y } h q' := by
  have hl := r.joins.length
  obtain ⟨hj, hcell, hread⟩ := r.joins
  unfold BaseSelect.on at e
  cases hr : q.joins.reverse with
  | nil => rw [hr] at e; cases e
  | cons j rest =>
    rw [hr] at e
    simp only [Res.ok.injEq] at e
    have hq : q.joins = rest.reverse ++ [j] := by
      have := congrArg List.reverse hr; simpa using this
    have hlen : h.joins.len = rest.length + 1 := by rw [← hl, hq]; simp
    have hget : (m.joins.read h.joins)[h.joins.len - 1]? = some j := by
      rw [hread, hq, hlen]; simp
    refine ⟨j.by' l x, ?_, ?_⟩
    · unfold HBase.on; rw [hget]
    · subst e
      refine ⟨r.op, r.tbl, ⟨by rw [length_write]; exact hj, by simp only; rw [cells_write_length _ _ _ _ _ hj]; exact hcell, ?_⟩, r.fields, r.cond⟩
      simp only [Store.read]
      rw [cells_write_self _ _ _ _ hj]
      have : List.take h.joins.len (m.joins.cells h.joins.arr) = q.joins := hread
      rw [List.take_set, this, hq, hlen]
      simp

end Query
