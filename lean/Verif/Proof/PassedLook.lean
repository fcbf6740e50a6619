import Verif.Proof.HeapOff
import Verif.Proof.HeapSame
/-!
# Reading does not look into the lists of the program
-/
namespace Query
open Store

/-- Outside of `U` the arrays of the first are those of the second. -/
def Agr {α : Type} (U : Nat → Prop) (st st' : Store α) : Prop := ∀ a, ¬ U a → a < st.length → st'[a]? = st[a]?

theorem Agr.read {α : Type} {U : Nat → Prop} {st st' : Store α} (k : Agr U st st') {s : Sl} (h : InB st s) (ho : ¬ U s.arr) :
    st'.read s = st.read s := by
  simp only [Store.read, Store.cells, k s.arr ho h.1]

theorem Agr.pre {α : Type} {U : Nat → Prop} {st st' st'' : Store α} (k : Agr U st st') (h : st' <+: st'') : Agr U st st'' := by
  intro a ha hl
  obtain ⟨t, rfl⟩ := h
  have e := k a ha hl
  rw [List.getElem?_eq_getElem hl] at e
  rw [List.getElem?_append_left (List.getElem?_eq_some_iff.1 e).1, e, List.getElem?_eq_getElem hl]

section
variable {U : Nat → Prop} {st st' : Store HCond}

theorem valuesP_agr (k : Agr U st st') (hs : StB st) (ho : StOff U st) : ∀ (d : Nat) (h : HCond), h.bnd st → h.off U →
    valuesP st' d h = valuesP st d h := by
  intro d
  induction d with
  | zero => intro h _ _; cases h <;> simp only [valuesP]
  | succ d ih =>
    intro h hb hu
    cases h with
    | leaf c => simp only [valuesP]
    | group b s br =>
      simp only [valuesP]
      rw [k.read hb hu]
      exact loopValuesP_congr fun c hc => ih c (read_mem_bnd hs hc) (ho.read s c hc)

theorem renderP_agr (k : Agr U st st') (hs : StB st) (ho : StOff U st) : ∀ (d : Nat) (h : HCond), h.bnd st → h.off U →
    renderP st' d h = renderP st d h := by
  intro d
  induction d with
  | zero => intro h _ _; funext n; cases h <;> simp only [renderP]
  | succ d ih =>
    intro h hb hu
    funext n
    cases h with
    | leaf c => simp only [renderP]
    | group b s br =>
      simp only [renderP]
      rw [k.read hb hu, loopRenderP_congr true n fun c hc =>
        ⟨ih c (read_mem_bnd hs hc) (ho.read s c hc), valuesP_agr k hs ho d c (read_mem_bnd hs hc) (ho.read s c hc)⟩]

theorem renderSQLP_agr (k : Agr U st st') (hs : StB st) (ho : StOff U st) : ∀ (d : Nat) (h : HCond), h.bnd st → h.off U →
    renderSQLP st' d h = renderSQLP st d h := by
  intro d
  induction d with
  | zero => intro h _ _; cases h <;> simp only [renderSQLP]
  | succ d ih =>
    intro h hb hu
    cases h with
    | leaf c => simp only [renderSQLP]
    | group b s br =>
      simp only [renderSQLP]
      rw [k.read hb hu, loopRenderSQLP_congr true fun c hc => ih c (read_mem_bnd hs hc) (ho.read s c hc)]

theorem fine_agr (k : Agr U st st') (hs : StB st) (ho : StOff U st) (d : Nat) {h : HCond} (hb : h.bnd st) (hu : h.off U) : Fine st' d h :=
  ⟨fun _ p => (valuesP_agr (k.pre p) hs ho d h hb hu).trans (valuesP_agr k hs ho d h hb hu).symm,
    fun _ p => (renderP_agr (k.pre p) hs ho d h hb hu).trans (renderP_agr k hs ho d h hb hu).symm,
    fun _ p => (renderSQLP_agr (k.pre p) hs ho d h hb hu).trans (renderSQLP_agr k hs ho d h hb hu).symm⟩

theorem whereP_agr (k : Agr U st st') (hs : StB st) (ho : StOff U st) (d : Nat) (g : HGroup) (hb : g.toCond.bnd st) (hu : g.toCond.off U)
    (n : Nat) (f : Str → Str) (ps : List Val) : whereP st' d g n f ps = whereP st d g n f ps := by
  simp only [whereP, renderP_agr k hs ho d _ hb hu, valuesP_agr k hs ho d _ hb hu]

end

/-- The memories agree outside of the lists. -/
structure AgrM (U : Lists) (m m' : Mem) : Prop where
  conds : Agr U.c m.conds m'.conds
  joins : m'.joins = m.joins
  defs : Agr U.d m.defs m'.defs
  sorts : Agr U.s m.sorts m'.sorts
  vals : Agr U.v m.vals m'.vals

/-- What a reading call gives does not depend on what the lists hold. -/
theorem lookP_agr {U : Lists} {m m' : Mem} (k : AgrM U m m') (d : Nat) (h : HV) (hs : StB m.conds) (ho : StOff U.c m.conds)
    (hb : h.bnd m) (hu : h.off U) (l : Look) : h.lookP d m' l = h.lookP d m l := by
  have base : ∀ q : HBase, BaseB m q → BaseO U q → q.headP m' = q.headP m ∧ q.renderFromP m' = q.renderFromP m ∧
      q.buildP d m' = q.buildP d m ∧ ∀ b l, q.lookP d m' b l = q.lookP d m b l := by
    intro q r u
    have e1 : q.headP m' = q.headP m := by simp only [HBase.headP]; rw [k.defs.read r.fields u.fields, k.joins]
    have e2 : q.renderFromP m' = q.renderFromP m := by simp only [HBase.renderFromP]; rw [k.joins]
    have hc : q.where_.toCond.bnd m.conds := r.cond
    have hu : q.where_.toCond.off U.c := u.cond
    refine ⟨e1, e2, ?_, fun b l => ?_⟩
    · simp only [HBase.buildP, whereP_agr k.conds hs ho d _ hc hu, k.conds.read r.cond u.cond, e1]
    · cases l <;> simp only [HBase.lookP, HBase.textP, HBase.sqlP, HBase.valsP, k.conds.read r.cond u.cond, k.defs.read r.fields u.fields, e1,
        renderP_agr k.conds hs ho d _ hc hu, renderSQLP_agr k.conds hs ho d _ hc hu, valuesP_agr k.conds hs ho d _ hc hu]
  cases h <;> simp only [HV.bnd] at hb <;> simp only [HV.off] at hu
  · cases l <;> simp only [HV.lookP, renderP_agr k.conds hs ho d _ hb hu, renderSQLP_agr k.conds hs ho d _ hb hu, valuesP_agr k.conds hs ho d _ hb hu]
  · obtain ⟨e1, e2, e3, e4⟩ := base _ hb hu
    simp only [HV.lookP, e3, e4]
  · obtain ⟨e1, e2, e3, e4⟩ := base _ hb hu
    simp only [HV.lookP, buildSingleP, e3, e4]
  · obtain ⟨e1, e2, e3, e4⟩ := base _ hb.1 hu.1
    simp only [HV.lookP, buildManyP, e3, e4, k.sorts.read hb.2 hu.2]
  · obtain ⟨e1, e2, e3, e4⟩ := base _ hb hu
    cases l <;> simp only [HV.lookP, buildCountP, e2, whereP_agr k.conds hs ho d _ (show (HGroup.toCond _).bnd _ from hb.cond) (show (HGroup.toCond _).off _ from hu.cond),
      k.conds.read hb.cond hu.cond]
  · cases l <;> simp only [HV.lookP, k.vals.read hb hu]
  · cases l <;> simp only [HV.lookP, buildUpdateP, k.vals.read hb.2 hu.2,
      whereP_agr k.conds hs ho d _ (show (HGroup.toCond _).bnd _ from hb.1) (show (HGroup.toCond _).off _ from hu.1)]
  · cases l <;> simp only [HV.lookP, buildDeleteP,
      whereP_agr k.conds hs ho d _ (show (HGroup.toCond _).bnd _ from hb) (show (HGroup.toCond _).off _ from hu)]
  · cases l <;> rfl
  · cases l <;> rfl
  · cases l <;> rfl

theorem fineV_agr {U : Lists} {m m' : Mem} (k : AgrM U m m') (d : Nat) {h : HV} (hs : StB m.conds) (ho : StOff U.c m.conds)
    (hb : h.bnd m) (hu : h.off U) : h.fine d m' := by
  have gr : ∀ g : HGroup, InB m.conds g.s → ¬ U.c g.s.arr → Fine m'.conds d g.toCond := fun g a b =>
    fine_agr k.conds hs ho d (h := g.toCond) a b
  cases h <;> simp only [HV.bnd] at hb <;> simp only [HV.off] at hu <;> simp only [HV.fine]
  · exact fine_agr k.conds hs ho d hb hu
  · exact gr _ hb.cond hu.cond
  · exact gr _ hb.cond hu.cond
  · exact gr _ hb.1.cond hu.1.cond
  · exact gr _ hb.cond hu.cond
  · have e := k.vals _ hu hb.1
    rw [List.getElem?_eq_getElem hb.1] at e
    refine ⟨(List.getElem?_eq_some_iff.1 e).1, ?_⟩
    have h2 := hb.2
    simp only [Store.cells, k.vals _ hu hb.1] at h2 ⊢
    exact h2
  · exact gr _ hb.1 hu.1
  · exact gr _ hb hu
  · exact gr _ hb.cond hu.cond
  · exact gr _ hb.cond hu.cond
  · exact gr _ hb.1.cond hu.1.cond

theorem look_agr (gr gr' : Grow) (d : Nat) {U : Lists} {m m' : RMem} (k : AgrM U m.mem m'.mem) (h : HV) (hs : StB m.mem.conds)
    (ho : StOff U.c m.mem.conds) (hb : h.bnd m.mem) (hu : h.off U) (l : Look) :
    contentNow (h.look gr' d m' l) = contentNow (h.look gr d m l) := by
  rw [(same_look gr d m h (fine_kept (Kept.refl m) d hs hb) l).contentNow, (same_look gr' d m' h (fineV_agr k d hs ho hb hu) l).contentNow]
  exact lookP_agr k d h hs ho hb hu l

end Query
