import Verif.Spec.Reading
import Verif.Proof.HeapRead
/-!
# The reading calls of builders
-/
namespace Query
open Store

theorem Tr.prefix {α : Type} {st st' : Store α} {P : List Sl} (t : Tr false st st' [] P) : st <+: st' := by
  rw [List.prefix_iff_eq_take]
  apply List.ext_getElem?
  intro i
  by_cases h : i < st.length
  · have e := t.frame i h (fun _ hs => by cases hs)
    have h' := Nat.lt_of_lt_of_le h t.le.size
    simp only [Store.cells, List.getElem?_eq_getElem h, List.getElem?_eq_getElem h', Option.getD_some] at e
    rw [List.getElem?_take_of_lt h, List.getElem?_eq_getElem h, List.getElem?_eq_getElem h', e]
  · rw [List.getElem?_eq_none (by omega), List.getElem?_eq_none (by simp; omega)]

theorem le_prefix {α : Type} {st st' : Store α} (h : st <+: st') : Le st st' := by
  obtain ⟨t, rfl⟩ := h
  refine ⟨by simp, fun a => ?_⟩
  by_cases ha : a < st.length
  · simp [Store.cells, List.getElem?_append_left ha]
  · rw [cells_of_ge st a (by omega)]; exact List.nil_prefix

theorem Kept.refl (m : RMem) : Kept m m := ⟨List.prefix_refl _, List.prefix_refl _, List.prefix_refl _, List.prefix_refl _,
  List.prefix_refl _, List.prefix_refl _⟩

theorem Kept.trans {a b c : RMem} (h : Kept a b) (k : Kept b c) : Kept a c :=
  ⟨h.conds.trans k.conds, h.joins.trans k.joins, h.sorts.trans k.sorts, h.vals.trans k.vals, h.defs.trans k.defs,
    h.par.trans k.par⟩

theorem RepV.kept {m m' : RMem} {h : HV} {p : PV} (r : RepV m.mem h p) (k : Kept m m') : RepV m'.mem h p :=
  r.mono (le_prefix k.conds) (le_prefix k.joins) (le_prefix k.defs) (le_prefix k.sorts) (le_prefix k.vals)

theorem RepOut.kept {m m' : RMem} {o : HOut} {p : POut} (r : RepOut m o p) (k : Kept m m') : RepOut m' o p := by
  cases o <;> cases p <;> simp only [RepOut] at r ⊢
  · exact ⟨r.1, r.2.mono (le_prefix k.par)⟩
  · exact r
  · exact r.mono (le_prefix k.par)
  · exact ⟨Nat.lt_of_lt_of_le r.1 (le_prefix k.conds).size, Nat.le_trans r.2.1 ((le_prefix k.conds).pre _).length_le, by
      rw [read_le (le_prefix k.conds) _ r.2.1]; exact RepL.mono (le_prefix k.conds) _ _ r.2.2⟩
  · exact r.mono (le_prefix k.defs)

/-- The arrays of builders are kept. -/
structure KeptM (m m' : Mem) : Prop where
  conds : m.conds <+: m'.conds
  joins : m'.joins = m.joins
  sorts : m'.sorts = m.sorts
  vals : m'.vals = m.vals
  defs : m.defs <+: m'.defs

theorem KeptM.refl (m : Mem) : KeptM m m := ⟨List.prefix_refl _, rfl, rfl, rfl, List.prefix_refl _⟩

theorem KeptM.of_eq {m m' : Mem} (h : m' = m) : KeptM m m' := by rw [h]; exact .refl m

theorem KeptM.trans {a b c : Mem} (h : KeptM a b) (k : KeptM b c) : KeptM a c :=
  ⟨h.conds.trans k.conds, k.joins.trans h.joins, k.sorts.trans h.sorts, k.vals.trans h.vals, h.defs.trans k.defs⟩

theorem KeptM.kept {m m' : RMem} {P : List Sl} (k : KeptM m.mem m'.mem) (t : Tr false m.par m'.par [] P) : Kept m m' :=
  ⟨k.conds, by rw [k.joins]; exact List.prefix_refl _, by rw [k.sorts]; exact List.prefix_refl _,
    by rw [k.vals]; exact List.prefix_refl _, k.defs, t.prefix⟩

/-- What building does. -/
def QB (m : RMem) (a : RMem × Str × Sl) (r : Str × List Val) : Prop :=
  KeptM m.mem a.1.mem ∧ Tr false m.par a.1.par [] [a.2.2] ∧ a.2.1 = r.1 ∧ RepS a.1.par a.2.2 r.2

variable {q : HBase} {Q : BaseSelect}

theorem conditionsR_spec (m : RMem) (q : HBase) :
    KeptM m.mem (q.conditionsR m).1.mem ∧ (q.conditionsR m).1.par = m.par ∧
      RepS (q.conditionsR m).1.mem.conds (q.conditionsR m).2 (m.mem.conds.read q.where_.s) ∧
      m.mem.conds.length ≤ (q.conditionsR m).2.arr := by
  refine ⟨⟨?_, rfl, rfl, rfl, List.prefix_refl _⟩, rfl, ?_, ?_⟩
  · exact List.prefix_append _ _
  · exact rep_make _ _
  · exact Nat.le_refl _

theorem conditionsR_len (m : RMem) {q : HBase} (r : RepB m.mem q Q) : (q.conditionsR m).2.len = Q.where_.conditions.length := by
  have h := (conditionsR_spec m q).2.2.1.length
  rw [← h, r.cond.conds.length]; rfl

theorem headTokensR_eq (m : RMem) (r : RepB m.mem q Q) : q.headTokensR m = Q.headTokens := by
  simp only [HBase.headTokensR, BaseSelect.headTokens]
  rw [r.fields.2.2, r.joins.2.2, r.tbl]

theorem renderFromR_eq (m : RMem) (r : RepB m.mem q Q) : q.renderFromR m = Q.renderFrom := by
  simp only [HBase.renderFromR, BaseSelect.renderFrom]
  rw [r.joins.2.2, r.tbl]

theorem RepB.keptM {m m' : Mem} (r : RepB m q Q) (k : KeptM m m') : RepB m' q Q :=
  r.mono (le_prefix k.conds) (by rw [k.joins]; exact Le.refl _) (le_prefix k.defs)

/-- Rendering the conditions and appending their values to parameters so far. -/
theorem sim_where (gr : Grow) (d : Nat) (m : RMem) (g : HGroup) (G : Group) (n : Nat) (r : RepG m.mem.conds g G)
    (hd : G.toCond.depth ≤ d) (p : Sl) (ps : List Val) (he : Ext false m.par p) (hp : RepS m.par p ps) (f : Str → Str) :
    SimR ((renderR gr d m g.toCond n).bind fun w => (valuesR gr d w.1 g.toCond).bind fun v =>
        .ok (({ v.1 with par := (v.1.par.append gr p (v.1.par.read v.2)).1 } : RMem), f w.2,
          (v.1.par.append gr p (v.1.par.read v.2)).2))
      ((G.render n).bind fun w => G.values.bind fun vs => .ok (f w, ps ++ vs))
      fun a b => a.1.mem = m.mem ∧ Tr false m.par a.1.par [p] [a.2.2] ∧ a.2.1 = b.1 ∧ RepS a.1.par a.2.2 b.2 := by
  refine SimR.bind (sim_renderR gr d m g.toCond G.toCond n r hd) fun w s hw => ?_
  obtain ⟨w1, w2, rfl⟩ := hw
  refine SimR.bind (sim_valuesR gr d w.1 g.toCond G.toCond (by rw [w1]; exact r) hd) fun v vs hv => ?_
  obtain ⟨v1, v2, v3⟩ := hv
  have k1 := (w2.trans v2).keep he
  have he' := ext_last k1
  have k2 := tr_append gr (growOK_false gr) v.1.par p (v.1.par.read v.2) he'
  have r2 := rep_append gr v.1.par p (v.1.par.read v.2) ps he'.arr (hp.mono k1.le)
  refine .ok ⟨v1.trans w1, k1.trans k2, rfl, ?_⟩
  rw [v3.2.2] at r2 ⊢
  exact r2

theorem sim_buildR (gr : Grow) (d : Nat) (m : RMem) (r : RepB m.mem q Q) (hd : Q.where_.group.toCond.depth ≤ d) :
    SimR (q.buildR gr d m) Q.build (QB m) := by
  have t0 := tr_make (tight := false) m.par ([] : List Val)
  have r0 := rep_make m.par ([] : List Val)
  obtain ⟨c1, c2, c3, _⟩ := conditionsR_spec { m with par := (m.par.make []).1 } q
  have cl := conditionsR_len { m with par := (m.par.make []).1 } r
  simp only [HBase.buildR, BaseSelect.build, cl]
  rw [headTokensR_eq { m with par := (m.par.make []).1 } r]
  by_cases h0 : Q.where_.conditions.length > 0
  · simp only [h0, if_true]
    have rc := (r.keptM c1).cond
    have := sim_where gr d _ q.where_ Q.where_.group 0 rc hd (m.par.make []).2 []
      (by rw [c2]; exact ext_last t0) (by rw [c2]; exact r0) (fun w => joinWith c!" " (Q.headTokens ++ [kwWhere, w]))
    refine this.imp fun a b ⟨q1, q2, q3, q4⟩ => ⟨c1.trans (.of_eq q1), ?_, q3, q4⟩
    rw [c2] at q2
    exact t0.trans q2
  · simp only [h0, if_false]
    exact .ok ⟨c1, by rw [c2]; exact t0, rfl, by rw [c2]; exact r0⟩

theorem sim_single (gr : Grow) (d : Nat) (m : RMem) (r : RepB m.mem q Q) (hd : Q.where_.group.toCond.depth ≤ d) :
    SimR (buildSingleR gr d m q) (SelectSingle.build ⟨Q⟩) (QB m) := by
  simp only [buildSingleR, SelectSingle.build]
  refine SimR.bind (sim_buildR gr d m r hd) fun a b ⟨q1, q2, q3, q4⟩ => ?_
  exact .ok ⟨q1, q2, by rw [q3], q4⟩

theorem sim_many (gr : Grow) (d : Nat) (m : RMem) {q : HMany} {Q : SelectMany} (r : RepM m.mem q Q)
    (hd : Q.base.where_.group.toCond.depth ≤ d) : SimR (buildManyR gr d m q) Q.build (QB m) := by
  simp only [buildManyR, SelectMany.build]
  refine SimR.bind (sim_buildR gr d m r.base hd) fun a b ⟨q1, q2, q3, q4⟩ => ?_
  have ro : a.1.mem.sorts.read q.order = Q.order := by rw [q1.sorts]; exact r.order.2.2
  have lo : q.order.len = Q.order.length := r.order.length.symm
  rw [ro, lo, r.offset, r.limit, q3]
  have step : ∀ (st : Store Val) (s : Sl) (vs : List Val) (c : Prop) [Decidable c] (x : Val),
      Tr false m.par st [] [s] → RepS st s vs →
      Tr false m.par (if c then st.append gr s [x] else (st, s)).1 [] [(if c then st.append gr s [x] else (st, s)).2] ∧
        RepS (if c then st.append gr s [x] else (st, s)).1 (if c then st.append gr s [x] else (st, s)).2
          (if c then vs ++ [x] else vs) := by
    intro st s vs c _ x t rs
    by_cases hc : c
    · simp only [hc, if_true]
      exact ⟨t.trans (tr_append gr (growOK_false gr) st s [x] (ext_last t)), rep_append gr st s [x] vs (ext_last t).arr rs⟩
    · simp only [hc, if_false]; exact ⟨t, rs⟩
  obtain ⟨t1, s1⟩ := step a.1.par a.2.2 b.2 (Q.offset > 0) (.uint Q.offset) q2 q4
  obtain ⟨t2, s2⟩ := step _ _ _ (Q.limit > 0) (.uint Q.limit.toNat) t1 s1
  refine .ok ⟨q1, t2, ?_, s2⟩
  simp only []
  rw [← s1.length, ← s2.length]

theorem sim_count (gr : Grow) (d : Nat) (m : RMem) (fd : FieldDef) (r : RepB m.mem q Q) (hd : Q.where_.group.toCond.depth ≤ d) :
    SimR (buildCountR gr d m q fd) (CountB.build ⟨Q, fd⟩) (QB m) := by
  obtain ⟨c1, c2, c3, _⟩ := conditionsR_spec m q
  simp only [buildCountR, CountB.build, conditionsR_len m r, renderFromR_eq m r]
  by_cases h0 : Q.where_.conditions.length > 0
  · simp only [h0, if_true]
    have rc := (r.keptM c1).cond
    refine SimR.bind (sim_renderR gr d _ q.where_.toCond Q.where_.group.toCond 0 rc hd) fun w s hw => ?_
    obtain ⟨w1, w2, rfl⟩ := hw
    refine SimR.bind (sim_valuesR gr d w.1 q.where_.toCond Q.where_.group.toCond (by rw [w1]; exact rc) hd) fun v vs hv => ?_
    obtain ⟨v1, v2, v3⟩ := hv
    rw [c2] at w2
    exact .ok ⟨c1.trans (.of_eq (v1.trans w1)), w2.trans v2, rfl, v3⟩
  · simp only [h0, if_false]
    exact .ok ⟨c1, by rw [c2]; exact tr_make _ _, rfl, by rw [c2]; exact rep_make _ _⟩

theorem sim_loopInsert (gr : Grow) : ∀ (fvs : List FieldValue) (m : RMem) (p : Sl) (ps : List Val) (cols phs : List Str),
    Ext false m.par p → RepS m.par p ps →
    SimR (loopInsert gr fvs m p cols phs) (InsertB.loop fvs ps cols phs) fun a b =>
      a.1.mem = m.mem ∧ Tr false m.par a.1.par [p] [a.2.1] ∧ RepS a.1.par a.2.1 b.1 ∧ a.2.2 = b.2
  | [], m, p, ps, cols, phs, he, hp => by
    simp only [loopInsert, InsertB.loop]
    exact .ok ⟨rfl, Tr.same (fun s hs => by rw [List.mem_singleton.1 hs]; exact he), hp, rfl⟩
  | fv :: rest, m, p, ps, cols, phs, he, hp => by
    simp only [loopInsert, InsertB.loop]
    cases hv : fv.values with
    | err e => rfl
    | panic x => rfl
    | ok vs =>
      simp only [Res.bind_ok]
      have t1 := (tr_make (tight := false) m.par vs).keep he
      have r1 := rep_make m.par vs
      rw [r1.2.2]
      have t2 := tr_append gr (growOK_false gr) _ p vs (ext_last t1)
      have r2 := rep_append gr _ p vs ps (ext_last t1).arr (hp.mono t1.le)
      rw [← r2.length]
      refine (sim_loopInsert gr rest _ _ _ _ _ (ext_last t2) r2).imp fun a b ⟨q1, q2, q3, q4⟩ => ?_
      exact ⟨q1, (t1.trans t2).trans q2, q3, q4⟩

theorem sim_insert (gr : Grow) (m : RMem) {q : HInsert} {Q : InsertB} (ht : q.tableName = Q.tableName)
    (hv : RepS m.mem.vals q.setValues Q.setValues) : SimR (buildInsertR gr m q) Q.build (QB m) := by
  simp only [buildInsertR, InsertB.build, ← hv.length, ht, hv.2.2]
  by_cases h0 : Q.setValues.length = 0
  · simp only [h0, if_true]; rfl
  · simp only [h0, if_false]
    by_cases h1 : Q.tableName.length = 0
    · simp only [h1, if_true]; rfl
    · simp only [h1, if_false]
      have t0 := tr_make (tight := false) m.par ([] : List Val)
      refine SimR.bind (sim_loopInsert gr _ _ _ [] [] [] (ext_last t0) (rep_make m.par [])) fun a b ⟨q1, q2, q3, q4⟩ => ?_
      exact .ok ⟨.of_eq q1, t0.trans q2, by rw [q4], q3⟩

theorem sim_update (gr : Grow) (d : Nat) (m : RMem) {q : HUpdate} {Q : UpdateB} (ht : q.tableName = Q.tableName)
    (hw : RepG m.mem.conds q.where_ Q.where_) (hv : RepS m.mem.vals q.setValues Q.setValues)
    (hd : Q.where_.toCond.depth ≤ d) : SimR (buildUpdateR gr d m q) Q.build (QB m) := by
  simp only [buildUpdateR, UpdateB.build, UpdateB.fieldsAndValues, hw.len, ← hv.length, ht, hv.2.2]
  by_cases h0 : Q.where_.conds.length = 0
  · simp only [h0, if_true]; rfl
  · simp only [h0, if_false]
    by_cases h1 : Q.setValues.length = 0
    · simp only [h1, if_true]; rfl
    · simp only [h1, if_false]
      by_cases h2 : Q.tableName.length = 0
      · simp only [h2, if_true]; rfl
      · simp only [h2, if_false]
        cases hl : UpdateB.loop Q.setValues 0 with
        | err e => rfl
        | panic x => rfl
        | ok x =>
          simp only [Res.bind_ok]
          have t0 := tr_make (tight := false) m.par x.2
          have r0 := rep_make m.par x.2
          rw [← r0.length]
          refine (sim_where gr d { m with par := (m.par.make x.2).1 } q.where_ Q.where_ x.2.length hw hd _ x.2 (ext_last t0) r0
            (fun w => joinWith c!" " [kwUpdate, Q.tableName, kwSet, joinWith c!", " x.1, kwWhere, w])).imp
            fun a b ⟨q1, q2, q3, q4⟩ => ?_
          exact ⟨.of_eq q1, t0.trans q2, q3, q4⟩

theorem sim_delete (gr : Grow) (d : Nat) (m : RMem) {q : HDelete} {Q : DeleteB} (ht : q.tableName = Q.tableName)
    (hw : RepG m.mem.conds q.where_ Q.where_) (hd : Q.where_.toCond.depth ≤ d) :
    SimR (buildDeleteR gr d m q) Q.build (QB m) := by
  simp only [buildDeleteR, DeleteB.build, hw.len, ht]
  by_cases h0 : Q.where_.conds.length = 0
  · simp only [h0, if_true]; rfl
  · simp only [h0, if_false]
    by_cases h2 : Q.tableName.length = 0
    · simp only [h2, if_true]; rfl
    · simp only [h2, if_false]
      have t0 := tr_make (tight := false) m.par ([] : List Val)
      have r0 := rep_make m.par ([] : List Val)
      refine (sim_where gr d { m with par := (m.par.make []).1 } q.where_ Q.where_ 0 hw hd _ [] (ext_last t0) r0
        (fun w => joinWith c!" " [kwDelete, kwFrom, Q.tableName, kwWhere, w])).imp
        fun a b ⟨q1, q2, q3, q4⟩ => ?_
      exact ⟨.of_eq q1, t0.trans q2, q3, q4⟩

theorem sim_baseSQL (d : Nat) (m : RMem) (r : RepB m.mem q Q) (hd : Q.where_.group.toCond.depth ≤ d) :
    SimR (q.renderSQLR d m) Q.renderSQL fun a b => KeptM m.mem a.1.mem ∧ Tr false m.par a.1.par [] [] ∧ a.2 = b := by
  obtain ⟨c1, c2, c3, _⟩ := conditionsR_spec m q
  simp only [HBase.renderSQLR, BaseSelect.renderSQL, conditionsR_len m r, headTokensR_eq m r]
  by_cases h0 : Q.where_.conditions.length > 0
  · simp only [h0, if_true]
    refine SimR.bind (sim_renderSQLR d _ q.where_.toCond Q.where_.group.toCond (r.keptM c1).cond hd) fun w s hw => ?_
    obtain ⟨w1, w2, rfl⟩ := hw
    rw [c2] at w2
    exact .ok ⟨c1.trans (.of_eq w1), w2, rfl⟩
  · simp only [h0, if_false]
    exact .ok ⟨c1, by rw [c2]; exact Tr.none _ _, rfl⟩

theorem sim_baseRender (gr : Grow) (d : Nat) (m : RMem) (n : Nat) (r : RepB m.mem q Q) (hd : Q.where_.group.toCond.depth ≤ d) :
    SimR (q.renderR gr d m n) (Q.render n) fun a b => KeptM m.mem a.1.mem ∧ Tr false m.par a.1.par [] [] ∧ a.2 = b := by
  obtain ⟨c1, c2, c3, _⟩ := conditionsR_spec m q
  simp only [HBase.renderR, BaseSelect.render, conditionsR_len m r, headTokensR_eq m r]
  by_cases h0 : Q.where_.conditions.length > 0
  · simp only [h0, if_true]
    refine SimR.bind (sim_renderR gr d _ q.where_.toCond Q.where_.group.toCond n (r.keptM c1).cond hd) fun w s hw => ?_
    obtain ⟨w1, w2, rfl⟩ := hw
    rw [c2] at w2
    exact .ok ⟨c1.trans (.of_eq w1), w2, rfl⟩
  · simp only [h0, if_false]
    exact .ok ⟨c1, by rw [c2]; exact Tr.none _ _, rfl⟩

theorem sim_baseValues (gr : Grow) (d : Nat) (m : RMem) (r : RepB m.mem q Q) (hd : Q.where_.group.toCond.depth ≤ d) :
    SimR (q.valuesR gr d m) Q.values fun a b =>
      KeptM m.mem a.1.mem ∧ Tr false m.par a.1.par [] [a.2] ∧ RepS a.1.par a.2 b := by
  have t0 := tr_make (tight := false) m.par ([] : List Val)
  have r0 := rep_make m.par ([] : List Val)
  obtain ⟨c1, c2, c3, _⟩ := conditionsR_spec { m with par := (m.par.make []).1 } q
  have cl := conditionsR_len { m with par := (m.par.make []).1 } r
  simp only [HBase.valuesR, BaseSelect.values, cl]
  by_cases h0 : Q.where_.conditions.length > 0
  · simp only [h0, if_true]
    have hv := sim_valuesR gr d _ q.where_.toCond Q.where_.group.toCond (r.keptM c1).cond hd
    have e : Q.where_.values = Q.where_.group.toCond.values := rfl
    rw [e]
    cases hp : Q.where_.group.toCond.values with
    | err e => rw [hp] at hv; rw [show valuesR gr d _ _ = _ from hv]; rfl
    | panic e => rw [hp] at hv; rw [show valuesR gr d _ _ = _ from hv]; rfl
    | ok vs =>
      rw [hp] at hv
      obtain ⟨v, ev, v1, v2, v3⟩ := hv
      rw [ev]
      rw [c2] at v2
      have k1 := v2.keep (ext_last t0)
      have k2 := tr_append gr (growOK_false gr) v.1.par (m.par.make []).2 (v.1.par.read v.2) (ext_last k1)
      have r2 := rep_append gr v.1.par (m.par.make []).2 (v.1.par.read v.2) [] (ext_last k1).arr (r0.mono k1.le)
      rw [v3.2.2] at k2 r2
      simp only [Res.bind_ok, v3.2.2]
      exact .ok ⟨c1.trans (.of_eq v1), (t0.trans k1).trans k2, by simpa using r2⟩
  · simp only [h0, if_false]
    exact .ok ⟨c1, by rw [c2]; exact t0, by rw [c2]; exact r0⟩

/-- What a reading call does. -/
def QL (m : RMem) (a : RMem × HOut) (b : POut) : Prop := Kept m a.1 ∧ RepOut a.1 a.2 b ∧ NewOut m a.2

theorem tr_new {α : Type} {st st' : Store α} {s : Sl} (t : Tr false st st' [] [s]) : st.length ≤ s.arr := by
  rcases t.src s (by simp) with ⟨_, h, _⟩ | h
  · cases h
  · exact h

theorem sim_ofQuery {m : RMem} {r : Res (RMem × Str × Sl)} {p : Res (Str × List Val)} (h : SimR r p (QB m)) :
    SimR (HOut.ofQuery r) (POut.ofQuery p) (QL m) :=
  SimR.bind h fun _ _ ⟨q1, q2, q3, q4⟩ => .ok ⟨q1.kept q2, ⟨q3, q4⟩, tr_new q2⟩

theorem sim_ofText {m : RMem} {r : Res (RMem × Str)} {p : Res Str}
    (h : SimR r p fun a b => KeptM m.mem a.1.mem ∧ Tr false m.par a.1.par [] [] ∧ a.2 = b) :
    SimR (HOut.ofText r) (POut.ofText p) (QL m) :=
  SimR.bind h fun _ _ ⟨q1, q2, q3⟩ => .ok ⟨q1.kept q2, q3, trivial⟩

theorem sim_ofVals {m : RMem} {r : Res (RMem × Sl)} {p : Res (List Val)}
    (h : SimR r p fun a b => KeptM m.mem a.1.mem ∧ Tr false m.par a.1.par [] [a.2] ∧ RepS a.1.par a.2 b) :
    SimR (HOut.ofVals r) (POut.ofVals p) (QL m) :=
  SimR.bind h fun _ _ ⟨q1, q2, q3⟩ => .ok ⟨q1.kept q2, q3, tr_new q2⟩

theorem sim_baseLook (gr : Grow) (d : Nat) (m : RMem) (r : RepB m.mem q Q) (hd : Q.where_.group.toCond.depth ≤ d)
    (b : Res (RMem × Str × Sl)) (b' : Res (Str × List Val)) (hb : SimR b b' (QB m)) (l : Look) :
    SimR (q.look gr d m b l) (Q.look b' l) (QL m) := by
  cases l with
  | build => exact sim_ofQuery hb
  | render n => exact sim_ofText (sim_baseRender gr d m n r hd)
  | renderSQL => exact sim_ofText (sim_baseSQL d m r hd)
  | values => exact sim_ofVals (sim_baseValues gr d m r hd)
  | conditions =>
    obtain ⟨c1, c2, c3, c4⟩ := conditionsR_spec m q
    refine .ok ⟨c1.kept (P := []) (by rw [c2]; exact Tr.none _ _), ⟨c3.1, c3.2.1, ?_⟩, c4⟩
    rw [c3.2.2]
    exact (r.keptM c1).cond.conds |> fun h => by
      have e := read_le (le_prefix c1.conds) q.where_.s (rep_group_iff.1 r.cond).2.2.2.1
      rw [e] at h; exact h
  | fieldDefinitions =>
    refine .ok ⟨⟨List.prefix_refl _, List.prefix_refl _, List.prefix_refl _, List.prefix_refl _, List.prefix_append _ _,
      List.prefix_refl _⟩, ?_, Nat.le_refl _⟩
    have h := rep_make m.mem.defs (m.mem.defs.read q.fields)
    rw [r.fields.2.2] at h
    simp only [HBase.fieldDefinitionsR, RepOut]
    rw [r.fields.2.2]
    exact h

/-- Every reading call gives the plain result and keeps every array. -/
theorem sim_look (gr : Grow) (d : Nat) (m : RMem) (h : HV) (p : PV) (r : RepV m.mem h p) (hd : p.depth ≤ d) (l : Look) :
    SimR (h.look gr d m l) (p.look l) (QL m) := by
  have no : SimR (noMethod : Res (RMem × HOut)) (noMethod : Res POut) (QL m) := rfl
  cases h <;> cases p <;> simp only [RepV] at r
  · cases l with
    | render n => exact sim_ofText ((sim_renderR gr d m _ _ n r hd).imp fun _ _ ⟨a, b, c⟩ => ⟨.of_eq a, b, c⟩)
    | renderSQL => exact sim_ofText ((sim_renderSQLR d m _ _ r hd).imp fun _ _ ⟨a, b, c⟩ => ⟨.of_eq a, b, c⟩)
    | values => exact sim_ofVals ((sim_valuesR gr d m _ _ r hd).imp fun _ _ ⟨a, b, c⟩ => ⟨.of_eq a, b, c⟩)
    | _ => exact no
  · exact sim_baseLook gr d m r hd _ _ (sim_buildR gr d m r hd) l
  · exact sim_baseLook gr d m r hd _ _ (sim_single gr d m r hd) l
  · exact sim_baseLook gr d m r.base hd _ _ (sim_many gr d m r hd) l
  · obtain ⟨r, rfl⟩ := r
    cases l with
    | build => exact sim_ofQuery (sim_count gr d m _ r hd)
    | _ => exact no
  · cases l with
    | build => exact sim_ofQuery (sim_insert gr m r.2.1 r.2.2)
    | _ => exact no
  · cases l with
    | build => exact sim_ofQuery (sim_update gr d m r.2.1 r.2.2.1 r.2.2.2 hd)
    | _ => exact no
  · cases l with
    | build => exact sim_ofQuery (sim_delete gr d m r.2.1 r.2.2 hd)
    | _ => exact no
  · cases l <;> exact no
  · cases l <;> exact no
  · cases l <;> exact no

/-- A value in memory can be read as the plain value. -/
def Serves (m : Mem) (d : Nat) (h : HV) (p : PV) : Prop :=
  (RepV m h p ∧ p.depth ≤ d) ∨ (h.isJoiner = true ∧ p.isJoiner = true)

theorem look_joiner (gr : Grow) (d : Nat) (m : RMem) (h : HV) (p : PV) (hh : h.isJoiner = true) (hp : p.isJoiner = true)
    (l : Look) : h.look gr d m l = noMethod ∧ p.look l = noMethod := by
  cases h <;> simp [HV.isJoiner] at hh <;> cases p <;> simp [PV.isJoiner] at hp <;> cases l <;> exact ⟨rfl, rfl⟩

theorem RepOuts.kept {m m' : RMem} (k : Kept m m') : ∀ {as : List (Res HOut)} {bs : List (Res POut)}, RepOuts m as bs → RepOuts m' as bs
  | [], [], _ => trivial
  | [], _ :: _, r => by simp [RepOuts] at r
  | _ :: _, [], r => by simp [RepOuts] at r
  | a :: as, b :: bs, r => by
    simp only [RepOuts] at r ⊢
    refine ⟨?_, r.2.kept k⟩
    have h := r.1
    cases a <;> cases b <;> simp only [RepRes] at h ⊢
    · exact h.kept k
    · exact h
    · exact h

theorem sim_lookAll (gr : Grow) (d : Nat) (hs : List HV) (ps : List PV) : ∀ (ls : List (Nat × Look)) (m : RMem),
    hs.length = ps.length →
    (∀ rl ∈ ls, ∀ (h : HV) (p : PV), hs[rl.1]? = some h → ps[rl.1]? = some p → Serves m.mem d h p) →
      Kept m (lookAll gr d hs m ls).1 ∧ RepOuts (lookAll gr d hs m ls).1 (lookAll gr d hs m ls).2 (lookAllPure ps ls)
  | [], m, _, _ => ⟨Kept.refl m, trivial⟩
  | (r, l) :: rest, m, hl, sv => by
    have sv' : ∀ rl ∈ rest, ∀ (h : HV) (p : PV), hs[rl.1]? = some h → ps[rl.1]? = some p → Serves m.mem d h p :=
      fun rl hrl => sv rl (by simp [hrl])
    simp only [lookAll, lookAllPure, List.map_cons]
    cases hh : hs[r]? with
    | none =>
      have hp : ps[r]? = none := by
        rw [List.getElem?_eq_none_iff] at hh ⊢; rw [← hl]; exact hh
      have ih := sim_lookAll gr d hs ps rest m hl sv'
      simp only [hp]
      exact ⟨ih.1, rfl, ih.2⟩
    | some h =>
      obtain ⟨p, hp⟩ : ∃ p, ps[r]? = some p := by
        have : r < ps.length := by rw [← hl]; exact (List.getElem?_eq_some_iff.1 hh).1
        exact ⟨_, List.getElem?_eq_getElem this⟩
      have sim : SimR (h.look gr d m l) (p.look l) (QL m) := by
        rcases sv (r, l) (by simp) h p hh hp with ⟨rv, hd⟩ | ⟨a, b⟩
        · exact sim_look gr d m h p rv hd l
        · obtain ⟨e1, e2⟩ := look_joiner gr d m h p a b l
          rw [e1, e2]; rfl
      simp only [hp]
      cases hr : p.look l with
      | ok b =>
        rw [hr] at sim
        obtain ⟨a, e, k, o, _⟩ := sim
        rw [e]
        have ih := sim_lookAll gr d hs ps rest a.1 hl
          (fun rl hrl h' p' a1 a2 => (sv' rl hrl h' p' a1 a2).imp (fun x => ⟨x.1.kept k, x.2⟩) id)
        exact ⟨k.trans ih.1, o.kept ih.1, ih.2⟩
      | err e =>
        rw [hr] at sim
        rw [show h.look gr d m l = .err e from sim]
        have ih := sim_lookAll gr d hs ps rest m hl sv'
        exact ⟨ih.1, rfl, ih.2⟩
      | panic e =>
        rw [hr] at sim
        rw [show h.look gr d m l = .panic e from sim]
        have ih := sim_lookAll gr d hs ps rest m hl sv'
        exact ⟨ih.1, rfl, ih.2⟩

end Query
