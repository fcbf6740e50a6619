import Verif.Proof.HeapFrame
import Verif.Proof.NoErr
import Verif.Proof.HeapSame
import Verif.Props.Select
/-!
# Reading a value whose lists may have been changed: errors and the frame of the text
-/
namespace Query
open Store

/-! ## Errors -/

theorem noErr_loopValues (gr : Grow) (f : RMem → HCond → Res (RMem × Sl)) (hf : ∀ m c, (f m c).NoErr) :
    ∀ (cs : List HCond) (m : RMem) (acc : Sl), (loopValues gr f cs m acc).NoErr
  | [], _, _ => noErr_ok _
  | c :: cs, m, acc => noErr_bind (hf m c) fun _ => noErr_loopValues gr f hf cs _ _

theorem noErr_valuesR (gr : Grow) : ∀ (d : Nat) (m : RMem) (c : HCond), (valuesR gr d m c).NoErr
  | 0, m, .leaf c => by simp only [valuesR]; exact noErr_bind (noErr_condValues c) fun _ => noErr_ok _
  | d + 1, m, .leaf c => by simp only [valuesR]; exact noErr_bind (noErr_condValues c) fun _ => noErr_ok _
  | 0, _, .group _ _ _ => by simp only [valuesR]; exact noErr_panic _
  | d + 1, m, .group _ s _ => by
    simp only [valuesR]; exact noErr_loopValues gr _ (fun m c => noErr_valuesR gr d m c) _ _ _

theorem noErr_loopRender (f : RMem → HCond → Nat → Res (RMem × Str)) (g : RMem → HCond → Res (RMem × Sl))
    (hf : ∀ m c n, (f m c n).NoErr) (hg : ∀ m c, (g m c).NoErr) :
    ∀ (cs : List HCond) (b : Bool) (n : Nat) (m : RMem), (loopRender f g cs b n m).NoErr
  | [], _, _, _ => noErr_ok _
  | c :: cs, b, n, m => noErr_bind (hf m c n) fun _ => noErr_bind (hg _ c) fun _ =>
    noErr_bind (noErr_loopRender f g hf hg cs _ _ _) fun _ => noErr_ok _

theorem noErr_renderR (gr : Grow) : ∀ (d : Nat) (m : RMem) (c : HCond) (n : Nat), (renderR gr d m c n).NoErr
  | 0, m, .leaf c, n => by simp only [renderR]; exact noErr_bind (noErr_render c n) fun _ => noErr_ok _
  | d + 1, m, .leaf c, n => by simp only [renderR]; exact noErr_bind (noErr_render c n) fun _ => noErr_ok _
  | 0, _, .group _ _ _, _ => by simp only [renderR]; exact noErr_panic _
  | d + 1, m, .group b s br, n => by
    simp only [renderR]
    split
    · exact noErr_ok _
    · exact noErr_bind (noErr_loopRender _ _ (fun m c n => noErr_renderR gr d m c n) (fun m c => noErr_valuesR gr d m c) _ _ _ _)
        fun _ => noErr_ok _

theorem noErr_loopInsert (gr : Grow) : ∀ (fvs : List FieldValue) (m : RMem) (p : Sl) (a b : List Str), (loopInsert gr fvs m p a b).NoErr
  | [], _, _, _, _ => noErr_ok _
  | fv :: fvs, _, _, _, _ => noErr_bind (noErr_values fv) fun _ => noErr_loopInsert gr fvs _ _ _ _

theorem noErr_buildR (gr : Grow) (d : Nat) (m : RMem) (q : HBase) : (q.buildR gr d m).NoErr := by
  unfold HBase.buildR
  dsimp only
  split
  · exact noErr_bind (noErr_renderR _ _ _ _ _) fun _ => noErr_bind (noErr_valuesR _ _ _ _) fun _ => noErr_ok _
  · exact noErr_ok _

theorem noErr_base (q : BaseSelect) : q.build.NoErr := by
  unfold BaseSelect.build
  split
  · exact noErr_bind (noErr_render _ _) fun _ => noErr_bind (noErr_condValues _) fun _ => noErr_ok _
  · exact noErr_ok _

theorem err_guard {α β : Type} {p p' : Prop} [Decidable p] [Decidable p'] {x : Res α} {y : Res β} {e a : GoErr} (h : p ↔ p')
    (k : x = .err e ↔ y = .err e) : (if p then .err a else x) = .err e ↔ (if p' then .err a else y) = .err e := by
  by_cases hp : p
  · rw [if_pos hp, if_pos (h.1 hp)]; simp
  · rw [if_neg hp, if_neg fun q => hp (h.2 q)]; exact k

theorem ofQuery_err {r : Res (RMem × Str × Sl)} {e : GoErr} : HOut.ofQuery r = .err e ↔ r = .err e := by
  cases r <;> simp [HOut.ofQuery, Res.bind]

theorem ofQueryP_err {r : Res (Str × List Val)} {e : GoErr} : POut.ofQuery r = .err e ↔ r = .err e := by
  cases r <;> simp [POut.ofQuery, Res.bind]

theorem NoErr.iff {α β : Type} {a : Res α} {b : Res β} (ha : a.NoErr) (hb : b.NoErr) (e : GoErr) : a = .err e ↔ b = .err e :=
  ⟨fun h => absurd h (ha e), fun h => absurd h (hb e)⟩

theorem like_err {m : Mem} {h : HV} {p : PV} (l : LikeV m h p) (gr : Grow) (d : Nat) (r : RMem) (e : GoErr) :
    h.look gr d r .build = .err e ↔ p.look .build = .err e := by
  cases h <;> cases p <;> first | exact l.elim | skip
  · exact NoErr.iff (noErr_panic _) (noErr_panic _) e
  · exact NoErr.iff (noErr_bind (noErr_buildR _ _ _ _) fun _ => noErr_ok _) (noErr_bind (noErr_base _) fun _ => noErr_ok _) e
  · refine NoErr.iff (noErr_bind (noErr_bind (noErr_buildR _ _ _ _) fun _ => noErr_ok _) fun _ => noErr_ok _)
      (noErr_bind (noErr_bind (noErr_base _) fun _ => noErr_ok _) fun _ => noErr_ok _) e
  · refine NoErr.iff (noErr_bind (noErr_bind (noErr_buildR _ _ _ _) fun _ => noErr_ok _) fun _ => noErr_ok _)
      (noErr_bind (noErr_bind (noErr_base _) fun _ => noErr_ok _) fun _ => noErr_ok _) e
  · rename_i q fd k
    refine NoErr.iff (noErr_bind ?_ fun _ => noErr_ok _) (noErr_bind ?_ fun _ => noErr_ok _) e
    · unfold buildCountR
      dsimp only
      split
      · exact noErr_bind (noErr_renderR _ _ _ _ _) fun _ => noErr_bind (noErr_valuesR _ _ _ _) fun _ => noErr_ok _
      · exact noErr_ok _
    · unfold CountB.build
      split
      · exact noErr_bind (noErr_render _ _) fun _ => noErr_bind (noErr_condValues _) fun _ => noErr_ok _
      · exact noErr_ok _
  · rename_i h q
    simp only [HV.look, PV.look, ofQuery_err, ofQueryP_err]
    refine err_guard (by rw [l.2.2]) (err_guard (by rw [l.2.1]) (NoErr.iff ?_ ?_ e))
    · exact noErr_bind (noErr_loopInsert _ _ _ _ _ _) fun _ => noErr_ok _
    · exact noErr_bind (noErr_insertLoop _ _ _ _) fun _ => noErr_ok _
  · rename_i h q
    simp only [HV.look, PV.look, ofQuery_err, ofQueryP_err]
    refine err_guard (by rw [l.2.2.1.2.2, List.length_eq_zero_iff]) (err_guard (by rw [l.2.2.2]) (err_guard (by rw [l.2.1])
      (NoErr.iff ?_ ?_ e)))
    · exact noErr_bind (noErr_updateLoop _ _) fun _ => noErr_bind (noErr_renderR _ _ _ _ _) fun _ =>
        noErr_bind (noErr_valuesR _ _ _ _) fun _ => noErr_ok _
    · exact noErr_bind (noErr_bind (noErr_updateLoop _ _) fun _ => noErr_ok _) fun _ => noErr_bind (noErr_render _ _) fun _ =>
        noErr_bind (noErr_condValues _) fun _ => noErr_ok _
  · rename_i h q
    simp only [HV.look, PV.look, ofQuery_err, ofQueryP_err]
    refine err_guard (by rw [l.2.2.2.2, List.length_eq_zero_iff]) (err_guard (by rw [l.2.1]) (NoErr.iff ?_ ?_ e))
    · exact noErr_bind (noErr_renderR _ _ _ _ _) fun _ => noErr_bind (noErr_valuesR _ _ _ _) fun _ => noErr_ok _
    · exact noErr_bind (noErr_render _ _) fun _ => noErr_bind (noErr_condValues _) fun _ => noErr_ok _
  all_goals exact NoErr.iff (noErr_panic _) (noErr_panic _) e

/-! ## Texts -/

theorem read_length {α : Type} {st : Store α} {s : Sl} (h : InB st s) : (st.read s).length = s.len := by
  simp only [Store.read, List.length_take]
  have := h.2
  omega

theorem like_head {m : Mem} {h : HBase} {q : BaseSelect} (b : BaseB m h) (l : LikeB m h q) (par : Store Val) :
    ∃ js : List Str, js.length = q.joins.length ∧
      h.headTokensR ⟨m, par⟩ = [c!"SELECT", q.fields.fieldList, c!"FROM", q.baseTable.renderFrom] ++ js ∧
      h.renderFromR ⟨m, par⟩ = joinWith c!" " (q.baseTable.renderFrom :: js) := by
  refine ⟨(m.joins.read h.joins).map TableJoiner.renderFrom, by simp [read_length b.joins, l.joins], ?_, ?_⟩
  · simp only [HBase.headTokensR, l.fields.2.2, l.tbl]; rfl
  · simp only [HBase.renderFromR, l.tbl]

theorem like_count {m : Mem} {h : HBase} {q : BaseSelect} (b : BaseB m h) (l : LikeB m h q) (par : Store Val) :
    (h.conditionsR ⟨m, par⟩).2.len > 0 ↔ q.where_.group.conds ≠ [] := by
  have : (h.conditionsR ⟨m, par⟩).2.len = h.where_.s.len := by
    simp only [HBase.conditionsR, HBase.conditions, Store.make, Store.alloc, read_length b.cond]
  rw [this, gt_iff_lt, Nat.pos_iff_ne_zero, ne_eq, l.cond.2.2]

theorem like_buildR {m : Mem} {h : HBase} {q : BaseSelect} (b : BaseB m h) (l : LikeB m h q) (gr : Grow) (d : Nat) (par : Store Val)
    (r : RMem × Str × Sl) (e : h.buildR gr d ⟨m, par⟩ = .ok r) : HeadText q q.fields.fieldList r.2.1 := by
  unfold HBase.buildR at e
  dsimp only at e
  obtain ⟨js, hl, ht, _⟩ := like_head b l (par.make []).1
  have hc := like_count b l (par.make []).1
  rw [ht] at e
  split at e
  · rename_i hp
    simp only [Res.bind_eq_ok] at e
    obtain ⟨w, _, v, _, e⟩ := e
    cases e
    refine ⟨js, w.2, hl, ?_⟩
    rw [whereTail, if_neg (hc.1 hp)]
    rfl
  · rename_i hp
    cases e
    refine ⟨js, [], hl, ?_⟩
    rw [whereTail, if_pos (by by_cases hn : q.where_.group.conds = []; exact hn; exact absurd (hc.2 hn) hp)]
    simp

theorem loopInsert_lengths (gr : Grow) : ∀ (fvs : List FieldValue) (m : RMem) (p : Sl) (a b : List Str)
    (x : RMem × Sl × List Str × List Str), loopInsert gr fvs m p a b = .ok x →
      x.2.2.1.length = a.length + fvs.length ∧ x.2.2.2.length = b.length + fvs.length
  | [], _, _, _, _, x, h => by cases h; simp
  | fv :: fvs, m, p, a, b, x, h => by
    simp only [loopInsert, Res.bind_eq_ok] at h
    obtain ⟨vs, _, h⟩ := h
    have := loopInsert_lengths gr fvs _ _ _ _ x h
    simp only [List.length_append, List.length_cons, List.length_nil] at this ⊢
    omega

theorem updateLoop_length : ∀ (fvs : List FieldValue) (i : Nat) (x : List Str × List Val), UpdateB.loop fvs i = .ok x →
    x.1.length = fvs.length
  | [], _, x, h => by cases h; rfl
  | fv :: fvs, i, x, h => by
    simp only [UpdateB.loop, Res.bind_eq_ok] at h
    obtain ⟨v, _, r, hr, h⟩ := h
    cases h
    simp [updateLoop_length fvs _ r hr]

theorem ofQuery_ok {r : Res (RMem × Str × Sl)} {m : RMem} {sql : Str} {ps : Sl} (h : HOut.ofQuery r = .ok (m, .query sql ps)) :
    r = .ok (m, sql, ps) := by
  simp only [HOut.ofQuery, Res.bind_eq_ok] at h
  obtain ⟨a, rfl, h⟩ := h
  cases h
  rfl

theorem manyText (s o : Str) (p p' q r : Prop) (a b : Str) [Decidable p] [Decidable p'] [Decidable q] [Decidable r] (h : p ↔ ¬ p') :
    (if r then (if q then (if p then s ++ c!" ORDER BY " ++ o else s) ++ c!" OFFSET $" ++ a
        else if p then s ++ c!" ORDER BY " ++ o else s) ++ c!" LIMIT $" ++ b
      else if q then (if p then s ++ c!" ORDER BY " ++ o else s) ++ c!" OFFSET $" ++ a
        else if p then s ++ c!" ORDER BY " ++ o else s) =
      s ++ (if p' then [] else c!" ORDER BY " ++ o) ++ (if q then c!" OFFSET $" ++ a else []) ++
        (if r then c!" LIMIT $" ++ b else []) := by
  by_cases hp : p' <;> by_cases hq : q <;> by_cases hr : r <;> simp [h, hp, hq, hr]

theorem joinWith_inner (xs : List Str) (t : Str) (ys zs : List Str) :
    joinWith c!" " (xs ++ [joinWith c!" " (t :: ys)] ++ zs) = joinWith c!" " (xs ++ [t] ++ ys ++ zs) := by
  have key : ∀ (t : Str) (zs : List Str), joinWith c!" " (joinWith c!" " (t :: ys) :: zs) = joinWith c!" " (t :: (ys ++ zs)) := by
    intro t zs
    have h1 := joinWith_spaced (joinWith c!" " (t :: ys)) [] zs
    rw [joinWith_spaced t ys zs]
    exact h1
  by_cases hx : xs = []
  · subst hx; simpa using key t zs
  · have h1 := joinWith_append_sep c!" " xs (joinWith c!" " (t :: ys) :: zs) hx (by simp)
    have h2 := joinWith_append_sep c!" " xs (t :: (ys ++ zs)) hx (by simp)
    simp only [List.append_assoc, List.cons_append, List.nil_append] at h1 h2 ⊢
    rw [h1, h2, key]

theorem like_text {m : Mem} {h : HV} {p : PV} (sb : StB m.conds) (b : h.bnd m) (l : LikeV m h p) (gr : Grow) (d : Nat) (par : Store Val) (m' : RMem)
    (sql : Str) (ps : Sl) (e : h.look gr d ⟨m, par⟩ .build = .ok (m', .query sql ps)) : Skeleton p sql := by
  cases h <;> cases p <;> first | exact l.elim | skip
  · cases e
  · exact like_buildR b l gr d par _ (ofQuery_ok e)
  · replace e := ofQuery_ok e
    simp only [buildSingleR, Res.bind_eq_ok] at e
    obtain ⟨a, ha, e⟩ := e
    cases e
    exact ⟨_, like_buildR b l gr d par _ ha, rfl⟩
  · rename_i h q
    replace e := ofQuery_ok e
    simp only [buildManyR, Res.bind_eq_ok] at e
    obtain ⟨a, ha, e⟩ := e
    have hm : a.1.mem.sorts = m.sorts := by
      have := same_buildR gr d ⟨m, par⟩ (fine_of_bnd sb d b.1.cond)
      rw [ha] at this
      unfold SimR at this
      split at this
      · obtain ⟨x, e1, hq⟩ := this
        cases e1
        exact hq.1.sorts
      · cases this
      · cases this
    cases e
    rw [hm, orderLoop_join, l.offset, l.limit, l.order]
    have ho : q.order.length > 0 ↔ ¬ q.order = [] := List.length_pos_iff
    exact ⟨_, (m.sorts.read h.order).map FieldSorting.render, _, _, like_buildR b.1 l.base gr d par _ ha,
      by simp [read_length b.2, l.order], manyText _ _ _ _ _ _ _ _ ho⟩
  · rename_i h fd q
    replace e := ofQuery_ok e
    unfold buildCountR at e
    dsimp only at e
    obtain ⟨js, hl, _, ht⟩ := like_head b l.1 par
    have hc := like_count b l.1 par
    rw [ht, l.2] at e
    split at e
    · rename_i hp
      simp only [Res.bind_eq_ok] at e
      obtain ⟨w, _, v, _, e⟩ := e
      cases e
      refine ⟨js, w.2, hl, ?_⟩
      rw [whereTail, if_neg (hc.1 hp)]
      exact joinWith_inner [_, _, _] _ _ [_, _]
    · rename_i hp
      cases e
      refine ⟨js, [], hl, ?_⟩
      rw [whereTail, if_pos (by by_cases hn : q.base.where_.group.conds = []; exact hn; exact absurd (hc.2 hn) hp)]
      exact joinWith_inner [_, _, _] _ _ []
  · rename_i h q
    replace e := ofQuery_ok e
    unfold buildInsertR at e
    split at e
    · cases e
    · rename_i h0
      split at e
      · cases e
      · simp only [Res.bind_eq_ok] at e
        obtain ⟨a, ha, e⟩ := e
        have := loopInsert_lengths _ _ _ _ _ _ _ ha
        simp only [read_length b, l.2.2, List.length_nil, Nat.zero_add] at this
        cases e
        refine ⟨a.2.2.1, a.2.2.2, this.1, this.2, fun hn => h0 (by rw [l.2.2, hn]; rfl), ?_⟩
        rw [l.2.1]
        simp [joinWith, kwInsert, kwInto, kwValues]
  · rename_i h q
    replace e := ofQuery_ok e
    unfold buildUpdateR at e
    split at e
    · cases e
    · rename_i h0
      split at e
      · cases e
      · rename_i h1
        split at e
        · cases e
        · simp only [Res.bind_eq_ok] at e
          obtain ⟨a, ha, w, _, v, _, e⟩ := e
          have := updateLoop_length _ _ _ ha
          rw [read_length b.2, l.2.2.2] at this
          cases e
          refine ⟨a.1, w.2, this, fun hn => h1 (by rw [l.2.2.2, hn]; rfl), fun hn => h0 (l.2.2.1.2.2.2 hn), ?_⟩
          rw [l.2.1]
          simp [joinWith, kwUpdate, kwSet, kwWhere]
  · rename_i h q
    replace e := ofQuery_ok e
    unfold buildDeleteR at e
    split at e
    · cases e
    · rename_i h0
      split at e
      · cases e
      · simp only [Res.bind_eq_ok] at e
        obtain ⟨w, _, v, _, e⟩ := e
        cases e
        refine ⟨w.2, fun hn => h0 (l.2.2.2.2.2 hn), ?_⟩
        rw [l.2.1]
        simp [joinWith, kwDelete, kwFrom, kwWhere]
  all_goals cases e

end Query
