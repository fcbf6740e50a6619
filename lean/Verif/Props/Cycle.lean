import Verif.Proof.CycleApply
import Verif.Props.Immutable
/-!
# C47: reading returns exactly when no group contains itself
-/
namespace Query
open Store

theorem nested_root {m : Mem} {d : Nat} {x : HV} (h : ∀ c, x.root = some c → c.nested m.conds d) : x.nested m d := by
  cases x <;> simp only [HV.nested, HV.root] at h ⊢ <;> first | trivial | exact h _ rfl

/-- **C47, returning.**  After any history (branching, Apply calls): if no group in the value contains itself, every reading call
on it returns. -/
theorem C47_returns (pol : Policy) (cs : List Call) (m : Mem) (hs : List HV) (h : runHeap pol Mem.empty [] cs = some (m, hs)) (r : Nat)
    (x : HV) (hx : hs[r]? = some x) (hl : ¬ x.Loops m) (gr : Grow) (d : Nat) (hd : m.depth ≤ d) (par : Store Val) (l : Look) :
    x.look gr d ⟨m, par⟩ l ≠ tooDeep := by
  obtain ⟨sb, hb⟩ := run_bnd0 pol cs (m, hs) h
  have hn : x.nested m d := nested_root fun c hc => nested_le _ _ _ hd (nested_depth fun k => hl ⟨c, hc, k⟩)
  obtain ⟨p, h1, h2⟩ := repV_of_nested sb d x (hb r x hx) hn
  have k := sim_look gr d ⟨m, par⟩ x p h1 h2 l
  have nr := look_returns p l
  intro e
  rw [e] at k
  cases hp : p.look l with
  | ok a => rw [hp] at k; obtain ⟨_, k, _⟩ := k; cases k
  | err a => rw [hp] at k; cases k
  | panic a => rw [hp] at k nr; cases k; exact nr rfl

theorem read_ne_nil {st : Store HCond} {b : CondBase} {s : Sl} {br : Bool} (h : (HCond.group b s br).Loops st) : st.read s ≠ [] := by
  obtain ⟨t, x, h1, h2, _⟩ := h
  intro e
  cases h1 with
  | own => rw [e] at h2; cases h2
  | deep hm _ => rw [e] at hm; cases hm

theorem whereP_tooDeep {st : Store HCond} {d : Nat} {g : HGroup} {n : Nat} {f : Str → Str} {ps : List Val}
    (h : renderP st d g.toCond n = tooDeep) : whereP st d g n f ps = tooDeep := by rw [whereP, h]; rfl

theorem update_loop_ok : ∀ (fvs : List FieldValue) (n : Nat), (∀ fv ∈ fvs, ∃ v vs, fv.values = .ok (v :: vs)) →
    ∃ r, UpdateB.loop fvs n = .ok r
  | [], _, _ => ⟨_, rfl⟩
  | fv :: fvs, n, h => by
    obtain ⟨v, vs, e⟩ := h fv (List.mem_cons_self ..)
    obtain ⟨r, e'⟩ := update_loop_ok fvs (n + 1) fun x hx => h x (List.mem_cons_of_mem _ hx)
    simp only [UpdateB.loop, firstValue, e, Res.bind_ok, e']
    exact ⟨_, rfl⟩

/-- **C47, not returning.**  After any history: if a group in the value contains itself and the values of its comparisons can be
listed, every reading call that goes through the conditions exceeds every bound on the depth: it recurses without end. -/
theorem C47_loops (pol : Policy) (cs : List Call) (m : Mem) (hs : List HV) (h : runHeap pol Mem.empty [] cs = some (m, hs)) (r : Nat)
    (x : HV) (hx : hs[r]? = some x) (hl : x.Loops m) (hv : x.listable m) (gr : Grow) (d : Nat) (par : Store Val) (l : Look)
    (ha : x.readsAll m l) : x.look gr d ⟨m, par⟩ l = tooDeep := by
  obtain ⟨sb, hb⟩ := run_bnd0 pol cs (m, hs) h
  have hb := hb r x hx
  obtain ⟨c, hc, lp⟩ := hl
  have bnd : c.bnd m.conds := by
    cases x <;> simp only [HV.root, HV.bnd] at hc hb <;> cases hc
    · exact hb
    · exact hb.cond
    · exact hb.cond
    · exact hb.1.cond
    · exact hb.cond
    · exact hb.1
    · exact hb
    · exact hb.cond
    · exact hb.cond
    · exact hb.1.cond
  have nn := loops_not_nested lp d
  obtain ⟨f1, f2, f3⟩ := readP_deep sb d c bnd (fun e he => hv c hc e he)
  have e1 := f1.2 nn
  have e2 := fun n => (f2 n).2 nn
  have e3 := f3.2 nn
  have key : x.lookP d m l = tooDeep := by
    have hw : ∀ q : HBase, c = q.where_.toCond → (m.conds.read q.where_.s).length > 0 := fun q e => by
      subst e
      exact List.length_pos_iff.2 (read_ne_nil lp)
    have base : ∀ q : HBase, c = q.where_.toCond → q.buildP d m = tooDeep ∧ ∀ b l, b = tooDeep → l ≠ .conditions → l ≠ .fieldDefinitions →
        q.lookP d m b l = tooDeep := fun q e => by
      have := hw q e
      subst e
      refine ⟨by simp only [HBase.buildP, this, if_true, whereP_tooDeep (e2 0)], fun b l hbd n1 n2 => ?_⟩
      cases l with
      | build => simp only [HBase.lookP, hbd]; rfl
      | render n => simp only [HBase.lookP, HBase.textP, this, if_true, e2]; rfl
      | renderSQL => simp only [HBase.lookP, HBase.sqlP, this, if_true, e3]; rfl
      | values => simp only [HBase.lookP, HBase.valsP, this, if_true, e1]; rfl
      | conditions => exact absurd rfl n1
      | fieldDefinitions => exact absurd rfl n2
    cases x <;> simp only [HV.root] at hc <;> cases hc
    · cases l <;> simp only [HV.readsAll] at ha <;> simp only [HV.lookP, e1, e2, e3] <;> rfl
    · simp only [HV.readsAll] at ha
      simp only [HV.lookP]
      exact (base _ rfl).2 _ _ (base _ rfl).1 ha.1 ha.2
    · simp only [HV.readsAll] at ha
      simp only [HV.lookP]
      exact (base _ rfl).2 _ _ (by rw [buildSingleP, (base _ rfl).1]; rfl) ha.1 ha.2
    · simp only [HV.readsAll] at ha
      simp only [HV.lookP]
      exact (base _ rfl).2 _ _ (by rw [buildManyP, (base _ rfl).1]; rfl) ha.1 ha.2
    · cases l <;> simp only [HV.readsAll] at ha
      simp only [HV.lookP, buildCountP, hw _ rfl, if_true, whereP_tooDeep (e2 0)]
      rfl
    · rename_i q
      cases l <;> simp only [HV.readsAll] at ha
      obtain ⟨r, er⟩ := update_loop_ok (m.vals.read q.setValues) 0 ha.2.2
      have h0 : q.where_.s.len ≠ 0 := fun e => read_ne_nil lp (by simp only [Store.read, e, List.take_zero])
      have h1 : q.tableName.length ≠ 0 := fun e => ha.1 (List.length_eq_zero_iff.1 e)
      simp only [HV.lookP, buildUpdateP, h0, ha.2.1, h1, if_false, er, Res.bind_ok, whereP_tooDeep (e2 _)]
      rfl
    · rename_i q
      cases l <;> simp only [HV.readsAll] at ha
      have h0 : q.where_.s.len ≠ 0 := fun e => read_ne_nil lp (by simp only [Store.read, e, List.take_zero])
      have h1 : q.tableName.length ≠ 0 := fun e => ha (List.length_eq_zero_iff.1 e)
      simp only [HV.lookP, buildDeleteP, h0, h1, if_false, whereP_tooDeep (e2 _)]
      rfl
    · cases l <;> simp only [HV.readsAll] at ha
    · cases l <;> simp only [HV.readsAll] at ha
    · cases l <;> simp only [HV.readsAll] at ha
  have k := same_look gr d ⟨m, par⟩ x (fine_kept (m := ⟨m, par⟩) ⟨List.prefix_refl _, List.prefix_refl _, List.prefix_refl _, List.prefix_refl _, List.prefix_refl _, List.prefix_refl _⟩ d sb hb) l
  rw [key] at k
  exact k

/-- **C47, exactly.**  After any history whatsoever, a reading call that goes through all conditions of a value returns if and only
if no group in the value contains itself (the values of the comparisons in it can be listed). -/
theorem C47_exact (pol : Policy) (cs : List Call) (m : Mem) (hs : List HV) (h : runHeap pol Mem.empty [] cs = some (m, hs)) (r : Nat)
    (x : HV) (hx : hs[r]? = some x) (hv : x.listable m) (gr : Grow) (par : Store Val) (l : Look) (ha : x.readsAll m l) :
    (∃ d, x.look gr d ⟨m, par⟩ l ≠ tooDeep) ↔ ¬ x.Loops m :=
  ⟨fun ⟨d, hd⟩ hl => hd (C47_loops pol cs m hs h r x hx hl hv gr d par l ha),
    fun hl => ⟨m.depth, C47_returns pol cs m hs h r x hx hl gr _ (Nat.le_refl _) par l⟩⟩

/-- **C47, the Apply calls.**  After any history, `ApplyFieldSpec` and `ApplyFieldTable` on a condition return if and only if no
group in it contains itself; if one does, no bound on the depth is enough. -/
theorem C47_apply_exact (pol : Policy) (cs : List Call) (m : Mem) (hs : List HV) (h : runHeap pol Mem.empty [] cs = some (m, hs)) (r : Nat)
    (c : HCond) (hx : hs[r]? = some (.cond c)) (spec : FieldDef) (t : Str) :
    ((∃ y, (Call.applySpec r spec).heap pol m hs = some y) ↔ ¬ c.Loops m.conds) ∧
    ((∃ y, (Call.applyTable r t).heap pol m hs = some y) ↔ ¬ c.Loops m.conds) ∧
    (c.Loops m.conds → ∀ d, applySpecH d m.conds spec c = none ∧ applyTableH d m.conds t c = none) := by
  obtain ⟨sb, hb⟩ := run_bnd0 pol cs (m, hs) h
  have hb : c.bnd m.conds := hb r _ hx
  have no : c.Loops m.conds → ∀ d, applySpecH d m.conds spec c = none ∧ applyTableH d m.conds t c = none := fun k d =>
    ⟨(applySpec_deep spec sb hb d).2 (loops_not_nested k d), (applyTable_deep t sb hb d).2 (loops_not_nested k d)⟩
  refine ⟨⟨fun ⟨y, e⟩ k => ?_, fun k => ?_⟩, ⟨fun ⟨y, e⟩ k => ?_, fun k => ?_⟩, no⟩
  · simp only [Call.heap, hx, (no k _).1] at e
    cases e
  · obtain ⟨x, e, _⟩ := (applySpec_deep spec sb hb m.depth).1 (nested_depth k)
    exact ⟨_, by simp only [Call.heap, hx, e, Option.map_some]; rfl⟩
  · simp only [Call.heap, hx, (no k _).2] at e
    cases e
  · obtain ⟨x, e, _⟩ := (applyTable_deep t sb hb m.depth).1 (nested_depth k)
    exact ⟨_, by simp only [Call.heap, hx, e, Option.map_some]; rfl⟩

/-- Value 8 of `wCycle` contains itself and the values of its comparisons can be listed: the hypotheses of `C47_loops`. -/
example : ∃ m hs x, runHeap goPolicy Mem.empty [] wCycle = some (m, hs) ∧ hs[8]? = some x ∧ x.Loops m ∧ x.listable m ∧
    x.readsAll m (.render 0) := by
  obtain ⟨m, hs, b, S, br, b', br', h1, h2, _, hc⟩ := cycle_exists
  have mem : HCond.group b' S br' ∈ m.conds.read S := by simp [hc]
  have thr : ∀ {c : HCond} {s : Sl}, c.Through m.conds s → c.sl? = some S → s = S := by
    intro c s h
    induction h with
    | own => intro e; exact Option.some.inj e
    | deep hm kk ih =>
      intro e
      cases Option.some.inj e
      rw [hc] at hm
      simp only [wLeaf, List.mem_cons, List.not_mem_nil, or_false] at hm
      rcases hm with rfl | rfl | rfl | rfl
      · cases kk
      · cases kk
      · cases kk
      · exact ih rfl
  refine ⟨m, hs, _, h1, h2, ⟨_, rfl, S, _, .own, mem, .own⟩, ?_, trivial⟩
  intro c hc' e he
  cases hc'
  rcases he with k | ⟨s, k1, k2⟩
  · cases k
  · cases thr k1 rfl
    rw [hc] at k2
    simp only [wLeaf, List.mem_cons, HCond.leaf.injEq, reduceCtorEq, List.not_mem_nil, or_false] at k2
    rcases k2 with rfl | rfl | rfl <;> exact ⟨_, rfl⟩

/-- The DELETE of a select whose where clause holds that condition contains it too; value 6, made before, contains no group. -/
example : ∃ m hs x y, runHeap goPolicy Mem.empty [] (wCycle ++ [.selectFrom (.str c!"t"), .where_ 9 [8], .deleteFrom 10]) = some (m, hs) ∧
    hs[11]? = some x ∧ x.Loops m ∧ hs[6]? = some y ∧ ¬ y.Loops m := by
  refine ⟨_, _, _, _, rfl, rfl, ⟨_, rfl, ⟨2, 4, 4⟩, .group _ _ _, .deep (.head _) .own, .tail _ (.tail _ (.tail _ (.head _))), .own⟩, rfl, ?_⟩
  rintro ⟨c, hc, s, x, h1, h2, h3⟩
  cases hc
  cases h1 with
  | own =>
    rcases List.mem_cons.1 h2 with rfl | h2
    · cases h3
    rcases List.mem_cons.1 h2 with rfl | h2
    · cases h3
    rcases List.mem_cons.1 h2 with rfl | h2
    · cases h3
    · cases h2
  | deep h2 h3 =>
    rcases List.mem_cons.1 h2 with rfl | h2
    · cases h3
    rcases List.mem_cons.1 h2 with rfl | h2
    · cases h3
    rcases List.mem_cons.1 h2 with rfl | h2
    · cases h3
    · cases h2

end Query
