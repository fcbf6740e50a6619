import Verif.Proof.HeapLists
import Verif.Proof.HeapHistory
/-!
# Histories whose appends are harmless
-/
namespace Query
open Store

/-- Every slice of a readable value lies within its array. -/
structure Fits (m : Mem) (h : HV) : Prop where
  c : ∀ s ∈ oc h, s.arr < m.conds.length ∧ s.len ≤ (m.conds.cells s.arr).length
  j : ∀ s ∈ oj h, s.arr < m.joins.length ∧ s.len ≤ (m.joins.cells s.arr).length
  s : ∀ s ∈ os' h, s.arr < m.sorts.length ∧ s.len ≤ (m.sorts.cells s.arr).length
  v : ∀ s ∈ ov h, s.arr < m.vals.length ∧ s.len ≤ (m.vals.cells s.arr).length

theorem rep_fits {st : Store HCond} {h : HCond} {c : Cond} (r : Rep st h c) :
    ∀ s ∈ h.sl, s.arr < st.length ∧ s.len ≤ (st.cells s.arr).length := by
  intro s hs
  cases h with
  | leaf c => cases hs
  | group b s' br =>
    simp only [HCond.sl, List.mem_singleton] at hs; subst hs
    cases c <;> simp only [Rep] at r
    exact ⟨r.2.2.1, r.2.2.2.1⟩

theorem RepG.fits {st : Store HCond} {g : HGroup} {G : Group} (r : RepG st g G) :
    g.s.arr < st.length ∧ g.s.len ≤ (st.cells g.s.arr).length :=
  rep_fits (h := g.toCond) r g.s (by simp [HGroup.toCond, HCond.sl])

theorem RepV.fits {m : Mem} {h : HV} {p : PV} (r : RepV m h p) : Fits m h := by
  have one : ∀ {α : Type} {st : Store α} {s : Sl}, (s.arr < st.length ∧ s.len ≤ (st.cells s.arr).length) →
      ∀ t ∈ [s], t.arr < st.length ∧ t.len ≤ (st.cells t.arr).length := by
    intro α st s h t ht; simp only [List.mem_singleton] at ht; subst ht; exact h
  have no : ∀ {α : Type} {st : Store α}, ∀ t ∈ ([] : List Sl), t.arr < st.length ∧ t.len ≤ (st.cells t.arr).length := by
    intro α st t ht; cases ht
  have two : ∀ {α : Type} {st : Store α} {s : Sl} {xs : List α}, RepS st s xs → s.arr < st.length ∧ s.len ≤ (st.cells s.arr).length :=
    fun h => ⟨h.1, h.2.1⟩
  cases h <;> cases p <;> simp only [RepV] at r
  · exact ⟨rep_fits r, no, no, no⟩
  · exact ⟨one r.cond.fits, one (two r.joins), no, no⟩
  · exact ⟨one r.cond.fits, one (two r.joins), no, no⟩
  · exact ⟨one r.base.cond.fits, one (two r.base.joins), one (two r.order), no⟩
  · exact ⟨no, no, no, no⟩
  · exact ⟨no, no, no, one (two r.2.2)⟩
  · exact ⟨one r.2.2.1.fits, no, no, one (two r.2.2.2)⟩
  · exact ⟨one r.2.2.fits, no, no, no⟩
  · exact ⟨one r.cond.fits, one (two r.joins), no, no⟩
  · exact ⟨one r.cond.fits, one (two r.joins), no, no⟩
  · exact ⟨one r.base.cond.fits, one (two r.base.joins), one (two r.order), no⟩

theorem ext_of {α : Type} {st : Store α} {s : Sl} (f : s.arr < st.length ∧ s.len ≤ (st.cells s.arr).length)
    (h : lastOrFull st s = true) : Ext false st s := by
  refine ⟨f.1, f.2, (fun e => by cases e), fun _ => ?_⟩
  simp only [lastOrFull, Bool.or_eq_true, beq_iff_eq, decide_eq_true_eq] at h
  exact h

theorem condsSl_eq (h : HV) : oc h = h.condsSl.toList := by
  cases h with
  | cond c => cases c <;> rfl
  | _ => rfl
theorem joinsSl_eq (h : HV) : oj h = h.joinsSl.toList := by cases h <;> rfl
theorem sortsSl_eq (h : HV) : os' h = h.sortsSl.toList := by cases h <;> rfl
theorem valsSl_eq (h : HV) : ov h = h.valsSl.toList := by cases h <;> rfl

theorem harmlessOn_app {α : Type} {st : Store α} {hs : List HV} {sl : HV → Option Sl} {r : Nat} {h : HV} {s : Sl}
    (k : harmlessOn st hs sl (.app r) = true) (e : hs[r]? = some h) (m : s ∈ (sl h).toList) : lastOrFull st s = true := by
  have : sl h = some s := by simpa using m
  simpa [harmlessOn, Act.operand, e, this] using k

variable {used : List Nat} {m : Mem} {hs : List HV} {ps : List PV} {pol : Policy} {p : PV}

theorem SInv.fits (inv : SInv used m hs ps) {r : Nat} {h : HV} (e : hs[r]? = some h) (hj : h.isJoiner = false) : Fits m h := by
  have hp : r < ps.length := by rw [← inv.len]; exact (List.getElem?_eq_some_iff.1 e).1
  exact (inv.rep r h ps[r] e (List.getElem?_eq_getElem hp) (by simp [hj])).fits

theorem safe_of_harmless (inv : SInv used m hs ps) {c : Call} (k : harmlessCall m hs c = true) : SafeCall m hs c := by
  simp only [harmlessCall, Bool.and_eq_true] at k
  obtain ⟨⟨⟨k1, k2⟩, k3⟩, k4⟩ := k
  refine ⟨fun r h e er hj s hs' => ?_, fun r h e er hj s hs' => ?_, fun r h e er hj s hs' => ?_, fun r h e er hj s hs' => ?_⟩
  · rw [e] at k1; exact ext_of ((inv.fits er hj).c s hs') (harmlessOn_app k1 er (condsSl_eq h ▸ hs'))
  · rw [e] at k2; exact ext_of ((inv.fits er hj).j s hs') (harmlessOn_app k2 er (joinsSl_eq h ▸ hs'))
  · rw [e] at k3; exact ext_of ((inv.fits er hj).s s hs') (harmlessOn_app k3 er (sortsSl_eq h ▸ hs'))
  · rw [e] at k4; exact ext_of ((inv.fits er hj).v s hs') (harmlessOn_app k4 er (valsSl_eq h ▸ hs'))

theorem nodup_completes {c : Call} {cs : List Call} (hj : ((c :: cs).filterMap Call.completes).Nodup) :
    (cs.filterMap Call.completes).Nodup ∧ ∀ r, c.completes = some r → r ∉ cs.filterMap Call.completes := by
  rw [List.filterMap_cons] at hj
  split at hj
  · rename_i e; exact ⟨hj, fun r hr => by rw [e] at hr; cases hr⟩
  · rename_i y e
    rw [List.nodup_cons] at hj
    exact ⟨hj.2, fun r hr => by rw [e] at hr; cases hr; exact hj.1⟩

/-- What is known of a run, and goes on. -/
theorem run_safe_all (pol : Policy) (I : Mem → List HV → List Call → Prop)
    (hI : ∀ (used : List Nat) (m : Mem) (hs : List HV) (ps : List PV) (c : Call) (cs : List Call), SInv used m hs ps → I m hs (c :: cs) →
      SafeCall m hs c ∧ ∀ x, c.heap pol m hs = some x → K4 m x.1 hs x.2 c → I x.1 (hs ++ [x.2]) cs) :
    ∀ (cs : List Call) (used : List Nat) (m : Mem) (hs : List HV) (ps ps' : List PV),
    SInv used m hs ps → I m hs cs → (∀ c ∈ cs, c.noApply = true) → (cs.filterMap Call.completes).Nodup →
    (∀ r ∈ cs.filterMap Call.completes, r ∉ used) → runPure ps cs = some ps' →
    ∃ m' hs' used', runHeap pol m hs cs = some (m', hs') ∧ SInv used' m' hs' ps' ∧ I m' hs' [] ∧
      ∀ r ∈ used', r ∈ used ∨ r ∈ cs.filterMap Call.completes
  | [], used, m, hs, ps, ps', inv, i, _, _, _, h => by
    simp only [runPure, Option.some.injEq] at h; subst h
    exact ⟨m, hs, used, rfl, inv, i, fun r hr => .inl hr⟩
  | c :: cs, used, m, hs, ps, ps', inv, i, hna, hj, hf2, h => by
    simp only [runPure] at h
    cases hc : c.pure ps with
    | none => rw [hc] at h; cases h
    | some p =>
      rw [hc] at h; simp only at h
      obtain ⟨sf, nx⟩ := hI used m hs ps c cs inv i
      obtain ⟨x, e1, inv', k4⟩ := step2 inv pol c (hna c (by simp)) sf (fun r hr => hf2 r (by simp [hr])) hc
      have nd := nodup_completes hj
      have hsub : ∀ r, r ∈ cs.filterMap Call.completes → r ∈ (c :: cs).filterMap Call.completes := by
        intro r hr
        simp only [List.mem_filterMap] at hr ⊢
        obtain ⟨a, ha, hb⟩ := hr
        exact ⟨a, List.mem_cons_of_mem _ ha, hb⟩
      obtain ⟨m', hs', used', e2, inv'', i'', hu''⟩ := run_safe_all pol I hI cs _ x.1 (hs ++ [x.2]) (ps ++ [p]) ps' inv' (nx x e1 k4)
        (fun d hd => hna d (List.mem_cons_of_mem _ hd)) nd.1
        (fun r hr hu => by
          rcases List.mem_append.1 hu with h1 | h1
          · exact nd.2 r (by simpa using h1) hr
          · exact hf2 r (hsub r hr) h1) h
      refine ⟨m', hs', used', by simp only [runHeap, e1]; exact e2, inv'', i'', fun r hr => ?_⟩
      rcases hu'' r hr with h1 | h1
      · rcases List.mem_append.1 h1 with h2 | h2
        · exact .inr (List.mem_filterMap.2 ⟨c, by simp, by simpa using h2⟩)
        · exact .inl h2
      · exact .inr (hsub r h1)

theorem run_safe (pol : Policy) (I : Mem → List HV → List Call → Prop)
    (hI : ∀ (used : List Nat) (m : Mem) (hs : List HV) (ps : List PV) (c : Call) (cs : List Call), SInv used m hs ps → I m hs (c :: cs) →
      SafeCall m hs c ∧ ∀ x, c.heap pol m hs = some x → K4 m x.1 hs x.2 c → I x.1 (hs ++ [x.2]) cs)
    (cs : List Call) (used : List Nat) (m : Mem) (hs : List HV) (ps ps' : List PV)
    (inv : SInv used m hs ps) (i : I m hs cs) (hna : ∀ c ∈ cs, c.noApply = true) (hj : (cs.filterMap Call.completes).Nodup)
    (hu : ∀ r ∈ cs.filterMap Call.completes, r ∉ used) (h : runPure ps cs = some ps') :
    ∃ m' hs' used', runHeap pol m hs cs = some (m', hs') ∧ SInv used' m' hs' ps' := by
  obtain ⟨m', hs', used', e, inv', _⟩ := run_safe_all pol I hI cs used m hs ps ps' inv i hna hj hu h
  exact ⟨m', hs', used', e, inv'⟩

theorem sinv_empty : SInv [] Mem.empty [] [] :=
  ⟨rfl, fun _ _ _ h => by simp at h, fun _ _ _ h => by simp at h, fun _ _ _ _ h => by simp at h,
    fun _ _ _ _ _ h => by simp at h⟩

/-- The lists of all four kinds. -/
structure KInv4 (m : Mem) (hs : List HV) (tc tj ts tv : List (Option Nat)) (uc uj us uv : List Nat) : Prop where
  c : KInv m.conds (hs.map oc) tc uc
  j : KInv m.joins (hs.map oj) tj uj
  s : KInv m.sorts (hs.map os') ts us
  v : KInv m.vals (hs.map ov) tv uv

structure FreshVals (ts : List (Option Nat)) (used : List Nat) (as : List Act) : Prop where
  nodup : (extendedLists ts as).Nodup
  fresh : ∀ t ∈ extendedLists ts as, t ∉ used

theorem FreshVals.head {ts : List (Option Nat)} {used : List Nat} {a : Act} {as : List Act} (f : FreshVals ts used (a :: as)) :
    ∀ t, a.extended ts = some t → t ∉ used := fun t ht => f.fresh t (by simp [extendedLists, ht])

theorem FreshVals.tail {ts : List (Option Nat)} {used : List Nat} {a : Act} {as : List Act} (f : FreshVals ts used (a :: as)) :
    FreshVals (a.push ts) ((a.extended ts).toList ++ used) as := by
  have hn := f.nodup
  simp only [extendedLists] at hn
  have hn' := List.nodup_append.1 hn
  refine ⟨hn'.2.1, fun t ht hu => ?_⟩
  rcases List.mem_append.1 hu with h | h
  · exact hn'.2.2 t h t ht rfl
  · exact f.fresh t (by simp [extendedLists, ht]) h

theorem KInv.safe {α : Type} {st : Store α} {f : HV → List Sl} {ts : List (Option Nat)} {used : List Nat} {a : Act} {as : List Act}
    (k : KInv st (hs.map f) ts used) (fr : FreshVals ts used (a :: as)) {r : Nat} {h : HV} (ea : a = .app r) (e : hs[r]? = some h) :
    ∀ s ∈ f h, Ext false st s := by
  intro s hs'
  have hm : s ∈ slAt (hs.map f) r := by rw [slAt_of f e]; exact hs'
  exact k.ext r s hm fun t ht => fr.head t (by rw [ea]; exact ht)

/-- What is known of the lists during a run. -/
def ListsInv (m : Mem) (hs : List HV) (cs : List Call) : Prop := ∃ tc tj ts tv uc uj us uv, KInv4 m hs tc tj ts tv uc uj us uv ∧
    FreshVals tc uc (cs.map Call.condsAct) ∧ FreshVals tj uj (cs.map Call.joinsAct) ∧ FreshVals ts us (cs.map Call.sortsAct) ∧
    FreshVals tv uv (cs.map Call.valsAct)

theorem listsInv_step (pol : Policy) (used : List Nat) (m : Mem) (hs : List HV) (ps : List PV) (c : Call) (cs : List Call)
    (_ : SInv used m hs ps) (i : ListsInv m hs (c :: cs)) :
    SafeCall m hs c ∧ ∀ x, c.heap pol m hs = some x → K4 m x.1 hs x.2 c → ListsInv x.1 (hs ++ [x.2]) cs := by
  obtain ⟨tc, tj, ts, tv, uc, uj, us, uv, k, f1, f2, f3, f4⟩ := i
  simp only [List.map_cons] at f1 f2 f3 f4
  refine ⟨⟨fun r h e er _ => k.c.safe f1 e er, fun r h e er _ => k.j.safe f2 e er, fun r h e er _ => k.s.safe f3 e er,
    fun r h e er _ => k.v.safe f4 e er⟩, fun x e k4 => ?_⟩
  refine ⟨_, _, _, _, _, _, _, _, ⟨?_, ?_, ?_, ?_⟩, f1.tail, f2.tail, f3.tail, f4.tail⟩
  · rw [List.map_append]; exact k.c.step k4.c f1.head
  · rw [List.map_append]; exact k.j.step k4.j f2.head
  · rw [List.map_append]; exact k.s.step k4.s f3.head
  · rw [List.map_append]; exact k.v.step k4.v f4.head

theorem listsInv_empty {cs : List Call} (hl : ListsOnce cs) : ListsInv Mem.empty [] cs :=
  ⟨[], [], [], [], [], [], [], [], ⟨kinv_empty, kinv_empty, kinv_empty, kinv_empty⟩,
      ⟨hl.conds, fun _ _ h => by cases h⟩, ⟨hl.joins, fun _ _ h => by cases h⟩, ⟨hl.sorts, fun _ _ h => by cases h⟩,
      ⟨hl.vals, fun _ _ h => by cases h⟩⟩

theorem run_lists (pol : Policy) (cs : List Call) (ps : List PV) (hna : ∀ c ∈ cs, c.noApply = true) (hl : ListsOnce cs)
    (hj : JoinsOnce cs) (h : runPure [] cs = some ps) :
    ∃ m hs used, runHeap pol Mem.empty [] cs = some (m, hs) ∧ SInv used m hs ps :=
  run_safe pol ListsInv (listsInv_step pol) cs [] Mem.empty [] [] ps sinv_empty (listsInv_empty hl) hna hj (fun _ _ h => by cases h) h

/-- The last call of a history. -/
theorem last_lists (pol : Policy) (cs : List Call) (c : Call) (ps : List PV) (p : PV) (hna : ∀ d ∈ cs ++ [c], d.noApply = true)
    (hl : ListsOnce (cs ++ [c])) (hj : JoinsOnce (cs ++ [c])) (h : runPure [] cs = some ps) (hc : c.pure ps = some p) :
    ∃ m hs x, runHeap pol Mem.empty [] cs = some (m, hs) ∧ c.heap pol m hs = some x ∧ K4 m x.1 hs x.2 c := by
  simp only [JoinsOnce, List.filterMap_append] at hj
  have hj' := List.nodup_append.1 hj
  obtain ⟨m, hs, used, e, inv, i, hu⟩ := run_safe_all pol (fun m hs cs => ListsInv m hs (cs ++ [c]))
    (fun used m hs ps d ds inv i => listsInv_step pol used m hs ps d (ds ++ [c]) inv i) cs [] Mem.empty [] [] ps sinv_empty
    (listsInv_empty hl) (fun d hd => hna d (by simp [hd])) hj'.1 (fun _ _ h => by cases h) h
  obtain ⟨x, e1, _, k4⟩ := step2 inv pol c (hna c (by simp)) (listsInv_step pol used m hs ps c [] inv i).1 (fun r hr hx => by
    rcases hu r hx with h1 | h1
    · cases h1
    · exact hj'.2.2 r h1 r (by simp [hr]) rfl) hc
  exact ⟨m, hs, x, e, e1, k4⟩

theorem run_harmless (pol : Policy) (cs : List Call) (ps : List PV) (hna : ∀ c ∈ cs, c.noApply = true)
    (hl : harmlessRun pol Mem.empty [] cs = true) (hj : JoinsOnce cs) (h : runPure [] cs = some ps) :
    ∃ m hs used, runHeap pol Mem.empty [] cs = some (m, hs) ∧ SInv used m hs ps := by
  refine run_safe pol (fun m hs cs => harmlessRun pol m hs cs = true) ?_ cs [] Mem.empty [] [] ps sinv_empty hl hna hj
    (fun _ _ h => by cases h) h
  intro used m hs ps c cs inv k
  simp only [harmlessRun, Bool.and_eq_true] at k
  refine ⟨safe_of_harmless inv k.1, fun x e _ => ?_⟩
  have := k.2
  rw [e] at this; exact this

theorem reads_of_run {cs : List Call} (gr : Grow)
    (hx : ∃ m hs used, runHeap pol Mem.empty [] cs = some (m, hs) ∧ SInv used m hs ps)
    (r : Nat) (p : PV) (hr : ps[r]? = some p) (l : Look) : ReadsAs pol gr cs r l (p.look l) := by
  obtain ⟨m, hs, used, h1, inv⟩ := hx
  obtain ⟨x, hx⟩ : ∃ x, hs[r]? = some x := by
    have : r < hs.length := by rw [inv.len]; exact (List.getElem?_eq_some_iff.1 hr).1
    exact ⟨_, List.getElem?_eq_getElem this⟩
  refine ⟨m, hs, x, h1, hx, p.depth, fun d hd par => ?_⟩
  have k := inv.kind r x p hx hr
  have sv : Serves m d x p := by
    cases hxj : x.isJoiner with
    | true => exact .inr ⟨hxj, by rw [← k]; exact hxj⟩
    | false => exact .inl ⟨inv.rep r x p hx hr (fun h => by rw [hxj] at h; cases h), hd⟩
  exact (look_serves gr d ⟨m, par⟩ x p sv l).imp fun a b q => q.2.1

theorem extendedLists_append : ∀ (as bs : List Act) (ts : List (Option Nat)),
    (extendedLists ts as).Sublist (extendedLists ts (as ++ bs))
  | [], bs, ts => by simp [extendedLists]
  | a :: as, bs, ts => by
    simp only [List.cons_append, extendedLists]
    exact List.Sublist.append_left (extendedLists_append as bs _) _

theorem ListsOnce.left {cs cs' : List Call} (h : ListsOnce (cs ++ cs')) : ListsOnce cs := by
  refine ⟨?_, ?_, ?_, ?_⟩
  · have := h.conds; rw [List.map_append] at this; exact this.sublist (extendedLists_append _ _ _)
  · have := h.joins; rw [List.map_append] at this; exact this.sublist (extendedLists_append _ _ _)
  · have := h.sorts; rw [List.map_append] at this; exact this.sublist (extendedLists_append _ _ _)
  · have := h.vals; rw [List.map_append] at this; exact this.sublist (extendedLists_append _ _ _)

theorem harmlessRun_left : ∀ (cs cs' : List Call) (m : Mem) (hs : List HV), harmlessRun pol m hs (cs ++ cs') = true →
    harmlessRun pol m hs cs = true
  | [], _, _, _, _ => rfl
  | c :: cs, cs', m, hs, h => by
    simp only [List.cons_append, harmlessRun, Bool.and_eq_true] at h ⊢
    refine ⟨h.1, ?_⟩
    cases e : c.heap pol m hs with
    | none => rfl
    | some x =>
      have h2 := h.2
      rw [e] at h2
      exact harmlessRun_left cs cs' _ _ h2

end Query
