import Verif.Proof.ApplySeen
import Verif.Proof.FootRun
import Verif.Proof.Moments
/-!
# Calls that overlap in time, every value used once
-/
namespace Query
open Store

section
variable {L : Nat → Bool} {pre : List Call} {m : Mem} {hs hsM : List HV} {ps psM : List PV} {p : PV}

theorem Alive.nodup (A : Alive L pre m hs ps hsM psM) {r : Nat} {h : HCond} {c0 : Cond} (e1 : hsM[r]? = some (.cond h))
    (e2 : psM[r]? = some (.cond c0)) : (foot m.conds h c0).Nodup := by
  refine List.nodup_iff_count.2 fun a => ?_
  have hr : r < pre.length := by rw [← A.len]; exact (List.getElem?_eq_some_iff.1 e1).1
  have t := one_le_sum (fun i => (footAt m hsM psM i).count a) pre.length r hr
  simp only [footAt_of e1 e2, HV.foot] at t
  exact Nat.le_trans t (A.once a)

/-- The condition an Apply call is made on. -/
theorem Alive.find (A : Alive L pre m hs ps hsM psM) {r : Nat} {c0 : Cond} (hf : L r = false → r ∉ pre.flatMap Call.operands)
    (e : ps[r]? = some (.cond c0)) :
    ∃ h, hs[r]? = some (.cond h) ∧ hsM[r]? = some (.cond h) ∧ psM[r]? = some (.cond c0) ∧ Rep m.conds h c0 := by
  obtain ⟨k1, k2⟩ := A.live r hf
  have hr : r < pre.length := by rw [← A.lenP]; exact (List.getElem?_eq_some_iff.1 e).1
  obtain ⟨h1, q1, g1, g2⟩ := A.get hr
  have q : q1 = .cond c0 := by rw [k2, e] at g2; exact (Option.some.inj g2).symm
  subst q
  have rep := A.rep g1 g2
  cases h1 <;> simp only [RepV] at rep
  exact ⟨_, by rw [← k1]; exact g1, g1, g2, rep⟩

/-- The arrays of other values are no arrays of the condition. -/
theorem Alive.apart (A : Alive L pre m hs ps hsM psM) {r : Nat} {h : HCond} {c0 : Cond} (e1 : hsM[r]? = some (.cond h))
    (e2 : psM[r]? = some (.cond c0)) {i : Nat} {h1 : HV} {q1 : PV} (hi : L i = false → i ≠ r) (g1 : hsM[i]? = some h1)
    (g2 : psM[i]? = some q1) : ∀ a ∈ h1.foot m q1, a ∉ foot m.conds h c0 := by
  intro a ha hb
  have hr : r < pre.length := by rw [← A.len]; exact (List.getElem?_eq_some_iff.1 e1).1
  have hi' : i < pre.length := by rw [← A.len]; exact (List.getElem?_eq_some_iff.1 g1).1
  by_cases hir : i = r
  · have hl : L i = true := by
      cases hl : L i with
      | true => rfl
      | false => exact absurd hir (hi hl)
    subst hir
    obtain ⟨h2, q2, a1, a2, a3⟩ := A.leaf i hi' hl
    obtain ⟨k1, k2⟩ := A.live i (fun e => by rw [hl] at e; cases e)
    rw [← k1, e1] at a1; rw [← k2, e2] at a2
    simp only [Option.some.injEq] at a1 a2
    subst a1; subst a2
    obtain ⟨c1, b1, b2, _⟩ := a3
    cases b1; cases b2
    simp [foot] at hb
  · have o := A.once a
    have t := two_le_sum (fun i => (footAt m hsM psM i).count a) pre.length i r hi' hr hir
    simp only [footAt_of g1 g2, footAt_of e1 e2] at t
    have hb : a ∈ HV.foot m (.cond h) (.cond c0) := hb
    have t1 := List.count_pos_iff.2 ha
    have t2 := List.count_pos_iff.2 hb
    omega

/-- Nothing that is there changes, the joins and the conditions of an operand apart. -/
structure Spares (m m' : Mem) (hs : List HV) (ps : List PV) (live : Nat → Prop) : Prop where
  size : m.conds.length ≤ m'.conds.length
  ls : Le m.sorts m'.sorts
  lv : Le m.vals m'.vals
  ld : Le m.defs m'.defs
  lc : ∀ (i : Nat) (h : HV) (q : PV), live i → hs[i]? = some h → ps[i]? = some q → ∀ a ∈ h.foot m q, m.conds.cells a <+: m'.conds.cells a

theorem Alive.frame (A : Alive L pre m hs ps hsM psM) (pol : Policy) (c : Call)
    (hfresh : ∀ i ∈ c.operands, L i = false → i ∉ pre.flatMap Call.operands) (hc : c.pure ps = some p) {x : Mem × HV}
    (hx : c.heap pol m hs = some x) : Spares m x.1 hs ps (fun i => L i = false → i ∉ (pre ++ [c]).flatMap Call.operands) := by
  have lv : ∀ i ∈ c.operands, hsM[i]? = hs[i]? ∧ psM[i]? = ps[i]? := fun i hi => A.live i (hfresh i hi)
  by_cases hna : c.noApply = true
  · have hcM : c.pure psM = some p := by rw [pure_congr c fun i hi => (lv i hi).2]; exact hc
    obtain ⟨x', hx', _, k4⟩ := step2 A.inv.sinv pol c hna
      ⟨fun r h _ e _ s hs => (A.inv.ext r h e (.inr (by simp))).c s hs, fun r h _ e _ s hs => (A.inv.ext r h e (.inr (by simp))).j s hs,
        fun r h _ e _ s hs => (A.inv.ext r h e (.inr (by simp))).s s hs, fun r h _ e _ s hs => (A.inv.ext r h e (.inr (by simp))).v s hs⟩
      (fun _ _ => by simp) hcM
    rw [heap_congr pol c fun i hi => (lv i hi).1, hx] at hx'
    cases hx'
    exact ⟨k4.lc.size, k4.ls, k4.lv, k4.ld, fun _ _ _ _ _ _ a _ => k4.lc.pre a⟩
  · have fin : ∀ {r : Nat} {h : HCond} {c0 c' : Cond} {y : Store HCond × HCond}, c.operands = [r] → hsM[r]? = some (.cond h) →
        psM[r]? = some (.cond c0) → Applied m.conds h c0 y c' →
        Spares m { m with conds := y.1 } hs ps (fun i => L i = false → i ∉ (pre ++ [c]).flatMap Call.operands) := by
      intro r h c0 c' y hop e1 e2 ap
      refine ⟨Nat.le_of_eq ap.shape.size.symm, .refl _, .refl _, .refl _, fun i h1 q1 hl g1 g2 a ha => ?_⟩
      simp only [List.flatMap_append, List.flatMap_cons, List.flatMap_nil, List.append_nil, List.mem_append, not_or, hop,
        List.mem_singleton] at hl
      obtain ⟨k1, k2⟩ := A.live i fun e => (hl e).1
      rw [ap.frame a (A.apart e1 e2 (fun e => (hl e).2) (k1.trans g1) (k2.trans g2) a ha)]
      exact List.prefix_refl _
    cases c <;> simp only [Call.noApply, not_true_eq_false] at hna
    case applySpec r spec =>
      simp only [Call.pure] at hc
      split at hc
      · rename_i c0 e
        obtain ⟨h, a1, a2, a3, rep⟩ := A.find (hfresh r (by simp [Call.operands])) e
        obtain ⟨y, ey, ap⟩ := applied_spec spec m.depth c0 (height_depth rep (A.nodup a2 a3)) m.conds h rep (A.nodup a2 a3)
        simp only [Call.heap, a1, ey, Option.map_some, Option.some.injEq] at hx
        subst hx
        exact fin rfl a2 a3 ap
      · cases hc
    case applyTable r t =>
      simp only [Call.pure] at hc
      split at hc
      · rename_i c0 e
        obtain ⟨h, a1, a2, a3, rep⟩ := A.find (hfresh r (by simp [Call.operands])) e
        obtain ⟨y, ey, ap⟩ := applied_table t m.depth c0 (height_depth rep (A.nodup a2 a3)) m.conds h rep (A.nodup a2 a3)
        simp only [Call.heap, a1, ey, Option.map_some, Option.some.injEq] at hx
        subst hx
        exact fin rfl a2 a3 ap
      · cases hc

end

variable {pol : Policy} {cs : List Call} {ps : List PV}

theorem runPure_take (h : runPure [] cs = some ps) (n : Nat) : runPure [] (cs.take n) = some (ps.take n) := by
  have hr := h
  rw [← List.take_append_drop n cs] at hr
  obtain ⟨qs, h1, h2⟩ := runPure_append _ _ _ _ hr
  have l1 := (runPure_prefix _ _ _ h1).2
  have l2 := (runPure_prefix _ _ _ h).2
  obtain ⟨t, ht⟩ := (runPure_prefix _ _ _ h2).1
  rw [h1]
  congr 1
  by_cases hn : n ≤ cs.length
  · rw [← ht, List.take_append_of_le_length (by simp at l1; omega), List.take_of_length_le (by simp at l1; omega)]
  · rw [List.take_of_length_le (by simp at l2; omega)]
    rw [List.drop_of_length_le (by omega)] at h2
    simpa [runPure] using h2

theorem runPure_next (h : runPure [] cs = some ps) {n : Nat} {c : Call} (hc : cs[n]? = some c) :
    ∃ p, c.pure (ps.take n) = some p ∧ ps.take (n + 1) = ps.take n ++ [p] := by
  have h1 := runPure_take h (n + 1)
  rw [take_snoc hc] at h1
  obtain ⟨qs, h2, h3⟩ := runPure_append _ _ _ _ h1
  rw [runPure_take h n] at h2
  cases h2
  simp only [runPure] at h3
  cases hp : c.pure (ps.take n) with
  | none => rw [hp] at h3; cases h3
  | some p =>
    rw [hp] at h3
    exact ⟨p, rfl, (Option.some.inj h3).symm⟩

/-- A value that no call so far uses up. -/
def Unused (cs : List Call) (n i : Nat) : Prop := madeAsLeaf cs i = false → i ∉ (cs.take n).flatMap Call.operands

theorem Unused.less {n k i : Nat} (h : Unused cs k i) (hn : n ≤ k) : Unused cs n i := fun e hm => h e (by
  have : cs.take k = cs.take n ++ (cs.take k).drop n := by
    have := List.take_append_drop n (cs.take k)
    rw [List.take_take, show min n k = n by omega] at this
    exact this.symm
  rw [this, List.flatMap_append]
  exact List.mem_append_left _ hm)

/-- What a prefix of a history leads to. -/
structure OnceAt (pol : Policy) (cs : List Call) (ps : List PV) (n : Nat) (m : Mem) (hs : List HV) : Prop where
  run : runHeap pol Mem.empty [] (cs.take n) = some (m, hs)
  alive : ∃ hsM psM, Alive (madeAsLeaf cs) (cs.take n) m hs (ps.take n) hsM psM

theorem OnceAt.memAt {n : Nat} {m : Mem} {hs : List HV} (h : OnceAt pol cs ps n m hs) : memAt pol cs n = m := by
  simp [Query.memAt, h.run]

theorem once_fresh (once : UsedOnce cs) {n : Nat} {c : Call} (hc : cs[n]? = some c) :
    (c.operands.filter fun i => !madeAsLeaf cs i).Nodup ∧ ∀ i ∈ c.operands, Unused cs n i := by
  have o := once
  have e := List.take_append_drop (n + 1) cs
  rw [take_snoc hc] at e
  have o : ((((cs.take n ++ [c]) ++ cs.drop (n + 1)).flatMap Call.operands).filter fun i => !madeAsLeaf cs i).Nodup := by rw [e]; exact o
  simp only [List.flatMap_append, List.flatMap_cons, List.flatMap_nil, List.append_nil, List.filter_append] at o
  obtain ⟨o1, _, _⟩ := List.nodup_append.1 o
  obtain ⟨_, o2, o3⟩ := List.nodup_append.1 o1
  exact ⟨o2, fun i hi hl hm => o3 i (List.mem_filter.2 ⟨hm, by simp [hl]⟩) i (List.mem_filter.2 ⟨hi, by simp [hl]⟩) rfl⟩

theorem OnceAt.step (once : UsedOnce cs) (h : runPure [] cs = some ps) {n : Nat} {c : Call} (hc : cs[n]? = some c) {m : Mem} {hs : List HV}
    (k : OnceAt pol cs ps n m hs) : ∃ x, c.heap pol m hs = some x ∧ OnceAt pol cs ps (n + 1) x.1 (hs ++ [x.2]) ∧
      Spares m x.1 hs (ps.take n) (Unused cs (n + 1)) := by
  obtain ⟨hsM, psM, A⟩ := k.alive
  obtain ⟨o1, o2⟩ := once_fresh once hc
  obtain ⟨p, hp, ep⟩ := runPure_next h hc
  have hn : n < cs.length := (List.getElem?_eq_some_iff.1 hc).1
  obtain ⟨x, hx, hsM', psM', A'⟩ := A.call pol c o1 (fun i hi => o2 i hi) (fun hl => by
    rw [List.length_take, show min n cs.length = n by omega] at hl
    simp only [madeAsLeaf, hc] at hl
    split at hl
    · rename_i c0 e0; exact ⟨c0, Option.some.inj e0⟩
    · cases hl) hp
  have f := A.frame pol c (fun i hi => o2 i hi) hp hx
  refine ⟨x, hx, ⟨?_, hsM', psM', ?_⟩, ?_⟩
  · rw [take_snoc hc, runHeap_append, k.run]
    simp only [Option.bind_some, runHeap, hx]
  · rw [take_snoc hc, ep]; exact A'
  · rw [← take_snoc hc] at f; exact f

theorem once_at (pol : Policy) (once : UsedOnce cs) (h : runPure [] cs = some ps) : ∀ n, n ≤ cs.length → ∃ m hs, OnceAt pol cs ps n m hs
  | 0, _ => ⟨Mem.empty, [], rfl, [], [], by simpa using alive_empty (madeAsLeaf cs)⟩
  | n + 1, hn => by
    obtain ⟨m, hs, k⟩ := once_at pol once h n (by omega)
    obtain ⟨x, _, k', _⟩ := k.step once h (List.getElem?_eq_getElem (by omega))
    exact ⟨_, _, k'⟩

/-- A value at a moment. -/
theorem OnceAt.value {n : Nat} {m : Mem} {hs : List HV} (k : OnceAt pol cs ps n m hs) {i : Nat} (hu : Unused cs n i) {x : HV} {p : PV}
    (hx : hs[i]? = some x) (hp : (ps.take n)[i]? = some p) : RepV m x p := by
  obtain ⟨hsM, psM, A⟩ := k.alive
  obtain ⟨k1, k2⟩ := A.live i hu
  exact A.rep (k1.trans hx) (k2.trans hp)

theorem RepV.footKept {m m' : Mem} {h : HV} {p : PV} (r : RepV m h p) (l : m.conds.length ≤ m'.conds.length)
    (k : ∀ a ∈ h.foot m p, m.conds.cells a <+: m'.conds.cells a) : h.foot m' p = h.foot m p := by
  have gen : ∀ {g : HCond} {G : Cond}, Rep m.conds g G → (∀ a ∈ foot m.conds g G, m.conds.cells a <+: m'.conds.cells a) →
      foot m'.conds g G = foot m.conds g G := fun r k => (Rep.kept l _ _ r k).2
  cases h <;> cases p <;> simp only [RepV] at r <;> simp only [HV.foot] at k ⊢
  · exact gen r k
  · exact gen r.cond k
  · exact gen r.cond k
  · exact gen r.base.cond k
  · exact gen r.1.cond k
  · exact gen r.2.2.1 k
  · exact gen r.2.2 k
  · exact gen r.cond k
  · exact gen r.cond k
  · exact gen r.base.cond k

/-- Representation in a memory that holds the arrays of the value. -/
theorem RepV.seenFoot {m R : Mem} {h : HV} {p : PV} (r : RepV m h p) (l : m.conds.length ≤ R.conds.length)
    (c : ∀ a ∈ h.foot m p, m.conds.cells a <+: R.conds.cells a) (d : Le m.defs R.defs) (s : Le m.sorts R.sorts)
    (v : Le m.vals R.vals) (j : ∀ s ∈ h.jsl, RepS R.joins s p.joinsOf) : RepV R h p := by
  have gen : ∀ {g : HCond} {G : Cond}, Rep m.conds g G → (∀ a ∈ foot m.conds g G, m.conds.cells a <+: R.conds.cells a) →
      Rep R.conds g G := fun r k => (Rep.kept l _ _ r k).1
  have b : ∀ {x : HBase} {q : BaseSelect}, RepB m x q → RepS R.joins x.joins q.joins →
      (∀ a ∈ foot m.conds x.where_.toCond q.where_.group.toCond, m.conds.cells a <+: R.conds.cells a) → RepB R x q := fun r j k =>
    ⟨r.op, r.tbl, j, r.fields.mono d, gen r.cond k⟩
  cases h <;> cases p <;> simp only [RepV] at r ⊢ <;> simp only [HV.jsl, PV.joinsOf, List.mem_singleton, forall_eq] at j <;>
    simp only [HV.foot] at c
  · exact gen r c
  · exact b r j c
  · exact b r j c
  · exact ⟨b r.base j c, r.offset, r.limit, r.order.mono s, r.spec⟩
  · exact ⟨b r.1 j c, r.2⟩
  · exact ⟨r.1, r.2.1, r.2.2.mono v⟩
  · exact ⟨r.1, r.2.1, gen r.2.2.1 c, r.2.2.2.mono v⟩
  · exact ⟨r.1, r.2.1, gen r.2.2 c⟩
  · exact b r j c
  · exact b r j c
  · exact ⟨b r.base j c, r.offset, r.limit, r.order.mono s, r.spec⟩

/-- From one moment to a later one, for what is not used up in between. -/
structure Since (m m' : Mem) (hs hs' : List HV) (ps : List PV) (live : Nat → Prop) : Prop extends Spares m m' hs ps live where
  pre : hs <+: hs'

theorem OnceAt.since (once : UsedOnce cs) (h : runPure [] cs = some ps) {j : Nat} {m : Mem} {hs : List HV} (k : OnceAt pol cs ps j m hs) :
    ∀ (d : Nat), j + d ≤ cs.length → ∀ m' hs', OnceAt pol cs ps (j + d) m' hs' → Since m m' hs hs' (ps.take j) (Unused cs (j + d))
  | 0, _, m', hs', k' => by
    have := k.run.symm.trans k'.run
    cases this
    exact ⟨⟨Nat.le_refl _, .refl _, .refl _, .refl _, fun _ _ _ _ _ _ _ _ => List.prefix_refl _⟩, List.prefix_refl _⟩
  | d + 1, hd, m', hs', k' => by
    obtain ⟨m1, hs1, k1⟩ := once_at pol once h (j + d) (by omega)
    have l := OnceAt.since once h k d (by omega) m1 hs1 k1
    obtain ⟨x, _, k2, f⟩ := k1.step once h (List.getElem?_eq_getElem (by omega : j + d < cs.length))
    have := k'.run.symm.trans k2.run
    cases this
    refine ⟨⟨Nat.le_trans l.size f.size, l.ls.trans f.ls, l.lv.trans f.lv, l.ld.trans f.ld, fun i y q hu g1 g2 a ha => ?_⟩, l.pre.trans ⟨_, rfl⟩⟩
    have hu' : Unused cs (j + d) i := Unused.less (k := j + d + 1) hu (by omega)
    have c1 := l.lc i y q hu' g1 g2
    refine (c1 a ha).trans (f.lc i y q hu ?_ ?_ a ?_)
    · obtain ⟨t, ht⟩ := l.pre
      rw [← ht, List.getElem?_append_left (List.getElem?_eq_some_iff.1 g1).1]; exact g1
    · have := (List.getElem?_eq_some_iff.1 g2).1
      rw [List.length_take] at this
      rw [List.getElem?_take_of_lt (by omega)] at g2 ⊢; exact g2
    · rw [(k.value (hu'.less (by omega)) g1 g2).footKept l.size c1]; exact ha

section
variable {α : Type} {at_ : Nat → Store α} {j k : Nat} {R : Store α}

theorem glimpse_pre (g : GlimpseOf at_ j k R) (a : Nat) (h : ∀ n, j ≤ n → n ≤ k → (at_ j).cells a <+: (at_ n).cells a) :
    (at_ j).cells a <+: R.cells a := by
  rw [List.prefix_iff_getElem?]
  intro i hi
  obtain ⟨n, h1, h2, e⟩ := g.2 a i _ (List.getElem?_eq_getElem hi)
  rw [e]
  exact (List.prefix_iff_getElem?.1 (h n h1 h2)) i hi

theorem seen_pre {st0 st : Store α} {s : Sl} (h : InB st0 s) (l : st0.length ≤ st.length) (l' : st0.length ≤ R.length)
    (p : st0.cells s.arr <+: st.cells s.arr) (p' : st0.cells s.arr <+: R.cells s.arr) : SeenS st R s := by
  have one : ∀ {st' : Store α}, st0.length ≤ st'.length → st0.cells s.arr <+: st'.cells s.arr → RepS st' s (st0.read s) := fun l p => by
    refine ⟨Nat.lt_of_lt_of_le h.1 l, Nat.le_trans h.2 p.length_le, ?_⟩
    obtain ⟨t, ht⟩ := p
    simp only [Store.read]
    rw [← ht, List.take_append_of_le_length h.2]
  exact ⟨_, one l p, one l' p'⟩

end

/-- What is seen of a value that was there at the first moment and is not used up. -/
structure SeenV (m R : Mem) (x : HV) (p : PV) : Prop where
  rep : RepV R x p
  agr : x.agr m R
  cond : ∀ h c, x = .cond h → p = .cond c → ∃ st0, Rep st0 h c ∧ st0.length ≤ m.conds.length ∧ (∀ a ∈ foot st0 h c, st0.cells a <+: m.conds.cells a) ∧
    ∀ a ∈ foot st0 h c, st0.cells a <+: R.conds.cells a

theorem once_value (once : UsedOnce cs) (h : runPure [] cs = some ps) {j k : Nat} (hjk : j ≤ k) (hk : k ≤ cs.length) {R : Mem}
    (g : Glimpse (memAt pol cs) j k R) {m : Mem} {hs : List HV} (mk : OnceAt pol cs ps k m hs) {i : Nat} (hi : i < j) {x : HV} {p : PV}
    (hx : hs[i]? = some x) (hp : ps[i]? = some p) (hu : Unused cs k i) : SeenV m R x p := by
  obtain ⟨mj, hj, moj⟩ := once_at pol once h j (by omega)
  have le : ∀ n, j ≤ n → n ≤ k → ∃ mn hn, OnceAt pol cs ps n mn hn ∧ Since mj mn hj hn (ps.take j) (Unused cs n) := fun n h1 h2 => by
    obtain ⟨mn, hn, mo⟩ := once_at pol once h n (by omega)
    have := moj.since once h (n - j) (by omega) mn hn (by rw [show j + (n - j) = n by omega]; exact mo)
    rw [show j + (n - j) = n by omega] at this
    exact ⟨mn, hn, mo, this⟩
  have hpj : (ps.take j)[i]? = some p := by rw [List.getElem?_take_of_lt hi]; exact hp
  obtain ⟨m2, h2, mo2, lk⟩ := le k hjk (Nat.le_refl _)
  have e := mk.run.symm.trans mo2.run
  cases e
  have ej : hj[i]? = some x := by
    obtain ⟨hsM, psM, A⟩ := moj.alive
    have lt : i < hj.length := by rw [A.lenH, List.length_take]; omega
    obtain ⟨t, ht⟩ := lk.pre
    rw [← ht, List.getElem?_append_left lt] at hx
    exact hx
  have rj := moj.value (hu.less hjk) ej hpj
  have lc : ∀ a ∈ x.foot mj p, mj.conds.cells a <+: R.conds.cells a := fun a ha => by
    have := glimpse_pre g.conds a fun n h1 h2 => by
      obtain ⟨mn, hn, mo, l⟩ := le n h1 h2
      simp only [moj.memAt, mo.memAt]; exact l.lc i x p (hu.less h2) ej hpj a ha
    simp only [moj.memAt] at this; exact this
  have ls : Le mj.sorts R.sorts := by
    have := glimpse_le g.sorts hjk fun n h1 h2 => by
      obtain ⟨mn, hn, mo, l⟩ := le n h1 h2
      simp only [moj.memAt, mo.memAt]; exact l.ls
    simp only [moj.memAt] at this; exact this
  have lv : Le mj.vals R.vals := by
    have := glimpse_le g.vals hjk fun n h1 h2 => by
      obtain ⟨mn, hn, mo, l⟩ := le n h1 h2
      simp only [moj.memAt, mo.memAt]; exact l.lv
    simp only [moj.memAt] at this; exact this
  have ld : Le mj.defs R.defs := by
    have := glimpse_le g.defs hjk fun n h1 h2 => by
      obtain ⟨mn, hn, mo, l⟩ := le n h1 h2
      simp only [moj.memAt, mo.memAt]; exact l.ld
    simp only [moj.memAt] at this; exact this
  have sz : mj.conds.length ≤ R.conds.length := by
    have := g.conds.1
    simp only [mk.memAt] at this
    rw [this]; exact lk.size
  have js : ∀ s ∈ x.jsl, RepS R.joins s p.joinsOf := fun s hs => glimpse_rep g.joins hjk fun n h1 h2 => by
    obtain ⟨mn, hn, mo, l⟩ := le n h1 h2
    simp only [mo.memAt]
    refine (mo.value (hu.less h2) ?_ ?_).joinsRep s hs
    · obtain ⟨t, ht⟩ := l.pre
      rw [← ht, List.getElem?_append_left (List.getElem?_eq_some_iff.1 ej).1]; exact ej
    · rw [List.getElem?_take_of_lt (by omega)]; exact hp
  have jk := (mk.value hu hx (by rw [List.getElem?_take_of_lt (by omega)]; exact hp)).joinsRep
  have lm := lk.lc i x p hu ej hpj
  refine ⟨rj.seenFoot sz lc ld ls lv js, ?_, ?_⟩
  · have b := (run_bnd0 pol _ _ moj.run).2 i x ej
    have sc : ∀ {s : Sl}, s.arr ∈ x.foot mj p → InB mj.conds s → SeenS m.conds R.conds s := fun hm b =>
      seen_pre b lk.size sz (lm _ hm) (lc _ hm)
    have ab : ∀ (q : HBase), q.joins ∈ x.jsl → q.where_.s.arr ∈ x.foot mj p → BaseB mj q → AgrB m R q := fun q hq hm b =>
      ⟨⟨_, jk _ hq, js _ hq⟩, sc hm b.cond⟩
    cases x <;> cases p <;> simp only [RepV] at rj <;> simp only [HV.bnd] at b <;> simp only [HV.agr]
    case cond.cond y c =>
      cases y with
      | leaf c => trivial
      | group b' s br =>
        cases c <;> simp only [Rep] at rj
        exact sc (by simp [HV.foot, foot]) (by simpa [HCond.bnd] using b)
    · exact ab _ (by simp [HV.jsl]) (by simp [HV.foot, foot_group]) b
    · exact ab _ (by simp [HV.jsl]) (by simp [HV.foot, foot_group]) b
    · exact ⟨ab _ (by simp [HV.jsl]) (by simp [HV.foot, foot_group]) b.1, agr_le b.2 lk.ls ls⟩
    · exact ab _ (by simp [HV.jsl]) (by simp [HV.foot, foot_group]) b
    · exact agr_le b lk.lv lv
    · exact ⟨sc (by simp [HV.foot, foot_group]) b.1, agr_le b.2 lk.lv lv⟩
    · exact sc (by simp [HV.foot, foot_group]) b
    · exact ab _ (by simp [HV.jsl]) (by simp [HV.foot, foot_group]) b
    · exact ab _ (by simp [HV.jsl]) (by simp [HV.foot, foot_group]) b
    · exact ⟨ab _ (by simp [HV.jsl]) (by simp [HV.foot, foot_group]) b.1, agr_le b.2 lk.ls ls⟩
  · rintro y c rfl rfl
    exact ⟨mj.conds, rj, lk.size, lm, lc⟩

/-- A call that sees each cell at some moment since its operands were there makes the same value by the same writes. -/
theorem once_call (once : UsedOnce cs) (h : runPure [] cs = some ps) {j k : Nat} {c : Call} (hjk : j ≤ k) (hc : cs[k]? = some c)
    (ho : ∀ i ∈ c.operands, i < j) {R : Mem} (g : Glimpse (memAt pol cs) j k R) :
    ∃ hs m' v R', runHeap pol Mem.empty [] (cs.take k) = some (memAt pol cs k, hs) ∧
      c.heap pol (memAt pol cs k) hs = some (m', v) ∧ c.heap pol R hs = some (R', v) ∧ SameM (memAt pol cs k) m' R R' := by
  have hk : k < cs.length := (List.getElem?_eq_some_iff.1 hc).1
  obtain ⟨m, hs, mo⟩ := once_at pol once h k (by omega)
  obtain ⟨x, hx, mo', _⟩ := mo.step once h hc
  have L : LenM m R := by
    have e := mo.memAt
    refine ⟨g.conds.1.trans ?_, g.joins.1.trans ?_, g.sorts.1.trans ?_, g.vals.1.trans ?_, g.defs.1.trans ?_⟩ <;> simp only [e]
  have hl : ps.length = cs.length := by have := (runPure_prefix _ _ _ h).2; simpa using this
  have seen : ∀ i ∈ c.operands, ∀ y, hs[i]? = some y → ∀ p, ps[i]? = some p → SeenV m R y p := fun i hi y hy p hp =>
    once_value once h hjk (by omega) g mo (ho i hi) hy hp ((once_fresh once hc).2 i hi)
  rw [mo.memAt]
  by_cases hna : c.noApply = true
  · obtain ⟨R', h1, h2⟩ := seen_call pol L c hna (hs := hs) (fun i hi y hy => by
      have := ho i hi
      exact (seen i hi y hy _ (List.getElem?_eq_getElem (by omega))).agr) _ hx
    exact ⟨hs, x.1, x.2, R', mo.run, hx, h1, h2⟩
  · obtain ⟨hsM, psM, A⟩ := mo.alive
    obtain ⟨p, hp, _⟩ := runPure_next h hc
    have fresh := (once_fresh once hc).2
    have at_ : ∀ {r : Nat} {q : PV}, (ps.take k)[r]? = some q → ps[r]? = some q := fun {r q} e => by
      have := (List.getElem?_eq_some_iff.1 e).1
      rw [List.length_take] at this
      rw [List.getElem?_take_of_lt (by omega)] at e; exact e
    cases c <;> simp only [Call.noApply, not_true_eq_false] at hna
    case applySpec r spec =>
      simp only [Call.pure] at hp
      split at hp
      · rename_i c0 e
        obtain ⟨y, a1, a2, a3, rep⟩ := A.find (fresh r (by simp [Call.operands])) e
        have nd := A.nodup a2 a3
        have sv := seen r (by simp [Call.operands]) _ a1 _ (at_ e)
        obtain ⟨st0, r0, k0, k1, k2⟩ := sv.cond _ _ rfl rfl
        have repR : Rep R.conds y c0 := sv.rep
        have ndR : (foot R.conds y c0).Nodup := by
          have e1 : foot m.conds y c0 = foot st0 y c0 := (Rep.kept k0 _ _ r0 k1).2
          have e2 : foot R.conds y c0 = foot st0 y c0 := (Rep.kept (by rw [L.conds]; exact k0) _ _ r0 k2).2
          rw [e2, ← e1]; exact nd
        obtain ⟨z, ez, az, xz⟩ := exactly_spec spec m.depth c0 (height_depth rep nd) m.conds y rep nd
        obtain ⟨w, ew, aw, xw⟩ := exactly_spec spec R.depth c0 (height_depth repR ndR) R.conds y repR ndR
        obtain ⟨q1, q2⟩ := Exactly.pair r0 L.conds k1 k2 az aw xz xw
        refine ⟨hs, { m with conds := z.1 }, .cond z.2, { R with conds := w.1 }, mo.run, ?_, ?_, sameM_conds L q2⟩
        · simp only [Call.heap, a1, ez, Option.map_some]
        · simp only [Call.heap, a1, ew, Option.map_some, q1]
      · cases hp
    case applyTable r t =>
      simp only [Call.pure] at hp
      split at hp
      · rename_i c0 e
        obtain ⟨y, a1, a2, a3, rep⟩ := A.find (fresh r (by simp [Call.operands])) e
        have nd := A.nodup a2 a3
        have sv := seen r (by simp [Call.operands]) _ a1 _ (at_ e)
        obtain ⟨st0, r0, k0, k1, k2⟩ := sv.cond _ _ rfl rfl
        have repR : Rep R.conds y c0 := sv.rep
        have ndR : (foot R.conds y c0).Nodup := by
          have e1 : foot m.conds y c0 = foot st0 y c0 := (Rep.kept k0 _ _ r0 k1).2
          have e2 : foot R.conds y c0 = foot st0 y c0 := (Rep.kept (by rw [L.conds]; exact k0) _ _ r0 k2).2
          rw [e2, ← e1]; exact nd
        obtain ⟨z, ez, az, xz⟩ := exactly_table t m.depth c0 (height_depth rep nd) m.conds y rep nd
        obtain ⟨w, ew, aw, xw⟩ := exactly_table t R.depth c0 (height_depth repR ndR) R.conds y repR ndR
        obtain ⟨q1, q2⟩ := Exactly.pair r0 L.conds k1 k2 az aw xz xw
        refine ⟨hs, { m with conds := z.1 }, .cond z.2, { R with conds := w.1 }, mo.run, ?_, ?_, sameM_conds L q2⟩
        · simp only [Call.heap, a1, ez, Option.map_some]
        · simp only [Call.heap, a1, ew, Option.map_some, q1]
      · cases hp

end Query
