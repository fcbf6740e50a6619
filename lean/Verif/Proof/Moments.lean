import Verif.Proof.Seen
import Verif.Proof.Threads
import Verif.Proof.Room
/-!
# Calls that overlap in time
-/
namespace Query
open Store

/-- What a prefix of a history leads to. -/
structure Moment (pol : Policy) (cs : List Call) (ps : List PV) (n : Nat) (m : Mem) (hs : List HV) : Prop where
  run : runHeap pol Mem.empty [] (cs.take n) = some (m, hs)
  inv : ∃ used, SInv used m hs (ps.take n) ∧ ∀ r ∈ used, r ∈ (cs.take n).filterMap Call.completes
  bnd : ∀ (i : Nat) (h : HV), hs[i]? = some h → h.bnd m

/-- A history that extends no list twice. -/
structure Calm (cs : List Call) (ps : List PV) : Prop where
  noApply : ∀ c ∈ cs, c.noApply = true
  lists : ListsOnce cs
  joins : JoinsOnce cs
  run : runPure [] cs = some ps

variable {pol : Policy} {cs : List Call} {ps : List PV}

theorem Calm.take (h : Calm cs ps) (n : Nat) : Calm (cs.take n) (ps.take n) := by
  have e := List.take_append_drop n cs
  refine ⟨fun c hc => h.noApply c (List.mem_of_mem_take hc), ?_, ?_, ?_⟩
  · have := h.lists; rw [← e] at this; exact this.left
  · have := h.joins; rw [← e] at this; exact this.left
  · have hr := h.run
    rw [← e] at hr
    obtain ⟨qs, h1, h2⟩ := runPure_append _ _ _ _ hr
    have l1 := (runPure_prefix _ _ _ h1).2
    have l2 := (runPure_prefix _ _ _ h.run).2
    obtain ⟨t, ht⟩ := (runPure_prefix _ _ _ h2).1
    rw [h1]
    congr 1
    by_cases hn : n ≤ cs.length
    · rw [← ht, List.take_append_of_le_length (by simp at l1; omega), List.take_of_length_le (by simp at l1; omega)]
    · rw [List.take_of_length_le (by simp at l2; omega)]
      rw [List.drop_of_length_le (by omega)] at h2
      simpa [runPure] using h2

theorem Calm.moment (pol : Policy) (h : Calm cs ps) (n : Nat) : ∃ m hs, Moment pol cs ps n m hs := by
  have t := h.take n
  obtain ⟨m, hs, used, e, inv, _, hu⟩ := run_safe_all pol ListsInv (listsInv_step pol) (cs.take n) [] Mem.empty [] [] _ sinv_empty
    (listsInv_empty t.lists) t.noApply t.joins (fun _ _ h => by cases h) t.run
  exact ⟨m, hs, e, ⟨used, inv, fun r hr => (hu r hr).resolve_left (fun h => by cases h)⟩, (run_bnd0 pol _ _ e).2⟩

theorem Moment.memAt {n : Nat} {m : Mem} {hs : List HV} (h : Moment pol cs ps n m hs) : memAt pol cs n = m := by
  simp [Query.memAt, h.run]

/-- Nothing that is there changes, the joins apart. -/
structure Later (m m' : Mem) (hs hs' : List HV) : Prop where
  lc : Le m.conds m'.conds
  ls : Le m.sorts m'.sorts
  lv : Le m.vals m'.vals
  ld : Le m.defs m'.defs
  pre : hs <+: hs'

theorem Moment.next (h : Calm cs ps) {n : Nat} {c : Call} (hc : cs[n]? = some c) {m m' : Mem} {hs hs' : List HV}
    (k : Moment pol cs ps n m hs) (k' : Moment pol cs ps (n + 1) m' hs') :
    ∃ v, c.heap pol m hs = some (m', v) ∧ hs' = hs ++ [v] ∧ Later m m' hs hs' := by
  obtain ⟨qs, p, h1, h2⟩ := pure_at h.run hc
  have t := h.take (n + 1)
  rw [take_snoc hc] at t
  obtain ⟨m1, hs1, x, r1, r2, k4⟩ := last_lists pol _ c qs p t.noApply t.lists t.joins h1 h2
  rw [k.run] at r1
  cases r1
  have r3 := k'.run
  rw [take_snoc hc, runHeap_append, k.run] at r3
  simp only [Option.bind_some, runHeap, r2] at r3
  cases r3
  exact ⟨x.2, r2, rfl, k4.lc, k4.ls, k4.lv, k4.ld, _, rfl⟩

theorem Moment.later (h : Calm cs ps) {j : Nat} {m : Mem} {hs : List HV} (k : Moment pol cs ps j m hs) : ∀ (d : Nat), j + d ≤ cs.length →
    ∀ m' hs', Moment pol cs ps (j + d) m' hs' → Later m m' hs hs'
  | 0, _, m', hs', k' => by
    have := k.run.symm.trans k'.run
    cases this
    exact ⟨.refl _, .refl _, .refl _, .refl _, List.prefix_refl _⟩
  | d + 1, hd, m', hs', k' => by
    obtain ⟨m1, hs1, k1⟩ := h.moment pol (j + d)
    have l := Moment.later h k d (by omega) m1 hs1 k1
    obtain ⟨c, hc⟩ : ∃ c, cs[j + d]? = some c := ⟨_, List.getElem?_eq_getElem (by omega)⟩
    obtain ⟨v, _, _, l'⟩ := k1.next h hc k'
    exact ⟨l.lc.trans l'.lc, l.ls.trans l'.ls, l.lv.trans l'.lv, l.ld.trans l'.ld, l.pre.trans l'.pre⟩

section
variable {α : Type} {at_ : Nat → Store α} {j k : Nat} {R : Store α}

theorem glimpse_le (g : GlimpseOf at_ j k R) (hjk : j ≤ k) (h : ∀ n, j ≤ n → n ≤ k → Le (at_ j) (at_ n)) : Le (at_ j) R := by
  refine ⟨by rw [g.1]; exact (h k hjk (Nat.le_refl _)).size, fun a => ?_⟩
  rw [List.prefix_iff_getElem?]
  intro i hi
  obtain ⟨n, h1, h2, e⟩ := g.2 a i _ (List.getElem?_eq_getElem hi)
  rw [e]
  exact Le.get (h n h1 h2) (List.getElem?_eq_getElem hi)

theorem repS_get {st : Store α} {s : Sl} {xs : List α} (h : RepS st s xs) {i : Nat} (hi : i < s.len) : (st.cells s.arr)[i]? = xs[i]? := by
  rw [← h.2.2, Store.read, List.getElem?_take_of_lt hi]

theorem glimpse_rep {s : Sl} {xs : List α} (g : GlimpseOf at_ j k R) (hjk : j ≤ k) (h : ∀ n, j ≤ n → n ≤ k → RepS (at_ n) s xs) :
    RepS R s xs := by
  have h0 := h j (Nat.le_refl _) hjk
  have hx : xs.length = s.len := h0.length
  have get : ∀ i < s.len, (R.cells s.arr)[i]? = xs[i]? := fun i hi => by
    have hl := h0.2.1
    obtain ⟨n, h1, h2, e⟩ := g.2 s.arr i _ (List.getElem?_eq_getElem (by omega))
    rw [e]; exact repS_get (h n h1 h2) hi
  have hlen : s.len ≤ (R.cells s.arr).length := by
    rcases Nat.eq_zero_or_pos s.len with h1 | h1
    · omega
    · have := get (s.len - 1) (by omega)
      rw [List.getElem?_eq_getElem (by omega : s.len - 1 < xs.length)] at this
      have := (List.getElem?_eq_some_iff.1 this).1
      omega
  refine ⟨by rw [g.1]; exact (h k hjk (Nat.le_refl _)).1, hlen, List.ext_getElem? fun i => ?_⟩
  simp only [Store.read]
  by_cases hi : i < s.len
  · rw [List.getElem?_take_of_lt hi, get i hi]
  · rw [List.getElem?_eq_none (by simp; omega), List.getElem?_eq_none (by omega)]

theorem agr_le {st0 st : Store α} {s : Sl} (h : InB st0 s) (l : Le st0 st) (l' : Le st0 R) : SeenS st R s :=
  have r : RepS st0 s (st0.read s) := ⟨h.1, h.2, rfl⟩
  ⟨_, r.mono l, r.mono l'⟩

end

/-- The joins of a value that stands for a plain one. -/
def PV.joinsOf : PV → List TableJoiner
  | .base q | .joinB q => q.joins
  | .single q | .joinS q => q.base.joins
  | .many q | .joinM q => q.base.joins
  | .count q => q.base.joins
  | _ => []

theorem RepV.joinsRep {m : Mem} {h : HV} {p : PV} (r : RepV m h p) : ∀ s ∈ h.jsl, RepS m.joins s p.joinsOf := by
  intro s hs
  cases h <;> cases p <;> simp only [RepV] at r <;> simp only [HV.jsl, List.mem_singleton, List.not_mem_nil] at hs <;> subst hs
  · exact r.joins
  · exact r.joins
  · exact r.base.joins
  · exact r.1.joins
  · exact r.joins
  · exact r.joins
  · exact r.base.joins

/-- Representation in a memory that holds all of an earlier one but for joins, and the joins of the value. -/
theorem RepV.seen {m R : Mem} {h : HV} {p : PV} (r : RepV m h p) (c : Le m.conds R.conds) (d : Le m.defs R.defs) (s : Le m.sorts R.sorts)
    (v : Le m.vals R.vals) (j : ∀ s ∈ h.jsl, RepS R.joins s p.joinsOf) : RepV R h p := by
  have b : ∀ {x : HBase} {q : BaseSelect}, RepB m x q → RepS R.joins x.joins q.joins → RepB R x q := fun r j =>
    ⟨r.op, r.tbl, j, r.fields.mono d, r.cond.mono c⟩
  cases h <;> cases p <;> simp only [RepV] at r ⊢ <;> simp only [HV.jsl, PV.joinsOf, List.mem_singleton, forall_eq] at j
  · exact Rep.mono c _ _ r
  · exact b r j
  · exact b r j
  · exact ⟨b r.base j, r.offset, r.limit, r.order.mono s, r.spec⟩
  · exact ⟨b r.1 j, r.2⟩
  · exact ⟨r.1, r.2.1, r.2.2.mono v⟩
  · exact ⟨r.1, r.2.1, r.2.2.1.mono c, r.2.2.2.mono v⟩
  · exact ⟨r.1, r.2.1, r.2.2.mono c⟩
  · exact b r j
  · exact b r j
  · exact ⟨b r.base j, r.offset, r.limit, r.order.mono s, r.spec⟩

theorem getCondsH_mem {hs : List HV} : ∀ (args : List Nat) (cs : List HCond), getCondsH hs args = some cs → ∀ i ∈ args, ∃ c, hs[i]? = some (.cond c)
  | [], _, _, i, hi => by cases hi
  | k :: ks, cs, h, i, hi => by
    simp only [getCondsH] at h
    split at h
    · rename_i c cs' h1 h2
      rcases List.mem_cons.1 hi with rfl | hi
      · exact ⟨c, h1⟩
      · exact getCondsH_mem ks cs' h2 i hi
    · cases h

/-- A join without condition is an operand of `On` only. -/
theorem operand_joiner {m : Mem} {hs : List HV} {c : Call} {x : Mem × HV} (hx : c.heap pol m hs = some x) {i : Nat} (hi : i ∈ c.operands)
    {h : HV} (e : hs[i]? = some h) (hj : h.isJoiner = true) : c.completes = some i := by
  have noargs : ∀ (args : List Nat) (cs : List HCond), getCondsH hs args = some cs → i ∉ args := fun args cs hg hi => by
    obtain ⟨c, hc⟩ := getCondsH_mem args cs hg i hi
    rw [e] at hc; cases hc; cases hj
  cases c <;> simp only [Call.operands, List.mem_cons, List.not_mem_nil, or_false] at hi
  all_goals try (subst hi; cases h <;> first | (simp [Call.heap, e] at hx; done) | (cases hj; done) | rfl)
  case newGroup j args =>
    simp only [Call.heap] at hx
    cases hg : getCondsH hs args with
    | none => rw [hg] at hx; cases hx
    | some cs => exact absurd hi (noargs args cs hg)
  all_goals
    rename_i r args
    rcases hi with rfl | hi
    · cases h <;> first | (simp [Call.heap, e] at hx; done) | (cases hj; done)
    · simp only [Call.heap] at hx
      cases hg : getCondsH hs args with
      | none => simp [hg] at hx
      | some cs => exact absurd hi (noargs args cs hg)

/-- What is seen of a value that was there at the first moment. -/
theorem glimpse_value (h : Calm cs ps) {j k : Nat} (hjk : j ≤ k) (hk : k ≤ cs.length) {R : Mem} (g : Glimpse (memAt pol cs) j k R)
    {m : Mem} {hs : List HV} (mk : Moment pol cs ps k m hs) {i : Nat} (hi : i < j) {x : HV} {p : PV} (hx : hs[i]? = some x)
    (hp : ps[i]? = some p) (hu : x.isJoiner = true → i ∉ (cs.take k).filterMap Call.completes) :
    RepV R x p ∧ x.agr m R := by
  -- every moment in between
  have at_ : ∀ n, j ≤ n → n ≤ k → ∃ mn hn, Moment pol cs ps n mn hn ∧ hn[i]? = some x ∧ RepV mn x p := by
    intro n h1 h2
    obtain ⟨mn, hn, mo⟩ := h.moment pol n
    have l := mo.later h (k - n) (by omega) m hs (by rw [show n + (k - n) = k by omega]; exact mk)
    obtain ⟨used, inv, hus⟩ := mo.inv
    have lt : i < hn.length := by
      rw [inv.len, List.length_take]
      have := (List.getElem?_eq_some_iff.1 hp).1
      omega
    have e : hn[i]? = some x := by
      obtain ⟨t, ht⟩ := l.pre
      rw [← ht, List.getElem?_append_left lt] at hx
      exact hx
    refine ⟨mn, hn, mo, e, inv.rep i x p e (by rw [List.getElem?_take_of_lt (by omega)]; exact hp) fun hj hm => hu hj ?_⟩
    have := hus i hm
    have pre : (cs.take k) = cs.take n ++ (cs.take k).drop n := by
      have := List.take_append_drop n (cs.take k)
      rw [List.take_take, show min n k = n by omega] at this
      exact this.symm
    rw [pre, List.filterMap_append]
    exact List.mem_append_left _ this
  obtain ⟨mj, hj, moj, ej, rj⟩ := at_ j (Nat.le_refl _) hjk
  have le : ∀ n, j ≤ n → n ≤ k → ∃ mn hn, Moment pol cs ps n mn hn ∧ Later mj mn hj hn := fun n h1 h2 => by
    obtain ⟨mn, hn, mo⟩ := h.moment pol n
    exact ⟨mn, hn, mo, moj.later h (n - j) (by omega) mn hn (by rw [show j + (n - j) = n by omega]; exact mo)⟩
  have lc : Le mj.conds R.conds := by
    have := glimpse_le g.conds hjk fun n h1 h2 => by
      obtain ⟨mn, hn, mo, l⟩ := le n h1 h2
      simp only [moj.memAt, mo.memAt]; exact l.lc
    simp only [moj.memAt] at this; exact this
  have ls : Le mj.sorts R.sorts := by
    have := glimpse_le g.sorts hjk fun n h1 h2 => by
      obtain ⟨mn, hn, mo, l⟩ := le n h1 h2
      simp only [moj.memAt, mo.memAt]; exact l.ls
    simp only [moj.memAt] at this; exact this
  have lv : Le mj.vals R.vals := by
    have := glimpse_le g.vals hjk fun n h1 h2 => by
      obtain ⟨mn, hn, mo, l⟩ := le n h1 h2
      simp only [moj.memAt, mo.memAt]; exact l.lv
    simp only [moj.memAt] at this; exact this
  have ld : Le mj.defs R.defs := by
    have := glimpse_le g.defs hjk fun n h1 h2 => by
      obtain ⟨mn, hn, mo, l⟩ := le n h1 h2
      simp only [moj.memAt, mo.memAt]; exact l.ld
    simp only [moj.memAt] at this; exact this
  have js : ∀ s ∈ x.jsl, RepS R.joins s p.joinsOf := fun s hs => glimpse_rep g.joins hjk fun n h1 h2 => by
    obtain ⟨mn, hn, mo, _, r⟩ := at_ n h1 h2
    simp only [mo.memAt]; exact r.joinsRep s hs
  obtain ⟨mk', hk', mok, _, rk⟩ := at_ k hjk (Nat.le_refl _)
  have e := mk.run.symm.trans mok.run
  cases e
  have jk := rk.joinsRep
  obtain ⟨m2, h2, mo2, l⟩ := le k hjk (Nat.le_refl _)
  have e := mk.run.symm.trans mo2.run
  cases e
  refine ⟨rj.seen lc ld ls lv js, ?_⟩
  have b := moj.bnd i x ej
  have ab : ∀ (q : HBase), q.joins ∈ x.jsl → BaseB mj q → AgrB m R q := fun q hq b => ⟨⟨_, jk _ hq, js _ hq⟩, agr_le b.cond l.lc lc⟩
  cases x <;> simp only [HV.bnd] at b <;> simp only [HV.agr]
  case cond y _ =>
    cases y with
    | leaf c => trivial
    | group b' s br => exact agr_le (by simpa [HCond.bnd] using b) l.lc lc
  · exact ab _ (by simp [HV.jsl]) b
  · exact ab _ (by simp [HV.jsl]) b
  · exact ⟨ab _ (by simp [HV.jsl]) b.1, agr_le b.2 l.ls ls⟩
  · exact ab _ (by simp [HV.jsl]) b
  · exact agr_le b l.lv lv
  · exact ⟨agr_le b.1 l.lc lc, agr_le b.2 l.lv lv⟩
  · exact agr_le b l.lc lc
  · exact ab _ (by simp [HV.jsl]) b
  · exact ab _ (by simp [HV.jsl]) b
  · exact ⟨ab _ (by simp [HV.jsl]) b.1, agr_le b.2 l.ls ls⟩

/-- A call that sees each cell at some moment since its operands were there makes the same value by the same writes. -/
theorem glimpse_call (h : Calm cs ps) {j k : Nat} {c : Call} (hjk : j ≤ k) (hc : cs[k]? = some c) (ho : ∀ i ∈ c.operands, i < j) {R : Mem}
    (g : Glimpse (memAt pol cs) j k R) : ∃ hs m' v R', runHeap pol Mem.empty [] (cs.take k) = some (memAt pol cs k, hs) ∧
      c.heap pol (memAt pol cs k) hs = some (m', v) ∧ c.heap pol R hs = some (R', v) ∧ SameM (memAt pol cs k) m' R R' := by
  have hk : k < cs.length := (List.getElem?_eq_some_iff.1 hc).1
  obtain ⟨m, hs, mo⟩ := h.moment pol k
  obtain ⟨m', hs', mo'⟩ := h.moment pol (k + 1)
  obtain ⟨v, hv, _, _⟩ := mo.next h hc mo'
  have L : LenM m R := by
    have e := mo.memAt
    refine ⟨g.conds.1.trans ?_, g.joins.1.trans ?_, g.sorts.1.trans ?_, g.vals.1.trans ?_, g.defs.1.trans ?_⟩ <;> simp only [e]
  obtain ⟨R', h1, h2⟩ := seen_call pol L c (h.noApply c (List.mem_of_getElem? hc)) (hs := hs) (fun i hi x hx => by
    have lt : i < ps.length := by
      have := (runPure_prefix _ _ _ h.run).2
      have := ho i hi
      simp at *; omega
    refine (glimpse_value h hjk (by omega) g mo (ho i hi) hx (List.getElem?_eq_getElem lt) fun hj => ?_).2
    have ec := operand_joiner hv hi hx hj
    have nd := (h.take (k + 1)).joins
    rw [take_snoc hc] at nd
    simp only [JoinsOnce, List.filterMap_append] at nd
    intro hm
    exact (List.nodup_append.1 nd).2.2 i hm i (by simp [ec]) rfl) _ hv
  rw [mo.memAt]
  exact ⟨hs, m', v, R', mo.run, hv, h1, h2⟩

end Query
