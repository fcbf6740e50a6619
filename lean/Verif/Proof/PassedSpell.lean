import Verif.Proof.PassedRun
import Verif.Proof.HeapSafe
/-!
# Programs that pass lists: with the elements written out
-/
namespace Query
open Store

variable {s s' : Prog} {L L' : List PLst} {ps : List PV} {used : List Nat}

/-! ## Steps on lists change nothing else -/

theorem agr_refl {α : Type} {U : Nat → Prop} (st : Store α) : Agr U st st := fun _ _ _ => rfl

theorem agr_make {α : Type} {U : Nat → Prop} (st : Store α) (xs : List α) : Agr U st (st.make xs).1 := fun _ _ h => by
  simp only [Store.make, Store.alloc]; exact List.getElem?_append_left h

theorem agr_write {α : Type} {U : Nat → Prop} {st : Store α} {l : Sl} (i : Nat) (x : α) (h : U l.arr) : Agr U st (st.write l i x) :=
  fun a ha _ => write_ne i x fun e => ha (e ▸ h)

theorem onList_agr (pol : Policy) (p : PStep) (hp : p.onList = true) (h : p.run pol s = some s') :
    s'.hs = s.hs ∧ AgrM (listsOf s.ls) s.mem s'.mem := by
  cases p <;> simp [PStep.onList, PStep.isPut] at hp <;> simp only [PStep.run] at h
  · rename_i ns
    cases hn : getCondsH s.hs ns with
    | none => rw [hn] at h; cases h
    | some cs =>
      rw [hn] at h; cases h
      exact ⟨rfl, ⟨agr_make _ _, rfl, agr_refl _, agr_refl _, agr_refl _⟩⟩
  · cases h; exact ⟨rfl, ⟨agr_refl _, rfl, agr_make _ _, agr_refl _, agr_refl _⟩⟩
  · cases h; exact ⟨rfl, ⟨agr_refl _, rfl, agr_refl _, agr_make _ _, agr_refl _⟩⟩
  · cases h; exact ⟨rfl, ⟨agr_refl _, rfl, agr_refl _, agr_refl _, agr_make _ _⟩⟩
  · split at h
    · rename_i l c hu hn
      split at h
      · cases h
        exact ⟨rfl, ⟨agr_write _ _ ⟨l, List.mem_of_getElem? hu, rfl⟩, rfl, agr_refl _, agr_refl _, agr_refl _⟩⟩
      · cases h
    · cases h
  · split at h
    · rename_i l hu
      split at h
      · cases h
        exact ⟨rfl, ⟨agr_refl _, rfl, agr_write _ _ ⟨l, List.mem_of_getElem? hu, rfl⟩, agr_refl _, agr_refl _⟩⟩
      · cases h
    · cases h
  · split at h
    · rename_i l hu
      split at h
      · cases h
        exact ⟨rfl, ⟨agr_refl _, rfl, agr_refl _, agr_write _ _ ⟨l, List.mem_of_getElem? hu, rfl⟩, agr_refl _⟩⟩
      · cases h
    · cases h
  · split at h
    · rename_i l hu
      split at h
      · cases h
        exact ⟨rfl, ⟨agr_refl _, rfl, agr_refl _, agr_refl _, agr_write _ _ ⟨l, List.mem_of_getElem? hu, rfl⟩⟩⟩
      · cases h
    · cases h

/-! ## Values stand for the same plain values -/

theorem Agr.bnd {α : Type} {U : Nat → Prop} {st st' : Store α} (k : Agr U st st') {sl : Sl} (h : sl.arr < st.length) (ho : ¬ U sl.arr) :
    sl.arr < st'.length ∧ st'.cells sl.arr = st.cells sl.arr :=
  ⟨lt_of_get h (k _ ho h), by simp only [Store.cells, k _ ho h]⟩

theorem RepS.agr {α : Type} {U : Nat → Prop} {st st' : Store α} (k : Agr U st st') {sl : Sl} {xs : List α} (r : RepS st sl xs)
    (ho : ¬ U sl.arr) : RepS st' sl xs := by
  have b := k.bnd r.1 ho
  refine ⟨b.1, by rw [b.2]; exact r.2.1, ?_⟩
  have := r.2.2
  simp only [Store.read] at this ⊢
  rw [b.2]; exact this

section
variable {U : Nat → Prop} {st st' : Store HCond}

mutual
theorem Rep.agr (k : Agr U st st') (ho : StOff U st) : ∀ (h : HCond) (c : Cond), Rep st h c → h.off U → Rep st' h c
  | .leaf _, c, r, _ => by rw [rep_leaf_iff] at r ⊢; exact r
  | .group b sl br, .group b' cs br', r, hu => by
    rw [rep_group_iff] at r ⊢
    obtain ⟨r1, r2, r3, r4, r5⟩ := r
    have bd := k.bnd r3 hu
    refine ⟨r1, r2, bd.1, by rw [bd.2]; exact r4, ?_⟩
    have e : st'.read sl = st.read sl := by simp only [Store.read, bd.2]
    rw [e]
    exact RepL.agr k ho _ cs r5 (ho.read sl)
  | .group _ _ _, .fieldc _ _ _, r, _ => by simp [Rep] at r
  | .group _ _ _, .null _ _, r, _ => by simp [Rep] at r
  | .group _ _ _, .custom _ _, r, _ => by simp [Rep] at r
termination_by _ c => sizeOf c
theorem RepL.agr (k : Agr U st st') (ho : StOff U st) : ∀ (hs : List HCond) (cs : List Cond), RepL st hs cs → (∀ h ∈ hs, h.off U) → RepL st' hs cs
  | [], [], _, _ => by simp [RepL]
  | h :: hs, c :: cs, r, hu => by
    simp only [RepL] at r ⊢
    exact ⟨Rep.agr k ho h c r.1 (hu h (by simp)), RepL.agr k ho hs cs r.2 fun x hx => hu x (by simp [hx])⟩
  | [], _ :: _, r, _ => by simp [RepL] at r
  | _ :: _, [], r, _ => by simp [RepL] at r
termination_by _ cs => sizeOf cs
end

end

theorem RepB.agr {U : Lists} {m m' : Mem} (k : AgrM U m m') (ho : StOff U.c m.conds) {h : HBase} {q : BaseSelect} (r : RepB m h q)
    (hu : BaseO U h) : RepB m' h q :=
  ⟨r.op, r.tbl, by rw [k.joins]; exact r.joins, r.fields.agr k.defs hu.fields, Rep.agr k.conds ho _ _ r.cond hu.cond⟩

theorem RepV.agr {U : Lists} {m m' : Mem} (k : AgrM U m m') (ho : StOff U.c m.conds) {h : HV} {p : PV} (r : RepV m h p)
    (hu : h.off U) : RepV m' h p := by
  have g : ∀ {g : HGroup} {G : Group}, RepG m.conds g G → ¬ U.c g.s.arr → RepG m'.conds g G := fun r hu => Rep.agr k.conds ho _ _ r hu
  have mny : ∀ {h : HMany} {q : SelectMany}, RepM m h q → BaseO U h.base → ¬ U.s h.order.arr → RepM m' h q := fun r a b =>
    ⟨r.base.agr k ho a, r.offset, r.limit, r.order.agr k.sorts b, r.spec⟩
  cases h <;> cases p <;> simp only [RepV] at r ⊢ <;> simp only [HV.off] at hu
  · exact Rep.agr k.conds ho _ _ r hu
  · exact r.agr k ho hu
  · exact r.agr k ho hu
  · exact mny r hu.1 hu.2
  · exact ⟨r.1.agr k ho hu, r.2⟩
  · exact ⟨r.1, r.2.1, r.2.2.agr k.vals hu⟩
  · exact ⟨r.1, r.2.1, g r.2.2.1 hu.1, r.2.2.2.agr k.vals hu.2⟩
  · exact ⟨r.1, r.2.1, g r.2.2 hu⟩
  · exact r.agr k ho hu
  · exact r.agr k ho hu
  · exact mny r hu.1 hu.2

theorem SInv.agr (pi : PInv s L) {m' : Mem} (k : AgrM (listsOf s.ls) s.mem m') (inv : SInv used s.mem s.hs ps) : SInv used m' s.hs ps :=
  ⟨inv.len, inv.kind, fun i h p e1 e2 e3 => (inv.rep i h p e1 e2 e3).agr k pi.away.conds.off (pi.off i h e1), inv.below, inv.apart⟩

theorem Ext.agr {α : Type} {U : Nat → Prop} {st st' : Store α} (k : Agr U st st') {sl : Sl} (e : Ext false st sl) (ho : ¬ U sl.arr) :
    Ext false st' sl := by
  have b := k.bnd e.arr ho
  exact ⟨b.1, by rw [b.2]; exact e.len, e.full, fun h => by rw [b.2]; exact e.last h⟩

theorem KInv.agr {α : Type} {U : Nat → Prop} {st st' : Store α} (k : Agr U st st') {hs : List HV} {f : HV → List Sl}
    {ts : List (Option Nat)} {used : List Nat} (inv : KInv st (hs.map f) ts used) (ho : ∀ h ∈ hs, ∀ sl ∈ f h, ¬ U sl.arr) :
    KInv st' (hs.map f) ts used := by
  refine ⟨inv.len, inv.tok, inv.small, fun i sl hs' hf => (inv.ext i sl hs' hf).agr k ?_, inv.disj⟩
  cases hi : hs[i]? with
  | none => simp [slAt, hi] at hs'
  | some h => rw [slAt_of f hi] at hs'; exact ho h (List.mem_of_getElem? hi) sl hs'

theorem own_off {U : Lists} {h : HV} (o : h.off U) : (∀ sl ∈ oc h, ¬ U.c sl.arr) ∧ (∀ sl ∈ os' h, ¬ U.s sl.arr) ∧ (∀ sl ∈ ov h, ¬ U.v sl.arr) := by
  have none' : ∀ {P : Sl → Prop}, ∀ sl ∈ ([] : List Sl), P sl := fun sl h => by cases h
  have one : ∀ {P : Sl → Prop} {x : Sl}, P x → ∀ sl ∈ [x], P sl := fun h sl hs => by rw [List.mem_singleton.1 hs]; exact h
  cases h <;> simp only [HV.off] at o
  · rename_i c
    cases c with
    | leaf _ => exact ⟨none', none', none'⟩
    | group _ _ _ => exact ⟨one o, none', none'⟩
  · exact ⟨one o.cond, none', none'⟩
  · exact ⟨one o.cond, none', none'⟩
  · exact ⟨one o.1.cond, one o.2, none'⟩
  · exact ⟨none', none', none'⟩
  · exact ⟨none', none', one o⟩
  · exact ⟨one o.1, none', one o.2⟩
  · exact ⟨one o, none', none'⟩
  · exact ⟨one o.cond, none', none'⟩
  · exact ⟨one o.cond, none', none'⟩
  · exact ⟨one o.1.cond, one o.2, none'⟩

theorem KInv4.agr (pi : PInv s L) {m' : Mem} (k : AgrM (listsOf s.ls) s.mem m') {tc tj ts tv : List (Option Nat)} {uc uj us uv : List Nat}
    (inv : KInv4 s.mem s.hs tc tj ts tv uc uj us uv) : KInv4 m' s.hs tc tj ts tv uc uj us uv := by
  have o : ∀ h ∈ s.hs, h.off (listsOf s.ls) := fun h hh => by
    obtain ⟨i, e⟩ := List.getElem?_of_mem hh
    exact pi.off i h e
  exact ⟨inv.c.agr k.conds fun h hh => (own_off (o h hh)).1, by rw [k.joins]; exact inv.j,
    inv.s.agr k.sorts fun h hh => (own_off (o h hh)).2.1, inv.v.agr k.vals fun h hh => (own_off (o h hh)).2.2⟩

/-! ## Writing out the elements -/

theorem spell_call (p : PStep) {c : Call} (h : p.spell ps L = some (some c, L')) :
    p.onList = false ∧ L' = L ∧ p.asCall L = some c := by
  cases p <;> simp only [PStep.spell] at h
  · cases h; exact ⟨rfl, rfl, rfl⟩
  · cases hg : getConds ps _ <;> rw [hg] at h <;> cases h
  · cases h
  · cases h
  · cases h
  all_goals first
    | (split at h
       · rename_i e; cases h; exact ⟨rfl, rfl, by simp only [PStep.asCall, PStep.spell, e]⟩
       · cases h)
    | (split at h
       · split at h <;> cases h
       · cases h)

theorem spell_list (pol : Policy) (inv : SInv used s.mem s.hs ps) (pi : PInv s L) (p : PStep)
    (h : p.spell ps L = some (none, L')) : p.onList = true ∧ L' = p.lists L ∧ ∃ s', p.run pol s = some s' := by
  cases p <;> simp only [PStep.spell] at h
  · cases h
  · cases hg : getConds ps _ <;> rw [hg] at h <;> cases h
    obtain ⟨cs, e, _⟩ := inv.conds _ _ hg
    exact ⟨rfl, rfl, by simp only [PStep.run, e]; exact ⟨_, rfl⟩⟩
  · cases h; exact ⟨rfl, rfl, _, rfl⟩
  · cases h; exact ⟨rfl, rfl, _, rfl⟩
  · cases h; exact ⟨rfl, rfl, _, rfl⟩
  · rename_i u i n
    split at h
    · rename_i ns c hu hn
      split at h
      · rename_i hi
        cases h
        obtain ⟨x, ex, rx, _⟩ := inv.fetch hn rfl
        cases x <;> simp only [RepV] at rx
        rename_i x
        rcases pi.kind u with ⟨e1, e2⟩ | ⟨l, ns', e1, e2, e3, e4, e5⟩ | ⟨l, e1, e2, e3⟩ | ⟨l, e1, e2, e3⟩ | ⟨l, e1, e2, e3⟩ <;>
          rw [hu] at e2 <;> cases e2
        have hl := getCondsH_len e3
        rw [isEmpty_read e5] at hl
        exact ⟨rfl, by simp only [PStep.lists, hu], by simp only [PStep.run, e1, ex]; rw [if_pos (by omega)]; exact ⟨_, rfl⟩⟩
      · cases h
    · cases h
  · rename_i u i n
    split at h
    · rename_i ns hu
      split at h
      · rename_i hi
        cases h
        rcases pi.kind u with ⟨e1, e2⟩ | ⟨l, ns', e1, e2, e3, e4, e5⟩ | ⟨l, e1, e2, e3⟩ | ⟨l, e1, e2, e3⟩ | ⟨l, e1, e2, e3⟩ <;>
          rw [hu] at e2 <;> cases e2
        have hl : i < l.len := by
          have := List.length_take_le l.len (s.mem.defs.cells l.arr)
          simp only [Store.read] at hi; omega
        exact ⟨rfl, by simp only [PStep.lists, hu], by simp only [PStep.run, e1]; rw [if_pos hl]; exact ⟨_, rfl⟩⟩
      · cases h
    · cases h
  · rename_i u i n
    split at h
    · rename_i ns hu
      split at h
      · rename_i hi
        cases h
        rcases pi.kind u with ⟨e1, e2⟩ | ⟨l, ns', e1, e2, e3, e4, e5⟩ | ⟨l, e1, e2, e3⟩ | ⟨l, e1, e2, e3⟩ | ⟨l, e1, e2, e3⟩ <;>
          rw [hu] at e2 <;> cases e2
        have hl : i < l.len := by
          have := List.length_take_le l.len (s.mem.sorts.cells l.arr)
          simp only [Store.read] at hi; omega
        exact ⟨rfl, by simp only [PStep.lists, hu], by simp only [PStep.run, e1]; rw [if_pos hl]; exact ⟨_, rfl⟩⟩
      · cases h
    · cases h
  · rename_i u i n
    split at h
    · rename_i ns hu
      split at h
      · rename_i hi
        cases h
        rcases pi.kind u with ⟨e1, e2⟩ | ⟨l, ns', e1, e2, e3, e4, e5⟩ | ⟨l, e1, e2, e3⟩ | ⟨l, e1, e2, e3⟩ | ⟨l, e1, e2, e3⟩ <;>
          rw [hu] at e2 <;> cases e2
        have hl : i < l.len := by
          have := List.length_take_le l.len (s.mem.vals.cells l.arr)
          simp only [Store.read] at hi; omega
        exact ⟨rfl, by simp only [PStep.lists, hu], by simp only [PStep.run, e1]; rw [if_pos hl]; exact ⟨_, rfl⟩⟩
      · cases h
    · cases h
  all_goals (split at h <;> cases h)

/-- What is known between the steps: the lists of the builders, and that none is extended twice. -/
def Fresh4 (m : Mem) (hs : List HV) (cs : List Call) : Prop :=
  ∃ tc tj ts tv uc uj us uv, KInv4 m hs tc tj ts tv uc uj us uv ∧
    FreshVals tc uc (cs.map Call.condsAct) ∧ FreshVals tj uj (cs.map Call.joinsAct) ∧ FreshVals ts us (cs.map Call.sortsAct) ∧
    FreshVals tv uv (cs.map Call.valsAct)

theorem Fresh4.safe {m : Mem} {hs : List HV} {c : Call} {cs : List Call} (f : Fresh4 m hs (c :: cs)) : SafeCall m hs c := by
  obtain ⟨tc, tj, ts, tv, uc, uj, us, uv, k, f1, f2, f3, f4⟩ := f
  simp only [List.map_cons] at f1 f2 f3 f4
  exact ⟨fun r h e er _ => k.c.safe f1 e er, fun r h e er _ => k.j.safe f2 e er, fun r h e er _ => k.s.safe f3 e er,
    fun r h e er _ => k.v.safe f4 e er⟩

theorem Fresh4.step {m : Mem} {hs : List HV} {c : Call} {cs : List Call} (f : Fresh4 m hs (c :: cs)) {x : Mem × HV} (k4 : K4 m x.1 hs x.2 c) :
    Fresh4 x.1 (hs ++ [x.2]) cs := by
  obtain ⟨tc, tj, ts, tv, uc, uj, us, uv, k, f1, f2, f3, f4⟩ := f
  simp only [List.map_cons] at f1 f2 f3 f4
  refine ⟨_, _, _, _, _, _, _, _, ⟨?_, ?_, ?_, ?_⟩, f1.tail, f2.tail, f3.tail, f4.tail⟩
  · rw [List.map_append]; exact k.c.step k4.c f1.head
  · rw [List.map_append]; exact k.j.step k4.j f2.head
  · rw [List.map_append]; exact k.s.step k4.s f3.head
  · rw [List.map_append]; exact k.v.step k4.v f4.head

theorem Fresh4.empty {cs : List Call} (hl : ListsOnce cs) : Fresh4 Mem.empty [] cs :=
  ⟨[], [], [], [], [], [], [], [], ⟨kinv_empty, kinv_empty, kinv_empty, kinv_empty⟩,
    ⟨hl.conds, fun _ _ h => by cases h⟩, ⟨hl.joins, fun _ _ h => by cases h⟩, ⟨hl.sorts, fun _ _ h => by cases h⟩,
    ⟨hl.vals, fun _ _ h => by cases h⟩⟩

theorem run_spelled (pol : Policy) : ∀ (steps : List PStep) (s : Prog) (L : List PLst) (ps : List PV) (used : List Nat) (cs : List Call)
    (ps' : List PV) (L' : List PLst), spellOut ps L steps = some (cs, ps', L') → SInv used s.mem s.hs ps → PInv s L → Fresh4 s.mem s.hs cs →
    (∀ c ∈ cs, c.noApply = true) → (cs.filterMap Call.completes).Nodup → (∀ r ∈ cs.filterMap Call.completes, r ∉ used) →
    ∃ s' used', runProg pol s steps = some s' ∧ SInv used' s'.mem s'.hs ps' ∧ PInv s' L'
  | [], s, L, ps, used, cs, ps', L', h, inv, pi, _, _, _, _ => by
    simp only [spellOut] at h; cases h
    exact ⟨s, used, rfl, inv, pi⟩
  | p :: rest, s, L, ps, used, cs, ps', L', h, inv, pi, fr, hna, hj, hf2 => by
    simp only [spellOut] at h
    split at h
    · cases h
    · rename_i L1 e
      obtain ⟨ho, rfl, s1, e1⟩ := spell_list pol inv pi p e
      obtain ⟨eh, ag⟩ := onList_agr pol p ho e1
      have pi1 := pi.step pol p e1
      have inv1 := inv.agr pi ag
      rw [← eh] at inv1
      have fr1 : Fresh4 s1.mem s1.hs cs := by
        obtain ⟨tc, tj, ts, tv, uc, uj, us, uv, k, f⟩ := fr
        rw [eh]
        exact ⟨tc, tj, ts, tv, uc, uj, us, uv, k.agr pi ag, f⟩
      obtain ⟨s', used', r1, r2, r3⟩ := run_spelled pol rest s1 _ ps used cs ps' L' h inv1 pi1 fr1 hna hj hf2
      exact ⟨s', used', by simp only [runProg, e1]; exact r1, r2, r3⟩
    · rename_i c L1 e
      obtain ⟨ho, rfl, ec⟩ := spell_call p e
      split at h
      · cases h
      · rename_i v hv
        cases hr : spellOut (ps ++ [v]) L1 rest with
        | none => rw [hr] at h; cases h
        | some y =>
          obtain ⟨cs0, ps0, L0⟩ := y
          rw [hr] at h
          simp only [Option.map_some, Option.some.injEq, Prod.mk.injEq] at h
          obtain ⟨rfl, rfl, rfl⟩ := h
          obtain ⟨x, ex, inv1, k4⟩ := step2 inv pol c (hna c (by simp)) fr.safe (fun r hr => hf2 r (by simp [hr])) hv
          have e1 : p.run pol s = some (s.made x) := by
            rw [show p.run pol s = _ from run_asCall pol pi p ho, ec]
            simp only [Option.bind_some, ex, Option.map_some]
          have nd := nodup_completes hj
          have hsub : ∀ r, r ∈ cs0.filterMap Call.completes → r ∈ (c :: cs0).filterMap Call.completes := by
            intro r hr
            simp only [List.mem_filterMap] at hr ⊢
            obtain ⟨a, ha, hb⟩ := hr
            exact ⟨a, List.mem_cons_of_mem _ ha, hb⟩
          obtain ⟨s', used', r1, r2, r3⟩ := run_spelled pol rest (s.made x) L1 (ps ++ [v]) _ cs0 ps0 L0 hr inv1 (pi.made pol ex).1 (fr.step k4)
            (fun d hd => hna d (List.mem_cons_of_mem _ hd)) nd.1
            (fun r hr hu => by
              rcases List.mem_append.1 hu with h1 | h1
              · exact nd.2 r (by simpa using h1) hr
              · exact hf2 r (hsub r hr) h1)
          exact ⟨s', used', by simp only [runProg, e1]; exact r1, r2, r3⟩

theorem prog_reads (gr : Grow) (inv : SInv used s.mem s.hs ps) {r : Nat} {p : PV} (hr : ps[r]? = some p) (l : Look) :
    s.ReadsAs gr r l (p.look l) := by
  obtain ⟨x, hx⟩ : ∃ x, s.hs[r]? = some x := by
    have : r < s.hs.length := by rw [inv.len]; exact (List.getElem?_eq_some_iff.1 hr).1
    exact ⟨_, List.getElem?_eq_getElem this⟩
  refine ⟨x, hx, p.depth, fun d hd par => ?_⟩
  have k := inv.kind r x p hx hr
  have sv : Serves s.mem d x p := by
    cases hxj : x.isJoiner with
    | true => exact .inr ⟨hxj, by rw [← k]; exact hxj⟩
    | false => exact .inl ⟨inv.rep r x p hx hr (fun h => by rw [hxj] at h; cases h), hd⟩
  exact (look_serves gr d ⟨s.mem, par⟩ x p sv l).imp fun a b q => q.2.1

end Query
