import Verif.Proof.HeapKind
/-!
# Every history in memory does what it does on values, when each list appended to is safe to append to
-/
namespace Query
open Store

/-- The invariant without any condition on the lists: who can be read, and where joins wait. -/
structure SInv (used : List Nat) (m : Mem) (hs : List HV) (ps : List PV) : Prop where
  len : hs.length = ps.length
  kind : ∀ (i : Nat) (h : HV) (p : PV), hs[i]? = some h → ps[i]? = some p → h.isJoiner = p.isJoiner
  rep : ∀ (i : Nat) (h : HV) (p : PV), hs[i]? = some h → ps[i]? = some p → (h.isJoiner = true → i ∉ used) → RepV m h p
  below : ∀ (i k : Nat) (h h' : HV), hs[i]? = some h → hs[k]? = some h' → h.isJoiner = true → i ∉ used → h'.isJoiner = false →
    ∀ s ∈ h.own.j, ∀ s' ∈ h'.jsl, s'.arr = s.arr → s'.len < s.len
  apart : ∀ (i k : Nat) (h h' : HV), i ≠ k → hs[i]? = some h → hs[k]? = some h' → h.isJoiner = true → h'.isJoiner = true → i ∉ used →
    k ∉ used → ∀ s ∈ h.own.j, ∀ s' ∈ h'.own.j, s'.arr ≠ s.arr

/-- Like `KTr`, but a copied list leaves the memory as it is. -/
def KTrS {α : Type} (st st' : Store α) (sl : Nat → List Sl) (O' : List Sl) : Act → Prop
  | .none => O' = [] ∧ st' = st
  | .full => Tr false st st' [] O' ∧ ∀ s ∈ O', ¬ s.room
  | .fresh => Tr false st st' [] O'
  | .app r => Tr false st st' (sl r) O'
  | .copy r => (O' = sl r ∧ st' = st) ∨ (Tr false st st' [] O' ∧ ∀ s ∈ O', ¬ s.room)

theorem KTrS.ktr {α : Type} {st st' : Store α} {sl : Nat → List Sl} {O' : List Sl} {a : Act} (h : KTrS st st' sl O' a) :
    KTr st st' sl O' a := by
  cases a with
  | none => exact h
  | full => exact h
  | fresh => exact h
  | app r => exact h
  | copy r => exact h.imp (fun ⟨a, b⟩ => ⟨a, by rw [b], fun x => by rw [b]⟩) id

theorem KTrS.le {α : Type} {st st' : Store α} {sl : Nat → List Sl} {O' : List Sl} {a : Act} (h : KTrS st st' sl O' a) :
    Le st st' := by
  cases a with
  | none => rw [h.2]; exact Le.refl _
  | full => exact h.1.le
  | fresh => exact Tr.le h
  | app r => exact Tr.le h
  | copy r =>
    rcases h with ⟨_, b⟩ | ⟨b, _⟩
    · rw [b]; exact Le.refl _
    · exact b.le

def oc (h : HV) : List Sl := h.own.c
def oj (h : HV) : List Sl := h.own.j
def os' (h : HV) : List Sl := h.own.s
def ov (h : HV) : List Sl := h.own.v

/-- What a call does to all four kinds of lists. -/
structure K4S (m m' : Mem) (hs : List HV) (h' : HV) (call : Call) : Prop where
  c : KTrS m.conds m'.conds (slAt (hs.map oc)) (oc h') call.condsAct
  j : KTrS m.joins m'.joins (slAt (hs.map oj)) (oj h') call.joinsAct
  s : KTrS m.sorts m'.sorts (slAt (hs.map os')) (os' h') call.sortsAct
  v : KTrS m.vals m'.vals (slAt (hs.map ov)) (ov h') call.valsAct
  d : Le m.defs m'.defs

structure K4 (m m' : Mem) (hs : List HV) (h' : HV) (call : Call) : Prop where
  c : KTr m.conds m'.conds (slAt (hs.map oc)) (oc h') call.condsAct
  j : KTr m.joins m'.joins (slAt (hs.map oj)) (oj h') call.joinsAct
  s : KTr m.sorts m'.sorts (slAt (hs.map os')) (os' h') call.sortsAct
  v : KTr m.vals m'.vals (slAt (hs.map ov)) (ov h') call.valsAct
  lc : Le m.conds m'.conds
  ls : Le m.sorts m'.sorts
  lv : Le m.vals m'.vals
  ld : Le m.defs m'.defs
  lj : ∀ (a k : Nat) (x : TableJoiner), (m.joins.cells a)[k]? = some x → (m'.joins.cells a)[k]? = some x ∨
    ∃ (r : Nat) (s : Sl), call.completes = some r ∧ s ∈ slAt (hs.map oj) r ∧ a = s.arr ∧ k = s.len - 1

theorem Le.get {α : Type} {st st' : Store α} (h : Le st st') {a k : Nat} {x : α} (e : (st.cells a)[k]? = some x) :
    (st'.cells a)[k]? = some x := by
  obtain ⟨t, ht⟩ := h.pre a
  rw [← ht, List.getElem?_append_left (List.getElem?_eq_some_iff.1 e).1]; exact e

/-- Each list the call appends to is full or the last in its array. -/
structure SafeCall (m : Mem) (hs : List HV) (call : Call) : Prop where
  c : ∀ r h, call.condsAct = .app r → hs[r]? = some h → h.isJoiner = false → ∀ s ∈ oc h, Ext false m.conds s
  j : ∀ r h, call.joinsAct = .app r → hs[r]? = some h → h.isJoiner = false → ∀ s ∈ oj h, Ext false m.joins s
  s : ∀ r h, call.sortsAct = .app r → hs[r]? = some h → h.isJoiner = false → ∀ s ∈ os' h, Ext false m.sorts s
  v : ∀ r h, call.valsAct = .app r → hs[r]? = some h → h.isJoiner = false → ∀ s ∈ ov h, Ext false m.vals s

theorem slAt_of {hs : List HV} {r : Nat} {h : HV} (f : HV → List Sl) (e : hs[r]? = some h) : slAt (hs.map f) r = f h := by
  simp [slAt, e]

theorem kcopy {α : Type} {st : Store α} {hs : List HV} {r : Nat} {h : HV} {f : HV → List Sl} {O : List Sl} (e : hs[r]? = some h)
    (ho : O = f h) : KTrS st st (slAt (hs.map f)) O (.copy r) := .inl ⟨by rw [slAt_of f e, ho], rfl⟩

theorem kapp {α : Type} {st st' : Store α} {hs : List HV} {r : Nat} {h : HV} {f : HV → List Sl} {O : List Sl} (e : hs[r]? = some h)
    (t : Tr false st st' (f h) O) : KTrS st st' (slAt (hs.map f)) O (.app r) := by
  simp only [KTrS]; rw [slAt_of f e]; exact t

theorem knone {α : Type} {st : Store α} {sl : Nat → List Sl} : KTrS st st sl [] .none := ⟨rfl, rfl⟩

theorem kfresh {α : Type} {st st' : Store α} {sl : Nat → List Sl} {O : List Sl} (t : Tr false st st' [] O) :
    KTrS st st' sl O .fresh := t

theorem kfull {α : Type} {st st' : Store α} {sl : Nat → List Sl} {O : List Sl} (t : Tr false st st' [] O) (h : ∀ s ∈ O, ¬ s.room) :
    KTrS st st' sl O .full := ⟨t, h⟩

theorem kremade {α : Type} {st st' : Store α} {sl : Nat → List Sl} {r : Nat} {O : List Sl}
    (t : Tr false st st' [] O) (h : ∀ s ∈ O, ¬ s.room) : KTrS st st' sl O (.copy r) := .inr ⟨t, h⟩

theorem made_full {α : Type} (st : Store α) (xs : List α) : ∀ s ∈ [(st.make xs).2], ¬ s.room := by
  intro s hs; simp only [List.mem_singleton] at hs; subst hs; simp [Sl.room, Store.make, Store.alloc]

theorem group_full (st : Store HCond) (j : Str) (xs : List HCond) : ∀ s ∈ [(newGroupH st j xs).2.s], ¬ s.room := made_full st _

/-- Adding the value made by a call other than `On`. -/
theorem SInv.push {used : List Nat} {m m' : Mem} {hs : List HV} {ps : List PV} {h' : HV} {p' : PV} {c : Call}
    (inv : SInv used m hs ps) (kk : K4S m m' hs h' c) (rv : RepV m' h' p')
    (hj : h'.isJoiner = false → ∀ s' ∈ h'.jsl,
      (∃ (k : Nat) (hk : HV), hs[k]? = some hk ∧ hk.isJoiner = false ∧ s' ∈ hk.jsl) ∨ m.joins.length ≤ s'.arr)
    (hj' : h'.isJoiner = true → ∀ s ∈ h'.own.j,
      m.joins.length ≤ s.arr ∨
        ∃ (k : Nat) (hk : HV) (x : Sl), hs[k]? = some hk ∧ hk.isJoiner = false ∧ x ∈ hk.jsl ∧ x.arr = s.arr ∧ x.len < s.len ∧
          (m.joins.cells x.arr).length = x.len) :
    SInv used m' (hs ++ [h']) (ps ++ [p']) ∧ K4 m m' hs h' c := by
  refine ⟨?_, ⟨kk.c.ktr, kk.j.ktr, kk.s.ktr, kk.v.ktr, kk.c.le, kk.s.le, kk.v.le, kk.d, fun a k x e => .inl (Le.get kk.j.le e)⟩⟩
  have repo : ∀ (k : Nat) (hk : HV), hs[k]? = some hk → hk.isJoiner = false → ∃ pk, RepV m hk pk := by
    intro k hk e1 e2
    have hlt : k < ps.length := by rw [← inv.len]; exact (List.getElem?_eq_some_iff.1 e1).1
    exact ⟨_, inv.rep k hk ps[k] e1 (List.getElem?_eq_getElem hlt) (by simp [e2])⟩
  have repj : ∀ (i : Nat) (h : HV), hs[i]? = some h → i ∉ used → h.isJoiner = true → ∀ s ∈ h.own.j,
      s.arr < m.joins.length ∧ s.len ≤ (m.joins.cells s.arr).length := by
    intro i h f1 hi j1 s hs'
    have hp : i < ps.length := by rw [← inv.len]; exact (List.getElem?_eq_some_iff.1 f1).1
    have rr := inv.rep i h ps[i] f1 (List.getElem?_eq_getElem hp) (fun _ => hi)
    exact rr.jsl s (by cases h <;> simp [HV.isJoiner] at j1 <;> exact hs')
  refine ⟨by simp [inv.len], ?_, ?_, ?_, ?_⟩
  · intro i h p e1 e2
    rcases get_push e1 with ⟨hlt, e1⟩ | ⟨hi, rfl⟩
    · rw [List.getElem?_append_left (by rw [← inv.len]; exact hlt)] at e2
      exact inv.kind i h p e1 e2
    · rw [hi, inv.len, List.getElem?_append_right (Nat.le_refl _)] at e2
      simp at e2; subst e2; exact rv.kind
  · intro i h p e1 e2 e3
    rcases get_push e1 with ⟨hlt, e1⟩ | ⟨hi, rfl⟩
    · rw [List.getElem?_append_left (by rw [← inv.len]; exact hlt)] at e2
      exact (inv.rep i h p e1 e2 e3).mono kk.c.le kk.j.le kk.d kk.s.le kk.v.le
    · rw [hi, inv.len, List.getElem?_append_right (Nat.le_refl _)] at e2
      simp at e2; subst e2; exact rv
  · intro i k h h1 e1 e2 j1 hi j2 s hs' s' hs'' he
    rcases get_push e1 with ⟨hlt, f1⟩ | ⟨rfl, rfl⟩ <;> rcases get_push e2 with ⟨hlt', f2⟩ | ⟨rfl, rfl⟩ <;> clear e1 e2
    · exact inv.below i k h h1 f1 f2 j1 hi j2 s hs' s' hs'' he
    · rcases hj j2 s' hs'' with ⟨k', hk', e3, j3, m3⟩ | hge
      · exact inv.below i k' h hk' f1 e3 j1 hi j3 s hs' s' m3 he
      · have := (repj i h f1 hi j1 s hs').1
        omega
    · obtain ⟨pk, rk⟩ := repo k h1 f2 j2
      have b := rk.jsl s' hs''
      rcases hj' j1 s hs' with hge | ⟨k0, h0, x, g1, g2, g3, ea, el, hl⟩
      · omega
      · rw [he, ← ea] at b
        omega
    · rw [j2] at j1; cases j1
  · have key : ∀ (i : Nat) (h : HV), hs[i]? = some h → i ∉ used → h.isJoiner = true → h'.isJoiner = true → ∀ s ∈ h.own.j,
        ∀ s' ∈ h'.own.j, s'.arr ≠ s.arr := by
      intro i h f1 hi j1 j2 s hs' s' hs'' e
      have b := repj i h f1 hi j1 s hs'
      rcases hj' j2 s' hs'' with hge | ⟨k0, h0, x, g1, g2, g3, ea, el, hl⟩
      · omega
      · have lt := inv.below i k0 h h0 f1 g1 j1 hi g2 s hs' x g3 (ea.trans e)
        rw [← e, ← ea] at b
        omega
    intro i k h h1 hne e1 e2 j1 j2 hi hk s hs' s' hs''
    rcases get_push e1 with ⟨hlt, f1⟩ | ⟨rfl, rfl⟩ <;> rcases get_push e2 with ⟨hlt', f2⟩ | ⟨rfl, rfl⟩ <;> clear e1 e2
    · exact inv.apart i k h h1 hne f1 f2 j1 j2 hi hk s hs' s' hs''
    · exact key i h f1 hi j1 j2 s hs' s' hs''
    · exact fun e => key k h1 f2 hk j2 j1 s' hs'' s hs' e.symm
    · exact absurd rfl hne

theorem knone' {α : Type} {st : Store α} {sl : Nat → List Sl} {O : List Sl} (h : O = []) : KTrS st st sl O .none := ⟨h, rfl⟩

/-- Adding the value made by `On`. -/
theorem SInv.complete {used : List Nat} {m : Mem} {hs : List HV} {ps : List PV} {hr h' : HV} {p' : PV}
    {r : Nat} {s : Sl} {x : TableJoiner} {l f : FieldDef} (inv : SInv used m hs ps) (hg : hs[r]? = some hr) (hjr : hr.isJoiner = true)
    (hru : r ∉ used) (ho : h'.own = hr.own) (hs1 : hr.own.j = [s]) (hs2 : h'.jsl = [s]) (hn : h'.isJoiner = false)
    (rv : RepV { m with joins := m.joins.write s (s.len - 1) x } h' p') :
    SInv (r :: used) { m with joins := m.joins.write s (s.len - 1) x } (hs ++ [h']) (ps ++ [p']) ∧
      K4 m { m with joins := m.joins.write s (s.len - 1) x } hs h' (.on r l f) := by
  have ha : s.arr < m.joins.length := by
    have hp : r < ps.length := by rw [← inv.len]; exact (List.getElem?_eq_some_iff.1 hg).1
    have rr := inv.rep r hr ps[r] hg (List.getElem?_eq_getElem hp) (fun _ => hru)
    have hm : s ∈ hr.own.j := by rw [hs1]; simp
    exact (rr.jsl s (by cases hr <;> simp [HV.isJoiner] at hjr <;> exact hm)).1
  have sub : ∀ i, i ∉ r :: used → i ≠ r ∧ i ∉ used := fun i hi => ⟨fun e => hi (by simp [e]), fun e => hi (by simp [e])⟩
  refine ⟨⟨by simp [inv.len], ?_, ?_, ?_, ?_⟩, ?_⟩
  · intro i h p e1 e2
    rcases get_push e1 with ⟨hlt, e1⟩ | ⟨hi, rfl⟩
    · rw [List.getElem?_append_left (by rw [← inv.len]; exact hlt)] at e2
      exact inv.kind i h p e1 e2
    · rw [hi, inv.len, List.getElem?_append_right (Nat.le_refl _)] at e2
      simp at e2; subst e2; exact rv.kind
  · intro i h p e1 e2 e3
    rcases get_push e1 with ⟨hlt, e1⟩ | ⟨hi, rfl⟩
    · rw [List.getElem?_append_left (by rw [← inv.len]; exact hlt)] at e2
      refine (inv.rep i h p e1 e2 (fun e => (sub i (e3 e)).2)).joins _ fun s0 h0 xs hx => hx.write s _ x ha fun he => ?_
      cases hj : h.isJoiner with
      | true =>
        have hm : s0 ∈ h.own.j := by cases h <;> simp [HV.isJoiner] at hj <;> exact h0
        have := inv.apart r i hr h (fun e => (sub i (e3 hj)).1 e.symm) hg e1 hjr hj hru (sub i (e3 hj)).2 s (by simp [hs1]) s0 hm
        exact absurd he this
      | false =>
        have := inv.below r i hr h hg e1 hjr hru hj s (by simp [hs1]) s0 h0 he
        omega
    · rw [hi, inv.len, List.getElem?_append_right (Nat.le_refl _)] at e2
      simp at e2; subst e2; exact rv
  · intro i k h h1 e1 e2 j1 hi j2 t ht t' ht' he
    rcases get_push e1 with ⟨hlt, f1⟩ | ⟨rfl, rfl⟩ <;> rcases get_push e2 with ⟨hlt', f2⟩ | ⟨rfl, rfl⟩ <;> clear e1 e2
    · exact inv.below i k h h1 f1 f2 j1 (sub i hi).2 j2 t ht t' ht' he
    · rw [hs2] at ht'; simp only [List.mem_singleton] at ht'; subst ht'
      exact absurd he (inv.apart i r h hr (sub i hi).1 f1 hg j1 hjr (sub i hi).2 hru t ht t' (by simp [hs1]))
    · rw [hn] at j1; cases j1
    · rw [hn] at j1; cases j1
  · intro i k h h1 hne e1 e2 j1 j2 hi hk t ht t' ht'
    rcases get_push e1 with ⟨hlt, f1⟩ | ⟨rfl, rfl⟩ <;> rcases get_push e2 with ⟨hlt', f2⟩ | ⟨rfl, rfl⟩ <;> clear e1 e2
    · exact inv.apart i k h h1 hne f1 f2 j1 j2 (sub i hi).2 (sub k hk).2 t ht t' ht'
    · rw [hn] at j2; cases j2
    · rw [hn] at j1; cases j1
    · rw [hn] at j1; cases j1
  · refine ⟨(kcopy hg ?_).ktr, .inl ⟨?_, length_write _ _ _ _, fun a => cells_write_length _ _ _ _ _ ha⟩, (kcopy hg ?_).ktr, (knone' ?_).ktr,
      Le.refl _, Le.refl _, Le.refl _, Le.refl _, fun a k y e => ?_⟩
    · simp only [oc, ho]
    · rw [slAt_of oj hg]; simp only [oj, ho]
    · simp only [os', ho]
    · cases h' <;> simp [HV.jsl, ov, HV.own] at hs2 ⊢
    · by_cases hx : a = s.arr ∧ k = s.len - 1
      · exact .inr ⟨r, s, rfl, by rw [slAt_of oj hg]; simp [oj, hs1], hx.1, hx.2⟩
      · left
        simp only [Store.write]
        by_cases h1 : a = s.arr
        · subst h1
          rw [cells_set_self _ _ _ ha, List.getElem?_set_ne (fun e => hx ⟨rfl, e.symm⟩)]; exact e
        · rw [cells_set_ne _ _ _ _ (fun e => h1 e.symm)]; exact e

variable {used : List Nat} {m : Mem} {hs : List HV} {ps : List PV} {pol : Policy} {p : PV}

theorem SInv.conds (inv : SInv used m hs ps) : ∀ (args : List Nat) (cs : List Cond), getConds ps args = some cs →
    ∃ hcs, getCondsH hs args = some hcs ∧ RepL m.conds hcs cs
  | [], cs, h => by
    simp only [getConds, Option.some.injEq] at h; subst h
    exact ⟨[], rfl, by simp [RepL]⟩
  | i :: is, cs, h => by
    simp only [getConds] at h
    split at h
    · rename_i c cs' e1 e2
      simp only [Option.some.injEq] at h; subst h
      obtain ⟨hcs, k1, k2⟩ := inv.conds is cs' e2
      have hl : i < hs.length := by rw [inv.len]; exact (List.getElem?_eq_some_iff.1 e1).1
      have e3 := List.getElem?_eq_getElem hl
      have kd := inv.kind i _ _ e3 e1
      have rv := inv.rep i _ _ e3 e1 (fun e => by rw [kd] at e; cases e)
      cases hh : hs[i] <;> rw [hh] at rv e3 <;> simp only [RepV] at rv
      rename_i x
      exact ⟨x :: hcs, by simp only [getCondsH, e3, k1], by simp only [RepL]; exact ⟨rv, k2⟩⟩
    · cases h

/-- The value in memory of a plain value that is no waiting join. -/
theorem SInv.fetch (inv : SInv used m hs ps) {i : Nat} {p : PV} (e : ps[i]? = some p) (hj : p.isJoiner = false) :
    ∃ h, hs[i]? = some h ∧ RepV m h p ∧ h.isJoiner = false := by
  have hl : i < hs.length := by rw [inv.len]; exact (List.getElem?_eq_some_iff.1 e).1
  have e3 := List.getElem?_eq_getElem hl
  have kd := inv.kind i _ _ e3 e
  exact ⟨_, e3, inv.rep i _ _ e3 e (fun x => by rw [kd, hj] at x; cases x), kd.trans hj⟩

theorem SInv.fetchJ (inv : SInv used m hs ps) {i : Nat} {p : PV} (e : ps[i]? = some p) (hu : i ∉ used) :
    ∃ h, hs[i]? = some h ∧ RepV m h p ∧ h.isJoiner = p.isJoiner := by
  have hl : i < hs.length := by rw [inv.len]; exact (List.getElem?_eq_some_iff.1 e).1
  have e3 := List.getElem?_eq_getElem hl
  exact ⟨_, e3, inv.rep i _ _ e3 e (fun _ => hu), inv.kind i _ _ e3 e⟩


theorem step2 (inv : SInv used m hs ps) (pol : Policy) (c : Call)
    (hna : c.noApply = true) (sf : SafeCall m hs c)
    (hf2 : ∀ r, c.completes = some r → r ∉ used) (hc : c.pure ps = some p) :
    ∃ x, c.heap pol m hs = some x ∧ SInv (c.completes.toList ++ used) x.1 (hs ++ [x.2]) (ps ++ [p]) ∧ K4 m x.1 hs x.2 c := by
  have hp : PolOK false pol := ⟨(fun h => by cases h), (fun h => by cases h), (fun h => by cases h), (fun h => by cases h)⟩
  cases c with
  | leaf c =>
    simp only [Call.pure] at hc
    split at hc
    · cases hc
    · rename_i hn
      simp only [Option.some.injEq] at hc; subst hc
      refine ⟨(m, .cond (.leaf c)), by simp only [Call.heap, hn]; rfl, ?_⟩
      refine inv.push ⟨knone, knone, knone, knone, Le.refl _⟩ ?_ (fun _ s h => by cases h) (fun e => by cases e)
      simp only [RepV]
      exact rep_leaf_iff.2 ⟨rfl, by cases h : c.asGroup <;> simp [h] at hn ⊢⟩
  | newGroup j args =>
    simp only [Call.pure] at hc
    obtain ⟨cs, e1, rfl⟩ := getConds_none_map hc
    obtain ⟨hcs, k1, k2⟩ := inv.conds args cs e1
    obtain ⟨t, rn⟩ := sim_newGroup (tight := false) j k2
    refine ⟨_, by simp only [Call.heap, k1, Option.map_some]; rfl, ?_⟩
    exact inv.push ⟨kfull t (group_full _ _ _), knone, knone, knone, Le.refl _⟩ rn (fun _ s h => by cases h)
      (fun e => by cases e)
  | andF r args =>
    simp only [Call.pure] at hc
    split at hc
    · rename_i c cs e1 e2
      simp only [Option.some.injEq] at hc; subst hc
      obtain ⟨hcs, k1, k2⟩ := inv.conds args cs e2
      obtain ⟨h, e3, rv, hj⟩ := inv.fetch e1 rfl
      cases h <;> simp only [RepV] at rv
      have k := sim_and hp.conds (sf.c r _ rfl e3 hj) rv k2
      refine ⟨_, by simp only [Call.heap, e3, k1]; rfl, ?_⟩
      exact inv.push ⟨kapp e3 k.tr, knone, knone, knone, Le.refl _⟩ k.rep (fun _ s h => by cases h) (fun e => by cases e)
    · cases hc
  | orF r args =>
    simp only [Call.pure] at hc
    split at hc
    · rename_i c cs e1 e2
      simp only [Option.some.injEq] at hc; subst hc
      obtain ⟨hcs, k1, k2⟩ := inv.conds args cs e2
      obtain ⟨h, e3, rv, hj⟩ := inv.fetch e1 rfl
      cases h <;> simp only [RepV] at rv
      have k := sim_or hp.conds (sf.c r _ rfl e3 hj) rv k2
      refine ⟨_, by simp only [Call.heap, e3, k1]; rfl, ?_⟩
      exact inv.push ⟨kapp e3 k.tr, knone, knone, knone, Le.refl _⟩ k.rep (fun _ s h => by cases h) (fun e => by cases e)
    · cases hc
  | and r args =>
    simp only [Call.pure] at hc
    split at hc
    · rename_i c cs e1 e2
      simp only [Option.some.injEq] at hc; subst hc
      obtain ⟨hcs, k1, k2⟩ := inv.conds args cs e2
      obtain ⟨h, e3, rv, hj⟩ := inv.fetch e1 rfl
      cases h <;> simp only [RepV] at rv
      have k := sim_andM hp.conds (sf.c r _ rfl e3 hj) rv k2
      refine ⟨_, by simp only [Call.heap, e3, k1]; rfl, ?_⟩
      exact inv.push ⟨kapp e3 k.tr, knone, knone, knone, Le.refl _⟩ k.rep (fun _ s h => by cases h) (fun e => by cases e)
    · cases hc
  | or r args =>
    simp only [Call.pure] at hc
    split at hc
    · rename_i c cs e1 e2
      obtain ⟨c', ec, rfl⟩ := toOption_map hc
      obtain ⟨hcs, k1, k2⟩ := inv.conds args cs e2
      obtain ⟨h, e3, rv, hj⟩ := inv.fetch e1 rfl
      cases h <;> simp only [RepV] at rv
      obtain ⟨x, ex, k⟩ := sim_orM hp.conds (sf.c r _ rfl e3 hj) rv k2 ec
      refine ⟨_, by simp only [Call.heap, e3, k1, ex, Res.toOption, Option.map_some]; rfl, ?_⟩
      exact inv.push ⟨kapp e3 k.tr, knone, knone, knone, Le.refl _⟩ k.rep (fun _ s h => by cases h) (fun e => by cases e)
    · cases hc
  | negate r n =>
    simp only [Call.pure] at hc
    split at hc
    · rename_i c e1
      simp only [Option.some.injEq] at hc; subst hc
      obtain ⟨h, e3, rv, hj⟩ := inv.fetch e1 rfl
      cases h <;> simp only [RepV] at rv
      refine ⟨_, by simp only [Call.heap, e3]; rfl, ?_⟩
      exact inv.push ⟨kcopy e3 (by simp only [oc, HV.own, sl_negate]), knone, knone, knone, Le.refl _⟩ (rv.negate n)
        (fun _ s h => by cases h) (fun e => by cases e)
    · cases hc
  | join r j =>
    simp only [Call.pure] at hc
    split at hc
    · rename_i c e1
      simp only [Option.some.injEq] at hc; subst hc
      obtain ⟨h, e3, rv, hj⟩ := inv.fetch e1 rfl
      cases h <;> simp only [RepV] at rv
      refine ⟨_, by simp only [Call.heap, e3]; rfl, ?_⟩
      exact inv.push ⟨kcopy e3 (by simp only [oc, HV.own, sl_join]), knone, knone, knone, Le.refl _⟩ (rv.join j)
        (fun _ s h => by cases h) (fun e => by cases e)
    · cases hc
  | withBrackets r =>
    simp only [Call.pure] at hc
    split at hc
    · rename_i b cs br e1
      simp only [Option.some.injEq] at hc; subst hc
      obtain ⟨h, e3, rv, hj⟩ := inv.fetch e1 rfl
      cases h <;> simp only [RepV] at rv
      rename_i h
      cases h with
      | leaf c => simp [Rep, Cond.asGroup] at rv
      | group b' s br' =>
        refine ⟨_, by simp only [Call.heap, e3]; rfl, ?_⟩
        have rg : RepG m.conds ⟨b', s, br'⟩ ⟨b, cs, br⟩ := rv
        exact inv.push ⟨kcopy e3 rfl, knone, knone, knone, Le.refl _⟩ rg.brackets
          (fun _ s h => by cases h) (fun e => by cases e)
    · cases hc
  | applySpec r spec => cases hna
  | applyTable r t => cases hna
  | selectFrom t =>
    simp only [Call.pure] at hc
    obtain ⟨q, eq', rfl⟩ := toOption_map hc
    unfold Query.selectFrom at eq'
    cases ht : tableP t with
    | err _ => rw [ht] at eq'; cases eq'
    | panic _ => rw [ht] at eq'; cases eq'
    | ok ti =>
      rw [ht] at eq'
      simp only [Res.bind_ok, Res.ok.injEq] at eq'
      subst eq'
      obtain ⟨tr, rb⟩ := rep_newBase (tight := false) m ti
      refine ⟨_, by simp only [Call.heap, selectFromH, ht, Res.bind_ok, Res.toOption, Option.map_some]; rfl, ?_⟩
      refine inv.push ⟨kfull tr.c (group_full _ _ _), kfull tr.j (made_full _ _), knone, knone, tr.d⟩ rb (fun _ s h => ?_) (fun e => by cases e)
      simp only [HV.jsl, List.mem_singleton] at h; subst h
      exact .inr (by simp [Store.make, Store.alloc])
  | fields r fs =>
    simp only [Call.pure] at hc
    split at hc
    · rename_i q e1
      simp only [Option.some.injEq] at hc; subst hc
      obtain ⟨h, e3, rv, hj⟩ := inv.fetch e1 rfl
      cases h <;> simp only [RepV] at rv
      rename_i h
      obtain ⟨ld, rb⟩ := rep_fields rv fs
      refine ⟨_, by simp only [Call.heap, e3]; rfl, ?_⟩
      exact inv.push ⟨kcopy e3 rfl, kcopy e3 rfl, kcopy e3 rfl, knone, ld⟩ rb
        (fun _ s h => .inl ⟨r, _, e3, rfl, h⟩) (fun e => by cases e)
    · rename_i q e1
      simp only [Option.some.injEq] at hc; subst hc
      obtain ⟨h, e3, rv, hj⟩ := inv.fetch e1 rfl
      cases h <;> simp only [RepV] at rv
      rename_i h
      obtain ⟨tr, rz⟩ := rep_zero (tight := false) m
      obtain ⟨ld, rb⟩ := rep_fields rz fs
      refine ⟨_, by simp only [Call.heap, e3]; rfl, ?_⟩
      refine inv.push ⟨kremade tr.c (made_full _ _), kremade tr.j (made_full _ _), kcopy e3 rfl, knone, tr.d.trans ld⟩ rb
        (fun _ s h => ?_) (fun e => by cases e)
      simp only [HV.jsl, List.mem_singleton] at h; subst h
      exact .inr (by simp [HBase.setFields, zeroBaseH, Store.make, Store.alloc])
    · rename_i q e1
      simp only [Option.some.injEq] at hc; subst hc
      obtain ⟨h, e3, rv, hj⟩ := inv.fetch e1 rfl
      cases h <;> simp only [RepV] at rv
      rename_i h
      obtain ⟨ld, rb⟩ := rep_fields rv.base fs
      refine ⟨_, by simp only [Call.heap, e3]; rfl, ?_⟩
      exact inv.push ⟨kcopy e3 rfl, kcopy e3 rfl, kcopy e3 rfl, knone, ld⟩
        ⟨rb, rv.offset, rv.limit, rv.order, rv.spec⟩
        (fun _ s h => .inl ⟨r, _, e3, rfl, h⟩) (fun e => by cases e)
    · cases hc
  | where_ r args =>
    simp only [Call.pure] at hc
    split at hc
    · rename_i q cs e1 e2
      simp only [Option.some.injEq] at hc; subst hc
      obtain ⟨hcs, k1, k2⟩ := inv.conds args cs e2
      obtain ⟨h, e3, rv, hj⟩ := inv.fetch e1 rfl
      cases h <;> simp only [RepV] at rv
      obtain ⟨tr, rb⟩ := rep_where hp rv (sf.c r _ rfl e3 hj _ (by simp [oc, HV.own])) k2
      refine ⟨_, by simp only [Call.heap, e3, k1]; rfl, ?_⟩
      exact inv.push ⟨kapp e3 tr, kcopy e3 rfl, kcopy e3 rfl, kcopy e3 rfl, Le.refl _⟩ rb
        (fun _ s h => .inl ⟨r, _, e3, rfl, h⟩) (fun e => by cases e)
    · rename_i q cs e1 e2
      simp only [Option.some.injEq] at hc; subst hc
      obtain ⟨hcs, k1, k2⟩ := inv.conds args cs e2
      obtain ⟨h, e3, rv, hj⟩ := inv.fetch e1 rfl
      cases h <;> simp only [RepV] at rv
      obtain ⟨tr, rb⟩ := rep_where hp rv (sf.c r _ rfl e3 hj _ (by simp [oc, HV.own])) k2
      refine ⟨_, by simp only [Call.heap, e3, k1]; rfl, ?_⟩
      exact inv.push ⟨kapp e3 tr, kcopy e3 rfl, kcopy e3 rfl, kcopy e3 rfl, Le.refl _⟩ rb
        (fun _ s h => .inl ⟨r, _, e3, rfl, h⟩) (fun e => by cases e)
    · rename_i q cs e1 e2
      simp only [Option.some.injEq] at hc; subst hc
      obtain ⟨hcs, k1, k2⟩ := inv.conds args cs e2
      obtain ⟨h, e3, rv, hj⟩ := inv.fetch e1 rfl
      cases h <;> simp only [RepV] at rv
      obtain ⟨tr, rb⟩ := rep_where hp rv.base (sf.c r _ rfl e3 hj _ (by simp [oc, HV.own])) k2
      refine ⟨_, by simp only [Call.heap, e3, k1]; rfl, ?_⟩
      exact inv.push ⟨kapp e3 tr, kcopy e3 rfl, kcopy e3 rfl, kcopy e3 rfl, Le.refl _⟩
        ⟨rb, rv.offset, rv.limit, rv.order, rv.spec⟩
        (fun _ s h => .inl ⟨r, _, e3, rfl, h⟩) (fun e => by cases e)
    · rename_i q cs e1 e2
      simp only [Option.some.injEq] at hc; subst hc
      obtain ⟨hcs, k1, k2⟩ := inv.conds args cs e2
      obtain ⟨h, e3, rv, hj⟩ := inv.fetch e1 rfl
      cases h <;> simp only [RepV] at rv
      have k := sim_addConditions hp.conds (sf.c r _ rfl e3 hj _ (by simp [oc, HV.own])) rv.2.2.1 k2 lAND
      refine ⟨_, by simp only [Call.heap, e3, k1]; rfl, ?_⟩
      exact inv.push ⟨kapp e3 k.tr, kcopy e3 rfl, kcopy e3 rfl, kcopy e3 rfl, Le.refl _⟩ ⟨rv.1, rv.2.1, k.rep, rv.2.2.2⟩
        (fun _ s h => by cases h) (fun e => by cases e)
    · rename_i q cs e1 e2
      simp only [Option.some.injEq] at hc; subst hc
      obtain ⟨hcs, k1, k2⟩ := inv.conds args cs e2
      obtain ⟨h, e3, rv, hj⟩ := inv.fetch e1 rfl
      cases h <;> simp only [RepV] at rv
      have k := sim_addConditions hp.conds (sf.c r _ rfl e3 hj _ (by simp [oc, HV.own])) rv.2.2 k2 lAND
      refine ⟨_, by simp only [Call.heap, e3, k1]; rfl, ?_⟩
      exact inv.push ⟨kapp e3 k.tr, kcopy e3 rfl, kcopy e3 rfl, kcopy e3 rfl, Le.refl _⟩ ⟨rv.1, rv.2.1, k.rep⟩
        (fun _ s h => by cases h) (fun e => by cases e)
    · cases hc
  | joinTable r t j =>
    simp only [Call.pure] at hc
    split at hc
    · rename_i q e1
      simp only [Option.some.injEq] at hc; subst hc
      obtain ⟨h, e3, rv, hj⟩ := inv.fetch e1 rfl
      cases h <;> simp only [RepV] at rv
      rename_i h
      have ej : Ext false m.joins h.joins := sf.j r _ rfl e3 hj _ (by simp [oj, HV.own])
      obtain ⟨tr, rb⟩ := rep_join hp rv ej t j
      have lg := join_longer hp ej t j
      refine ⟨_, by simp only [Call.heap, e3]; rfl, ?_⟩
      refine inv.push ⟨kcopy e3 rfl, kapp e3 tr, kcopy e3 rfl, knone, Le.refl _⟩ rb
        (fun e => by cases e) (fun _ s h' => ?_)
      simp only [HV.own, List.mem_singleton] at h'; subst h'
      exact lg.imp id fun ⟨_, b⟩ => ⟨r, _, h.joins, e3, rfl, by simp [HV.jsl], b⟩
    · rename_i q e1
      simp only [Option.some.injEq] at hc; subst hc
      obtain ⟨h, e3, rv, hj⟩ := inv.fetch e1 rfl
      cases h <;> simp only [RepV] at rv
      rename_i h
      have ej : Ext false m.joins h.joins := sf.j r _ rfl e3 hj _ (by simp [oj, HV.own])
      obtain ⟨tr, rb⟩ := rep_join hp rv ej t j
      have lg := join_longer hp ej t j
      refine ⟨_, by simp only [Call.heap, e3]; rfl, ?_⟩
      refine inv.push ⟨kcopy e3 rfl, kapp e3 tr, kcopy e3 rfl, knone, Le.refl _⟩ rb
        (fun e => by cases e) (fun _ s h' => ?_)
      simp only [HV.own, List.mem_singleton] at h'; subst h'
      exact lg.imp id fun ⟨_, b⟩ => ⟨r, _, h.joins, e3, rfl, by simp [HV.jsl], b⟩
    · rename_i q e1
      simp only [Option.some.injEq] at hc; subst hc
      obtain ⟨h, e3, rv, hj⟩ := inv.fetch e1 rfl
      cases h <;> simp only [RepV] at rv
      rename_i h
      have ej : Ext false m.joins h.base.joins := sf.j r _ rfl e3 hj _ (by simp [oj, HV.own])
      obtain ⟨tr, rb⟩ := rep_join hp rv.base ej t j
      have lg := join_longer hp ej t j
      refine ⟨_, by simp only [Call.heap, e3]; rfl, ?_⟩
      refine inv.push ⟨kcopy e3 rfl, kapp e3 tr, kcopy e3 rfl, knone, Le.refl _⟩
        ⟨rb, rv.offset, rv.limit, rv.order, rv.spec⟩ (fun e => by cases e) (fun _ s h' => ?_)
      simp only [HV.own, List.mem_singleton] at h'; subst h'
      exact lg.imp id fun ⟨_, b⟩ => ⟨r, _, h.base.joins, e3, rfl, by simp [HV.jsl], b⟩
    · cases hc
  | on r l x =>
    have hru := hf2 r rfl
    simp only [Call.pure] at hc
    split at hc
    · rename_i q e1
      obtain ⟨q', eq', rfl⟩ := toOption_map hc
      obtain ⟨h, e3, rv, hj⟩ := inv.fetchJ e1 hru
      cases h <;> simp only [RepV] at rv
      obtain ⟨y, ey, rb⟩ := rep_on rv l x eq'
      refine ⟨_, by simp only [Call.heap, e3, ey, Res.toOption, Option.map_some]; rfl, ?_⟩
      exact inv.complete e3 rfl hru rfl rfl rfl rfl rb
    · rename_i q e1
      obtain ⟨q', eq', rfl⟩ := toOption_map hc
      obtain ⟨h, e3, rv, hj⟩ := inv.fetchJ e1 hru
      cases h <;> simp only [RepV] at rv
      unfold SelectSingle.on at eq'
      cases hq : q.base.on l x with
      | err _ => rw [hq] at eq'; cases eq'
      | panic _ => rw [hq] at eq'; cases eq'
      | ok b =>
        rw [hq] at eq'
        simp only [Res.bind_ok, Res.ok.injEq] at eq'; subst eq'
        obtain ⟨y, ey, rb⟩ := rep_on rv l x hq
        refine ⟨_, by simp only [Call.heap, e3, ey, Res.toOption, Option.map_some]; rfl, ?_⟩
        exact inv.complete e3 rfl hru rfl rfl rfl rfl rb
    · rename_i q e1
      obtain ⟨q', eq', rfl⟩ := toOption_map hc
      obtain ⟨h, e3, rv, hj⟩ := inv.fetchJ e1 hru
      cases h <;> simp only [RepV] at rv
      unfold SelectMany.on at eq'
      cases hq : q.base.on l x with
      | err _ => rw [hq] at eq'; cases eq'
      | panic _ => rw [hq] at eq'; cases eq'
      | ok b =>
        rw [hq] at eq'
        simp only [Res.bind_ok, Res.ok.injEq] at eq'; subst eq'
        obtain ⟨y, ey, rb⟩ := rep_on rv.base l x hq
        refine ⟨_, by simp only [Call.heap, e3, ey, Res.toOption, Option.map_some]; rfl, ?_⟩
        exact inv.complete e3 rfl hru rfl rfl rfl rfl ⟨rb, rv.offset, rv.limit, rv.order, rv.spec⟩
    · cases hc
  | single r =>
    simp only [Call.pure] at hc
    split at hc
    · rename_i q e1
      simp only [Option.some.injEq] at hc; subst hc
      obtain ⟨h, e3, rv, hj⟩ := inv.fetch e1 rfl
      cases h <;> simp only [RepV] at rv
      refine ⟨_, by simp only [Call.heap, e3]; rfl, ?_⟩
      exact inv.push ⟨kcopy e3 rfl, kcopy e3 rfl, knone, knone, Le.refl _⟩ rv
        (fun _ s h => .inl ⟨r, _, e3, rfl, h⟩) (fun e => by cases e)
    · cases hc
  | embedded r =>
    simp only [Call.pure] at hc
    split at hc
    · rename_i q e1
      simp only [Option.some.injEq] at hc; subst hc
      obtain ⟨h, e3, rv, hj⟩ := inv.fetch e1 rfl
      cases h <;> simp only [RepV] at rv
      refine ⟨_, by simp only [Call.heap, e3]; rfl, ?_⟩
      exact inv.push ⟨kcopy e3 rfl, kcopy e3 rfl, knone, knone, Le.refl _⟩ rv
        (fun _ s h => .inl ⟨r, _, e3, rfl, h⟩) (fun e => by cases e)
    · rename_i q e1
      simp only [Option.some.injEq] at hc; subst hc
      obtain ⟨h, e3, rv, hj⟩ := inv.fetch e1 rfl
      cases h <;> simp only [RepV] at rv
      refine ⟨_, by simp only [Call.heap, e3]; rfl, ?_⟩
      exact inv.push ⟨kcopy e3 rfl, kcopy e3 rfl, knone, knone, Le.refl _⟩ rv.base
        (fun _ s h => .inl ⟨r, _, e3, rfl, h⟩) (fun e => by cases e)
    · cases hc
  | many r =>
    simp only [Call.pure] at hc
    split at hc
    · rename_i q e1
      simp only [Option.some.injEq] at hc; subst hc
      obtain ⟨h, e3, rv, hj⟩ := inv.fetch e1 rfl
      cases h <;> simp only [RepV] at rv
      refine ⟨_, by simp only [Call.heap, e3]; rfl, ?_⟩
      have ts := tr_make (tight := false) m.sorts []
      exact inv.push ⟨kcopy e3 rfl, kcopy e3 rfl, kfull ts (made_full _ _), knone, Le.refl _⟩
        ⟨⟨rv.op, rv.tbl, rv.joins, rv.fields, rv.cond⟩, rfl, rfl, rep_make m.sorts [], rfl⟩
        (fun _ s h => .inl ⟨r, _, e3, rfl, h⟩) (fun e => by cases e)
    · cases hc
  | offset r n =>
    simp only [Call.pure] at hc
    split at hc
    · rename_i q e1
      simp only [Option.some.injEq] at hc; subst hc
      obtain ⟨h, e3, rv, hj⟩ := inv.fetch e1 rfl
      cases h <;> simp only [RepV] at rv
      refine ⟨_, by simp only [Call.heap, e3]; rfl, ?_⟩
      exact inv.push ⟨kcopy e3 rfl, kcopy e3 rfl, kcopy e3 rfl, knone, Le.refl _⟩ ⟨rv.base, rfl, rv.limit, rv.order, rv.spec⟩
        (fun _ s h => .inl ⟨r, _, e3, rfl, h⟩) (fun e => by cases e)
    · cases hc
  | limit r n =>
    simp only [Call.pure] at hc
    split at hc
    · rename_i q e1
      simp only [Option.some.injEq] at hc; subst hc
      obtain ⟨h, e3, rv, hj⟩ := inv.fetch e1 rfl
      cases h <;> simp only [RepV] at rv
      refine ⟨_, by simp only [Call.heap, e3]; rfl, ?_⟩
      exact inv.push ⟨kcopy e3 rfl, kcopy e3 rfl, kcopy e3 rfl, knone, Le.refl _⟩ ⟨rv.base, rv.offset, rfl, rv.order, rv.spec⟩
        (fun _ s h => .inl ⟨r, _, e3, rfl, h⟩) (fun e => by cases e)
    · cases hc
  | orderBy r os =>
    simp only [Call.pure] at hc
    split at hc
    · rename_i q e1
      simp only [Option.some.injEq] at hc; subst hc
      obtain ⟨h, e3, rv, hj⟩ := inv.fetch e1 rfl
      cases h <;> simp only [RepV] at rv
      rename_i h
      have eo : Ext false m.sorts h.order := sf.s r _ rfl e3 hj _ (by simp [os', HV.own])
      refine ⟨_, by simp only [Call.heap, e3]; rfl, ?_⟩
      have ts := tr_append pol.sorts hp.sorts m.sorts h.order os eo
      have rs := rep_append pol.sorts m.sorts h.order os _ eo.arr rv.order
      exact inv.push ⟨kcopy e3 rfl, kcopy e3 rfl, kapp e3 ts, knone, Le.refl _⟩
        ⟨⟨rv.base.op, rv.base.tbl, rv.base.joins, rv.base.fields, rv.base.cond⟩, rv.offset, rv.limit, rs, rv.spec⟩
        (fun _ s h => .inl ⟨r, _, e3, rfl, h⟩) (fun e => by cases e)
    · cases hc
  | count r fs =>
    have hcount : ∀ (q : BaseSelect) (y : CountB), Query.count q fs = .ok y →
        y.base = q ∧ countedField fs = .ok y.countField := by
      intro q y e
      unfold Query.count at e
      unfold countedField
      cases fs with
      | nil =>
        simp only at e ⊢
        cases hfd : field c!"*" with
        | ok fd => rw [hfd] at e; simp only [Res.bind_ok, Res.ok.injEq] at e; subst e; exact ⟨rfl, rfl⟩
        | err _ => rw [hfd] at e; cases e
        | panic _ => rw [hfd] at e; cases e
      | cons f _ =>
        simp only at e ⊢
        cases hfd : field f with
        | ok fd => rw [hfd] at e; simp only [Res.bind_ok, Res.ok.injEq] at e; subst e; exact ⟨rfl, rfl⟩
        | err _ => rw [hfd] at e; cases e
        | panic _ => rw [hfd] at e; cases e
    simp only [Call.pure] at hc
    split at hc
    · rename_i q e1
      obtain ⟨y, ey, rfl⟩ := toOption_map hc
      obtain ⟨h, e3, rv, hj⟩ := inv.fetch e1 rfl
      cases h <;> simp only [RepV] at rv
      obtain ⟨b1, b2⟩ := hcount q y ey
      refine ⟨_, by simp only [Call.heap, e3, b2, Res.toOption, Option.map_some]; rfl, ?_⟩
      refine inv.push ⟨knone, knone, knone, knone, Le.refl _⟩ ?_ (fun _ s h => .inl ⟨r, _, e3, rfl, h⟩) (fun e => by cases e)
      simp only [RepV, b1]; exact ⟨rv, trivial⟩
    · rename_i q e1
      obtain ⟨y, ey, rfl⟩ := toOption_map hc
      obtain ⟨h, e3, rv, hj⟩ := inv.fetch e1 rfl
      cases h <;> simp only [RepV] at rv
      obtain ⟨b1, b2⟩ := hcount q.base y ey
      refine ⟨_, by simp only [Call.heap, e3, b2, Res.toOption, Option.map_some]; rfl, ?_⟩
      refine inv.push ⟨knone, knone, knone, knone, Le.refl _⟩ ?_ (fun _ s h => .inl ⟨r, _, e3, rfl, h⟩) (fun e => by cases e)
      simp only [RepV, b1]; exact ⟨rv.base, trivial⟩
    · cases hc
  | insertInto t =>
    simp only [Call.pure, Option.some.injEq] at hc; subst hc
    refine ⟨_, rfl, ?_⟩
    have tv := tr_make (tight := false) m.vals []
    exact inv.push ⟨knone, knone, knone, kfull tv (made_full _ _), Le.refl _⟩ ⟨rfl, rfl, rep_make m.vals []⟩
      (fun _ s h => by cases h) (fun e => by cases e)
  | insertFrom r vs =>
    simp only [Call.pure] at hc
    split at hc
    · rename_i q e1
      simp only [Option.some.injEq] at hc; subst hc
      obtain ⟨h, e3, rv, hj⟩ := inv.fetch e1 rfl
      cases h <;> simp only [RepV] at rv
      refine ⟨_, by simp only [Call.heap, e3]; rfl, ?_⟩
      have tv := tr_make (tight := false) m.vals []
      have ta := tr_append pol.vals hp.vals (m.vals.make []).1 (m.vals.make []).2 vs (tv.ext _ (by simp))
      have ra := rep_append pol.vals (m.vals.make []).1 (m.vals.make []).2 vs _ (tv.ext (m.vals.make []).2 (by simp)).arr
        (rep_make m.vals [])
      exact inv.push ⟨knone, knone, knone, kfresh (tv.trans ta), Le.refl _⟩
        ⟨rfl, congrArg (fun t => paramTableName (.ident t)) rv.tbl, ra⟩
        (fun _ s h => by cases h) (fun e => by cases e)
    · cases hc
  | values r vs =>
    simp only [Call.pure] at hc
    split at hc
    · rename_i q e1
      simp only [Option.some.injEq] at hc; subst hc
      obtain ⟨h, e3, rv, hj⟩ := inv.fetch e1 rfl
      cases h <;> simp only [RepV] at rv
      rename_i h
      have eo : Ext false m.vals h.setValues := sf.v r _ rfl e3 hj _ (by simp [ov, HV.own])
      refine ⟨_, by simp only [Call.heap, e3]; rfl, ?_⟩
      have ts := tr_append pol.vals hp.vals m.vals h.setValues vs eo
      have rs := rep_append pol.vals m.vals h.setValues vs _ eo.arr rv.2.2
      exact inv.push ⟨knone, knone, knone, kapp e3 ts, Le.refl _⟩
        ⟨rv.1, rv.2.1, rs⟩ (fun _ s h => by cases h) (fun e => by cases e)
    · cases hc
  | update t =>
    simp only [Call.pure, Option.some.injEq] at hc; subst hc
    refine ⟨_, rfl, ?_⟩
    have tv := tr_make (tight := false) m.vals []
    obtain ⟨t1, r1⟩ := sim_newGroup (tight := false) (st := m.conds) lAND (hs := []) (cs := []) (by simp [RepL])
    exact inv.push ⟨kfull t1 (group_full _ _ _), knone, knone, kfull tv (made_full _ _), Le.refl _⟩ ⟨rfl, rfl, r1, rep_make m.vals []⟩
      (fun _ s h => by cases h) (fun e => by cases e)
  | updateFrom r vs =>
    simp only [Call.pure] at hc
    split at hc
    · rename_i q e1
      simp only [Option.some.injEq] at hc; subst hc
      obtain ⟨h, e3, rv, hj⟩ := inv.fetch e1 rfl
      cases h <;> simp only [RepV] at rv
      rename_i h
      obtain ⟨tr, ru⟩ := rep_update hp rv (.ident h.baseTable) vs
      rw [rv.tbl] at ru tr
      refine ⟨_, by simp only [Call.heap, e3, rv.tbl]; rfl, ?_⟩
      exact inv.push ⟨kfresh tr.c, knone, knone, kfresh tr.v, tr.d⟩ ru (fun _ s h => by cases h) (fun e => by cases e)
    · rename_i q e1
      simp only [Option.some.injEq] at hc; subst hc
      obtain ⟨h, e3, rv, hj⟩ := inv.fetch e1 rfl
      cases h <;> simp only [RepV] at rv
      rename_i h
      obtain ⟨tr, ru⟩ := rep_update hp rv (.ident h.baseTable) vs
      rw [rv.tbl] at ru tr
      refine ⟨_, by simp only [Call.heap, e3, rv.tbl]; rfl, ?_⟩
      exact inv.push ⟨kfresh tr.c, knone, knone, kfresh tr.v, tr.d⟩ ru (fun _ s h => by cases h) (fun e => by cases e)
    · rename_i q e1
      simp only [Option.some.injEq] at hc; subst hc
      obtain ⟨h, e3, rv, hj⟩ := inv.fetch e1 rfl
      cases h <;> simp only [RepV] at rv
      rename_i h
      obtain ⟨tr, ru⟩ := rep_update hp rv.base (.name h.base.baseTable.name) vs
      rw [rv.base.tbl] at ru tr
      refine ⟨_, by simp only [Call.heap, e3, rv.base.tbl]; rfl, ?_⟩
      exact inv.push ⟨kfresh tr.c, knone, knone, kfresh tr.v, tr.d⟩ ru (fun _ s h => by cases h) (fun e => by cases e)
    · cases hc
  | set r vs =>
    simp only [Call.pure] at hc
    split at hc
    · rename_i q e1
      simp only [Option.some.injEq] at hc; subst hc
      obtain ⟨h, e3, rv, hj⟩ := inv.fetch e1 rfl
      cases h <;> simp only [RepV] at rv
      rename_i h
      have eo : Ext false m.vals h.setValues := sf.v r _ rfl e3 hj _ (by simp [ov, HV.own])
      refine ⟨_, by simp only [Call.heap, e3]; rfl, ?_⟩
      have ts := tr_append pol.vals hp.vals m.vals h.setValues vs eo
      have rs := rep_append pol.vals m.vals h.setValues vs _ eo.arr rv.2.2.2
      exact inv.push ⟨kcopy e3 rfl, knone, knone, kapp e3 ts, Le.refl _⟩
        ⟨rv.1, rv.2.1, rv.2.2.1, rs⟩ (fun _ s h => by cases h) (fun e => by cases e)
    · cases hc
  | delete t =>
    simp only [Call.pure, Option.some.injEq] at hc; subst hc
    refine ⟨_, rfl, ?_⟩
    obtain ⟨t1, r1⟩ := sim_newGroup (tight := false) (st := m.conds) lAND (hs := []) (cs := []) (by simp [RepL])
    exact inv.push ⟨kfull t1 (group_full _ _ _), knone, knone, knone, Le.refl _⟩ ⟨rfl, rfl, r1⟩
      (fun _ s h => by cases h) (fun e => by cases e)
  | deleteFrom r =>
    simp only [Call.pure] at hc
    split at hc
    · rename_i q e1
      simp only [Option.some.injEq] at hc; subst hc
      obtain ⟨h, e3, rv, hj⟩ := inv.fetch e1 rfl
      cases h <;> simp only [RepV] at rv
      rename_i h
      obtain ⟨tr, ru⟩ := rep_delete hp rv (.ident h.baseTable)
      rw [rv.tbl] at ru tr
      refine ⟨_, by simp only [Call.heap, e3, rv.tbl]; rfl, ?_⟩
      exact inv.push ⟨kfresh tr.c, knone, knone, knone, tr.d⟩ ru (fun _ s h => by cases h) (fun e => by cases e)
    · rename_i q e1
      simp only [Option.some.injEq] at hc; subst hc
      obtain ⟨h, e3, rv, hj⟩ := inv.fetch e1 rfl
      cases h <;> simp only [RepV] at rv
      rename_i h
      obtain ⟨tr, ru⟩ := rep_delete hp rv (.ident h.baseTable)
      rw [rv.tbl] at ru tr
      refine ⟨_, by simp only [Call.heap, e3, rv.tbl]; rfl, ?_⟩
      exact inv.push ⟨kfresh tr.c, knone, knone, knone, tr.d⟩ ru (fun _ s h => by cases h) (fun e => by cases e)
    · rename_i q e1
      simp only [Option.some.injEq] at hc; subst hc
      obtain ⟨h, e3, rv, hj⟩ := inv.fetch e1 rfl
      cases h <;> simp only [RepV] at rv
      rename_i h
      obtain ⟨tr, ru⟩ := rep_delete hp rv.base (.name h.base.baseTable.name)
      rw [rv.base.tbl] at ru tr
      refine ⟨_, by simp only [Call.heap, e3, rv.base.tbl]; rfl, ?_⟩
      exact inv.push ⟨kfresh tr.c, knone, knone, knone, tr.d⟩ ru (fun _ s h => by cases h) (fun e => by cases e)
    · cases hc


end Query
