import Verif.Proof.HeapSame
import Verif.Spec.Spill
/-!
# Which cells calls write
-/
namespace Query
open Store

/-- Cells outside of `W` keep what they hold. -/
structure Spar {α : Type} (W : Nat → Nat → Prop) (st st' : Store α) : Prop where
  len : st.length ≤ st'.length
  keep : ∀ a i x, (st.cells a)[i]? = some x → ¬ W a i → (st'.cells a)[i]? = some x

/-- All cells of arrays from number `n` on are in `W`. -/
def New (n : Nat) (W : Nat → Nat → Prop) : Prop := ∀ a i, n ≤ a → W a i

/-- The spare cells of the slice are in `W`. -/
def Wr (W : Nat → Nat → Prop) (s : Sl) : Prop := ∀ a i, s.spare a i → W a i

section
variable {α : Type} {W : Nat → Nat → Prop} {st st' st'' : Store α} {s : Sl}

theorem Spar.refl (st : Store α) : Spar W st st := ⟨Nat.le_refl _, fun _ _ _ h _ => h⟩

theorem Spar.trans (h : Spar W st st') (k : Spar W st' st'') : Spar W st st'' :=
  ⟨Nat.le_trans h.len k.len, fun a i x e w => k.keep a i x (h.keep a i x e w) w⟩

theorem cells_some {a i : Nat} {x : α} (h : (st.cells a)[i]? = some x) : a < st.length := by
  rcases Nat.lt_or_ge a st.length with l | l
  · exact l
  · rw [cells_of_ge st a l] at h; simp at h

theorem spar_alloc (xs : List α) (cap : Nat) : Spar W st (st.alloc xs cap).1 :=
  ⟨by simp [Store.alloc], fun a i x h _ => by
    simp only [Store.alloc]; rw [cells_append_lt _ _ _ (cells_some h)]; exact h⟩

theorem wr_alloc (h : New st.length W) (xs : List α) (cap : Nat) : Wr W (st.alloc xs cap).2 :=
  fun a i k => h a i (Nat.le_of_eq k.1)

theorem spar_make (xs : List α) : Spar W st (st.make xs).1 := spar_alloc xs _

theorem New.mono {n m : Nat} (h : New n W) (k : n ≤ m) : New m W := fun a i l => h a i (Nat.le_trans k l)

theorem wr_make (h : New st.length W) (xs : List α) : Wr W (st.make xs).2 := wr_alloc h xs _

theorem writeAt_keep (cs xs : List α) (n i : Nat) (x : α) (h : cs[i]? = some x) (hi : i < n ∨ n + xs.length ≤ i) :
    (writeAt cs n xs)[i]? = some x := by
  have hl := (List.getElem?_eq_some_iff.1 h).1
  simp only [writeAt]
  rcases hi with hi | hi
  · rw [List.getElem?_append_left (by simp; omega), List.getElem?_append_left (by simp; omega), List.getElem?_take_of_lt hi]
    exact h
  · rw [List.getElem?_append_right (by simp; omega), List.getElem?_drop]
    have : n + xs.length + (i - (List.take n cs ++ xs).length) = i := by simp; omega
    rw [this]; exact h

theorem spar_append (gr : Grow) (h : Wr W s) (xs : List α) : Spar W st (st.append gr s xs).1 := by
  simp only [Store.append]
  split
  · rename_i hl
    refine ⟨by simp, fun a i x e w => ?_⟩
    have ha := cells_some e
    by_cases k : s.arr = a
    · subst k
      rw [cells_set_self _ _ _ ha]
      refine writeAt_keep _ _ _ _ _ e ?_
      rcases Nat.lt_or_ge i s.len with l | l
      · exact .inl l
      · rcases Nat.lt_or_ge i (s.len + xs.length) with l' | l'
        · exact absurd (h _ _ ⟨rfl, l, by omega⟩) w
        · exact .inr l'
    · rw [cells_set_ne _ _ _ _ k]; exact e
  · exact spar_alloc _ _

theorem spar_write (i : Nat) (x : α) (h : W s.arr i) : Spar W st (st.write s i x) := by
  refine ⟨by simp [Store.write], fun a j y e w => ?_⟩
  have ha := cells_some e
  simp only [Store.write]
  by_cases k : s.arr = a
  · subst k
    rw [cells_set_self _ _ _ ha, List.getElem?_set_ne]
    · exact e
    · intro l; subst l; exact w h
  · rw [cells_set_ne _ _ _ _ k]; exact e

theorem Spar.mono {W' : Nat → Nat → Prop} (h : Spar W st st') (k : ∀ a i, W a i → W' a i) : Spar W' st st' :=
  ⟨h.len, fun a i x e w => h.keep a i x e fun v => w (k a i v)⟩

/-- A slice none of whose cells is in `W` is read as before. -/
theorem Spar.read (h : Spar W st st') (hb : InB st s) (hw : ∀ a i, s.covers a i → ¬ W a i) : st'.read s = st.read s := by
  apply List.ext_getElem?
  intro i
  simp only [Store.read]
  rcases Nat.lt_or_ge i s.len with l | l
  · rw [List.getElem?_take_of_lt l, List.getElem?_take_of_lt l]
    have hi : i < (st.cells s.arr).length := Nat.lt_of_lt_of_le l hb.2
    rw [List.getElem?_eq_getElem hi]
    exact h.keep _ _ _ (List.getElem?_eq_getElem hi) (hw _ _ ⟨rfl, l⟩)
  · rw [List.getElem?_eq_none (by simp; omega), List.getElem?_eq_none (by simp; omega)]

end

section
variable {W : Nat → Nat → Prop} {st : Store HCond} {g : HGroup}

theorem spar_lit (xs : List HCond) : Spar W st (g.lit st xs).1 := spar_make xs

theorem spar_app (gr : Grow) (h : Wr W g.s) (xs : List HCond) : Spar W st (g.app gr st xs).1 := spar_append gr h xs

theorem spar_litApp (gr : Grow) (h : New st.length W) (xs ys : List HCond) :
    Spar W st ((g.lit st xs).2.app gr (g.lit st xs).1 ys).1 :=
  (spar_lit xs).trans (spar_app gr (wr_make h xs) ys)

theorem spar_newGroup (j : Str) (xs : List HCond) : Spar W st (newGroupH st j xs).1 := spar_make _

theorem wr_newGroup (h : New st.length W) (j : Str) (xs : List HCond) : Wr W (newGroupH st j xs).2.s := wr_make h _

theorem spar_addGroup (gr : Grow) (hn : New st.length W) (h : Wr W g.s) (another : HGroup) : Spar W st (g.addGroup gr st another).1 := by
  simp only [HGroup.addGroup]
  repeat' split
  all_goals first
    | exact Spar.refl _
    | exact spar_app gr h _
    | exact spar_litApp gr hn _ _
    | exact spar_lit _

theorem spar_addSingle (gr : Grow) (hn : New st.length W) (h : Wr W g.s) (c : HCond) : Spar W st (g.addSingleCondition gr st c).1 := by
  simp only [HGroup.addSingleCondition]
  cases c.asGroup with
  | some another => exact spar_addGroup gr hn h another
  | none =>
    dsimp only
    repeat' split
    all_goals first
      | exact spar_app gr h _
      | exact spar_lit _

theorem spar_addConditions (gr : Grow) (hn : New st.length W) (h : Wr W g.s) (op : Str) (cs : List HCond) :
    Spar W st (g.addConditions gr st op cs).1 := by
  simp only [HGroup.addConditions]
  split
  · exact Spar.refl _
  · repeat' split
    · exact spar_app gr h _
    · exact spar_addSingle gr hn h _
    · exact spar_litApp gr hn _ _
    · exact (spar_newGroup _ _).trans (spar_app gr h _)
    · have k := spar_newGroup (W := W) (st := st) lAND
      exact (k _).trans (spar_litApp gr (hn.mono (k _).len) _ _)

theorem spar_groupOf (gr : Grow) (hn : New st.length W) (j : Str) (c : HCond) (more : List HCond) :
    Spar W st (groupOf gr st j c more).1 := by
  have k := spar_newGroup (W := W) (st := st) j [c]
  exact k.trans (spar_addConditions gr (hn.mono k.len) (wr_newGroup hn j [c]) j more)

theorem spar_and (gr : Grow) (hn : New st.length W) (c : HCond) (h : ∀ b s br, c = .group b s br → Wr W s) (more : List HCond) :
    Spar W st (c.and gr st more).1 ∧ Spar W st (andH gr st c more).1 := by
  have k2 : Spar W st (andH gr st c more).1 := by
    simp only [andH]
    split
    · exact Spar.refl _
    · cases c with
      | leaf c => exact spar_groupOf gr hn _ _ _
      | group b s br => exact spar_addConditions (g := ⟨b, s, br⟩) gr hn (h _ _ _ rfl) _ _
  refine ⟨?_, k2⟩
  simp only [HCond.and]
  split
  · exact spar_groupOf gr hn _ _ _
  · exact spar_groupOf gr hn _ _ _
  · exact spar_groupOf gr hn _ _ _
  · exact k2
  · rename_i b s br
    exact spar_addConditions (g := ⟨b, s, br⟩) gr hn (h _ _ _ rfl) _ _

theorem spar_or (gr : Grow) (hn : New st.length W) (c : HCond) (h : ∀ b s br, c = .group b s br → Wr W s) (more : List HCond) :
    (∀ x, c.or gr st more = .ok x → Spar W st x.1) ∧ Spar W st (orH gr st c more).1 := by
  have k2 : Spar W st (orH gr st c more).1 := by
    simp only [orH]
    split
    · exact Spar.refl _
    · cases c with
      | leaf c => exact spar_groupOf gr hn _ _ _
      | group b s br => exact spar_addConditions (g := ⟨b, s, br⟩) gr hn (h _ _ _ rfl) _ _
  refine ⟨fun x e => ?_, k2⟩
  simp only [HCond.or] at e
  split at e
  · cases e; exact spar_groupOf gr hn _ _ _
  · cases e; exact spar_groupOf gr hn _ _ _
  · cases e
  · cases e; exact k2
  · rename_i b s br
    cases e; exact spar_addConditions (g := ⟨b, s, br⟩) gr hn (h _ _ _ rfl) _ _

/-! ## The Apply calls -/

/-- The cells of the group's slice are in `W`. -/
def HCond.within (W : Nat → Nat → Prop) : HCond → Prop
  | .leaf _ => True
  | .group _ s _ => ∀ a i, s.covers a i → W a i

/-- What lies in a cell in `W` has its cells in `W`. -/
def Shut (W : Nat → Nat → Prop) (st : Store HCond) : Prop := ∀ a i c, W a i → (st.cells a)[i]? = some c → c.within W

theorem shut_write {W : Nat → Nat → Prop} {st : Store HCond} (h : Shut W st) (s : Sl) (i : Nat) {c : HCond} (hc : c.within W) :
    Shut W (st.write s i c) := by
  intro a j x w e
  have ha : a < st.length := by simpa [Store.write] using cells_some e
  simp only [Store.write] at e
  by_cases k : s.arr = a
  · subst k
    rw [cells_set_self _ _ _ ha, List.getElem?_set] at e
    split at e
    · split at e
      · cases e; exact hc
      · cases e
    · exact h _ _ _ w e
  · rw [cells_set_ne _ _ _ _ k] at e
    exact h _ _ _ w e

theorem spar_applyLoop {W : Nat → Nat → Prop} (s : Sl) (f : Store HCond → HCond → Option (Store HCond × HCond))
    (hf : ∀ st c x, Shut W st → c.within W → f st c = some x → Spar W st x.1 ∧ Shut W x.1 ∧ x.2.within W) :
    ∀ (is : List Nat) (st st' : Store HCond), (∀ i ∈ is, W s.arr i) → Shut W st → applyLoop s f is st = some st' →
      Spar W st st' ∧ Shut W st'
  | [], st, st', _, hs, h => by cases h; exact ⟨Spar.refl _, hs⟩
  | i :: is, st, st', hi, hs, h => by
    simp only [applyLoop] at h
    split at h
    · cases h
    · rename_i c hc
      have hw := hi i (List.mem_cons_self ..)
      have hcw := hs _ _ _ hw hc
      cases e : f st c with
      | none => rw [e] at h; cases h
      | some r =>
        rw [e] at h
        obtain ⟨a1, a2, a3⟩ := hf st c r hs hcw e
        have b1 : Spar W r.1 (r.1.write s i r.2) := spar_write i r.2 hw
        obtain ⟨c1, c2⟩ := spar_applyLoop s f hf is _ _ (fun j hj => hi j (List.mem_cons_of_mem _ hj)) (shut_write a2 s i a3) h
        exact ⟨(a1.trans b1).trans c1, c2⟩

theorem spar_applySpec {W : Nat → Nat → Prop} (spec : FieldDef) : ∀ (d : Nat) (st : Store HCond) (c : HCond) (x : Store HCond × HCond),
    Shut W st → c.within W → applySpecH d st spec c = some x → Spar W st x.1 ∧ Shut W x.1 ∧ x.2.within W := by
  intro d
  induction d with
  | zero =>
    intro st c x hs hc h
    cases c with
    | leaf c => simp only [applySpecH] at h; cases h; exact ⟨Spar.refl _, hs, trivial⟩
    | group b s br => simp only [applySpecH] at h; cases h
  | succ d ih =>
    intro st c x hs hc h
    cases c with
    | leaf c => simp only [applySpecH] at h; cases h; exact ⟨Spar.refl _, hs, trivial⟩
    | group b s br =>
      simp only [applySpecH] at h
      obtain ⟨st', e, rfl⟩ := Option.map_eq_some_iff.1 h
      obtain ⟨a1, a2⟩ := spar_applyLoop s _ (fun st c x => ih st c x) _ st st'
        (fun i hi => hc _ _ ⟨rfl, List.mem_range.1 hi⟩) hs e
      exact ⟨a1, a2, hc⟩

theorem spar_applyTable {W : Nat → Nat → Prop} (t : Str) : ∀ (d : Nat) (st : Store HCond) (c : HCond) (x : Store HCond × HCond),
    Shut W st → c.within W → applyTableH d st t c = some x → Spar W st x.1 ∧ Shut W x.1 ∧ x.2.within W := by
  intro d
  induction d with
  | zero =>
    intro st c x hs hc h
    cases c with
    | leaf c => simp only [applyTableH] at h; cases h; exact ⟨Spar.refl _, hs, trivial⟩
    | group b s br => simp only [applyTableH] at h; cases h
  | succ d ih =>
    intro st c x hs hc h
    cases c with
    | leaf c => simp only [applyTableH] at h; cases h; exact ⟨Spar.refl _, hs, trivial⟩
    | group b s br =>
      simp only [applyTableH] at h
      obtain ⟨st', e, rfl⟩ := Option.map_eq_some_iff.1 h
      obtain ⟨a1, a2⟩ := spar_applyLoop s _ (fun st c x => ih st c x) _ st st'
        (fun i hi => hc _ _ ⟨rfl, List.mem_range.1 hi⟩) hs e
      exact ⟨a1, a2, hc⟩

theorem HCond.Through.trans {c d : HCond} {s t : Sl} (h : c.Through st s) (hd : d ∈ st.read s) (k : d.Through st t) : c.Through st t := by
  induction h with
  | own => exact .deep hd k
  | deep m _ ih => exact .deep m (ih hd)

theorem shut_through (c : HCond) : Shut (fun a i => ∃ s, c.Through st s ∧ s.covers a i) st ∧
    c.within fun a i => ∃ s, c.Through st s ∧ s.covers a i := by
  constructor
  · intro a i d ⟨s, h, e, l⟩ hd
    cases d with
    | leaf _ => trivial
    | group b t br =>
      intro a' i' k
      refine ⟨t, h.trans (d := .group b t br) ?_ .own, k⟩
      subst e
      simp only [Store.read]
      exact List.mem_iff_getElem?.2 ⟨i, by rw [List.getElem?_take_of_lt l]; exact hd⟩
  · cases c with
    | leaf _ => trivial
    | group b t br => exact fun a i k => ⟨t, .own, k⟩

end

end Query
