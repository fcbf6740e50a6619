import Verif.Proof.HeapLook
/-!
# Slices of every history lie within their arrays

No assumption on the history: branching, applying and completing joins twice are allowed.
-/
namespace Query
open Store

/-- A slice lies within its array. -/
def InB {α : Type} (st : Store α) (s : Sl) : Prop := s.arr < st.length ∧ s.len ≤ (st.cells s.arr).length

/-- No array disappears or becomes shorter. -/
def Sz {α : Type} (st st' : Store α) : Prop := st.length ≤ st'.length ∧ ∀ a, (st.cells a).length ≤ (st'.cells a).length

section
variable {α : Type} {st st' st'' : Store α} {s : Sl}

theorem Sz.refl (st : Store α) : Sz st st := ⟨Nat.le_refl _, fun _ => Nat.le_refl _⟩

theorem Sz.trans (h : Sz st st') (k : Sz st' st'') : Sz st st'' :=
  ⟨Nat.le_trans h.1 k.1, fun a => Nat.le_trans (h.2 a) (k.2 a)⟩

theorem InB.mono (h : InB st s) (k : Sz st st') : InB st' s := ⟨Nat.lt_of_lt_of_le h.1 k.1, Nat.le_trans h.2 (k.2 _)⟩

theorem sz_of_le (h : Le st st') : Sz st st' := ⟨h.size, fun a => (h.pre a).length_le⟩

theorem sz_alloc (st : Store α) (xs : List α) (cap : Nat) : Sz st (st.alloc xs cap).1 := sz_of_le (le_alloc st xs cap)

theorem inb_alloc (st : Store α) (xs : List α) (cap : Nat) : InB (st.alloc xs cap).1 (st.alloc xs cap).2 :=
  ⟨(rep_alloc st xs cap).1, (rep_alloc st xs cap).2.1⟩

theorem sz_make (st : Store α) (xs : List α) : Sz st (st.make xs).1 := sz_alloc st xs _

theorem inb_make (st : Store α) (xs : List α) : InB (st.make xs).1 (st.make xs).2 := inb_alloc st xs _

theorem writeAt_length (cs xs : List α) (i : Nat) (h : i ≤ cs.length) :
    cs.length ≤ (writeAt cs i xs).length ∧ i + xs.length ≤ (writeAt cs i xs).length := by
  simp only [writeAt, List.length_append, List.length_take, List.length_drop]; omega

theorem sz_set (st : Store α) (a : Nat) (xs : List α) (h : (st.cells a).length ≤ xs.length) : Sz st (st.set a xs) := by
  refine ⟨by simp, fun b => ?_⟩
  by_cases e : a = b
  · subst e
    by_cases hl : a < st.length
    · rw [cells_set_self st a xs hl]; exact h
    · rw [cells_of_ge st a (by omega)]; simp
  · rw [cells_set_ne st a b xs e]; exact Nat.le_refl _

theorem sz_append (gr : Grow) (st : Store α) (s : Sl) (xs : List α) (h : InB st s) : Sz st (st.append gr s xs).1 := by
  unfold Store.append
  split
  · exact sz_set st _ _ (writeAt_length _ _ _ h.2).1
  · exact sz_alloc _ _ _

theorem inb_append (gr : Grow) (st : Store α) (s : Sl) (xs : List α) (h : InB st s) :
    InB (st.append gr s xs).1 (st.append gr s xs).2 := by
  unfold Store.append
  split
  · refine ⟨by simpa using h.1, ?_⟩
    simp only []
    rw [cells_set_self st _ _ h.1]
    exact (writeAt_length _ _ _ h.2).2
  · have := inb_alloc st (st.read s ++ xs) (s.len + xs.length + gr st.length s.cap (s.len + xs.length))
    exact this

theorem sz_write (st : Store α) (s : Sl) (i : Nat) (x : α) : Sz st (st.write s i x) := sz_set st _ _ (by simp)

/-- Where cells of a changed store come from. -/
theorem mem_alloc {xs : List α} {cap a : Nat} {x : α} (h : x ∈ Store.cells (st.alloc xs cap).1 a) : x ∈ st.cells a ∨ x ∈ xs := by
  by_cases ha : a < st.length
  · simp only [alloc] at h; rw [cells_append_lt st xs a ha] at h; exact .inl h
  · by_cases he : a = st.length
    · subst he; simp only [alloc] at h; rw [cells_append_self] at h; exact .inr h
    · simp only [alloc] at h; rw [cells_of_ge _ a (by simp; omega)] at h; cases h

theorem mem_set {xs : List α} {a b : Nat} {x : α} (h : x ∈ Store.cells (st.set a xs) b) : x ∈ st.cells b ∨ x ∈ xs := by
  by_cases e : a = b
  · subst e
    by_cases hl : a < st.length
    · rw [cells_set_self st a xs hl] at h; exact .inr h
    · rw [List.set_eq_of_length_le (by omega)] at h; exact .inl h
  · rw [cells_set_ne st a b xs e] at h; exact .inl h

theorem mem_writeAt {cs xs : List α} {i : Nat} {x : α} (h : x ∈ writeAt cs i xs) : x ∈ cs ∨ x ∈ xs := by
  simp only [writeAt, List.mem_append] at h
  rcases h with (h | h) | h
  · exact .inl (List.mem_of_mem_take h)
  · exact .inr h
  · exact .inl (List.mem_of_mem_drop h)

theorem mem_append (gr : Grow) {xs : List α} {a : Nat} {x : α} (h : x ∈ Store.cells (st.append gr s xs).1 a) :
    x ∈ st.cells a ∨ x ∈ xs ∨ x ∈ st.cells s.arr := by
  unfold Store.append at h
  split at h
  · rcases mem_set h with h | h
    · exact .inl h
    · rcases mem_writeAt h with h | h
      · exact .inr (.inr h)
      · exact .inr (.inl h)
  · rcases mem_alloc h with h | h
    · exact .inl h
    · rcases List.mem_append.1 h with h | h
      · exact .inr (.inr (List.mem_of_mem_take h))
      · exact .inr (.inl h)

theorem mem_write {i a : Nat} {x y : α} (h : y ∈ Store.cells (st.write s i x) a) : y ∈ st.cells a ∨ y = x ∨ y ∈ st.cells s.arr := by
  rcases mem_set h with h | h
  · exact .inl h
  · rcases List.mem_or_eq_of_mem_set h with h | h
    · exact .inr (.inr h)
    · exact .inr (.inl h)

end

/-- The slice of a group lies within its array; what is no slice is no group. -/
def HCond.bnd (st : Store HCond) : HCond → Prop
  | .leaf c => c.asGroup = none
  | .group _ s _ => InB st s

/-- All conditions in arrays. -/
def StB (st : Store HCond) : Prop := ∀ (a : Nat) (c : HCond), c ∈ st.cells a → c.bnd st

theorem HCond.bnd.mono {st st' : Store HCond} {c : HCond} (h : c.bnd st) (k : Sz st st') : c.bnd st' := by
  cases c with
  | leaf c => exact h
  | group b s br => exact InB.mono h k

theorem HCond.bnd.join {st : Store HCond} {c : HCond} (h : c.bnd st) (j : Str) : (c.join j).bnd st := by
  cases c with
  | leaf c => exact leaf_join c j h
  | group b s br => exact h

theorem HCond.bnd.negate {st : Store HCond} {c : HCond} (h : c.bnd st) (n : Bool) : (c.setNegate n).bnd st := by
  cases c with
  | leaf c => exact asGroup_negate c n h
  | group b s br => exact h

theorem StB.read {st : Store HCond} (h : StB st) (s : Sl) : ∀ c ∈ st.read s, c.bnd st :=
  fun c hc => h s.arr c (List.mem_of_mem_take hc)

/-- A step of the conditions' store to one that is fine too, giving a group. -/
def StepG (st : Store HCond) (r : Store HCond × HGroup) : Prop := Sz st r.1 ∧ StB r.1 ∧ InB r.1 r.2.s

/-- The same giving a condition. -/
def StepC (st : Store HCond) (r : Store HCond × HCond) : Prop := Sz st r.1 ∧ StB r.1 ∧ r.2.bnd r.1

variable {st : Store HCond} {g : HGroup}

theorem StepG.toC {r : Store HCond × HGroup} (h : StepG st r) : StepC st (r.1, r.2.toCond) := h

theorem StepG.of {st st' : Store HCond} {r : Store HCond × HGroup} (k : Sz st st') (h : StepG st' r) : StepG st r :=
  ⟨k.trans h.1, h.2⟩

theorem stB_of {st st' : Store HCond} (k : Sz st st') (h : ∀ (a : Nat) (c : HCond), c ∈ Store.cells st' a → c.bnd st) : StB st' :=
  fun a c hc => (h a c hc).mono k

theorem step_app (gr : Grow) (hs : StB st) (hg : InB st g.s) {xs : List HCond} (hx : ∀ c ∈ xs, c.bnd st) :
    StepG st (g.app gr st xs) := by
  refine ⟨sz_append gr st g.s xs hg, stB_of (sz_append gr st g.s xs hg) fun a c hc => ?_, inb_append gr st g.s xs hg⟩
  rcases mem_append gr hc with h | h | h
  · exact hs a c h
  · exact hx c h
  · exact hs _ c h

theorem step_lit (hs : StB st) {xs : List HCond} (hx : ∀ c ∈ xs, c.bnd st) : StepG st (g.lit st xs) := by
  refine ⟨sz_alloc st xs xs.length, stB_of (sz_alloc st xs xs.length) fun a c hc => ?_, inb_alloc st xs _⟩
  rcases mem_alloc (cap := xs.length) hc with h | h
  · exact hs a c h
  · exact hx c h

theorem step_newGroup (hs : StB st) (j : Str) {xs : List HCond} (hx : ∀ c ∈ xs, c.bnd st) : StepG st (newGroupH st j xs) := by
  have := step_lit (g := ⟨newBase lAND false, ⟨0, 0, 0⟩, false⟩) hs (xs := xs.map (·.join j)) (by
    intro c hc
    obtain ⟨x, hx', rfl⟩ := List.mem_map.1 hc
    exact (hx x hx').join j)
  exact this

theorem step_litApp (gr : Grow) (hs : StB st) {xs ys : List HCond} (hx : ∀ c ∈ xs, c.bnd st) (hy : ∀ c ∈ ys, c.bnd st) :
    StepG st ((g.lit st xs).2.app gr (g.lit st xs).1 ys) := by
  have h := step_lit (g := g) hs hx
  exact .of h.1 (step_app gr h.2.1 h.2.2 (fun c hc => (hy c hc).mono h.1))

theorem step_base {r : Store HCond × HGroup} (b : CondBase) (h : StepG st r) : StepG st (r.1, { r.2 with base := b }) := h

theorem step_addGroup (gr : Grow) (hs : StB st) (hg : InB st g.s) {another : HGroup} (ha : InB st another.s) :
    StepG st (g.addGroup gr st another) := by
  have rd := hs.read another.s
  have sg : ∀ (c : HCond), c.bnd st → ∀ x ∈ [c], x.bnd st := fun c hc x hx => by rw [List.mem_singleton.1 hx]; exact hc
  have hgb : g.withBrackets.toCond.bnd st := hg
  have hab : another.withBrackets.toCond.bnd st := ha
  simp only [HGroup.addGroup]
  repeat' split
  · exact ⟨Sz.refl _, hs, ha⟩
  · exact step_app gr hs hg rd
  · exact step_app gr hs hg rd
  · exact step_app gr hs hg (sg _ (hab.join _))
  · exact step_app gr hs hg rd
  · exact step_app gr hs hg (sg _ hab)
  · exact step_litApp gr hs (sg _ hgb) rd
  · exact step_app gr hs hg rd
  · exact step_app gr hs hg (sg _ hab)
  · exact step_litApp gr hs (sg _ hgb) rd
  · refine step_lit hs fun c hc => ?_
    rcases List.mem_cons.1 hc with rfl | hc
    · exact hgb
    · rw [List.mem_singleton.1 hc]; exact hab.join _

theorem step_addSingle (gr : Grow) (hs : StB st) (hg : InB st g.s) {c : HCond} (hc : c.bnd st) :
    StepG st (g.addSingleCondition gr st c) := by
  have sg : ∀ (c : HCond), c.bnd st → ∀ x ∈ [c], x.bnd st := fun c hc x hx => by rw [List.mem_singleton.1 hx]; exact hc
  have hgb : g.withBrackets.toCond.bnd st := hg
  simp only [HGroup.addSingleCondition]
  cases c with
  | group b s br => exact step_addGroup gr hs hg hc
  | leaf c =>
    simp only [HCond.asGroup]
    repeat' split
    · exact step_base _ (step_app gr hs hg (sg _ hc))
    · exact step_app gr hs hg (sg _ (hc.join _))
    · exact step_app gr hs hg (sg _ (hc.join _))
    · exact step_app gr hs hg (sg _ (hc.join _))
    · refine step_lit hs fun x hx => ?_
      rcases List.mem_cons.1 hx with rfl | hx
      · exact hgb
      · rw [List.mem_singleton.1 hx]; exact hc.join _

theorem step_addConditions (gr : Grow) (hs : StB st) (hg : InB st g.s) (op : Str) {cs : List HCond}
    (hc : ∀ c ∈ cs, c.bnd st) : StepG st (g.addConditions gr st op cs) := by
  have sg : ∀ (st : Store HCond) (c : HCond), c.bnd st → ∀ x ∈ [c], x.bnd st :=
    fun _ c hc x hx => by rw [List.mem_singleton.1 hx]; exact hc
  have hgb : g.withBrackets.toCond.bnd st := hg
  simp only [HGroup.addConditions]
  cases cs with
  | nil => exact ⟨Sz.refl _, hs, hg⟩
  | cons c0 more =>
    simp only []
    repeat' split
    · exact step_base _ (step_app gr hs hg hc)
    · exact step_addSingle gr hs hg ((hc c0 (by simp)).join _)
    · exact step_litApp gr hs (sg _ _ hgb) hc
    · have n := step_newGroup hs op hc
      exact .of n.1 (step_app gr n.2.1 (hg.mono n.1) (sg _ _ (HCond.bnd.join (c := (newGroupH st op (c0 :: more)).2.toCond) n.2.2 op)))
    · have n := step_newGroup hs lAND hc
      exact .of n.1 (step_litApp gr n.2.1 (sg _ _ (hgb.mono n.1)) (sg _ _ n.2.2))

theorem step_groupOf (gr : Grow) (hs : StB st) (j : Str) {c : HCond} (hc : c.bnd st) {more : List HCond}
    (hm : ∀ c ∈ more, c.bnd st) : StepC st (groupOf gr st j c more) := by
  have n := step_newGroup hs j (xs := [c]) (fun x hx => by rw [List.mem_singleton.1 hx]; exact hc)
  have a := step_addConditions gr n.2.1 n.2.2 j (fun x hx => (hm x hx).mono n.1)
  exact (StepG.of n.1 a).toC

theorem step_andH (gr : Grow) (hs : StB st) {c : HCond} (hc : c.bnd st) {more : List HCond} (hm : ∀ c ∈ more, c.bnd st) :
    StepC st (andH gr st c more) := by
  simp only [andH]
  split
  · exact ⟨Sz.refl _, hs, hc.join _⟩
  · cases c with
    | leaf c => exact step_groupOf gr hs lAND hc hm
    | group b s br => exact (step_addConditions gr hs (g := ⟨b, s, br⟩) hc lAND hm).toC

theorem step_orH (gr : Grow) (hs : StB st) {c : HCond} (hc : c.bnd st) {more : List HCond} (hm : ∀ c ∈ more, c.bnd st) :
    StepC st (orH gr st c more) := by
  simp only [orH]
  split
  · exact ⟨Sz.refl _, hs, hc.join _⟩
  · cases c with
    | leaf c =>
      have := step_groupOf gr hs lOR hc hm
      exact ⟨this.1, this.2.1, this.2.2.join _⟩
    | group b s br => exact (step_addConditions gr hs (g := ⟨b, s, br⟩) hc lOR hm).toC

theorem step_and (gr : Grow) (hs : StB st) {c : HCond} (hc : c.bnd st) {more : List HCond} (hm : ∀ c ∈ more, c.bnd st) :
    StepC st (c.and gr st more) := by
  unfold HCond.and
  split
  · exact step_groupOf gr hs lAND hc hm
  · exact step_groupOf gr hs lAND hc hm
  · exact step_groupOf gr hs lAND hc hm
  · exact step_andH gr hs hc hm
  · exact (step_addConditions gr hs (g := ⟨_, _, _⟩) hc lAND hm).toC

theorem step_or (gr : Grow) (hs : StB st) {c : HCond} (hc : c.bnd st) {more : List HCond} (hm : ∀ c ∈ more, c.bnd st)
    {r : Store HCond × HCond} (h : c.or gr st more = .ok r) : StepC st r := by
  unfold HCond.or at h
  split at h
  · cases h; exact step_groupOf gr hs lOR hc hm
  · cases h; exact step_groupOf gr hs lOR hc hm
  · cases h
  · cases h; exact step_orH gr hs hc hm
  · cases h; exact (step_addConditions gr hs (g := ⟨_, _, _⟩) hc lOR hm).toC

theorem asGroup_applySpec (c : Cond) (spec : FieldDef) (h : c.asGroup = none) : (c.applyFieldSpec spec).asGroup = none := by
  cases c <;> first | rfl | simp [Cond.asGroup] at h

theorem asGroup_applyTable (c : Cond) (t : Str) (h : c.asGroup = none) : (c.applyFieldTable t).asGroup = none := by
  cases c <;> first | rfl | simp [Cond.asGroup] at h

theorem step_applyLoop (s : Sl) (f : Store HCond → HCond → Option (Store HCond × HCond))
    (hf : ∀ st c r, StB st → c.bnd st → f st c = some r → StepC st r) :
    ∀ (is : List Nat) (st : Store HCond) (st' : Store HCond), StB st → applyLoop s f is st = some st' → Sz st st' ∧ StB st'
  | [], st, st', hs, h => by cases h; exact ⟨Sz.refl _, hs⟩
  | i :: is, st, st', hs, h => by
    simp only [applyLoop] at h
    split at h
    · cases h
    · rename_i c hc
      cases hr : f st c with
      | none => rw [hr] at h; cases h
      | some r =>
        rw [hr] at h
        have k := hf st c r hs (hs s.arr c (List.mem_of_getElem? hc)) hr
        have k2 : Sz r.1 (r.1.write s i r.2) := sz_write _ _ _ _
        have k3 : StB (r.1.write s i r.2) := stB_of k2 fun a x hx => by
          rcases mem_write hx with hx | rfl | hx
          · exact k.2.1 a x hx
          · exact k.2.2
          · exact k.2.1 _ x hx
        have ih := step_applyLoop s f hf is _ st' k3 h
        exact ⟨(k.1.trans k2).trans ih.1, ih.2⟩

theorem step_applySpec (spec : FieldDef) : ∀ (d : Nat) (st : Store HCond) (c : HCond) (r : Store HCond × HCond),
    StB st → c.bnd st → applySpecH d st spec c = some r → StepC st r
  | d, st, .leaf c, r, hs, hc, h => by
    cases d <;> (simp only [applySpecH, Option.some.injEq] at h; subst h; exact ⟨Sz.refl _, hs, asGroup_applySpec c spec hc⟩)
  | 0, st, .group b s br, r, hs, hc, h => by simp [applySpecH] at h
  | d + 1, st, .group b s br, r, hs, hc, h => by
    simp only [applySpecH] at h
    cases hl : applyLoop s (fun st c => applySpecH d st spec c) (List.range s.len) st with
    | none => rw [hl] at h; cases h
    | some st' =>
      rw [hl] at h
      cases h
      have k := step_applyLoop s _ (fun st c r => step_applySpec spec d st c r) _ st st' hs hl
      exact ⟨k.1, k.2, InB.mono hc k.1⟩

theorem step_applyTable (t : Str) : ∀ (d : Nat) (st : Store HCond) (c : HCond) (r : Store HCond × HCond),
    StB st → c.bnd st → applyTableH d st t c = some r → StepC st r
  | d, st, .leaf c, r, hs, hc, h => by
    cases d <;> (simp only [applyTableH, Option.some.injEq] at h; subst h; exact ⟨Sz.refl _, hs, asGroup_applyTable c t hc⟩)
  | 0, st, .group b s br, r, hs, hc, h => by simp [applyTableH] at h
  | d + 1, st, .group b s br, r, hs, hc, h => by
    simp only [applyTableH] at h
    cases hl : applyLoop s (fun st c => applyTableH d st t c) (List.range s.len) st with
    | none => rw [hl] at h; cases h
    | some st' =>
      rw [hl] at h
      cases h
      have k := step_applyLoop s _ (fun st c r => step_applyTable t d st c r) _ st st' hs hl
      exact ⟨k.1, k.2, InB.mono hc k.1⟩

/-! ## Builders -/

/-- The slices of a select lie within their arrays. -/
structure BaseB (m : Mem) (q : HBase) : Prop where
  joins : InB m.joins q.joins
  fields : InB m.defs q.fields
  cond : InB m.conds q.where_.s

/-- The slices of a value lie within their arrays. -/
def HV.bnd (m : Mem) : HV → Prop
  | .cond c => c.bnd m.conds
  | .base q | .single q | .joinB q | .joinS q | .count q _ => BaseB m q
  | .many q | .joinM q => BaseB m q.base ∧ InB m.sorts q.order
  | .insert q => InB m.vals q.setValues
  | .update q => InB m.conds q.where_.s ∧ InB m.vals q.setValues
  | .delete q => InB m.conds q.where_.s

/-- No array disappears or becomes shorter. -/
structure SzM (m m' : Mem) : Prop where
  conds : Sz m.conds m'.conds
  joins : Sz m.joins m'.joins
  sorts : Sz m.sorts m'.sorts
  vals : Sz m.vals m'.vals
  defs : Sz m.defs m'.defs

theorem SzM.refl (m : Mem) : SzM m m := ⟨.refl _, .refl _, .refl _, .refl _, .refl _⟩

theorem SzM.trans {a b c : Mem} (h : SzM a b) (k : SzM b c) : SzM a c :=
  ⟨h.conds.trans k.conds, h.joins.trans k.joins, h.sorts.trans k.sorts, h.vals.trans k.vals, h.defs.trans k.defs⟩

theorem BaseB.mono {m m' : Mem} {q : HBase} (h : BaseB m q) (k : SzM m m') : BaseB m' q :=
  ⟨h.joins.mono k.joins, h.fields.mono k.defs, h.cond.mono k.conds⟩

theorem HV.bnd.mono {m m' : Mem} {h : HV} (b : h.bnd m) (k : SzM m m') : h.bnd m' := by
  cases h <;> simp only [HV.bnd] at b ⊢
  · exact HCond.bnd.mono b k.conds
  · exact b.mono k
  · exact b.mono k
  · exact ⟨b.1.mono k, b.2.mono k.sorts⟩
  · exact b.mono k
  · exact b.mono k.vals
  · exact ⟨b.1.mono k.conds, b.2.mono k.vals⟩
  · exact b.mono k.conds
  · exact b.mono k
  · exact b.mono k
  · exact ⟨b.1.mono k, b.2.mono k.sorts⟩

/-- A step to a memory that is fine too. -/
def StepM (m : Mem) (m' : Mem) : Prop := SzM m m' ∧ StB m'.conds

theorem StepM.trans {a b c : Mem} (h : StepM a b) (k : StepM b c) : StepM a c := ⟨h.1.trans k.1, k.2⟩

theorem stepM_conds {m : Mem} {st : Store HCond} (h : Sz m.conds st) (k : StB st) : StepM m { m with conds := st } :=
  ⟨⟨h, .refl _, .refl _, .refl _, .refl _⟩, k⟩

theorem getCondsH_bnd {m : Mem} {hs : List HV} (hb : ∀ (i : Nat) (h : HV), hs[i]? = some h → h.bnd m) :
    ∀ (is : List Nat) (cs : List HCond), getCondsH hs is = some cs → ∀ c ∈ cs, c.bnd m.conds
  | [], cs, h => by cases h; intro c hc; cases hc
  | i :: is, cs, h => by
    simp only [getCondsH] at h
    split at h
    · rename_i c cs' h1 h2
      cases h
      intro x hx
      rcases List.mem_cons.1 hx with rfl | hx
      · exact hb i _ h1
      · exact getCondsH_bnd hb is cs' h2 x hx
    · cases h

theorem step_where (pol : Policy) {m : Mem} {g : HGroup} (hs : StB m.conds) (hg : InB m.conds g.s) {cs : List HCond}
    (hc : ∀ c ∈ cs, c.bnd m.conds) :
    StepM m { m with conds := (g.groupAND pol.conds m.conds cs).1 } ∧
      InB (g.groupAND pol.conds m.conds cs).1 (g.groupAND pol.conds m.conds cs).2.s := by
  have h := step_addConditions pol.conds hs hg lAND hc
  exact ⟨stepM_conds h.1 h.2.1, h.2.2⟩

theorem step_addWhere (pol : Policy) {m : Mem} {q : HBase} (hs : StB m.conds) (hq : BaseB m q) {cs : List HCond}
    (hc : ∀ c ∈ cs, c.bnd m.conds) : StepM m (q.addWhere pol m cs).1 ∧ BaseB (q.addWhere pol m cs).1 (q.addWhere pol m cs).2 := by
  have h := step_where pol hs hq.cond hc
  exact ⟨h.1, hq.joins, hq.fields, h.2⟩

theorem empty_bnd (st : Store HCond) : ∀ c ∈ ([] : List HCond), c.bnd st := fun c hc => by cases hc

theorem step_selectFrom {m : Mem} (hs : StB m.conds) (p : TableParam) {x : Mem × HBase} (h : selectFromH m p = .ok x) :
    StepM m x.1 ∧ BaseB x.1 x.2 := by
  simp only [selectFromH] at h
  cases hp : tableP p with
  | err e => rw [hp] at h; cases h
  | panic e => rw [hp] at h; cases h
  | ok t =>
    rw [hp] at h; cases h
    have n := step_newGroup hs lAND (empty_bnd m.conds)
    exact ⟨⟨⟨n.1, sz_make _ _, .refl _, .refl _, sz_make _ _⟩, n.2.1⟩, inb_make _ _, inb_make _ _, n.2.2⟩

theorem step_zero {m : Mem} (hs : StB m.conds) : StepM m (zeroBaseH m).1 ∧ BaseB (zeroBaseH m).1 (zeroBaseH m).2 := by
  have n := step_lit (g := ⟨⟨[], false⟩, ⟨0, 0, 0⟩, false⟩) hs (empty_bnd m.conds)
  exact ⟨⟨⟨n.1, sz_make _ _, .refl _, .refl _, sz_make _ _⟩, n.2.1⟩, inb_make _ _, inb_make _ _, n.2.2⟩

theorem step_setFields {m : Mem} {q : HBase} (hs : StB m.conds) (hq : BaseB m q) (fs : List FieldDef) :
    StepM m (q.setFields m fs).1 ∧ BaseB (q.setFields m fs).1 (q.setFields m fs).2 :=
  ⟨⟨⟨.refl _, .refl _, .refl _, .refl _, sz_make _ _⟩, hs⟩, hq.joins, inb_make _ _, hq.cond⟩

theorem step_joinIdent (pol : Policy) {m : Mem} {q : HBase} (hs : StB m.conds) (hq : BaseB m q) (t : TableIdent) (j : Int) :
    StepM m (q.joinIdent pol m t j).1 ∧ BaseB (q.joinIdent pol m t j).1 (q.joinIdent pol m t j).2 :=
  ⟨⟨⟨.refl _, sz_append _ _ _ _ hq.joins, .refl _, .refl _, .refl _⟩, hs⟩, inb_append _ _ _ _ hq.joins, hq.fields, hq.cond⟩

theorem step_on {m : Mem} {q : HBase} (hs : StB m.conds) (hq : BaseB m q) (l r : FieldDef) {x : Mem × HBase}
    (h : q.on m l r = .ok x) : StepM m x.1 ∧ BaseB x.1 x.2 := by
  simp only [HBase.on] at h
  split at h
  · cases h
    exact ⟨⟨⟨.refl _, sz_write _ _ _ _, .refl _, .refl _, .refl _⟩, hs⟩, hq.joins.mono (sz_write _ _ _ _), hq.fields, hq.cond⟩
  · cases h

theorem step_updateH {m : Mem} (hs : StB m.conds) (p : TableParam) :
    StepM m (updateH m p).1 ∧ InB (updateH m p).1.conds (updateH m p).2.where_.s ∧ InB (updateH m p).1.vals (updateH m p).2.setValues := by
  have n := step_newGroup hs lAND (empty_bnd m.conds)
  exact ⟨⟨⟨n.1, .refl _, .refl _, sz_make _ _, .refl _⟩, n.2.1⟩, n.2.2, inb_make _ _⟩

theorem step_deleteH {m : Mem} (hs : StB m.conds) (p : TableParam) :
    StepM m (deleteH m p).1 ∧ InB (deleteH m p).1.conds (deleteH m p).2.where_.s := by
  have n := step_newGroup hs lAND (empty_bnd m.conds)
  exact ⟨stepM_conds n.1 n.2.1, n.2.2⟩

theorem step_conditions {m : Mem} (hs : StB m.conds) (q : HBase) :
    StepM m (q.conditions m).1 ∧ ∀ c ∈ (q.conditions m).1.conds.read (q.conditions m).2, c.bnd (q.conditions m).1.conds := by
  have n := step_lit (g := q.where_) hs (hs.read q.where_.s)
  refine ⟨stepM_conds n.1 n.2.1, fun c hc => ?_⟩
  exact n.2.1 _ c (List.mem_of_mem_take hc)

theorem step_vals (gr : Grow) {m : Mem} {s : Sl} (hs : StB m.conds) (h : InB m.vals s) (vs : List FieldValue) :
    StepM m { m with vals := (m.vals.append gr s vs).1 } ∧ InB (m.vals.append gr s vs).1 (m.vals.append gr s vs).2 :=
  ⟨⟨⟨.refl _, .refl _, .refl _, sz_append _ _ _ _ h, .refl _⟩, hs⟩, inb_append _ _ _ _ h⟩

theorem step_update (pol : Policy) {m : Mem} (hs : StB m.conds) (q : HBase) (p : TableParam) (vs : List FieldValue) :
    StepM m (q.update pol m p vs).1 ∧ HV.bnd (q.update pol m p vs).1 (.update (q.update pol m p vs).2) := by
  have c := step_conditions hs q
  have u := step_updateH c.1.2 p
  have w := step_where pol u.1.2 u.2.1 (cs := (updateH (q.conditions m).1 p).1.conds.read (q.conditions m).2)
    (fun x hx => u.1.2 _ x (List.mem_of_mem_take hx))
  have v := step_vals pol.vals (m := { (updateH (q.conditions m).1 p).1 with conds := _ }) w.1.2 u.2.2 vs
  exact ⟨((c.1.trans u.1).trans w.1).trans v.1, w.2, v.2⟩

theorem step_delete (pol : Policy) {m : Mem} (hs : StB m.conds) (q : HBase) (p : TableParam) :
    StepM m (q.delete pol m p).1 ∧ HV.bnd (q.delete pol m p).1 (.delete (q.delete pol m p).2) := by
  have c := step_conditions hs q
  have u := step_deleteH c.1.2 p
  have w := step_where pol u.1.2 u.2 (cs := (deleteH (q.conditions m).1 p).1.conds.read (q.conditions m).2)
    (fun x hx => u.1.2 _ x (List.mem_of_mem_take hx))
  exact ⟨(c.1.trans u.1).trans w.1, w.2⟩

theorem toOption_ok {α β : Type} {x : Res α} {f : α → β} {p : β} (h : x.toOption.map f = some p) : ∃ a, x = .ok a ∧ f a = p := by
  cases x with
  | ok a => exact ⟨a, rfl, by simpa [Res.toOption] using h⟩
  | err _ => cases h
  | panic _ => cases h

/-- Every call leads from bounded values to bounded values. -/
theorem step_call (pol : Policy) {m : Mem} {hs : List HV} (ms : StB m.conds)
    (hb : ∀ (i : Nat) (h : HV), hs[i]? = some h → h.bnd m) (c : Call) (x : Mem × HV) (hx : c.heap pol m hs = some x) :
    StepM m x.1 ∧ x.2.bnd x.1 := by
  have same : StepM m m := ⟨.refl m, ms⟩
  cases c with
  | leaf c =>
    simp only [Call.heap] at hx
    split at hx
    · cases hx
    · rename_i hn
      cases hx
      refine ⟨same, ?_⟩
      simpa [HV.bnd, HCond.bnd] using hn
  | newGroup j args =>
    simp only [Call.heap] at hx
    cases hg : getCondsH hs args with
    | none => rw [hg] at hx; cases hx
    | some cs =>
      rw [hg] at hx; cases hx
      have n := step_newGroup ms j (getCondsH_bnd hb args cs hg)
      exact ⟨stepM_conds n.1 n.2.1, n.2.2⟩
  | andF r args =>
    simp only [Call.heap] at hx
    split at hx
    · rename_i c cs h1 h2
      cases hx
      have n := step_andH pol.conds ms (c := c) (hb r _ h1) (getCondsH_bnd hb args cs h2)
      exact ⟨stepM_conds n.1 n.2.1, n.2.2⟩
    · cases hx
  | orF r args =>
    simp only [Call.heap] at hx
    split at hx
    · rename_i c cs h1 h2
      cases hx
      have n := step_orH pol.conds ms (c := c) (hb r _ h1) (getCondsH_bnd hb args cs h2)
      exact ⟨stepM_conds n.1 n.2.1, n.2.2⟩
    · cases hx
  | and r args =>
    simp only [Call.heap] at hx
    split at hx
    · rename_i c cs h1 h2
      cases hx
      have n := step_and pol.conds ms (c := c) (hb r _ h1) (getCondsH_bnd hb args cs h2)
      exact ⟨stepM_conds n.1 n.2.1, n.2.2⟩
    · cases hx
  | or r args =>
    simp only [Call.heap] at hx
    split at hx
    · rename_i c cs h1 h2
      obtain ⟨a, ha, rfl⟩ := toOption_ok hx
      have n := step_or pol.conds ms (c := c) (hb r _ h1) (getCondsH_bnd hb args cs h2) ha
      exact ⟨stepM_conds n.1 n.2.1, n.2.2⟩
    · cases hx
  | negate r n =>
    simp only [Call.heap] at hx
    split at hx
    · rename_i c h1
      cases hx
      exact ⟨same, HCond.bnd.negate (c := c) (hb r _ h1) n⟩
    · cases hx
  | join r j =>
    simp only [Call.heap] at hx
    split at hx
    · rename_i c h1
      cases hx
      exact ⟨same, HCond.bnd.join (c := c) (hb r _ h1) j⟩
    · cases hx
  | withBrackets r =>
    simp only [Call.heap] at hx
    split at hx
    · rename_i b s br h1
      cases hx
      have b := hb r _ h1
      exact ⟨same, b⟩
    · cases hx
  | applySpec r spec =>
    simp only [Call.heap] at hx
    split at hx
    · rename_i c h1
      cases ha : applySpecH m.depth m.conds spec c with
      | none => rw [ha] at hx; cases hx
      | some a =>
        rw [ha] at hx; cases hx
        have n := step_applySpec spec _ _ c a ms (hb r _ h1) ha
        exact ⟨stepM_conds n.1 n.2.1, n.2.2⟩
    · cases hx
  | applyTable r t =>
    simp only [Call.heap] at hx
    split at hx
    · rename_i c h1
      cases ha : applyTableH m.depth m.conds t c with
      | none => rw [ha] at hx; cases hx
      | some a =>
        rw [ha] at hx; cases hx
        have n := step_applyTable t _ _ c a ms (hb r _ h1) ha
        exact ⟨stepM_conds n.1 n.2.1, n.2.2⟩
    · cases hx
  | selectFrom p =>
    simp only [Call.heap] at hx
    obtain ⟨a, ha, rfl⟩ := toOption_ok hx
    exact step_selectFrom ms p ha
  | fields r fs =>
    simp only [Call.heap] at hx
    split at hx
    · rename_i q h1; cases hx
      exact step_setFields ms (hb r _ h1) fs
    · cases hx
      have z := step_zero ms
      have f := step_setFields z.1.2 z.2 fs
      exact ⟨z.1.trans f.1, f.2⟩
    · rename_i q h1; cases hx
      have b := hb r _ h1
      have f := step_setFields ms b.1 fs
      exact ⟨f.1, f.2, b.2⟩
    · cases hx
  | where_ r args =>
    simp only [Call.heap] at hx
    split at hx
    · rename_i q cs h1 h2; cases hx
      exact step_addWhere pol ms (hb r _ h1) (getCondsH_bnd hb args cs h2)
    · rename_i q cs h1 h2; cases hx
      exact step_addWhere pol ms (hb r _ h1) (getCondsH_bnd hb args cs h2)
    · rename_i q cs h1 h2; cases hx
      have b := hb r _ h1
      have f := step_addWhere pol ms b.1 (getCondsH_bnd hb args cs h2)
      exact ⟨f.1, f.2, b.2⟩
    · rename_i q cs h1 h2; cases hx
      have b := hb r _ h1
      have f := step_where pol ms b.1 (getCondsH_bnd hb args cs h2)
      exact ⟨f.1, f.2, b.2⟩
    · rename_i q cs h1 h2; cases hx
      exact step_where pol ms (hb r _ h1) (getCondsH_bnd hb args cs h2)
    · cases hx
  | joinTable r t j =>
    simp only [Call.heap] at hx
    split at hx
    · rename_i q h1; cases hx
      exact step_joinIdent pol ms (hb r _ h1) t j
    · rename_i q h1; cases hx
      exact step_joinIdent pol ms (hb r _ h1) t j
    · rename_i q h1; cases hx
      have b := hb r _ h1
      have f := step_joinIdent pol ms b.1 t j
      exact ⟨f.1, f.2, b.2⟩
    · cases hx
  | on r l y =>
    simp only [Call.heap] at hx
    split at hx
    · rename_i q h1
      obtain ⟨a, ha, rfl⟩ := toOption_ok hx
      exact step_on ms (hb r _ h1) l y ha
    · rename_i q h1
      obtain ⟨a, ha, rfl⟩ := toOption_ok hx
      exact step_on ms (hb r _ h1) l y ha
    · rename_i q h1
      obtain ⟨a, ha, rfl⟩ := toOption_ok hx
      have b := hb r _ h1
      have f := step_on ms b.1 l y ha
      exact ⟨f.1, f.2, b.2.mono f.1.1.sorts⟩
    · cases hx
  | single r =>
    simp only [Call.heap] at hx
    split at hx
    · rename_i q h1; cases hx
      have b := hb r _ h1
      exact ⟨same, b⟩
    · cases hx
  | embedded r =>
    simp only [Call.heap] at hx
    split at hx
    · rename_i q h1; cases hx
      have b := hb r _ h1
      exact ⟨same, b⟩
    · rename_i q h1; cases hx
      exact ⟨same, (hb r _ h1).1⟩
    · cases hx
  | many r =>
    simp only [Call.heap] at hx
    split at hx
    · rename_i q h1; cases hx
      have b := hb r _ h1
      refine ⟨⟨⟨.refl _, .refl _, sz_make _ _, .refl _, .refl _⟩, ms⟩, ?_, inb_make _ _⟩
      exact ⟨b.joins, b.fields, b.cond⟩
    · cases hx
  | offset r n =>
    simp only [Call.heap] at hx
    split at hx
    · rename_i q h1; cases hx
      have b := hb r _ h1
      exact ⟨same, b⟩
    · cases hx
  | limit r n =>
    simp only [Call.heap] at hx
    split at hx
    · rename_i q h1; cases hx
      have b := hb r _ h1
      exact ⟨same, b⟩
    · cases hx
  | orderBy r os =>
    simp only [Call.heap] at hx
    split at hx
    · rename_i q h1; cases hx
      have b := hb r _ h1
      exact ⟨⟨⟨.refl _, .refl _, sz_append _ _ _ _ b.2, .refl _, .refl _⟩, ms⟩, ⟨b.1.joins, b.1.fields, b.1.cond⟩,
        inb_append _ _ _ _ b.2⟩
    · cases hx
  | count r fs =>
    simp only [Call.heap] at hx
    split at hx
    · rename_i q h1
      obtain ⟨a, ha, rfl⟩ := toOption_ok hx
      have b := hb r _ h1
      exact ⟨same, b⟩
    · rename_i q h1
      obtain ⟨a, ha, rfl⟩ := toOption_ok hx
      exact ⟨same, (hb r _ h1).1⟩
    · cases hx
  | insertInto p =>
    simp only [Call.heap] at hx; cases hx
    exact ⟨⟨⟨.refl _, .refl _, .refl _, sz_make _ _, .refl _⟩, ms⟩, inb_make _ _⟩
  | insertFrom r vs =>
    simp only [Call.heap] at hx
    split at hx
    · rename_i q h1; cases hx
      have a : StepM m (insertIntoH m (.ident q.baseTable)).1 := ⟨⟨.refl _, .refl _, .refl _, sz_make _ _, .refl _⟩, ms⟩
      have f := step_vals pol.vals (m := (insertIntoH m (.ident q.baseTable)).1) ms (inb_make _ _) vs
      exact ⟨a.trans f.1, f.2⟩
    · cases hx
  | values r vs =>
    simp only [Call.heap] at hx
    split at hx
    · rename_i q h1; cases hx
      exact step_vals pol.vals ms (hb r _ h1) vs
    · cases hx
  | update p =>
    simp only [Call.heap] at hx; cases hx
    have u := step_updateH ms p
    exact ⟨u.1, u.2⟩
  | updateFrom r vs =>
    simp only [Call.heap] at hx
    split at hx
    · rename_i q h1; cases hx; exact step_update pol ms _ _ vs
    · rename_i q h1; cases hx; exact step_update pol ms _ _ vs
    · rename_i q h1; cases hx; exact step_update pol ms _ _ vs
    · cases hx
  | set r vs =>
    simp only [Call.heap] at hx
    split at hx
    · rename_i q h1; cases hx
      have b := hb r _ h1
      have f := step_vals pol.vals ms b.2 vs
      exact ⟨f.1, b.1, f.2⟩
    · cases hx
  | delete p =>
    simp only [Call.heap] at hx; cases hx
    exact step_deleteH ms p
  | deleteFrom r =>
    simp only [Call.heap] at hx
    split at hx
    · rename_i q h1; cases hx; exact step_delete pol ms _ _
    · rename_i q h1; cases hx; exact step_delete pol ms _ _
    · rename_i q h1; cases hx; exact step_delete pol ms _ _
    · cases hx

theorem run_bnd (pol : Policy) : ∀ (cs : List Call) (m : Mem) (hs : List HV) (x : Mem × List HV), StB m.conds →
    (∀ (i : Nat) (h : HV), hs[i]? = some h → h.bnd m) → runHeap pol m hs cs = some x →
      StB x.1.conds ∧ ∀ (i : Nat) (h : HV), x.2[i]? = some h → h.bnd x.1
  | [], m, hs, x, ms, hb, h => by cases h; exact ⟨ms, hb⟩
  | c :: cs, m, hs, x, ms, hb, h => by
    simp only [runHeap] at h
    cases hc : c.heap pol m hs with
    | none => rw [hc] at h; cases h
    | some y =>
      rw [hc] at h
      have k := step_call pol ms hb c y hc
      refine run_bnd pol cs y.1 (hs ++ [y.2]) x k.1.2 (fun i h' hi => ?_) h
      rw [List.getElem?_append] at hi
      split at hi
      · exact (hb i h' hi).mono k.1.1
      · rename_i hl
        have : i - hs.length = 0 := by
          by_cases e : i - hs.length = 0
          · exact e
          · rw [List.getElem?_eq_none (by simp; omega)] at hi; cases hi
        rw [this] at hi
        cases hi
        exact k.2

theorem run_bnd0 (pol : Policy) (cs : List Call) (x : Mem × List HV) (h : runHeap pol Mem.empty [] cs = some x) :
    StB x.1.conds ∧ ∀ (i : Nat) (h : HV), x.2[i]? = some h → h.bnd x.1 :=
  run_bnd pol cs Mem.empty [] x (fun a c hc => by simp [Mem.empty, Store.cells] at hc) (fun i h hi => by simp at hi) h

/-! ## The plain value a value stands for -/

theorem rep_of_nested {st : Store HCond} (hs : StB st) : ∀ (d : Nat) (h : HCond), h.bnd st → h.nested st d →
    ∃ c, Rep st h c ∧ c.depth ≤ d := by
  have leaf : ∀ (c : Cond) (d : Nat), c.asGroup = none → ∃ c', Rep st (.leaf c) c' ∧ c'.depth ≤ d := by
    intro c d hc
    refine ⟨c, rep_leaf_iff.2 ⟨rfl, hc⟩, ?_⟩
    cases c <;> first | exact Nat.zero_le _ | simp [Cond.asGroup] at hc
  intro d
  induction d with
  | zero =>
    intro h hb hn
    cases h with
    | leaf c => exact leaf c 0 hb
    | group b s br => exact hn.elim
  | succ d ih =>
    intro h hb hn
    cases h with
    | leaf c => exact leaf c _ hb
    | group b s br =>
      have list : ∀ (hs' : List HCond), (∀ c ∈ hs', c.bnd st ∧ c.nested st d) → ∃ cs, RepL st hs' cs ∧ Cond.depthL cs ≤ d := by
        intro hs'
        induction hs' with
        | nil => intro _; exact ⟨[], by simp [RepL], by simp [Cond.depthL]⟩
        | cons h hs' ihl =>
          intro hh
          obtain ⟨c, hc, hd⟩ := ih h (hh h (by simp)).1 (hh h (by simp)).2
          obtain ⟨cs, hcs, hds⟩ := ihl (fun c hc => hh c (by simp [hc]))
          refine ⟨c :: cs, ?_, ?_⟩
          · simp only [RepL]; exact ⟨hc, hcs⟩
          · simp only [Cond.depthL]; omega
      simp only [HCond.nested] at hn
      obtain ⟨cs, hcs, hd⟩ := list (st.read s) (fun c hc => ⟨hs.read s c hc, hn c hc⟩)
      refine ⟨.group b cs br, rep_group_iff.2 ⟨rfl, rfl, hb.1, hb.2, hcs⟩, ?_⟩
      simp only [Cond.depth]; omega

theorem repG_of_nested {st : Store HCond} (hs : StB st) (d : Nat) (g : HGroup) (hb : InB st g.s) (hn : g.toCond.nested st d) :
    ∃ G : Group, RepG st g G ∧ G.toCond.depth ≤ d := by
  obtain ⟨c, hc, hd⟩ := rep_of_nested hs d g.toCond hb hn
  rcases hc.cases with ⟨g', G, h1, rfl, rg⟩ | ⟨h1, _⟩
  · exact ⟨G, hc, hd⟩
  · cases h1

theorem repB_of_nested {m : Mem} (hs : StB m.conds) (d : Nat) (q : HBase) (hb : BaseB m q) (hn : q.where_.toCond.nested m.conds d) :
    ∃ Q : BaseSelect, RepB m q Q ∧ Q.where_.group.toCond.depth ≤ d := by
  obtain ⟨G, hG, hd⟩ := repG_of_nested hs d q.where_ hb.cond hn
  exact ⟨⟨q.op, q.baseTable, m.joins.read q.joins, ⟨m.defs.read q.fields⟩, ⟨G⟩⟩,
    ⟨rfl, rfl, ⟨hb.joins.1, hb.joins.2, rfl⟩, ⟨hb.fields.1, hb.fields.2, rfl⟩, hG⟩, hd⟩

theorem repV_of_nested {m : Mem} (hs : StB m.conds) (d : Nat) (h : HV) (hb : h.bnd m) (hn : h.nested m d) :
    ∃ p, RepV m h p ∧ p.depth ≤ d := by
  cases h with
  | cond c =>
    obtain ⟨c', h1, h2⟩ := rep_of_nested hs d c hb hn
    exact ⟨.cond c', h1, h2⟩
  | base q =>
    obtain ⟨Q, h1, h2⟩ := repB_of_nested hs d q hb hn
    exact ⟨.base Q, h1, h2⟩
  | single q =>
    obtain ⟨Q, h1, h2⟩ := repB_of_nested hs d q hb hn
    exact ⟨.single ⟨Q⟩, h1, h2⟩
  | many q =>
    obtain ⟨Q, h1, h2⟩ := repB_of_nested hs d q.base hb.1 hn
    exact ⟨.many ⟨Q, q.offset, q.limit, m.sorts.read q.order, q.tableSpec⟩, ⟨h1, rfl, rfl, ⟨hb.2.1, hb.2.2, rfl⟩, rfl⟩, h2⟩
  | count q fd =>
    obtain ⟨Q, h1, h2⟩ := repB_of_nested hs d q hb hn
    exact ⟨.count ⟨Q, fd⟩, ⟨h1, rfl⟩, h2⟩
  | insert q => exact ⟨.insert ⟨q.op, q.tableName, m.vals.read q.setValues⟩, ⟨rfl, rfl, hb.1, hb.2, rfl⟩, Nat.zero_le _⟩
  | update q =>
    obtain ⟨G, hG, hd⟩ := repG_of_nested hs d q.where_ hb.1 hn
    exact ⟨.update ⟨q.op, q.tableName, G, m.vals.read q.setValues⟩, ⟨rfl, rfl, hG, hb.2.1, hb.2.2, rfl⟩, hd⟩
  | delete q =>
    obtain ⟨G, hG, hd⟩ := repG_of_nested hs d q.where_ hb hn
    exact ⟨.delete ⟨q.op, q.tableName, G⟩, ⟨rfl, rfl, hG⟩, hd⟩
  | joinB q =>
    obtain ⟨Q, h1, h2⟩ := repB_of_nested hs d q hb hn
    exact ⟨.joinB Q, h1, Nat.zero_le _⟩
  | joinS q =>
    obtain ⟨Q, h1, h2⟩ := repB_of_nested hs d q hb hn
    exact ⟨.joinS ⟨Q⟩, h1, Nat.zero_le _⟩
  | joinM q =>
    obtain ⟨Q, h1, h2⟩ := repB_of_nested hs d q.base hb.1 hn
    exact ⟨.joinM ⟨Q, q.offset, q.limit, m.sorts.read q.order, q.tableSpec⟩, ⟨h1, rfl, rfl, ⟨hb.2.1, hb.2.2, rfl⟩, rfl⟩, Nat.zero_le _⟩

end Query
