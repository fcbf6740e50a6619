import Verif.Spec.Repr
/-!
# Stores: lemmas about append and writes
-/
namespace Query
namespace Store
variable {α : Type}

/-- Cells already written stay; arrays may become longer, and new arrays may appear. -/
structure Le (st st' : Store α) : Prop where
  size : st.length ≤ st'.length
  pre : ∀ a, st.cells a <+: st'.cells a

theorem Le.refl (st : Store α) : Le st st := ⟨Nat.le_refl _, fun _ => List.prefix_refl _⟩

theorem Le.trans {a b c : Store α} (h : Le a b) (k : Le b c) : Le a c :=
  ⟨Nat.le_trans h.size k.size, fun x => (h.pre x).trans (k.pre x)⟩

theorem cells_of_ge (st : Store α) (a : Nat) (h : st.length ≤ a) : st.cells a = [] := by
  simp [cells, List.getElem?_eq_none h]

theorem cells_append_lt (st : Store α) (xs : List α) (a : Nat) (h : a < st.length) :
    Store.cells (st ++ [xs]) a = st.cells a := by
  simp [cells, List.getElem?_append_left h]

theorem cells_append_self (st : Store α) (xs : List α) : Store.cells (st ++ [xs]) st.length = xs := by
  simp [cells]

theorem cells_set_ne (st : Store α) (a b : Nat) (xs : List α) (h : a ≠ b) : Store.cells (st.set a xs) b = st.cells b := by
  simp [cells, List.getElem?_set_ne h]

theorem cells_set_self (st : Store α) (a : Nat) (xs : List α) (h : a < st.length) :
    Store.cells (st.set a xs) a = xs := by
  simp [cells, List.getElem?_set_self h]

theorem le_alloc (st : Store α) (xs : List α) (cap : Nat) : Le st (st.alloc xs cap).1 := by
  refine ⟨by simp [alloc], fun a => ?_⟩
  by_cases h : a < st.length
  · simp only [alloc]; rw [cells_append_lt st xs a h]; exact List.prefix_refl _
  · rw [cells_of_ge st a (by omega)]; exact List.nil_prefix

theorem read_le {st st' : Store α} (h : Le st st') (s : Sl) (hs : s.len ≤ (st.cells s.arr).length) :
    st'.read s = st.read s := by
  obtain ⟨t, ht⟩ := h.pre s.arr
  simp only [read]; rw [← ht, List.take_append_of_le_length hs]

end Store

open Store

theorem RepS.mono {α : Type} {st st' : Store α} {s : Sl} {xs : List α} (h : RepS st s xs) (l : Le st st') :
    RepS st' s xs :=
  ⟨Nat.lt_of_lt_of_le h.1 l.size, Nat.le_trans h.2.1 (l.pre s.arr).length_le, by rw [read_le l s h.2.1]; exact h.2.2⟩

/-- A slice that may be appended to without touching cells of others: either nothing lies behind it in its array, or it has
no spare capacity (always so if `tight`). -/
structure Ext {α : Type} (tight : Bool) (st : Store α) (s : Sl) : Prop where
  arr : s.arr < st.length
  len : s.len ≤ (st.cells s.arr).length
  full : tight = true → s.cap ≤ s.len
  last : tight = false → (st.cells s.arr).length = s.len ∨ s.cap ≤ s.len

/-- `append` leaves no spare capacity. -/
def GrowOK (tight : Bool) (gr : Grow) : Prop := tight = true → ∀ a c n, gr a c n = 0

/-- The slice has spare capacity. -/
def Sl.room (s : Sl) : Prop := s.len < s.cap

/-- A step from slices `O` to slices `O'`, both safe to append to.  Only arrays of slices with spare capacity change. -/
structure Tr {α : Type} (tight : Bool) (st st' : Store α) (O O' : List Sl) : Prop where
  le : Le st st'
  ext : ∀ s ∈ O', Ext tight st' s
  frame : ∀ a, a < st.length → (∀ s ∈ O, s.room → s.arr ≠ a) → st'.cells a = st.cells a
  src : ∀ s' ∈ O', (∃ s ∈ O, s.arr = s'.arr ∧ (s.room ∨ s' = s)) ∨ st.length ≤ s'.arr

variable {α : Type} {tight : Bool}

theorem Tr.trans {a b c : Store α} {O P Q : List Sl} (h : Tr tight a b O P) (k : Tr tight b c P Q) :
    Tr tight a c O Q := by
  refine ⟨h.le.trans k.le, k.ext, fun x hx hO => ?_, fun s hs => ?_⟩
  · rw [k.frame x (Nat.lt_of_lt_of_le hx h.le.size), h.frame x hx hO]
    intro s hs hr he
    rcases h.src s hs with ⟨o, ho, e, hor⟩ | hge
    · exact hO o ho (hor.elim id fun e => e ▸ hr) (e.trans he)
    · omega
  · rcases k.src s hs with ⟨p, hp, e, hpr⟩ | hge
    · rcases h.src p hp with ⟨o, ho, e', hor⟩ | hge
      · refine .inl ⟨o, ho, e'.trans e, ?_⟩
        rcases hor with hor | rfl
        · exact .inl hor
        · exact hpr
      · exact .inr (by omega)
    · exact .inr (Nat.le_trans h.le.size hge)

theorem Tr.same {st : Store α} {O : List Sl} (h : ∀ s ∈ O, Ext tight st s) : Tr tight st st O O :=
  ⟨Le.refl st, h, fun _ _ _ => rfl, fun s hs => .inl ⟨s, hs, rfl, .inr rfl⟩⟩

theorem Tr.none (st : Store α) (O : List Sl) : Tr tight st st O [] :=
  ⟨Le.refl st, fun s hs => (by cases hs), fun _ _ _ => rfl, fun s hs => (by cases hs)⟩

/-- A step that makes new arrays only works from any slices. -/
theorem Tr.weak {st st' : Store α} {O : List Sl} (h : Tr tight st st' [] O) (P : List Sl) : Tr tight st st' P O :=
  ⟨h.le, h.ext, fun a ha _ => h.frame a ha (fun s hs => by cases hs),
    fun s hs => (h.src s hs).imp (fun ⟨_, ho, _⟩ => by cases ho) id⟩

theorem Tr.drop {st st' : Store α} {O P : List Sl} (h : Tr tight st st' O P) : Tr tight st st' O [] :=
  ⟨h.le, fun s hs => (by cases hs), h.frame, fun s hs => (by cases hs)⟩

theorem tr_alloc (st : Store α) (xs : List α) (cap : Nat) (hc : tight = true → cap ≤ xs.length) :
    Tr tight st (st.alloc xs cap).1 [] [(st.alloc xs cap).2] := by
  refine ⟨le_alloc st xs cap, fun s hs => ?_, fun a ha _ => ?_, fun s hs => ?_⟩
  · simp only [List.mem_singleton] at hs; subst hs
    simp only [alloc]
    refine ⟨by simp, ?_, fun h => hc h, fun _ => .inl ?_⟩ <;> simp only [] <;> rw [cells_append_self] <;> simp
  · exact cells_append_lt st xs a ha
  · simp only [List.mem_singleton] at hs; subst hs
    exact .inr (Nat.le_refl _)

theorem rep_alloc (st : Store α) (xs : List α) (cap : Nat) : RepS (st.alloc xs cap).1 (st.alloc xs cap).2 xs := by
  refine ⟨by simp [alloc], ?_, ?_⟩ <;> simp only [alloc, Store.read] <;> rw [cells_append_self] <;> simp

theorem tr_make (st : Store α) (xs : List α) : Tr tight st (st.make xs).1 [] [(st.make xs).2] :=
  tr_alloc st xs _ (fun _ => Nat.le_refl _)

theorem rep_make (st : Store α) (xs : List α) : RepS (st.make xs).1 (st.make xs).2 xs := rep_alloc st xs _

theorem RepS.length {st : Store α} {s : Sl} {xs : List α} (h : RepS st s xs) : xs.length = s.len := by
  rw [← h.2.2]; simp [Store.read, h.2.1]

theorem writeAt_nil (cs : List α) (i : Nat) : writeAt cs i [] = cs := by simp [writeAt]

theorem writeAt_end (cs xs : List α) : writeAt cs cs.length xs = cs ++ xs := by
  simp [writeAt]

/-- Appending to a slice that is safe to append to. -/
theorem tr_append (gr : Grow) (hg : GrowOK tight gr) (st : Store α) (s : Sl) (xs : List α) (h : Ext tight st s) :
    Tr tight st (st.append gr s xs).1 [s] [(st.append gr s xs).2] := by
  unfold Store.append
  split
  · rename_i hle
    have hfull : s.cap ≤ s.len → writeAt (st.cells s.arr) s.len xs = st.cells s.arr ++ xs := fun this => by
      have hx : xs = [] := List.length_eq_zero_iff.1 (by omega)
      subst hx; simp [writeAt_nil]
    have key : writeAt (st.cells s.arr) s.len xs = st.cells s.arr ++ xs := by
      cases tight with
      | true => exact hfull (h.full rfl)
      | false =>
        rcases h.last rfl with hl | hl
        · rw [← hl, writeAt_end]
        · exact hfull hl
    simp only [key]
    have hc : Store.cells (st.set s.arr (st.cells s.arr ++ xs)) s.arr = st.cells s.arr ++ xs := cells_set_self _ _ _ h.arr
    refine ⟨⟨by simp, fun a => ?_⟩, fun t ht => ?_, fun a _ hne => ?_, fun t ht => ?_⟩
    · by_cases e : s.arr = a
      · subst e; rw [hc]; exact List.prefix_append _ _
      · rw [cells_set_ne _ _ _ _ e]; exact List.prefix_refl _
    · simp only [List.mem_singleton] at ht; subst ht
      refine ⟨by simp [h.arr], ?_, fun ht => ?_, fun ht => ?_⟩
      · simp only [hc, List.length_append]; have := h.len; omega
      · have := h.full ht; simp only []; omega
      · rcases h.last ht with hl | hl
        · left; simp only [hc, List.length_append, hl]
        · right; simp only []; omega
    · by_cases hr : s.room
      · exact cells_set_ne _ _ _ _ (hne s (by simp) hr)
      · have hx : xs = [] := List.length_eq_zero_iff.1 (by unfold Sl.room at hr; omega)
        by_cases e : s.arr = a
        · subst e; rw [hc, hx, List.append_nil]
        · exact cells_set_ne _ _ _ _ e
    · simp only [List.mem_singleton] at ht; subst ht
      refine .inl ⟨s, by simp, rfl, ?_⟩
      by_cases hr : s.room
      · exact .inl hr
      · have hx : xs = [] := List.length_eq_zero_iff.1 (by unfold Sl.room at hr; omega)
        exact .inr (by rw [hx]; rfl)
  · refine (tr_alloc st _ _ (fun ht => ?_)).weak [s]
    rw [hg ht]
    have : (st.read s).length = s.len := by simp [Store.read, h.len]
    simp only [List.length_append]; omega

theorem rep_append (gr : Grow) (st : Store α) (s : Sl) (xs ys : List α) (ha : s.arr < st.length)
    (h : RepS st s ys) : RepS (st.append gr s xs).1 (st.append gr s xs).2 (ys ++ xs) := by
  unfold Store.append
  split
  · have hc : Store.cells (st.set s.arr (writeAt (st.cells s.arr) s.len xs)) s.arr = writeAt (st.cells s.arr) s.len xs :=
      cells_set_self _ _ _ ha
    have hl := h.2.1
    refine ⟨by simpa using ha, ?_, ?_⟩
    · simp only [hc]; simp only [writeAt, List.length_append, List.length_take]; omega
    · simp only [Store.read, hc]; simp only [writeAt]
      rw [← h.2.2]; simp only [Store.read]
      rw [List.take_append_of_le_length (by simp only [List.length_append, List.length_take]; omega), List.take_of_length_le (by simp only [List.length_append, List.length_take]; omega)]
  · have hr := h.2.2
    rw [hr]; exact rep_alloc st _ _

end Query
