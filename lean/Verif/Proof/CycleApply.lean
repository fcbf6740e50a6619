import Verif.Proof.Cycle
/-!
# Apply calls on groups that contain themselves
-/
namespace Query
open Store

/-- The same groups in the same cells. -/
def Skel (st st' : Store HCond) : Prop := ∀ a, (Store.cells st' a).map HCond.sl? = (Store.cells st a).map HCond.sl?

theorem Skel.refl (st : Store HCond) : Skel st st := fun _ => rfl

theorem Skel.trans {a b c : Store HCond} (h : Skel a b) (k : Skel b c) : Skel a c := fun x => (k x).trans (h x)

theorem Skel.symm {a b : Store HCond} (h : Skel a b) : Skel b a := fun x => (h x).symm

theorem Skel.get {st st' : Store HCond} (h : Skel st st') {a i : Nat} {c : HCond} (hc : (Store.cells st a)[i]? = some c) :
    ∃ c', (Store.cells st' a)[i]? = some c' ∧ c'.sl? = c.sl? := by
  have := congrArg (fun l => l[i]?) (h a)
  simp only [List.getElem?_map, hc, Option.map_some] at this
  exact Option.map_eq_some_iff.1 this

theorem Skel.len {st st' : Store HCond} (h : Skel st st') (a : Nat) : (Store.cells st' a).length = (Store.cells st a).length := by
  simpa using congrArg List.length (h a)

theorem mem_read_iff {st : Store HCond} {s : Sl} {x : HCond} : x ∈ st.read s ↔ ∃ i, i < s.len ∧ (st.cells s.arr)[i]? = some x := by
  simp only [Store.read, List.mem_iff_getElem?, List.getElem?_take]
  refine ⟨fun ⟨i, hi⟩ => ?_, fun ⟨i, h1, h2⟩ => ⟨i, by rw [if_pos h1]; exact h2⟩⟩
  by_cases h : i < s.len
  · rw [if_pos h] at hi; exact ⟨i, h, hi⟩
  · rw [if_neg h] at hi; cases hi

theorem nested_skel : ∀ (d : Nat) {st st' : Store HCond} (c c' : HCond), Skel st st' → c'.sl? = c.sl? → c.nested st d → c'.nested st' d
  | _, _, _, c, .leaf _, _, _, _ => by simp only [HCond.nested]
  | _, _, _, .leaf _, .group _ _ _, _, e, _ => by cases e
  | 0, _, _, .group _ _ _, .group _ _ _, _, _, h => by simp only [HCond.nested] at h
  | d + 1, st, st', .group b s br, .group b' s' br', k, e, h => by
    cases e
    simp only [HCond.nested] at h ⊢
    intro x hx
    obtain ⟨i, h1, h2⟩ := mem_read_iff.1 hx
    obtain ⟨y, h3, h4⟩ := k.symm.get h2
    exact nested_skel d y x k h4.symm (h y (mem_read_iff.2 ⟨i, h1, h3⟩))

/-- All slices of groups lie in their arrays. -/
def Sound (st : Store HCond) : Prop := ∀ a c, c ∈ Store.cells st a → ∀ s, c.sl? = some s → s.len ≤ (Store.cells st s.arr).length

theorem Skel.sound {st st' : Store HCond} (h : Skel st st') (k : Sound st) : Sound st' := by
  intro a c hc s hs
  obtain ⟨i, hi⟩ := List.mem_iff_getElem?.1 hc
  obtain ⟨c', h1, h2⟩ := h.symm.get hi
  rw [h.len]
  exact k a c' (List.mem_of_getElem? h1) s (h2.trans hs)

theorem skel_write {st : Store HCond} {s : Sl} {i : Nat} {c x : HCond} (hc : (Store.cells st s.arr)[i]? = some c) (e : x.sl? = c.sl?) :
    Skel st (st.write s i x) := by
  intro a
  have ha : s.arr < st.length := by
    rcases Nat.lt_or_ge s.arr st.length with h | h
    · exact h
    · simp [Store.cells, List.getElem?_eq_none h] at hc
  by_cases h : s.arr = a
  · subst h
    rw [cells_write_self _ _ _ _ ha, List.map_set]
    refine List.ext_getElem? fun j => ?_
    rw [List.getElem?_set]
    by_cases hj : i = j
    · subst hj
      obtain ⟨l, _⟩ := List.getElem?_eq_some_iff.1 hc
      rw [if_pos rfl, List.getElem?_map, hc, e]
      simp [l]
    · rw [if_neg hj]
  · rw [cells_write_ne _ _ _ _ _ h]

section
variable {F : Nat → Store HCond → HCond → Option (Store HCond × HCond)} {g : Cond → Cond}

/-- What an Apply call on a condition does: it gives a result if the groups nest at most so deep, otherwise none. -/
def ApplyDeep (f : Store HCond → HCond → Option (Store HCond × HCond)) (d : Nat) (st : Store HCond) (c : HCond) : Prop :=
  (c.nested st d → ∃ r, f st c = some r ∧ Skel st r.1 ∧ r.2.sl? = c.sl?) ∧ (¬ c.nested st d → f st c = none)

theorem applyLoop_deep (f : Store HCond → HCond → Option (Store HCond × HCond)) (d : Nat) (s : Sl)
    (hf : ∀ st c, Sound st → (∃ a, c ∈ Store.cells st a) → ApplyDeep f d st c) : ∀ (is : List Nat) (st : Store HCond), Sound st →
    (∀ i ∈ is, i < (Store.cells st s.arr).length) →
    ((∀ i ∈ is, ∀ c, (Store.cells st s.arr)[i]? = some c → c.nested st d) → ∃ st', applyLoop s f is st = some st' ∧ Skel st st') ∧
    ((∃ i ∈ is, ∃ c, (Store.cells st s.arr)[i]? = some c ∧ ¬ c.nested st d) → applyLoop s f is st = none)
  | [], st, _, _ => ⟨fun _ => ⟨st, rfl, .refl _⟩, fun ⟨_, h, _⟩ => by cases h⟩
  | i :: is, st, hs, hi => by
    obtain ⟨c, hc⟩ : ∃ c, (Store.cells st s.arr)[i]? = some c := ⟨_, List.getElem?_eq_getElem (hi i (List.mem_cons_self ..))⟩
    obtain ⟨h1, h2⟩ := hf st c hs ⟨_, List.mem_of_getElem? hc⟩
    simp only [applyLoop, hc]
    by_cases hn : c.nested st d
    · obtain ⟨r, e, k, kc⟩ := h1 hn
      obtain ⟨c', hc', kc'⟩ := k.get hc
      have k2 := k.trans (skel_write (s := s) (x := r.2) hc' (kc.trans kc'.symm))
      obtain ⟨i1, i2⟩ := applyLoop_deep f d s hf is (r.1.write s i r.2) (k2.sound hs)
        (fun j hj => by rw [k2.len]; exact hi j (List.mem_cons_of_mem _ hj))
      rw [e]
      simp only [Option.bind]
      refine ⟨fun h => ?_, fun ⟨j, hj, x, hx, nx⟩ => i2 ?_⟩
      · obtain ⟨st', e', k'⟩ := i1 fun j hj x hx => by
          obtain ⟨y, hy, ey⟩ := k2.symm.get hx
          exact nested_skel d y x k2 ey.symm (h j (List.mem_cons_of_mem _ hj) y hy)
        exact ⟨st', e', k2.trans k'⟩
      · rcases List.mem_cons.1 hj with rfl | hj
        · rw [hc] at hx; cases hx; exact absurd hn nx
        · obtain ⟨y, hy, ey⟩ := k2.get hx
          exact ⟨j, hj, y, hy, fun n => nx (nested_skel d y x k2.symm ey.symm n)⟩
    · rw [h2 hn]
      exact ⟨fun h => absurd (h i (List.mem_cons_self ..) c hc) hn, fun _ => rfl⟩

theorem apply_deep (hl : ∀ d st c, F d st (.leaf c) = some (st, .leaf (g c))) (hz : ∀ st b s br, F 0 st (.group b s br) = none)
    (hsu : ∀ d st b s br, F (d + 1) st (.group b s br) =
      (applyLoop s (fun st c => F d st c) (List.range s.len) st).map fun st => (st, .group b s br)) :
    ∀ (d : Nat) (st : Store HCond) (c : HCond), Sound st → (∀ s, c.sl? = some s → s.len ≤ (Store.cells st s.arr).length) →
      ApplyDeep (F d) d st c := by
  intro d
  induction d with
  | zero =>
    intro st c hs hb
    cases c with
    | leaf e => exact ⟨fun _ => ⟨_, hl 0 st e, .refl _, rfl⟩, fun h => absurd (by simp only [HCond.nested]) h⟩
    | group b s br => exact ⟨fun h => by simp only [HCond.nested] at h, fun _ => hz _ _ _ _⟩
  | succ d ih =>
    intro st c hs hb
    cases c with
    | leaf e => exact ⟨fun _ => ⟨_, hl _ st e, .refl _, rfl⟩, fun h => absurd (by simp only [HCond.nested]) h⟩
    | group b s br =>
      have hb := hb s rfl
      obtain ⟨h1, h2⟩ := applyLoop_deep (fun st c => F d st c) d s (fun st c k hc => ih st c k fun t ht => by
        obtain ⟨a, hc⟩ := hc; exact k a c hc t ht) (List.range s.len) st hs
        (fun i hi => Nat.lt_of_lt_of_le (List.mem_range.1 hi) hb)
      refine ⟨fun h => ?_, fun h => ?_⟩
      · simp only [HCond.nested] at h
        obtain ⟨st', e, k⟩ := h1 fun i hi x hx => h x (mem_read_iff.2 ⟨i, List.mem_range.1 hi, hx⟩)
        exact ⟨(st', .group b s br), by rw [hsu, e]; rfl, k, rfl⟩
      · simp only [HCond.nested] at h
        rw [hsu, h2]
        · rfl
        · refine Classical.byContradiction fun hne => h fun x hx => Classical.byContradiction fun nx => hne ?_
          obtain ⟨i, hi, hx⟩ := mem_read_iff.1 hx
          exact ⟨i, List.mem_range.2 hi, x, hx, nx⟩

end

theorem sound_of_stB {st : Store HCond} (h : StB st) : Sound st := by
  intro a c hc s hs
  have := h a c hc
  cases c with
  | leaf e => cases hs
  | group b t br => cases hs; exact this.2

theorem applySpec_deep (spec : FieldDef) {st : Store HCond} (hs : StB st) {c : HCond} (hb : c.bnd st) (d : Nat) :
    ApplyDeep (fun st c => applySpecH d st spec c) d st c :=
  apply_deep (F := fun d st c => applySpecH d st spec c) (g := fun c => c.applyFieldSpec spec)
    (fun d st c => by cases d <;> simp only [applySpecH]) (fun _ _ _ _ => by simp only [applySpecH]) (fun _ _ _ _ _ => by simp only [applySpecH]) d st c
    (sound_of_stB hs) fun s e => by
      cases c with
      | leaf _ => cases e
      | group _ _ _ => cases e; exact hb.2

theorem applyTable_deep (t : Str) {st : Store HCond} (hs : StB st) {c : HCond} (hb : c.bnd st) (d : Nat) :
    ApplyDeep (fun st c => applyTableH d st t c) d st c :=
  apply_deep (F := fun d st c => applyTableH d st t c) (g := fun c => c.applyFieldTable t)
    (fun d st c => by cases d <;> simp only [applyTableH]) (fun _ _ _ _ => by simp only [applyTableH]) (fun _ _ _ _ _ => by simp only [applyTableH]) d st c
    (sound_of_stB hs) fun s e => by
      cases c with
      | leaf _ => cases e
      | group _ _ _ => cases e; exact hb.2

end Query
