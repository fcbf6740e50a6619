import Verif.Proof.SpoilCalls
import Verif.Props.Fields
/-!
# What the Apply calls write

`ApplyFieldSpec` and `ApplyFieldTable` on a group change every condition the group is read through that is no group, and nothing else.
-/
namespace Query
open Store

/-- The loops of both calls, for any change of the conditions that are no groups. -/
def applyAllH (f : Cond → Cond) : Nat → Store HCond → HCond → Option (Store HCond × HCond)
  | _, st, .leaf c => some (st, .leaf (f c))
  | 0, _, .group _ _ _ => none
  | depth + 1, st, .group b s br =>
    (applyLoop s (fun st c => applyAllH f depth st c) (List.range s.len) st).map fun st => (st, .group b s br)

theorem applySpecH_all (spec : FieldDef) : ∀ (d : Nat) (st : Store HCond) (c : HCond),
    applySpecH d st spec c = applyAllH (·.applyFieldSpec spec) d st c
  | _, _, .leaf _ => by simp only [applySpecH, applyAllH]
  | 0, _, .group _ _ _ => by simp only [applySpecH, applyAllH]
  | d + 1, st, .group b s br => by
    simp only [applySpecH, applyAllH]
    rw [show (fun st c => applySpecH d st spec c) = fun st c => applyAllH (·.applyFieldSpec spec) d st c from
      funext fun st => funext fun c => applySpecH_all spec d st c]

theorem applyTableH_all (t : Str) : ∀ (d : Nat) (st : Store HCond) (c : HCond),
    applyTableH d st t c = applyAllH (·.applyFieldTable t) d st c
  | _, _, .leaf _ => by simp only [applyTableH, applyAllH]
  | 0, _, .group _ _ _ => by simp only [applyTableH, applyAllH]
  | d + 1, st, .group b s br => by
    simp only [applyTableH, applyAllH]
    rw [show (fun st c => applyTableH d st t c) = fun st c => applyAllH (·.applyFieldTable t) d st c from
      funext fun st => funext fun c => applyTableH_all t d st c]

/-- The change of one cell. -/
def HCond.up (f : Cond → Cond) : HCond → HCond
  | .leaf c => .leaf (f c)
  | .group b s br => .group b s br

/-- Every cell is as before or changed. -/
def Upped (f : Cond → Cond) (st st' : Store HCond) : Prop :=
  ∀ (a i : Nat) (y : HCond), (st.cells a)[i]? = some y → (st'.cells a)[i]? = some y ∨ (st'.cells a)[i]? = some (y.up f)

section
variable {f : Cond → Cond} {st st' st'' : Store HCond}

theorem up_up (hf : ∀ c, f (f c) = f c) (y : HCond) : (y.up f).up f = y.up f := by
  cases y <;> simp only [HCond.up, hf]

theorem Upped.refl (st : Store HCond) : Upped f st st := fun _ _ _ h => .inl h

theorem Upped.trans (hf : ∀ c, f (f c) = f c) (h : Upped f st st') (k : Upped f st' st'') : Upped f st st'' := by
  intro a i y e
  rcases h a i y e with h | h
  · exact k a i y h
  · rcases k a i _ h with k | k
    · exact .inr k
    · rw [up_up hf] at k; exact .inr k

theorem Upped.done (hf : ∀ c, f (f c) = f c) (h : Upped f st st') {a i : Nat} {y : HCond} (e : (st.cells a)[i]? = some (y.up f)) :
    (st'.cells a)[i]? = some (y.up f) := by
  rcases h a i _ e with h | h
  · exact h
  · rw [up_up hf] at h; exact h

theorem Upped.through (h : Upped f st st') {c : HCond} {t : Sl} (k : c.Through st t) : c.Through st' t := by
  induction k with
  | own => exact .own
  | @deep b s t br c hc hk ih =>
    refine .deep ?_ ih
    obtain ⟨i, hi⟩ := List.mem_iff_getElem?.1 hc
    have l : i < s.len := by
      have := (List.getElem?_eq_some_iff.1 hi).1
      simp only [Store.read, List.length_take] at this
      omega
    simp only [Store.read] at hi ⊢
    rw [List.getElem?_take_of_lt l] at hi
    refine List.mem_iff_getElem?.2 ⟨i, ?_⟩
    rw [List.getElem?_take_of_lt l]
    cases hk with
    | own => rcases h _ _ _ hi with h | h <;> exact h
    | deep => rcases h _ _ _ hi with h | h <;> exact h

/-- All cells the condition is read from are changed. -/
def AllUp (f : Cond → Cond) (st st' : Store HCond) (c : HCond) : Prop :=
  ∀ t, c.Through st t → ∀ j, j < t.len → ∀ z : HCond, (st.cells t.arr)[j]? = some z → (st'.cells t.arr)[j]? = some (z.up f)

theorem AllUp.before (hf : ∀ c, f (f c) = f c) {c : HCond} (h : Upped f st st') (k : AllUp f st' st'' c) : AllUp f st st'' c := by
  intro t ht j hj z hz
  rcases h _ _ _ hz with e | e
  · exact k t (h.through ht) j hj z e
  · have := k t (h.through ht) j hj _ e
    rw [up_up hf] at this
    exact this

theorem AllUp.after (hf : ∀ c, f (f c) = f c) {c : HCond} (h : AllUp f st st' c) (k : Upped f st' st'') : AllUp f st st'' c :=
  fun t ht j hj z hz => k.done hf (h t ht j hj z hz)

theorem through_up {c : HCond} {t : Sl} (h : c.Through st t) : c.up f = c := by
  cases h <;> rfl

/-- One step of the loop: the cell is written. -/
theorem upped_write {s : Sl} {i : Nat} {c : HCond} (hc : (st.cells s.arr)[i]? = some c) (h : Upped f st st') :
    Upped f st (st'.write s i (c.up f)) ∧ ((st'.write s i (c.up f)).cells s.arr)[i]? = some (c.up f) := by
  have he : ∃ y, (st'.cells s.arr)[i]? = some y := by
    rcases h _ _ _ hc with e | e <;> exact ⟨_, e⟩
  obtain ⟨y, hy⟩ := he
  have hl := cells_some hy
  have hi := (List.getElem?_eq_some_iff.1 hy).1
  have self : ((st'.write s i (c.up f)).cells s.arr)[i]? = some (c.up f) := by
    simp only [Store.write]
    rw [cells_set_self _ _ _ hl, List.getElem?_set_self hi]
  refine ⟨fun a j z hz => ?_, self⟩
  by_cases ha : s.arr = a
  · subst ha
    by_cases hj : i = j
    · subst hj
      rw [hc] at hz
      cases hz
      exact .inr self
    · simp only [Store.write]
      rw [cells_set_self _ _ _ hl, List.getElem?_set_ne hj]
      exact h _ _ _ hz
  · simp only [Store.write]
    rw [cells_set_ne _ _ _ _ ha]
    exact h _ _ _ hz

theorem allUp_write (c0 : HCond) {s : Sl} {i : Nat} {c : HCond} (hc : (st.cells s.arr)[i]? = some c) (h : Upped f st st')
    (k : AllUp f st st' c0) : AllUp f st (st'.write s i (c.up f)) c0 := by
  intro t ht j hj z hz
  have k1 := k t ht j hj z hz
  by_cases ha : s.arr = t.arr
  · by_cases hj' : i = j
    · subst hj'
      rw [← ha] at hz ⊢
      rw [hc] at hz
      cases hz
      exact (upped_write hc h).2
    · simp only [Store.write]
      rw [← ha] at k1 ⊢
      rw [cells_set_self _ _ _ (cells_some k1), List.getElem?_set_ne hj']
      exact k1
  · simp only [Store.write]
    rw [cells_set_ne _ _ _ _ ha]
    exact k1

theorem loop_up (hf : ∀ c, f (f c) = f c) (s : Sl) (g : Store HCond → HCond → Option (Store HCond × HCond))
    (hg : ∀ st c x, g st c = some x → x.2 = c.up f ∧ Upped f st x.1 ∧ AllUp f st x.1 c) :
    ∀ (is : List Nat) (st st' : Store HCond), applyLoop s g is st = some st' →
      Upped f st st' ∧ ∀ i ∈ is, ∀ y, (st.cells s.arr)[i]? = some y → (st'.cells s.arr)[i]? = some (y.up f) ∧ AllUp f st st' y
  | [], st, st', h => by cases h; exact ⟨Upped.refl _, fun i hi => by cases hi⟩
  | i :: is, st, st', h => by
    simp only [applyLoop] at h
    split at h
    · cases h
    · rename_i c hc
      cases e : g st c with
      | none => rw [e] at h; cases h
      | some r =>
        rw [e] at h
        obtain ⟨a1, a2, a3⟩ := hg st c r e
        simp only [Option.bind_some, a1] at h
        obtain ⟨b1, b2⟩ := upped_write hc a2
        have b3 := allUp_write c hc a2 a3
        obtain ⟨c1, c2⟩ := loop_up hf s g hg is _ _ h
        refine ⟨b1.trans hf c1, fun k hk y hy => ?_⟩
        rcases List.mem_cons.1 hk with rfl | hk
        · rw [hc] at hy
          cases hy
          exact ⟨c1.done hf b2, b3.after hf c1⟩
        · rcases b1 _ _ _ hy with e1 | e1
          · obtain ⟨d1, d2⟩ := c2 k hk y e1
            exact ⟨d1, d2.before hf b1⟩
          · obtain ⟨d1, d2⟩ := c2 k hk _ e1
            rw [up_up hf] at d1
            refine ⟨d1, fun t ht => ?_⟩
            rw [through_up ht] at d2
            exact d2.before hf b1 t ht

theorem applyAll_up (hf : ∀ c, f (f c) = f c) : ∀ (d : Nat) (st : Store HCond) (c : HCond) (x : Store HCond × HCond),
    applyAllH f d st c = some x → x.2 = c.up f ∧ Upped f st x.1 ∧ AllUp f st x.1 c := by
  intro d
  induction d with
  | zero =>
    intro st c x h
    cases c with
    | leaf c => simp only [applyAllH] at h; cases h; exact ⟨rfl, Upped.refl _, fun t ht => by cases ht⟩
    | group b s br => simp only [applyAllH] at h; cases h
  | succ d ih =>
    intro st c x h
    cases c with
    | leaf c => simp only [applyAllH] at h; cases h; exact ⟨rfl, Upped.refl _, fun t ht => by cases ht⟩
    | group b s br =>
      simp only [applyAllH] at h
      obtain ⟨st', e, rfl⟩ := Option.map_eq_some_iff.1 h
      obtain ⟨a1, a2⟩ := loop_up hf s _ (fun st c x => ih st c x) _ st st' e
      refine ⟨rfl, a1, fun t ht j hj z hz => ?_⟩
      cases ht with
      | own => exact (a2 j (List.mem_range.2 hj) z hz).1
      | @deep _ _ _ _ y hy hyt =>
        obtain ⟨i, hi⟩ := List.mem_iff_getElem?.1 hy
        have l : i < s.len := by
          have := (List.getElem?_eq_some_iff.1 hi).1
          simp only [Store.read, List.length_take] at this
          omega
        simp only [Store.read] at hi
        rw [List.getElem?_take_of_lt l] at hi
        exact (a2 i (List.mem_range.2 l) y hi).2 t hyt j hj z hz

/-- What the call changes of a list. -/
theorem applyAll_changes (hf : ∀ c, f (f c) = f c) (d : Nat) (c : HCond) (x : Store HCond × HCond) (h : applyAllH f d st c = some x)
    (sp : Spar (fun a i => ∃ s, c.Through st s ∧ s.covers a i) st x.1) {t : Sl} (ht : InB st t) :
    x.1.read t ≠ st.read t ↔ ∃ s i k, c.Through st s ∧ s.covers t.arr i ∧ i < t.len ∧ (st.cells t.arr)[i]? = some (.leaf k) ∧ f k ≠ k := by
  obtain ⟨_, h1, h2⟩ := applyAll_up hf d st c x h
  constructor
  · intro hne
    apply Classical.byContradiction
    intro hn
    apply hne
    simp only [Store.read]
    refine List.ext_getElem? fun i => ?_
    rcases Nat.lt_or_ge i t.len with l | l
    · rw [List.getElem?_take_of_lt l, List.getElem?_take_of_lt l]
      have hb := ht.2
      have hi : (st.cells t.arr)[i]? = some (st.cells t.arr)[i] := List.getElem?_eq_getElem (by omega)
      rw [hi]
      rcases h1 _ _ _ hi with e | e
      · exact e
      · by_cases hw : ∃ s, c.Through st s ∧ s.covers t.arr i
        · obtain ⟨s, hs, hv⟩ := hw
          rw [e]
          cases ey : (st.cells t.arr)[i] with
          | group b s br => rfl
          | leaf k =>
            rw [ey] at hi
            have : f k = k := Classical.byContradiction fun hk => hn ⟨s, i, k, hs, hv, l, hi, hk⟩
            simp only [HCond.up, this]
        · exact sp.keep _ _ _ hi hw
    · rw [List.getElem?_eq_none (by simp; omega), List.getElem?_eq_none (by simp; omega)]
  · rintro ⟨s, i, k, hs, hv, l, hi, hk⟩ he
    obtain ⟨ea, el⟩ := hv
    rw [← ea] at hi
    have h3 := h2 s hs i el _ hi
    rw [ea] at h3 hi
    have := congrArg (·[i]?) he
    simp only [Store.read] at this
    rw [List.getElem?_take_of_lt l, List.getElem?_take_of_lt l, h3, hi] at this
    simp only [HCond.up, Option.some.injEq, HCond.leaf.injEq] at this
    exact hk this

end

theorem apply_call (pol : Policy) {m m' : Mem} {hs : List HV} {v : HV} (c : Call) (hc : c.heap pol m hs = some (m', v)) (r : Nat)
    (f : Cond → Cond) (ha : c.applied = some (r, f)) {t : Sl} (ht : InB m.conds t) :
    m'.conds.read t ≠ m.conds.read t ↔ ∃ h a i k, hs[r]? = some h ∧ h.usesCond m a i ∧ t.covers a i ∧
      (m.conds.cells a)[i]? = some (.leaf k) ∧ f k ≠ k := by
  have fin : ∀ (d : HCond) (x : Store HCond × HCond), hs[r]? = some (.cond d) → (∀ c, f (f c) = f c) →
      applyAllH f m.depth m.conds d = some x → Spar (fun a i => ∃ s, d.Through m.conds s ∧ s.covers a i) m.conds x.1 → m'.conds = x.1 →
      (m'.conds.read t ≠ m.conds.read t ↔ ∃ h a i k, hs[r]? = some h ∧ h.usesCond m a i ∧ t.covers a i ∧
      (m.conds.cells a)[i]? = some (.leaf k) ∧ f k ≠ k) := by
    intro d x hr hf e sp em
    rw [em, applyAll_changes hf _ d x e sp ht]
    constructor
    · rintro ⟨s, i, k, h1, h2, h3, h4, h5⟩
      exact ⟨_, t.arr, i, k, hr, ⟨d, s, rfl, h1, h2⟩, ⟨rfl, h3⟩, h4, h5⟩
    · rintro ⟨h, a, i, k, h0, ⟨d', s, h1, h2, h3⟩, ⟨rfl, h4⟩, h5, h6⟩
      rw [hr] at h0
      cases h0
      cases h1
      exact ⟨s, i, k, h2, h3, h4, h5, h6⟩
  cases c <;> simp only [Call.applied, reduceCtorEq, Option.some.injEq, Prod.mk.injEq] at ha
  case applySpec r' spec =>
    obtain ⟨rfl, rfl⟩ := ha
    simp only [Call.heap] at hc
    split at hc
    · rename_i d hr
      obtain ⟨x, e, e2⟩ := Option.map_eq_some_iff.1 hc
      cases e2
      have sh := shut_through (st := m.conds) d
      exact fin d x hr (spec_twice spec) (by rw [← applySpecH_all]; exact e) (spar_applySpec spec _ _ d x sh.1 sh.2 e).1 rfl
    · cases hc
  case applyTable r' tb =>
    obtain ⟨rfl, rfl⟩ := ha
    simp only [Call.heap] at hc
    split at hc
    · rename_i d hr
      obtain ⟨x, e, e2⟩ := Option.map_eq_some_iff.1 hc
      cases e2
      have sh := shut_through (st := m.conds) d
      exact fin d x hr (fun c => table_twice tb tb c) (by rw [← applyTableH_all]; exact e) (spar_applyTable tb _ _ d x sh.1 sh.2 e).1 rfl
    · cases hc

end Query
