import Verif.Proof.HeapBound
import Verif.Spec.Passed
/-!
# Calls stay away from the lists of the program
-/
namespace Query
open Store

/-- The step leaves the arrays in `U` alone. -/
def Fr {α : Type} (U : Nat → Prop) (st st' : Store α) : Prop := st.length ≤ st'.length ∧ ∀ a, U a → st'[a]? = st[a]?

/-- The arrays in `U` exist. -/
def Bd {α : Type} (U : Nat → Prop) (st : Store α) : Prop := ∀ a, U a → a < st.length

section
variable {α : Type} {U : Nat → Prop} {st st' st'' : Store α} {s : Sl}

theorem Fr.refl (st : Store α) : Fr U st st := ⟨Nat.le_refl _, fun _ _ => rfl⟩

theorem Fr.trans (h : Fr U st st') (k : Fr U st' st'') : Fr U st st'' :=
  ⟨Nat.le_trans h.1 k.1, fun a u => (k.2 a u).trans (h.2 a u)⟩

theorem Bd.mono (h : Bd U st) (k : Fr U st st') : Bd U st' := fun a u => Nat.lt_of_lt_of_le (h a u) k.1

theorem fr_alloc (h : Bd U st) (xs : List α) (cap : Nat) : Fr U st (st.alloc xs cap).1 :=
  ⟨by simp [Store.alloc], fun a u => by simp only [Store.alloc]; rw [List.getElem?_append_left (h a u)]⟩

theorem off_alloc (h : Bd U st) (xs : List α) (cap : Nat) : ¬ U (st.alloc xs cap).2.arr :=
  fun u => Nat.lt_irrefl _ (h _ u)

theorem fr_make (h : Bd U st) (xs : List α) : Fr U st (st.make xs).1 := fr_alloc h xs _

theorem off_make (h : Bd U st) (xs : List α) : ¬ U (st.make xs).2.arr := off_alloc h xs _

theorem fr_set (hs : ¬ U s.arr) (xs : List α) : Fr U st (st.set s.arr xs) :=
  ⟨by simp, fun a u => by rw [List.getElem?_set_ne]; exact fun e => hs (e ▸ u)⟩

theorem fr_append (gr : Grow) (h : Bd U st) (hs : ¬ U s.arr) (xs : List α) : Fr U st (st.append gr s xs).1 := by
  simp only [Store.append]
  split
  · exact fr_set hs _
  · exact fr_alloc h _ _

theorem off_append (gr : Grow) (h : Bd U st) (hs : ¬ U s.arr) (xs : List α) : ¬ U (st.append gr s xs).2.arr := by
  simp only [Store.append]
  split
  · exact hs
  · exact off_alloc h _ _

theorem fr_write (hs : ¬ U s.arr) (i : Nat) (x : α) : Fr U st (st.write s i x) := fr_set hs _

end

/-- The slice of a group is none of the lists. -/
def HCond.off (U : Nat → Prop) : HCond → Prop
  | .leaf _ => True
  | .group _ s _ => ¬ U s.arr

/-- All conditions in arrays. -/
def StOff (U : Nat → Prop) (st : Store HCond) : Prop := ∀ (a : Nat) (c : HCond), c ∈ st.cells a → c.off U

theorem HCond.off.join {U : Nat → Prop} {c : HCond} (h : c.off U) (j : Str) : (c.join j).off U := by
  cases c <;> exact h

theorem HCond.off.negate {U : Nat → Prop} {c : HCond} (h : c.off U) (n : Bool) : (c.setNegate n).off U := by
  cases c <;> exact h

theorem StOff.read {U : Nat → Prop} {st : Store HCond} (h : StOff U st) (s : Sl) : ∀ c ∈ st.read s, c.off U :=
  fun c hc => h s.arr c (List.mem_of_mem_take hc)

/-- A store whose conditions stay away from existing lists. -/
structure Away (U : Nat → Prop) (st : Store HCond) : Prop where
  bd : Bd U st
  off : StOff U st

/-- A step of the conditions' store to one that is fine too, giving a group. -/
def FrG (U : Nat → Prop) (st : Store HCond) (r : Store HCond × HGroup) : Prop := Fr U st r.1 ∧ Away U r.1 ∧ ¬ U r.2.s.arr

/-- The same giving a condition. -/
def FrC (U : Nat → Prop) (st : Store HCond) (r : Store HCond × HCond) : Prop := Fr U st r.1 ∧ Away U r.1 ∧ r.2.off U

variable {U : Nat → Prop} {st : Store HCond} {g : HGroup}

theorem FrG.toC {r : Store HCond × HGroup} (h : FrG U st r) : FrC U st (r.1, r.2.toCond) := h

theorem FrG.of {st st' : Store HCond} {r : Store HCond × HGroup} (k : Fr U st st') (h : FrG U st' r) : FrG U st r :=
  ⟨k.trans h.1, h.2⟩

theorem fr_app (gr : Grow) (hs : Away U st) (hg : ¬ U g.s.arr) {xs : List HCond} (hx : ∀ c ∈ xs, c.off U) :
    FrG U st (g.app gr st xs) := by
  refine ⟨fr_append gr hs.bd hg xs, ⟨hs.bd.mono (fr_append gr hs.bd hg xs), fun a c hc => ?_⟩, off_append gr hs.bd hg xs⟩
  rcases mem_append gr hc with h | h | h
  · exact hs.off a c h
  · exact hx c h
  · exact hs.off _ c h

theorem fr_lit (hs : Away U st) {xs : List HCond} (hx : ∀ c ∈ xs, c.off U) : FrG U st (g.lit st xs) := by
  refine ⟨fr_make hs.bd xs, ⟨hs.bd.mono (fr_make hs.bd xs), fun a c hc => ?_⟩, off_make hs.bd xs⟩
  rcases mem_alloc (cap := xs.length) hc with h | h
  · exact hs.off a c h
  · exact hx c h

theorem fr_newGroup (hs : Away U st) (j : Str) {xs : List HCond} (hx : ∀ c ∈ xs, c.off U) : FrG U st (newGroupH st j xs) := by
  have := fr_lit (g := ⟨newBase lAND false, ⟨0, 0, 0⟩, false⟩) hs (xs := xs.map (·.join j)) (by
    intro c hc
    obtain ⟨x, hx', rfl⟩ := List.mem_map.1 hc
    exact (hx x hx').join j)
  exact this

theorem fr_litApp (gr : Grow) (hs : Away U st) {xs ys : List HCond} (hx : ∀ c ∈ xs, c.off U) (hy : ∀ c ∈ ys, c.off U) :
    FrG U st ((g.lit st xs).2.app gr (g.lit st xs).1 ys) := by
  have h := fr_lit (g := g) hs hx
  exact .of h.1 (fr_app gr h.2.1 h.2.2 hy)

theorem fr_base {r : Store HCond × HGroup} (b : CondBase) (h : FrG U st r) : FrG U st (r.1, { r.2 with base := b }) := h

theorem fr_addGroup (gr : Grow) (hs : Away U st) (hg : ¬ U g.s.arr) {another : HGroup} (ha : ¬ U another.s.arr) :
    FrG U st (g.addGroup gr st another) := by
  have rd := hs.off.read another.s
  have sg : ∀ (c : HCond), c.off U → ∀ x ∈ [c], x.off U := fun c hc x hx => by rw [List.mem_singleton.1 hx]; exact hc
  have hgb : g.withBrackets.toCond.off U := hg
  have hab : another.withBrackets.toCond.off U := ha
  simp only [HGroup.addGroup]
  repeat' split
  · exact ⟨Fr.refl _, hs, ha⟩
  · exact fr_app gr hs hg rd
  · exact fr_app gr hs hg rd
  · exact fr_app gr hs hg (sg _ (hab.join _))
  · exact fr_app gr hs hg rd
  · exact fr_app gr hs hg (sg _ hab)
  · exact fr_litApp gr hs (sg _ hgb) rd
  · exact fr_app gr hs hg rd
  · exact fr_app gr hs hg (sg _ hab)
  · exact fr_litApp gr hs (sg _ hgb) rd
  · refine fr_lit hs fun c hc => ?_
    rcases List.mem_cons.1 hc with rfl | hc
    · exact hgb
    · rw [List.mem_singleton.1 hc]; exact hab.join _

theorem fr_addSingle (gr : Grow) (hs : Away U st) (hg : ¬ U g.s.arr) {c : HCond} (hc : c.off U) :
    FrG U st (g.addSingleCondition gr st c) := by
  have sg : ∀ (c : HCond), c.off U → ∀ x ∈ [c], x.off U := fun c hc x hx => by rw [List.mem_singleton.1 hx]; exact hc
  have hgb : g.withBrackets.toCond.off U := hg
  simp only [HGroup.addSingleCondition]
  cases c with
  | group b s br => exact fr_addGroup gr hs hg hc
  | leaf c =>
    simp only [HCond.asGroup]
    repeat' split
    · exact fr_base _ (fr_app gr hs hg (sg _ hc))
    · exact fr_app gr hs hg (sg _ (hc.join _))
    · exact fr_app gr hs hg (sg _ (hc.join _))
    · exact fr_app gr hs hg (sg _ (hc.join _))
    · refine fr_lit hs fun x hx => ?_
      rcases List.mem_cons.1 hx with rfl | hx
      · exact hgb
      · rw [List.mem_singleton.1 hx]; exact hc.join _

theorem fr_addConditions (gr : Grow) (hs : Away U st) (hg : ¬ U g.s.arr) (op : Str) {cs : List HCond}
    (hc : ∀ c ∈ cs, c.off U) : FrG U st (g.addConditions gr st op cs) := by
  have sg : ∀ (_ : Store HCond) (c : HCond), c.off U → ∀ x ∈ [c], x.off U :=
    fun _ c hc x hx => by rw [List.mem_singleton.1 hx]; exact hc
  have hgb : g.withBrackets.toCond.off U := hg
  simp only [HGroup.addConditions]
  cases cs with
  | nil => exact ⟨Fr.refl _, hs, hg⟩
  | cons c0 more =>
    simp only []
    repeat' split
    · exact fr_base _ (fr_app gr hs hg hc)
    · exact fr_addSingle gr hs hg ((hc c0 (by simp)).join _)
    · exact fr_litApp gr hs (sg st _ hgb) hc
    · have n := fr_newGroup hs op hc
      exact .of n.1 (fr_app gr n.2.1 hg (sg st _ (HCond.off.join (c := (newGroupH st op (c0 :: more)).2.toCond) n.2.2 op)))
    · have n := fr_newGroup hs lAND hc
      exact .of n.1 (fr_litApp gr n.2.1 (sg st _ hgb) (sg st _ n.2.2))

theorem fr_groupOf (gr : Grow) (hs : Away U st) (j : Str) {c : HCond} (hc : c.off U) {more : List HCond}
    (hm : ∀ c ∈ more, c.off U) : FrC U st (groupOf gr st j c more) := by
  have n := fr_newGroup hs j (xs := [c]) (fun x hx => by rw [List.mem_singleton.1 hx]; exact hc)
  have a := fr_addConditions gr n.2.1 n.2.2 j hm
  exact (FrG.of n.1 a).toC

theorem fr_andH (gr : Grow) (hs : Away U st) {c : HCond} (hc : c.off U) {more : List HCond} (hm : ∀ c ∈ more, c.off U) :
    FrC U st (andH gr st c more) := by
  simp only [andH]
  split
  · exact ⟨Fr.refl _, hs, hc.join _⟩
  · cases c with
    | leaf c => exact fr_groupOf gr hs lAND hc hm
    | group b s br => exact (fr_addConditions gr hs (g := ⟨b, s, br⟩) hc lAND hm).toC

theorem fr_orH (gr : Grow) (hs : Away U st) {c : HCond} (hc : c.off U) {more : List HCond} (hm : ∀ c ∈ more, c.off U) :
    FrC U st (orH gr st c more) := by
  simp only [orH]
  split
  · exact ⟨Fr.refl _, hs, hc.join _⟩
  · cases c with
    | leaf c =>
      have := fr_groupOf gr hs lOR hc hm
      exact ⟨this.1, this.2.1, this.2.2.join _⟩
    | group b s br => exact (fr_addConditions gr hs (g := ⟨b, s, br⟩) hc lOR hm).toC

theorem fr_and (gr : Grow) (hs : Away U st) {c : HCond} (hc : c.off U) {more : List HCond} (hm : ∀ c ∈ more, c.off U) :
    FrC U st (c.and gr st more) := by
  unfold HCond.and
  split
  · exact fr_groupOf gr hs lAND hc hm
  · exact fr_groupOf gr hs lAND hc hm
  · exact fr_groupOf gr hs lAND hc hm
  · exact fr_andH gr hs hc hm
  · exact (fr_addConditions gr hs (g := ⟨_, _, _⟩) hc lAND hm).toC

theorem fr_or (gr : Grow) (hs : Away U st) {c : HCond} (hc : c.off U) {more : List HCond} (hm : ∀ c ∈ more, c.off U)
    {r : Store HCond × HCond} (h : c.or gr st more = .ok r) : FrC U st r := by
  unfold HCond.or at h
  split at h
  · cases h; exact fr_groupOf gr hs lOR hc hm
  · cases h; exact fr_groupOf gr hs lOR hc hm
  · cases h
  · cases h; exact fr_orH gr hs hc hm
  · cases h; exact (fr_addConditions gr hs (g := ⟨_, _, _⟩) hc lOR hm).toC

theorem fr_applyLoop (s : Sl) (ho : ¬ U s.arr) (f : Store HCond → HCond → Option (Store HCond × HCond))
    (hf : ∀ st c r, Away U st → c.off U → f st c = some r → FrC U st r) :
    ∀ (is : List Nat) (st : Store HCond) (st' : Store HCond), Away U st → applyLoop s f is st = some st' → Fr U st st' ∧ Away U st'
  | [], st, st', hs, h => by cases h; exact ⟨Fr.refl _, hs⟩
  | i :: is, st, st', hs, h => by
    simp only [applyLoop] at h
    split at h
    · cases h
    · rename_i c hc
      cases hr : f st c with
      | none => rw [hr] at h; cases h
      | some r =>
        rw [hr] at h
        have k := hf st c r hs (hs.off s.arr c (List.mem_of_getElem? hc)) hr
        have k2 : Fr U r.1 (r.1.write s i r.2) := fr_write ho _ _
        have k3 : Away U (r.1.write s i r.2) := ⟨k.2.1.bd.mono k2, fun a x hx => by
          rcases mem_write hx with hx | rfl | hx
          · exact k.2.1.off a x hx
          · exact k.2.2
          · exact k.2.1.off _ x hx⟩
        have ih := fr_applyLoop s ho f hf is _ st' k3 h
        exact ⟨(k.1.trans k2).trans ih.1, ih.2⟩

theorem fr_applySpec (spec : FieldDef) : ∀ (d : Nat) (st : Store HCond) (c : HCond) (r : Store HCond × HCond),
    Away U st → c.off U → applySpecH d st spec c = some r → FrC U st r
  | d, st, .leaf c, r, hs, hc, h => by
    cases d <;> (simp only [applySpecH, Option.some.injEq] at h; subst h; exact ⟨Fr.refl _, hs, trivial⟩)
  | 0, st, .group b s br, r, hs, hc, h => by simp [applySpecH] at h
  | d + 1, st, .group b s br, r, hs, hc, h => by
    simp only [applySpecH] at h
    cases hl : applyLoop s (fun st c => applySpecH d st spec c) (List.range s.len) st with
    | none => rw [hl] at h; cases h
    | some st' =>
      rw [hl] at h
      cases h
      have k := fr_applyLoop s hc _ (fun st c r => fr_applySpec spec d st c r) _ st st' hs hl
      exact ⟨k.1, k.2, hc⟩

theorem fr_applyTable (t : Str) : ∀ (d : Nat) (st : Store HCond) (c : HCond) (r : Store HCond × HCond),
    Away U st → c.off U → applyTableH d st t c = some r → FrC U st r
  | d, st, .leaf c, r, hs, hc, h => by
    cases d <;> (simp only [applyTableH, Option.some.injEq] at h; subst h; exact ⟨Fr.refl _, hs, trivial⟩)
  | 0, st, .group b s br, r, hs, hc, h => by simp [applyTableH] at h
  | d + 1, st, .group b s br, r, hs, hc, h => by
    simp only [applyTableH] at h
    cases hl : applyLoop s (fun st c => applyTableH d st t c) (List.range s.len) st with
    | none => rw [hl] at h; cases h
    | some st' =>
      rw [hl] at h
      cases h
      have k := fr_applyLoop s hc _ (fun st c r => fr_applyTable t d st c r) _ st st' hs hl
      exact ⟨k.1, k.2, hc⟩


/-! ## Builders -/

/-- The arrays of the program's lists, of each element type. -/
structure Lists where
  c : Nat → Prop
  d : Nat → Prop
  s : Nat → Prop
  v : Nat → Prop

/-- The slices of a select are none of the lists. -/
structure BaseO (U : Lists) (q : HBase) : Prop where
  fields : ¬ U.d q.fields.arr
  cond : ¬ U.c q.where_.s.arr

/-- The slices of a value are none of the lists. -/
def HV.off (U : Lists) : HV → Prop
  | .cond c => c.off U.c
  | .base q | .single q | .joinB q | .joinS q | .count q _ => BaseO U q
  | .many q | .joinM q => BaseO U q.base ∧ ¬ U.s q.order.arr
  | .insert q => ¬ U.v q.setValues.arr
  | .update q => ¬ U.c q.where_.s.arr ∧ ¬ U.v q.setValues.arr
  | .delete q => ¬ U.c q.where_.s.arr

/-- The lists are left alone. -/
structure FrM (U : Lists) (m m' : Mem) : Prop where
  conds : Fr U.c m.conds m'.conds
  defs : Fr U.d m.defs m'.defs
  sorts : Fr U.s m.sorts m'.sorts
  vals : Fr U.v m.vals m'.vals

theorem FrM.refl {U : Lists} (m : Mem) : FrM U m m := ⟨.refl _, .refl _, .refl _, .refl _⟩

theorem FrM.trans {U : Lists} {a b c : Mem} (h : FrM U a b) (k : FrM U b c) : FrM U a c :=
  ⟨h.conds.trans k.conds, h.defs.trans k.defs, h.sorts.trans k.sorts, h.vals.trans k.vals⟩

/-- A memory whose conditions stay away from existing lists. -/
structure AwayM (U : Lists) (m : Mem) : Prop where
  conds : Away U.c m.conds
  defs : Bd U.d m.defs
  sorts : Bd U.s m.sorts
  vals : Bd U.v m.vals

/-- A step to a memory that is fine too. -/
def FrStep (U : Lists) (m m' : Mem) : Prop := FrM U m m' ∧ AwayM U m'

theorem FrStep.trans {U : Lists} {a b c : Mem} (h : FrStep U a b) (k : FrStep U b c) : FrStep U a c := ⟨h.1.trans k.1, k.2⟩

section
variable {U : Lists} {m : Mem}

theorem frM_conds (hm : AwayM U m) {st : Store HCond} (h : Fr U.c m.conds st) (k : Away U.c st) : FrStep U m { m with conds := st } :=
  ⟨⟨h, .refl _, .refl _, .refl _⟩, ⟨k, hm.defs, hm.sorts, hm.vals⟩⟩

theorem frM_defs (hm : AwayM U m) {st : Store FieldDef} (h : Fr U.d m.defs st) : FrStep U m { m with defs := st } :=
  ⟨⟨.refl _, h, .refl _, .refl _⟩, ⟨hm.conds, hm.defs.mono h, hm.sorts, hm.vals⟩⟩

theorem frM_sorts (hm : AwayM U m) {st : Store FieldSorting} (h : Fr U.s m.sorts st) : FrStep U m { m with sorts := st } :=
  ⟨⟨.refl _, .refl _, h, .refl _⟩, ⟨hm.conds, hm.defs, hm.sorts.mono h, hm.vals⟩⟩

theorem frM_vals (hm : AwayM U m) {st : Store FieldValue} (h : Fr U.v m.vals st) : FrStep U m { m with vals := st } :=
  ⟨⟨.refl _, .refl _, .refl _, h⟩, ⟨hm.conds, hm.defs, hm.sorts, hm.vals.mono h⟩⟩

theorem frM_joins (hm : AwayM U m) (st : Store TableJoiner) : FrStep U m { m with joins := st } :=
  ⟨⟨.refl _, .refl _, .refl _, .refl _⟩, ⟨hm.conds, hm.defs, hm.sorts, hm.vals⟩⟩

theorem getCondsH_off {hs : List HV} (hb : ∀ (i : Nat) (h : HV), hs[i]? = some h → h.off U) :
    ∀ (is : List Nat) (cs : List HCond), getCondsH hs is = some cs → ∀ c ∈ cs, c.off U.c
  | [], cs, h => by cases h; intro c hc; cases hc
  | i :: is, cs, h => by
    simp only [getCondsH] at h
    split at h
    · rename_i c cs' h1 h2
      cases h
      intro x hx
      rcases List.mem_cons.1 hx with rfl | hx
      · exact hb i _ h1
      · exact getCondsH_off hb is cs' h2 x hx
    · cases h

theorem fr_where (pol : Policy) {g : HGroup} (hm : AwayM U m) (hg : ¬ U.c g.s.arr) {cs : List HCond} (hc : ∀ c ∈ cs, c.off U.c) :
    FrStep U m { m with conds := (g.groupAND pol.conds m.conds cs).1 } ∧ ¬ U.c (g.groupAND pol.conds m.conds cs).2.s.arr := by
  have h := fr_addConditions pol.conds hm.conds hg lAND hc
  exact ⟨frM_conds hm h.1 h.2.1, h.2.2⟩

theorem fr_addWhere (pol : Policy) {q : HBase} (hm : AwayM U m) (hq : BaseO U q) {cs : List HCond}
    (hc : ∀ c ∈ cs, c.off U.c) : FrStep U m (q.addWhere pol m cs).1 ∧ BaseO U (q.addWhere pol m cs).2 := by
  have h := fr_where pol hm hq.cond hc
  exact ⟨h.1, hq.fields, h.2⟩

theorem empty_off : ∀ c ∈ ([] : List HCond), c.off U.c := fun c hc => by cases hc

theorem fr_selectFrom (hm : AwayM U m) (p : TableParam) {x : Mem × HBase} (h : selectFromH m p = .ok x) :
    FrStep U m x.1 ∧ BaseO U x.2 := by
  simp only [selectFromH] at h
  cases hp : tableP p with
  | err e => rw [hp] at h; cases h
  | panic e => rw [hp] at h; cases h
  | ok t =>
    rw [hp] at h; cases h
    have n := fr_newGroup hm.conds lAND (empty_off (U := U))
    exact ⟨⟨⟨n.1, fr_make hm.defs _, .refl _, .refl _⟩, ⟨n.2.1, hm.defs.mono (fr_make hm.defs _), hm.sorts, hm.vals⟩⟩, off_make hm.defs _, n.2.2⟩

theorem fr_zero (hm : AwayM U m) : FrStep U m (zeroBaseH m).1 ∧ BaseO U (zeroBaseH m).2 := by
  have n := fr_lit (g := ⟨⟨[], false⟩, ⟨0, 0, 0⟩, false⟩) hm.conds (empty_off (U := U))
  exact ⟨⟨⟨n.1, fr_make hm.defs _, .refl _, .refl _⟩, ⟨n.2.1, hm.defs.mono (fr_make hm.defs _), hm.sorts, hm.vals⟩⟩, off_make hm.defs _, n.2.2⟩

theorem fr_setFields {q : HBase} (hm : AwayM U m) (hq : BaseO U q) (fs : List FieldDef) :
    FrStep U m (q.setFields m fs).1 ∧ BaseO U (q.setFields m fs).2 :=
  ⟨frM_defs hm (fr_make hm.defs _), off_make hm.defs _, hq.cond⟩

theorem fr_joinIdent (pol : Policy) {q : HBase} (hm : AwayM U m) (hq : BaseO U q) (t : TableIdent) (j : Int) :
    FrStep U m (q.joinIdent pol m t j).1 ∧ BaseO U (q.joinIdent pol m t j).2 :=
  ⟨frM_joins hm _, hq.fields, hq.cond⟩

theorem fr_on {q : HBase} (hm : AwayM U m) (hq : BaseO U q) (l r : FieldDef) {x : Mem × HBase}
    (h : q.on m l r = .ok x) : FrStep U m x.1 ∧ BaseO U x.2 := by
  simp only [HBase.on] at h
  split at h
  · cases h; exact ⟨frM_joins hm _, hq.fields, hq.cond⟩
  · cases h

theorem fr_updateH (hm : AwayM U m) (p : TableParam) :
    FrStep U m (updateH m p).1 ∧ ¬ U.c (updateH m p).2.where_.s.arr ∧ ¬ U.v (updateH m p).2.setValues.arr := by
  have n := fr_newGroup hm.conds lAND (empty_off (U := U))
  exact ⟨⟨⟨n.1, .refl _, .refl _, fr_make hm.vals _⟩, ⟨n.2.1, hm.defs, hm.sorts, hm.vals.mono (fr_make hm.vals _)⟩⟩, n.2.2, off_make hm.vals _⟩

theorem fr_deleteH (hm : AwayM U m) (p : TableParam) : FrStep U m (deleteH m p).1 ∧ ¬ U.c (deleteH m p).2.where_.s.arr := by
  have n := fr_newGroup hm.conds lAND (empty_off (U := U))
  exact ⟨frM_conds hm n.1 n.2.1, n.2.2⟩

theorem fr_conditions (hm : AwayM U m) (q : HBase) : FrStep U m (q.conditions m).1 := by
  have n := fr_lit (g := q.where_) hm.conds (hm.conds.off.read q.where_.s)
  exact frM_conds hm n.1 n.2.1

theorem fr_vals (gr : Grow) {s : Sl} (hm : AwayM U m) (h : ¬ U.v s.arr) (vs : List FieldValue) :
    FrStep U m { m with vals := (m.vals.append gr s vs).1 } ∧ ¬ U.v (m.vals.append gr s vs).2.arr :=
  ⟨frM_vals hm (fr_append gr hm.vals h vs), off_append gr hm.vals h vs⟩

theorem fr_update (pol : Policy) (hm : AwayM U m) (q : HBase) (p : TableParam) (vs : List FieldValue) :
    FrStep U m (q.update pol m p vs).1 ∧ HV.off U (.update (q.update pol m p vs).2) := by
  have c := fr_conditions hm q
  have u := fr_updateH c.2 p
  have w := fr_where pol u.1.2 u.2.1 (cs := (updateH (q.conditions m).1 p).1.conds.read (q.conditions m).2)
    (u.1.2.conds.off.read _)
  have v := fr_vals pol.vals (m := { (updateH (q.conditions m).1 p).1 with conds := _ }) w.1.2 u.2.2 vs
  exact ⟨((c.trans u.1).trans w.1).trans v.1, w.2, v.2⟩

theorem fr_delete (pol : Policy) (hm : AwayM U m) (q : HBase) (p : TableParam) :
    FrStep U m (q.delete pol m p).1 ∧ HV.off U (.delete (q.delete pol m p).2) := by
  have c := fr_conditions hm q
  have u := fr_deleteH c.2 p
  have w := fr_where pol u.1.2 u.2 (cs := (deleteH (q.conditions m).1 p).1.conds.read (q.conditions m).2)
    (u.1.2.conds.off.read _)
  exact ⟨(c.trans u.1).trans w.1, w.2⟩

/-- No call touches the lists, or makes a value that refers to one. -/
theorem fr_call (pol : Policy) {hs : List HV} (ms : AwayM U m)
    (hb : ∀ (i : Nat) (h : HV), hs[i]? = some h → h.off U) (c : Call) (x : Mem × HV) (hx : c.heap pol m hs = some x) :
    FrStep U m x.1 ∧ x.2.off U := by
  have same : FrStep U m m := ⟨.refl m, ms⟩
  cases c with
  | leaf c =>
    simp only [Call.heap] at hx
    split at hx
    · cases hx
    · rename_i hn
      cases hx
      refine ⟨same, ?_⟩
      trivial
  | newGroup j args =>
    simp only [Call.heap] at hx
    cases hg : getCondsH hs args with
    | none => rw [hg] at hx; cases hx
    | some cs =>
      rw [hg] at hx; cases hx
      have n := fr_newGroup ms.conds j (getCondsH_off hb args cs hg)
      exact ⟨frM_conds ms n.1 n.2.1, n.2.2⟩
  | andF r args =>
    simp only [Call.heap] at hx
    split at hx
    · rename_i c cs h1 h2
      cases hx
      have n := fr_andH pol.conds ms.conds (c := c) (hb r _ h1) (getCondsH_off hb args cs h2)
      exact ⟨frM_conds ms n.1 n.2.1, n.2.2⟩
    · cases hx
  | orF r args =>
    simp only [Call.heap] at hx
    split at hx
    · rename_i c cs h1 h2
      cases hx
      have n := fr_orH pol.conds ms.conds (c := c) (hb r _ h1) (getCondsH_off hb args cs h2)
      exact ⟨frM_conds ms n.1 n.2.1, n.2.2⟩
    · cases hx
  | and r args =>
    simp only [Call.heap] at hx
    split at hx
    · rename_i c cs h1 h2
      cases hx
      have n := fr_and pol.conds ms.conds (c := c) (hb r _ h1) (getCondsH_off hb args cs h2)
      exact ⟨frM_conds ms n.1 n.2.1, n.2.2⟩
    · cases hx
  | or r args =>
    simp only [Call.heap] at hx
    split at hx
    · rename_i c cs h1 h2
      obtain ⟨a, ha, rfl⟩ := toOption_ok hx
      have n := fr_or pol.conds ms.conds (c := c) (hb r _ h1) (getCondsH_off hb args cs h2) ha
      exact ⟨frM_conds ms n.1 n.2.1, n.2.2⟩
    · cases hx
  | negate r n =>
    simp only [Call.heap] at hx
    split at hx
    · rename_i c h1
      cases hx
      exact ⟨same, HCond.off.negate (c := c) (hb r _ h1) n⟩
    · cases hx
  | join r j =>
    simp only [Call.heap] at hx
    split at hx
    · rename_i c h1
      cases hx
      exact ⟨same, HCond.off.join (c := c) (hb r _ h1) j⟩
    · cases hx
  | withBrackets r =>
    simp only [Call.heap] at hx
    split at hx
    · rename_i b s br h1
      cases hx
      have b := hb r _ h1
      exact ⟨same, b⟩
    · cases hx
  | applySpec r spec =>
    simp only [Call.heap] at hx
    split at hx
    · rename_i c h1
      cases ha : applySpecH m.depth m.conds spec c with
      | none => rw [ha] at hx; cases hx
      | some a =>
        rw [ha] at hx; cases hx
        have n := fr_applySpec spec _ _ c a ms.conds (hb r _ h1) ha
        exact ⟨frM_conds ms n.1 n.2.1, n.2.2⟩
    · cases hx
  | applyTable r t =>
    simp only [Call.heap] at hx
    split at hx
    · rename_i c h1
      cases ha : applyTableH m.depth m.conds t c with
      | none => rw [ha] at hx; cases hx
      | some a =>
        rw [ha] at hx; cases hx
        have n := fr_applyTable t _ _ c a ms.conds (hb r _ h1) ha
        exact ⟨frM_conds ms n.1 n.2.1, n.2.2⟩
    · cases hx
  | selectFrom p =>
    simp only [Call.heap] at hx
    obtain ⟨a, ha, rfl⟩ := toOption_ok hx
    exact fr_selectFrom ms p ha
  | fields r fs =>
    simp only [Call.heap] at hx
    split at hx
    · rename_i q h1; cases hx
      exact fr_setFields ms (hb r _ h1) fs
    · cases hx
      have z := fr_zero ms
      have f := fr_setFields z.1.2 z.2 fs
      exact ⟨z.1.trans f.1, f.2⟩
    · rename_i q h1; cases hx
      have b := hb r _ h1
      have f := fr_setFields ms b.1 fs
      exact ⟨f.1, f.2, b.2⟩
    · cases hx
  | where_ r args =>
    simp only [Call.heap] at hx
    split at hx
    · rename_i q cs h1 h2; cases hx
      exact fr_addWhere pol ms (hb r _ h1) (getCondsH_off hb args cs h2)
    · rename_i q cs h1 h2; cases hx
      exact fr_addWhere pol ms (hb r _ h1) (getCondsH_off hb args cs h2)
    · rename_i q cs h1 h2; cases hx
      have b := hb r _ h1
      have f := fr_addWhere pol ms b.1 (getCondsH_off hb args cs h2)
      exact ⟨f.1, f.2, b.2⟩
    · rename_i q cs h1 h2; cases hx
      have b := hb r _ h1
      have f := fr_where pol ms b.1 (getCondsH_off hb args cs h2)
      exact ⟨f.1, f.2, b.2⟩
    · rename_i q cs h1 h2; cases hx
      exact fr_where pol ms (hb r _ h1) (getCondsH_off hb args cs h2)
    · cases hx
  | joinTable r t j =>
    simp only [Call.heap] at hx
    split at hx
    · rename_i q h1; cases hx
      exact fr_joinIdent pol ms (hb r _ h1) t j
    · rename_i q h1; cases hx
      exact fr_joinIdent pol ms (hb r _ h1) t j
    · rename_i q h1; cases hx
      have b := hb r _ h1
      have f := fr_joinIdent pol ms b.1 t j
      exact ⟨f.1, f.2, b.2⟩
    · cases hx
  | on r l y =>
    simp only [Call.heap] at hx
    split at hx
    · rename_i q h1
      obtain ⟨a, ha, rfl⟩ := toOption_ok hx
      exact fr_on ms (hb r _ h1) l y ha
    · rename_i q h1
      obtain ⟨a, ha, rfl⟩ := toOption_ok hx
      exact fr_on ms (hb r _ h1) l y ha
    · rename_i q h1
      obtain ⟨a, ha, rfl⟩ := toOption_ok hx
      have b := hb r _ h1
      have f := fr_on ms b.1 l y ha
      exact ⟨f.1, f.2, b.2⟩
    · cases hx
  | single r =>
    simp only [Call.heap] at hx
    split at hx
    · rename_i q h1; cases hx
      have b := hb r _ h1
      exact ⟨same, b⟩
    · cases hx
  | embedded r =>
    simp only [Call.heap] at hx
    split at hx
    · rename_i q h1; cases hx
      have b := hb r _ h1
      exact ⟨same, b⟩
    · rename_i q h1; cases hx
      exact ⟨same, (hb r _ h1).1⟩
    · cases hx
  | many r =>
    simp only [Call.heap] at hx
    split at hx
    · rename_i q h1; cases hx
      have b := hb r _ h1
      exact ⟨frM_sorts ms (fr_make ms.sorts _), ⟨b.fields, b.cond⟩, off_make ms.sorts _⟩
    · cases hx
  | offset r n =>
    simp only [Call.heap] at hx
    split at hx
    · rename_i q h1; cases hx
      have b := hb r _ h1
      exact ⟨same, b⟩
    · cases hx
  | limit r n =>
    simp only [Call.heap] at hx
    split at hx
    · rename_i q h1; cases hx
      have b := hb r _ h1
      exact ⟨same, b⟩
    · cases hx
  | orderBy r os =>
    simp only [Call.heap] at hx
    split at hx
    · rename_i q h1; cases hx
      have b := hb r _ h1
      exact ⟨frM_sorts ms (fr_append _ ms.sorts b.2 _), ⟨b.1.fields, b.1.cond⟩, off_append _ ms.sorts b.2 _⟩
    · cases hx
  | count r fs =>
    simp only [Call.heap] at hx
    split at hx
    · rename_i q h1
      obtain ⟨a, ha, rfl⟩ := toOption_ok hx
      have b := hb r _ h1
      exact ⟨same, b⟩
    · rename_i q h1
      obtain ⟨a, ha, rfl⟩ := toOption_ok hx
      exact ⟨same, (hb r _ h1).1⟩
    · cases hx
  | insertInto p =>
    simp only [Call.heap] at hx; cases hx
    exact ⟨frM_vals ms (fr_make ms.vals _), off_make ms.vals _⟩
  | insertFrom r vs =>
    simp only [Call.heap] at hx
    split at hx
    · rename_i q h1; cases hx
      have a : FrStep U m (insertIntoH m (.ident q.baseTable)).1 := frM_vals ms (fr_make ms.vals _)
      have f := fr_vals pol.vals (m := (insertIntoH m (.ident q.baseTable)).1) (s := (insertIntoH m (.ident q.baseTable)).2.setValues) a.2 (off_make ms.vals _) vs
      exact ⟨a.trans f.1, f.2⟩
    · cases hx
  | values r vs =>
    simp only [Call.heap] at hx
    split at hx
    · rename_i q h1; cases hx
      exact fr_vals pol.vals ms (hb r _ h1) vs
    · cases hx
  | update p =>
    simp only [Call.heap] at hx; cases hx
    have u := fr_updateH ms p
    exact ⟨u.1, u.2⟩
  | updateFrom r vs =>
    simp only [Call.heap] at hx
    split at hx
    · rename_i q h1; cases hx; exact fr_update pol ms _ _ vs
    · rename_i q h1; cases hx; exact fr_update pol ms _ _ vs
    · rename_i q h1; cases hx; exact fr_update pol ms _ _ vs
    · cases hx
  | set r vs =>
    simp only [Call.heap] at hx
    split at hx
    · rename_i q h1; cases hx
      have b := hb r _ h1
      have f := fr_vals pol.vals ms b.2 vs
      exact ⟨f.1, b.1, f.2⟩
    · cases hx
  | delete p =>
    simp only [Call.heap] at hx; cases hx
    exact fr_deleteH ms p
  | deleteFrom r =>
    simp only [Call.heap] at hx
    split at hx
    · rename_i q h1; cases hx; exact fr_delete pol ms _ _
    · rename_i q h1; cases hx; exact fr_delete pol ms _ _
    · rename_i q h1; cases hx; exact fr_delete pol ms _ _
    · cases hx

end

end Query
