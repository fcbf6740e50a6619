import Verif.Proof.HeapSafe
import Verif.Proof.HeapBound
import Verif.Spec.Once
import Verif.Spec.Threads
/-!
# A call depends only on the cells of its operands
-/
namespace Query
open Store

/-- A slice holds the same in both. -/
def SeenS {α : Type} (st R : Store α) (s : Sl) : Prop := ∃ xs, RepS st s xs ∧ RepS R s xs

section
variable {α : Type} {st R : Store α} {s : Sl}

theorem SameWrites.refl (h : R.length = st.length) : SameWrites st st R R := ⟨h, fun _ _ => .inl ⟨rfl, rfl⟩⟩

theorem SameWrites.trans {st1 st2 R1 R2 : Store α} (h : SameWrites st st1 R R1) (k : SameWrites st1 st2 R1 R2) :
    SameWrites st st2 R R2 :=
  ⟨k.size, fun a i => by
    rcases k.cells a i with ⟨e1, e2⟩ | h2
    · rcases h.cells a i with ⟨e3, e4⟩ | ⟨x, e3, e4⟩
      · exact .inl ⟨e1.trans e3, e2.trans e4⟩
      · exact .inr ⟨x, e1.trans e3, e2.trans e4⟩
    · exact .inr h2⟩

theorem SeenS.read (h : SeenS st R s) : R.read s = st.read s := by
  obtain ⟨xs, h1, h2⟩ := h
  rw [h1.2.2, h2.2.2]

theorem cells_alloc (st : Store α) (xs : List α) (cap a : Nat) :
    Store.cells (st.alloc xs cap).1 a = if a = st.length then xs else st.cells a := by
  simp only [Store.alloc]
  rcases Nat.lt_trichotomy a st.length with h | h | h
  · rw [if_neg (by omega), cells_append_lt st xs a h]
  · subst h; rw [if_pos rfl, cells_append_self]
  · rw [if_neg (by omega), cells_of_ge _ _ (by simp; omega), cells_of_ge _ _ (by omega)]

theorem same_alloc (L : R.length = st.length) (xs : List α) (cap : Nat) : (R.alloc xs cap).2 = (st.alloc xs cap).2 ∧
    SameWrites st (st.alloc xs cap).1 R (R.alloc xs cap).1 ∧ SeenS (st.alloc xs cap).1 (R.alloc xs cap).1 (st.alloc xs cap).2 := by
  have e : (R.alloc xs cap).2 = (st.alloc xs cap).2 := by simp only [Store.alloc, L]
  refine ⟨e, ⟨by simp [Store.alloc, L], fun a i => ?_⟩, xs, rep_alloc st xs cap, e ▸ rep_alloc R xs cap⟩
  rw [cells_alloc, cells_alloc, L]
  by_cases h : a = st.length
  · rw [if_pos h, if_pos h]
    cases hx : xs[i]? with
    | some x => exact .inr ⟨x, rfl, rfl⟩
    | none =>
      left
      rw [cells_of_ge st a (by omega), cells_of_ge R a (by omega)]
      simp
  · rw [if_neg h, if_neg h]; exact .inl ⟨rfl, rfl⟩

theorem same_make (L : R.length = st.length) (xs : List α) : (R.make xs).2 = (st.make xs).2 ∧
    SameWrites st (st.make xs).1 R (R.make xs).1 ∧ SeenS (st.make xs).1 (R.make xs).1 (st.make xs).2 := same_alloc L xs _

theorem writeAt_get (cs xs : List α) (n i : Nat) (h : n ≤ cs.length) : (writeAt cs n xs)[i]? =
    if i < n then cs[i]? else if i < n + xs.length then xs[i - n]? else cs[i]? := by
  simp only [writeAt]
  by_cases h1 : i < n
  · rw [if_pos h1, List.getElem?_append_left (by simp; omega), List.getElem?_append_left (by simp; omega), List.getElem?_take_of_lt h1]
  · rw [if_neg h1]
    by_cases h2 : i < n + xs.length
    · rw [if_pos h2, List.getElem?_append_left (by simp; omega), List.getElem?_append_right (by simp; omega)]
      congr 1; simp; omega
    · rw [if_neg h2, List.getElem?_append_right (by simp; omega), List.getElem?_drop]
      congr 1; simp; omega

theorem same_append (gr : Grow) (L : R.length = st.length) (h : SeenS st R s) (xs : List α) :
    (R.append gr s xs).2 = (st.append gr s xs).2 ∧ SameWrites st (st.append gr s xs).1 R (R.append gr s xs).1 ∧
      SeenS (st.append gr s xs).1 (R.append gr s xs).1 (st.append gr s xs).2 := by
  have e : (R.append gr s xs).2 = (st.append gr s xs).2 := by
    unfold Store.append
    split
    · rfl
    · rw [h.read]; simp only [Store.alloc, L]
  obtain ⟨ys, h1, h2⟩ := h
  refine ⟨e, ?_, ys ++ xs, rep_append gr st s xs ys h1.1 h1, e ▸ rep_append gr R s xs ys h2.1 h2⟩
  unfold Store.append
  split
  · refine ⟨by simp [L], fun a i => ?_⟩
    by_cases ha : a = s.arr
    · subst ha
      simp only [cells_set_self _ _ _ h1.1, cells_set_self _ _ _ h2.1, writeAt_get _ _ _ _ h1.2.1, writeAt_get _ _ _ _ h2.2.1]
      by_cases c1 : i < s.len
      · rw [if_pos c1, if_pos c1]; exact .inl ⟨rfl, rfl⟩
      · rw [if_neg c1, if_neg c1]
        by_cases c2 : i < s.len + xs.length
        · rw [if_pos c2, if_pos c2]
          exact .inr ⟨xs[i - s.len]'(by omega), List.getElem?_eq_getElem _, List.getElem?_eq_getElem _⟩
        · rw [if_neg c2, if_neg c2]; exact .inl ⟨rfl, rfl⟩
    · rw [cells_set_ne _ _ _ _ (Ne.symm ha), cells_set_ne _ _ _ _ (Ne.symm ha)]; exact .inl ⟨rfl, rfl⟩
  · rw [h1.2.2, h2.2.2, L]; exact (same_alloc L _ _).2.1

theorem SeenS.alloc (h : SeenS st R s) (xs : List α) (cap : Nat) : SeenS (st.alloc xs cap).1 (R.alloc xs cap).1 s := by
  obtain ⟨ys, h1, h2⟩ := h
  exact ⟨ys, h1.mono (le_alloc st xs cap), h2.mono (le_alloc R xs cap)⟩

theorem SeenS.make (h : SeenS st R s) (xs : List α) : SeenS (st.make xs).1 (R.make xs).1 s := h.alloc xs _

end

/-- The slice of a group holds the same in both. -/
def HCond.agr (st R : Store HCond) : HCond → Prop
  | .leaf _ => True
  | .group _ s _ => SeenS st R s

theorem HCond.agr.join {st R : Store HCond} {c : HCond} (h : c.agr st R) (j : Str) : (c.join j).agr st R := by
  cases c <;> exact h

/-- Two runs of a call on a group: the same group by the same writes. -/
structure PairG (st R : Store HCond) (r r' : Store HCond × HGroup) : Prop where
  res : r'.2 = r.2
  same : SameWrites st r.1 R r'.1
  agr : SeenS r.1 r'.1 r.2.s

/-- The same for a condition. -/
structure PairC (st R : Store HCond) (r r' : Store HCond × HCond) : Prop where
  res : r'.2 = r.2
  same : SameWrites st r.1 R r'.1

section
variable {st R : Store HCond} {g : HGroup}

theorem PairG.of {st1 R1 : Store HCond} {r r' : Store HCond × HGroup} (h : SameWrites st st1 R R1) (k : PairG st1 R1 r r') :
    PairG st R r r' := ⟨k.res, h.trans k.same, k.agr⟩

theorem PairG.toC {r r' : Store HCond × HGroup} (h : PairG st R r r') (f : HGroup → HCond) : PairC st R (r.1, f r.2) (r'.1, f r'.2) :=
  ⟨by rw [h.res], h.same⟩

theorem PairG.base {r r' : Store HCond × HGroup} (h : PairG st R r r') (b : CondBase) :
    PairG st R (r.1, { r.2 with base := b }) (r'.1, { r'.2 with base := b }) := ⟨by rw [h.res], h.same, h.agr⟩

theorem pair_app (gr : Grow) (L : R.length = st.length) (hg : SeenS st R g.s) (xs : List HCond) :
    PairG st R (g.app gr st xs) (g.app gr R xs) := by
  obtain ⟨e, s, a⟩ := same_append gr L hg xs
  exact ⟨by simp only [HGroup.app, e], s, a⟩

theorem pair_lit (L : R.length = st.length) (xs : List HCond) : PairG st R (g.lit st xs) (g.lit R xs) := by
  obtain ⟨e, s, a⟩ := same_make L xs
  exact ⟨by simp only [HGroup.lit, e], s, a⟩

theorem pair_litApp (gr : Grow) (L : R.length = st.length) (xs ys : List HCond) :
    PairG st R ((g.lit st xs).2.app gr (g.lit st xs).1 ys) ((g.lit R xs).2.app gr (g.lit R xs).1 ys) := by
  have h := pair_lit (g := g) L xs
  rw [h.res]
  exact .of h.same (pair_app gr h.same.size h.agr ys)

theorem pair_newGroup (L : R.length = st.length) (j : Str) (xs : List HCond) : PairG st R (newGroupH st j xs) (newGroupH R j xs) := by
  obtain ⟨e, s, a⟩ := same_make L (xs.map (·.join j))
  exact ⟨by simp only [newGroupH, e], s, a⟩

theorem hasAll_agr (h : SeenS st R g.s) (j : Str) : g.hasAll R j = g.hasAll st j := by simp only [HGroup.hasAll, h.read]

theorem hasOne_agr (h : SeenS st R g.s) (j : Str) : g.hasOne R j = g.hasOne st j := by simp only [HGroup.hasOne, h.read]

theorem pair_ite {p : Bool} {a b a' b' : Store HCond × HGroup} (h1 : PairG st R a a') (h2 : PairG st R b b') :
    PairG st R (if p then a else b) (if p then a' else b') := by cases p <;> assumption

theorem pair_addGroup (gr : Grow) (L : R.length = st.length) (hg : SeenS st R g.s) {another : HGroup} (ha : SeenS st R another.s) :
    PairG st R (g.addGroup gr st another) (g.addGroup gr R another) := by
  simp only [HGroup.addGroup, hasAll_agr hg, hasOne_agr hg, hasAll_agr ha, hasOne_agr ha, ha.read]
  refine pair_ite ⟨rfl, .refl L, ha⟩ ?_
  refine pair_ite (pair_app gr L hg _) ?_
  refine pair_ite (pair_app gr L hg _) ?_
  refine pair_ite (pair_app gr L hg _) ?_
  refine pair_ite (pair_app gr L hg _) ?_
  refine pair_ite (pair_app gr L hg _) ?_
  refine pair_ite (pair_litApp gr L _ _) ?_
  refine pair_ite (pair_app gr L hg _) ?_
  refine pair_ite (pair_app gr L hg _) ?_
  refine pair_ite (pair_litApp gr L _ _) ?_
  exact pair_lit L _

theorem pair_addSingle (gr : Grow) (L : R.length = st.length) (hg : SeenS st R g.s) {c : HCond} (hc : c.agr st R) :
    PairG st R (g.addSingleCondition gr st c) (g.addSingleCondition gr R c) := by
  cases c with
  | group b s br => exact pair_addGroup gr L hg hc
  | leaf c =>
    simp only [HGroup.addSingleCondition, hasAll_agr hg, HCond.asGroup]
    repeat' split
    · exact (pair_app gr L hg _).base _
    · exact pair_app gr L hg _
    · exact pair_app gr L hg _
    · exact pair_app gr L hg _
    · exact pair_lit L _

theorem pair_addConditions (gr : Grow) (L : R.length = st.length) (hg : SeenS st R g.s) (op : Str) {cs : List HCond}
    (hc : ∀ c ∈ cs, c.agr st R) : PairG st R (g.addConditions gr st op cs) (g.addConditions gr R op cs) := by
  cases cs with
  | nil => exact ⟨rfl, .refl L, hg⟩
  | cons c0 more =>
    simp only [HGroup.addConditions, hasOne_agr hg]
    repeat' split
    · exact (pair_app gr L hg _).base _
    · exact pair_addSingle gr L hg ((hc c0 (by simp)).join _)
    · exact pair_litApp gr L _ _
    · have n := pair_newGroup L op (c0 :: more)
      rw [n.res]
      exact .of n.same (pair_app gr n.same.size (hg.make _) _)
    · have n := pair_newGroup L lAND (c0 :: more)
      rw [n.res]
      exact .of n.same (pair_litApp gr n.same.size _ _)

theorem pair_addConditions_empty (gr : Grow) (L : R.length = st.length) (hg : SeenS st R g.s) (h0 : g.s.len = 0) (op : Str) (cs : List HCond) :
    PairG st R (g.addConditions gr st op cs) (g.addConditions gr R op cs) := by
  cases cs with
  | nil => exact ⟨rfl, .refl L, hg⟩
  | cons c0 more =>
    simp only [HGroup.addConditions, hasOne_agr hg, h0]
    exact (pair_app gr L hg _).base _

theorem pair_groupOf (gr : Grow) (L : R.length = st.length) (j : Str) (c : HCond) {more : List HCond}
    (hm : ∀ c ∈ more, c.agr st R) : PairC st R (groupOf gr st j c more) (groupOf gr R j c more) := by
  have n := pair_newGroup L j [c]
  have a : PairG st R ((newGroupH st j [c]).2.addConditions gr (newGroupH st j [c]).1 j more)
      ((newGroupH R j [c]).2.addConditions gr (newGroupH R j [c]).1 j more) := by
    rw [n.res]
    refine .of n.same (pair_addConditions gr n.same.size n.agr j fun x hx => ?_)
    have := hm x hx
    cases x with
    | leaf c => trivial
    | group b s br => exact SeenS.make this _
  exact a.toC HGroup.toCond

theorem pair_andH (gr : Grow) (L : R.length = st.length) {c : HCond} (hc : c.agr st R) {more : List HCond} (hm : ∀ c ∈ more, c.agr st R) :
    PairC st R (andH gr st c more) (andH gr R c more) := by
  simp only [andH]
  split
  · exact ⟨rfl, .refl L⟩
  · cases c with
    | leaf c => exact pair_groupOf gr L lAND _ hm
    | group b s br => exact (pair_addConditions gr L (g := ⟨b, s, br⟩) hc lAND hm).toC HGroup.toCond

theorem pair_orH (gr : Grow) (L : R.length = st.length) {c : HCond} (hc : c.agr st R) {more : List HCond} (hm : ∀ c ∈ more, c.agr st R) :
    PairC st R (orH gr st c more) (orH gr R c more) := by
  simp only [orH]
  split
  · exact ⟨rfl, .refl L⟩
  · cases c with
    | leaf c =>
      have k := pair_groupOf gr L lOR (.leaf c) hm
      exact ⟨by simp only [HCond.asGroup, k.res], k.same⟩
    | group b s br => exact (pair_addConditions gr L (g := ⟨b, s, br⟩) hc lOR hm).toC fun g => g.toCond.join lOR

theorem pair_and (gr : Grow) (L : R.length = st.length) {c : HCond} (hc : c.agr st R) {more : List HCond} (hm : ∀ c ∈ more, c.agr st R) :
    PairC st R (c.and gr st more) (c.and gr R more) := by
  unfold HCond.and
  split
  · exact pair_groupOf gr L lAND _ hm
  · exact pair_groupOf gr L lAND _ hm
  · exact pair_groupOf gr L lAND _ hm
  · exact pair_andH gr L hc hm
  · rename_i b s br
    exact (pair_addConditions gr L (g := ⟨b, s, br⟩) hc lAND hm).toC HGroup.toCond

theorem pair_or (gr : Grow) (L : R.length = st.length) {c : HCond} (hc : c.agr st R) {more : List HCond} (hm : ∀ c ∈ more, c.agr st R)
    {x : Store HCond × HCond} (hx : c.or gr st more = .ok x) : ∃ x', c.or gr R more = .ok x' ∧ PairC st R x x' := by
  cases c with
  | group b s br => cases hx; exact ⟨_, rfl, (pair_addConditions gr L (g := ⟨b, s, br⟩) hc lOR hm).toC HGroup.toCond⟩
  | leaf c =>
    cases c with
    | null b fd => cases hx
    | custom b x => cases hx; exact ⟨_, rfl, pair_orH gr L hc hm⟩
    | group b cs br => cases hx; exact ⟨_, rfl, pair_orH gr L hc hm⟩
    | fieldc k b fv =>
      cases k
      case like => cases hx; exact ⟨_, rfl, pair_groupOf gr L lOR _ hm⟩
      case ilike => cases hx; exact ⟨_, rfl, pair_groupOf gr L lOR _ hm⟩
      all_goals (cases hx; exact ⟨_, rfl, pair_orH gr L hc hm⟩)

end

/-! ## Builders -/

/-- As many arrays in both. -/
structure LenM (m R : Mem) : Prop where
  conds : R.conds.length = m.conds.length
  joins : R.joins.length = m.joins.length
  sorts : R.sorts.length = m.sorts.length
  vals : R.vals.length = m.vals.length
  defs : R.defs.length = m.defs.length

theorem SameM.refl {m R : Mem} (L : LenM m R) : SameM m m R R := ⟨.refl L.conds, .refl L.joins, .refl L.sorts, .refl L.vals, .refl L.defs⟩

theorem SameM.trans {m m1 m2 R R1 R2 : Mem} (h : SameM m m1 R R1) (k : SameM m1 m2 R1 R2) : SameM m m2 R R2 :=
  ⟨h.conds.trans k.conds, h.joins.trans k.joins, h.sorts.trans k.sorts, h.vals.trans k.vals, h.defs.trans k.defs⟩

theorem SameM.len {m m' R R' : Mem} (h : SameM m m' R R') : LenM m' R' := ⟨h.conds.size, h.joins.size, h.sorts.size, h.vals.size, h.defs.size⟩

/-- The slices of a select that calls read hold the same in both. -/
structure AgrB (m R : Mem) (q : HBase) : Prop where
  joins : SeenS m.joins R.joins q.joins
  cond : SeenS m.conds R.conds q.where_.s

/-- The slices of a value that calls read hold the same in both. -/
def HV.agr (m R : Mem) : HV → Prop
  | .cond c => c.agr m.conds R.conds
  | .base q | .single q | .joinB q | .joinS q | .count q _ => AgrB m R q
  | .many q | .joinM q => AgrB m R q.base ∧ SeenS m.sorts R.sorts q.order
  | .insert q => SeenS m.vals R.vals q.setValues
  | .update q => SeenS m.conds R.conds q.where_.s ∧ SeenS m.vals R.vals q.setValues
  | .delete q => SeenS m.conds R.conds q.where_.s

theorem getCondsH_agr {m R : Mem} {hs : List HV} : ∀ (args : List Nat) (cs : List HCond),
    (∀ i ∈ args, ∀ h, hs[i]? = some h → h.agr m R) → getCondsH hs args = some cs → ∀ c ∈ cs, c.agr m.conds R.conds
  | [], cs, _, h => by cases h; exact fun c hc => by cases hc
  | i :: is, cs, hb, h => by
    simp only [getCondsH] at h
    split at h
    · rename_i c cs' h1 h2
      cases h
      intro d hd
      rcases List.mem_cons.1 hd with rfl | hd
      · exact hb i (by simp) _ h1
      · exact getCondsH_agr is cs' (fun j hj => hb j (List.mem_cons_of_mem _ hj)) h2 d hd
    · cases h

section
variable {m R : Mem} (pol : Policy) (L : LenM m R)
include L

theorem sameM_conds {st R' : Store HCond} (h : SameWrites m.conds st R.conds R') :
    SameM m { m with conds := st } R { R with conds := R' } := ⟨h, .refl L.joins, .refl L.sorts, .refl L.vals, .refl L.defs⟩

theorem sameM_joins {st R' : Store TableJoiner} (h : SameWrites m.joins st R.joins R') :
    SameM m { m with joins := st } R { R with joins := R' } := ⟨.refl L.conds, h, .refl L.sorts, .refl L.vals, .refl L.defs⟩

theorem sameM_sorts {st R' : Store FieldSorting} (h : SameWrites m.sorts st R.sorts R') :
    SameM m { m with sorts := st } R { R with sorts := R' } := ⟨.refl L.conds, .refl L.joins, h, .refl L.vals, .refl L.defs⟩

theorem sameM_vals {st R' : Store FieldValue} (h : SameWrites m.vals st R.vals R') :
    SameM m { m with vals := st } R { R with vals := R' } := ⟨.refl L.conds, .refl L.joins, .refl L.sorts, h, .refl L.defs⟩

theorem sameM_defs {st R' : Store FieldDef} (h : SameWrites m.defs st R.defs R') :
    SameM m { m with defs := st } R { R with defs := R' } := ⟨.refl L.conds, .refl L.joins, .refl L.sorts, .refl L.vals, h⟩

theorem pair_addWhere {q : HBase} (hq : AgrB m R q) {cs : List HCond} (hc : ∀ c ∈ cs, c.agr m.conds R.conds) :
    (q.addWhere pol R cs).2 = (q.addWhere pol m cs).2 ∧ SameM m (q.addWhere pol m cs).1 R (q.addWhere pol R cs).1 := by
  have w := pair_addConditions pol.conds L.conds hq.cond lAND hc
  exact ⟨by simp only [HBase.addWhere, HGroup.groupAND, w.res], sameM_conds L w.same⟩

theorem pair_setFields (q : HBase) (fs : List FieldDef) :
    (q.setFields R fs).2 = (q.setFields m fs).2 ∧ SameM m (q.setFields m fs).1 R (q.setFields R fs).1 := by
  obtain ⟨e, s, _⟩ := same_make L.defs fs
  exact ⟨by simp only [HBase.setFields, e], sameM_defs L s⟩

theorem pair_joinIdent {q : HBase} (hq : SeenS m.joins R.joins q.joins) (t : TableIdent) (j : Int) :
    (q.joinIdent pol R t j).2 = (q.joinIdent pol m t j).2 ∧ SameM m (q.joinIdent pol m t j).1 R (q.joinIdent pol R t j).1 := by
  obtain ⟨e, s, _⟩ := same_append pol.joins L.joins hq [⟨t, j, zeroJC⟩]
  exact ⟨by simp only [HBase.joinIdent, e], sameM_joins L s⟩

omit L in
theorem same_write {α : Type} {st R : Store α} {s : Sl} (L : R.length = st.length) (h : SeenS st R s) {i : Nat} (hi : i < s.len) (x : α) :
    SameWrites st (st.write s i x) R (R.write s i x) := by
  obtain ⟨ys, h1, h2⟩ := h
  refine ⟨by simp [Store.write, L], fun a k => ?_⟩
  simp only [Store.write]
  by_cases ha : a = s.arr
  · subst ha
    rw [cells_set_self _ _ _ h1.1, cells_set_self _ _ _ h2.1]
    by_cases hk : k = i
    · subst hk
      have a1 := h1.2.1
      have a2 := h2.2.1
      exact .inr ⟨x, by rw [List.getElem?_set_self (by omega)], by rw [List.getElem?_set_self (by omega)]⟩
    · rw [List.getElem?_set_ne (Ne.symm hk), List.getElem?_set_ne (Ne.symm hk)]; exact .inl ⟨rfl, rfl⟩
  · rw [cells_set_ne _ _ _ _ (Ne.symm ha), cells_set_ne _ _ _ _ (Ne.symm ha)]; exact .inl ⟨rfl, rfl⟩

theorem pair_on {q : HBase} (hq : SeenS m.joins R.joins q.joins) (l r : FieldDef) {x : Mem × HBase} (hx : q.on m l r = .ok x) :
    ∃ R', q.on R l r = .ok (R', x.2) ∧ SameM m x.1 R R' := by
  simp only [HBase.on, hq.read] at hx ⊢
  split at hx
  · rename_i j hj
    cases hx
    refine ⟨_, rfl, sameM_joins L (same_write L.joins hq ?_ _)⟩
    have := (List.getElem?_eq_some_iff.1 hj).1
    simp only [Store.read, List.length_take] at this
    omega
  · cases hx

theorem pair_selectFrom (p : TableParam) {x : Mem × HBase} (hx : selectFromH m p = .ok x) :
    ∃ R', selectFromH R p = .ok (R', x.2) ∧ SameM m x.1 R R' := by
  simp only [selectFromH] at hx ⊢
  obtain ⟨t, ht, hx⟩ := Res.bind_eq_ok.1 hx
  rw [ht]
  cases hx
  obtain ⟨e1, s1, _⟩ := same_make L.joins []
  obtain ⟨e2, s2, _⟩ := same_make L.defs []
  have n := pair_newGroup L.conds lAND []
  exact ⟨{ R with conds := (newGroupH R.conds lAND []).1, joins := (R.joins.make []).1, defs := (R.defs.make []).1 },
    by simp only [Res.bind_ok, e1, e2, n.res], ⟨n.same, s1, .refl L.sorts, .refl L.vals, s2⟩⟩

theorem pair_zero : (zeroBaseH R).2 = (zeroBaseH m).2 ∧ SameM m (zeroBaseH m).1 R (zeroBaseH R).1 := by
  obtain ⟨e1, s1, _⟩ := same_make L.joins []
  obtain ⟨e2, s2, _⟩ := same_make L.defs []
  obtain ⟨e3, s3, _⟩ := same_make L.conds []
  exact ⟨by simp only [zeroBaseH, e1, e2, e3], ⟨s3, s1, .refl L.sorts, .refl L.vals, s2⟩⟩

theorem pair_many (q : HBase) : (selectManyFromBaseH R q).2 = (selectManyFromBaseH m q).2 ∧
    SameM m (selectManyFromBaseH m q).1 R (selectManyFromBaseH R q).1 := by
  obtain ⟨e, s, _⟩ := same_make L.sorts []
  exact ⟨by simp only [selectManyFromBaseH, e], sameM_sorts L s⟩

theorem pair_addOrder {q : HMany} (hq : SeenS m.sorts R.sorts q.order) (os : List FieldSorting) :
    (q.addOrder pol R os).2 = (q.addOrder pol m os).2 ∧ SameM m (q.addOrder pol m os).1 R (q.addOrder pol R os).1 := by
  obtain ⟨e, s, _⟩ := same_append pol.sorts L.sorts hq os
  exact ⟨by simp only [HMany.addOrder, e], sameM_sorts L s⟩

theorem pair_insertInto (p : TableParam) : (insertIntoH R p).2 = (insertIntoH m p).2 ∧
    SameM m (insertIntoH m p).1 R (insertIntoH R p).1 ∧ SeenS (insertIntoH m p).1.vals (insertIntoH R p).1.vals (insertIntoH m p).2.setValues := by
  obtain ⟨e, s, a⟩ := same_make L.vals []
  exact ⟨by simp only [insertIntoH, e], sameM_vals L s, a⟩

theorem pair_addValues {q : HInsert} (hq : SeenS m.vals R.vals q.setValues) (vs : List FieldValue) :
    (q.addValues pol R vs).2 = (q.addValues pol m vs).2 ∧ SameM m (q.addValues pol m vs).1 R (q.addValues pol R vs).1 := by
  obtain ⟨e, s, _⟩ := same_append pol.vals L.vals hq vs
  exact ⟨by simp only [HInsert.addValues, e], sameM_vals L s⟩

theorem pair_updateH (p : TableParam) : (updateH R p).2 = (updateH m p).2 ∧ SameM m (updateH m p).1 R (updateH R p).1 ∧
    SeenS (updateH m p).1.vals (updateH R p).1.vals (updateH m p).2.setValues ∧
    SeenS (updateH m p).1.conds (updateH R p).1.conds (updateH m p).2.where_.s := by
  obtain ⟨e, s, a⟩ := same_make L.vals []
  have n := pair_newGroup L.conds lAND []
  exact ⟨by simp only [updateH, e, n.res], ⟨n.same, .refl L.joins, .refl L.sorts, s, .refl L.defs⟩, a, n.agr⟩

theorem pair_set {q : HUpdate} (hq : SeenS m.vals R.vals q.setValues) (vs : List FieldValue) :
    (q.set pol R vs).2 = (q.set pol m vs).2 ∧ SameM m (q.set pol m vs).1 R (q.set pol R vs).1 := by
  obtain ⟨e, s, _⟩ := same_append pol.vals L.vals hq vs
  exact ⟨by simp only [HUpdate.set, e], sameM_vals L s⟩

theorem pair_updateWhere {q : HUpdate} (hq : SeenS m.conds R.conds q.where_.s) {cs : List HCond} (hc : ∀ c ∈ cs, c.agr m.conds R.conds) :
    (q.addWhere pol R cs).2 = (q.addWhere pol m cs).2 ∧ SameM m (q.addWhere pol m cs).1 R (q.addWhere pol R cs).1 := by
  have w := pair_addConditions pol.conds L.conds hq lAND hc
  exact ⟨by simp only [HUpdate.addWhere, HGroup.groupAND, w.res], sameM_conds L w.same⟩

theorem pair_deleteH (p : TableParam) : (deleteH R p).2 = (deleteH m p).2 ∧ SameM m (deleteH m p).1 R (deleteH R p).1 ∧
    SeenS (deleteH m p).1.conds (deleteH R p).1.conds (deleteH m p).2.where_.s := by
  have n := pair_newGroup L.conds lAND []
  exact ⟨by simp only [deleteH, n.res], sameM_conds L n.same, n.agr⟩

theorem pair_deleteWhere {q : HDelete} (hq : SeenS m.conds R.conds q.where_.s) {cs : List HCond} (hc : ∀ c ∈ cs, c.agr m.conds R.conds) :
    (q.addWhere pol R cs).2 = (q.addWhere pol m cs).2 ∧ SameM m (q.addWhere pol m cs).1 R (q.addWhere pol R cs).1 := by
  have w := pair_addConditions pol.conds L.conds hq lAND hc
  exact ⟨by simp only [HDelete.addWhere, HGroup.groupAND, w.res], sameM_conds L w.same⟩

theorem pair_conditions {q : HBase} (hq : AgrB m R q) : (q.conditions R).2 = (q.conditions m).2 ∧
    SameM m (q.conditions m).1 R (q.conditions R).1 ∧ SeenS (q.conditions m).1.conds (q.conditions R).1.conds (q.conditions m).2 := by
  obtain ⟨e, s, a⟩ := same_make L.conds (m.conds.read q.where_.s)
  refine ⟨?_, ?_, ?_⟩
  · simp only [HBase.conditions, hq.cond.read, e]
  · simp only [HBase.conditions, hq.cond.read]; exact sameM_conds L s
  · simp only [HBase.conditions, hq.cond.read]; exact a

theorem pair_update {q : HBase} (hq : AgrB m R q) (p : TableParam) (vs : List FieldValue) :
    (q.update pol R p vs).2 = (q.update pol m p vs).2 ∧ SameM m (q.update pol m p vs).1 R (q.update pol R p vs).1 := by
  obtain ⟨e1, s1, a1⟩ := pair_conditions L hq
  obtain ⟨e2, s2, a2, a3⟩ := pair_updateH s1.len p
  have rd : (updateH (q.conditions R).1 p).1.conds.read (q.conditions R).2 = (updateH (q.conditions m).1 p).1.conds.read (q.conditions m).2 := by
    rw [e1]; exact SeenS.read (a1.make [])
  have w := pair_addConditions_empty pol.conds s2.conds.size a3 rfl lAND ((updateH (q.conditions m).1 p).1.conds.read (q.conditions m).2)
  have s3 := sameM_conds s2.len w.same
  have a4 : SeenS (updateH (q.conditions m).1 p).1.vals (updateH (q.conditions R).1 p).1.vals (updateH (q.conditions m).1 p).2.setValues := a2
  have s4 := pair_set pol s3.len (q := { (updateH (q.conditions m).1 p).2 with where_ :=
    ((updateH (q.conditions m).1 p).2.where_.addConditions pol.conds (updateH (q.conditions m).1 p).1.conds lAND
      ((updateH (q.conditions m).1 p).1.conds.read (q.conditions m).2)).2 }) a4 vs
  simp only [HBase.update, HUpdate.addWhere, HGroup.groupAND, rd, e2, w.res]
  exact ⟨s4.1, s1.trans (s2.trans (s3.trans s4.2))⟩

theorem pair_delete {q : HBase} (hq : AgrB m R q) (p : TableParam) :
    (q.delete pol R p).2 = (q.delete pol m p).2 ∧ SameM m (q.delete pol m p).1 R (q.delete pol R p).1 := by
  obtain ⟨e1, s1, a1⟩ := pair_conditions L hq
  obtain ⟨e2, s2, a3⟩ := pair_deleteH s1.len p
  have rd : (deleteH (q.conditions R).1 p).1.conds.read (q.conditions R).2 = (deleteH (q.conditions m).1 p).1.conds.read (q.conditions m).2 := by
    rw [e1]; exact SeenS.read (a1.make [])
  have w := pair_addConditions_empty pol.conds s2.conds.size a3 rfl lAND ((deleteH (q.conditions m).1 p).1.conds.read (q.conditions m).2)
  have s3 := sameM_conds s2.len w.same
  simp only [HBase.delete, HDelete.addWhere, HGroup.groupAND, rd, e2, w.res]
  exact ⟨trivial, s1.trans (s2.trans s3)⟩

end

/-- A call run in another memory in which the lists of its operands hold the same makes the same value by the same writes. -/
theorem seen_call (pol : Policy) {m R : Mem} (L : LenM m R) {hs : List HV} (c : Call) (hn : c.noApply = true)
    (hb : ∀ i ∈ c.operands, ∀ h, hs[i]? = some h → h.agr m R) (x : Mem × HV) (hx : c.heap pol m hs = some x) :
    ∃ R', c.heap pol R hs = some (R', x.2) ∧ SameM m x.1 R R' := by
  cases c with
  | leaf c =>
    simp only [Call.heap] at hx ⊢
    split at hx
    · cases hx
    · rename_i hn
      cases hx
      exact ⟨R, by rw [if_neg hn], .refl L⟩
  | newGroup j args =>
    simp only [Call.heap] at hx ⊢
    cases hg : getCondsH hs args with
    | none => rw [hg] at hx; cases hx
    | some cs =>
      rw [hg] at hx; cases hx
      have n := pair_newGroup L.conds j cs
      exact ⟨_, by simp only [Option.map_some, n.res], sameM_conds L n.same⟩
  | andF r args =>
    simp only [Call.heap] at hx ⊢
    split at hx
    · rename_i c cs h1 h2
      cases hx
      have n := pair_andH pol.conds L.conds (hb r (by simp [Call.operands]) _ h1) (getCondsH_agr args cs (fun i hi => hb i (by simp [Call.operands, hi])) h2)
      exact ⟨_, by simp only [n.res], sameM_conds L n.same⟩
    · cases hx
  | orF r args =>
    simp only [Call.heap] at hx ⊢
    split at hx
    · rename_i c cs h1 h2
      cases hx
      have n := pair_orH pol.conds L.conds (hb r (by simp [Call.operands]) _ h1) (getCondsH_agr args cs (fun i hi => hb i (by simp [Call.operands, hi])) h2)
      exact ⟨_, by simp only [n.res], sameM_conds L n.same⟩
    · cases hx
  | and r args =>
    simp only [Call.heap] at hx ⊢
    split at hx
    · rename_i c cs h1 h2
      cases hx
      have n := pair_and pol.conds L.conds (hb r (by simp [Call.operands]) _ h1) (getCondsH_agr args cs (fun i hi => hb i (by simp [Call.operands, hi])) h2)
      exact ⟨_, by simp only [n.res], sameM_conds L n.same⟩
    · cases hx
  | or r args =>
    simp only [Call.heap] at hx ⊢
    split at hx
    · rename_i c cs h1 h2
      obtain ⟨a, ha, rfl⟩ := toOption_ok hx
      obtain ⟨a', e, n⟩ := pair_or pol.conds L.conds (hb r (by simp [Call.operands]) _ h1)
        (getCondsH_agr args cs (fun i hi => hb i (by simp [Call.operands, hi])) h2) ha
      exact ⟨_, by simp only [e, Res.toOption, Option.map_some, n.res], sameM_conds L n.same⟩
    · cases hx
  | negate r n =>
    simp only [Call.heap] at hx ⊢
    split at hx
    · rename_i h1
      cases hx
      exact ⟨R, rfl, .refl L⟩
    · cases hx
  | join r j =>
    simp only [Call.heap] at hx ⊢
    split at hx
    · rename_i h1
      cases hx
      exact ⟨R, rfl, .refl L⟩
    · cases hx
  | withBrackets r =>
    simp only [Call.heap] at hx ⊢
    split at hx
    · rename_i h1
      cases hx
      exact ⟨R, rfl, .refl L⟩
    · cases hx
  | applySpec r spec => cases hn
  | applyTable r t => cases hn
  | selectFrom p =>
    simp only [Call.heap] at hx ⊢
    obtain ⟨a, ha, rfl⟩ := toOption_ok hx
    obtain ⟨R', e, s⟩ := pair_selectFrom L p ha
    exact ⟨R', by simp only [e, Res.toOption, Option.map_some], s⟩
  | fields r fs =>
    simp only [Call.heap] at hx ⊢
    split at hx
    · rename_i q h1
      cases hx
      have n := pair_setFields L q fs
      exact ⟨_, by simp only [n.1], n.2⟩
    · rename_i q h1
      cases hx
      have z := pair_zero L
      have n := pair_setFields z.2.len (zeroBaseH m).2 fs
      exact ⟨_, by simp only [z.1, n.1], z.2.trans n.2⟩
    · rename_i q h1
      cases hx
      have n := pair_setFields L q.base fs
      exact ⟨_, by simp only [n.1], n.2⟩
    · cases hx
  | where_ r args =>
    simp only [Call.heap] at hx ⊢
    split at hx
    all_goals try (cases hx; done)
    all_goals
      rename_i q cs h1 h2
      have ha := hb r (by simp [Call.operands]) _ h1
      have hc := getCondsH_agr args cs (fun i hi => hb i (by simp [Call.operands, hi])) h2
      cases hx
      simp only [HV.agr] at ha
    · have n := pair_addWhere pol L ha hc
      exact ⟨_, by simp only [n.1], n.2⟩
    · have n := pair_addWhere pol L ha hc
      exact ⟨_, by simp only [n.1], n.2⟩
    · have n := pair_addWhere pol L ha.1 hc
      exact ⟨_, by simp only [n.1], n.2⟩
    · have n := pair_updateWhere pol L ha.1 hc
      exact ⟨_, by simp only [n.1], n.2⟩
    · have n := pair_deleteWhere pol L ha hc
      exact ⟨_, by simp only [n.1], n.2⟩
  | joinTable r t j =>
    simp only [Call.heap] at hx ⊢
    split at hx
    all_goals try (cases hx; done)
    all_goals
      rename_i q h1
      have ha := hb r (by simp [Call.operands]) _ h1
      cases hx
      simp only [HV.agr] at ha
    · have n := pair_joinIdent pol L ha.joins t j
      exact ⟨_, by simp only [n.1], n.2⟩
    · have n := pair_joinIdent pol L ha.joins t j
      exact ⟨_, by simp only [n.1], n.2⟩
    · have n := pair_joinIdent pol L ha.1.joins t j
      exact ⟨_, by simp only [n.1], n.2⟩
  | on r l x' =>
    simp only [Call.heap] at hx ⊢
    split at hx
    all_goals try (cases hx; done)
    all_goals
      rename_i q h1
      have ha := hb r (by simp [Call.operands]) _ h1
      obtain ⟨y, hy, rfl⟩ := toOption_ok hx
      simp only [HV.agr] at ha
    · obtain ⟨R', e, s⟩ := pair_on L ha.joins l x' hy
      exact ⟨R', by simp only [e, Res.toOption, Option.map_some], s⟩
    · obtain ⟨R', e, s⟩ := pair_on L ha.joins l x' hy
      exact ⟨R', by simp only [e, Res.toOption, Option.map_some], s⟩
    · obtain ⟨R', e, s⟩ := pair_on L ha.1.joins l x' hy
      exact ⟨R', by simp only [e, Res.toOption, Option.map_some], s⟩
  | single r =>
    simp only [Call.heap] at hx ⊢
    split at hx
    · rename_i h1
      cases hx
      exact ⟨R, rfl, .refl L⟩
    · cases hx
  | many r =>
    simp only [Call.heap] at hx ⊢
    split at hx
    · rename_i q h1
      cases hx
      have n := pair_many L q
      exact ⟨_, by simp only [n.1], n.2⟩
    · cases hx
  | embedded r =>
    simp only [Call.heap] at hx ⊢
    split at hx
    all_goals try (cases hx; done)
    all_goals
      rename_i h1
      cases hx
      exact ⟨R, rfl, .refl L⟩
  | offset r n =>
    simp only [Call.heap] at hx ⊢
    split at hx
    · rename_i h1
      cases hx
      exact ⟨R, rfl, .refl L⟩
    · cases hx
  | limit r n =>
    simp only [Call.heap] at hx ⊢
    split at hx
    · rename_i h1
      cases hx
      exact ⟨R, rfl, .refl L⟩
    · cases hx
  | orderBy r os =>
    simp only [Call.heap] at hx ⊢
    split at hx
    · rename_i q h1
      have ha := hb r (by simp [Call.operands]) _ h1
      cases hx
      have n := pair_addOrder pol L ha.2 os
      exact ⟨_, by simp only [n.1], n.2⟩
    · cases hx
  | count r fs =>
    simp only [Call.heap] at hx ⊢
    split at hx
    all_goals try (cases hx; done)
    all_goals
      rename_i h1
      obtain ⟨y, hy, rfl⟩ := toOption_ok hx
      exact ⟨R, by simp only [hy, Res.toOption, Option.map_some], .refl L⟩
  | insertInto p =>
    cases hx
    have n := pair_insertInto L p
    exact ⟨_, by simp only [Call.heap, n.1], n.2.1⟩
  | insertFrom r vs =>
    simp only [Call.heap] at hx ⊢
    split at hx
    · rename_i q h1
      cases hx
      have n := pair_insertInto L (.ident q.baseTable)
      have k := pair_addValues pol n.2.1.len n.2.2 vs
      exact ⟨_, by simp only [n.1, k.1], n.2.1.trans k.2⟩
    · cases hx
  | values r vs =>
    simp only [Call.heap] at hx ⊢
    split at hx
    · rename_i q h1
      have ha := hb r (by simp [Call.operands]) _ h1
      cases hx
      have n := pair_addValues pol L ha vs
      exact ⟨_, by simp only [n.1], n.2⟩
    · cases hx
  | update p =>
    cases hx
    have n := pair_updateH L p
    exact ⟨_, by simp only [Call.heap, n.1], n.2.1⟩
  | updateFrom r vs =>
    simp only [Call.heap] at hx ⊢
    split at hx
    all_goals try (cases hx; done)
    all_goals
      rename_i q h1
      have ha := hb r (by simp [Call.operands]) _ h1
      cases hx
      simp only [HV.agr] at ha
    · have n := pair_update pol L ha (.ident q.baseTable) vs
      exact ⟨_, by simp only [n.1], n.2⟩
    · have n := pair_update pol L ha (.ident q.baseTable) vs
      exact ⟨_, by simp only [n.1], n.2⟩
    · have n := pair_update pol L ha.1 (.name q.base.baseTable.name) vs
      exact ⟨_, by simp only [n.1], n.2⟩
  | set r vs =>
    simp only [Call.heap] at hx ⊢
    split at hx
    · rename_i q h1
      have ha := hb r (by simp [Call.operands]) _ h1
      cases hx
      have n := pair_set pol L ha.2 vs
      exact ⟨_, by simp only [n.1], n.2⟩
    · cases hx
  | delete p =>
    cases hx
    have n := pair_deleteH L p
    exact ⟨_, by simp only [Call.heap, n.1], n.2.1⟩
  | deleteFrom r =>
    simp only [Call.heap] at hx ⊢
    split at hx
    all_goals try (cases hx; done)
    all_goals
      rename_i q h1
      have ha := hb r (by simp [Call.operands]) _ h1
      cases hx
      simp only [HV.agr] at ha
    · have n := pair_delete pol L ha (.ident q.baseTable)
      exact ⟨_, by simp only [n.1], n.2⟩
    · have n := pair_delete pol L ha (.ident q.baseTable)
      exact ⟨_, by simp only [n.1], n.2⟩
    · have n := pair_delete pol L ha.1 (.name q.base.baseTable.name)
      exact ⟨_, by simp only [n.1], n.2⟩

end Query
