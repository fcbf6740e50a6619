import Verif.Spec.AnyCond
import Verif.Proof.NoErr
/-!
# Conditions that may be nil or pointers: helper lemmas
-/
namespace Query

/-! ## Lists -/

theorem CondX.coreL_append {xs ys : List CondX} {ds es : List Cond} (hx : CondX.coreL xs = some ds)
    (hy : CondX.coreL ys = some es) : CondX.coreL (xs ++ ys) = some (ds ++ es) := by
  induction xs generalizing ds with
  | nil => simp only [CondX.coreL, Option.some.injEq] at hx; subst hx; exact hy
  | cons x xs ih =>
    simp only [CondX.coreL, Option.bind_eq_some_iff, Option.map_eq_some_iff] at hx
    obtain ⟨d, hd, ds', hds, rfl⟩ := hx
    simp only [List.cons_append, CondX.coreL, hd, ih hds, Option.bind_some, Option.map_some]

theorem CondX.coreL_length {xs : List CondX} {ds : List Cond} (hx : CondX.coreL xs = some ds) :
    xs.length = ds.length := by
  induction xs generalizing ds with
  | nil => simp only [CondX.coreL, Option.some.injEq] at hx; subst hx; rfl
  | cons x xs ih =>
    simp only [CondX.coreL, Option.bind_eq_some_iff, Option.map_eq_some_iff] at hx
    obtain ⟨d, hd, ds', hds, rfl⟩ := hx
    simp only [List.length_cons, ih hds]

theorem CondX.coreL_drop {xs : List CondX} {ds : List Cond} (hx : CondX.coreL xs = some ds) :
    CondX.coreL (xs.drop 1) = some (ds.drop 1) := by
  cases xs with
  | nil => simp only [CondX.coreL, Option.some.injEq] at hx; subst hx; rfl
  | cons x xs =>
    simp only [CondX.coreL, Option.bind_eq_some_iff, Option.map_eq_some_iff] at hx
    obtain ⟨d, hd, ds', hds, rfl⟩ := hx
    simpa using hds

theorem CondX.hasNilL_append (xs ys : List CondX) :
    CondX.hasNilL (xs ++ ys) = (CondX.hasNilL xs || CondX.hasNilL ys) := by
  induction xs with
  | nil => simp [CondX.hasNilL]
  | cons x xs ih => simp [CondX.hasNilL, ih, Bool.or_assoc]

/-! ## No nil: the same as the model of conditions that are present -/

theorem core_base {c : CondX} {d : Cond} (h : c.core = some d) : c.base = .ok d.base := by
  cases c with
  | nil => cases h
  | fieldc k b fv => simp only [CondX.core, Option.some.injEq] at h; subst h; rfl
  | null b fd => simp only [CondX.core, Option.some.injEq] at h; subst h; rfl
  | custom b x => simp only [CondX.core, Option.some.injEq] at h; subst h; rfl
  | group b cs br =>
    simp only [CondX.core, Option.map_eq_some_iff] at h
    obtain ⟨ds, hd, rfl⟩ := h; rfl
  | ptr b cs br =>
    simp only [CondX.core, Option.map_eq_some_iff] at h
    obtain ⟨ds, hd, rfl⟩ := h; rfl

theorem core_joinType {c : CondX} {d : Cond} (h : c.core = some d) : c.joinType = .ok d.joinType := by
  simp only [CondX.joinType, core_base h, Res.bind_ok, Cond.joinType]

theorem core_join {c : CondX} {d : Cond} (h : c.core = some d) (j : Str) : GivesX (c.join j) (d.join j) := by
  cases c with
  | nil => cases h
  | fieldc k b fv => simp only [CondX.core, Option.some.injEq] at h; subst h; exact ⟨_, rfl, rfl⟩
  | null b fd => simp only [CondX.core, Option.some.injEq] at h; subst h; exact ⟨_, rfl, rfl⟩
  | custom b x => simp only [CondX.core, Option.some.injEq] at h; subst h; exact ⟨_, rfl, rfl⟩
  | group b cs br =>
    simp only [CondX.core, Option.map_eq_some_iff] at h
    obtain ⟨ds, hd, rfl⟩ := h
    exact ⟨_, rfl, by simp only [CondX.core, hd, Option.map_some, Cond.join]⟩
  | ptr b cs br =>
    simp only [CondX.core, Option.map_eq_some_iff] at h
    obtain ⟨ds, hd, rfl⟩ := h
    exact ⟨_, rfl, by simp only [CondX.core, hd, Option.map_some, Cond.join]⟩

theorem core_setNegate {c : CondX} {d : Cond} (h : c.core = some d) (n : Bool) :
    GivesX (c.setNegate n) (d.setNegate n) := by
  cases c with
  | nil => cases h
  | fieldc k b fv => simp only [CondX.core, Option.some.injEq] at h; subst h; exact ⟨_, rfl, rfl⟩
  | null b fd => simp only [CondX.core, Option.some.injEq] at h; subst h; exact ⟨_, rfl, rfl⟩
  | custom b x => simp only [CondX.core, Option.some.injEq] at h; subst h; exact ⟨_, rfl, rfl⟩
  | group b cs br =>
    simp only [CondX.core, Option.map_eq_some_iff] at h
    obtain ⟨ds, hd, rfl⟩ := h
    exact ⟨_, rfl, by simp only [CondX.core, hd, Option.map_some, Cond.setNegate]⟩
  | ptr b cs br =>
    simp only [CondX.core, Option.map_eq_some_iff] at h
    obtain ⟨ds, hd, rfl⟩ := h
    exact ⟨_, rfl, by simp only [CondX.core, hd, Option.map_some, Cond.setNegate]⟩

theorem core_allJoined (j : Str) {cs : List CondX} {ds : List Cond} (h : CondX.coreL cs = some ds) :
    GroupX.allJoined j cs = .ok (ds.all fun c => c.joinType == j) := by
  induction cs generalizing ds with
  | nil => simp only [CondX.coreL, Option.some.injEq] at h; subst h; rfl
  | cons x xs ih =>
    simp only [CondX.coreL, Option.bind_eq_some_iff, Option.map_eq_some_iff] at h
    obtain ⟨d, hd, ds', hds, rfl⟩ := h
    simp only [GroupX.allJoined, core_joinType hd, Res.bind_ok, List.all_cons]
    by_cases hj : d.joinType = j <;> simp [hj, ih hds]

theorem core_oneJoined (j : Str) {cs : List CondX} {ds : List Cond} (h : CondX.coreL cs = some ds) :
    GroupX.oneJoined j cs = .ok (ds.any fun c => c.joinType == j) := by
  induction cs generalizing ds with
  | nil => simp only [CondX.coreL, Option.some.injEq] at h; subst h; rfl
  | cons x xs ih =>
    simp only [CondX.coreL, Option.bind_eq_some_iff, Option.map_eq_some_iff] at h
    obtain ⟨d, hd, ds', hds, rfl⟩ := h
    simp only [GroupX.oneJoined, core_joinType hd, Res.bind_ok, List.any_cons]
    by_cases hj : d.joinType = j <;> simp [hj, ih hds]

theorem core_group {g : GroupX} {h : Group} (hg : g.core = some h) :
    CondX.coreL g.conds = some h.conds ∧ h.base = g.base ∧ h.brackets = g.brackets := by
  simp only [GroupX.core, Option.map_eq_some_iff] at hg
  obtain ⟨ds, hd, rfl⟩ := hg
  exact ⟨hd, rfl, rfl⟩

theorem core_toCond {g : GroupX} {h : Group} (hg : g.core = some h) : g.toCond.core = some h.toCond := by
  simp only [GroupX.core, Option.map_eq_some_iff] at hg
  obtain ⟨ds, hd, rfl⟩ := hg
  simp only [GroupX.toCond, CondX.core, hd, Option.map_some, Group.toCond]

theorem core_addr {g : GroupX} {h : Group} (hg : g.core = some h) : g.addr.core = some h.toCond := by
  simp only [GroupX.core, Option.map_eq_some_iff] at hg
  obtain ⟨ds, hd, rfl⟩ := hg
  simp only [GroupX.addr, CondX.core, hd, Option.map_some, Group.toCond]

theorem core_withBrackets {g : GroupX} {h : Group} (hg : g.core = some h) :
    g.withBrackets.core = some h.withBrackets := by
  simp only [GroupX.core, Option.map_eq_some_iff] at hg
  obtain ⟨ds, hd, rfl⟩ := hg
  simp only [GroupX.withBrackets, GroupX.core, hd, Option.map_some, Group.withBrackets]

theorem core_hasAll {g : GroupX} {h : Group} (hg : g.core = some h) (j : Str) : g.hasAll j = .ok (h.hasAll j) := by
  simp only [GroupX.hasAll, Group.hasAll, core_allJoined j (CondX.coreL_drop (core_group hg).1)]

theorem core_hasOne {g : GroupX} {h : Group} (hg : g.core = some h) (j : Str) : g.hasOne j = .ok (h.hasOne j) := by
  simp only [GroupX.hasOne, Group.hasOne, core_oneJoined j (CondX.coreL_drop (core_group hg).1)]

theorem givesG_mk {b : CondBase} {br : Bool} {xs : List CondX} {ys : List Cond} (h : CondX.coreL xs = some ys) :
    GivesGX (.ok ⟨b, xs, br⟩) ⟨b, ys, br⟩ := ⟨_, rfl, by simp only [GroupX.core, h, Option.map_some]⟩

theorem coreL_one {c : CondX} {d : Cond} (h : c.core = some d) : CondX.coreL [c] = some [d] := by
  simp only [CondX.coreL, h, Option.bind_some, Option.map_some]

theorem coreL_cons {c : CondX} {d : Cond} {cs : List CondX} {ds : List Cond} (h : c.core = some d)
    (hs : CondX.coreL cs = some ds) : CondX.coreL (c :: cs) = some (d :: ds) := by
  simp only [CondX.coreL, h, hs, Option.bind_some, Option.map_some]

theorem givesG_ite {p : Prop} [Decidable p] {a b : Res GroupX} {x y : Group} (h1 : p → GivesGX a x) (h2 : ¬p → GivesGX b y) :
    GivesGX (if p then a else b) (if p then x else y) := by
  by_cases hp : p
  · rw [if_pos hp, if_pos hp]; exact h1 hp
  · rw [if_neg hp, if_neg hp]; exact h2 hp

theorem core_addGroup {g a : GroupX} {h k : Group} (hg : g.core = some h) (ha : a.core = some k) :
    GivesGX (g.addGroup a) (h.addGroup k) := by
  have wg := core_toCond (core_withBrackets hg)
  have wa := core_toCond (core_withBrackets ha)
  have hgc := (core_group hg).1
  have hac := (core_group ha).1
  obtain ⟨w, hw, hwc⟩ := core_join wa k.base.joinType
  have e1 : g.conds.length = h.conds.length := CondX.coreL_length hgc
  simp only [GroupX.addGroup, core_hasAll hg, core_hasOne hg, core_hasAll ha, core_hasOne ha, bind, Res.bind_ok, pure,
    e1, ← (core_group ha).2.1, hw, ← (core_group hg).2.1, ← (core_group hg).2.2]
  unfold Group.addGroup
  dsimp only
  repeat' refine givesG_ite (fun _ => ?_) (fun _ => ?_)
  all_goals first
    | exact givesG_mk hac
    | exact givesG_mk (CondX.coreL_append hgc hac)
    | exact givesG_mk (CondX.coreL_append hgc (coreL_one hwc))
    | exact givesG_mk (CondX.coreL_append hgc (coreL_one wa))
    | exact givesG_mk (coreL_cons wg hac)
    | exact givesG_mk (coreL_cons wg (coreL_one hwc))

theorem core_asGroup {c : CondX} {d : Cond} (h : c.core = some d) (hp : ∀ b cs br, c ≠ .ptr b cs br) :
    match c.asGroup, d.asGroup with
    | some g, some k => g.core = some k
    | none, none => True
    | _, _ => False := by
  cases c with
  | nil => cases h
  | fieldc k b fv => simp only [CondX.core, Option.some.injEq] at h; subst h; trivial
  | null b fd => simp only [CondX.core, Option.some.injEq] at h; subst h; trivial
  | custom b x => simp only [CondX.core, Option.some.injEq] at h; subst h; trivial
  | group b cs br =>
    simp only [CondX.core, Option.map_eq_some_iff] at h
    obtain ⟨ds, hd, rfl⟩ := h
    simp only [CondX.asGroup, Cond.asGroup, GroupX.core, hd, Option.map_some]
  | ptr b cs br => exact absurd rfl (hp b cs br)

/-- What `Join` returns is never a pointer. -/
theorem join_not_ptr {c c' : CondX} {j : Str} (h : c.join j = .ok c') : ∀ b cs br, c' ≠ .ptr b cs br := by
  intro b cs br e
  subst e
  cases c <;> simp only [CondX.join] at h <;> cases h

theorem core_addSingle {g : GroupX} {h : Group} {c : CondX} {d : Cond} (hg : g.core = some h) (hc : c.core = some d)
    (hp : ∀ b cs br, c ≠ .ptr b cs br) : GivesGX (g.addSingleCondition c) (h.addSingleCondition d) := by
  have wg := core_toCond (core_withBrackets hg)
  have hgc := (core_group hg).1
  have e1 : g.conds.length = h.conds.length := CondX.coreL_length hgc
  obtain ⟨w, hw, hwc⟩ := core_join hc d.joinType
  have ha := core_asGroup hc hp
  simp only [GroupX.addSingleCondition, core_hasAll hg, bind, Res.bind_ok, pure, core_joinType hc, e1]
  unfold Group.addSingleCondition
  cases hx : c.asGroup with
  | some a =>
    cases hy : d.asGroup with
    | none => rw [hx, hy] at ha; exact ha.elim
    | some k => rw [hx, hy] at ha; exact core_addGroup hg ha
  | none =>
    cases hy : d.asGroup with
    | some k => rw [hx, hy] at ha; exact ha.elim
    | none =>
      rw [hw]
      simp only [Res.bind_ok]
      rw [show h = ⟨g.base, h.conds, g.brackets⟩ by rw [← (core_group hg).2.1, ← (core_group hg).2.2]] at *
      simp only at *
      repeat' split
      all_goals first
        | exact givesG_mk (CondX.coreL_append hgc (coreL_one hc))
        | exact givesG_mk (CondX.coreL_append hgc (coreL_one hwc))
        | exact givesG_mk (coreL_cons wg (coreL_one hwc))

theorem core_mapJoin (j : Str) {cs : List CondX} {ds : List Cond} (h : CondX.coreL cs = some ds) :
    ∃ xs, Res.mapL (fun c : CondX => c.join j) cs = .ok xs ∧ CondX.coreL xs = some (ds.map (·.join j)) := by
  induction cs generalizing ds with
  | nil => simp only [CondX.coreL, Option.some.injEq] at h; subst h; exact ⟨[], rfl, rfl⟩
  | cons x xs ih =>
    simp only [CondX.coreL, Option.bind_eq_some_iff, Option.map_eq_some_iff] at h
    obtain ⟨d, hd, ds', hds, rfl⟩ := h
    obtain ⟨y, hy, hyc⟩ := core_join hd j
    obtain ⟨ys, hys, hysc⟩ := ih hds
    exact ⟨y :: ys, by simp only [Res.mapL, hy, hys, Res.bind_ok], by simpa using coreL_cons hyc hysc⟩

theorem core_newGroup (j : Str) {cs : List CondX} {ds : List Cond} (h : CondX.coreL cs = some ds) :
    GivesGX (newGroupX j cs) (newGroup j ds) := by
  obtain ⟨xs, hx, hc⟩ := core_mapJoin j h
  exact ⟨_, by simp only [newGroupX, hx, Res.bind_ok]; rfl, by simp only [GroupX.core, hc, Option.map_some]; rfl⟩

theorem core_addConditions {g : GroupX} {h : Group} (op : Str) {cs : List CondX} {ds : List Cond}
    (hg : g.core = some h) (hc : CondX.coreL cs = some ds) :
    GivesGX (g.addConditions op cs) (h.addConditions op ds) := by
  have wg := core_toCond (core_withBrackets hg)
  have hgc := (core_group hg).1
  have e1 : g.conds.length = h.conds.length := CondX.coreL_length hgc
  obtain ⟨n1, hn1, hnc1⟩ := core_newGroup op hc
  obtain ⟨n2, hn2, hnc2⟩ := core_newGroup lAND hc
  obtain ⟨w1, hw1, hwc1⟩ := core_join (core_toCond hnc1) op
  have w2 := core_toCond (core_withBrackets hnc2)
  simp only [GroupX.addConditions, core_hasOne hg, bind, Res.bind_ok, pure, e1]
  unfold Group.addConditions
  cases cs with
  | nil => simp only [CondX.coreL, Option.some.injEq] at hc; subst hc; exact ⟨g, rfl, hg⟩
  | cons x xs =>
    have hc' := hc
    simp only [CondX.coreL, Option.bind_eq_some_iff, Option.map_eq_some_iff] at hc'
    obtain ⟨d, hd, ds', hds, rfl⟩ := hc'
    obtain ⟨y, hy, hyc⟩ := core_join hd op
    have e2 : xs.length = ds'.length := CondX.coreL_length hds
    simp only [hn1, hn2, Res.bind_ok, hw1, hy, e2]
    have hs := core_addSingle hg hyc (join_not_ptr hy)
    rw [show h = ⟨g.base, h.conds, g.brackets⟩ by rw [← (core_group hg).2.1, ← (core_group hg).2.2]] at *
    simp only at *
    repeat' split
    all_goals first
      | exact hs
      | exact givesG_mk (CondX.coreL_append hgc hc)
      | exact givesG_mk (coreL_cons wg hc)
      | exact givesG_mk (CondX.coreL_append hgc (coreL_one hwc1))
      | exact givesG_mk (coreL_cons wg (coreL_one w2))

theorem GivesGX.toCond {r : Res GroupX} {h : Group} (hr : GivesGX r h) :
    GivesX (r.bind fun g => .ok g.toCond) h.toCond := by
  obtain ⟨g, rfl, hg⟩ := hr
  exact ⟨_, rfl, core_toCond hg⟩

theorem core_groupOf (j : Str) {c : CondX} {d : Cond} (h : c.core = some d) (hp : ∀ b cs br, c ≠ .ptr b cs br) :
    GivesGX (groupOfX j c) (match d.asGroup with | some g => g | none => newGroup j [d]) := by
  have ha := core_asGroup h hp
  unfold groupOfX
  cases hx : c.asGroup with
  | some a =>
    cases hy : d.asGroup with
    | none => rw [hx, hy] at ha; exact ha.elim
    | some k => rw [hx, hy] at ha; exact ⟨a, rfl, ha⟩
  | none =>
    cases hy : d.asGroup with
    | some k => rw [hx, hy] at ha; exact ha.elim
    | none => exact core_newGroup j (coreL_one h)

theorem core_and {c : CondX} {d : Cond} {cs : List CondX} {ds : List Cond} (h : c.core = some d)
    (hp : ∀ b cs br, c ≠ .ptr b cs br) (hs : CondX.coreL cs = some ds) : GivesX (andX c cs) (andC d ds) := by
  have e := CondX.coreL_length hs
  unfold andX andC
  rw [e]
  split
  · exact core_join h lAND
  · obtain ⟨g, hg, hgc⟩ := core_groupOf lAND h hp
    rw [hg, Res.bind_ok]
    exact (core_addConditions lAND hgc hs).toCond

theorem core_or {c : CondX} {d : Cond} {cs : List CondX} {ds : List Cond} (h : c.core = some d)
    (hp : ∀ b cs br, c ≠ .ptr b cs br) (hs : CondX.coreL cs = some ds) : GivesX (orX c cs) (orC d ds) := by
  have e := CondX.coreL_length hs
  unfold orX orC
  rw [e]
  split
  · exact core_join h lOR
  · obtain ⟨g, hg, hgc⟩ := core_groupOf lOR h hp
    obtain ⟨g', hg', hgc'⟩ := core_addConditions lOR hgc hs
    simp only [hg, Res.bind_ok, GroupX.groupOR, hg']
    exact core_join (core_toCond hgc') lOR

theorem core_shape {c : CondX} {d : Cond} (h : c.core = some d) : (∀ b cs br, d ≠ .group b cs br) →
    ∀ b cs br, c ≠ .ptr b cs br := by
  intro hd b cs br e
  subst e
  simp only [CondX.core, Option.map_eq_some_iff] at h
  obtain ⟨ds, _, rfl⟩ := h
  exact hd _ _ _ rfl

theorem core_andM {c : CondX} {d : Cond} {cs : List CondX} {ds : List Cond} (h : c.core = some d)
    (hs : CondX.coreL cs = some ds) : GivesX (c.and cs) (d.and ds) := by
  have hwrap : ∀ c d, CondX.core c = some d →
      GivesX ((newGroupX lAND [c]).bind fun g => (g.groupAND cs).bind fun g => Res.ok g.toCond)
        ((newGroup lAND [d]).groupAND ds).toCond := by
    intro c d h
    obtain ⟨g, hg, hgc⟩ := core_newGroup lAND (coreL_one h)
    rw [hg, Res.bind_ok]
    exact (core_addConditions lAND hgc hs).toCond
  cases c with
  | nil => cases h
  | fieldc k b fv =>
    have ha := core_and h (by intros; simp) hs
    have hw := hwrap _ _ h
    simp only [CondX.core, Option.some.injEq] at h; subst h
    cases k <;> first | exact ha | exact hw
  | null b fd =>
    have hw := hwrap _ _ h
    simp only [CondX.core, Option.some.injEq] at h; subst h; exact hw
  | custom b x =>
    have ha := core_and h (by intros; simp) hs
    simp only [CondX.core, Option.some.injEq] at h; subst h; exact ha
  | group b xs br =>
    simp only [CondX.core, Option.map_eq_some_iff] at h
    obtain ⟨es, hd, rfl⟩ := h
    exact (core_addConditions lAND (g := ⟨b, xs, br⟩) (h := ⟨b, es, br⟩) (by simp only [GroupX.core, hd, Option.map_some]) hs).toCond
  | ptr b xs br =>
    simp only [CondX.core, Option.map_eq_some_iff] at h
    obtain ⟨es, hd, rfl⟩ := h
    exact (core_addConditions lAND (g := ⟨b, xs, br⟩) (h := ⟨b, es, br⟩) (by simp only [GroupX.core, hd, Option.map_some]) hs).toCond

theorem core_orM {c : CondX} {d : Cond} {cs : List CondX} {ds : List Cond} (h : c.core = some d)
    (hs : CondX.coreL cs = some ds) : (∃ e, d.or ds = .ok e ∧ GivesX (c.or cs) e) ∨
      (d.or ds = .panic .nilDeref ∧ c.or cs = .panic .nilDeref) := by
  have hwrap : ∀ c d, CondX.core c = some d →
      GivesX ((newGroupX lOR [c]).bind fun g => (g.groupOR cs).bind fun g => Res.ok g.toCond)
        ((newGroup lOR [d]).groupOR ds).toCond := by
    intro c d h
    obtain ⟨g, hg, hgc⟩ := core_newGroup lOR (coreL_one h)
    rw [hg, Res.bind_ok]
    exact (core_addConditions lOR hgc hs).toCond
  cases c with
  | nil => cases h
  | fieldc k b fv =>
    have ha := core_or h (by intros; simp) hs
    have hw := hwrap _ _ h
    simp only [CondX.core, Option.some.injEq] at h; subst h
    left
    cases k <;> first | exact ⟨_, rfl, ha⟩ | exact ⟨_, rfl, hw⟩
  | null b fd =>
    simp only [CondX.core, Option.some.injEq] at h; subst h
    exact .inr ⟨rfl, rfl⟩
  | custom b x =>
    have ha := core_or h (by intros; simp) hs
    simp only [CondX.core, Option.some.injEq] at h; subst h; exact .inl ⟨_, rfl, ha⟩
  | group b xs br =>
    simp only [CondX.core, Option.map_eq_some_iff] at h
    obtain ⟨es, hd, rfl⟩ := h
    exact .inl ⟨_, rfl, (core_addConditions lOR (g := ⟨b, xs, br⟩) (h := ⟨b, es, br⟩) (by simp only [GroupX.core, hd, Option.map_some]) hs).toCond⟩
  | ptr b xs br =>
    simp only [CondX.core, Option.map_eq_some_iff] at h
    obtain ⟨es, hd, rfl⟩ := h
    exact .inl ⟨_, rfl, (core_addConditions lOR (g := ⟨b, xs, br⟩) (h := ⟨b, es, br⟩) (by simp only [GroupX.core, hd, Option.map_some]) hs).toCond⟩

theorem core_joinToken {c : CondX} {d : Cond} (h : c.core = some d) (b : Bool) : c.joinToken b = .ok (joinToken d b) := by
  simp only [CondX.joinToken, core_base h, Res.bind_ok, joinToken]

mutual
theorem core_values : (c : CondX) → (d : Cond) → c.core = some d → c.values = d.values
  | .nil, _, h => by cases h
  | .fieldc k b fv, d, h => by
    simp only [CondX.core, Option.some.injEq] at h; subst h; simp only [CondX.values, Cond.values]
  | .null b fd, d, h => by
    simp only [CondX.core, Option.some.injEq] at h; subst h; simp only [CondX.values, Cond.values]
  | .custom b x, d, h => by
    simp only [CondX.core, Option.some.injEq] at h; subst h; simp only [CondX.values, Cond.values]
  | .group b cs br, d, h => by
    simp only [CondX.core, Option.map_eq_some_iff] at h
    obtain ⟨ds, hd, rfl⟩ := h
    simp only [CondX.values, Cond.values, core_valuesL cs ds hd]
  | .ptr b cs br, d, h => by
    simp only [CondX.core, Option.map_eq_some_iff] at h
    obtain ⟨ds, hd, rfl⟩ := h
    simp only [CondX.values, Cond.values, core_valuesL cs ds hd]
theorem core_valuesL : (cs : List CondX) → (ds : List Cond) → CondX.coreL cs = some ds → CondX.valuesL cs = Cond.valuesL ds
  | [], ds, h => by
    simp only [CondX.coreL, Option.some.injEq] at h; subst h; simp only [CondX.valuesL, Cond.valuesL]
  | c :: cs, ds, h => by
    simp only [CondX.coreL, Option.bind_eq_some_iff, Option.map_eq_some_iff] at h
    obtain ⟨d, hd, ds', hds, rfl⟩ := h
    simp only [CondX.valuesL, Cond.valuesL, core_values c d hd, core_valuesL cs ds' hds]
end

mutual
theorem core_render : (c : CondX) → (d : Cond) → c.core = some d → ∀ n, c.render n = d.render n
  | .nil, _, h, _ => by cases h
  | .fieldc k b fv, d, h, n => by
    simp only [CondX.core, Option.some.injEq] at h; subst h; simp only [CondX.render, Cond.render]
  | .null b fd, d, h, n => by
    simp only [CondX.core, Option.some.injEq] at h; subst h; simp only [CondX.render, Cond.render]
  | .custom b x, d, h, n => by
    simp only [CondX.core, Option.some.injEq] at h; subst h; simp only [CondX.render, Cond.render]
  | .group b cs br, d, h, n => by
    simp only [CondX.core, Option.map_eq_some_iff] at h
    obtain ⟨ds, hd, rfl⟩ := h
    simp only [CondX.render, Cond.render, core_renderL cs ds hd, CondX.coreL_length hd]
  | .ptr b cs br, d, h, n => by
    simp only [CondX.core, Option.map_eq_some_iff] at h
    obtain ⟨ds, hd, rfl⟩ := h
    simp only [CondX.render, Cond.render, core_renderL cs ds hd, CondX.coreL_length hd]
theorem core_renderL : (cs : List CondX) → (ds : List Cond) → CondX.coreL cs = some ds →
    ∀ f n, CondX.renderL cs f n = Cond.renderL ds f n
  | [], ds, h, f, n => by
    simp only [CondX.coreL, Option.some.injEq] at h; subst h; simp only [CondX.renderL, Cond.renderL]
  | c :: cs, ds, h, f, n => by
    simp only [CondX.coreL, Option.bind_eq_some_iff, Option.map_eq_some_iff] at h
    obtain ⟨d, hd, ds', hds, rfl⟩ := h
    simp only [CondX.renderL, Cond.renderL, core_joinToken hd, core_render c d hd, core_values c d hd, bind, Res.bind_ok,
      core_renderL cs ds' hds]
end

mutual
theorem core_renderSQL : (c : CondX) → (d : Cond) → c.core = some d → c.renderSQL = d.renderSQL
  | .nil, _, h => by cases h
  | .fieldc k b fv, d, h => by
    simp only [CondX.core, Option.some.injEq] at h; subst h; simp only [CondX.renderSQL, Cond.renderSQL]
  | .null b fd, d, h => by
    simp only [CondX.core, Option.some.injEq] at h; subst h; simp only [CondX.renderSQL, Cond.renderSQL]
  | .custom b x, d, h => by
    simp only [CondX.core, Option.some.injEq] at h; subst h; simp only [CondX.renderSQL, Cond.renderSQL]
  | .group b cs br, d, h => by
    simp only [CondX.core, Option.map_eq_some_iff] at h
    obtain ⟨ds, hd, rfl⟩ := h
    simp only [CondX.renderSQL, Cond.renderSQL, core_renderSQLL cs ds hd, CondX.coreL_length hd]
  | .ptr b cs br, d, h => by
    simp only [CondX.core, Option.map_eq_some_iff] at h
    obtain ⟨ds, hd, rfl⟩ := h
    simp only [CondX.renderSQL, Cond.renderSQL, core_renderSQLL cs ds hd, CondX.coreL_length hd]
theorem core_renderSQLL : (cs : List CondX) → (ds : List Cond) → CondX.coreL cs = some ds →
    ∀ f, CondX.renderSQLL cs f = Cond.renderSQLL ds f
  | [], ds, h, f => by
    simp only [CondX.coreL, Option.some.injEq] at h; subst h; simp only [CondX.renderSQLL, Cond.renderSQLL]
  | c :: cs, ds, h, f => by
    simp only [CondX.coreL, Option.bind_eq_some_iff, Option.map_eq_some_iff] at h
    obtain ⟨d, hd, ds', hds, rfl⟩ := h
    simp only [CondX.renderSQLL, Cond.renderSQLL, core_joinToken hd, core_renderSQL c d hd, bind, Res.bind_ok,
      core_renderSQLL cs ds' hds]
end

theorem core_joinAll (j : Str) {cs : List CondX} {ds : List Cond} (h : CondX.coreL cs = some ds) (hne : cs ≠ []) :
    ∃ d, joinAll j (ds.map some) = .ok d ∧ GivesX (joinAllX j cs) d := by
  have hg := (core_newGroup j h).toCond
  have hI : ∀ ds : List Cond, newGroupI j (ds.map some) = .ok (newGroup j ds) := by
    intro ds
    have : setToAllI j (ds.map some) = .ok (setToAll j ds) := by
      unfold setToAllI setToAll
      induction ds with
      | nil => rfl
      | cons d ds ih => simp only [List.map_cons, Res.mapL, joinOneI, Res.bind_ok, ih]
    simp only [newGroupI, this, Res.bind_ok, newGroup]
  match cs, h, hne with
  | [c], h, _ =>
    simp only [CondX.coreL, Option.bind_eq_some_iff, Option.map_eq_some_iff] at h
    obtain ⟨d, hd, ds', hds, rfl⟩ := h
    cases hds
    exact ⟨_, rfl, core_join hd j⟩
  | c :: c2 :: cs, h, _ =>
    have e := CondX.coreL_length h
    match ds, e with
    | d :: d2 :: ds, _ =>
      refine ⟨(newGroup j (d :: d2 :: ds)).toCond, ?_, hg⟩
      have := hI (d :: d2 :: ds)
      simp only [List.map_cons] at this
      simp only [joinAll, List.map_cons, this, Res.bind_ok]

mutual
theorem core_isSome : (c : CondX) → c.core.isSome = !c.hasNil
  | .nil => rfl
  | .fieldc k b fv => rfl
  | .null b fd => rfl
  | .custom b x => rfl
  | .group b cs br => by simp only [CondX.core, CondX.hasNil, Option.isSome_map, coreL_isSome cs]
  | .ptr b cs br => by simp only [CondX.core, CondX.hasNil, Option.isSome_map, coreL_isSome cs]
theorem coreL_isSome : (cs : List CondX) → (CondX.coreL cs).isSome = !CondX.hasNilL cs
  | [] => rfl
  | c :: cs => by
    have h1 := core_isSome c
    have h2 := coreL_isSome cs
    simp only [CondX.coreL, CondX.hasNilL]
    cases hc : c.core <;> cases hs : CondX.coreL cs <;> simp [hc, hs] at h1 h2 ⊢ <;> simp [h1, h2]
end

/-! ## A nil condition -/

/-- Neither an error nor a value that lost a nil condition: `b` says whether there was one. -/
def KeptNil {α : Type} (has : α → Bool) (b : Bool) : Res α → Prop
  | .ok a => b = true → has a = true
  | .panic _ => True
  | .err _ => False

theorem KeptNil.bind {α β : Type} {ha : α → Bool} {hb : β → Bool} {p q : Bool} {r : Res α} {f : α → Res β}
    (h : KeptNil ha p r) (hf : ∀ a, r = .ok a → (p = true → ha a = true) → KeptNil hb q (f a)) : KeptNil hb q (r.bind f) := by
  cases r with
  | ok a => exact hf a rfl h
  | panic p => trivial
  | err e => exact h.elim

/-- The members of a group contain a nil. -/
def GroupX.hasNil (g : GroupX) : Bool := CondX.hasNilL g.conds

theorem kept_join (c : CondX) (j : Str) : KeptNil CondX.hasNil c.hasNil (c.join j) := by
  cases c <;> simp [CondX.join, KeptNil, CondX.hasNil]

theorem kept_setNegate (c : CondX) (n : Bool) : KeptNil CondX.hasNil c.hasNil (c.setNegate n) := by
  cases c <;> simp [CondX.setNegate, KeptNil, CondX.hasNil]

theorem kept_joinType (c : CondX) : KeptNil (fun _ => true) true c.joinType := by
  cases c <;> simp [CondX.joinType, CondX.base, KeptNil]

theorem kept_allJoined (j : Str) (cs : List CondX) : KeptNil (fun _ => true) true (GroupX.allJoined j cs) := by
  induction cs with
  | nil => simp [GroupX.allJoined, KeptNil]
  | cons c cs ih =>
    refine (kept_joinType c).bind fun t _ _ => ?_
    by_cases h : t = j <;> simp only [h, if_true, if_false]
    · exact ih
    · simp [KeptNil]

theorem kept_oneJoined (j : Str) (cs : List CondX) : KeptNil (fun _ => true) true (GroupX.oneJoined j cs) := by
  induction cs with
  | nil => simp [GroupX.oneJoined, KeptNil]
  | cons c cs ih =>
    refine (kept_joinType c).bind fun t _ _ => ?_
    by_cases h : t = j <;> simp only [h, if_true, if_false]
    · simp [KeptNil]
    · exact ih

theorem kept_mapJoin (j : Str) (cs : List CondX) :
    KeptNil CondX.hasNilL (CondX.hasNilL cs) (Res.mapL (fun c : CondX => c.join j) cs) := by
  induction cs with
  | nil => simp [Res.mapL, KeptNil, CondX.hasNilL]
  | cons c cs ih =>
    refine (kept_join c j).bind fun a _ h1 => ih.bind fun as _ h2 => ?_
    simp only [KeptNil, CondX.hasNilL, Bool.or_eq_true]
    exact fun h => h.imp h1 h2

theorem kept_newGroup (j : Str) (cs : List CondX) : KeptNil GroupX.hasNil (CondX.hasNilL cs) (newGroupX j cs) :=
  (kept_mapJoin j cs).bind fun _ _ h => h

theorem kept_ite {p : Prop} [Decidable p] {α : Type} {has : α → Bool} {b : Bool} {x y : Res α} (h1 : p → KeptNil has b x)
    (h2 : ¬p → KeptNil has b y) : KeptNil has b (if p then x else y) := by
  by_cases hp : p
  · rw [if_pos hp]; exact h1 hp
  · rw [if_neg hp]; exact h2 hp

theorem kept_addGroup (g a : GroupX) : KeptNil GroupX.hasNil (g.hasNil || a.hasNil) (g.addGroup a) := by
  refine (kept_allJoined _ _).bind fun _ _ _ => (kept_allJoined _ _).bind fun _ _ _ => (kept_oneJoined _ _).bind fun _ _ _ =>
    (kept_oneJoined _ _).bind fun _ _ _ => (kept_allJoined _ _).bind fun _ _ _ => (kept_oneJoined _ _).bind fun _ _ _ =>
    (kept_allJoined _ _).bind fun _ _ _ => (kept_oneJoined _ _).bind fun _ _ _ => ?_
  have hj := kept_join a.withBrackets.toCond a.base.joinType
  refine kept_ite (fun h0 => ?_) (fun h0 => ?_)
  · have : g.conds = [] := by simpa using h0
    simp [KeptNil, GroupX.hasNil, this, CondX.hasNilL]
  repeat' refine kept_ite (fun _ => ?_) (fun _ => ?_)
  all_goals first
    | (simp only [pure, KeptNil, GroupX.hasNil, CondX.hasNilL_append, CondX.hasNilL, GroupX.toCond, GroupX.withBrackets,
        CondX.hasNil, Bool.or_false]; exact id)
    | (refine hj.bind fun w _ hw => ?_
       simp only [GroupX.toCond, GroupX.withBrackets, CondX.hasNil] at hw
       simp only [KeptNil, GroupX.hasNil, CondX.hasNilL_append, CondX.hasNilL, GroupX.toCond, GroupX.withBrackets,
        CondX.hasNil, Bool.or_false, Bool.or_eq_true]
       exact fun h => h.imp id hw)

theorem kept_addSingle (g : GroupX) (c : CondX) :
    KeptNil GroupX.hasNil (g.hasNil || c.hasNil) (g.addSingleCondition c) := by
  refine (kept_allJoined _ _).bind fun _ _ _ => (kept_allJoined _ _).bind fun _ _ _ => (kept_joinType c).bind fun op _ _ => ?_
  cases hc : c.asGroup with
  | some a =>
    have : a.hasNil = c.hasNil := by
      cases c <;> simp only [CondX.asGroup, Option.some.injEq, reduceCtorEq] at hc
      subst hc; simp only [GroupX.hasNil, CondX.hasNil]
    rw [← this]
    exact kept_addGroup g a
  | none =>
    dsimp only
    refine kept_ite (fun _ => ?_) (fun _ => (kept_join c op).bind fun w _ hw => ?_)
    · simp [pure, KeptNil, GroupX.hasNil, CondX.hasNilL_append, CondX.hasNilL]
    repeat' refine kept_ite (fun _ => ?_) (fun _ => ?_)
    all_goals
      simp only [KeptNil, GroupX.hasNil, CondX.hasNilL_append, CondX.hasNilL, GroupX.toCond, GroupX.withBrackets,
        CondX.hasNil, Bool.or_false, Bool.or_eq_true]
      exact fun h => h.imp id hw

theorem kept_addConditions (g : GroupX) (op : Str) (cs : List CondX) :
    KeptNil GroupX.hasNil (g.hasNil || CondX.hasNilL cs) (g.addConditions op cs) := by
  refine (kept_oneJoined _ _).bind fun _ _ _ => (kept_oneJoined _ _).bind fun _ _ _ => ?_
  cases cs with
  | nil => simp [pure, KeptNil, CondX.hasNilL]
  | cons x xs =>
    dsimp only
    refine kept_ite (fun _ => ?_) (fun _ => kept_ite (fun h1 => ?_) (fun _ => kept_ite (fun _ => ?_) (fun _ =>
      kept_ite (fun _ => ?_) (fun _ => ?_))))
    · simp [pure, KeptNil, GroupX.hasNil, CondX.hasNilL_append]
    · have : xs = [] := List.length_eq_zero_iff.1 h1
      subst this
      refine (kept_join x op).bind fun w _ hw => ?_
      have := kept_addSingle g w
      cases hr : g.addSingleCondition w with
      | ok r =>
        rw [hr] at this
        simp only [KeptNil, Bool.or_eq_true, CondX.hasNilL, Bool.or_false] at this ⊢
        exact fun h => this (h.imp id hw)
      | panic p => trivial
      | err e => rw [hr] at this; exact this.elim
    · simp [pure, KeptNil, GroupX.hasNil, CondX.hasNilL, GroupX.toCond, GroupX.withBrackets, CondX.hasNil]
    · refine (kept_newGroup op _).bind fun n _ hn => (kept_join n.toCond op).bind fun w _ hw => ?_
      simp only [KeptNil, GroupX.hasNil, CondX.hasNilL_append, Bool.or_eq_true]
      intro h
      refine h.imp id fun h => ?_
      have := hw (by simpa [GroupX.toCond, CondX.hasNil, GroupX.hasNil] using hn h)
      simp [CondX.hasNilL, this]
    · refine (kept_newGroup lAND _).bind fun n _ hn => ?_
      simp only [KeptNil, GroupX.hasNil, CondX.hasNilL, GroupX.toCond, GroupX.withBrackets, CondX.hasNil, Bool.or_false,
        Bool.or_eq_true] at hn ⊢
      exact fun h => h.imp id hn

theorem kept_toCond {b : Bool} {r : Res GroupX} (h : KeptNil GroupX.hasNil b r) :
    KeptNil CondX.hasNil b (r.bind fun g => .ok g.toCond) :=
  h.bind fun g _ hg => by simpa only [KeptNil, GroupX.toCond, CondX.hasNil, GroupX.hasNil] using hg

theorem kept_mono {α : Type} {has : α → Bool} {p q : Bool} {r : Res α} (hpq : p = true → q = true) (h : KeptNil has q r) :
    KeptNil has p r := by
  cases r with
  | ok a => exact fun hp => h (hpq hp)
  | panic p => trivial
  | err e => exact h

theorem kept_groupOf (j : Str) (c : CondX) : KeptNil GroupX.hasNil c.hasNil (groupOfX j c) := by
  unfold groupOfX
  cases hc : c.asGroup with
  | some a =>
    cases c <;> simp only [CondX.asGroup, Option.some.injEq, reduceCtorEq] at hc
    subst hc
    simp [KeptNil, GroupX.hasNil, CondX.hasNil]
  | none => simpa [CondX.hasNilL] using kept_newGroup j [c]

theorem kept_or_of {p p' q : Bool} (h : p = true → p' = true) : (p || q) = true → (p' || q) = true := by
  simp only [Bool.or_eq_true]
  exact fun hh => hh.imp h id

theorem kept_andF (c : CondX) (cs : List CondX) : KeptNil CondX.hasNil (c.hasNil || CondX.hasNilL cs) (andX c cs) := by
  unfold andX
  refine kept_ite (fun h => ?_) (fun _ => (kept_groupOf lAND c).bind fun g _ hg => ?_)
  · rw [List.length_eq_zero_iff.1 h]
    simpa [CondX.hasNilL] using kept_join c lAND
  · exact kept_mono (kept_or_of hg) (kept_toCond (kept_addConditions g lAND cs))

theorem kept_orF (c : CondX) (cs : List CondX) : KeptNil CondX.hasNil (c.hasNil || CondX.hasNilL cs) (orX c cs) := by
  unfold orX
  refine kept_ite (fun h => ?_) (fun _ => (kept_groupOf lOR c).bind fun g _ hg => ?_)
  · rw [List.length_eq_zero_iff.1 h]
    simpa [CondX.hasNilL] using kept_join c lOR
  · refine kept_mono (kept_or_of hg) ((kept_addConditions g lOR cs).bind fun g' _ hg' => ?_)
    exact kept_mono (by simpa [GroupX.toCond, CondX.hasNil, GroupX.hasNil] using hg') (kept_join g'.toCond lOR)

theorem kept_wrapped (j op : Str) (c : CondX) (cs : List CondX) : KeptNil CondX.hasNil (c.hasNil || CondX.hasNilL cs)
    ((newGroupX j [c]).bind fun g => (g.addConditions op cs).bind fun g => Res.ok g.toCond) := by
  refine (kept_newGroup j [c]).bind fun g _ hg => ?_
  exact kept_mono (kept_or_of (by simpa [CondX.hasNilL] using hg)) (kept_toCond (kept_addConditions g op cs))

theorem kept_andM (c : CondX) (cs : List CondX) : KeptNil CondX.hasNil (c.hasNil || CondX.hasNilL cs) (c.and cs) := by
  have hw := kept_wrapped lAND lAND c cs
  have hf := kept_andF c cs
  cases c with
  | nil => trivial
  | fieldc k b fv => cases k <;> first | exact hw | exact hf
  | null b fd => exact hw
  | custom b x => exact hf
  | group b xs br => exact kept_toCond (kept_addConditions ⟨b, xs, br⟩ lAND cs)
  | ptr b xs br => exact kept_toCond (kept_addConditions ⟨b, xs, br⟩ lAND cs)

theorem kept_orM (c : CondX) (cs : List CondX) : KeptNil CondX.hasNil (c.hasNil || CondX.hasNilL cs) (c.or cs) := by
  have hw := kept_wrapped lOR lOR c cs
  have hf := kept_orF c cs
  cases c with
  | nil => trivial
  | fieldc k b fv => cases k <;> first | exact hw | exact hf
  | null b fd => trivial
  | custom b x => exact hf
  | group b xs br => exact kept_toCond (kept_addConditions ⟨b, xs, br⟩ lOR cs)
  | ptr b xs br => exact kept_toCond (kept_addConditions ⟨b, xs, br⟩ lOR cs)

theorem kept_joinAll (j : Str) (cs : List CondX) : KeptNil CondX.hasNil (CondX.hasNilL cs) (joinAllX j cs) := by
  match cs with
  | [] => trivial
  | [c] => simpa [CondX.hasNilL, joinAllX] using kept_join c j
  | c :: c2 :: cs => exact kept_toCond (kept_newGroup j _)

mutual
theorem core_applySpec (spec : FieldDef) : (c : CondX) → (d : Cond) → c.core = some d → GivesX (c.applyFieldSpec spec) (d.applyFieldSpec spec)
  | .nil, _, h => by cases h
  | .fieldc k b fv, d, h => by
    simp only [CondX.core, Option.some.injEq] at h; subst h; exact ⟨_, rfl, rfl⟩
  | .null b fd, d, h => by
    simp only [CondX.core, Option.some.injEq] at h; subst h; exact ⟨_, rfl, rfl⟩
  | .custom b x, d, h => by
    simp only [CondX.core, Option.some.injEq] at h; subst h; exact ⟨_, rfl, rfl⟩
  | .group b cs br, d, h => by
    simp only [CondX.core, Option.map_eq_some_iff] at h
    obtain ⟨ds, hd, rfl⟩ := h
    obtain ⟨xs, hx, hc⟩ := core_applySpecL spec cs ds hd
    exact ⟨.group b xs br, by simp only [CondX.applyFieldSpec, hx, Res.bind_ok], by simp only [CondX.core, hc, Option.map_some, Cond.applyFieldSpec]⟩
  | .ptr b cs br, d, h => by
    simp only [CondX.core, Option.map_eq_some_iff] at h
    obtain ⟨ds, hd, rfl⟩ := h
    obtain ⟨xs, hx, hc⟩ := core_applySpecL spec cs ds hd
    exact ⟨.group b xs br, by simp only [CondX.applyFieldSpec, hx, Res.bind_ok], by simp only [CondX.core, hc, Option.map_some, Cond.applyFieldSpec]⟩
theorem core_applySpecL (spec : FieldDef) : (cs : List CondX) → (ds : List Cond) → CondX.coreL cs = some ds →
    ∃ xs, CondX.applyFieldSpecL cs spec = .ok xs ∧ CondX.coreL xs = some (Cond.applyFieldSpecL ds spec)
  | [], ds, h => by
    simp only [CondX.coreL, Option.some.injEq] at h; subst h; exact ⟨[], rfl, rfl⟩
  | c :: cs, ds, h => by
    simp only [CondX.coreL, Option.bind_eq_some_iff, Option.map_eq_some_iff] at h
    obtain ⟨d, hd, ds', hds, rfl⟩ := h
    obtain ⟨x, hx, hc⟩ := core_applySpec spec c d hd
    obtain ⟨xs, hxs, hcs⟩ := core_applySpecL spec cs ds' hds
    exact ⟨x :: xs, by simp only [CondX.applyFieldSpecL, hx, hxs, Res.bind_ok], by simp only [CondX.coreL, hc, hcs, Option.bind_some, Option.map_some, Cond.applyFieldSpecL]⟩
end

mutual
theorem applySpec_nil (spec : FieldDef) : (c : CondX) → c.hasNil = true → c.applyFieldSpec spec = .panic .nilDeref
  | .nil, _ => rfl
  | .fieldc _ _ _, h => by cases h
  | .null _ _, h => by cases h
  | .custom _ _, h => by cases h
  | .group b cs br, h => by
    simp only [CondX.hasNil] at h
    simp only [CondX.applyFieldSpec, applySpec_nilL spec cs h, Res.bind_panic]
  | .ptr b cs br, h => by
    simp only [CondX.hasNil] at h
    simp only [CondX.applyFieldSpec, applySpec_nilL spec cs h, Res.bind_panic]
theorem applySpec_nilL (spec : FieldDef) : (cs : List CondX) → CondX.hasNilL cs = true → CondX.applyFieldSpecL cs spec = .panic .nilDeref
  | [], h => by cases h
  | c :: cs, h => by
    cases hc : c.hasNil with
    | true => simp only [CondX.applyFieldSpecL, applySpec_nil spec c hc, Res.bind_panic]
    | false =>
      obtain ⟨d, hd⟩ := Option.isSome_iff_exists.1 ((core_isSome c).trans (by rw [hc]; rfl))
      obtain ⟨x, hx, _⟩ := core_applySpec spec c d hd
      simp only [CondX.hasNilL, hc, Bool.false_or] at h
      simp only [CondX.applyFieldSpecL, hx, Res.bind_ok, applySpec_nilL spec cs h, Res.bind_panic]
end

theorem kept_applySpec (c : CondX) (spec : FieldDef) : KeptNil CondX.hasNil c.hasNil (c.applyFieldSpec spec) := by
  cases hc : c.hasNil with
  | true => rw [applySpec_nil spec c hc]; trivial
  | false =>
    obtain ⟨d, hd⟩ := Option.isSome_iff_exists.1 ((core_isSome c).trans (by rw [hc]; rfl))
    obtain ⟨x, hx, _⟩ := core_applySpec spec c d hd
    rw [hx]
    exact fun h => by cases h

mutual
theorem core_applyTable (t : Str) : (c : CondX) → (d : Cond) → c.core = some d → GivesX (c.applyFieldTable t) (d.applyFieldTable t)
  | .nil, _, h => by cases h
  | .fieldc k b fv, d, h => by
    simp only [CondX.core, Option.some.injEq] at h; subst h; exact ⟨_, rfl, rfl⟩
  | .null b fd, d, h => by
    simp only [CondX.core, Option.some.injEq] at h; subst h; exact ⟨_, rfl, rfl⟩
  | .custom b x, d, h => by
    simp only [CondX.core, Option.some.injEq] at h; subst h; exact ⟨_, rfl, rfl⟩
  | .group b cs br, d, h => by
    simp only [CondX.core, Option.map_eq_some_iff] at h
    obtain ⟨ds, hd, rfl⟩ := h
    obtain ⟨xs, hx, hc⟩ := core_applyTableL t cs ds hd
    exact ⟨.group b xs br, by simp only [CondX.applyFieldTable, hx, Res.bind_ok], by simp only [CondX.core, hc, Option.map_some, Cond.applyFieldTable]⟩
  | .ptr b cs br, d, h => by
    simp only [CondX.core, Option.map_eq_some_iff] at h
    obtain ⟨ds, hd, rfl⟩ := h
    obtain ⟨xs, hx, hc⟩ := core_applyTableL t cs ds hd
    exact ⟨.group b xs br, by simp only [CondX.applyFieldTable, hx, Res.bind_ok], by simp only [CondX.core, hc, Option.map_some, Cond.applyFieldTable]⟩
theorem core_applyTableL (t : Str) : (cs : List CondX) → (ds : List Cond) → CondX.coreL cs = some ds →
    ∃ xs, CondX.applyFieldTableL cs t = .ok xs ∧ CondX.coreL xs = some (Cond.applyFieldTableL ds t)
  | [], ds, h => by
    simp only [CondX.coreL, Option.some.injEq] at h; subst h; exact ⟨[], rfl, rfl⟩
  | c :: cs, ds, h => by
    simp only [CondX.coreL, Option.bind_eq_some_iff, Option.map_eq_some_iff] at h
    obtain ⟨d, hd, ds', hds, rfl⟩ := h
    obtain ⟨x, hx, hc⟩ := core_applyTable t c d hd
    obtain ⟨xs, hxs, hcs⟩ := core_applyTableL t cs ds' hds
    exact ⟨x :: xs, by simp only [CondX.applyFieldTableL, hx, hxs, Res.bind_ok], by simp only [CondX.coreL, hc, hcs, Option.bind_some, Option.map_some, Cond.applyFieldTableL]⟩
end

mutual
theorem applyTable_nil (t : Str) : (c : CondX) → c.hasNil = true → c.applyFieldTable t = .panic .nilDeref
  | .nil, _ => rfl
  | .fieldc _ _ _, h => by cases h
  | .null _ _, h => by cases h
  | .custom _ _, h => by cases h
  | .group b cs br, h => by
    simp only [CondX.hasNil] at h
    simp only [CondX.applyFieldTable, applyTable_nilL t cs h, Res.bind_panic]
  | .ptr b cs br, h => by
    simp only [CondX.hasNil] at h
    simp only [CondX.applyFieldTable, applyTable_nilL t cs h, Res.bind_panic]
theorem applyTable_nilL (t : Str) : (cs : List CondX) → CondX.hasNilL cs = true → CondX.applyFieldTableL cs t = .panic .nilDeref
  | [], h => by cases h
  | c :: cs, h => by
    cases hc : c.hasNil with
    | true => simp only [CondX.applyFieldTableL, applyTable_nil t c hc, Res.bind_panic]
    | false =>
      obtain ⟨d, hd⟩ := Option.isSome_iff_exists.1 ((core_isSome c).trans (by rw [hc]; rfl))
      obtain ⟨x, hx, _⟩ := core_applyTable t c d hd
      simp only [CondX.hasNilL, hc, Bool.false_or] at h
      simp only [CondX.applyFieldTableL, hx, Res.bind_ok, applyTable_nilL t cs h, Res.bind_panic]
end

theorem kept_applyTable (c : CondX) (t : Str) : KeptNil CondX.hasNil c.hasNil (c.applyFieldTable t) := by
  cases hc : c.hasNil with
  | true => rw [applyTable_nil t c hc]; trivial
  | false =>
    obtain ⟨d, hd⟩ := Option.isSome_iff_exists.1 ((core_isSome c).trans (by rw [hc]; rfl))
    obtain ⟨x, hx, _⟩ := core_applyTable t c d hd
    rw [hx]
    exact fun h => by cases h

mutual
theorem kept_eval : (t : TermX) → KeptNil CondX.hasNil t.hasNil t.eval
  | .leaf c => by simp [TermX.eval, TermX.hasNil, KeptNil]
  | .notF t => by
    simp only [TermX.eval, TermX.hasNil]
    exact (kept_eval t).bind fun c _ hc => kept_mono hc (kept_setNegate c true)
  | .andF t ts => by
    simp only [TermX.eval, TermX.hasNil]
    refine (kept_eval t).bind fun c _ hc => (kept_evalL ts).bind fun cs _ hcs => kept_mono ?_ (kept_andF c cs)
    simp only [Bool.or_eq_true]; exact fun h => h.imp hc hcs
  | .orF t ts => by
    simp only [TermX.eval, TermX.hasNil]
    refine (kept_eval t).bind fun c _ hc => (kept_evalL ts).bind fun cs _ hcs => kept_mono ?_ (kept_orF c cs)
    simp only [Bool.or_eq_true]; exact fun h => h.imp hc hcs
  | .andM t ts => by
    simp only [TermX.eval, TermX.hasNil]
    refine (kept_eval t).bind fun c _ hc => (kept_evalL ts).bind fun cs _ hcs => kept_mono ?_ (kept_andM c cs)
    simp only [Bool.or_eq_true]; exact fun h => h.imp hc hcs
  | .orM t ts => by
    simp only [TermX.eval, TermX.hasNil]
    refine (kept_eval t).bind fun c _ hc => (kept_evalL ts).bind fun cs _ hcs => kept_mono ?_ (kept_orM c cs)
    simp only [Bool.or_eq_true]; exact fun h => h.imp hc hcs
  | .newG j ts => by
    simp only [TermX.eval, TermX.hasNil]
    exact (kept_evalL ts).bind fun cs _ hcs => kept_mono hcs (kept_toCond (kept_newGroup j cs))
  | .joinJ j ts => by
    simp only [TermX.eval, TermX.hasNil]
    exact (kept_evalL ts).bind fun cs _ hcs => kept_mono hcs (kept_joinAll j cs)
  | .addr t => by
    simp only [TermX.eval, TermX.hasNil]
    refine (kept_eval t).bind fun c _ hc => ?_
    cases c <;> simpa only [CondX.asGroup, KeptNil, GroupX.addr, CondX.hasNil] using hc
  | .spec t fd => by
    simp only [TermX.eval, TermX.hasNil]
    exact (kept_eval t).bind fun c _ hc => kept_mono hc (kept_applySpec c fd)
  | .table t name => by
    simp only [TermX.eval, TermX.hasNil]
    exact (kept_eval t).bind fun c _ hc => kept_mono hc (kept_applyTable c name)
theorem kept_evalL : (ts : List TermX) → KeptNil CondX.hasNilL (TermX.hasNilL ts) (TermX.evalL ts)
  | [] => by simp [TermX.evalL, TermX.hasNilL, KeptNil]
  | t :: ts => by
    simp only [TermX.evalL, TermX.hasNilL]
    refine (kept_eval t).bind fun c _ hc => (kept_evalL ts).bind fun cs _ hcs => ?_
    simp only [KeptNil, CondX.hasNilL, Bool.or_eq_true]
    exact fun h => h.imp hc hcs
end

theorem kept_deleteWhere (q : DeleteX) (ws : List (List TermX)) :
    KeptNil (fun q : DeleteX => q.where_.hasNil) (q.where_.hasNil || ws.any TermX.hasNilL) (q.wheres ws) := by
  induction ws generalizing q with
  | nil => simp [DeleteX.wheres, KeptNil]
  | cons ts ws ih =>
    refine (kept_evalL ts).bind fun cs _ hcs => KeptNil.bind (ha := fun q : DeleteX => q.where_.hasNil)
      (p := q.where_.hasNil || CondX.hasNilL cs) ?_ fun q' _ hq' => kept_mono ?_ (ih q')
    · exact (kept_addConditions q.where_ lAND cs).bind fun g _ hg => hg
    · simp only [List.any_cons, Bool.or_eq_true] at hq' ⊢
      rintro (h | h | h)
      · exact .inl (hq' (.inl h))
      · exact .inl (hq' (.inr (hcs h)))
      · exact .inr h

theorem kept_deleteFixed (q q' : DeleteX) (ws : List (List TermX)) (h : q.wheres ws = .ok q') : q'.tableName = q.tableName := by
  induction ws generalizing q with
  | nil => cases h; simp
  | cons ts ws ih =>
    simp only [DeleteX.wheres, Res.bind_eq_ok] at h
    obtain ⟨cs, _, q2, h2, h3⟩ := h
    have := ih q2 h3
    simp only [DeleteX.addWhere, Res.bind_eq_ok] at h2
    obtain ⟨g, _, h2⟩ := h2
    cases h2
    exact this

theorem kept_updateWhere (q : UpdateX) (ws : List (List TermX)) :
    KeptNil (fun q : UpdateX => q.where_.hasNil) (q.where_.hasNil || ws.any TermX.hasNilL) (q.wheres ws) := by
  induction ws generalizing q with
  | nil => simp [UpdateX.wheres, KeptNil]
  | cons ts ws ih =>
    refine (kept_evalL ts).bind fun cs _ hcs => KeptNil.bind (ha := fun q : UpdateX => q.where_.hasNil)
      (p := q.where_.hasNil || CondX.hasNilL cs) ?_ fun q' _ hq' => kept_mono ?_ (ih q')
    · exact (kept_addConditions q.where_ lAND cs).bind fun g _ hg => hg
    · simp only [List.any_cons, Bool.or_eq_true] at hq' ⊢
      rintro (h | h | h)
      · exact .inl (hq' (.inl h))
      · exact .inl (hq' (.inr (hcs h)))
      · exact .inr h

theorem kept_updateFixed (q q' : UpdateX) (ws : List (List TermX)) (h : q.wheres ws = .ok q') : q'.tableName = q.tableName ∧ q'.setValues = q.setValues := by
  induction ws generalizing q with
  | nil => cases h; simp
  | cons ts ws ih =>
    simp only [UpdateX.wheres, Res.bind_eq_ok] at h
    obtain ⟨cs, _, q2, h2, h3⟩ := h
    have := ih q2 h3
    simp only [UpdateX.addWhere, Res.bind_eq_ok] at h2
    obtain ⟨g, _, h2⟩ := h2
    cases h2
    exact this

theorem kept_selectWhere (q : SelectX) (ws : List (List TermX)) :
    KeptNil (fun q : SelectX => q.where_.hasNil) (q.where_.hasNil || ws.any TermX.hasNilL) (q.wheres ws) := by
  induction ws generalizing q with
  | nil => simp [SelectX.wheres, KeptNil]
  | cons ts ws ih =>
    refine (kept_evalL ts).bind fun cs _ hcs => KeptNil.bind (ha := fun q : SelectX => q.where_.hasNil)
      (p := q.where_.hasNil || CondX.hasNilL cs) ?_ fun q' _ hq' => kept_mono ?_ (ih q')
    · exact (kept_addConditions q.where_ lAND cs).bind fun g _ hg => hg
    · simp only [List.any_cons, Bool.or_eq_true] at hq' ⊢
      rintro (h | h | h)
      · exact .inl (hq' (.inl h))
      · exact .inl (hq' (.inr (hcs h)))
      · exact .inr h

theorem kept_selectFixed (q q' : SelectX) (ws : List (List TermX)) (h : q.wheres ws = .ok q') : q'.head = q.head := by
  induction ws generalizing q with
  | nil => cases h; simp
  | cons ts ws ih =>
    simp only [SelectX.wheres, Res.bind_eq_ok] at h
    obtain ⟨cs, _, q2, h2, h3⟩ := h
    have := ih q2 h3
    simp only [SelectX.addWhere, Res.bind_eq_ok] at h2
    obtain ⟨g, _, h2⟩ := h2
    cases h2
    exact this

/-! ## Rendering a nil condition -/

mutual
theorem values_nil : (c : CondX) → c.hasNil = true → Panics c.values
  | .nil, _ => ⟨_, rfl⟩
  | .fieldc _ _ _, h => by cases h
  | .null _ _, h => by cases h
  | .custom _ _, h => by cases h
  | .group b cs br, h => valuesL_nil cs h
  | .ptr b cs br, h => valuesL_nil cs h
theorem valuesL_nil : (cs : List CondX) → CondX.hasNilL cs = true → Panics (CondX.valuesL cs)
  | [], h => by cases h
  | c :: cs, h => by
    simp only [CondX.valuesL, bind]
    cases hb : c.hasNil with
    | true =>
      obtain ⟨p, hp⟩ := values_nil c hb
      exact ⟨p, by rw [hp, Res.bind_panic]⟩
    | false =>
      obtain ⟨d, hd⟩ := Option.isSome_iff_exists.1 ((core_isSome c).trans (by rw [hb]; rfl))
      rw [core_values c d hd]
      have hn := noErr_condValues d
      cases hv : d.values with
      | err e => exact (hn e hv).elim
      | panic p => exact ⟨p, by rw [Res.bind_panic]⟩
      | ok v =>
        obtain ⟨p, hp⟩ := valuesL_nil cs (by simpa [CondX.hasNilL, hb] using h)
        exact ⟨p, by rw [Res.bind_ok, hp, Res.bind_panic]⟩
end

mutual
theorem render_nil : (c : CondX) → c.hasNil = true → ∀ n, Panics (c.render n)
  | .nil, _, _ => ⟨_, rfl⟩
  | .fieldc _ _ _, h, _ => by cases h
  | .null _ _, h, _ => by cases h
  | .custom _ _, h, _ => by cases h
  | .group b cs br, h, n => by
    obtain ⟨p, hp⟩ := renderL_nil cs h true n
    have : cs.length ≠ 0 := by intro e; rw [List.length_eq_zero_iff.1 e] at h; cases h
    exact ⟨p, by rw [CondX.render, if_neg this, hp, Res.bind_panic]⟩
  | .ptr b cs br, h, n => by
    obtain ⟨p, hp⟩ := renderL_nil cs h true n
    have : cs.length ≠ 0 := by intro e; rw [List.length_eq_zero_iff.1 e] at h; cases h
    exact ⟨p, by rw [CondX.render, if_neg this, hp, Res.bind_panic]⟩
theorem renderL_nil : (cs : List CondX) → CondX.hasNilL cs = true → ∀ f n, Panics (CondX.renderL cs f n)
  | [], h, _, _ => by cases h
  | c :: cs, h, f, n => by
    simp only [CondX.renderL, bind]
    cases hb : c.hasNil with
    | true =>
      cases c with
      | nil => exact ⟨.nilDeref, rfl⟩
      | group b xs br =>
        obtain ⟨p, hp⟩ := render_nil (.group b xs br) hb n
        exact ⟨p, by rw [hp]; rfl⟩
      | ptr b xs br =>
        obtain ⟨p, hp⟩ := render_nil (.ptr b xs br) hb n
        exact ⟨p, by rw [hp]; rfl⟩
      | _ => cases hb
    | false =>
      obtain ⟨d, hd⟩ := Option.isSome_iff_exists.1 ((core_isSome c).trans (by rw [hb]; rfl))
      rw [core_values c d hd, core_render c d hd, core_joinToken hd, Res.bind_ok]
      have hn := noErr_condValues d
      have hr := noErr_render d n
      cases hrr : d.render n with
      | err e => exact (hr e hrr).elim
      | panic p => exact ⟨p, by rw [Res.bind_panic]⟩
      | ok s =>
        rw [Res.bind_ok]
        cases hv : d.values with
        | err e => exact (hn e hv).elim
        | panic p => exact ⟨p, by rw [Res.bind_panic]⟩
        | ok v =>
          obtain ⟨p, hp⟩ := renderL_nil cs (by simpa [CondX.hasNilL, hb] using h) false (n + v.length)
          exact ⟨p, by rw [Res.bind_ok, hp, Res.bind_panic]⟩
end

mutual
theorem noErr_condRenderSQL (c : Cond) : c.renderSQL.NoErr := by
  cases c with
  | fieldc k b fv =>
    cases k <;> simp only [Cond.renderSQL, fieldcRenderSQL] <;>
      first | exact noErr_ok _ | exact noErr_bind (noErr_values fv) fun _ => noErr_ok _
  | null b fd => exact noErr_ok _
  | custom b x => exact noErr_ok _
  | group b cs br =>
    simp only [Cond.renderSQL]
    split
    · exact noErr_ok _
    · exact noErr_bind (noErr_condRenderSQLL cs true) fun _ => noErr_ok _
theorem noErr_condRenderSQLL (cs : List Cond) (f : Bool) : (Cond.renderSQLL cs f).NoErr := by
  cases cs with
  | nil => exact noErr_ok _
  | cons c cs =>
    simp only [Cond.renderSQLL]
    exact noErr_bind (noErr_condRenderSQL c) fun _ => noErr_bind (noErr_condRenderSQLL cs false) fun _ => noErr_ok _
end

mutual
theorem renderSQL_nil : (c : CondX) → c.hasNil = true → Panics c.renderSQL
  | .nil, _ => ⟨_, rfl⟩
  | .fieldc _ _ _, h => by cases h
  | .null _ _, h => by cases h
  | .custom _ _, h => by cases h
  | .group b cs br, h => by
    obtain ⟨p, hp⟩ := renderSQLL_nil cs h true
    have : cs.length ≠ 0 := by intro e; rw [List.length_eq_zero_iff.1 e] at h; cases h
    exact ⟨p, by rw [CondX.renderSQL, if_neg this, hp, Res.bind_panic]⟩
  | .ptr b cs br, h => by
    obtain ⟨p, hp⟩ := renderSQLL_nil cs h true
    have : cs.length ≠ 0 := by intro e; rw [List.length_eq_zero_iff.1 e] at h; cases h
    exact ⟨p, by rw [CondX.renderSQL, if_neg this, hp, Res.bind_panic]⟩
theorem renderSQLL_nil : (cs : List CondX) → CondX.hasNilL cs = true → ∀ f, Panics (CondX.renderSQLL cs f)
  | [], h, _ => by cases h
  | c :: cs, h, f => by
    simp only [CondX.renderSQLL, bind]
    cases hb : c.hasNil with
    | true =>
      cases c with
      | nil => exact ⟨.nilDeref, rfl⟩
      | group b xs br =>
        obtain ⟨p, hp⟩ := renderSQL_nil (.group b xs br) hb
        exact ⟨p, by rw [hp]; rfl⟩
      | ptr b xs br =>
        obtain ⟨p, hp⟩ := renderSQL_nil (.ptr b xs br) hb
        exact ⟨p, by rw [hp]; rfl⟩
      | _ => cases hb
    | false =>
      obtain ⟨d, hd⟩ := Option.isSome_iff_exists.1 ((core_isSome c).trans (by rw [hb]; rfl))
      rw [core_renderSQL c d hd, core_joinToken hd, Res.bind_ok]
      have hr := noErr_condRenderSQL d
      cases hrr : d.renderSQL with
      | err e => exact (hr e hrr).elim
      | panic p => exact ⟨p, by rw [Res.bind_panic]⟩
      | ok s =>
        rw [Res.bind_ok]
        obtain ⟨p, hp⟩ := renderSQLL_nil cs (by simpa [CondX.hasNilL, hb] using h) false
        exact ⟨p, by rw [hp, Res.bind_panic]⟩
end

end Query
