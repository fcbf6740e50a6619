import Verif.Spec.Retable
import Verif.Proof.Program
/-! # Conditions over other fields: lemmas -/
namespace Query

mutual
/-- The fields of a condition replaced. -/
def Cond.refd (F : FieldDef → FieldDef) : Cond → Cond
  | .fieldc k b fv => .fieldc k b ⟨F fv.fd, fv.value⟩
  | .null b fd => .null b (F fd)
  | .custom b x => .custom b { x with fd := F x.fd }
  | .group b cs br => .group b (Cond.refdL F cs) br
/-- The same for every condition of a list. -/
def Cond.refdL (F : FieldDef → FieldDef) : List Cond → List Cond
  | [] => []
  | c :: cs => c.refd F :: Cond.refdL F cs
end

/-- The fields in a group replaced. -/
def Group.refd (F : FieldDef → FieldDef) (g : Group) : Group := ⟨g.base, g.conds.map (Cond.refd F), g.brackets⟩

namespace Retable

variable (F : FieldDef → FieldDef)

/-! ## Conditions -/

theorem refdL_map (cs : List Cond) : Cond.refdL F cs = cs.map (Cond.refd F) := by
  induction cs with
  | nil => rfl
  | cons c cs ih => simp only [Cond.refdL, List.map_cons, ih]

theorem refd_toCond (g : Group) : (g.refd F).toCond = g.toCond.refd F := by
  simp only [Group.toCond, Group.refd, Cond.refd, refdL_map]

theorem refd_asGroup (c : Cond) : (c.refd F).asGroup = c.asGroup.map (Group.refd F) := by
  cases c <;> simp [Cond.refd, Cond.asGroup, refdL_map, Group.refd]

theorem refd_joinType (c : Cond) : (c.refd F).joinType = c.joinType := by
  cases c <;> rfl

theorem refd_join (c : Cond) (j : Str) : (c.refd F).join j = (c.join j).refd F := by
  cases c <;> rfl

theorem refd_setNegate (c : Cond) (n : Bool) : (c.refd F).setNegate n = (c.setNegate n).refd F := by
  cases c <;> rfl

/-! ## Groups -/

theorem refd_newGroup (j : Str) (cs : List Cond) : newGroup j (cs.map (Cond.refd F)) = (newGroup j cs).refd F := by
  simp [newGroup, setToAll, Group.refd, Function.comp_def, refd_join]

theorem refd_hasAll (g : Group) (j : Str) : (g.refd F).hasAll j = g.hasAll j := by
  simp only [Group.hasAll, Group.refd, ← List.map_drop, List.all_map, Function.comp_def, refd_joinType]

theorem refd_hasOne (g : Group) (j : Str) : (g.refd F).hasOne j = g.hasOne j := by
  simp only [Group.hasOne, Group.refd, ← List.map_drop, List.any_map, Function.comp_def, refd_joinType]

theorem refd_withBrackets (g : Group) : (g.refd F).withBrackets = g.withBrackets.refd F := rfl

theorem refd_length (g : Group) : (g.refd F).conds.length = g.conds.length := by simp [Group.refd]

theorem refd_base (g : Group) : (g.refd F).base = g.base := rfl

theorem refd_conds (g : Group) : (g.refd F).conds = g.conds.map (Cond.refd F) := rfl

theorem refd_if {P : Prop} [Decidable P] (a b : Group) : (if P then a else b).refd F = if P then a.refd F else b.refd F := by
  by_cases h : P
  · rw [if_pos h, if_pos h]
  · rw [if_neg h, if_neg h]

theorem refd_addGroup (g a : Group) : (g.refd F).addGroup (a.refd F) = (g.addGroup a).refd F := by
  unfold Group.addGroup
  simp only [refd_hasAll, refd_hasOne, refd_length, refd_base, refd_if, refd_withBrackets, refd_toCond, refd_join, refd_conds, List.length_map]
  simp only [Group.refd, List.map_append, List.map_cons, List.map_nil]

theorem refd_addSingle (g : Group) (c : Cond) : (g.refd F).addSingleCondition (c.refd F) = (g.addSingleCondition c).refd F := by
  unfold Group.addSingleCondition
  rw [refd_asGroup]
  cases h : c.asGroup with
  | some a => simp only [Option.map_some, refd_addGroup]
  | none =>
    simp only [Option.map_none, refd_hasAll, refd_length, refd_base, refd_if, refd_withBrackets, refd_toCond, refd_join, refd_conds,
      refd_joinType, List.length_map]
    simp only [Group.refd, List.map_append, List.map_cons, List.map_nil]

theorem refd_addConditions (g : Group) (op : Str) (cs : List Cond) :
    (g.refd F).addConditions op (cs.map (Cond.refd F)) = (g.addConditions op cs).refd F := by
  cases cs with
  | nil => rfl
  | cons c0 more =>
    unfold Group.addConditions
    simp only [List.map_cons, refd_hasOne, refd_length, refd_base, refd_if, refd_withBrackets, refd_toCond, refd_join, refd_conds,
      refd_addSingle, List.length_map]
    have n : ∀ j, newGroup j (c0.refd F :: more.map (Cond.refd F)) = (newGroup j (c0 :: more)).refd F := fun j =>
      refd_newGroup F j (c0 :: more)
    simp only [n, refd_withBrackets, refd_toCond, refd_join]
    simp only [Group.refd, List.map_append, List.map_cons, List.map_nil]

theorem refd_andC (c : Cond) (more : List Cond) : andC (c.refd F) (more.map (Cond.refd F)) = (andC c more).refd F := by
  unfold andC
  rw [List.length_map, refd_asGroup]
  by_cases h : more.length = 0
  · rw [if_pos h, if_pos h, refd_join]
  · rw [if_neg h, if_neg h]
    cases c.asGroup with
    | some g => simp only [Option.map_some, Group.groupAND, refd_addConditions, refd_toCond]
    | none =>
      have n := refd_newGroup F lAND [c]
      simp only [List.map_cons, List.map_nil] at n
      simp only [Option.map_none, Group.groupAND, n, refd_addConditions, refd_toCond]

theorem refd_orC (c : Cond) (more : List Cond) : orC (c.refd F) (more.map (Cond.refd F)) = (orC c more).refd F := by
  unfold orC
  rw [List.length_map, refd_asGroup]
  by_cases h : more.length = 0
  · rw [if_pos h, if_pos h, refd_join]
  · rw [if_neg h, if_neg h]
    cases c.asGroup with
    | some g => simp only [Option.map_some, Group.groupOR, refd_addConditions, refd_toCond, refd_join]
    | none =>
      have n := refd_newGroup F lOR [c]
      simp only [List.map_cons, List.map_nil] at n
      simp only [Option.map_none, Group.groupOR, n, refd_addConditions, refd_toCond, refd_join]

theorem refd_and (c : Cond) (more : List Cond) : (c.refd F).and (more.map (Cond.refd F)) = (c.and more).refd F := by
  have n := refd_newGroup F lAND [c]
  simp only [List.map_cons, List.map_nil] at n
  have a := refd_andC F c more
  cases c with
  | fieldc k b fv =>
    simp only [Cond.refd] at n a ⊢
    cases k <;> simp only [Cond.and, Group.groupAND, n, refd_addConditions, refd_toCond, a]
  | null b fd =>
    show ((newGroup lAND [(Cond.null b fd).refd F]).addConditions lAND _).toCond =
      (((newGroup lAND [Cond.null b fd]).addConditions lAND more).toCond).refd F
    rw [n, refd_addConditions, refd_toCond]
  | custom b x =>
    simp only [Cond.refd] at a ⊢
    simp only [Cond.and, a]
  | group b cs br =>
    have := refd_addConditions F ⟨b, cs, br⟩ lAND more
    simp only [Cond.refd, refdL_map, Cond.and, Group.groupAND]
    exact (congrArg Group.toCond this).trans (refd_toCond F _)

theorem refd_or (c : Cond) (more : List Cond) :
    (c.refd F).or (more.map (Cond.refd F)) = (c.or more).bind fun d => .ok (d.refd F) := by
  have n := refd_newGroup F lOR [c]
  simp only [List.map_cons, List.map_nil] at n
  have a := refd_orC F c more
  cases c with
  | fieldc k b fv =>
    simp only [Cond.refd] at n a ⊢
    cases k <;> simp only [Cond.or, Group.groupOR, n, refd_addConditions, refd_toCond, a, Res.bind_ok]
  | null b fd => rfl
  | custom b x =>
    simp only [Cond.refd] at a ⊢
    simp only [Cond.or, a, Res.bind_ok]
  | group b cs br =>
    have := refd_addConditions F ⟨b, cs, br⟩ lOR more
    simp only [Cond.refd, refdL_map, Cond.or, Group.groupOR, Res.bind_ok]
    exact congrArg Res.ok ((congrArg Group.toCond this).trans (refd_toCond F _))

/-! ## Apply calls -/

mutual
theorem applyTable_refd (t : Str) : (c : Cond) → c.applyFieldTable t = c.refd fun fd => ⟨fd.fieldName, t, fd.alias⟩
  | .fieldc _ _ _ => rfl
  | .null _ _ => rfl
  | .custom _ _ => rfl
  | .group b cs br => by simp only [Cond.applyFieldTable, Cond.refd, applyTableL_refd t cs]
theorem applyTableL_refd (t : Str) : (cs : List Cond) → Cond.applyFieldTableL cs t = Cond.refdL (fun fd => ⟨fd.fieldName, t, fd.alias⟩) cs
  | [] => rfl
  | c :: cs => by simp only [Cond.applyFieldTableL, Cond.refdL, applyTable_refd t c, applyTableL_refd t cs]
end

mutual
theorem applySpec_refd (spec : FieldDef) : (c : Cond) → c.applyFieldSpec spec = c.refd fun fd => applySpecFD fd spec
  | .fieldc k b fv => by
    simp only [Cond.applyFieldSpec, FieldValue.applyFieldSpec, Cond.refd, applySpecFD]
    by_cases h : fv.fd.fieldName = spec.fieldName
    · simp [h]
    · simp [h]
  | .null _ _ => rfl
  | .custom _ _ => rfl
  | .group b cs br => by simp only [Cond.applyFieldSpec, Cond.refd, applySpecL_refd spec cs]
theorem applySpecL_refd (spec : FieldDef) : (cs : List Cond) → Cond.applyFieldSpecL cs spec = Cond.refdL (fun fd => applySpecFD fd spec) cs
  | [] => rfl
  | c :: cs => by simp only [Cond.applyFieldSpecL, Cond.refdL, applySpec_refd spec c, applySpecL_refd spec cs]
end

/-! ## Expressions -/

/-- `F` is `f` on fields. -/
def Fits (F : FieldDef → FieldDef) (f : ColRef → ColRef) : Prop := ∀ c : ColRef, c.OK → (f c).OK ∧ F c.fd = (f c).fd

theorem fits_table {t : Str} (h : Ident t) : Fits (fun fd => ⟨fd.fieldName, t, fd.alias⟩) (ColRef.inTable t) := by
  intro c hc
  refine ⟨⟨hc.name, fun s hs => ?_⟩, rfl⟩
  cases hs; exact h

theorem fits_spec {d : ColRef} (h : d.OK) : Fits (fun fd => applySpecFD fd d.fd) d.spec := by
  intro c hc
  unfold ColRef.spec applySpecFD
  show _ ∧ (if c.fd.fieldName = d.fd.fieldName then d.fd else c.fd) = _
  by_cases e : c.name = d.name
  · rw [if_pos e, if_pos (show c.fd.fieldName = d.fd.fieldName from e)]
    exact ⟨h, rfl⟩
  · rw [if_neg e, if_neg (show ¬ c.fd.fieldName = d.fd.fieldName from e)]
    exact ⟨hc, rfl⟩

theorem test_recol {F : FieldDef → FieldDef} {f : ColRef → ColRef} (hF : Fits F f) (t : Test) (h : t.OK) :
    (t.recol f).OK ∧ (t.recol f).call = t.call.bind fun c => .ok (c.refd F) := by
  cases t with
  | cmp o c v w =>
    obtain ⟨a, b⟩ := hF c h.1
    refine ⟨⟨a, h.2⟩, ?_⟩
    cases o <;> simp only [Test.recol, Test.call, equalTo, greaterThan, greaterOrEqual, less, lessOrEqual, mkField_col h.1, mkField_col a,
      Res.bind_ok, Cond.refd, b]
  | isIn c v ws =>
    obtain ⟨a, b⟩ := hF c h.1
    refine ⟨⟨a, h.2⟩, ?_⟩
    simp only [Test.recol, Test.call, inC, mkField_col h.1, mkField_col a, Res.bind_ok, Cond.refd, b]
  | has c s =>
    obtain ⟨a, b⟩ := hF c h
    refine ⟨a, ?_⟩
    simp only [Test.recol, Test.call, contains, mkField_col (show c.OK from h), mkField_col a, Res.bind_ok, Cond.refd, b]
  | ihas c s =>
    obtain ⟨a, b⟩ := hF c h
    refine ⟨a, ?_⟩
    simp only [Test.recol, Test.call, iContains, mkField_col (show c.OK from h), mkField_col a, Res.bind_ok, Cond.refd, b]
  | null c =>
    obtain ⟨a, b⟩ := hF c h
    refine ⟨a, ?_⟩
    simp only [Test.recol, Test.call, isNull, field_col (show c.OK from h), field_col a, Res.bind_ok, Cond.refd, b]

theorem refd_bracketed (c : Cond) : (match (c.refd F).asGroup with
    | some g => g.withBrackets.toCond
    | none => c.refd F) = (match c.asGroup with
    | some g => g.withBrackets.toCond
    | none => c).refd F := by
  rw [refd_asGroup]
  cases c.asGroup with
  | none => rfl
  | some g => simp only [Option.map_some, refd_withBrackets, refd_toCond]

theorem newGroupI_some (j : Str) (cs : List Cond) : newGroupI j (cs.map some) = .ok (newGroup j cs) := by
  have : setToAllI j (cs.map some) = .ok (cs.map (·.join j)) := by
    unfold setToAllI
    induction cs with
    | nil => rfl
    | cons c cs ih => simp only [List.map_cons, Res.mapL, joinOneI, Res.bind_ok, ih]
  rw [newGroupI, this]; rfl

theorem refd_joinAll (j : Str) (cs : List Cond) : Query.joinAll j ((cs.map (Cond.refd F)).map some) =
    (Query.joinAll j (cs.map some)).bind fun c => .ok (c.refd F) := by
  match cs with
  | [] => rfl
  | [c] => simp only [List.map_cons, List.map_nil, Query.joinAll, joinOneI, Res.bind_ok, refd_join]
  | c :: d :: cs =>
    have h : ∀ (l : List Cond), l.length ≥ 2 → Query.joinAll j (l.map some) = .ok (newGroup j l).toCond := by
      intro l hl
      match l, hl with
      | a :: b :: l, _ =>
        have := newGroupI_some j (a :: b :: l)
        simp only [List.map_cons] at this ⊢
        simp only [Query.joinAll, this, Res.bind_ok]
    rw [h _ (by simp), h _ (by simp), refd_newGroup, Res.bind_ok, refd_toCond]

mutual
theorem recol_call {F : FieldDef → FieldDef} {f : ColRef → ColRef} (hF : Fits F f) : (e : CondExp) → e.OK →
    (e.recol f).OK ∧ (e.recol f).call = e.call.bind fun c => .ok (c.refd F)
  | .test t, h => test_recol hF t h
  | .not e, h => by
    obtain ⟨a, b⟩ := recol_call hF e h
    refine ⟨a, ?_⟩
    simp only [CondExp.recol, CondExp.call, b]
    cases e.call <;> simp only [Res.bind_ok, Res.bind_err, Res.bind_panic, notC, refd_setNegate]
  | .unnot e, h => by
    obtain ⟨a, b⟩ := recol_call hF e h
    refine ⟨a, ?_⟩
    simp only [CondExp.recol, CondExp.call, b]
    cases e.call <;> simp only [Res.bind_ok, Res.bind_err, Res.bind_panic, refd_setNegate]
  | .fn o e es, h => by
    obtain ⟨a, b⟩ := recol_call hF e h.1
    obtain ⟨a', b'⟩ := recolL_call hF es h.2
    refine ⟨⟨a, a'⟩, ?_⟩
    simp only [CondExp.recol, CondExp.call, b, b']
    cases e.call <;> cases CondExp.callL es <;> simp only [Res.bind_ok, Res.bind_err, Res.bind_panic]
    cases o <;> simp [refd_andC, refd_orC]
  | .method o e es, h => by
    obtain ⟨a, b⟩ := recol_call hF e h.1
    obtain ⟨a', b'⟩ := recolL_call hF es h.2
    refine ⟨⟨a, a'⟩, ?_⟩
    simp only [CondExp.recol, CondExp.call, b, b']
    cases e.call <;> cases CondExp.callL es <;> simp only [Res.bind_ok, Res.bind_err, Res.bind_panic]
    cases o <;> simp [refd_and, refd_or]
  | .group o es, h => by
    obtain ⟨a', b'⟩ := recolL_call hF es h.2
    refine ⟨⟨?_, a'⟩, ?_⟩
    · cases es with
      | nil => exact absurd rfl h.1
      | cons _ _ => simp [CondExp.recolL]
    · simp only [CondExp.recol, CondExp.call, b']
      cases CondExp.callL es <;> simp only [Res.bind_ok, Res.bind_err, Res.bind_panic, refd_newGroup, refd_toCond]
  | .joinAll o es, h => by
    obtain ⟨a', b'⟩ := recolL_call hF es h.2
    refine ⟨⟨?_, a'⟩, ?_⟩
    · cases es with
      | nil => exact absurd rfl h.1
      | cons _ _ => simp [CondExp.recolL]
    · simp only [CondExp.recol, CondExp.call, b']
      cases CondExp.callL es <;> simp only [Res.bind_ok, Res.bind_err, Res.bind_panic, refd_joinAll]
  | .join o e, h => by
    obtain ⟨a, b⟩ := recol_call hF e h
    refine ⟨a, ?_⟩
    simp only [CondExp.recol, CondExp.call, b]
    cases e.call <;> simp only [Res.bind_ok, Res.bind_err, Res.bind_panic, refd_join]
  | .brackets e, h => by
    obtain ⟨a, b⟩ := recol_call hF e h
    refine ⟨a, ?_⟩
    simp only [CondExp.recol, CondExp.call, b]
    cases e.call with
    | ok c => simp only [Res.bind_ok]; exact congrArg Res.ok (refd_bracketed F c)
    | err _ => rfl
    | panic _ => rfl
theorem recolL_call {F : FieldDef → FieldDef} {f : ColRef → ColRef} (hF : Fits F f) : (es : List CondExp) → CondExp.OKL es →
    CondExp.OKL (CondExp.recolL f es) ∧ CondExp.callL (CondExp.recolL f es) = (CondExp.callL es).bind fun cs => .ok (cs.map (Cond.refd F))
  | [], _ => ⟨trivial, rfl⟩
  | e :: es, h => by
    obtain ⟨a, b⟩ := recol_call hF e h.1
    obtain ⟨a', b'⟩ := recolL_call hF es h.2
    refine ⟨⟨a, a'⟩, ?_⟩
    simp only [CondExp.recolL, CondExp.callL, b, b']
    cases e.call <;> cases CondExp.callL es <;> simp only [Res.bind_ok, Res.bind_err, Res.bind_panic, List.map_cons]
end

mutual
theorem plain_call : (a : ApExp) → a.OK → a.plain.OK ∧ a.call = a.plain.call
  | .test t, h => ⟨h, rfl⟩
  | .not e, h => by
    obtain ⟨a, b⟩ := plain_call e h
    exact ⟨a, by simp only [ApExp.call, ApExp.plain, CondExp.call, b]⟩
  | .unnot e, h => by
    obtain ⟨a, b⟩ := plain_call e h
    exact ⟨a, by simp only [ApExp.call, ApExp.plain, CondExp.call, b]⟩
  | .fn o e es, h => by
    obtain ⟨a, b⟩ := plain_call e h.1
    obtain ⟨a', b'⟩ := plainL_call es h.2
    exact ⟨⟨a, a'⟩, by simp only [ApExp.call, ApExp.plain, CondExp.call, b, b']⟩
  | .method o e es, h => by
    obtain ⟨a, b⟩ := plain_call e h.1
    obtain ⟨a', b'⟩ := plainL_call es h.2
    exact ⟨⟨a, a'⟩, by simp only [ApExp.call, ApExp.plain, CondExp.call, b, b']⟩
  | .group o es, h => by
    obtain ⟨a', b'⟩ := plainL_call es h.2
    refine ⟨⟨?_, a'⟩, by simp only [ApExp.call, ApExp.plain, CondExp.call, b']⟩
    cases es with
    | nil => exact absurd rfl h.1
    | cons _ _ => simp [ApExp.plainL]
  | .joinAll o es, h => by
    obtain ⟨a', b'⟩ := plainL_call es h.2
    refine ⟨⟨?_, a'⟩, by simp only [ApExp.call, ApExp.plain, CondExp.call, b']⟩
    cases es with
    | nil => exact absurd rfl h.1
    | cons _ _ => simp [ApExp.plainL]
  | .join o e, h => by
    obtain ⟨a, b⟩ := plain_call e h
    exact ⟨a, by simp only [ApExp.call, ApExp.plain, CondExp.call, b]⟩
  | .brackets e, h => by
    obtain ⟨a, b⟩ := plain_call e h
    refine ⟨a, ?_⟩
    simp only [ApExp.call, ApExp.plain, CondExp.call, b]
    rfl
  | .table t e, h => by
    obtain ⟨a, b⟩ := plain_call e h.2
    obtain ⟨a', b'⟩ := recol_call (fits_table h.1) e.plain a
    exact ⟨a', by simp only [ApExp.call, ApExp.plain, b', b, applyTable_refd]⟩
  | .spec d e, h => by
    obtain ⟨a, b⟩ := plain_call e h.2
    obtain ⟨a', b'⟩ := recol_call (fits_spec h.1) e.plain a
    exact ⟨a', by simp only [ApExp.call, ApExp.plain, b', b, applySpec_refd, field_col h.1, Res.bind_ok]⟩
theorem plainL_call : (as : List ApExp) → ApExp.OKL as → CondExp.OKL (ApExp.plainL as) ∧ ApExp.callL as = CondExp.callL (ApExp.plainL as)
  | [], _ => ⟨trivial, rfl⟩
  | e :: es, h => by
    obtain ⟨a, b⟩ := plain_call e h.1
    obtain ⟨a', b'⟩ := plainL_call es h.2
    exact ⟨⟨a, a'⟩, by simp only [ApExp.callL, ApExp.plainL, CondExp.callL, b, b']⟩
end

/-! ## What is said -/

/-- `f` keeps columns over identifiers. -/
def Keeps (f : ColRef → ColRef) : Prop := ∀ c : ColRef, c.OK → (f c).OK

theorem keeps_table {t : Str} (h : Ident t) : Keeps (ColRef.inTable t) := fun c hc => (fits_table h c hc).1

theorem keeps_spec {d : ColRef} (h : d.OK) : Keeps d.spec := fun c hc => (fits_spec h c hc).1

theorem test_says_recol {f : ColRef → ColRef} (row : Row) (t : Test) (h : t.OK) : (t.recol f).says row = t.says (row.recol f) := by
  cases t with
  | cmp o c v w => simp only [Test.recol, Test.says, Row.recol, colRef_text h.1]
  | isIn c v ws => simp only [Test.recol, Test.says, Row.recol, colRef_text h.1]
  | has c s => simp only [Test.recol, Test.says, Row.recol, colRef_text (show c.OK from h)]
  | ihas c s => simp only [Test.recol, Test.says, Row.recol, colRef_text (show c.OK from h)]
  | null c => simp only [Test.recol, Test.says, Row.recol, colRef_text (show c.OK from h)]

theorem test_kind_recol (f : ColRef → ColRef) (t : Test) : (t.recol f).kind = t.kind := by cases t <;> rfl

mutual
theorem means_recol (f : ColRef → ColRef) (row : Row) : (e : CondExp) → e.OK → (e.recol f).means row = e.means (row.recol f)
  | .test t, h => test_says_recol row t h
  | .not e, h => by simp only [CondExp.recol, CondExp.means, means_recol f row e h]
  | .unnot e, h => by simp only [CondExp.recol, CondExp.means, means_recol f row e h]
  | .fn o e es, h => by simp only [CondExp.recol, CondExp.means, means_recol f row e h.1, meansL_recol f row es h.2]
  | .method o e es, h => by simp only [CondExp.recol, CondExp.means, means_recol f row e h.1, meansL_recol f row es h.2]
  | .group o es, h => by simp only [CondExp.recol, CondExp.means, meansL_recol f row es h.2]
  | .joinAll o es, h => by simp only [CondExp.recol, CondExp.means, meansL_recol f row es h.2]
  | .join o e, h => by simp only [CondExp.recol, CondExp.means, means_recol f row e h]
  | .brackets e, h => by simp only [CondExp.recol, CondExp.means, means_recol f row e h]
theorem meansL_recol (f : ColRef → ColRef) (row : Row) : (es : List CondExp) → CondExp.OKL es →
    CondExp.meansL row (CondExp.recolL f es) = CondExp.meansL (row.recol f) es
  | [], _ => rfl
  | e :: es, h => by simp only [CondExp.recolL, CondExp.meansL, means_recol f row e h.1, meansL_recol f row es h.2]
end

mutual
theorem made_recol (f : ColRef → ColRef) (row : Row) : (e : CondExp) → e.OK → (e.recol f).made row = e.made (row.recol f)
  | .test t, h => by simp only [CondExp.recol, CondExp.made, test_says_recol row t h, test_kind_recol]
  | .not e, h => by simp only [CondExp.recol, CondExp.made, made_recol f row e h]
  | .unnot e, h => by simp only [CondExp.recol, CondExp.made, made_recol f row e h]
  | .fn o e es, h => by simp only [CondExp.recol, CondExp.made, made_recol f row e h.1, madeL_recol f row es h.2]
  | .method o e es, h => by simp only [CondExp.recol, CondExp.made, made_recol f row e h.1, madeL_recol f row es h.2]
  | .group o es, h => by simp only [CondExp.recol, CondExp.made, madeL_recol f row es h.2]
  | .joinAll o es, h => by simp only [CondExp.recol, CondExp.made, madeL_recol f row es h.2]
  | .join o e, h => by simp only [CondExp.recol, CondExp.made, made_recol f row e h]
  | .brackets e, h => by simp only [CondExp.recol, CondExp.made, made_recol f row e h]
theorem madeL_recol (f : ColRef → ColRef) (row : Row) : (es : List CondExp) → CondExp.OKL es →
    CondExp.madeL row (CondExp.recolL f es) = CondExp.madeL (row.recol f) es
  | [], _ => rfl
  | e :: es, h => by simp only [CondExp.recolL, CondExp.madeL, made_recol f row e h.1, madeL_recol f row es h.2]
end

mutual
theorem plain_means : (a : ApExp) → a.OK → ∀ row, a.plain.means row = a.means row
  | .test t, _, _ => rfl
  | .not e, h, row => by simp only [ApExp.plain, ApExp.means, CondExp.means, plain_means e h]
  | .unnot e, h, row => by simp only [ApExp.plain, ApExp.means, CondExp.means, plain_means e h]
  | .fn o e es, h, row => by simp only [ApExp.plain, ApExp.means, CondExp.means, plain_means e h.1, plainL_means es h.2]
  | .method o e es, h, row => by simp only [ApExp.plain, ApExp.means, CondExp.means, plain_means e h.1, plainL_means es h.2]
  | .group o es, h, row => by simp only [ApExp.plain, ApExp.means, CondExp.means, plainL_means es h.2]
  | .joinAll o es, h, row => by simp only [ApExp.plain, ApExp.means, CondExp.means, plainL_means es h.2]
  | .join o e, h, row => by simp only [ApExp.plain, ApExp.means, CondExp.means, plain_means e h]
  | .brackets e, h, row => by simp only [ApExp.plain, ApExp.means, CondExp.means, plain_means e h]
  | .table t e, h, row => by simp only [ApExp.plain, ApExp.means, means_recol _ row _ (plain_call e h.2).1, plain_means e h.2]
  | .spec d e, h, row => by simp only [ApExp.plain, ApExp.means, means_recol _ row _ (plain_call e h.2).1, plain_means e h.2]
theorem plainL_means : (as : List ApExp) → ApExp.OKL as → ∀ row, CondExp.meansL row (ApExp.plainL as) = ApExp.meansL row as
  | [], _, _ => rfl
  | e :: es, h, row => by simp only [ApExp.plainL, ApExp.meansL, CondExp.meansL, plain_means e h.1, plainL_means es h.2]
end

end Retable
end Query
