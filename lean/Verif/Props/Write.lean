import Verif.Proof.NoErr
import Verif.Props.Numbering
/-!
# C15–C17: UPDATE, DELETE, INSERT
-/
namespace Query

/-! ## C15 -/

/-- A call on an update builder. -/
inductive UpdateCall where
  | set (vs : List FieldValue)
  | addWhere (cs : List Cond)

/-- The builder after a list of calls. -/
def runUpdate (q : UpdateB) : List UpdateCall → UpdateB
  | [] => q
  | .set vs :: rest => runUpdate (q.set vs) rest
  | .addWhere cs :: rest => runUpdate (q.addWhere cs) rest

/-- The conditions a list of calls passes. -/
def UpdateCall.conds : List UpdateCall → List Cond
  | [] => []
  | .set _ :: rest => UpdateCall.conds rest
  | .addWhere cs :: rest => cs ++ UpdateCall.conds rest

theorem runUpdate_conds (q : UpdateB) (ops : List UpdateCall) :
    (runUpdate q ops).where_.conds = [] ↔ q.where_.conds = [] ∧ UpdateCall.conds ops = [] := by
  induction ops generalizing q with
  | nil => simp [runUpdate, UpdateCall.conds]
  | cons op ops ih =>
    cases op with
    | set vs => simp [runUpdate, UpdateCall.conds, ih, UpdateB.set]
    | addWhere cs =>
      simp only [runUpdate, UpdateCall.conds, ih, UpdateB.addWhere, Group.groupAND, List.append_eq_nil_iff]
      constructor
      · rintro ⟨h1, h2⟩
        have := mt (addConditions_ne q.where_ lAND cs) (by simp [h1])
        simp only [not_or, Classical.not_not] at this
        exact ⟨this.1, this.2, h2⟩
      · rintro ⟨h1, h2, h3⟩
        subst h2
        exact ⟨h1, h3⟩

/-- **C15**, UPDATE: whatever the calls, a fresh update builder to which no condition was passed never builds a statement,
and one to which some condition was passed is not refused for lack of conditions. -/
theorem C15_update_needs_condition (p : TableParam) (ops : List UpdateCall) :
    (runUpdate (update p) ops).build = .err .noConditions ↔ UpdateCall.conds ops = [] := by
  have h : (update p).where_.conds = [] := rfl
  have hi := runUpdate_conds (update p) ops
  simp only [h, true_and] at hi
  rw [← hi]
  unfold UpdateB.build
  by_cases hz : (runUpdate (update p) ops).where_.conds.length = 0
  · rw [if_pos hz]
    simpa using hz
  · rw [if_neg hz]
    constructor
    · intro hb
      split at hb
      · simp at hb
      split at hb
      · simp at hb
      exact absurd hb ((noErr_bind (noErr_bind (noErr_updateLoop _ _) fun _ => noErr_ok _) fun _ =>
        noErr_bind (noErr_render _ _) fun _ => noErr_bind (noErr_condValues _) fun _ => noErr_ok _) _)
    · intro he
      simp [he] at hz

example : (runUpdate (update (.str c!"t")) [.set [⟨⟨c!"f", [], []⟩, .other 7⟩], .addWhere [], .addWhere []]).build =
    .err .noConditions := rfl

/-- The delete builder after a list of `Where` calls. -/
def runDelete (q : DeleteB) : List (List Cond) → DeleteB
  | [] => q
  | cs :: rest => runDelete (q.addWhere cs) rest

theorem runDelete_conds (q : DeleteB) (ops : List (List Cond)) :
    (runDelete q ops).where_.conds = [] ↔ q.where_.conds = [] ∧ ops.flatten = [] := by
  induction ops generalizing q with
  | nil => simp [runDelete]
  | cons cs ops ih =>
    simp only [runDelete, ih, DeleteB.addWhere, Group.groupAND, List.flatten_cons, List.append_eq_nil_iff]
    constructor
    · rintro ⟨h1, h2⟩
      have := mt (addConditions_ne q.where_ lAND cs) (by simp [h1])
      simp only [not_or, Classical.not_not] at this
      exact ⟨this.1, this.2, h2⟩
    · rintro ⟨h1, h2, h3⟩
      subst h2
      exact ⟨h1, h3⟩

/-- **C15**, DELETE. -/
theorem C15_delete_needs_condition (p : TableParam) (ops : List (List Cond)) :
    (runDelete (delete p) ops).build = .err .noConditions ↔ ops.flatten = [] := by
  have hi := runDelete_conds (delete p) ops
  simp only [show (delete p).where_.conds = [] from rfl, true_and] at hi
  rw [← hi]
  unfold DeleteB.build
  by_cases hz : (runDelete (delete p) ops).where_.conds.length = 0
  · rw [if_pos hz]
    simpa using hz
  · rw [if_neg hz]
    constructor
    · intro hb
      split at hb
      · simp at hb
      exact absurd hb ((noErr_bind (noErr_render _ _) fun _ => noErr_bind (noErr_condValues _) fun _ => noErr_ok _) _)
    · intro he
      simp [he] at hz

example : (runDelete (delete (.str c!"t")) [[], []]).build = .err .noConditions := rfl

/-- **C15**, builders derived from a select: without conditions in the select they never build a statement. -/
theorem C15_derived_needs_condition (b : BaseSelect) (s : SelectSingle) (m : SelectMany) (vs : List FieldValue) :
    (b.where_.conditions = [] → (b.update vs).build = .err .noConditions ∧ b.delete.build = .err .noConditions) ∧
    (s.base.where_.conditions = [] → (s.update vs).build = .err .noConditions ∧ s.delete.build = .err .noConditions) ∧
    (m.base.where_.conditions = [] → (m.update vs).build = .err .noConditions ∧ m.delete.build = .err .noConditions) := by
  refine ⟨fun h => ?_, fun h => ?_, fun h => ?_⟩ <;>
    simp [BaseSelect.update, BaseSelect.delete, SelectSingle.update, SelectSingle.delete, SelectMany.update,
      SelectMany.delete, h, UpdateB.build, DeleteB.build, UpdateB.addWhere, UpdateB.set, DeleteB.addWhere,
      Group.groupAND, Group.addConditions, Query.update, Query.delete, newGroup, setToAll]

/-- **C15, what holds of the SQL**: when a delete or update builder returns SQL, that SQL ends in ` WHERE ` and the text
of the builder's condition, and this text is not empty when no group in it is empty.

Missing for the full claim: with an empty group the text after WHERE is empty, see `C15_empty_group_false`. -/
theorem C15_sql_has_where_partial (d : DeleteB) (u : UpdateB) :
    (∀ sql params, d.build = .ok (sql, params) → ∃ w, d.where_.render 0 = .ok w ∧
      sql = c!"DELETE FROM " ++ d.tableName ++ c!" WHERE " ++ w ∧ (d.where_.toCond.Every NonEmptyNode → w ≠ [])) ∧
    (∀ sql params, u.build = .ok (sql, params) → ∃ w setText n, u.where_.render n = .ok w ∧
      sql = c!"UPDATE " ++ u.tableName ++ c!" SET " ++ setText ++ c!" WHERE " ++ w ∧
      (u.where_.toCond.Every NonEmptyNode → w ≠ [])) := by
  constructor
  · intro sql params h
    unfold DeleteB.build at h
    split at h
    · simp at h
    split at h
    · simp at h
    simp only [Res.bind_eq_ok, Res.ok.injEq, Prod.mk.injEq] at h
    obtain ⟨w, hr, vs, hv, hs, hp⟩ := h
    refine ⟨w, hr, ?_, ?_⟩
    · rw [← hs]; simp [joinWith, kwDelete, kwFrom, kwWhere]
    · intro hne
      have := Cond.render_pure _ _ hv 0
      simp only [Group.render] at hr
      rw [hr] at this
      simp only [Res.ok.injEq] at this
      rw [this]
      exact renderP_ne _ 0 hne
  · intro sql params h
    unfold UpdateB.build at h
    split at h
    · simp at h
    split at h
    · simp at h
    split at h
    · simp at h
    simp only [Res.bind_eq_ok, Res.ok.injEq, Prod.mk.injEq] at h
    obtain ⟨r, hf, w, hr, vs, hv, hs, hp⟩ := h
    refine ⟨w, r.1, r.2.length, hr, ?_, ?_⟩
    · rw [← hs]; simp [joinWith, kwUpdate, kwSet, kwWhere]
    · intro hne
      have := Cond.render_pure _ _ hv r.2.length
      simp only [Group.render] at hr
      rw [hr] at this
      simp only [Res.ok.injEq] at this
      rw [this]
      exact renderP_ne _ _ hne

example : exampleUpdate.where_.toCond.Every NonEmptyNode := by
  simp [exampleUpdate, Group.toCond, exampleCond, Cond.Every, Cond.EveryL, NonEmptyNode]

/-- **C15 is false** with an empty group: `Delete("t").Where(NewGroup(LogicalAND))` returns SQL without a condition. -/
theorem C15_empty_group_false :
    ((delete (.str c!"t")).addWhere [(newGroup lAND []).toCond]).build = .ok (c!"DELETE FROM t WHERE ", []) := by
  rfl

/-! ## C16 -/

/-- **C16**, INSERT errs exactly without values or without a table name. -/
theorem C16_insert_errors (q : InsertB) :
    (∃ e, q.build = .err e) ↔ q.setValues = [] ∨ q.tableName = [] := by
  unfold InsertB.build
  by_cases h1 : q.setValues.length = 0
  · rw [if_pos h1]; simp [List.length_eq_zero_iff.mp h1]
  rw [if_neg h1]
  by_cases h2 : q.tableName.length = 0
  · rw [if_pos h2]; simp [List.length_eq_zero_iff.mp h2]
  rw [if_neg h2]
  constructor
  · rintro ⟨e, he⟩
    exact absurd he (noErr_bind (noErr_insertLoop _ _ _ _) (fun _ => noErr_ok _) e)
  · rintro (h | h) <;> simp [h] at h1 h2

/-- **C16**, UPDATE errs exactly without conditions, set values or a table name. -/
theorem C16_update_errors (q : UpdateB) :
    (∃ e, q.build = .err e) ↔ q.where_.conds = [] ∨ q.setValues = [] ∨ q.tableName = [] := by
  unfold UpdateB.build
  by_cases h0 : q.where_.conds.length = 0
  · rw [if_pos h0]; simp [List.length_eq_zero_iff.mp h0]
  rw [if_neg h0]
  by_cases h1 : q.setValues.length = 0
  · rw [if_pos h1]; simp [List.length_eq_zero_iff.mp h1]
  rw [if_neg h1]
  by_cases h2 : q.tableName.length = 0
  · rw [if_pos h2]; simp [List.length_eq_zero_iff.mp h2]
  rw [if_neg h2]
  constructor
  · rintro ⟨e, he⟩
    exact absurd he ((noErr_bind (noErr_bind (noErr_updateLoop _ _) fun _ => noErr_ok _) fun _ =>
        noErr_bind (noErr_render _ _) fun _ => noErr_bind (noErr_condValues _) fun _ => noErr_ok _) e)
  · rintro (h | h | h) <;> simp [h] at h0 h1 h2

/-- **C16**, DELETE errs exactly without conditions or a table name. -/
theorem C16_delete_errors (q : DeleteB) :
    (∃ e, q.build = .err e) ↔ q.where_.conds = [] ∨ q.tableName = [] := by
  unfold DeleteB.build
  by_cases h0 : q.where_.conds.length = 0
  · rw [if_pos h0]; simp [List.length_eq_zero_iff.mp h0]
  rw [if_neg h0]
  by_cases h2 : q.tableName.length = 0
  · rw [if_pos h2]; simp [List.length_eq_zero_iff.mp h2]
  rw [if_neg h2]
  constructor
  · rintro ⟨e, he⟩
    exact absurd he ((noErr_bind (noErr_render _ _) fun _ => noErr_bind (noErr_condValues _) fun _ => noErr_ok _) e)
  · rintro (h | h) <;> simp [h] at h0 h2

theorem noErr_baseBuild (q : BaseSelect) : q.build.NoErr := by
  unfold BaseSelect.build
  split
  · exact noErr_bind (noErr_render _ _) fun _ => noErr_bind (noErr_condValues _) fun _ => noErr_ok _
  · exact noErr_ok _

/-- **C16**: select and count builders never return an error. -/
theorem C16_select_no_errors (b : BaseSelect) (s : SelectSingle) (m : SelectMany) (c : CountB) (e : GoErr) :
    b.build ≠ .err e ∧ s.build ≠ .err e ∧ m.build ≠ .err e ∧ c.build ≠ .err e := by
  refine ⟨noErr_baseBuild b e, noErr_bind (noErr_baseBuild _) (fun _ => noErr_ok _) e,
    noErr_bind (noErr_baseBuild _) (fun _ => noErr_ok _) e, ?_⟩
  unfold CountB.build
  split
  · exact (noErr_bind (noErr_render _ _) fun _ => noErr_bind (noErr_condValues _) fun _ => noErr_ok _) e
  · exact noErr_ok _ e

example : (insertInto (.str c!"t")).build = .err .noInsertFields ∧
    ((insertInto (.str [])).addValues [⟨⟨c!"f", [], []⟩, .other 1⟩]).build = .err .noTable ∧
    ((update (.str c!"t")).addWhere [exampleCond]).build = .err .noSetFields := by
  refine ⟨rfl, rfl, rfl⟩

/-! ## C17 -/

/-- The where group of a builder obtained through the API: `NewWhere` (or the zero value) extended by `Where`.  These keep
negation and brackets off, see `plainWhere_api`. -/
def PlainWhere (w : WhereClause) : Prop := w.group.base.negate = false ∧ w.group.brackets = false

/-- Base selects obtainable through the API. -/
inductive BaseSelect.Api : BaseSelect → Prop
  | from (p q) : selectFrom p = .ok q → Api q
  | zero : Api zeroBaseSelect
  | fields (q fs) : Api q → Api (q.setFields fs)
  | addWhere (q cs) : Api q → Api (q.addWhere cs)
  | join (q r t) : Api q → Api (q.joinIdent r t)
  | on (q l r q') : Api q → q.on l r = .ok q' → Api q'

theorem plainWhere_api {q : BaseSelect} (h : q.Api) : PlainWhere q.where_ := by
  induction h with
  | «from» p q hq =>
    simp only [selectFrom, Res.bind_eq_ok, Res.ok.injEq] at hq
    obtain ⟨t, _, rfl⟩ := hq
    exact ⟨rfl, rfl⟩
  | zero => exact ⟨rfl, rfl⟩
  | fields q fs _ ih => exact ih
  | addWhere q cs _ ih =>
    have := addConditions_flags q.where_.group lAND cs
    exact ⟨by rw [← ih.1]; exact this.1, by rw [← ih.2]; exact this.2⟩
  | join q r t _ ih => exact ih
  | on q l r q' _ hq ih =>
    unfold BaseSelect.on at hq
    split at hq
    · simp at hq
    · simp only [Res.ok.injEq] at hq
      subst hq
      exact ih

/-- The condition of the derived builders is the select's. -/
theorem derived_where (w : WhereClause) (h : PlainWhere w) :
    ∃ j, ((newGroup lAND []).groupAND w.conditions) = { w.group with base := ⟨j, false⟩ } := by
  obtain ⟨⟨⟨j, n⟩, cs, br⟩⟩ := w
  obtain ⟨h1, h2⟩ := h
  simp only at h1 h2
  subst h1 h2
  cases cs with
  | nil => exact ⟨lAND, rfl⟩
  | cons c cs => exact ⟨lAND, rfl⟩

theorem render_joinType (g : Group) (j : Str) (n : Nat) :
    ({ g with base := { g.base with joinType := j } } : Group).render n = g.render n := by
  obtain ⟨⟨j', neg⟩, cs, br⟩ := g
  rfl

/-- **C17**, DELETE derived from any select: it has the select's table name, no joins, and its WHERE text and parameters
are exactly the select's. -/
theorem C17_delete_keeps_filter (b : BaseSelect) (hb : b.Api) (m : SelectMany) (hm : m.base = b) (s : SelectSingle)
    (hs : s.base = b) (ht : b.baseTable.name ≠ []) (hc : b.where_.conditions ≠ []) (w : Str) (vs : List Val)
    (hw : b.where_.render 0 = .ok w) (hv : b.where_.values = .ok vs) :
    b.delete.build = .ok (c!"DELETE FROM " ++ b.baseTable.name ++ c!" WHERE " ++ w, vs) ∧
    s.delete.build = .ok (c!"DELETE FROM " ++ b.baseTable.name ++ c!" WHERE " ++ w, vs) ∧
    m.delete.build = .ok (c!"DELETE FROM " ++ b.baseTable.name ++ c!" WHERE " ++ w, vs) := by
  subst hm
  obtain ⟨j, hj⟩ := derived_where _ (plainWhere_api hb)
  have hn := (plainWhere_api hb).1
  have key : ∀ d : DeleteB, d.tableName = m.base.baseTable.name →
      d.where_ = (newGroup lAND []).groupAND m.base.where_.conditions →
      d.build = .ok (c!"DELETE FROM " ++ m.base.baseTable.name ++ c!" WHERE " ++ w, vs) := by
    intro d h1 h2
    have e : d.where_ = { m.base.where_.group with base := { m.base.where_.group.base with joinType := j } } := by
      rw [h2, hj]; simp [← hn]
    have hr : d.where_.render 0 = .ok w := by rw [e, render_joinType]; exact hw
    have hvv : d.where_.values = .ok vs := by rw [e]; exact hv
    have hcc : ¬ d.where_.conds.length = 0 := by rw [e]; simpa [WhereClause.conditions] using hc
    unfold DeleteB.build
    rw [if_neg hcc, if_neg (by rw [h1]; simpa using ht), hr, hvv, h1]
    simp [joinWith, kwDelete, kwFrom, kwWhere]
  refine ⟨key _ rfl rfl, ?_, key _ rfl rfl⟩
  obtain ⟨sb⟩ := s
  simp only at hs
  subst hs
  exact key _ rfl rfl

/-- **C17**, UPDATE derived from any select: the select's table name, the given assignments, and the select's WHERE text
numbered after the set values, bound to the same values. -/
theorem C17_update_keeps_filter (b : BaseSelect) (hb : b.Api) (m : SelectMany) (hm : m.base = b) (s : SelectSingle)
    (hs : s.base = b) (sets : List FieldValue) (ht : b.baseTable.name ≠ []) (hc : b.where_.conditions ≠ [])
    (hne : sets ≠ []) (svs : List Val) (hone : sets.map FieldValue.values = svs.map fun v => .ok [v])
    (w : Str) (vs : List Val) (hw : b.where_.render svs.length = .ok w) (hv : b.where_.values = .ok vs) :
    let sql := c!"UPDATE " ++ b.baseTable.name ++ c!" SET " ++ setList (sets.map fun fv => fv.fd.fieldName) ++
      c!" WHERE " ++ w
    (b.update sets).build = .ok (sql, svs ++ vs) ∧ (s.update sets).build = .ok (sql, svs ++ vs) ∧
    (m.update sets).build = .ok (sql, svs ++ vs) := by
  subst hm
  intro sql
  obtain ⟨j, hj⟩ := derived_where _ (plainWhere_api hb)
  have hn := (plainWhere_api hb).1
  have key : ∀ u : UpdateB, u.tableName = m.base.baseTable.name → u.setValues = sets →
      u.where_ = (newGroup lAND []).groupAND m.base.where_.conditions → u.build = .ok (sql, svs ++ vs) := by
    intro u h1 hset h2
    have e : u.where_ = { m.base.where_.group with base := { m.base.where_.group.base with joinType := j } } := by
      rw [h2, hj]; simp [← hn]
    have hr : u.where_.render svs.length = .ok w := by rw [e, render_joinType]; exact hw
    have hvv : u.where_.values = .ok vs := by rw [e]; exact hv
    have hcc : u.where_.conds ≠ [] := by rw [e]; exact hc
    obtain ⟨w', hw', hb', -⟩ := C04_update_partial u svs vs hcc (by rw [hset]; exact hne) (by rw [h1]; exact ht)
      (by rw [hset]; exact hone) hvv
    rw [hr] at hw'
    simp only [Res.ok.injEq] at hw'
    subst hw'
    rw [hb', h1, hset]
  refine ⟨key _ rfl (by simp [BaseSelect.update, UpdateB.set, UpdateB.addWhere, Query.update]) rfl, ?_,
    key _ rfl (by simp [SelectMany.update, UpdateB.set, UpdateB.addWhere, Query.update]) rfl⟩
  obtain ⟨sb⟩ := s
  simp only at hs
  subst hs
  exact key _ rfl (by simp [SelectSingle.update, UpdateB.set, UpdateB.addWhere, Query.update]) rfl

example :
    let b := (BaseSelect.mk 0 ⟨c!"t", c!"x"⟩ [] ⟨[]⟩ newWhere).addWhere [exampleCond]
    b.Api ∧ b.delete.build = .ok (c!"DELETE FROM t WHERE NOT (a=$1 OR t.b IN ($2,$3) AND c IS NULL)",
      [.other 1, .str c!"x", .str c!"y"]) ∧
    (b.update exampleUpdate.setValues).build = .ok
      (c!"UPDATE t SET f=$1, g=$2 WHERE NOT (a=$3 OR t.b IN ($4,$5) AND c IS NULL)",
        [.other 7, .other 8, .other 1, .str c!"x", .str c!"y"]) := by
  refine ⟨.addWhere _ _ (.from (.ident ⟨c!"t", c!"x"⟩) _ rfl), rfl, rfl⟩

end Query
