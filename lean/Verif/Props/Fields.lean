import Verif.Spec.Like
import Verif.Spec.Fields
import Verif.Props.Ident
import Verif.Model.Select
/-!
# C30, C31, C33: fields of conditions, LIKE patterns, aliases
-/
namespace Query

/-! ## C30 -/

/-- A function that changes fields and nothing else. -/
structure ChangesFields (F : Cond → Cond) (f : FieldDef → FieldDef) (c : Cond) : Prop where
  fields : (F c).leafFields = c.leafFields.map f
  rest : (F c).blank = c.blank
  values : (F c).values = c.values
  joinType : (F c).joinType = c.joinType
  negate : (F c).isNegate = c.isNegate

mutual
theorem applyTable_changes (t : Str) (c : Cond) :
    ChangesFields (·.applyFieldTable t) (fun fd => ⟨fd.fieldName, t, fd.alias⟩) c := by
  cases c with
  | fieldc k b fv =>
    refine ⟨rfl, rfl, ?_, rfl, rfl⟩
    simp only [Cond.applyFieldTable, Cond.values]
    cases k <;> rfl
  | null b fd => exact ⟨rfl, rfl, rfl, rfl, rfl⟩
  | custom b x => exact ⟨rfl, rfl, rfl, rfl, rfl⟩
  | group b cs br =>
    obtain ⟨h1, h2, h3⟩ := applyTable_changesL t cs
    exact ⟨h1, by simp only [Cond.applyFieldTable, Cond.blank, h2], h3, rfl, rfl⟩
theorem applyTable_changesL (t : Str) (cs : List Cond) :
    Cond.leafFieldsL (Cond.applyFieldTableL cs t) = (Cond.leafFieldsL cs).map (fun fd => ⟨fd.fieldName, t, fd.alias⟩) ∧
    Cond.blankL (Cond.applyFieldTableL cs t) = Cond.blankL cs ∧
    Cond.valuesL (Cond.applyFieldTableL cs t) = Cond.valuesL cs := by
  cases cs with
  | nil => exact ⟨rfl, rfl, rfl⟩
  | cons c cs =>
    have hc := applyTable_changes t c
    obtain ⟨h1, h2, h3⟩ := applyTable_changesL t cs
    exact ⟨by simp only [Cond.applyFieldTableL, Cond.leafFieldsL, h1, hc.fields, List.map_append],
      by simp only [Cond.applyFieldTableL, Cond.blankL, h2, hc.rest],
      by simp only [Cond.applyFieldTableL, Cond.valuesL, h3, hc.values]⟩
end

mutual
theorem applySpec_changes (spec : FieldDef) (c : Cond) :
    ChangesFields (·.applyFieldSpec spec) (fun fd => if fd.fieldName = spec.fieldName then spec else fd) c := by
  cases c with
  | fieldc k b fv =>
    obtain ⟨fd, v⟩ := fv
    by_cases h : fd.fieldName = spec.fieldName
    · refine ⟨by simp [Cond.applyFieldSpec, FieldValue.applyFieldSpec, Cond.leafFields, h],
        by simp [Cond.applyFieldSpec, FieldValue.applyFieldSpec, Cond.blank, h], ?_, rfl, rfl⟩
      simp only [Cond.applyFieldSpec, FieldValue.applyFieldSpec, Cond.values, h, if_true]
      cases k <;> rfl
    · refine ⟨by simp [Cond.applyFieldSpec, FieldValue.applyFieldSpec, Cond.leafFields, h],
        by simp [Cond.applyFieldSpec, FieldValue.applyFieldSpec, Cond.blank, h],
        by simp [Cond.applyFieldSpec, FieldValue.applyFieldSpec, h], rfl, rfl⟩
  | null b fd => exact ⟨rfl, rfl, rfl, rfl, rfl⟩
  | custom b x => exact ⟨rfl, rfl, rfl, rfl, rfl⟩
  | group b cs br =>
    obtain ⟨h1, h2, h3⟩ := applySpec_changesL spec cs
    exact ⟨h1, by simp only [Cond.applyFieldSpec, Cond.blank, h2], h3, rfl, rfl⟩
theorem applySpec_changesL (spec : FieldDef) (cs : List Cond) :
    Cond.leafFieldsL (Cond.applyFieldSpecL cs spec) =
      (Cond.leafFieldsL cs).map (fun fd => if fd.fieldName = spec.fieldName then spec else fd) ∧
    Cond.blankL (Cond.applyFieldSpecL cs spec) = Cond.blankL cs ∧
    Cond.valuesL (Cond.applyFieldSpecL cs spec) = Cond.valuesL cs := by
  cases cs with
  | nil => exact ⟨rfl, rfl, rfl⟩
  | cons c cs =>
    have hc := applySpec_changes spec c
    obtain ⟨h1, h2, h3⟩ := applySpec_changesL spec cs
    exact ⟨by simp only [Cond.applyFieldSpecL, Cond.leafFieldsL, h1, hc.fields, List.map_append],
      by simp only [Cond.applyFieldSpecL, Cond.blankL, h2, hc.rest],
      by simp only [Cond.applyFieldSpecL, Cond.valuesL, h3, hc.values]⟩
end

/-- C30: `ApplyFieldTable` sets the table of every field and changes nothing else. -/
theorem C30_table (t : Str) (c : Cond) :
    ChangesFields (·.applyFieldTable t) (fun fd => ⟨fd.fieldName, t, fd.alias⟩) c := applyTable_changes t c

/-- C30: `ApplyFieldSpec` replaces exactly the fields named like the given one and changes nothing else. -/
theorem C30_spec (spec : FieldDef) (c : Cond) :
    ChangesFields (·.applyFieldSpec spec) (fun fd => if fd.fieldName = spec.fieldName then spec else fd) c :=
  applySpec_changes spec c

mutual
theorem table_twice (s t : Str) (c : Cond) : (c.applyFieldTable s).applyFieldTable t = c.applyFieldTable t := by
  cases c with
  | fieldc k b fv => rfl
  | null b fd => rfl
  | custom b x => rfl
  | group b cs br => simp only [Cond.applyFieldTable, table_twiceL s t cs]
theorem table_twiceL (s t : Str) (cs : List Cond) :
    Cond.applyFieldTableL (Cond.applyFieldTableL cs s) t = Cond.applyFieldTableL cs t := by
  cases cs with
  | nil => rfl
  | cons c cs => simp only [Cond.applyFieldTableL, table_twice s t c, table_twiceL s t cs]
end

mutual
theorem spec_twice (s : FieldDef) (c : Cond) : (c.applyFieldSpec s).applyFieldSpec s = c.applyFieldSpec s := by
  cases c with
  | fieldc k b fv =>
    simp only [Cond.applyFieldSpec, FieldValue.applyFieldSpec]
    by_cases h : fv.fd.fieldName = s.fieldName <;> simp [h]
  | null b fd =>
    simp only [Cond.applyFieldSpec, applySpecFD]
    by_cases h : fd.fieldName = s.fieldName <;> simp [h]
  | custom b x =>
    simp only [Cond.applyFieldSpec, applySpecFD]
    by_cases h : x.fd.fieldName = s.fieldName <;> simp [h]
  | group b cs br => simp only [Cond.applyFieldSpec, spec_twiceL s cs]
theorem spec_twiceL (s : FieldDef) (cs : List Cond) :
    Cond.applyFieldSpecL (Cond.applyFieldSpecL cs s) s = Cond.applyFieldSpecL cs s := by
  cases cs with
  | nil => rfl
  | cons c cs => simp only [Cond.applyFieldSpecL, spec_twice s c, spec_twiceL s cs]
end

/-- C30: applying a table or a field specification twice is applying it once; of two tables the last counts. -/
theorem C30_idempotent (s t : Str) (spec : FieldDef) (c : Cond) :
    (c.applyFieldSpec spec).applyFieldSpec spec = c.applyFieldSpec spec ∧
    (c.applyFieldTable s).applyFieldTable t = c.applyFieldTable t := ⟨spec_twice spec c, table_twice s t c⟩

/-- A nested condition on two fields, one of them re-specified. -/
example :
    let c : Cond := .group ⟨c!"AND", true⟩
      [.null ⟨c!"AND", false⟩ ⟨c!"id", [], []⟩,
       .group ⟨c!"OR", false⟩ [.fieldc .gt ⟨c!"AND", true⟩ ⟨⟨c!"age", c!"u", []⟩, .other 3⟩] true] false
    (c.applyFieldSpec ⟨c!"age", c!"people", []⟩).leafFields = [⟨c!"id", [], []⟩, ⟨c!"age", c!"people", []⟩] ∧
    (c.applyFieldTable c!"t").leafFields = [⟨c!"id", c!"t", []⟩, ⟨c!"age", c!"t", []⟩] := ⟨rfl, rfl⟩

/-! ## C31 -/

theorem like_lits (v p s : Str) (hv : ∀ c ∈ v, ¬ isWild c) : Like (v ++ p) s ↔ ∃ t, s = v ++ t ∧ Like p t := by
  induction v generalizing s with
  | nil => simp
  | cons c v ih =>
    have hc := hv c (by simp)
    have ih := fun s => ih s (fun d hd => hv d (by simp [hd]))
    constructor
    · intro h
      rw [List.cons_append] at h
      generalize hp : c :: (v ++ p) = pat at h
      cases h with
      | nil => simp at hp
      | any h => simp at hp; exact absurd (.inl hp.1) hc
      | one h => simp at hp; exact absurd (.inr (.inl hp.1)) hc
      | esc h => simp at hp; exact absurd (.inr (.inr hp.1)) hc
      | lit h1 h2 =>
        simp at hp
        obtain ⟨rfl, rfl⟩ := hp
        obtain ⟨t, rfl, ht⟩ := (ih _).mp h2
        exact ⟨t, rfl, ht⟩
    · rintro ⟨t, rfl, ht⟩
      exact .lit hc ((ih _).mpr ⟨t, rfl, ht⟩)

theorem like_any (p s : Str) : Like ('%' :: p) s ↔ ∃ a b, s = a ++ b ∧ Like p b := by
  constructor
  · intro h
    cases h with
    | @any _ a b h => exact ⟨a, b, rfl, h⟩
    | lit h1 h2 => exact absurd (.inl rfl) h1
  · rintro ⟨a, b, rfl, h⟩
    exact .any h

theorem like_pattern (v s : Str) (hv : ∀ c ∈ v, ¬ isWild c) :
    Like (c!"%" ++ v ++ c!"%") s ↔ ∃ a b, s = a ++ v ++ b := by
  rw [List.append_assoc]
  simp only [List.cons_append, List.nil_append]
  rw [like_any]
  constructor
  · rintro ⟨a, b, rfl, h⟩
    obtain ⟨t, rfl, ht⟩ := (like_lits v _ b hv).mp h
    exact ⟨a, t, by simp⟩
  · rintro ⟨a, b, rfl⟩
    refine ⟨a, v ++ b, by simp, (like_lits v _ _ hv).mpr ⟨b, rfl, ?_⟩⟩
    have := Like.any (s := b) (p := []) (t := []) .nil
    simpa using this

theorem like_texts (fd : FieldDef) (v : Val) : ∃ f, ∀ k,
    (Cond.fieldc .like (newBase lAND false) ⟨fd, v⟩).render k = .ok (f ++ c!" LIKE $" ++ itoa (k + 1)) ∧
    (Cond.fieldc .ilike (newBase lAND false) ⟨fd, v⟩).render k = .ok (f ++ c!" ILIKE $" ++ itoa (k + 1)) :=
  ⟨fd.renderSpec, fun k => by
    simp [Cond.render, fieldcRender, renderLike, newBase, cmpSym, joinWith]⟩

/-- C31, for values without `%`, `_` and `\`: the pattern `Contains` binds matches exactly the texts that contain the
value, and the one `IContains` binds exactly those that contain it up to case.  The texts say that the field is compared
with LIKE by the first and with ILIKE by the second. -/
theorem C31_contains_partial (fn v : Str) (hv : ∀ c ∈ v, ¬ isWild c) (c d : Cond) (hc : contains fn v = .ok c)
    (hd : iContains fn v = .ok d) :
    ∃ p, c.values = .ok [.str p] ∧ d.values = .ok [.str p] ∧
      (∃ f, ∀ k, c.render k = .ok (f ++ c!" LIKE $" ++ itoa (k + 1)) ∧ d.render k = .ok (f ++ c!" ILIKE $" ++ itoa (k + 1))) ∧
      (∀ s, Like p s ↔ ∃ a b, s = a ++ v ++ b) ∧
      (∀ fold, IsFold fold → ∀ s, ILike fold p s ↔ ∃ a b, s.map fold = a ++ v.map fold ++ b) := by
  simp only [contains, iContains, mkField, newFieldValue] at hc hd
  cases hf : field fn with
  | err e => simp [hf] at hc
  | panic p => simp [hf] at hc
  | ok fd =>
    simp [hf] at hc hd
    subst hc hd
    refine ⟨c!"%" ++ v ++ c!"%", rfl, rfl, like_texts fd _, fun s => like_pattern v s hv, ?_⟩
    intro fold hfold s
    unfold ILike
    have hp : (c!"%" ++ v ++ c!"%").map fold = c!"%" ++ v.map fold ++ c!"%" := by
      simp [(hfold '%').1 (.inl rfl)]
    rw [hp]
    refine like_pattern _ _ ?_
    intro c hc
    obtain ⟨x, hx, rfl⟩ := List.mem_map.mp hc
    intro hw
    exact hv x hx (((hfold x).2 hw) ▸ hw)

theorem like_no_miss (v a b : Str) (hv : '\\' ∉ v) : Like (c!"%" ++ v ++ c!"%") (a ++ v ++ b) := by
  have h : ∀ v : Str, '\\' ∉ v → Like (v ++ c!"%") (v ++ b) := by
    intro v
    induction v with
    | nil =>
      intro _
      have := Like.any (s := b) (p := []) (t := []) .nil
      simpa using this
    | cons c v ih =>
      intro hv
      simp only [List.mem_cons, not_or] at hv
      have ih := ih hv.2
      by_cases h1 : c = '%'
      · subst h1
        have := Like.any (s := ['%']) ih
        simpa using this
      · by_cases h2 : c = '_'
        · subst h2; exact .one ih
        · exact .lit (fun h => h.elim h1 (fun h => h.elim h2 (fun h => hv.1 h.symm))) ih
  have := Like.any (s := a) (h v hv)
  simpa using this

/-- For values without `\` nothing that contains the value is missed (the pattern may match too much). -/
theorem C31_no_miss (fn v : Str) (hv : '\\' ∉ v) (c : Cond) (hc : contains fn v = .ok c ∨ iContains fn v = .ok c) :
    ∃ p, c.values = .ok [.str p] ∧ ∀ a b, Like p (a ++ v ++ b) := by
  refine ⟨c!"%" ++ v ++ c!"%", ?_, fun a b => like_no_miss v a b hv⟩
  cases hf : field fn <;> rcases hc with hc | hc <;> simp [contains, iContains, mkField, newFieldValue, hf] at hc <;>
    subst hc <;> rfl

example : ∃ c, contains c!"name" c!"50%" = .ok c := ⟨_, rfl⟩

/-- C31 fails for values with wildcards: a value with `%` or `_` matches texts that do not contain it, and one that ends
with `\` misses itself. -/
theorem C31_contains_false :
    (∃ c p, contains c!"f" c!"a%b" = .ok c ∧ c.values = .ok [.str p] ∧
      Like p c!"axb" ∧ ¬ ∃ a b, c!"axb" = a ++ c!"a%b" ++ b) ∧
    (∃ c p, contains c!"f" c!"_" = .ok c ∧ c.values = .ok [.str p] ∧ Like p c!"x" ∧ ¬ ∃ a b, c!"x" = a ++ c!"_" ++ b) ∧
    (∃ c p, contains c!"f" c!"\\" = .ok c ∧ c.values = .ok [.str p] ∧ ¬ Like p c!"\\") := by
  refine ⟨⟨_, _, rfl, rfl, ?_, ?_⟩, ⟨_, _, rfl, rfl, ?_, ?_⟩, ⟨_, _, rfl, rfl, ?_⟩⟩
  · exact .any (s := []) (.lit (by simp [isWild]) (.any (s := c!"x") (.lit (by simp [isWild]) (.any (s := []) .nil))))
  · rintro ⟨a, b, h⟩
    have : '%' ∈ c!"axb" := by rw [h]; simp
    simp at this
  · exact .any (s := []) (.one (.any (s := []) .nil))
  · rintro ⟨a, b, h⟩
    have : '_' ∈ c!"x" := by rw [h]; simp
    simp at this
  · intro h
    obtain ⟨a, b, hab, h⟩ := (like_any _ _).mp h
    cases h with
    | esc h =>
      have : '%' ∈ c!"\\" := by rw [hab]; simp
      simp at this
    | lit h1 h2 => exact h1 (.inr (.inr rfl))

example : (∀ c ∈ c!"ann", ¬ isWild c) ∧ Like c!"%ann%" c!"joanna" := by
  refine ⟨by simp [isWild], ?_⟩
  exact (like_pattern c!"ann" c!"joanna" (by simp [isWild])).mpr ⟨c!"jo", c!"a", rfl⟩

/-! ## C33 -/

/-- The column as SQL names it. -/
def FieldDef.column (fd : FieldDef) : Str :=
  if fd.tableName = [] then fd.fieldName else fd.tableName ++ c!"." ++ fd.fieldName

/-- What the text of a condition on one field looks like: possibly `NOT `, the named column, then operator and
placeholders, which are the same for all fields. -/
def ColumnText (text : FieldDef → Nat → Res Str) (name : FieldDef → Str) : Prop :=
  ∃ (pre : Str) (post : Nat → Res Str), pre ∈ [[], c!"NOT "] ∧
    ∀ fd n, text fd n = (post n).bind fun p => .ok (pre ++ name fd ++ p)

theorem cmp_columnText (k : Kind) (j : Str) (neg : Bool) (v : Val)
    (h1 : ∀ b fv n, fieldcRender k b fv n = .ok (renderCmp k b fv.fd n))
    (h2 : ∀ b fv, fieldcRenderSQL k b fv = .ok (renderCmpSQL k b fv.fd)) :
    ColumnText (fun fd n => (Cond.fieldc k ⟨j, neg⟩ ⟨fd, v⟩).render n) FieldDef.renderSpec ∧
    ColumnText (fun fd _ => (Cond.fieldc k ⟨j, neg⟩ ⟨fd, v⟩).renderSQL) FieldDef.renderSpec := by
  constructor
  · refine ⟨if neg then c!"NOT " else [], fun n => .ok (cmpSym k ++ c!"$" ++ itoa (n + 1)), by cases neg <;> simp, ?_⟩
    intro fd n
    cases neg <;> simp [Cond.render, h1, renderCmp, joinWith, CondBase.renderNegate]
  · refine ⟨if neg then c!"NOT " else [], fun n => .ok (cmpSym k ++ c!"?"), by cases neg <;> simp, ?_⟩
    intro fd n
    cases neg <;> simp [Cond.renderSQL, h2, renderCmpSQL, joinWith, CondBase.renderNegate]

theorem leaf_columnText (k : Kind) (b : CondBase) (v : Val) :
    ColumnText (fun fd n => (Cond.fieldc k b ⟨fd, v⟩).render n) FieldDef.renderSpec ∧
    ColumnText (fun fd _ => (Cond.fieldc k b ⟨fd, v⟩).renderSQL) FieldDef.renderSpec := by
  obtain ⟨j, neg⟩ := b
  have hv : ∀ fd, (⟨fd, v⟩ : FieldValue).values = (⟨zeroFD, v⟩ : FieldValue).values := fun fd => rfl
  cases k
  case inn =>
    constructor
    · refine ⟨[], fun n => (⟨zeroFD, v⟩ : FieldValue).values.bind fun vs => .ok ((if neg then c!" NOT IN " else c!" IN ") ++
        (c!"(" ++ joinWith c!"," (inPlaceholders n vs.length) ++ c!")")), by simp, ?_⟩
      intro fd n
      simp only [Cond.render, fieldcRender, hv fd]
      cases (⟨zeroFD, v⟩ : FieldValue).values <;> cases neg <;>
        simp [renderIn, joinWith, cmpSym, CondBase.renderNegate]
    · refine ⟨[], fun n => (⟨zeroFD, v⟩ : FieldValue).values.bind fun vs => .ok ((if neg then c!" NOT IN " else c!" IN ") ++
        (c!"(" ++ joinWith c!"," (List.replicate vs.length c!"?") ++ c!")")), by simp, ?_⟩
      intro fd n
      simp only [Cond.renderSQL, fieldcRenderSQL, hv fd]
      cases (⟨zeroFD, v⟩ : FieldValue).values <;> cases neg <;>
        simp [renderInSQL, joinWith, cmpSym, CondBase.renderNegate]
  case like =>
    constructor
    · refine ⟨[], fun n => .ok ((if neg then c!" NOT LIKE $" else c!" LIKE $") ++ itoa (n + 1)), by simp, ?_⟩
      intro fd n
      cases neg <;> simp [Cond.render, fieldcRender, renderLike, joinWith, cmpSym, CondBase.renderNegate]
    · refine ⟨[], fun n => .ok (if neg then c!" NOT LIKE ?" else c!" LIKE ?"), by simp, ?_⟩
      intro fd n
      cases neg <;> simp [Cond.renderSQL, fieldcRenderSQL, renderLikeSQL, joinWith, cmpSym, CondBase.renderNegate]
  case ilike =>
    constructor
    · refine ⟨[], fun n => .ok ((if neg then c!" NOT ILIKE $" else c!" ILIKE $") ++ itoa (n + 1)), by simp, ?_⟩
      intro fd n
      cases neg <;> simp [Cond.render, fieldcRender, renderLike, joinWith, cmpSym, CondBase.renderNegate]
    · refine ⟨[], fun n => .ok (if neg then c!" NOT ILIKE ?" else c!" ILIKE ?"), by simp, ?_⟩
      intro fd n
      cases neg <;> simp [Cond.renderSQL, fieldcRenderSQL, renderLikeSQL, joinWith, cmpSym, CondBase.renderNegate]
  all_goals exact cmp_columnText _ _ _ _ (fun _ _ _ => rfl) (fun _ _ => rfl)

theorem null_columnText (b : CondBase) :
    ColumnText (fun fd n => (Cond.null b fd).render n) FieldDef.renderSpec ∧
    ColumnText (fun fd _ => (Cond.null b fd).renderSQL) FieldDef.renderSpec := by
  obtain ⟨j, neg⟩ := b
  constructor <;>
  · refine ⟨[], fun n => .ok (if neg then c!" IS NOT NULL" else c!" IS NULL"), by simp, ?_⟩
    intro fd n
    cases neg <;> simp [Cond.render, Cond.renderSQL, renderNull, joinWith]

/-- The text of a condition on one field, in both dialects. -/
inductive LeafText : (FieldDef → Nat → Res Str) → Prop
  | fieldc (k b v) : LeafText fun fd n => (Cond.fieldc k b ⟨fd, v⟩).render n
  | fieldcSQL (k b v) : LeafText fun fd _ => (Cond.fieldc k b ⟨fd, v⟩).renderSQL
  | null (b) : LeafText fun fd n => (Cond.null b fd).render n
  | nullSQL (b) : LeafText fun fd _ => (Cond.null b fd).renderSQL

theorem leafText_columnText {T : FieldDef → Nat → Res Str} (h : LeafText T) : ColumnText T FieldDef.renderSpec := by
  cases h with
  | fieldc k b v => exact (leaf_columnText k b v).1
  | fieldcSQL k b v => exact (leaf_columnText k b v).2
  | null b => exact (null_columnText b).1
  | nullSQL b => exact (null_columnText b).2

theorem renderSpec_column (fd : FieldDef) :
    fd.renderSpec = fd.column ++
      (if fd.alias ≠ [] ∧ (fd.alias ≠ fd.fieldName ∨ fd.tableName ≠ []) then c!" AS " ++ fd.alias else []) := by
  rw [renderSpec_shape, FieldDef.column]
  by_cases h : fd.tableName = [] <;> simp [h]

/-- C33, for fields without an alias: the text of every condition on one field is possibly `NOT `, the column with its
table if set, then a part that does not depend on the field. -/
theorem C33_column_partial (T : FieldDef → Nat → Res Str) (h : LeafText T) :
    ∃ (pre : Str) (post : Nat → Res Str), pre ∈ [[], c!"NOT "] ∧
      ∀ fd : FieldDef, fd.alias = [] → ∀ n, T fd n = (post n).bind fun p => .ok (pre ++ fd.column ++ p) := by
  obtain ⟨pre, post, h1, h2⟩ := leafText_columnText h
  refine ⟨pre, post, h1, fun fd ha n => ?_⟩
  rw [h2, renderSpec_column]
  simp [ha]

/-- C33 fails for every field with an alias (other than its own bare name): the text of every condition on it, in both
dialects, has an AS clause after the column. -/
theorem C33_alias_false (T : FieldDef → Nat → Res Str) (h : LeafText T) (fd : FieldDef) (ha : fd.alias ≠ [])
    (hn : fd.alias ≠ fd.fieldName ∨ fd.tableName ≠ []) (n : Nat) (s : Str) (hs : T fd n = .ok s) :
    ∃ pre post, s = pre ++ fd.column ++ c!" AS " ++ fd.alias ++ post := by
  obtain ⟨pre, post, h1, h2⟩ := leafText_columnText h
  rw [h2, renderSpec_column, if_pos ⟨ha, hn⟩] at hs
  obtain ⟨p, _, hp⟩ := Res.bind_eq_ok.mp hs
  simp at hp
  exact ⟨pre, p, by rw [← hp]; simp⟩

/-- The field's own bare name as alias is dropped, so it does no harm. -/
theorem C33_own_name (fd : FieldDef) (ha : fd.alias = fd.fieldName) (ht : fd.tableName = []) :
    fd.renderSpec = fd.column := by
  rw [renderSpec_column, if_neg (by simp [ha, ht]), List.append_nil]

example : (Cond.fieldc .eq ⟨c!"AND", false⟩ ⟨⟨c!"id", c!"u", c!"uid"⟩, .other 1⟩).render 0 = .ok c!"u.id AS uid=$1" := rfl
example : (Cond.fieldc .inn ⟨c!"AND", true⟩ ⟨⟨c!"id", c!"u", []⟩, .strs [c!"a", c!"b"]⟩).render 3 =
    .ok c!"u.id NOT IN ($4,$5)" := rfl

end Query
