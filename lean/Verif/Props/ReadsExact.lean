import Verif.Props.Sharp
import Verif.Props.Sources
import Verif.Proof.Known
/-!
# C22, C46, C53: where the line runs

The `_partial` theorems of these claims say when a text reads back to what its builder holds, the `_false` theorems show when it does
not.  Here both ways.
-/
namespace Query

/-- Every join column of the builder names a table. -/
def BaseSelect.JoinTables (b : BaseSelect) : Prop :=
  ∀ j ∈ b.joins, j.joinCondition.leftField.tableName ≠ [] ∧ j.joinCondition.rightField.tableName ≠ []

/-- The builder has no condition, or one whose text is an expression (see C66). -/
def BaseSelect.WhereSound (b : BaseSelect) : Prop :=
  b.where_.conditions = [] ∨ b.where_.group.toCond.Every SoundNode

/-- A builder over plain identifiers; nothing is asked of the join columns' tables and little of the conditions
(`WritableNode`: they may be empty groups, have aliased columns or empty lists). -/
structure WritableSelect (b : BaseSelect) : Prop where
  fields : ∀ fd ∈ b.fields.specs, PlainDef fd
  table : PlainTable b.baseTable
  joins : ∀ j ∈ b.joins, NamedJoin j
  cond : b.where_.group.toCond.Every WritableNode

theorem WritableSelect.named {b : BaseSelect} (h : WritableSelect b) (hs : b.WhereSound) : NamedSelect b :=
  ⟨h.fields, h.table, h.joins, hs.imp id fun hs => ((cond_sound _ 0 h.cond).2.1 hs).1⟩

theorem NamedSelect.plain {b : BaseSelect} (h : NamedSelect b) (hj : b.JoinTables) : PlainSelect b :=
  ⟨h.fields, h.table, fun j hm => ⟨(h.joins j hm).kind, (h.joins j hm).table, ⟨(h.joins j hm).left, (hj j hm).1⟩,
    ⟨(h.joins j hm).right, (hj j hm).2⟩⟩, h.cond⟩

theorem WritableSelect.builds {b : BaseSelect} (h : WritableSelect b) : ∃ sql params, b.build = .ok (sql, params) := by
  obtain ⟨vs, hv⟩ := writable_values _ h.cond
  have hr : b.where_.render 0 = .ok (b.where_.group.toCond.renderP 0) := Cond.render_pure _ vs hv 0
  have hv' : b.where_.values = .ok vs := hv
  unfold BaseSelect.build
  split
  · simp only [hr, hv', Res.bind_ok]; exact ⟨_, _, rfl⟩
  · exact ⟨_, _, rfl⟩

/-- A builder whose text is a statement has a sound condition. -/
theorem WritableSelect.sound {b : BaseSelect} (h : WritableSelect b) (fd : FieldDef) (offset : Nat) (limit : Int)
    (order : List FieldSorting) (spec : Bool) {sql : Str} {params : List Val}
    (hb : b.build = .ok (sql, params) ∨ (SelectSingle.mk b).build = .ok (sql, params) ∨
      (SelectMany.mk b offset limit order spec).build = .ok (sql, params) ∨ (CountB.mk b fd).build = .ok (sql, params))
    {st : Stmt} (hs : readStmt sql = some st) : b.WhereSound := by
  by_cases hn : b.where_.conditions = []
  · exact .inl hn
  · refine .inr (Classical.byContradiction fun hu => ?_)
    have := C66_select b fd offset limit order spec hn h.cond hu sql params hb
    rw [this] at hs
    cases hs

theorem lex_more {t : Tok} {a : Str} (b : Str) (h : t ∈ lex a) : t ∈ lex (a ++ ' ' :: b) := by
  rw [lex_space]
  exact List.mem_append_left _ h

/-- The text of every join is cut into tokens on its own, in the texts of all four builders. -/
theorem join_lex (b : BaseSelect) (fd : FieldDef) (offset : Nat) (limit : Int)
    (order : List FieldSorting) (spec : Bool) {sql : Str} {params : List Val}
    (hb : b.build = .ok (sql, params) ∨ (SelectSingle.mk b).build = .ok (sql, params) ∨
      (SelectMany.mk b offset limit order spec).build = .ok (sql, params) ∨ (CountB.mk b fd).build = .ok (sql, params))
    {j : TableJoiner} (hj : j ∈ b.joins) {t : Tok} (ht : t ∈ lex j.renderFrom) : t ∈ lex sql := by
  have hfrom : t ∈ lex b.renderFrom := by
    unfold BaseSelect.renderFrom
    rw [lex_joinSpace]
    exact List.mem_flatMap.mpr ⟨_, List.mem_cons_of_mem _ (List.mem_map_of_mem hj), ht⟩
  have hhead : t ∈ lex (joinWith c!" " b.headTokens) := by
    unfold BaseSelect.headTokens
    rw [lex_joinSpace]
    refine List.mem_flatMap.mpr ⟨_, List.mem_append_right _ (List.mem_map_of_mem hj), ht⟩
  have hbase : ∀ {sql : Str} {params : List Val}, b.build = .ok (sql, params) → t ∈ lex sql := by
    intro sql params hb
    rcases base_build_shape b sql params hb with ⟨_, hs, _⟩ | ⟨_, w, _, _, hs⟩
    · rw [hs]; exact hhead
    · rw [hs, List.append_assoc]; exact lex_more (c!"WHERE " ++ w) hhead
  rcases hb with hb | hb | hb | hb
  · exact hbase hb
  · simp only [SelectSingle.build, Res.bind_eq_ok, Res.ok.injEq, Prod.mk.injEq, Prod.exists] at hb
    obtain ⟨s0, p0, h0, rfl, _⟩ := hb
    exact lex_more c!"LIMIT 1" (hbase h0)
  · obtain ⟨s0, p0, h1, h2, _⟩ := C20_many_tail _ sql params hb
    have h3 := hbase h1
    rw [h2]
    have tail : ∀ {a z : Str}, t ∈ lex a → (z = [] ∨ ∃ c, z = ' ' :: c) → t ∈ lex (a ++ z) := by
      rintro a z ha (rfl | ⟨c, rfl⟩)
      · rwa [List.append_nil]
      · exact lex_more c ha
    refine tail (tail h3 ?_) ?_
    · split
      · exact .inl rfl
      · exact .inr ⟨_, rfl⟩
    · cases limitTexts p0.length (limitItems offset limit) with
      | nil => exact .inl rfl
      | cons x xs => exact .inr ⟨_, rfl⟩
  · have four : t ∈ lex (joinWith c!" " [operationString doSelect, kwCount ++ c!"(" ++ fd.renderField ++ c!")", kwFrom, b.renderFrom]) := by
      rw [lex_joinSpace]
      exact List.mem_flatMap.mpr ⟨b.renderFrom, by simp, hfrom⟩
    unfold CountB.build at hb
    split at hb
    · simp only [Res.bind_eq_ok, Res.ok.injEq, Prod.mk.injEq] at hb
      obtain ⟨w, _, vs, _, rfl, _⟩ := hb
      rw [lex_joinSpace]
      exact List.mem_flatMap.mpr ⟨b.renderFrom, by simp, hfrom⟩
    · simp only [Res.ok.injEq, Prod.mk.injEq] at hb
      obtain ⟨rfl, _⟩ := hb
      exact four

/-- **C22**: with a join column of word characters that names no table, the text of a builder is no statement, whatever else the
builder holds. -/
theorem C22_untabled (b : BaseSelect) (fd : FieldDef) (offset : Nat) (limit : Int) (order : List FieldSorting) (spec : Bool)
    (sql : Str) (params : List Val)
    (hb : b.build = .ok (sql, params) ∨ (SelectSingle.mk b).build = .ok (sql, params) ∨
      (SelectMany.mk b offset limit order spec).build = .ok (sql, params) ∨ (CountB.mk b fd).build = .ok (sql, params))
    (j : TableJoiner) (hj : j ∈ b.joins)
    (hl : ∀ c ∈ j.joinCondition.leftField.tableName ++ j.joinCondition.leftField.fieldName, isWordChar c = true)
    (hr : ∀ c ∈ j.joinCondition.rightField.tableName ++ j.joinCondition.rightField.fieldName, isWordChar c = true)
    (ht : j.joinCondition.leftField.tableName = [] ∨ j.joinCondition.rightField.tableName = []) : readStmt sql = none := by
  have chars : ∀ {fd : FieldDef}, (∀ c ∈ fd.tableName ++ fd.fieldName, isWordChar c = true) →
      ∀ c ∈ fd.renderTableSpec, isWordChar c = true := by
    intro fd h c hc
    simp only [FieldDef.renderTableSpec, List.mem_append, List.mem_cons, List.not_mem_nil, or_false] at hc
    rcases hc with (hc | rfl) | hc
    · exact h c (by simp [hc])
    · exact wordChar_dot
    · exact h c (by simp [hc])
  have hc : lex j.joinCondition.render = [.word j.joinCondition.leftField.renderTableSpec, .op c!"=",
      .word j.joinCondition.rightField.renderTableSpec] := by
    unfold JoinCondition.render
    rw [lex_equal (tableSpec_ne _) (chars hl) (tableSpec_ne _) (chars hr)]
  have hm : ∀ t ∈ lex j.joinCondition.render, t ∈ lex sql := by
    intro t h
    refine join_lex b fd offset limit order spec hb hj ?_
    unfold TableJoiner.renderFrom
    rw [lex_joinSpace]
    exact List.mem_flatMap.mpr ⟨j.joinCondition.render, by simp, h⟩
  cases hs : readStmt sql with
  | none => rfl
  | some st =>
    exfalso
    have known := known_stmt hs
    rw [hc] at hm
    rcases ht with ht | ht
    · exact untabled_unknown ht (known _ (hm _ (by simp)))
    · exact untabled_unknown ht (known _ (hm _ (by simp)))

/-- A builder whose text is a statement joins columns with tables. -/
theorem joins_tabled {b : BaseSelect} (h : ∀ j ∈ b.joins, NamedJoin j) (fd : FieldDef) (offset : Nat) (limit : Int)
    (order : List FieldSorting) (spec : Bool) {sql : Str} {params : List Val}
    (hb : b.build = .ok (sql, params) ∨ (SelectSingle.mk b).build = .ok (sql, params) ∨
      (SelectMany.mk b offset limit order spec).build = .ok (sql, params) ∨ (CountB.mk b fd).build = .ok (sql, params))
    {st : Stmt} (hs : readStmt sql = some st) : b.JoinTables := by
  intro j hj
  have hn := h j hj
  have key := C22_untabled b fd offset limit order spec sql params hb j hj
    (fun c hc => (List.mem_append.mp hc).elim (hn.left.table c) (hn.left.name c))
    (fun c hc => (List.mem_append.mp hc).elim (hn.right.table c) (hn.right.name c))
  rw [hs] at key
  exact ⟨(fun h0 => by cases key (.inl h0)), (fun h0 => by cases key (.inr h0))⟩

theorem WritableSelect.tables {b : BaseSelect} (h : WritableSelect b) (fd : FieldDef) (offset : Nat) (limit : Int)
    (order : List FieldSorting) (spec : Bool) {sql : Str} {params : List Val}
    (hb : b.build = .ok (sql, params) ∨ (SelectSingle.mk b).build = .ok (sql, params) ∨
      (SelectMany.mk b offset limit order spec).build = .ok (sql, params) ∨ (CountB.mk b fd).build = .ok (sql, params))
    {st : Stmt} (hs : readStmt sql = some st) : b.JoinTables ∧ b.WhereSound :=
  ⟨joins_tabled h.joins fd offset limit order spec hb hs, h.sound fd offset limit order spec hb hs⟩

theorem WritableSelect.plain {b : BaseSelect} (h : WritableSelect b) (hs : b.JoinTables ∧ b.WhereSound) : PlainSelect b :=
  (h.named hs.2).plain hs.1

/-- Both ways at once: a text that is a statement only if `S` holds, and reads back then. -/
theorem read_line {α : Type} {st : α → Stmt} {R : α → Prop} {S : Prop} {read : Option Stmt}
    (hw : S → ∃ x, read = some (st x) ∧ R x) (hs : ∀ s, read = some s → S) :
    ((∃ x, read = some (st x) ∧ R x) ↔ S) ∧ (¬ S → read = none) := by
  refine ⟨⟨fun ⟨x, h1, _⟩ => hs _ h1, hw⟩, fun hn => ?_⟩
  cases hc : read with
  | none => rfl
  | some s => exact absurd (hs s hc) hn

/-- **C22, exactly.**  The text of a base builder reads back to the field list, table, joins and WHERE expression it holds just if
every join column names a table and the condition, if there is one, is sound; otherwise it is no statement. -/
theorem C22_base_exact (b : BaseSelect) (h : WritableSelect b) :
    ∃ sql params, b.build = .ok (sql, params) ∧
      ((∃ w, readStmt sql = some (.select ⟨b.fields.refs, b.baseTable.ref, b.joins.map TableJoiner.ref, w, [], none, none⟩) ∧
        WhereRead b params w) ↔ b.JoinTables ∧ b.WhereSound) ∧
      (¬ (b.JoinTables ∧ b.WhereSound) → readStmt sql = none) := by
  obtain ⟨sql, params, hb⟩ := h.builds
  refine ⟨sql, params, hb, read_line (fun hs => ?_) fun st hs => h.tables zeroFD 0 0 [] false (.inl hb) hs⟩
  obtain ⟨sql', params', w, h1, h2, h3⟩ := base_read b (h.plain hs)
  rw [hb] at h1
  cases h1
  exact ⟨w, h2, h3⟩

/-- **C22, exactly**, single row. -/
theorem C22_single_exact (q : SelectSingle) (h : WritableSelect q.base) :
    ∃ sql params, q.build = .ok (sql, params) ∧
      ((∃ w, readStmt sql = some (.select ⟨q.base.fields.refs, q.base.baseTable.ref, q.base.joins.map TableJoiner.ref, w, [], none,
        some (.lit c!"1")⟩) ∧ WhereRead q.base params w) ↔ q.base.JoinTables ∧ q.base.WhereSound) ∧
      (¬ (q.base.JoinTables ∧ q.base.WhereSound) → readStmt sql = none) := by
  obtain ⟨sql0, params, hb0⟩ := h.builds
  have hb : q.build = .ok (sql0 ++ c!" LIMIT 1", params) := by simp [SelectSingle.build, hb0]
  generalize sql0 ++ c!" LIMIT 1" = sql at hb
  refine ⟨sql, params, hb, read_line (fun hs => ?_) fun st hs => h.tables zeroFD 0 0 [] false (.inr (.inl hb)) hs⟩
  obtain ⟨sql', params', w, h1, h2, h3⟩ := single_read q (h.plain hs)
  rw [hb] at h1
  cases h1
  exact ⟨w, h2, h3⟩

/-- **C22, exactly**, count. -/
theorem C22_count_exact (q : CountB) (h : WritableSelect q.base) (hf : CountDef q.countField) :
    ∃ sql params, q.build = .ok (sql, params) ∧
      ((∃ w, readStmt sql = some (.select ⟨[.count q.countField.key], q.base.baseTable.ref, q.base.joins.map TableJoiner.ref, w, [],
        none, none⟩) ∧ WhereRead q.base params w) ↔ q.base.JoinTables ∧ q.base.WhereSound) ∧
      (¬ (q.base.JoinTables ∧ q.base.WhereSound) → readStmt sql = none) := by
  obtain ⟨sql0, params, hb0⟩ := h.builds
  obtain ⟨tail, _, hb⟩ := C18_count_same_rows q.base q.countField sql0 params hb0
  have hb : q.build = .ok (_, params) := hb
  generalize c!"SELECT COUNT(" ++ q.countField.renderField ++ c!") FROM " ++ tail = sql at hb
  refine ⟨sql, params, hb, read_line (fun hs => ?_) fun st hs => h.tables q.countField 0 0 [] false (.inr (.inr (.inr hb))) hs⟩
  obtain ⟨sql', params', w, h1, h2, h3⟩ := count_read q (h.plain hs) hf
  rw [hb] at h1
  cases h1
  exact ⟨w, h2, h3⟩

/-- **C22, exactly**, many rows: also the sort keys, OFFSET and LIMIT. -/
theorem C22_many_exact (q : SelectMany) (h : WritableSelect q.base) (ho : ∀ o ∈ q.order, PlainKey o) :
    ∃ sql params, q.build = .ok (sql, params) ∧
      ((∃ w off lim, readStmt sql = some (.select ⟨q.base.fields.refs, q.base.baseTable.ref, q.base.joins.map TableJoiner.ref, w,
          q.order.map fun o => (o.fd.key, o.direction), off, lim⟩) ∧
        WhereRead q.base params w ∧ RowsRead params q.offset off ∧ RowsRead params q.limit.toNat lim) ↔
          q.base.JoinTables ∧ q.base.WhereSound) ∧
      (¬ (q.base.JoinTables ∧ q.base.WhereSound) → readStmt sql = none) := by
  obtain ⟨sql0, params0, hb0⟩ := h.builds
  have hb : ∃ sql params, q.build = .ok (sql, params) := by
    unfold SelectMany.build
    rw [hb0]
    exact ⟨_, _, rfl⟩
  obtain ⟨sql, params, hb⟩ := hb
  have hs : ∀ st, readStmt sql = some st → q.base.JoinTables ∧ q.base.WhereSound :=
    fun st hs => h.tables zeroFD q.offset q.limit q.order q.tableSpec (.inr (.inr (.inl hb))) hs
  refine ⟨sql, params, hb, ⟨fun ⟨w, off, lim, h1, _⟩ => hs _ h1, fun hj => ?_⟩, fun hn => ?_⟩
  · obtain ⟨sql', params', w, off, lim, h1, h2, h3⟩ := many_read q (h.plain hj) ho
    rw [hb] at h1
    cases h1
    exact ⟨w, off, lim, h2, h3⟩
  · cases hc : readStmt sql with
    | none => rfl
    | some st => exact absurd (hs st hc) hn

/-- **C46, exactly.**  The text of a DELETE with conditions over a plain table reads back to its table and its condition just if the
condition is sound; otherwise it is no statement. -/
theorem C46_exact (q : DeleteB) (ht : PlainName q.tableName) (hn : q.where_.conds ≠ []) (h : q.where_.toCond.Every WritableNode) :
    ∃ sql params, q.build = .ok (sql, params) ∧
      ((∃ e, readStmt sql = some (.delete q.tableName e) ∧ CondRead q.where_.toCond params e) ↔ q.where_.toCond.Every SoundNode) ∧
      (¬ q.where_.toCond.Every SoundNode → readStmt sql = none) := by
  obtain ⟨sql, params, hb, hs⟩ := C66_delete_exact q ht hn h
  refine ⟨sql, params, hb, ⟨fun ⟨e, h1, _⟩ => hs.mp ⟨_, h1⟩, fun hsd => ?_⟩, fun hns => ?_⟩
  · obtain ⟨sql', params', e, h1, h2, h3⟩ := C46_delete_partial q ht ((cond_sound _ 0 h).2.1 hsd).1
    rw [hb] at h1
    cases h1
    exact ⟨e, h2, h3⟩
  · cases hc : readStmt sql with
    | none => rfl
    | some st => exact absurd (hs.mp ⟨st, hc⟩) hns

/-- **C53, exactly**, for fields of tables.  A join condition between any field and a field of a table joins that table, by its name
and alias, just if the table has no alias; with an alias it joins a table of that name. -/
theorem C53_exact (t : TableIdent) (ht : t.Api) (ha : NoSpace t.alias) (l : FieldDef) (fn : Str) (fd : FieldDef)
    (hf : t.field fn = .ok fd) (kw : Str) (r : Res TableJoiner) (hm : (kw, r) ∈ joinMethods (joinFields l fd)) :
    let on : Str := c!" ON " ++ l.tableName ++ c!"." ++ l.fieldName ++ c!"=" ++ fd.tableName ++ c!"." ++ fd.fieldName
    ∃ x, r = .ok x ∧ (x.renderFrom = kw ++ c!" " ++ t.renderFrom ++ on ↔ t.alias = []) ∧
      (t.alias ≠ [] → x.renderFrom = kw ++ c!" " ++ t.alias ++ on) := by
  intro on
  obtain ⟨_, a2, a3, a4⟩ := C26_alias_differs t ht
  have htab : fd.tableName = if t.alias = [] then t.name else t.alias := by
    unfold TableIdent.field at hf
    obtain ⟨g, _, he⟩ := Res.bind_eq_ok.mp hf
    simp at he
    subst he
    show t.aliasOrName = _
    unfold TableIdent.aliasOrName
    by_cases hz : t.alias = []
    · simp [hz]
    · simp [hz, List.length_pos_iff.mpr hz]
  have hne : fd.tableName ≠ [] := by rw [htab]; split <;> assumption
  have hns : NoSpace fd.tableName := by rw [htab]; split <;> assumption
  obtain ⟨x, h1, _, _, h2⟩ := C53_join_partial (joinFields l fd) hne hns kw r hm
  have h2 : x.renderFrom = kw ++ c!" " ++ fd.tableName ++ on := by
    rw [h2]
    simp [on, joinFields]
  refine ⟨x, h1, ?_, fun hz => by rw [h2, htab, if_neg hz]⟩
  rw [h2, a4]
  simp only [List.append_assoc, List.append_cancel_left_eq]
  simp only [← List.append_assoc, List.append_cancel_right_eq]
  rw [htab]
  by_cases hz : t.alias = []
  · simp [hz]
  · simp only [hz, if_false, iff_false]
    intro he
    have := congrArg List.length he
    have e5 : (c!" AS " : Str).length = 4 := rfl
    simp only [List.length_append, e5] at this
    omega

/-- **C57, exactly**, for the alias of a field before `As` is called: it is the name, as the comment says, just if the specification
itself gives the name as alias, or is one word that names nothing after the dot. -/
theorem C57_alias_exact (s : Str) (f : FieldDef) (h : fieldOrError s = .ok f) :
    f.getAlias = f.getName ↔ (∃ w as, Words s [w, as, f.getName] ∧ IsAs as) ∨ (f.getName = [] ∧ ∃ w, Words s [w]) := by
  obtain ⟨w, ⟨h1, h2⟩ | ⟨as, h1, h2⟩, _⟩ := (C24_exact s f).mp h
  · have hn : ¬ ∃ w as, Words s [w, as, f.getName] ∧ IsAs as := by
      rintro ⟨w', as, h3, _⟩
      have e1 := (fields_iff _ _).mpr h1
      rw [(fields_iff _ _).mpr h3] at e1
      simp at e1
    have hz : f.getAlias = [] := h2
    rw [hz]
    exact ⟨fun e => .inr ⟨e.symm, w, h1⟩, fun e => (e.resolve_left hn).1.symm⟩
  · have h1 : Words s [w, as, f.getAlias] := h1
    constructor
    · intro e
      rw [e] at h1
      exact .inl ⟨w, as, h1, h2⟩
    · rintro (⟨w', as', h3, _⟩ | ⟨_, w', h3⟩)
      · have e1 := (fields_iff _ _).mpr h1
        rw [(fields_iff _ _).mpr h3] at e1
        simp only [List.cons.injEq, and_true] at e1
        exact e1.2.2.symm
      · have e1 := (fields_iff _ _).mpr h1
        rw [(fields_iff _ _).mpr h3] at e1
        simp at e1

/-! ## Examples -/

/-- Three specifications: alias as the comment says, empty, and another. -/
example : (fieldOrError c!"t.id AS id").bind (fun f => .ok (f.getName, f.getAlias)) = .ok (c!"id", c!"id") ∧
    (fieldOrError c!"t.id").bind (fun f => .ok (f.getName, f.getAlias)) = .ok (c!"id", []) ∧
    (fieldOrError c!"t.id AS k").bind (fun f => .ok (f.getName, f.getAlias)) = .ok (c!"id", c!"k") ∧
    (fieldOrError c!"t.").bind (fun f => .ok (f.getName, f.getAlias)) = .ok ([], []) := by decide


/-- A builder with a join column that names no table, and one with an empty group among its conditions. -/
def exUntabled : BaseSelect :=
  ⟨0, ⟨c!"t", []⟩, [⟨⟨c!"u", []⟩, innerJoin, ⟨⟨c!"id", c!"t", []⟩, ⟨c!"tid", [], []⟩⟩⟩], ⟨[⟨c!"id", c!"t", c!"k"⟩]⟩, newWhere⟩

theorem exUntabled_writable (cs : List Cond) (h : (exUntabled.addWhere cs).where_.group.toCond.Every WritableNode) :
    WritableSelect (exUntabled.addWhere cs) := by
  have pn : ∀ w ∈ [c!"t", c!"u", c!"id", c!"tid", c!"k"], PlainName w := by
    intro w hw
    refine ⟨?_, ?_, ?_⟩ <;> revert w <;> decide
  refine ⟨?_, .of (pn c!"t" (by simp)) (.inl rfl), ?_, h⟩
  · intro fd hfd
    simp only [exUntabled, BaseSelect.addWhere, List.mem_cons, List.not_mem_nil, or_false] at hfd
    subst hfd
    exact .of ⟨pn _ (by simp), by decide⟩ (.inr (pn _ (by simp))) (.inr ⟨pn _ (by simp), by decide⟩)
  · intro j hj
    simp only [exUntabled, BaseSelect.addWhere, List.mem_cons, List.not_mem_nil, or_false] at hj
    subst hj
    exact ⟨by decide, PlainTable.of (pn _ (by simp)) (.inl rfl), .of ⟨pn _ (by simp), by decide⟩ (.inr (pn _ (by simp))),
      .of ⟨pn _ (by simp), by decide⟩ (.inl rfl)⟩

/-- The text of the first is no statement. -/
example : WritableSelect exUntabled ∧ ¬ exUntabled.JoinTables ∧ exUntabled.WhereSound ∧
    exUntabled.build = .ok (c!"SELECT t.id AS k FROM t INNER JOIN u ON t.id=.tid", []) ∧
    readStmt c!"SELECT t.id AS k FROM t INNER JOIN u ON t.id=.tid" = none :=
  ⟨exUntabled_writable [] ⟨(fun c hc => nomatch (show c ∈ ([] : List Cond) from hc)), trivial⟩,
    fun h => (h _ (List.mem_cons_self ..)).2 rfl, .inl rfl, rfl, by decide⟩

/-- Nor is that of the second. -/
example : WritableSelect (exUntabled.addWhere [(newGroup lAND []).toCond]) ∧
    ¬ (exUntabled.addWhere [(newGroup lAND []).toCond]).WhereSound := by
  refine ⟨exUntabled_writable _ ?_, fun h => ?_⟩
  · exact ⟨(fun c hc => nomatch (show c ∈ ([] : List Cond) from hc)), ⟨(fun c hc => nomatch (show c ∈ ([] : List Cond) from hc)),
      trivial⟩, trivial⟩
  · rcases h with h | h
    · exact absurd h (by simp [exUntabled, BaseSelect.addWhere]; exact fun h => by cases h)
    · exact h.2.1.1 rfl

/-- A table with alias and one without. -/
example : ∃ t u fd ud x y, tableOrError c!"orders AS o" = .ok t ∧ tableOrError c!"orders" = .ok u ∧ t.field c!"uid" = .ok fd ∧
    u.field c!"uid" = .ok ud ∧ (joinFields ⟨c!"id", c!"users", []⟩ fd).leftJoin = .ok x ∧
    (joinFields ⟨c!"id", c!"users", []⟩ ud).leftJoin = .ok y ∧ x.renderFrom = c!"LEFT JOIN o ON users.id=o.uid" ∧
    y.renderFrom = c!"LEFT JOIN orders ON users.id=orders.uid" :=
  ⟨⟨c!"orders", c!"o"⟩, ⟨c!"orders", []⟩, ⟨c!"uid", c!"o", []⟩, ⟨c!"uid", c!"orders", []⟩,
    ⟨⟨c!"o", []⟩, 1, ⟨⟨c!"id", c!"users", []⟩, ⟨c!"uid", c!"o", []⟩⟩⟩,
    ⟨⟨c!"orders", []⟩, 1, ⟨⟨c!"id", c!"users", []⟩, ⟨c!"uid", c!"orders", []⟩⟩⟩, by decide, by decide, by decide, by decide, by rfl,
    by rfl, by rfl, by rfl⟩

end Query
