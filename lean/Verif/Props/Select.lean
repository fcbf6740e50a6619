import Verif.Proof.Words
import Verif.Proof.NoErr
import Verif.Spec.Tail
import Verif.Spec.Stmt
import Verif.Props.Numbering
/-!
# C18–C21, C23, C40, C41: SELECT builders
-/
namespace Query

/-! ## C18 -/

/-- **C18.** The COUNT query is the SELECT with the field list replaced by `COUNT(f)`: everything after the field list
(FROM, joins, WHERE) is the same text and the parameters are the same. -/
theorem C18_count_same_rows (q : BaseSelect) (fd : FieldDef) (sql : Str) (params : List Val)
    (h : q.build = .ok (sql, params)) :
    ∃ tail, sql = c!"SELECT " ++ q.fields.fieldList ++ c!" FROM " ++ tail ∧
      (CountB.mk q fd).build = .ok (c!"SELECT COUNT(" ++ fd.renderField ++ c!") FROM " ++ tail, params) := by
  have hfrom : joinWith c!" " q.headTokens = c!"SELECT " ++ q.fields.fieldList ++ c!" FROM " ++ q.renderFrom := by
    unfold BaseSelect.headTokens BaseSelect.renderFrom
    have h1 := joinWith_append_sep c!" " [operationString doSelect, q.fields.fieldList, kwFrom]
      (q.baseTable.renderFrom :: q.joins.map TableJoiner.renderFrom) (by simp) (by simp)
    simp only [List.cons_append, List.nil_append] at h1 ⊢
    rw [h1]
    simp [joinWith, operationString, doSelect, kwSelect, kwFrom]
  rcases base_build_shape q sql params h with ⟨hc, hs, hp⟩ | ⟨hc, w, hr, hv, hs⟩
  · refine ⟨q.renderFrom, by rw [hs, hfrom], ?_⟩
    unfold CountB.build
    simp only [WhereClause.conditions, hc, List.length_nil, gt_iff_lt, Nat.lt_irrefl, if_false, hp]
    simp [joinWith, operationString, doSelect, kwSelect, kwFrom, kwCount]
  · refine ⟨q.renderFrom ++ c!" WHERE " ++ w, by rw [hs, hfrom]; simp, ?_⟩
    have hl : q.where_.conditions.length > 0 := List.length_pos_iff.mpr hc
    unfold CountB.build
    simp only [WhereClause.render, WhereClause.values, hr, hv, Res.bind_ok]
    rw [if_pos hl]
    simp [joinWith, operationString, doSelect, kwSelect, kwFrom, kwCount, kwWhere]

/-- **C18**: the count does not depend on the field list, ordering, offset or limit. -/
theorem C18_count_independent (m : SelectMany) (fs : List FieldDef) (os : List FieldSorting) (off : Nat) (lim : Int)
    (arg : List Str) :
    (count (((((m.setFields fs).addOrder os).setOffset off).setLimit lim).base) arg).bind CountB.build =
      (count m.base arg).bind CountB.build := by
  unfold count
  cases arg with
  | nil => rfl
  | cons a as => simp only; cases field a <;> rfl

/-- `Count` counts `*` by default and the named field otherwise. -/
theorem C18_count_field (q : BaseSelect) (f : Str) (rest : List Str) :
    count q [] = .ok ⟨q, ⟨c!"*", [], []⟩⟩ ∧
    (∀ fd, fieldOrError f = .ok fd → count q (f :: rest) = .ok ⟨q, fd⟩) := by
  refine ⟨rfl, fun fd h => ?_⟩
  simp [count, field, h, Res.must]

example : (count exampleMany.base []).bind CountB.build = .ok (
    c!"SELECT COUNT(*) FROM t AS x LEFT JOIN u ON x.id=u.tid WHERE NOT (a=$1 OR t.b IN ($2,$3) AND c IS NULL)",
    [.other 1, .str c!"x", .str c!"y"]) := rfl

/-! ## C20 -/

/-- **C20.** A limiter prints exactly the limits in force, in the order of its values, numbered from `k + 1`. -/
theorem C20_limiter (l : Limiter) (k : Nat) :
    l.render k = joinWith c!" " (limitTexts k (limitItems l.offset l.limit)) ∧
    l.renderSQL = joinWith c!" " ((limitItems l.offset l.limit).map fun p => p.1 ++ c!" ?") ∧
    l.values = (limitItems l.offset l.limit).map fun p => .uint p.2 := by
  unfold limitItems Limiter.render Limiter.renderSQL Limiter.values
  have hl : (l.limit : Int) > 0 ↔ l.limit > 0 := by omega
  by_cases h1 : l.offset > 0 <;> by_cases h2 : l.limit > 0
  · simp [h1, h2, hl, limitTexts, joinWith]
  · have h2' : l.limit = 0 := by omega
    simp [h1, h2', limitTexts, joinWith]
  · have h1' : l.offset = 0 := by omega
    simp [h1', h2, hl, limitTexts, joinWith]
  · have h1' : l.offset = 0 := by omega
    have h2' : l.limit = 0 := by omega
    simp [h1', h2', limitTexts, joinWith]

example : limitTexts 3 (limitItems 5 10) = [c!"OFFSET $4", c!"LIMIT $5"] := by decide

theorem orderLoop_join (os : List FieldSorting) :
    orderLoop os 0 = joinWith c!", " (os.map FieldSorting.render) := by
  have h : ∀ (os : List FieldSorting) (i : Nat), os ≠ [] →
      orderLoop os (i + 1) = c!", " ++ joinWith c!", " (os.map FieldSorting.render) := by
    intro os
    induction os with
    | nil => intro i h; exact absurd rfl h
    | cons o os ih =>
      intro i _
      cases os with
      | nil => simp [orderLoop, joinWith]
      | cons o' os =>
        have := ih (i + 1) (by simp)
        simp only [orderLoop] at this ⊢
        simp only [List.map_cons, joinWith] at this ⊢
        simp_all
  cases os with
  | nil => rfl
  | cons o os =>
    cases os with
    | nil => simp [orderLoop, joinWith]
    | cons o' os =>
      have := h (o' :: os) 0 (by simp)
      simp only [orderLoop, Nat.zero_add] at this ⊢
      simp only [List.map_cons, joinWith] at this ⊢
      simp_all

/-- **C20, C19**: the text of a many-row SELECT is the base SELECT, the ORDER BY keys in order (none: no ORDER BY), and the
limits in force as a limiter with the same offset and limit prints them; the parameters are the base's and the limits. -/
theorem C20_many_tail (q : SelectMany) (sql : Str) (params : List Val) (h : q.build = .ok (sql, params)) :
    ∃ sql0 params0, q.base.build = .ok (sql0, params0) ∧
      sql = sql0 ++
        (if q.order = [] then [] else c!" ORDER BY " ++
          joinWith c!", " (q.order.map fun o => o.fd.renderField ++ c!" " ++ o.direction)) ++
        spaced (limitTexts params0.length (limitItems q.offset q.limit)) ∧
      params = params0 ++ (limitItems q.offset q.limit).map fun p => .uint p.2 := by
  simp only [SelectMany.build, Res.bind_eq_ok, Res.ok.injEq, Prod.mk.injEq, Prod.exists] at h
  obtain ⟨s, p, hb, hs, hp⟩ := h
  refine ⟨s, p, hb, ?_, ?_⟩
  · have ho : (if q.order.length > 0 then s ++ c!" ORDER BY " ++ orderLoop q.order 0 else s) =
        s ++ (if q.order = [] then [] else c!" ORDER BY " ++
          joinWith c!", " (q.order.map fun o => o.fd.renderField ++ c!" " ++ o.direction)) := by
      rw [orderLoop_join]
      cases q.order with
      | nil => simp
      | cons o os =>
        rw [if_pos (by simp), if_neg (by simp), List.append_assoc]
        rfl
    rw [← hs, ho]
    unfold limitItems
    by_cases h1 : q.offset > 0 <;> by_cases h2 : q.limit > 0 <;> simp [h1, h2, limitTexts, spaced]
  · rw [← hp]
    unfold limitItems
    by_cases h1 : q.offset > 0 <;> by_cases h2 : q.limit > 0 <;> simp [h1, h2]

/-! ## C19 -/

/-- A completed join: `Join(right, type).On(l, r)`. -/
structure JoinCall where
  right : TableIdent
  joinType : Int
  l : FieldDef
  r : FieldDef

/-- A call on a many-row builder. -/
inductive ManyCall where
  | offset (n : Nat)
  | limit (n : Int)
  | orderBy (os : List FieldSorting)
  | addWhere (cs : List Cond)
  | fields (fs : List FieldDef)
  | join (j : JoinCall)

/-- One call. -/
def ManyCall.run (q : SelectMany) : ManyCall → SelectMany
  | .offset n => q.setOffset n
  | .limit n => q.setLimit n
  | .orderBy os => q.addOrder os
  | .addWhere cs => q.addWhere cs
  | .fields fs => q.setFields fs
  | .join j => ((q.joinIdent j.right j.joinType).on j.l j.r).getD q

/-- The builder after a list of calls. -/
def runMany (q : SelectMany) (ops : List ManyCall) : SelectMany := ops.foldl ManyCall.run q

/-- The kind of a call. -/
def ManyCall.kind : ManyCall → Nat
  | .offset _ => 0
  | .limit _ => 1
  | .orderBy _ => 2
  | .addWhere _ => 3
  | .fields _ => 4
  | .join _ => 5

/-- Arguments of the `Offset` calls. -/
def ManyCall.offsets (ops : List ManyCall) : List Nat := ops.filterMap fun | .offset n => some n | _ => none
/-- Arguments of the `Limit` calls. -/
def ManyCall.limits (ops : List ManyCall) : List Int := ops.filterMap fun | .limit n => some n | _ => none
/-- Arguments of the `OrderBy` calls. -/
def ManyCall.orders (ops : List ManyCall) : List (List FieldSorting) :=
  ops.filterMap fun | .orderBy os => some os | _ => none
/-- Arguments of the `Fields` calls. -/
def ManyCall.fieldLists (ops : List ManyCall) : List (List FieldDef) :=
  ops.filterMap fun | .fields fs => some fs | _ => none
/-- Arguments of the `Where` calls. -/
def ManyCall.wheres (ops : List ManyCall) : List (List Cond) :=
  ops.filterMap fun | .addWhere cs => some cs | _ => none

/-- Arguments of the joins. -/
def ManyCall.joins (ops : List ManyCall) : List JoinCall :=
  ops.filterMap fun | .join j => some j | _ => none

/-- **C19.** After any calls: ORDER BY keys are all arguments in call order, OFFSET, LIMIT and the field list those of the
last call (or the initial ones), the where clause that of the `Where` calls alone, the joins those of the join calls in order;
the table stays.  With `C20_many_tail` this gives the text. -/
theorem C19_history (q : SelectMany) (ops : List ManyCall) :
    (runMany q ops).order = q.order ++ (ManyCall.orders ops).flatten ∧
    (runMany q ops).offset = (ManyCall.offsets ops).getLast?.getD q.offset ∧
    (runMany q ops).limit = (ManyCall.limits ops).getLast?.getD q.limit ∧
    (runMany q ops).base.fields.specs = (ManyCall.fieldLists ops).getLast?.getD q.base.fields.specs ∧
    (runMany q ops).base.where_ = (ManyCall.wheres ops).foldl WhereClause.groupAND q.base.where_ ∧
    (runMany q ops).base.baseTable = q.base.baseTable ∧ 
      (runMany q ops).base.joins = q.base.joins ++ (ManyCall.joins ops).map fun j => ⟨j.right, j.joinType, ⟨j.l, j.r⟩⟩ := by
  induction ops generalizing q with
  | nil => simp [runMany, ManyCall.orders, ManyCall.offsets, ManyCall.limits, ManyCall.fieldLists, ManyCall.wheres,
      ManyCall.joins]
  | cons op ops ih =>
    have e : runMany q (op :: ops) = runMany (op.run q) ops := rfl
    obtain ⟨h1, h2, h3, h4, h5, h6, h7⟩ := ih (op.run q)
    rw [e, h1, h2, h3, h4, h5, h6, h7]
    have ej : ∀ j, ManyCall.run q (.join j) =
        { q with base := { q.base with joins := q.base.joins ++ [⟨j.right, j.joinType, ⟨j.l, j.r⟩⟩] } } := by
      intro j
      simp [ManyCall.run, SelectMany.joinIdent, SelectMany.on, BaseSelect.joinIdent, BaseSelect.on, TableJoiner.by', joinFields, Res.getD]
    cases op
    case join j => simp [ej, ManyCall.joins, ManyCall.orders, ManyCall.offsets, ManyCall.limits, ManyCall.fieldLists, ManyCall.wheres]
    all_goals simp [ManyCall.joins, ManyCall.run, ManyCall.orders, ManyCall.offsets, ManyCall.limits, ManyCall.fieldLists,
      ManyCall.wheres, SelectMany.setOffset, SelectMany.setLimit, SelectMany.addOrder, SelectMany.addWhere,
      SelectMany.setFields, BaseSelect.setFields, BaseSelect.addWhere, Fields.setFields, List.getLast?_cons]

/-- **C19**: calls of different kinds commute. -/
theorem C19_commute (q : SelectMany) (a b : ManyCall) (h : a.kind ≠ b.kind) (pre post : List ManyCall) :
    runMany q (pre ++ a :: b :: post) = runMany q (pre ++ b :: a :: post) := by
  unfold runMany
  simp only [List.foldl_append, List.foldl_cons]
  congr 1
  have ej : ∀ q j, ManyCall.run q (.join j) =
      { q with base := { q.base with joins := q.base.joins ++ [⟨j.right, j.joinType, ⟨j.l, j.r⟩⟩] } } := by
    intro q j
    simp [ManyCall.run, SelectMany.joinIdent, SelectMany.on, BaseSelect.joinIdent, BaseSelect.on, TableJoiner.by', joinFields, Res.getD]
  cases a <;> cases b <;> first | exact absurd rfl h | (simp only [ej]; rfl) | rfl

example : (runMany exampleMany [.offset 3, .limit 7, .offset 0, .orderBy [⟨⟨c!"k", [], []⟩, ascending⟩], .fields []]).build =
    .ok (c!"SELECT * FROM t AS x LEFT JOIN u ON x.id=u.tid WHERE NOT (a=$1 OR t.b IN ($2,$3) AND c IS NULL) ORDER BY x.id DESC, k ASC LIMIT $4",
      [.other 1, .str c!"x", .str c!"y", .uint 7]) := rfl

/-! ## C21 -/

/-- **C21, what holds.** A single-row SELECT is the base SELECT followed by ` LIMIT 1` with the same parameters; `Where`,
`Join` and `On` change only the base select, as they do there.

Missing for the full claim: `Fields`, see `C21_fields_false`. -/
theorem C21_single_partial (q : SelectSingle) (cs : List Cond) (r : TableIdent) (jt : Int) (l rr : FieldDef) :
    (∀ sql params, q.build = .ok (sql, params) ↔
      ∃ sql0, q.base.build = .ok (sql0, params) ∧ sql = sql0 ++ c!" LIMIT 1") ∧
    (q.addWhere cs).base = q.base.addWhere cs ∧ (q.joinIdent r jt).base = q.base.joinIdent r jt ∧
    (∀ q', q.on l rr = .ok q' ↔ q.base.on l rr = .ok q'.base) := by
  refine ⟨fun sql params => ?_, rfl, rfl, fun q' => ?_⟩
  · simp only [SelectSingle.build, Res.bind_eq_ok, Res.ok.injEq, Prod.mk.injEq, Prod.exists]
    constructor
    · rintro ⟨s, p, h1, h2, h3⟩
      subst h3
      exact ⟨s, h1, h2.symm⟩
    · rintro ⟨s, h1, h2⟩
      exact ⟨s, params, h1, h2.symm, rfl⟩
  · simp only [SelectSingle.on, Res.bind_eq_ok, Res.ok.injEq]
    constructor
    · rintro ⟨b, h1, rfl⟩; exact h1
    · intro h; exact ⟨_, h, rfl⟩

example : (SelectSingle.mk exampleMany.base).build = .ok (
    c!"SELECT x.id, u.name AS n FROM t AS x LEFT JOIN u ON x.id=u.tid WHERE NOT (a=$1 OR t.b IN ($2,$3) AND c IS NULL) LIMIT 1",
    [.other 1, .str c!"x", .str c!"y"]) := rfl

/-- **C21, from a base select.** `b.Single()` is the statement of `b` followed by ` LIMIT 1`, with the same parameters, and so is
`SelectSingleFrom(t)` that of `SelectFrom(t)`; it fails where that fails. -/
theorem C21_of_base (b : BaseSelect) (t : TableParam) :
    (selectSingleFromBase b).build = b.build.bind (fun r => .ok (r.1 ++ c!" LIMIT 1", r.2)) ∧
    ((selectSingleFrom t).bind fun q => q.build) =
      (selectFrom t).bind fun b => b.build.bind fun r => .ok (r.1 ++ c!" LIMIT 1", r.2) := by
  refine ⟨rfl, ?_⟩
  simp only [selectSingleFrom]
  cases selectFrom t <;> rfl

example : ((selectSingleFrom (.str c!"t")).bind fun q => q.build) = .ok (c!"SELECT * FROM t LIMIT 1", []) ∧
    (selectSingleFromBase exampleMany.base).build = .ok (
      c!"SELECT x.id, u.name AS n FROM t AS x LEFT JOIN u ON x.id=u.tid WHERE NOT (a=$1 OR t.b IN ($2,$3) AND c IS NULL) LIMIT 1",
      [.other 1, .str c!"x", .str c!"y"]) := ⟨rfl, rfl⟩

/-- **C21 is false** for `Fields`: whatever the query, `Fields` on a single-row builder forgets table, joins and
conditions. -/
theorem C21_fields_false (q : SelectSingle) (fs : List FieldDef) :
    (q.setFields fs).build = .ok (c!"SELECT " ++ (Fields.mk fs).fieldList ++ c!" FROM  LIMIT 1", []) := by
  simp [SelectSingle.setFields, SelectSingle.build, BaseSelect.build, zeroBaseSelect, BaseSelect.setFields,
    Fields.setFields, WhereClause.conditions, zeroWhere, BaseSelect.headTokens, joinWith, operationString, doSelect,
    kwSelect, kwFrom, TableIdent.renderFrom]

/-! ## C23 -/

/-- The builder after a list of completed joins. -/
def runJoins (q : BaseSelect) : List JoinCall → Res BaseSelect
  | [] => .ok q
  | j :: rest => ((q.joinIdent j.right j.joinType).on j.l j.r).bind fun q => runJoins q rest

/-- The text of one join: the words of its kind, the table and its alias unless it is the name itself, the two columns. -/
def JoinCall.text (j : JoinCall) : Str :=
  (match joinKind j.joinType with
    | some k => k ++ c!" JOIN"
    | none => c!"unknown JOIN(" ++ itoaInt j.joinType ++ c!")") ++ c!" " ++
    (match j.right.ref.alias with
      | some a => j.right.name ++ c!" AS " ++ a
      | none => j.right.name) ++ c!" ON " ++
    j.l.tableName ++ c!"." ++ j.l.fieldName ++ c!"=" ++ j.r.tableName ++ c!"." ++ j.r.fieldName

theorem JoinCall.text_words (j : JoinCall) : j.text = joinTypeString j.joinType ++ c!" " ++ j.right.renderFrom ++ c!" ON " ++
    j.l.tableName ++ c!"." ++ j.l.fieldName ++ c!"=" ++ j.r.tableName ++ c!"." ++ j.r.fieldName := by
  have h1 : (match joinKind j.joinType with
      | some k => k ++ c!" JOIN"
      | none => c!"unknown JOIN(" ++ itoaInt j.joinType ++ c!")") = joinTypeString j.joinType := by
    have hk : ∀ n : Int, (match joinKind n with
        | some k => k ++ c!" JOIN"
        | none => c!"unknown JOIN(" ++ itoaInt n ++ c!")") = joinTypeString n := by
      intro n
      by_cases h0 : n = 0
      · subst h0; rfl
      by_cases h1 : n = 1
      · subst h1; rfl
      by_cases h2 : n = 2
      · subst h2; rfl
      by_cases h3 : n = 3
      · subst h3; rfl
      have : joinKind n = none := by
        unfold joinKind
        split <;> first | contradiction | rfl
      simp only [this, joinTypeString, h0, h1, h2, h3, if_false]
    exact hk _
  have h2 : (match j.right.ref.alias with
      | some a => j.right.name ++ c!" AS " ++ a
      | none => j.right.name) = j.right.renderFrom := by
    unfold TableIdent.renderFrom TableIdent.ref optStr
    by_cases ha : j.right.alias = [] <;> by_cases hb : j.right.alias = j.right.name <;> simp [ha, hb]
  unfold JoinCall.text
  rw [h1, h2]

theorem joinIdent_on (q : BaseSelect) (j : JoinCall) :
    (q.joinIdent j.right j.joinType).on j.l j.r = .ok { q with joins := q.joins ++ [⟨j.right, j.joinType, ⟨j.l, j.r⟩⟩] } := by
  simp [BaseSelect.on, BaseSelect.joinIdent, TableJoiner.by', joinFields]

theorem joinWith_spaced (b : Str) (xs ys : List Str) :
    joinWith c!" " (b :: (xs ++ ys)) = joinWith c!" " (b :: xs) ++ spaced ys := by
  induction xs generalizing b with
  | nil =>
    induction ys generalizing b with
    | nil => simp [spaced]
    | cons y ys ih =>
      simp only [List.nil_append] at ih
      have := ih y
      simp only [List.nil_append, joinWith] at this ⊢
      rw [this]
      simp [spaced]
  | cons x xs ih =>
    simp only [List.cons_append, joinWith]
    rw [ih x, List.append_assoc, List.append_assoc, List.append_assoc]

/-- **C23.** Any sequence of completed joins succeeds, keeps the earlier joins as they were, changes nothing but the joins,
and the FROM clause lists the earlier joins and then each new join in call order with its own type, table and ON fields,
named by table and column whatever their aliases. -/
theorem C23_joins (q : BaseSelect) (js : List JoinCall) :
    ∃ q', runJoins q js = .ok q' ∧ q'.fields = q.fields ∧ q'.where_ = q.where_ ∧ q'.baseTable = q.baseTable ∧
      q'.joins.take q.joins.length = q.joins ∧ q'.joins.length = q.joins.length + js.length ∧
      q'.renderFrom = q.renderFrom ++ spaced (js.map JoinCall.text) := by
  have hrun : ∀ (js : List JoinCall) (q : BaseSelect), runJoins q js =
      .ok { q with joins := q.joins ++ js.map fun j => ⟨j.right, j.joinType, ⟨j.l, j.r⟩⟩ } := by
    intro js
    induction js with
    | nil => intro q; simp [runJoins]
    | cons j js ih => intro q; simp [runJoins, joinIdent_on, ih]
  refine ⟨_, hrun js q, rfl, rfl, rfl, by simp, by simp, ?_⟩
  unfold BaseSelect.renderFrom
  simp only [List.map_append, List.map_map]
  rw [joinWith_spaced]
  congr 1
  congr 1
  apply List.map_congr_left
  intro j _
  simp [TableJoiner.renderFrom, JoinCondition.render, FieldDef.renderTableSpec, JoinCall.text_words, joinWith, kwOn]

/-- **C23**, in the statement: after any sequence of completed joins the query is the field list, the FROM clause with the base
table, the earlier joins and each new join in call order, then the WHERE clause if there are conditions. -/
theorem C23_build (q q' : BaseSelect) (js : List JoinCall) (w : Str) (vs : List Val) (h : runJoins q js = .ok q')
    (hw : q.where_.render 0 = .ok w) (hv : q.where_.values = .ok vs) :
    q'.build = .ok (c!"SELECT " ++ q.fields.fieldList ++ c!" FROM " ++ q.renderFrom ++ spaced (js.map JoinCall.text) ++
      (if q.where_.conditions = [] then [] else c!" WHERE " ++ w), if q.where_.conditions = [] then [] else vs) := by
  obtain ⟨q2, h1, hf, hwh, hb, _, _, hr⟩ := C23_joins q js
  rw [h] at h1
  cases h1
  have hh : joinWith c!" " q'.headTokens = c!"SELECT " ++ q.fields.fieldList ++ c!" FROM " ++ q'.renderFrom := by
    unfold BaseSelect.headTokens BaseSelect.renderFrom
    rw [hf]
    show joinWith c!" " (c!"SELECT" :: q.fields.fieldList :: c!"FROM" :: q'.baseTable.renderFrom :: _) = _
    simp [joinWith]
  have hh2 : joinWith c!" " (q'.headTokens ++ [kwWhere, w]) = joinWith c!" " q'.headTokens ++ (c!" WHERE " ++ w) := by
    show joinWith c!" " (c!"SELECT" :: (_ ++ [kwWhere, w])) = joinWith c!" " (c!"SELECT" :: _) ++ _
    rw [joinWith_spaced]
    simp [spaced, kwWhere]
  unfold BaseSelect.build
  rw [hwh, hw, hv]
  by_cases hc : q.where_.conditions = []
  · simp [hc, hh, hr]
  · have : q.where_.conditions.length > 0 := List.length_pos_iff.2 hc
    simp [hc, this, hh, hh2, hr]

/-- **C23**, the single and many builders join as the base builder does. -/
theorem C23_joins_single_many (s : SelectSingle) (m : SelectMany) (j : JoinCall) :
    (∃ s', (s.joinIdent j.right j.joinType).on j.l j.r = .ok s' ∧ runJoins s.base [j] = .ok s'.base) ∧
    (∃ m', (m.joinIdent j.right j.joinType).on j.l j.r = .ok m' ∧ runJoins m.base [j] = .ok m'.base ∧
      m'.order = m.order ∧ m'.offset = m.offset ∧ m'.limit = m.limit) := by
  simp [runJoins, SelectSingle.joinIdent, SelectSingle.on, SelectMany.joinIdent, SelectMany.on, joinIdent_on]

example : (runJoins (BaseSelect.mk 0 ⟨c!"t", []⟩ [] ⟨[]⟩ newWhere)
    [⟨⟨c!"u", c!"v"⟩, innerJoin, ⟨c!"id", c!"t", c!"k"⟩, ⟨c!"tid", c!"v", []⟩⟩,
     ⟨⟨c!"w", []⟩, fullJoin, ⟨c!"id", c!"t", []⟩, ⟨c!"tid", c!"w", []⟩⟩]).bind (fun q => .ok q.renderFrom) =
    .ok c!"t INNER JOIN u AS v ON t.id=v.tid FULL JOIN w ON t.id=w.tid" := by decide

example : (runJoins (BaseSelect.mk 0 ⟨c!"t", []⟩ [] ⟨[]⟩ newWhere)
    [⟨⟨c!"u", c!"v"⟩, innerJoin, ⟨c!"id", c!"t", c!"k"⟩, ⟨c!"tid", c!"v", []⟩⟩]).bind (fun q => q.build.bind fun r => .ok r.1) =
    .ok c!"SELECT * FROM t INNER JOIN u AS v ON t.id=v.tid" := by rfl

/-! ## C40 -/

/-- **C40.** `Fields` replaces the whole list and nothing else; the printed list is `*` exactly for the empty list
(a definition that prints as `*` aside) and otherwise the specs separated by `, ` in order. -/
theorem C40_fields (q : BaseSelect) (m : SelectMany) (fs gs : List FieldDef) :
    (q.setFields fs).setFields gs = q.setFields gs ∧ (q.setFields fs).fieldDefinitions = fs ∧
    (q.setFields fs).baseTable = q.baseTable ∧ (q.setFields fs).joins = q.joins ∧
    (q.setFields fs).where_ = q.where_ ∧ (m.setFields fs).base = m.base.setFields fs ∧
    (m.setFields fs).order = m.order ∧ (m.setFields fs).offset = m.offset ∧ (m.setFields fs).limit = m.limit ∧
    (Fields.mk []).fieldList = c!"*" ∧
    (fs ≠ [] → (Fields.mk fs).fieldList = joinWith c!", " (fs.map FieldDef.renderSpec)) := by
  refine ⟨rfl, rfl, rfl, rfl, rfl, rfl, rfl, rfl, rfl, rfl, fun h => ?_⟩
  simp [Fields.fieldList, h]

/-- **C40**: `*` is printed only for the empty list, when no field itself prints as `*` or has an empty name. -/
theorem C40_star_iff (fs : List FieldDef) (h : ∀ f ∈ fs, f.fieldName ≠ [] ∧ f.fieldName ≠ c!"*") :
    (Fields.mk fs).fieldList = c!"*" ↔ fs = [] := by
  have hspec : ∀ f : FieldDef, f.fieldName ≠ [] → f.fieldName ≠ c!"*" → f.renderSpec ≠ [] ∧ f.renderSpec ≠ c!"*" := by
    intro f h1 h2
    have h3 : ∀ x y : Str, f.fieldName.length + 1 ≤ y.length → x = y → x ≠ [] ∧ x ≠ c!"*" := by
      intro x y hl he
      have : f.fieldName.length ≠ 0 := by simpa using h1
      subst he
      constructor
      · intro h; simp [h] at hl
      · intro h
        have := congrArg List.length h
        simp at this
        omega
    unfold FieldDef.renderSpec
    split <;> split <;> (try split) <;> simp only [List.nil_append, List.cons_append, joinWith, List.append_nil]
    all_goals first
      | exact ⟨h1, h2⟩
      | (refine h3 _ _ ?_ rfl; simp; done)
      | (refine h3 _ _ ?_ rfl; simp; omega)
  constructor
  · intro he
    cases fs with
    | nil => rfl
    | cons f fs =>
      exfalso
      obtain ⟨h1, h2⟩ := h f (by simp)
      obtain ⟨h3, h4⟩ := hspec f h1 h2
      rw [Fields.fieldList, if_neg (by simp)] at he
      cases fs with
      | nil => exact h4 he
      | cons g gs =>
        simp only [List.map_cons, joinWith] at he
        have := congrArg List.length he
        simp at this
        have h5 : f.renderSpec.length ≠ 0 := by simpa using h3
        omega
  · rintro rfl; rfl

/-- What an argument of `NewFields` stands for: a definition for itself, a text for the field it specifies. -/
inductive ArgDenotes : FieldArg → FieldDef → Prop
  | defn (f : FieldDef) : ArgDenotes (some (.defn f)) f
  | str {s : Str} {f : FieldDef} (h : fieldOrError s = .ok f) : ArgDenotes (some (.str s)) f
  | name {s : Str} {f : FieldDef} (h : fieldOrError s = .ok f) : ArgDenotes (some (.name s)) f

/-- The arguments stand for the definitions one by one, in order. -/
inductive ArgsDenote : List FieldArg → List FieldDef → Prop
  | nil : ArgsDenote [] []
  | cons {a : FieldArg} {f : FieldDef} {as : List FieldArg} {fs : List FieldDef} (h : ArgDenotes a f)
      (hs : ArgsDenote as fs) : ArgsDenote (a :: as) (f :: fs)

theorem argDenotes_iff (a : FieldArg) (f : FieldDef) : newFieldsArg a = .ok f ↔ ArgDenotes a f := by
  constructor
  · intro h
    rcases a with _ | ⟨s | s | g⟩
    · simp [newFieldsArg] at h
    · refine .str ?_
      cases h2 : fieldOrError s <;> simp_all [newFieldsArg, field, Res.must]
    · refine .name ?_
      cases h2 : fieldOrError s <;> simp_all [newFieldsArg, field, Res.must]
    · simp only [newFieldsArg, Res.ok.injEq] at h
      subst h
      exact .defn _
  · rintro (_ | h | h) <;> simp_all [newFieldsArg, field, Res.must]

theorem mapL_length {α β : Type} {f : α → Res β} : ∀ {as : List α} {bs : List β}, Res.mapL f as = .ok bs → bs.length = as.length
  | [], bs, h => by cases h; rfl
  | a :: as, bs, h => by
    obtain ⟨b, _, h⟩ := Res.bind_eq_ok.1 h
    obtain ⟨cs, hc, h⟩ := Res.bind_eq_ok.1 h
    cases h
    simp only [List.length_cons, mapL_length hc]

/-- **C40**, `Fields.Len`: the number of fields given, by `Fields` or `NewFields`; the list is `*` when it is zero. -/
theorem C40_len (f : Fields) (fs : List FieldDef) (args : List FieldArg) :
    (f.setFields fs).len = fs.length ∧ f.len = f.fieldDefinitions.length ∧ (f.len = 0 → f.fieldList = c!"*") ∧
    (∀ g, newFields args = .ok g → g.len = args.length) := by
  refine ⟨rfl, rfl, fun h => ?_, fun g hg => ?_⟩
  · obtain ⟨l⟩ := f
    have : l = [] := List.eq_nil_of_length_eq_zero h
    subst this; rfl
  · obtain ⟨l, h, e⟩ := Res.bind_eq_ok.1 hg
    cases e
    exact mapL_length h

example : ∃ g, newFields [some (.str c!"a"), some (.defn ⟨c!"b", c!"t", []⟩)] = .ok g ∧ g.len = 2 := ⟨_, rfl, rfl⟩

/-- **C40**: `NewFields` returns exactly the definitions its arguments denote, in order, and panics exactly when one of them
is of no admitted type or not a field specification. -/
theorem C40_newFields (args : List FieldArg) :
    (∀ fs, newFields args = .ok ⟨fs⟩ ↔ ArgsDenote args fs) ∧
    ((∃ p, newFields args = .panic p) ↔
      ∃ a ∈ args, a = none ∨ ∃ s e, (a = some (.str s) ∨ a = some (.name s)) ∧ fieldOrError s = .err e) := by
  have hmap : ∀ (args : List FieldArg) fs, Res.mapL newFieldsArg args = .ok fs ↔ ArgsDenote args fs := by
    intro args
    induction args with
    | nil =>
      intro fs
      simp only [Res.mapL, Res.ok.injEq]
      constructor
      · rintro rfl; exact .nil
      · rintro ⟨⟩; rfl
    | cons a as ih =>
      intro fs
      simp only [Res.mapL, Res.bind_eq_ok, Res.ok.injEq]
      constructor
      · rintro ⟨b, hb, bs, hbs, rfl⟩
        exact .cons ((argDenotes_iff a b).mp hb) ((ih bs).mp hbs)
      · rintro (_ | ⟨h1, h2⟩)
        exact ⟨_, (argDenotes_iff a _).mpr h1, _, (ih _).mpr h2, rfl⟩
  have hpanicIdx := fieldOrError_no_panic
  have harg : ∀ a : FieldArg, (∃ f, newFieldsArg a = .ok f) ∨ ((∃ p, newFieldsArg a = .panic p) ∧
      (a = none ∨ ∃ s e, (a = some (.str s) ∨ a = some (.name s)) ∧ fieldOrError s = .err e)) := by
    intro a
    rcases a with _ | ⟨s | s | f⟩
    · exact .inr ⟨⟨_, rfl⟩, .inl rfl⟩
    · cases h : fieldOrError s with
      | ok f => exact .inl ⟨f, by simp [newFieldsArg, field, h, Res.must]⟩
      | err e => exact .inr ⟨⟨_, by simp [newFieldsArg, field, h, Res.must]; rfl⟩, .inr ⟨s, e, .inl rfl, h⟩⟩
      | panic p => exact absurd h (hpanicIdx s p)
    · cases h : fieldOrError s with
      | ok f => exact .inl ⟨f, by simp [newFieldsArg, field, h, Res.must]⟩
      | err e => exact .inr ⟨⟨_, by simp [newFieldsArg, field, h, Res.must]; rfl⟩, .inr ⟨s, e, .inr rfl, h⟩⟩
      | panic p => exact absurd h (hpanicIdx s p)
    · exact .inl ⟨f, rfl⟩
  have hbad : ∀ a : FieldArg, (a = none ∨ ∃ s e, (a = some (.str s) ∨ a = some (.name s)) ∧ fieldOrError s = .err e) →
      ∃ p, newFieldsArg a = .panic p := by
    rintro a (rfl | ⟨s, e, rfl | rfl, h⟩)
    · exact ⟨_, rfl⟩
    · exact ⟨.fromErr e, by simp [newFieldsArg, field, h, Res.must]⟩
    · exact ⟨.fromErr e, by simp [newFieldsArg, field, h, Res.must]⟩
  constructor
  · intro fs
    rw [← hmap]
    unfold newFields
    cases Res.mapL newFieldsArg args <;> simp
  · have hres : ∀ (args : List FieldArg), (∃ p, Res.mapL newFieldsArg args = .panic p) ↔
        ∃ a ∈ args, a = none ∨ ∃ s e, (a = some (.str s) ∨ a = some (.name s)) ∧ fieldOrError s = .err e := by
      intro args
      induction args with
      | nil => simp [Res.mapL]
      | cons a as ih =>
        rcases harg a with ⟨f, hf⟩ | ⟨⟨p, hp⟩, hb⟩
        · have hnb : ¬ (a = none ∨ ∃ s e, (a = some (.str s) ∨ a = some (.name s)) ∧ fieldOrError s = .err e) := by
            intro h
            obtain ⟨p, hp⟩ := hbad a h
            rw [hf] at hp
            simp at hp
          have e : (∃ p, Res.mapL newFieldsArg (a :: as) = .panic p) ↔ ∃ p, Res.mapL newFieldsArg as = .panic p := by
            simp only [Res.mapL, hf, Res.bind_ok]
            cases Res.mapL newFieldsArg as <;> simp
          rw [e, ih]
          constructor
          · rintro ⟨x, hx, h⟩; exact ⟨x, by simp [hx], h⟩
          · rintro ⟨x, hx, h⟩
            simp only [List.mem_cons] at hx
            rcases hx with rfl | hx
            · exact absurd h hnb
            · exact ⟨x, hx, h⟩
        · constructor
          · intro _; exact ⟨a, by simp, hb⟩
          · intro _; exact ⟨p, by simp [Res.mapL, hp]⟩
    rw [← hres]
    unfold newFields
    cases Res.mapL newFieldsArg args <;> simp

example : newFields [some (.str c!"t.a AS x"), some (.defn ⟨c!"b", [], []⟩)] =
    .ok ⟨[⟨c!"a", c!"t", c!"x"⟩, ⟨c!"b", [], []⟩]⟩ ∧ newFields [some (.str c!"a b")] = .panic (.fromErr .badField) ∧
    newFields [none] = .panic .badFieldArg := by decide

/-! ## C41 -/

/-- **C41, what holds.** For the base select `Render(0)` and `Values()` return the SQL and parameters of
`BuildQueryAndParams` (and return exactly when it does).

Missing for the full claim: the many and single builders, whose promoted methods leave out ORDER BY, OFFSET, LIMIT, see
`C41_many_false`. -/
theorem C41_base_partial (q : BaseSelect) (sql : Str) (params : List Val) :
    q.build = .ok (sql, params) ↔ q.render 0 = .ok sql ∧ q.values = .ok params := by
  unfold BaseSelect.build BaseSelect.render BaseSelect.values
  by_cases hl : q.where_.conditions.length > 0
  · rw [if_pos hl, if_pos hl, if_pos hl]
    cases q.where_.render 0 <;> cases q.where_.values <;> simp
  · rw [if_neg hl, if_neg hl, if_neg hl]
    simp

example : exampleMany.base.render 0 = .ok
    c!"SELECT x.id, u.name AS n FROM t AS x LEFT JOIN u ON x.id=u.tid WHERE NOT (a=$1 OR t.b IN ($2,$3) AND c IS NULL)" := by
  decide

/-- **C41 is false** for the many and single builders: the promoted `Render` never has the ORDER BY, OFFSET or LIMIT of
`BuildQueryAndParams`. -/
theorem C41_many_false (m : SelectMany) (s : SelectSingle) (sql : Str) (params : List Val) :
    (m.build = .ok (sql, params) → (m.order ≠ [] ∨ m.offset > 0 ∨ m.limit > 0) → m.render 0 ≠ .ok sql) ∧
    (s.build = .ok (sql, params) → s.render 0 ≠ .ok sql) := by
  constructor
  · intro h hne hr
    obtain ⟨sql0, params0, hb, hs, hp⟩ := C20_many_tail m sql params h
    have := ((C41_base_partial m.base sql0 params0).mp hb).1
    simp only [SelectMany.render] at hr
    rw [hr] at this
    simp only [Res.ok.injEq] at this
    subst this
    have hl := congrArg List.length hs
    simp only [List.length_append] at hl
    rcases hne with h1 | h1 | h1
    · rw [if_neg h1] at hl
      simp at hl
      omega
    · simp [limitItems, h1, limitTexts, spaced] at hl
      omega
    · simp only [limitItems, h1, if_true, spaced] at hl
      by_cases h2 : m.offset > 0 <;> simp [h2, limitTexts] at hl <;> omega
  · intro h hr
    obtain ⟨sql0, hb, hs⟩ := ((C21_single_partial s [] ⟨[], []⟩ 0 zeroFD zeroFD).1 sql params).mp h
    have := ((C41_base_partial s.base sql0 params).mp hb).1
    simp only [SelectSingle.render] at hr
    rw [hr] at this
    simp only [Res.ok.injEq] at this
    subst this
    simpa using congrArg List.length hs

example : exampleMany.order ≠ [] ∧ exampleMany.build.isOk = true := by
  refine ⟨by simp [exampleMany], by decide⟩

/-- **C41, exactly.**  What `Render(0)` and `Values()` of the many and single builders leave out of `BuildQueryAndParams`:
of a many select the ORDER BY, OFFSET and LIMIT text and the offset and limit parameters, of a single select ` LIMIT 1`;
nothing else. -/
theorem C41_exact (m : SelectMany) (s : SelectSingle) (sql : Str) (params : List Val) :
    (m.build = .ok (sql, params) → ∃ sql0 params0, m.render 0 = .ok sql0 ∧ m.values = .ok params0 ∧
      sql = sql0 ++
        (if m.order = [] then [] else c!" ORDER BY " ++
          joinWith c!", " (m.order.map fun o => o.fd.renderField ++ c!" " ++ o.direction)) ++
        spaced (limitTexts params0.length (limitItems m.offset m.limit)) ∧
      params = params0 ++ (limitItems m.offset m.limit).map fun p => .uint p.2) ∧
    (s.build = .ok (sql, params) ↔ ∃ sql0, s.render 0 = .ok sql0 ∧ s.values = .ok params ∧ sql = sql0 ++ c!" LIMIT 1") := by
  constructor
  · intro h
    obtain ⟨sql0, params0, hb, hs, hp⟩ := C20_many_tail m sql params h
    obtain ⟨h1, h2⟩ := (C41_base_partial m.base sql0 params0).mp hb
    exact ⟨sql0, params0, h1, h2, hs, hp⟩
  · rw [(C21_single_partial s [] ⟨[], []⟩ 0 zeroFD zeroFD).1 sql params]
    constructor
    · rintro ⟨sql0, hb, hs⟩
      obtain ⟨h1, h2⟩ := (C41_base_partial s.base sql0 params).mp hb
      exact ⟨sql0, h1, h2, hs⟩
    · rintro ⟨sql0, h1, h2, hs⟩
      exact ⟨sql0, (C41_base_partial s.base sql0 params).mpr ⟨h1, h2⟩, hs⟩

example : exampleMany.render 0 = .ok
    c!"SELECT x.id, u.name AS n FROM t AS x LEFT JOIN u ON x.id=u.tid WHERE NOT (a=$1 OR t.b IN ($2,$3) AND c IS NULL)" ∧
    exampleMany.values = .ok [.other 1, .str c!"x", .str c!"y"] := ⟨by decide, rfl⟩

end Query
