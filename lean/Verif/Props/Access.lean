import Verif.Model.Access
import Verif.Heap.History
import Verif.Heap.Read
import Verif.Spec.Convert
import Verif.Spec.Fields
import Verif.Spec.Tail
import Verif.Props.Values
import Verif.Props.Text
import Verif.Props.Combine
import Verif.Props.Logic
import Verif.Props.Select
import Verif.Props.Write
/-!
# C49–C57: constructors, shorthands and accessors
-/
namespace Query

/-! ## C49 -/

/-- The comparison constructors, as functions and as methods of `FieldName`, with the operator each name announces. -/
def comparisons (fn : Str) (v : Val) : List (Str × Res Cond) :=
  [(c!"=", equalTo fn v), (c!"=", fieldNameEqualTo fn v), (c!">", greaterThan fn v), (c!">=", greaterOrEqual fn v),
   (c!"<", less fn v), (c!"<=", lessOrEqual fn v)]

/-- The substring constructors, with the operator each name announces. -/
def substrings (fn s : Str) : List (Str × Res Cond) :=
  [(c!"LIKE", contains fn s), (c!"LIKE", fieldNameContains fn s), (c!"ILIKE", iContains fn s),
   (c!"ILIKE", fieldNameIContains fn s)]

/-- A new condition: not negated, joined by AND, about this field. -/
structure Fresh (c : Cond) (fd : FieldDef) : Prop where
  field : c.leafFields = [fd]
  name : c.fieldName = fd.fieldName
  negate : c.isNegate = false
  join : c.joinType = c!"AND"

/-- **C49.** A comparison constructor makes the comparison of its name between its field and its value. -/
theorem C49_comparisons (fn : Str) (v : Val) (fd : FieldDef) (h : fieldOrError fn = .ok fd) (op : Str) (r : Res Cond)
    (hm : (op, r) ∈ comparisons fn v) :
    ∃ c, r = .ok c ∧ Fresh c fd ∧ (∀ n, c.render n = .ok (fd.renderSpec ++ op ++ c!"$" ++ itoa (n + 1))) ∧
      c.renderSQL = .ok (fd.renderSpec ++ op ++ c!"?") ∧ ∀ vs, c.values = .ok vs ↔ Converts v vs := by
  have hf : field fn = .ok fd := by simp [field, h, Res.must]
  have key : ∀ k, k ∈ [Kind.eq, .gt, .gte, .lt, .lte] →
      ∃ c, mkField k fn v = .ok c ∧ Fresh c fd ∧ (∀ n, c.render n = .ok (fd.renderSpec ++ cmpSym k ++ c!"$" ++ itoa (n + 1))) ∧
      c.renderSQL = .ok (fd.renderSpec ++ cmpSym k ++ c!"?") ∧ ∀ vs, c.values = .ok vs ↔ Converts v vs := by
    intro k hk
    refine ⟨.fieldc k (newBase lAND false) ⟨fd, v⟩, by simp [mkField, newFieldValue, hf], ⟨rfl, rfl, rfl, rfl⟩, ?_, ?_, ?_⟩
    · intro n
      simp only [List.mem_cons, List.not_mem_nil, or_false] at hk
      rcases hk with rfl | rfl | rfl | rfl | rfl <;>
        simp [Cond.render, fieldcRender, renderCmp, newBase, joinWith]
    · simp only [List.mem_cons, List.not_mem_nil, or_false] at hk
      rcases hk with rfl | rfl | rfl | rfl | rfl <;>
        simp [Cond.renderSQL, fieldcRenderSQL, renderCmpSQL, newBase, joinWith]
    · intro vs
      have := C38_values ⟨fd, v⟩ vs
      simp only [List.mem_cons, List.not_mem_nil, or_false] at hk
      rcases hk with rfl | rfl | rfl | rfl | rfl <;> exact this
  simp only [comparisons, List.mem_cons, List.not_mem_nil, or_false, Prod.mk.injEq] at hm
  rcases hm with ⟨rfl, rfl⟩ | ⟨rfl, rfl⟩ | ⟨rfl, rfl⟩ | ⟨rfl, rfl⟩ | ⟨rfl, rfl⟩ | ⟨rfl, rfl⟩
  · exact key .eq (by simp)
  · exact key .eq (by simp)
  · exact key .gt (by simp)
  · exact key .gte (by simp)
  · exact key .lt (by simp)
  · exact key .lte (by simp)

/-- **C49**, `Contains` and `IContains`. -/
theorem C49_substrings (fn s : Str) (fd : FieldDef) (h : fieldOrError fn = .ok fd) (op : Str) (r : Res Cond)
    (hm : (op, r) ∈ substrings fn s) :
    ∃ c, r = .ok c ∧ Fresh c fd ∧ (∀ n, c.render n = .ok (fd.renderSpec ++ c!" " ++ op ++ c!" $" ++ itoa (n + 1))) ∧
      c.renderSQL = .ok (fd.renderSpec ++ c!" " ++ op ++ c!" ?") ∧ c.values = .ok [.str (c!"%" ++ s ++ c!"%")] := by
  have hf : field fn = .ok fd := by simp [field, h, Res.must]
  simp only [substrings, List.mem_cons, List.not_mem_nil, or_false, Prod.mk.injEq] at hm
  rcases hm with ⟨rfl, rfl⟩ | ⟨rfl, rfl⟩ | ⟨rfl, rfl⟩ | ⟨rfl, rfl⟩
  case' inl => refine ⟨.fieldc .like (newBase lAND false) ⟨fd, .str s⟩, ?_, ⟨rfl, rfl, rfl, rfl⟩, ?_, ?_, ?_⟩
  case' inr.inl => refine ⟨.fieldc .like (newBase lAND false) ⟨fd, .str s⟩, ?_, ⟨rfl, rfl, rfl, rfl⟩, ?_, ?_, ?_⟩
  case' inr.inr.inl => refine ⟨.fieldc .ilike (newBase lAND false) ⟨fd, .str s⟩, ?_, ⟨rfl, rfl, rfl, rfl⟩, ?_, ?_, ?_⟩
  case' inr.inr.inr => refine ⟨.fieldc .ilike (newBase lAND false) ⟨fd, .str s⟩, ?_, ⟨rfl, rfl, rfl, rfl⟩, ?_, ?_, ?_⟩
  all_goals first
    | (intro n; simp [Cond.render, fieldcRender, renderLike, newBase, joinWith, cmpSym]; done)
    | (simp [Cond.renderSQL, fieldcRenderSQL, renderLikeSQL, newBase, joinWith, cmpSym]; done)
    | (simp [Cond.values, fieldcValues, likeValues]; done)
    | simp [contains, iContains, fieldNameContains, fieldNameIContains, mkField, newFieldValue, hf]

/-- **C49**, `In`: one placeholder per value. -/
theorem C49_in (fn : Str) (v : Val) (fd : FieldDef) (h : fieldOrError fn = .ok fd) (vs : List Val) (hv : Converts v vs) :
    ∃ c, inC fn v = .ok c ∧ fieldNameIn fn v = .ok c ∧ Fresh c fd ∧ c.values = .ok vs ∧
      (∀ n, c.render n = .ok (fd.renderSpec ++ c!" IN (" ++
        joinWith c!"," ((List.range vs.length).map fun i => c!"$" ++ itoa (n + i + 1)) ++ c!")")) ∧
      c.renderSQL = .ok (fd.renderSpec ++ c!" IN (" ++ joinWith c!"," (List.replicate vs.length c!"?") ++ c!")") := by
  have hf : field fn = .ok fd := by simp [field, h, Res.must]
  have hv' : (FieldValue.mk fd v).values = .ok vs := (C38_values ⟨fd, v⟩ vs).mpr hv
  have hm : inC fn v = .ok (.fieldc .inn (newBase lAND false) ⟨fd, v⟩) := by simp [inC, mkField, newFieldValue, hf]
  refine ⟨.fieldc .inn (newBase lAND false) ⟨fd, v⟩, hm, hm, ⟨rfl, rfl, rfl, rfl⟩, hv', fun n => ?_, ?_⟩
  · simp [Cond.render, fieldcRender, hv', renderIn, inPlaceholders, newBase, joinWith, cmpSym]
  · simp [Cond.renderSQL, fieldcRenderSQL, hv', renderInSQL, newBase, joinWith, cmpSym]

/-- **C49**, `IsNull`. -/
theorem C49_isNull (fn : Str) (fd : FieldDef) (h : fieldOrError fn = .ok fd) :
    ∃ c, isNull fn = .ok c ∧ fieldNameIsNull fn = .ok c ∧ Fresh c fd ∧ c.values = .ok [] ∧
      (∀ n, c.render n = .ok (fd.renderSpec ++ c!" IS NULL")) ∧ c.renderSQL = .ok (fd.renderSpec ++ c!" IS NULL") := by
  have hf : field fn = .ok fd := by simp [field, h, Res.must]
  have hm : isNull fn = .ok (.null (newBase lAND false) fd) := by simp [isNull, hf]
  refine ⟨.null (newBase lAND false) fd, hm, hm, ⟨rfl, rfl, rfl, rfl⟩, rfl, fun n => ?_, ?_⟩
  · simp [Cond.render, renderNull, newBase, joinWith]
  · simp [Cond.renderSQL, renderNull, newBase, joinWith]

/-- **C49**: the constructors panic exactly for field names `FieldOrError` rejects, and never return an error. -/
theorem C49_panics (fn s : Str) (v : Val) (r : Res Cond)
    (hm : r ∈ (comparisons fn v).map Prod.snd ++ (substrings fn s).map Prod.snd ++
      [inC fn v, fieldNameIn fn v, isNull fn, fieldNameIsNull fn]) :
    ((∃ p, r = .panic p) ↔ ∃ e, fieldOrError fn = .err e) ∧ ∀ e, r ≠ .err e := by
  have key : ∀ (k : Kind) (w : Val), ((∃ p, mkField k fn w = .panic p) ↔ ∃ e, fieldOrError fn = .err e) ∧
      ∀ e, mkField k fn w ≠ .err e := by
    intro k w
    obtain ⟨h1, h2, h3⟩ := C24_field_panics fn
    cases h : field fn with
    | ok fd =>
      have := (h1 fd).mp h
      simp [mkField, newFieldValue, h, this]
    | err e => exact absurd h (h3 e)
    | panic p =>
      have := h2.mp ⟨p, h⟩
      simp [mkField, newFieldValue, h, this]
  have keyN : ((∃ p, isNull fn = .panic p) ↔ ∃ e, fieldOrError fn = .err e) ∧ ∀ e, isNull fn ≠ .err e := by
    obtain ⟨h1, h2, h3⟩ := C24_field_panics fn
    cases h : field fn with
    | ok fd =>
      have := (h1 fd).mp h
      simp [isNull, h, this]
    | err e => exact absurd h (h3 e)
    | panic p =>
      have := h2.mp ⟨p, h⟩
      simp [isNull, h, this]
  simp only [comparisons, substrings, List.map_cons, List.map_nil, List.cons_append, List.nil_append, List.mem_cons,
    List.not_mem_nil, or_false] at hm
  rcases hm with rfl | rfl | rfl | rfl | rfl | rfl | rfl | rfl | rfl | rfl | rfl | rfl | rfl | rfl <;>
    first
      | exact key _ _
      | exact keyN

example : fieldOrError c!"users.age" = .ok ⟨c!"age", c!"users", []⟩ ∧ Converts (.strs [c!"a", c!"b"]) [.str c!"a", .str c!"b"] ∧
    (inC c!"users.age" (.strs [c!"a", c!"b"])).bind (·.render 4) = .ok c!"users.age IN ($5,$6)" ∧
    (lessOrEqual c!"users.age" (.other 7)).bind (·.render 4) = .ok c!"users.age<=$5" ∧
    equalTo c!"a b" .nil = .panic (.fromErr .badField) :=
  ⟨by decide, .strs, by rfl, by rfl, by rfl⟩

/-! ## C50 -/

/-- The name under which FROM introduces a table: the last word of its FROM text. -/
def FromName (text name : Str) : Prop := ∃ ws, Words text (ws ++ [name])

/-- **C50.** `TableName.Field` and `Of` qualify the field by the table name. -/
theorem C50_tableName_field (t fn : Str) (fd : FieldDef) :
    tableNameField t fn = .ok fd ↔ ∃ g, fieldOrError fn = .ok g ∧ fd.fieldName = g.fieldName ∧ fd.alias = g.alias ∧ fd.tableName = t := by
  obtain ⟨h1, _, _⟩ := C24_field_panics fn
  unfold tableNameField
  rw [Res.bind_eq_ok]
  constructor
  · rintro ⟨g, hg, he⟩
    simp at he
    subst he
    exact ⟨g, (h1 g).mp hg, rfl, rfl, rfl⟩
  · rintro ⟨g, hg, ha, hb, hc⟩
    refine ⟨g, (h1 g).mpr hg, ?_⟩
    obtain ⟨x, y, z⟩ := fd
    obtain ⟨x', y', z'⟩ := g
    simp only at ha hb hc
    subst ha hb hc
    rfl

/-- **C50.** The field of a table identifier made by the API is qualified by the name under which FROM introduces the
table, for aliases without white space. -/
theorem C50_ident_field (t : TableIdent) (ht : t.Api) (ha : NoSpace t.alias) (fn : Str) (fd : FieldDef)
    (h : t.field fn = .ok fd) :
    FromName t.renderFrom fd.tableName ∧ ∃ g, fieldOrError fn = .ok g ∧ fd.fieldName = g.fieldName ∧ fd.alias = g.alias := by
  obtain ⟨h1, _, _⟩ := C24_field_panics fn
  obtain ⟨a1, a2, a3, a4⟩ := C26_alias_differs t ht
  unfold TableIdent.field at h
  obtain ⟨g, hg, he⟩ := Res.bind_eq_ok.mp h
  simp at he
  subst he
  refine ⟨?_, g, (h1 g).mp hg, rfl, rfl⟩
  show FromName t.renderFrom t.aliasOrName
  rw [a4]
  unfold TableIdent.aliasOrName FromName
  by_cases hz : t.alias = []
  · simp only [hz, List.length_nil, Nat.lt_irrefl, if_false, if_true, List.append_nil]
    exact ⟨[], words_one a2 a3⟩
  · have : t.alias.length > 0 := List.length_pos_iff.mpr hz
    simp only [this, if_true, hz, if_false]
    exact ⟨[t.name, c!"AS"], by
      have := words_cons a2 a3 (words_cons (w := c!"AS") (by simp) (by unfold NoSpace; decide) (words_one hz ha))
      simpa using this⟩

/-- Field definitions a program can make: parsed, then `As` and `Of`. -/
inductive FieldDef.Api : FieldDef → Prop
  | parse {s f} : fieldOrError s = .ok f → FieldDef.Api f
  | as {f a} : FieldDef.Api f → FieldDef.Api (f.as a)
  | of {f t} : FieldDef.Api f → FieldDef.Api (f.of t)

theorem api_fieldName {f : FieldDef} (h : f.Api) : '.' ∉ f.fieldName ∧ NoSpace f.fieldName := by
  induction h with
  | @parse s f h =>
    obtain ⟨w, hw, hq⟩ := (C24_exact s f).mp h
    have hns : NoSpace w := by
      rcases hw with ⟨hw, _⟩ | ⟨as, hw, _⟩
      · exact (words_mem hw w (by simp)).2
      · exact (words_mem hw w (by simp)).2
    rcases hq with ⟨h1, _, h3⟩ | ⟨h1, h2, h3⟩
    · exact ⟨h3 ▸ h1, h3 ▸ hns⟩
    · refine ⟨h2, fun c hc => hns c ?_⟩
      rcases h3 with h3 | ⟨rest, h3⟩ <;> rw [h3] <;> simp [hc]
  | as _ ih => exact ih
  | of _ ih => exact ih

/-- **C50.** `FieldDefinition.Value` keeps field name and table and takes the value; the alias is dropped.  Missing: fields
without a name, see `C50_value_false`. -/
theorem C50_value_partial (f : FieldDef) (hf : f.Api) (hn : f.fieldName ≠ []) (v : Val) :
    f.value v = .ok ⟨⟨f.fieldName, f.tableName, []⟩, v⟩ := by
  obtain ⟨h1, h2⟩ := api_fieldName hf
  have h : fieldOrError f.fieldName = .ok ⟨f.fieldName, [], []⟩ :=
    fieldOrError_qualified (t := []) (n := f.fieldName) ⟨hn, h1, .inl ⟨rfl, rfl⟩⟩ h2
  simp [FieldDef.value, newFieldValue, field, h, Res.must, FieldValue.applyFieldTable]

/-- **C50, false.**  `Field("a.")` is accepted, and `Value` on it panics. -/
theorem C50_value_false : ∃ f, field c!"a." = .ok f ∧ f.Api ∧ ∀ v, ∃ p, f.value v = .panic p :=
  ⟨⟨[], c!"a", []⟩, by decide, .parse (s := c!"a.") (by decide), fun v => ⟨.fromErr .badField, by rfl⟩⟩

example : (⟨c!"users", c!"u"⟩ : TableIdent).Api ∧ (⟨c!"users", c!"u"⟩ : TableIdent).field c!"id" = .ok ⟨c!"id", c!"u", []⟩ ∧
    (⟨c!"users", c!"u"⟩ : TableIdent).renderFrom = c!"users AS u" ∧ (⟨c!"id", c!"u", c!"k"⟩ : FieldDef).Api :=
  ⟨.parse (s := c!"users u") (by decide), by decide, by decide,
    .as (f := ⟨c!"id", c!"u", []⟩) (.parse (s := c!"u.id") (by decide))⟩

/-! ## C51 -/

/-- **C51.** `Select`, `SelectOne`, `SelectMany` and `Count` of a table: all columns of this table, filtered by exactly the
given conditions in this order, no join, no ordering, no limits; `Count` counts `*`. -/
theorem C51_select (p : TableParam) (t : TableIdent) (cs : List Cond) (h : tableOrErrorP p = .ok t) :
    ∃ q, tableSelect p cs = .ok q ∧ q.renderFrom = t.renderFrom ∧ q.tableName = t.name ∧ q.fieldDefinitions = [] ∧
      q.joins = [] ∧ q.where_.conditions = cs ∧
      tableSelectOne p cs = .ok ⟨q⟩ ∧
      (∃ m, tableSelectMany p cs = .ok m ∧ m.base = q ∧ m.order = [] ∧ limitItems m.offset m.limit = []) ∧
      (p = .ident t → tableCount t cs = .ok ⟨q, ⟨c!"*", [], []⟩⟩) := by
  have hs : selectFrom p = .ok ⟨0, t, [], ⟨[]⟩, newWhere⟩ := by simp [selectFrom, tableP, h, Res.must]
  have hg : (newWhere.groupAND cs).conditions = cs := by
    cases cs <;> simp [newWhere, WhereClause.groupAND, Group.groupAND, Group.addConditions, newGroup, setToAll, WhereClause.conditions]
  refine ⟨(⟨0, t, [], ⟨[]⟩, newWhere⟩ : BaseSelect).addWhere cs, by simp [tableSelect, hs], ?_, rfl, rfl, rfl, hg, ?_, ?_, ?_⟩
  · simp [BaseSelect.renderFrom, BaseSelect.addWhere, joinWith]
  · simp [tableSelectOne, selectSingleFrom, hs, selectSingleFromBase, SelectSingle.addWhere]
  · refine ⟨_, by simp [tableSelectMany, selectManyFrom, hs]; rfl, rfl, rfl, ?_⟩
    simp [selectManyFromBase, SelectMany.addWhere, limitItems, noLimit]
  · intro hp
    subst hp
    have e : field c!"*" = .ok ⟨c!"*", [], []⟩ := by decide
    simp [tableCount, tableSelect, hs, count, e]

/-- **C51.** `InsertInto`, `Update` and `Delete` of a table: exactly the given values or conditions in this order, into the
table itself. -/
theorem C51_write (p : TableParam) (vs : List FieldValue) (cs : List Cond) (n : Str)
    (hp : p = .str n ∨ p = .name n ∨ ∃ a, p = .ident ⟨n, a⟩) :
    (tableInsertInto p vs).getTable = n ∧ (tableInsertInto p vs).renderFrom = n ∧ (tableInsertInto p vs).getValues = vs ∧
    (tableUpdate p vs).getTable = n ∧ (tableUpdate p vs).renderFrom = n ∧ (tableUpdate p vs).getValues = vs ∧
    (tableUpdate p vs).where_.conds = [] ∧
    (tableDelete p cs).getTable = n ∧ (tableDelete p cs).renderFrom = n ∧ (tableDelete p cs).where_.conds = cs := by
  have hg : ((newGroup lAND []).groupAND cs).conds = cs := by
    cases cs <;> simp [Group.groupAND, Group.addConditions, newGroup, setToAll]
  rcases hp with rfl | rfl | ⟨a, rfl⟩ <;> exact ⟨rfl, rfl, rfl, rfl, rfl, rfl, rfl, rfl, rfl, hg⟩

/-- **C51.** `Offset`, `Limit` and `OrderBy` of a base select make the many-row query with just that set. -/
theorem C51_many (q : BaseSelect) (off : Nat) (lim : Int) (os : List FieldSorting) :
    ((q.toOffset off).base = q ∧ (q.toOffset off).order = [] ∧
      limitItems (q.toOffset off).offset (q.toOffset off).limit = if off > 0 then [(c!"OFFSET", off)] else []) ∧
    ((q.toLimit lim).base = q ∧ (q.toLimit lim).order = [] ∧
      limitItems (q.toLimit lim).offset (q.toLimit lim).limit = if lim > 0 then [(c!"LIMIT", lim.toNat)] else []) ∧
    ((q.toOrder os).base = q ∧ (q.toOrder os).order = os ∧ limitItems (q.toOrder os).offset (q.toOrder os).limit = []) := by
  refine ⟨⟨rfl, rfl, ?_⟩, ⟨rfl, rfl, ?_⟩, rfl, by simp [BaseSelect.toOrder, SelectMany.addOrder, selectManyFromBase], ?_⟩
  all_goals simp [BaseSelect.toOffset, BaseSelect.toLimit, BaseSelect.toOrder, selectManyFromBase, SelectMany.setOffset,
    SelectMany.setLimit, SelectMany.addOrder, limitItems, noLimit]

/-- **C51.** `Join` of a table: the base select with one more join of this type, waiting for its condition. -/
theorem C51_join (p : TableParam) (t r : TableIdent) (jt : Int) (l x : FieldDef) (h : tableOrErrorP p = .ok t) :
    ∃ q, tableJoin p r jt = .ok q ∧ q.where_.conditions = [] ∧ q.fieldDefinitions = [] ∧
      ∃ q', q.on l x = .ok q' ∧
        q'.renderFrom = t.renderFrom ++ c!" " ++ joinTypeString jt ++ c!" " ++ r.renderFrom ++ c!" ON " ++ l.renderTableSpec ++
          c!"=" ++ x.renderTableSpec := by
  have hs : selectFrom p = .ok ⟨0, t, [], ⟨[]⟩, newWhere⟩ := by simp [selectFrom, tableP, h, Res.must]
  have hw : newWhere.groupAND [] = newWhere := by
    simp [newWhere, WhereClause.groupAND, Group.groupAND, Group.addConditions, newGroup, setToAll]
  refine ⟨_, by simp [tableJoin, tableSelect, hs, BaseSelect.addWhere, hw]; rfl, rfl, rfl, _, rfl, ?_⟩
  simp [BaseSelect.renderFrom, BaseSelect.joinIdent, joinWith, TableJoiner.renderFrom, TableJoiner.by', joinFields,
    JoinCondition.render, kwOn]

example : tableOrErrorP (.name c!"users u") = .ok ⟨c!"users", c!"u"⟩ ∧
    (tableSelectMany (.name c!"users u") [.null ⟨c!"AND", false⟩ ⟨c!"x", [], []⟩]).bind SelectMany.build =
      .ok (c!"SELECT * FROM users AS u WHERE x IS NULL", []) ∧
    (tableUpdate (.ident ⟨c!"users", c!"u"⟩) [⟨⟨c!"x", [], []⟩, .nil⟩]).getValues.length = 1 := ⟨by decide, by rfl, by rfl⟩

/-! ## C52 -/

/-- What `Operation()` of a builder returns (conditions and count builders have no such method). -/
def PV.operation : PV → Option Int
  | .base q => some q.operation
  | .single q => some q.operation
  | .many q => some q.operation
  | .insert q => some q.operation
  | .update q => some q.operation
  | .delete q => some q.operation
  | _ => none

/-- The operation each kind of builder has. -/
def OpFine : PV → Prop
  | .base q => q.op = doSelect
  | .single q => q.base.op = doSelect
  | .many q => q.base.op = doSelect
  | .count q => q.base.op = doSelect
  | .insert q => q.op = doInsert
  | .update q => q.op = doUpdate
  | .delete q => q.op = doDelete
  | .joinB q => q.op = doSelect
  | .joinS q => q.base.op = doSelect
  | .joinM q => q.base.op = doSelect
  | .cond _ => True

/-- The text begins with this word. -/
def FirstWord (w s : Str) : Prop := ∃ rest, s = w ++ ' ' :: rest

theorem on_op (q : BaseSelect) (l x : FieldDef) (h : q.op = doSelect) (q' : BaseSelect) (e : q.on l x = .ok q') : q'.op = doSelect := by
  unfold BaseSelect.on at e
  split at e
  · simp at e
  · simp at e; subst e; exact h

theorem count_op (q : BaseSelect) (fs : List Str) (h : q.op = doSelect) (c : CountB) (e : count q fs = .ok c) :
    c.base.op = doSelect := by
  unfold count at e
  split at e <;>
    (obtain ⟨fd, _, e⟩ := Res.bind_eq_ok.mp e
     simp at e
     subst e
     exact h)

theorem opFine_step (ps : List PV) (hp : ∀ p ∈ ps, OpFine p) (c : Call) (q : PV) (h : c.pure ps = some q) : OpFine q := by
  have get : ∀ (r : Nat) (p : PV), ps[r]? = some p → OpFine p := fun r p hr => hp p (List.mem_of_getElem? hr)
  have opt : ∀ {α β : Type} {x : Res α} {f : α → β} {y : β}, x.toOption.map f = some y → ∃ a, x = .ok a ∧ f a = y := by
    intro α β x f y hx
    cases x <;> simp [Res.toOption] at hx
    exact ⟨_, rfl, hx⟩
  cases c <;> simp only [Call.pure] at h
  all_goals try (split at h)
  all_goals first
    | (obtain ⟨a, ha, rfl⟩ := opt h)
    | (simp only [Option.some.injEq, reduceCtorEq] at h; first | done | subst h)
    | (simp only [Option.map_eq_some_iff] at h; obtain ⟨a, ha, rfl⟩ := h)
  all_goals first
    | trivial
    | rfl
    | (rename_i heq; exact get _ _ heq)
    | (rename_i heq _; exact get _ _ heq)
    | (rename_i heq; have k := get _ _ heq; exact k)
    | (rename_i heq _; have k := get _ _ heq; exact k)
    | (obtain ⟨t, _, h2⟩ := Res.bind_eq_ok.mp ha; simp at h2; subst h2; rfl)
    | (rename_i heq; exact on_op _ _ _ (get _ _ heq) _ ha)
    | (rename_i heq
       obtain ⟨b, hb, h2⟩ := Res.bind_eq_ok.mp ha
       simp at h2
       subst h2
       have k := get _ _ heq
       exact on_op _ _ _ k _ hb)
    | (rename_i heq; have k := get _ _ heq; exact count_op _ _ k _ ha)

theorem opFine_run : ∀ (cs : List Call) (ps qs : List PV), (∀ p ∈ ps, OpFine p) → runPure ps cs = some qs → ∀ q ∈ qs, OpFine q
  | [], ps, qs, hp, h => by simp [runPure] at h; subst h; exact hp
  | c :: cs, ps, qs, hp, h => by
    simp only [runPure] at h
    split at h
    · rename_i p hc
      refine opFine_run cs (ps ++ [p]) qs (fun x hx => ?_) h
      simp only [List.mem_append, List.mem_singleton] at hx
      rcases hx with hx | rfl
      · exact hp x hx
      · exact opFine_step ps hp c _ hc
    · simp at h

theorem base_first (q : BaseSelect) (sql : Str) (vs : List Val) (h : q.build = .ok (sql, vs)) : FirstWord c!"SELECT" sql := by
  obtain ⟨tail, h1, _⟩ := C18_count_same_rows q ⟨[], [], []⟩ sql vs h
  exact ⟨q.fields.fieldList ++ c!" FROM " ++ tail, by rw [h1]; simp⟩

/-- **C52.** In every history, `Operation()` of every builder prints as the first word of the SQL the builder makes. -/
theorem C52_operation (cs : List Call) (ps : List PV) (h : runPure [] cs = some ps) (r : Nat) (p : PV) (hr : ps[r]? = some p)
    (op : Int) (ho : p.operation = some op) (sql : Str) (vs : List Val) (hb : p.look .build = .ok (.query sql vs)) :
    FirstWord (operationString op) sql := by
  have hf := opFine_run cs [] ps (fun p hp => by simp at hp) h p (List.mem_of_getElem? hr)
  have out : ∀ x : Res (Str × List Val), POut.ofQuery x = .ok (.query sql vs) → x = .ok (sql, vs) := by
    intro x hx
    obtain ⟨a, ha, he⟩ := Res.bind_eq_ok.mp hx
    simp at he
    rw [ha, ← he.1, ← he.2]
  cases p with
  | cond c => simp [PV.operation] at ho
  | count q => simp [PV.operation] at ho
  | joinB q => simp [PV.operation] at ho
  | joinS q => simp [PV.operation] at ho
  | joinM q => simp [PV.operation] at ho
  | base q =>
    simp only [PV.operation, BaseSelect.operation, Option.some.injEq] at ho
    simp only [OpFine] at hf
    rw [← ho, hf]
    exact base_first q sql vs (out _ hb)
  | single q =>
    simp only [PV.operation, SelectSingle.operation, Option.some.injEq] at ho
    simp only [OpFine] at hf
    rw [← ho, hf]
    obtain ⟨sql0, h1, h2⟩ := ((C21_single_partial q [] ⟨[], []⟩ 0 zeroFD zeroFD).1 sql vs).mp (out _ hb)
    obtain ⟨rest, h3⟩ := base_first _ _ _ h1
    exact ⟨rest ++ c!" LIMIT 1", by rw [h2, h3]; simp [operationString, doSelect, kwSelect]⟩
  | many q =>
    simp only [PV.operation, SelectMany.operation, Option.some.injEq] at ho
    simp only [OpFine] at hf
    rw [← ho, hf]
    obtain ⟨sql0, ps0, h1, h2, _⟩ := C20_many_tail q sql vs (out _ hb)
    obtain ⟨rest, h3⟩ := base_first _ _ _ h1
    exact ⟨_, by rw [h2, h3]; simp only [List.append_assoc, List.cons_append]; rfl⟩
  | insert q =>
    simp only [PV.operation, InsertB.operation, Option.some.injEq] at ho
    simp only [OpFine] at hf
    rw [← ho, hf]
    have hb := out _ hb
    unfold InsertB.build at hb
    split at hb
    · simp at hb
    split at hb
    · simp at hb
    obtain ⟨a, _, h2⟩ := Res.bind_eq_ok.mp hb
    simp only [Res.ok.injEq, Prod.mk.injEq] at h2
    exact ⟨_, by rw [← h2.1]; simp only [joinWith, List.append_assoc]; rfl⟩
  | update q =>
    simp only [PV.operation, UpdateB.operation, Option.some.injEq] at ho
    simp only [OpFine] at hf
    rw [← ho, hf]
    obtain ⟨w, st, n, _, h2, _⟩ := (C15_sql_has_where_partial (delete (.str [])) q).2 sql vs (out _ hb)
    exact ⟨_, by rw [h2]; simp only [List.append_assoc]; rfl⟩
  | delete q =>
    simp only [PV.operation, DeleteB.operation, Option.some.injEq] at ho
    simp only [OpFine] at hf
    rw [← ho, hf]
    obtain ⟨w, _, h2, _⟩ := (C15_sql_has_where_partial q (update (.str []))).1 sql vs (out _ hb)
    exact ⟨_, by rw [h2]; simp only [List.append_assoc]; rfl⟩

example : ∃ ps p, runPure [] [.leaf (.null ⟨c!"AND", false⟩ ⟨c!"x", [], []⟩), .selectFrom (.str c!"t"), .where_ 1 [0], .many 2, .deleteFrom 3] =
    some ps ∧ ps[4]? = some p ∧ p.operation = some doDelete ∧ p.look .build = .ok (.query c!"DELETE FROM t WHERE x IS NULL" []) :=
  ⟨_, _, rfl, rfl, rfl, rfl⟩

/-! ## C53 -/

/-- The join methods of a join condition, with the words each announces. -/
def joinMethods (j : JoinCondition) : List (Str × Res TableJoiner) :=
  [(c!"INNER JOIN", j.innerJoin), (c!"LEFT JOIN", j.leftJoin), (c!"RIGHT JOIN", j.rightJoin), (c!"FULL JOIN", j.fullJoin),
   (c!"INNER JOIN", joinTypeBy innerJoin j.leftField j.rightField), (c!"LEFT JOIN", joinTypeBy leftJoin j.leftField j.rightField),
   (c!"RIGHT JOIN", joinTypeBy rightJoin j.leftField j.rightField), (c!"FULL JOIN", joinTypeBy fullJoin j.leftField j.rightField)]

/-- **C53.** The join methods of a condition between two qualified fields join the table that qualifies the right field, on
equality of the two fields.  Missing: when the qualifier is an alias, see `C53_alias_false`. -/
theorem C53_join_partial (j : JoinCondition) (ht : j.rightField.tableName ≠ []) (hs : NoSpace j.rightField.tableName)
    (kw : Str) (r : Res TableJoiner) (hm : (kw, r) ∈ joinMethods j) :
    ∃ t, r = .ok t ∧ t.getCondition = j ∧ joinTypeString t.getType = kw ∧
      t.renderFrom = kw ++ c!" " ++ j.rightField.tableName ++ c!" ON " ++ j.leftField.tableName ++ c!"." ++ j.leftField.fieldName ++
        c!"=" ++ j.rightField.tableName ++ c!"." ++ j.rightField.fieldName := by
  have e : table j.rightField.tableName = .ok ⟨j.rightField.tableName, []⟩ := (tableP_plain _ ht hs).1
  have key : ∀ jt, ∃ t, j.using jt = .ok t ∧ t.getCondition = j ∧ joinTypeString t.getType = joinTypeString jt ∧
      t.renderFrom = joinTypeString jt ++ c!" " ++ j.rightField.tableName ++ c!" ON " ++ j.leftField.tableName ++ c!"." ++
        j.leftField.fieldName ++ c!"=" ++ j.rightField.tableName ++ c!"." ++ j.rightField.fieldName := by
    intro jt
    refine ⟨⟨⟨j.rightField.tableName, []⟩, jt, j⟩, by simp [JoinCondition.using, e], rfl, rfl, ?_⟩
    simp [TableJoiner.renderFrom, joinWith, TableIdent.renderFrom, JoinCondition.render, FieldDef.renderTableSpec, kwOn]
  simp only [joinMethods, List.mem_cons, List.not_mem_nil, or_false, Prod.mk.injEq] at hm
  rcases hm with ⟨rfl, rfl⟩ | ⟨rfl, rfl⟩ | ⟨rfl, rfl⟩ | ⟨rfl, rfl⟩ | ⟨rfl, rfl⟩ | ⟨rfl, rfl⟩ | ⟨rfl, rfl⟩ | ⟨rfl, rfl⟩
  · exact key innerJoin
  · exact key leftJoin
  · exact key rightJoin
  · exact key fullJoin
  · exact key innerJoin
  · exact key leftJoin
  · exact key rightJoin
  · exact key fullJoin

/-- **C53.** They panic exactly when the qualifier of the right field is no table specification, in particular when it is empty. -/
theorem C53_panics (j : JoinCondition) (kw : Str) (r : Res TableJoiner) (hm : (kw, r) ∈ joinMethods j) :
    ((∃ p, r = .panic p) ↔ ∃ e, tableOrError j.rightField.tableName = .err e) ∧
    (j.rightField.tableName = [] → ∃ p, r = .panic p) := by
  have key : ∀ jt, ((∃ p, j.using jt = .panic p) ↔ ∃ e, tableOrError j.rightField.tableName = .err e) ∧
      (j.rightField.tableName = [] → ∃ p, j.using jt = .panic p) := by
    intro jt
    constructor
    · unfold JoinCondition.using table
      cases h : tableOrError j.rightField.tableName with
      | ok t => simp [Res.must]
      | err e => simp [Res.must]
      | panic p =>
        exfalso
        unfold tableOrError at h
        repeat' split at h
        all_goals simp at h
    · intro h
      exact ⟨.fromErr .badTable, by simp only [JoinCondition.using, h]; rfl⟩
  simp only [joinMethods, List.mem_cons, List.not_mem_nil, or_false, Prod.mk.injEq] at hm
  rcases hm with ⟨rfl, rfl⟩ | ⟨rfl, rfl⟩ | ⟨rfl, rfl⟩ | ⟨rfl, rfl⟩ | ⟨rfl, rfl⟩ | ⟨rfl, rfl⟩ | ⟨rfl, rfl⟩ | ⟨rfl, rfl⟩ <;> exact key _

/-- **C53, false.**  For a field of `Table("orders AS o")` the join names a table `o`, not `orders`. -/
theorem C53_alias_false : ∃ t fd j, tableOrError c!"orders AS o" = .ok t ∧ t.field c!"uid" = .ok fd ∧
    (joinFields ⟨c!"id", c!"users", []⟩ fd).innerJoin = .ok j ∧ t.renderFrom = c!"orders AS o" ∧
    j.renderFrom = c!"INNER JOIN o ON users.id=o.uid" :=
  ⟨⟨c!"orders", c!"o"⟩, ⟨c!"uid", c!"o", []⟩, ⟨⟨c!"o", []⟩, 0, ⟨⟨c!"id", c!"users", []⟩, ⟨c!"uid", c!"o", []⟩⟩⟩, by decide, by decide,
    by rfl, by decide, by rfl⟩

/-! ## C54 -/

/-- **C54.** `ApplyFieldSpec` on an ordering key replaces the field exactly if the names agree and keeps the direction; the
private helpers of the many-row builder do so for every key and change nothing else. -/
theorem C54_ordering (o : FieldSorting) (q : SelectMany) (spec : FieldDef) (t : Str) :
    (o.applyFieldSpec spec).getDirection = o.getDirection ∧
    (o.fd.fieldName = spec.fieldName → (o.applyFieldSpec spec).render = spec.renderField ++ c!" " ++ o.getDirection) ∧
    (o.fd.fieldName ≠ spec.fieldName → o.applyFieldSpec spec = o) ∧
    (o.applyFieldSpec spec).applyFieldSpec spec = o.applyFieldSpec spec ∧
    (o.applyFieldTable t).getDirection = o.getDirection ∧ (o.applyFieldTable t).fd.tableName = t ∧
    (o.applyFieldTable t).fd.fieldName = o.fd.fieldName ∧ (o.applyFieldTable t).fd.alias = o.fd.alias ∧
    (q.applySpecToOrdering spec).order.length = q.order.length ∧
    (∀ (i : Nat) (k : FieldSorting), q.order[i]? = some k → (q.applySpecToOrdering spec).order[i]? = some (k.applyFieldSpec spec) ∧
      (q.applyFieldTableToOrdering t).order[i]? = some (k.applyFieldTable t)) ∧
    (q.applySpecToOrdering spec).base = q.base ∧ (q.applySpecToOrdering spec).offset = q.offset ∧
    (q.applySpecToOrdering spec).limit = q.limit ∧ (q.applyFieldTableToOrdering t).base = q.base ∧
    (q.applyFieldTableToOrdering t).order.length = q.order.length ∧
    (q.applyFieldTableToOrdering t).offset = q.offset ∧ (q.applyFieldTableToOrdering t).limit = q.limit ∧
    (q.applySpecToOrdering spec).tableSpec = q.tableSpec ∧ (q.applyFieldTableToOrdering t).tableSpec = q.tableSpec := by
  have h1 : (o.applyFieldSpec spec).getDirection = o.getDirection := by
    unfold FieldSorting.applyFieldSpec; split <;> rfl
  refine ⟨h1, fun h => ?_, fun h => ?_, ?_, rfl, rfl, rfl, rfl, ?_, fun i k h => ⟨?_, ?_⟩, rfl, rfl, rfl, rfl, ?_, rfl, rfl, rfl,
    rfl⟩
  · simp [FieldSorting.applyFieldSpec, h, FieldSorting.render, FieldSorting.getDirection]
  · simp [FieldSorting.applyFieldSpec, h]
  · unfold FieldSorting.applyFieldSpec
    by_cases h : o.fd.fieldName = spec.fieldName <;> simp [h]
  · simp [SelectMany.applySpecToOrdering]
  · simp only [SelectMany.applySpecToOrdering, List.getElem?_map, h, Option.map_some, Option.some.injEq]
    split
    · rfl
    · rename_i hne
      have : k.fd.fieldName ≠ spec.fieldName := fun e => hne e.symm
      simp [FieldSorting.applyFieldSpec, this]
  · simp only [SelectMany.applyFieldTableToOrdering, List.getElem?_map, h, Option.map_some]
  · simp [SelectMany.applyFieldTableToOrdering]

example : ((⟨⟨c!"id", [], []⟩, c!"DESC"⟩ : FieldSorting).applyFieldSpec ⟨c!"id", c!"u", []⟩).render = c!"u.id DESC" := by decide

/-! ## C55 -/

/-- **C55.** `String()` of a base select shows FROM with its joins, the fields and the WHERE text with `?`, and so is the same
for queries that differ in values only. -/
theorem C55_string (q : BaseSelect) (w : Str) (hw : q.where_.renderSQL = .ok w) :
    q.string = .ok (c!"query.BaseSelectBuilder(" ++ q.renderFrom ++ c!"),Fields(" ++
      joinWith c!"," (q.fieldDefinitions.map FieldDef.renderSpec) ++ c!"),Where(" ++ w ++ c!")") ∧
    ∀ g : Group, q.where_.group.toCond.SameShape g.toCond → ({ q with where_ := ⟨g⟩ } : BaseSelect).string = q.string := by
  constructor
  · simp [BaseSelect.string, WhereClause.string, hw, joinWith, Fields.string, BaseSelect.fieldDefinitions, Fields.fieldDefinitions]
  · intro g hg
    have h := (C07_condition_text _ _ hg 0).2
    simp only [BaseSelect.string, WhereClause.string, WhereClause.renderSQL, Group.renderSQL]
    rw [← h]
    rfl

example : exampleMany.base.string = .ok
    c!"query.BaseSelectBuilder(t AS x LEFT JOIN u ON x.id=u.tid),Fields(x.id,u.name AS n),Where(NOT (a=? OR t.b IN (?,?) AND c IS NULL))" := by
  rfl

/-! ## C56 -/

/-- **C56.** `JoinType.Join` panics for no condition and for a nil among them; otherwise it keeps all values in order. -/
theorem C56_join (j : Str) (cs : List CondI) :
    ((∃ p, joinAll j cs = .panic p) ↔ cs = [] ∨ none ∈ cs) ∧ (∀ e, joinAll j cs ≠ .err e) ∧
    ∀ c, joinAll j cs = .ok c → ∀ (ds : List Cond) (ws : List (List Val)), cs = ds.map some → ds.map Cond.values = ws.map .ok →
      c.values = .ok ws.flatten := by
  have hset : ∀ cs : List CondI, (none ∈ cs ∧ ∃ p, setToAllI j cs = .panic p) ∨
      (∃ ds, cs = ds.map some ∧ setToAllI j cs = .ok (setToAll j ds)) := by
    intro cs
    induction cs with
    | nil => exact .inr ⟨[], rfl, rfl⟩
    | cons c cs ih =>
      cases c with
      | none => exact .inl ⟨by simp, .nilDeref, by simp [setToAllI, Res.mapL, joinOneI]⟩
      | some c =>
        rcases ih with ⟨h1, p, h2⟩ | ⟨ds, h1, h2⟩
        · exact .inl ⟨by simp [h1], p, by simp only [setToAllI] at h2; simp [setToAllI, Res.mapL, joinOneI, h2]⟩
        · exact .inr ⟨c :: ds, by simp [h1], by simp only [setToAllI] at h2; simp [setToAllI, Res.mapL, joinOneI, h2, setToAll]⟩
  have hnm : ∀ ds : List Cond, none ∉ ds.map some := by intro ds; simp
  match cs with
  | [] => exact ⟨by simp [joinAll], by simp [joinAll], by simp [joinAll]⟩
  | [none] => exact ⟨by simp [joinAll, joinOneI], by simp [joinAll, joinOneI], by simp [joinAll, joinOneI]⟩
  | [some c] =>
    refine ⟨by simp [joinAll, joinOneI], by simp [joinAll, joinOneI], ?_⟩
    intro d hd ds ws h1 h2
    simp only [joinAll, joinOneI, Res.ok.injEq] at hd
    subst hd
    match ds, h1 with
    | [c'], h1 =>
      simp at h1
      subst h1
      match ws, h2 with
      | [w], h2 =>
        simp at h2
        simp [(C39_flags c false false j j).2.2.2.2.2.2.2.2.2.2.2.1, h2]
      | [], h2 => simp at h2
      | _ :: _ :: _, h2 => simp at h2
    | [], h1 => simp at h1
    | _ :: _ :: _, h1 => simp at h1
  | a :: b :: rest =>
    have e : joinAll j (a :: b :: rest) = (newGroupI j (a :: b :: rest)).bind fun g => .ok g.toCond := by
      simp [joinAll]
    rw [e]
    rcases hset (a :: b :: rest) with ⟨h1, p, h2⟩ | ⟨ds, h1, h2⟩
    · simp only [newGroupI, h2, Res.bind_panic]
      exact ⟨by simp [h1], by simp, by simp⟩
    · simp only [newGroupI, h2, Res.bind_ok]
      refine ⟨by rw [h1]; simp [hnm]; intro e; simp [e] at h1, by simp, ?_⟩
      intro c hc ds' ws h3 h4
      have : ds' = ds := by
        have : ds'.map some = ds.map some := by rw [← h3, h1]
        exact (List.map_inj_right (by simp)).mp this
      subst this
      simp only [Res.ok.injEq] at hc
      subst hc
      exact C13_newGroup_values j ds' ws h4

theorem joinAll_text (j : Str) (hj : j = lAND ∨ j = lOR) (cs : List Cond) (hn : cs ≠ []) (row : Row) (x : Tri)
    (hc : ∀ c ∈ cs, c.Readable) (h : (newGroup j cs).toCond.textSem row = x)
    (h1 : ∀ c, cs = [c] → c.textSem row = x) :
    TextMeans (newGroup j cs).toCond row x ∧ ∃ d, joinAll j (cs.map some) = .ok d ∧ TextMeans d row x := by
  have hg : TextMeans (newGroup j cs).toCond row x := means_of (readable_toCond.mpr (readL_setToAll hj hn hc)) h
  refine ⟨hg, ?_⟩
  have hset : ∀ cs : List Cond, setToAllI j (cs.map some) = .ok (setToAll j cs) := by
    intro cs
    induction cs with
    | nil => rfl
    | cons c cs ih =>
      simp only [setToAllI] at ih
      simp [setToAllI, Res.mapL, joinOneI, ih, setToAll]
  match cs, hn, h1 with
  | [c], _, h1 =>
    exact ⟨c.join j, rfl, means_of (readable_join j (hc c (by simp))) (by rw [textSem_join]; exact h1 c rfl)⟩
  | a :: b :: rest, _, _ =>
    refine ⟨(newGroup j (a :: b :: rest)).toCond, ?_, hg⟩
    have := hset (a :: b :: rest)
    simp only [List.map_cons] at this
    simp [joinAll, newGroupI, this, newGroup]

/-- **C56**: joined by OR, the text means that one of the conditions holds, whatever they are. -/
theorem C56_or (cs : List Cond) (hn : cs ≠ []) (row : Row) (y : Cond → Tri)
    (hc : ∀ c ∈ cs, c.Readable) (hy : ∀ c ∈ cs, TextMeans c row (y c)) :
    TextMeans (newGroup c!"OR" cs).toCond row (anyOf (cs.map y)) ∧
    ∃ d, joinAll c!"OR" (cs.map some) = .ok d ∧ TextMeans d row (anyOf (cs.map y)) := by
  have ht := texts_sem hc hy
  refine joinAll_text lOR (Or.inr rfl) cs hn row _ hc (by rw [newGroup_or_sem row cs hn hc, ht]) ?_
  rintro c rfl
  have := (textMeans_iff c row _ (hc c (by simp))).mp (hy c (by simp))
  simp [this, anyOf]

/-- **C56**: joined by AND, the text means that all hold, for conditions without an OR outside brackets.  Missing: other
conditions, see `C56_and_false`. -/
theorem C56_and_partial (cs : List Cond) (hn : cs ≠ []) (row : Row) (y : Cond → Tri)
    (hc : ∀ c ∈ cs, c.Readable) (hy : ∀ c ∈ cs, TextMeans c row (y c)) (ho : ∀ c ∈ cs, c.orFree = true) :
    TextMeans (newGroup c!"AND" cs).toCond row (allOf (cs.map y)) ∧
    ∃ d, joinAll c!"AND" (cs.map some) = .ok d ∧ TextMeans d row (allOf (cs.map y)) := by
  have ht := texts_sem hc hy
  refine joinAll_text lAND (Or.inl rfl) cs hn row _ hc (by rw [newGroup_and_sem row cs hn hc ho, ht]) ?_
  rintro c rfl
  have := (textMeans_iff c row _ (hc c (by simp))).mp (hy c (by simp))
  simp [this, allOf]

/-- **C56, false.**  `AND.Join(Or(a, b), c)` is `a OR b AND c`; it is true on a row where c does not hold. -/
theorem C56_and_false : ∃ d, joinAll c!"AND" [some (orC (la 1) [lb 2]), some (lc 3)] = .ok d ∧
    d.render 0 = .ok c!"a=$1 OR b=$2 AND c=$3" ∧ TextMeans (lc 3) (exRow [c!"a"]) .f ∧ TextMeans d (exRow [c!"a"]) .t :=
  ⟨(newGroup lAND [orC (la 1) [lb 2], lc 3]).toCond, rfl, rfl, means_of exC rfl,
    means_of (c := (newGroup lAND [orC (la 1) [lb 2], lc 3]).toCond)
      (pair_readable (pair_readable exA exB (Or.inr rfl)) exC (Or.inl rfl)) rfl⟩

example : ∃ d, joinAll c!"OR" [some (la 1), some (andC (lb 2) [lc 3])] = .ok d ∧
    d.render 0 = .ok c!"a=$1 OR b=$2 AND c=$3" := ⟨_, rfl, rfl⟩

/-! ## C57 -/

/-- `As` and `Of` on a field definition. -/
inductive DefCall where
  | as (alias : Str)
  | of (table : Str)

/-- A chain of such calls. -/
def runDef (f : FieldDef) : List DefCall → FieldDef
  | [] => f
  | .as a :: rest => runDef (f.as a) rest
  | .of t :: rest => runDef (f.of t) rest

/-- The aliases given, in order. -/
def DefCall.aliases : List DefCall → List Str
  | [] => []
  | .as a :: rest => a :: DefCall.aliases rest
  | .of _ :: rest => DefCall.aliases rest

/-- The tables given, in order. -/
def DefCall.tables : List DefCall → List Str
  | [] => []
  | .as _ :: rest => DefCall.tables rest
  | .of t :: rest => t :: DefCall.tables rest

/-- The values passed to `Set`, in order. -/
def UpdateCall.values : List UpdateCall → List FieldValue
  | [] => []
  | .set vs :: rest => vs ++ UpdateCall.values rest
  | .addWhere _ :: rest => UpdateCall.values rest

/-- **C57.** The accessors of a field definition give back the name it was made with, the alias of the last `As` and the table of
the last `Of`; `TableFieldName` is table, dot and name. -/
theorem C57_field (f : FieldDef) (ops : List DefCall) :
    (runDef f ops).getName = f.getName ∧
    (runDef f ops).getAlias = (DefCall.aliases ops).getLast?.getD f.getAlias ∧
    (runDef f ops).getTable = (DefCall.tables ops).getLast?.getD f.getTable ∧
    (runDef f ops).tableFieldName = (runDef f ops).getTable ++ c!"." ++ (runDef f ops).getName := by
  refine ⟨?_, ?_, ?_, rfl⟩
  · induction ops generalizing f with
    | nil => rfl
    | cons op ops ih => cases op <;> simp only [runDef, ih] <;> rfl
  · induction ops generalizing f with
    | nil => rfl
    | cons op ops ih =>
      cases op <;> simp only [runDef, ih, DefCall.aliases]
      · cases DefCall.aliases ops <;> simp [FieldDef.as, FieldDef.getAlias, List.getLast?_cons]
      · rfl
  · induction ops generalizing f with
    | nil => rfl
    | cons op ops ih =>
      cases op <;> simp only [runDef, ih, DefCall.tables]
      · rfl
      · cases DefCall.tables ops <;> simp [FieldDef.of, FieldDef.getTable, List.getLast?_cons]

/-- **C57.** The accessors of the write builders give back, after any calls, the table they were made for and all values set, in
order. -/
theorem C57_write (p : TableParam) (vss : List (List FieldValue)) (us : List UpdateCall) (ds : List (List Cond)) :
    let i := vss.foldl InsertB.addValues (insertInto p)
    let u := runUpdate (update p) us
    let d := runDelete (delete p) ds
    let name : Str := match p with
      | .str s => s
      | .name s => s
      | .ident t => t.getName
    i.getTable = name ∧ u.getTable = name ∧ d.getTable = name ∧ i.renderFrom = name ∧ u.renderFrom = name ∧ d.renderFrom = name ∧
      i.getValues = vss.flatten ∧ u.getValues = UpdateCall.values us := by
  have hi : ∀ (vss : List (List FieldValue)) (q : InsertB), (vss.foldl InsertB.addValues q).tableName = q.tableName ∧
      (vss.foldl InsertB.addValues q).setValues = q.setValues ++ vss.flatten := by
    intro vss
    induction vss with
    | nil => intro q; simp
    | cons v vss ih => intro q; simp [ih, InsertB.addValues]
  have hu : ∀ (us : List UpdateCall) (q : UpdateB), (runUpdate q us).tableName = q.tableName ∧
      (runUpdate q us).setValues = q.setValues ++ UpdateCall.values us := by
    intro us
    induction us with
    | nil => intro q; simp [runUpdate, UpdateCall.values]
    | cons c us ih => intro q; cases c <;> simp [runUpdate, ih, UpdateCall.values, UpdateB.set, UpdateB.addWhere]
  have hd : ∀ (ds : List (List Cond)) (q : DeleteB), (runDelete q ds).tableName = q.tableName := by
    intro ds
    induction ds with
    | nil => intro q; rfl
    | cons c ds ih => intro q; simp [runDelete, ih, DeleteB.addWhere]
  simp only [InsertB.getTable, UpdateB.getTable, DeleteB.getTable, InsertB.renderFrom, UpdateB.renderFrom, DeleteB.renderFrom,
    tableNameRenderFrom, InsertB.getValues, UpdateB.getValues, (hi _ _).1, (hi _ _).2, (hu _ _).1, (hu _ _).2, hd]
  cases p <;> simp [insertInto, update, delete, paramTableName, TableIdent.getName]

/-- **C57, false.**  The comment of `Alias` says "Same as FieldName until As not called"; it is empty until then. -/
theorem C57_alias_false : ∃ f, fieldOrError c!"users.id" = .ok f ∧ f.getName = c!"id" ∧ f.getAlias ≠ f.getName ∧ f.getAlias = [] :=
  ⟨⟨c!"id", c!"users", []⟩, by decide, rfl, by decide, rfl⟩

/-- **C57 for the alias.**  It is empty exactly for definitions made from one word, and what `As` was given after `As`.
Missing: the alias the comment promises before `As` (`C57_alias_false`). -/
theorem C57_alias_partial (s : Str) (f : FieldDef) (a : Str) (h : fieldOrError s = .ok f) :
    (f.getAlias = [] ↔ ∃ w, Words s [w]) ∧ (f.as a).getAlias = a := by
  refine ⟨?_, rfl⟩
  obtain ⟨w, ⟨h1, h2⟩ | ⟨as, h1, _⟩, _⟩ := (C24_exact s f).mp h
  · exact ⟨fun _ => ⟨w, h1⟩, fun _ => h2⟩
  · constructor
    · intro e
      exact absurd e (words_mem h1 f.alias (by simp)).1
    · rintro ⟨w', h3⟩
      have e1 := (fields_iff _ _).mpr h1
      have e2 := (fields_iff _ _).mpr h3
      rw [e1] at e2
      simp at e2

end Query
