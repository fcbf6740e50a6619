import Verif.Props.Access
/-!
# Names given as a string, as a name or as a definition (C24, C26), and the accessors of table identifiers (C57)
-/
namespace Query

/-- **C24**, for every kind of parameter: `Field` panics exactly where `FieldOrError` errs and otherwise returns the same; a
string and a `FieldName` of the same text are the same, also through `FieldName.Field`; a definition is returned as it is and,
for plain parts, means what its printed form means. -/
theorem C24_sources (p : FieldParam) (s : Str) (f : FieldDef) :
    (∀ g, fieldP p = .ok g ↔ fieldOrErrorP p = .ok g) ∧ ((∃ x, fieldP p = .panic x) ↔ ∃ e, fieldOrErrorP p = .err e) ∧
    (∀ e, fieldP p ≠ .err e) ∧
    fieldP (.str s) = fieldP (.name s) ∧ fieldNameField s = fieldP (.str s) ∧
    fieldNameField (fieldNameString s) = field s ∧
    (f.Plain → ∃ g, fieldP (.str f.renderSpec) = .ok g ∧ fieldP (.defn f) = .ok f ∧ g.fieldName = f.fieldName ∧
      g.tableName = f.tableName ∧ g.renderSpec = f.renderSpec ∧ g.renderField = f.renderField) := by
  have key : ∀ t, (∀ g, field t = .ok g ↔ fieldOrError t = .ok g) ∧
      ((∃ x, field t = .panic x) ↔ ∃ e, fieldOrError t = .err e) ∧ ∀ e, field t ≠ .err e := C24_field_panics
  refine ⟨?_, ?_, ?_, rfl, rfl, rfl, ?_⟩
  · cases p with
    | str t => exact (key t).1
    | name t => exact (key t).1
    | defn g => exact fun _ => Iff.rfl
  · cases p with
    | str t => exact (key t).2.1
    | name t => exact (key t).2.1
    | defn g => constructor <;> (rintro ⟨_, h⟩; cases h)
  · cases p with
    | str t => exact (key t).2.2
    | name t => exact (key t).2.2
    | defn g => exact fun _ h => by cases h
  · intro hf
    obtain ⟨g, h1, h2, h3, -, h5, h6, -⟩ := C25_round_trip f hf
    exact ⟨g, h1, rfl, h2, h3, h5, h6⟩

example : fieldP (.name c!"users.id AS uid") = .ok ⟨c!"id", c!"users", c!"uid"⟩ ∧
    fieldP (.defn ⟨c!"id", c!"users", c!"uid"⟩) = .ok ⟨c!"id", c!"users", c!"uid"⟩ ∧
    (∃ x, fieldP (.str c!"a b") = .panic x) := by
  refine ⟨by decide, by decide, _, rfl⟩

/-- The alias the specification of a table names: nothing, or the last of its words. -/
def AliasWord (s name a : Str) : Prop :=
  (Words s [name] ∧ a = []) ∨ Words s [name, a] ∨ ∃ as, Words s [name, as, a] ∧ IsAs as

/-- **C57** for table identifiers: `TableName` is the first word of the specification whatever `As` is called afterwards;
`Alias` is that of the last `As`, or else the one the specification names, and it is empty when it would be the name itself.
A table given as a `TableName` is the same, `RenderFrom` prints the two. -/
theorem C57_table (s : Str) (t : TableIdent) (as : List Str) (h : tableOrError s = .ok t) :
    let u := as.foldl TableIdent.as t
    ∃ a0, AliasWord s u.getName a0 ∧
      u.getAlias = (if as.getLast?.getD a0 = u.getName then [] else as.getLast?.getD a0) ∧
      u.renderFrom = (if u.getAlias = [] then u.getName else u.getName ++ c!" AS " ++ u.getAlias) ∧
      tableNameIdent (tableNameString s) = .ok t := by
  obtain ⟨⟨a0, hw, ha⟩, -⟩ := (C26_exact s t).mp h
  have hn : ∀ (as : List Str) (t : TableIdent), (as.foldl TableIdent.as t).name = t.name := by
    intro as
    induction as with
    | nil => intro t; rfl
    | cons a as ih => intro t; rw [List.foldl_cons, ih]; rfl
  have hal : ∀ (as : List Str) (t : TableIdent) (a0 : Str), t.alias = (if a0 = t.name then [] else a0) →
      (as.foldl TableIdent.as t).alias = if as.getLast?.getD a0 = t.name then [] else as.getLast?.getD a0 := by
    intro as
    induction as with
    | nil => intro t a0 h; exact h
    | cons a as ih =>
      intro t a0 _
      rw [List.foldl_cons, ih (t.as a) a rfl, List.getLast?_cons]
      rfl
  refine ⟨a0, ?_, ?_, ?_, ?_⟩
  · rw [show (as.foldl TableIdent.as t).getName = t.name from hn as t]
    exact hw
  · rw [show (as.foldl TableIdent.as t).getName = t.name from hn as t]
    exact hal as t a0 ha
  · have h1 := hal as t a0 ha
    show (as.foldl TableIdent.as t).renderFrom = if (as.foldl TableIdent.as t).alias = [] then (as.foldl TableIdent.as t).name
      else (as.foldl TableIdent.as t).name ++ c!" AS " ++ (as.foldl TableIdent.as t).alias
    unfold TableIdent.renderFrom
    have h2 := hn as t
    generalize as.foldl TableIdent.as t = u at h1 h2 ⊢
    by_cases he : u.alias = []
    · simp [he]
    · have hne : u.alias ≠ u.name := by
        rw [h2]
        intro e
        rw [h1] at e
        split at e
        · rw [h1] at he
          simp_all
        · exact absurd e (by assumption)
      have : 0 < u.alias.length := List.length_pos_iff.mpr he
      simp [he, hne, this]
  · show table s = .ok t
    unfold table
    rw [h]
    rfl

example : ∃ t, tableOrError c!"orders AS o" = .ok t ∧ t.getAlias = c!"o" ∧ ((t.as c!"x").as c!"p").getAlias = c!"p" ∧
    ((t.as c!"x").as c!"orders").getAlias = [] ∧ (t.as c!"x").getName = c!"orders" ∧
    (t.as c!"x").renderFrom = c!"orders AS x" :=
  ⟨⟨c!"orders", c!"o"⟩, by decide, rfl, by decide, by decide, rfl, by decide⟩

/-- **C53.** `NewTableJoiner` on the identifier of the table that qualifies the right field is what the join methods return, and
prints the same; with any identifier it joins what that identifier prints. -/
theorem C53_new (j : JoinCondition) (typ : Int) (t : TableIdent) :
    (∀ x, j.using typ = .ok x ↔ ∃ u, tableOrError j.rightField.tableName = .ok u ∧ x = newTableJoiner u typ j) ∧
    (newTableJoiner t typ j).renderFrom = joinTypeString typ ++ c!" " ++ t.renderFrom ++ c!" ON " ++
      j.leftField.renderTableSpec ++ c!"=" ++ j.rightField.renderTableSpec := by
  constructor
  · intro x
    unfold JoinCondition.using table
    cases h : tableOrError j.rightField.tableName with
    | ok u => simp [Res.must, Res.bind, newTableJoiner, eq_comm]
    | err e => simp [Res.must, Res.bind]
    | panic e => simp [Res.must, Res.bind]
  · unfold newTableJoiner TableJoiner.renderFrom
    simp [List.append_assoc, joinWith, kwOn, JoinCondition.render]

example : (newTableJoiner ⟨c!"orders", c!"o"⟩ Query.leftJoin ⟨⟨c!"id", c!"u", []⟩, ⟨c!"uid", c!"o", []⟩⟩).renderFrom =
    c!"LEFT JOIN orders AS o ON u.id=o.uid" := by decide

/-- **C42** for the words of conditions and orderings: a sorting key prints its field and its direction's `String()`, which is
`ASC` or `DESC` and asks `OrderBy` for the same key again; `AND`, `OR`, the operations of `Operation.New` and the keywords print
the words. -/
theorem C42_words (s : Str) (dirs : List Str) (o : FieldSorting) (h : orderBy s dirs = .ok o) :
    o.render = o.fd.renderField ++ c!" " ++ sortDirectionString o.getDirection ∧
    (sortDirectionString o.getDirection = c!"ASC" ∨ sortDirectionString o.getDirection = c!"DESC") ∧
    orderBy s [sortDirectionString o.getDirection] = .ok o ∧
    logicalString lAND = c!"AND" ∧ logicalString lOR = c!"OR" ∧
    [doSelect, doInsert, doUpdate, doDelete].map (fun op => operationString (operationNew op)) =
      [kwSelect, kwInsert, kwUpdate, kwDelete].map keywordString := by
  obtain ⟨d, fd, h1, h2, h3, rfl⟩ := ((C37_exact s dirs).1 o).mp h
  have hd : d = c!"ASC" ∨ d = c!"DESC" := by
    unfold directionOf at h1
    split at h1
    all_goals first
      | (split at h1 <;> simp_all; done)
      | simp_all
  refine ⟨rfl, hd, ?_, rfl, rfl, by decide⟩
  refine ((C37_exact s _).1 _).mpr ⟨d, fd, ?_, h2, h3, rfl⟩
  rcases hd with rfl | rfl <;> rfl

example : ∃ o, orderBy c!"users.id" [c!"DESC"] = .ok o ∧ o.render = c!"users.id DESC" ∧ o.getDirection = c!"DESC" :=
  ⟨⟨⟨c!"id", c!"users", []⟩, c!"DESC"⟩, by decide, by decide, rfl⟩

end Query
