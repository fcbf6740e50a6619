import Verif.Props.Access
/-!
# C23: any number of joins on the single and many builders, and joins begun at a table
-/
namespace Query

/-- The single-row builder after a list of completed joins. -/
def runJoinsSingle (q : SelectSingle) : List JoinCall → Res SelectSingle
  | [] => .ok q
  | j :: rest => ((q.joinIdent j.right j.joinType).on j.l j.r).bind fun q => runJoinsSingle q rest

/-- The many-rows builder after a list of completed joins. -/
def runJoinsMany (q : SelectMany) : List JoinCall → Res SelectMany
  | [] => .ok q
  | j :: rest => ((q.joinIdent j.right j.joinType).on j.l j.r).bind fun q => runJoinsMany q rest

/-- **C23**, the single and many builders, any number of joins: none fails, FROM lists the joins in call order after what it listed, and
nothing else of the builder changes. -/
theorem C23_sequences (js : List JoinCall) (s : SelectSingle) (m : SelectMany) :
    (∃ s', runJoinsSingle s js = .ok s' ∧ s'.base.renderFrom = s.base.renderFrom ++ spaced (js.map JoinCall.text) ∧
      s'.base.fields = s.base.fields ∧ s'.base.where_ = s.base.where_ ∧ s'.base.baseTable = s.base.baseTable ∧
      s'.base.joins.take s.base.joins.length = s.base.joins ∧ s'.base.joins.length = s.base.joins.length + js.length) ∧
    (∃ m', runJoinsMany m js = .ok m' ∧ m'.base.renderFrom = m.base.renderFrom ++ spaced (js.map JoinCall.text) ∧
      m'.base.fields = m.base.fields ∧ m'.base.where_ = m.base.where_ ∧ m'.base.baseTable = m.base.baseTable ∧
      m'.base.joins.take m.base.joins.length = m.base.joins ∧ m'.base.joins.length = m.base.joins.length + js.length ∧
      m'.order = m.order ∧ m'.offset = m.offset ∧ m'.limit = m.limit) := by
  have hs : ∀ (js : List JoinCall) (s : SelectSingle) (b : BaseSelect), runJoins s.base js = .ok b → runJoinsSingle s js = .ok ⟨b⟩ := by
    intro js
    induction js with
    | nil => intro s b h; cases h; rfl
    | cons j js ih =>
      intro s b h
      simp only [runJoins] at h
      obtain ⟨q, h1, h2⟩ := Res.bind_eq_ok.1 h
      simp only [runJoinsSingle, SelectSingle.on, SelectSingle.joinIdent, h1, Res.bind_ok]
      exact ih ⟨q⟩ b h2
  have hm : ∀ (js : List JoinCall) (m : SelectMany) (b : BaseSelect), runJoins m.base js = .ok b →
      ∃ m', runJoinsMany m js = .ok m' ∧ m'.base = b ∧ m'.order = m.order ∧ m'.offset = m.offset ∧ m'.limit = m.limit := by
    intro js
    induction js with
    | nil => intro m b h; cases h; exact ⟨m, rfl, rfl, rfl, rfl, rfl⟩
    | cons j js ih =>
      intro m b h
      simp only [runJoins] at h
      obtain ⟨q, h1, h2⟩ := Res.bind_eq_ok.1 h
      simp only [runJoinsMany, SelectMany.on, SelectMany.joinIdent, h1, Res.bind_ok]
      exact ih { m with base := q } b h2
  refine ⟨?_, ?_⟩
  · obtain ⟨q, h, hf, hw, ht, hj, hl, hr⟩ := C23_joins s.base js
    exact ⟨⟨q⟩, hs js s q h, hr, hf, hw, ht, hj, hl⟩
  · obtain ⟨q, h, hf, hw, ht, hj, hl, hr⟩ := C23_joins m.base js
    obtain ⟨m', h1, rfl, h2, h3, h4⟩ := hm js m q h
    exact ⟨m', h1, hr, hf, hw, ht, hj, hl, h2, h3, h4⟩

/-- **C23**, joins begun at a table, as a name or with its alias: `Join` … `FullJoin` of a table and `TableJoinType.Tables`, completed, and any
joins after: FROM is the table and all the joins in call order, and there are no fields and no conditions. -/
theorem C23_table (p : TableParam) (t : TableIdent) (h : tableOrErrorP p = .ok t) (j : JoinCall) (js : List JoinCall) :
    ∃ q, (((tableJoin p j.right j.joinType).bind fun q => q.on j.l j.r).bind fun q => runJoins q js) = .ok q ∧
      q.renderFrom = t.renderFrom ++ spaced ((j :: js).map JoinCall.text) ∧ q.baseTable = t ∧ q.fieldDefinitions = [] ∧
      q.where_.conditions = [] ∧ q.joins.length = js.length + 1 := by
  obtain ⟨b, hb, hr, _, hd, hj, hw, _⟩ := C51_select p t [] h
  obtain ⟨q, h1, hf, hq, ht, _, hl, hr'⟩ := C23_joins b (j :: js)
  refine ⟨q, ?_, by rw [hr', hr], ?_, ?_, by rw [hq]; exact hw, by rw [hl, hj]; simp⟩
  · simp only [tableJoin, hb, Res.bind_ok]
    exact h1
  · rw [ht]
    have hs : selectFrom p = .ok ⟨0, t, [], ⟨[]⟩, newWhere⟩ := by simp [selectFrom, tableP, h, Res.must]
    simp only [tableSelect, hs, Res.bind_ok] at hb
    cases hb
    rfl
  · rw [← hd]
    unfold BaseSelect.fieldDefinitions
    rw [hf]

/-- Two joins begun at a table with an alias. -/
example : ((((tableJoin (.str c!"t x") ⟨c!"u", []⟩ leftJoin).bind fun q => q.on ⟨c!"id", c!"x", []⟩ ⟨c!"tid", c!"u", []⟩).bind fun q =>
    runJoins q [⟨⟨c!"a", []⟩, innerJoin, ⟨c!"id", c!"u", c!"k"⟩, ⟨c!"n", c!"a", []⟩⟩]).bind fun q => .ok q.renderFrom) =
    .ok c!"t AS x LEFT JOIN u ON x.id=u.tid INNER JOIN a ON u.id=a.n" := by decide +kernel

end Query
