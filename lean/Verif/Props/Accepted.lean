import Verif.Proof.Reject
/-!
# C66: which conditions give SQL
-/
namespace Query

/-! ## The condition alone -/

/-- **C66.**  Over plain identifiers the text of a condition is an SQL expression exactly when no column in it has an alias,
no IN is empty and no group is empty, at any depth. -/
theorem C66_condition (c : Cond) (k : Nat) (h : c.Every WritableNode) :
    ∃ s, c.render k = .ok s ∧ ((∃ e, Reads s e) ↔ c.Every SoundNode) := by
  obtain ⟨vs, hv⟩ := writable_values c h
  refine ⟨c.renderP k, c.render_pure vs hv k, ?_, fun hs => ?_⟩
  · rintro ⟨e, he⟩
    refine Classical.byContradiction fun hn => ?_
    have h1 := reader_finds he
    rw [unsound_read c k h hn] at h1
    cases h1
  · exact ⟨_, (render_reads c k ((cond_sound c k h).2.1 hs).1).2⟩

/-- Unsound: an empty group inside a group, an aliased column, an empty IN. -/
def exampleUnsound : Cond :=
  .group ⟨lAND, false⟩
    [.fieldc .eq ⟨lAND, false⟩ ⟨⟨c!"a", [], []⟩, .other 1⟩,
     .group ⟨lOR, true⟩ [.group ⟨lAND, false⟩ [] true] false] false

/-- The names of the example are plain. -/
theorem exampleUnsound_plain : exampleUnsound.Every WritableNode ∧ ¬ exampleUnsound.Every SoundNode := by
  refine ⟨⟨by simp [WritableNode, CondBase.joinType, Cond.joinType, Cond.base, lOR], ⟨.of ⟨⟨by decide, by decide, by decide⟩, by decide⟩ (.inl rfl) (.inl rfl), _, rfl⟩,
    ⟨by simp [WritableNode], ⟨by simp [WritableNode], trivial⟩, trivial⟩, trivial⟩, fun h => ?_⟩
  exact h.2.2.1.2.1.1 rfl

example : exampleUnsound.render 0 = .ok c!"a=$1 OR NOT " := rfl

/-! ## Statements -/

/-- **C66**, SELECT: whatever the fields, the table, the joins, the ordering and the limits, the text of a builder whose
condition is not sound is no statement. -/
theorem C66_select (b : BaseSelect) (fd : FieldDef) (offset : Nat) (limit : Int) (order : List FieldSorting) (spec : Bool)
    (hn : b.where_.conditions ≠ []) (h : b.where_.group.toCond.Every WritableNode)
    (hu : ¬ b.where_.group.toCond.Every SoundNode) (sql : Str) (params : List Val)
    (hb : b.build = .ok (sql, params) ∨ (SelectSingle.mk b).build = .ok (sql, params) ∨
      (SelectMany.mk b offset limit order spec).build = .ok (sql, params) ∨ (CountB.mk b fd).build = .ok (sql, params)) :
    readStmt sql = none := by
  obtain ⟨vs, hv⟩ := writable_values _ h
  have hr : b.where_.render 0 = .ok (b.where_.group.toCond.renderP 0) := Cond.render_pure _ vs hv 0
  have hv' : b.where_.values = .ok vs := hv
  have hlen : b.where_.conditions.length > 0 := List.length_pos_iff.mpr hn
  have hbase : b.build = .ok (joinWith c!" " b.headTokens ++ c!" WHERE " ++ b.where_.group.toCond.renderP 0, vs) := by
    unfold BaseSelect.build
    rw [if_pos hlen]
    simp only [hr, hv', Res.bind_ok]
    rw [joinWith_append_sep c!" " b.headTokens _ (by simp [BaseSelect.headTokens]) (by simp)]
    simp [joinWith, kwWhere]
  cases hs : readStmt sql with
  | none => rfl
  | some st =>
    refine absurd ?_ hu
    rcases hb with hb | hb | hb | hb
    · rw [hbase] at hb
      cases hb
      exact unsound_stmt h 0 (tail := []) (.inl rfl) (by rw [List.append_nil]; exact hs)
    · simp only [SelectSingle.build, hbase, Res.bind_ok] at hb
      cases hb
      exact unsound_stmt h 0 (tail := c!" LIMIT 1") (.inr ⟨c!"LIMIT 1", rfl, by decide⟩) hs
    · obtain ⟨sql0, params0, h1, h2, _⟩ := C20_many_tail _ sql params hb
      simp only at h1 h2
      rw [hbase] at h1
      cases h1
      rw [h2, List.append_assoc] at hs
      refine unsound_stmt h 0 ?_ hs
      have hk : ∀ kw ∈ [c!"ORDER", c!"OFFSET", c!"LIMIT"], ∀ r, ∀ t ∈ (lex (kw ++ ' ' :: r)).head?, t.clause? ≠ none := by
        intro kw hkw r
        rw [lex_space]
        simp only [List.mem_cons, List.not_mem_nil, or_false] at hkw
        rcases hkw with rfl | rfl | rfl
        · rw [show lex c!"ORDER" = [.word c!"ORDER"] by decide]; simp [Tok.clause?, clauseWords]
        · rw [show lex c!"OFFSET" = [.word c!"OFFSET"] by decide]; simp [Tok.clause?, clauseWords]
        · rw [show lex c!"LIMIT" = [.word c!"LIMIT"] by decide]; simp [Tok.clause?, clauseWords]
      by_cases ho : order = []
      · rw [if_pos ho, List.nil_append]
        unfold limitItems
        by_cases c1 : offset > 0
        · refine .inr ⟨_, by simp only [c1, if_true, List.cons_append, limitTexts, spaced, List.map_cons, List.flatten_cons]; rfl, ?_⟩
          have := hk c!"OFFSET" (by simp)
          simpa using this _
        · by_cases c2 : limit > 0
          · refine .inr ⟨_, by simp only [c1, c2, if_true, if_false, List.nil_append, limitTexts, spaced, List.map_cons, List.flatten_cons]; rfl, ?_⟩
            have := hk c!"LIMIT" (by simp)
            simpa using this _
          · exact .inl (by simp [c1, c2, limitTexts, spaced])
      · rw [if_neg ho]
        refine .inr ⟨_, rfl, ?_⟩
        exact hk c!"ORDER" (by simp) _
    · have hc : (CountB.mk b fd).build = .ok (joinWith c!" " [operationString doSelect, kwCount ++ c!"(" ++ fd.renderField ++
          c!")", kwFrom, b.renderFrom] ++ c!" WHERE " ++ b.where_.group.toCond.renderP 0, vs) := by
        unfold CountB.build
        simp only
        rw [if_pos hlen]
        simp only [hr, hv', Res.bind_ok]
        rw [joinWith_append_sep c!" " [operationString doSelect, kwCount ++ c!"(" ++ fd.renderField ++ c!")", kwFrom, b.renderFrom]
          [kwWhere, _] (by simp) (by simp)]
        simp [joinWith, kwWhere]
      rw [hc] at hb
      cases hb
      exact unsound_stmt h 0 (tail := []) (.inl rfl) (by rw [List.append_nil]; exact hs)

/-- The example in a statement. -/
example : let q : BaseSelect := ⟨0, ⟨c!"t x", []⟩, [], ⟨[]⟩, newWhere.groupAND [exampleUnsound]⟩
    (SelectSingle.mk q).build = .ok (c!"SELECT * FROM t x WHERE a=$1 OR NOT  LIMIT 1", [.other 1]) ∧
    readStmt c!"SELECT * FROM t x WHERE a=$1 OR NOT  LIMIT 1" = none := ⟨rfl, by decide⟩

/-- **C66**, DELETE: when a text returned by a delete builder is a statement, whatever the name of the table, it is a
statement with a condition, and the builder's condition is sound.  An unsound condition never turns into a DELETE of all
rows, or of any. -/
theorem C66_delete (q : DeleteB) (h : q.where_.toCond.Every WritableNode) (sql : Str) (params : List Val)
    (hb : q.build = .ok (sql, params)) (st : Stmt) (hs : readStmt sql = some st) : q.where_.toCond.Every SoundNode := by
  obtain ⟨vs, hv⟩ := writable_values _ h
  have hr : q.where_.render 0 = .ok (q.where_.toCond.renderP 0) := Cond.render_pure _ vs hv 0
  obtain ⟨w, h1, h2, _⟩ := (C15_sql_has_where_partial q ⟨0, [], q.where_, []⟩).1 sql params hb
  rw [hr] at h1
  cases h1
  subst h2
  exact unsound_stmt h 0 (tail := []) (.inl rfl) (by rw [List.append_nil]; exact hs)

/-- **C66**, UPDATE: likewise, whatever the table and the values. -/
theorem C66_update (q : UpdateB) (h : q.where_.toCond.Every WritableNode) (sql : Str) (params : List Val)
    (hb : q.build = .ok (sql, params)) (st : Stmt) (hs : readStmt sql = some st) : q.where_.toCond.Every SoundNode := by
  obtain ⟨vs, hv⟩ := writable_values _ h
  obtain ⟨w, setText, n, h1, h2, _⟩ := (C15_sql_has_where_partial ⟨0, [], q.where_⟩ q).2 sql params hb
  have hr : q.where_.render n = .ok (q.where_.toCond.renderP n) := Cond.render_pure _ vs hv n
  rw [hr] at h1
  cases h1
  subst h2
  exact unsound_stmt h n (tail := []) (.inl rfl) (by rw [List.append_nil]; exact hs)

/-- The example: the texts are built and are no statements. -/
example : ((delete (.str c!"t")).addWhere [exampleUnsound]).build = .ok (c!"DELETE FROM t WHERE a=$1 OR NOT ", [.other 1]) ∧
    readStmt c!"DELETE FROM t WHERE a=$1 OR NOT " = none := ⟨rfl, by decide⟩

example : (((update (.str c!"t")).addWhere [.fieldc .inn ⟨lAND, true⟩ ⟨⟨c!"a", [], []⟩, .strs []⟩]).set [⟨⟨c!"f", [], []⟩, .other 7⟩]).build =
    .ok (c!"UPDATE t SET f=$1 WHERE a NOT IN ()", [.other 7]) ∧
    readStmt c!"UPDATE t SET f=$1 WHERE a NOT IN ()" = none := ⟨rfl, by decide⟩

/-- **C66**, both ways: over plain identifiers a delete builder with conditions returns a statement exactly when its condition
is sound. -/
theorem C66_delete_exact (q : DeleteB) (ht : PlainName q.tableName) (hn : q.where_.conds ≠ [])
    (h : q.where_.toCond.Every WritableNode) :
    ∃ sql params, q.build = .ok (sql, params) ∧ ((∃ st, readStmt sql = some st) ↔ q.where_.toCond.Every SoundNode) := by
  obtain ⟨vs, hv⟩ := writable_values _ h
  have hr : q.where_.render 0 = .ok (q.where_.toCond.renderP 0) := Cond.render_pure _ vs hv 0
  have hv' : q.where_.values = .ok vs := hv
  have n1 : ¬ q.where_.conds.length = 0 := by simpa using hn
  have n2 : ¬ q.tableName.length = 0 := by simpa using ht.1
  have hb : q.build = .ok (joinWith c!" " [kwDelete, kwFrom, q.tableName, kwWhere, q.where_.toCond.renderP 0], vs) := by
    simp only [DeleteB.build, n1, n2, if_false, hr, hv', Res.bind_ok]
  refine ⟨_, _, hb, fun ⟨st, hs⟩ => C66_delete q h _ _ hb st hs, fun hs => ?_⟩
  obtain ⟨sql, params, e, h1, h2, _⟩ := C46_delete_partial q ht ((cond_sound _ 0 h).2.1 hs).1
  rw [hb] at h1
  cases h1
  exact ⟨_, h2⟩

/-- **C66**, both ways, for update builders. -/
theorem C66_update_exact (q : UpdateB) (vs : List Val) (ht : PlainName q.tableName) (hn : q.where_.conds ≠ [])
    (hs : q.setValues ≠ []) (hf : ∀ fv ∈ q.setValues, PlainIdent fv.fd.fieldName)
    (hone : q.setValues.map FieldValue.values = vs.map fun v => .ok [v]) (h : q.where_.toCond.Every WritableNode) :
    ∃ sql params, q.build = .ok (sql, params) ∧ ((∃ st, readStmt sql = some st) ↔ q.where_.toCond.Every SoundNode) := by
  obtain ⟨wv, hv⟩ := writable_values _ h
  obtain ⟨w, _, hb, _⟩ := C04_update_partial q vs wv hn hs ht.1 hone hv
  refine ⟨_, _, hb, fun ⟨st, hs⟩ => C66_update q h _ _ hb st hs, fun hsd => ?_⟩
  obtain ⟨sql, params, sets, e, h1, h2, _⟩ := C45_update_partial q vs hs ht hf hone ((cond_sound _ 0 h).2.1 hsd).1
  rw [hb] at h1
  cases h1
  exact ⟨_, h2⟩

/-- **C66**, both ways, for SELECT of many rows. -/
theorem C66_many_exact (q : SelectMany) (hf : ∀ fd ∈ q.base.fields.specs, PlainDef fd) (ht : PlainTable q.base.baseTable)
    (hj : ∀ j ∈ q.base.joins, PlainJoin j) (ho : ∀ o ∈ q.order, PlainKey o)
    (h : q.base.where_.group.toCond.Every WritableNode) :
    ∃ sql params, q.build = .ok (sql, params) ∧
      ((∃ st, readStmt sql = some st) ↔ q.base.where_.conditions = [] ∨ q.base.where_.group.toCond.Every SoundNode) := by
  obtain ⟨vs, hv⟩ := writable_values _ h
  have hbase : ∃ r, q.base.build = .ok r := by
    have hr : q.base.where_.render 0 = .ok (q.base.where_.group.toCond.renderP 0) := Cond.render_pure _ vs hv 0
    have hv' : q.base.where_.values = .ok vs := hv
    unfold BaseSelect.build
    split
    · simp only [hr, hv', Res.bind_ok]; exact ⟨_, rfl⟩
    · exact ⟨_, rfl⟩
  obtain ⟨r0, hr0⟩ := hbase
  have hb : ∃ sql params, q.build = .ok (sql, params) := by
    unfold SelectMany.build
    rw [hr0]
    exact ⟨_, _, rfl⟩
  obtain ⟨sql, params, hb⟩ := hb
  refine ⟨sql, params, hb, fun ⟨st, hs⟩ => ?_, fun hsd => ?_⟩
  · by_cases hn : q.base.where_.conditions = []
    · exact .inl hn
    · refine .inr (Classical.byContradiction fun hu => ?_)
      have := C66_select q.base zeroFD q.offset q.limit q.order q.tableSpec hn h hu sql params (.inr (.inr (.inl hb)))
      rw [this] at hs
      cases hs
  · have hp : PlainSelect q.base := ⟨hf, ht, hj, hsd.imp id fun hs => ((cond_sound _ 0 h).2.1 hs).1⟩
    obtain ⟨sql', params', w, off, lim, h1, h2, _⟩ := C22_many_partial q hp ho
    rw [hb] at h1
    cases h1
    exact ⟨_, h2⟩

/-- The hypotheses hold of a builder with joins, ordering and limits, whose condition is sound. -/
example : ∃ sql params, exampleMany.build = .ok (sql, params) ∧ ∃ st, readStmt sql = some st := by
  obtain ⟨sql, params, w, off, lim, h1, h2, _⟩ := C22_many_partial exampleMany example_plain (by
    intro o ho
    simp only [exampleMany, List.mem_cons, List.not_mem_nil, or_false] at ho
    subst ho
    exact ⟨.of ⟨⟨by decide, by decide, by decide⟩, by decide⟩ (.inr ⟨by decide, by decide, by decide⟩) (.inl rfl), .inr rfl⟩)
  exact ⟨sql, params, h1, _, h2⟩

end Query
