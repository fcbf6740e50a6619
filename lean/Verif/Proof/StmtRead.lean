import Verif.Proof.Stmt
import Verif.Proof.Build
/-!
# Statements read back: from clauses to statements
-/
namespace Query

/-- The token lists of the items of a field list. -/
def itemToks (f : Fields) : List (List Tok) := if f.specs = [] then [[.word c!"*"]] else f.specs.map specToks

theorem lex_fieldList {f : Fields} (h : ∀ fd ∈ f.specs, PlainDef fd) : lex f.fieldList = commaJoin (itemToks f) := by
  unfold Fields.fieldList itemToks
  by_cases hn : f.specs = []
  · rw [if_pos (by simp [hn]), if_pos hn]; decide
  · rw [if_neg (by simpa using hn), if_neg hn, lex_joinComma, List.map_map]
    congr 1
    exact List.map_congr_left fun fd hfd => lex_spec (h fd hfd)

theorem itemToks_inner {f : Fields} (h : ∀ fd ∈ f.specs, PlainDef fd) : ∀ l ∈ itemToks f, Inner l := by
  unfold itemToks
  split
  · intro l hl
    simp only [List.mem_cons, List.not_mem_nil, or_false] at hl
    subst hl
    unfold Inner
    decide
  · intro l hl
    obtain ⟨fd, hfd, rfl⟩ := List.mem_map.mp hl
    exact spec_inner (h fd hfd)

theorem read_items {f : Fields} (h : ∀ fd ∈ f.specs, PlainDef fd) : readAll readItem (itemToks f) = some f.refs := by
  unfold itemToks Fields.refs
  split
  · decide
  · exact readAll_map _ _ _ _ fun fd hfd => read_spec (h fd hfd)

theorem itemToks_ne (f : Fields) : itemToks f ≠ [] := by
  unfold itemToks
  split <;> simp_all

/-- The clauses after the joins. -/
def tailSegs (w o off lim : Option (List Tok)) : List (Str × List Tok) :=
  optSeg c!"WHERE" w ++ (optSeg c!"ORDER" o ++ (optSeg c!"OFFSET" off ++ optSeg c!"LIMIT" lim))

/-- The clauses of a SELECT. -/
def selectSegs (its : List (List Tok)) (t : TableIdent) (js : List TableJoiner) (w o off lim : Option (List Tok)) :
    List (Str × List Tok) :=
  (c!"SELECT", commaJoin its) :: (c!"FROM", tabToks t) :: (joinSegs js ++ tailSegs w o off lim)

theorem read_select (its : List (List Tok)) (is : List SelItem) (t : TableIdent) (js : List TableJoiner)
    (w : Option (List Tok × BExp)) (o : Option (List Tok × List (ColRef × Str))) (off lim : Option (List Tok × Rows))
    (hne : its ≠ []) (hi : ∀ l ∈ its, Inner l) (his : readAll readItem its = some is) (ht : PlainTable t)
    (hj : ∀ j ∈ js, PlainJoin j)
    (hw : ∀ p ∈ w, IsE p.1 p.2) (ho : ∀ p ∈ o, readOrder p.1 = some p.2 ∧ ∀ x ∈ p.1, x.clause? = none)
    (hoff : ∀ p ∈ off, readRows p.1 = some p.2 ∧ ∀ x ∈ p.1, x.clause? = none)
    (hlim : ∀ p ∈ lim, readRows p.1 = some p.2 ∧ ∀ x ∈ p.1, x.clause? = none)
    (sql : Str) (hsql : lex sql = segToks (selectSegs its t js (w.map (·.1)) (o.map (·.1)) (off.map (·.1)) (lim.map (·.1)))) :
    readStmt sql = some (.select ⟨is, t.ref, js.map TableJoiner.ref, w.map (·.2), (o.map (·.2)).getD [], off.map (·.2),
      lim.map (·.2)⟩) := by
  have hc : clauses (lex sql) = ([], selectSegs its t js (w.map (·.1)) (o.map (·.1)) (off.map (·.1)) (lim.map (·.1))) := by
    rw [hsql]
    apply clauses_segs
    intro p hp
    have hopt : ∀ (kw : Str) (x : Option (List Tok)), kw ∈ clauseWords → (∀ b ∈ x, ∀ t ∈ b, t.clause? = none) →
        p ∈ optSeg kw x → p.1 ∈ clauseWords ∧ ∀ t ∈ p.2, t.clause? = none := by
      intro kw x hk hx hp
      cases x with
      | none => simp [optSeg] at hp
      | some b =>
        simp only [optSeg, List.mem_cons, List.not_mem_nil, or_false] at hp
        subst hp
        exact ⟨hk, hx b rfl⟩
    simp only [selectSegs, tailSegs, List.mem_cons, List.mem_append] at hp
    rcases hp with rfl | rfl | hp | hp | hp | hp | hp
    · exact ⟨(by decide : c!"SELECT" ∈ clauseWords), commaJoin_free fun l hl => (hi l hl).2⟩
    · exact ⟨(by decide : c!"FROM" ∈ clauseWords), (tab_inner ht).2⟩
    · obtain ⟨j, hjm, rfl⟩ := List.mem_map.mp hp
      refine ⟨?_, join_free (hj j hjm).named⟩
      have := join_word_mem (hj j hjm).named
      have hsub : ∀ k ∈ joinWords, k ∈ clauseWords := by decide
      exact hsub _ this
    · refine hopt _ _ (by decide) ?_ hp
      intro b hb
      obtain ⟨q, hq, rfl⟩ := Option.map_eq_some_iff.mp hb
      exact cond_clause (hw q hq)
    · refine hopt _ _ (by decide) ?_ hp
      intro b hb
      obtain ⟨q, hq, rfl⟩ := Option.map_eq_some_iff.mp hb
      exact (ho q hq).2
    · refine hopt _ _ (by decide) ?_ hp
      intro b hb
      obtain ⟨q, hq, rfl⟩ := Option.map_eq_some_iff.mp hb
      exact (hoff q hq).2
    · refine hopt _ _ (by decide) ?_ hp
      intro b hb
      obtain ⟨q, hq, rfl⟩ := Option.map_eq_some_iff.mp hb
      exact (hlim q hq).2
  have h1 : readJoins (joinSegs js ++ tailSegs (w.map (·.1)) (o.map (·.1)) (off.map (·.1)) (lim.map (·.1))) =
      some (js.map TableJoiner.ref, tailSegs (w.map (·.1)) (o.map (·.1)) (off.map (·.1)) (lim.map (·.1))) := by
    refine read_joins js hj _ ?_
    intro p hp
    cases w <;> cases o <;> cases off <;> cases lim <;> simp [tailSegs, optSeg] at hp <;> subst hp <;> simp [joinWords]
  have h2 := read_opt c!"WHERE" readBool w (fun p hp => reader_finds (hw p hp))
    (optSeg c!"ORDER" (o.map (·.1)) ++ (optSeg c!"OFFSET" (off.map (·.1)) ++ optSeg c!"LIMIT" (lim.map (·.1)))) (by
      intro p hp
      cases o <;> cases off <;> cases lim <;> simp [optSeg] at hp <;> subst hp <;> simp)
  have h3 := read_opt c!"ORDER" readOrder o (fun p hp => (ho p hp).1)
    (optSeg c!"OFFSET" (off.map (·.1)) ++ optSeg c!"LIMIT" (lim.map (·.1))) (by
      intro p hp
      cases off <;> cases lim <;> simp [optSeg] at hp <;> subst hp <;> simp)
  have h4 := read_opt c!"OFFSET" readRows off (fun p hp => (hoff p hp).1) (optSeg c!"LIMIT" (lim.map (·.1))) (by
      intro p hp
      cases lim <;> simp [optSeg] at hp <;> subst hp <;> simp)
  have h5 := read_opt c!"LIMIT" readRows lim (fun p hp => (hlim p hp).1) [] (by simp)
  rw [List.append_nil] at h5
  unfold readStmt
  rw [hc]
  have hcm : commas (commaJoin its) = its := commas_join hne fun l hl => (hi l hl).1
  have hs : readSelect (commaJoin its) (tabToks t)
      (joinSegs js ++ tailSegs (w.map (·.1)) (o.map (·.1)) (off.map (·.1)) (lim.map (·.1))) =
      some ⟨is, t.ref, js.map TableJoiner.ref, w.map (·.2), (o.map (·.2)).getD [], off.map (·.2), lim.map (·.2)⟩ := by
    unfold readSelect
    rw [hcm, his, read_tab ht, h1]
    unfold tailSegs
    simp only [h2, h3, h4, h5]
  simp only [selectSegs, readClauses, and_self, if_true, hs, Option.map_some]

theorem lex_head {q : BaseSelect} (h : NamedSelect q) :
    lex (joinWith c!" " q.headTokens) = segToks (selectSegs (itemToks q.fields) q.baseTable q.joins none none none none) := by
  have hs : lex (operationString doSelect) = [.word c!"SELECT"] := by decide
  have hf : lex kwFrom = [.word c!"FROM"] := by decide
  rw [lex_joinSpace]
  unfold BaseSelect.headTokens
  simp only [List.flatMap_append, List.flatMap_cons, List.flatMap_nil, hs, hf, lex_fieldList h.fields, lex_tab h.table,
    selectSegs, tailSegs, optSeg, List.append_nil]
  have hj : (q.joins.map TableJoiner.renderFrom).flatMap lex = segToks (joinSegs q.joins) := by
    have : ∀ js : List TableJoiner, (∀ j ∈ js, NamedJoin j) → (js.map TableJoiner.renderFrom).flatMap lex = segToks (joinSegs js) := by
      intro js
      induction js with
      | nil => intro _; rfl
      | cons j js ih =>
        intro hj
        have := ih fun x hx => hj x (by simp [hx])
        simp only [List.map_cons, List.flatMap_cons, lex_join (hj j (by simp)), this]
        simp [segToks, joinSegs]
    exact this q.joins h.joins
  rw [hj]
  simp [segToks]

theorem segs_tail (its : List (List Tok)) (t : TableIdent) (js : List TableJoiner) (w o off lim : Option (List Tok)) :
    segToks (selectSegs its t js w o off lim) =
      segToks (selectSegs its t js none none none none) ++ segToks (tailSegs w o off lim) := by
  simp [selectSegs, segToks, tailSegs, optSeg]

/-- The base builder: the text as clauses, whatever parameters come after its own. -/
theorem base_segs {q : BaseSelect} (h : NamedSelect q) (qs : List Val) :
    ∃ sql params, q.build = .ok (sql, params) ∧ ∃ w : Option (List Tok × BExp), (∀ p ∈ w, IsE p.1 p.2) ∧
      lex sql = segToks (selectSegs (itemToks q.fields) q.baseTable q.joins (w.map (·.1)) none none none) ∧
      WhereRead q (params ++ qs) (w.map (·.2)) ∧
      (∃ tail, sql = c!"SELECT " ++ q.fields.fieldList ++ c!" FROM " ++ tail) ∧
      (q.where_.conditions ≠ [] → ∃ s e, q.where_.render 0 = .ok s ∧ w = some (lex s, e)) := by
  have hfrom : joinWith c!" " q.headTokens = c!"SELECT " ++ q.fields.fieldList ++ c!" FROM " ++ q.renderFrom := by
    unfold BaseSelect.headTokens BaseSelect.renderFrom
    have h1 := joinWith_append_sep c!" " [operationString doSelect, q.fields.fieldList, kwFrom]
      (q.baseTable.renderFrom :: q.joins.map TableJoiner.renderFrom) (by simp) (by simp)
    simp only [List.cons_append, List.nil_append] at h1 ⊢
    rw [h1]
    simp [joinWith, operationString, doSelect, kwSelect, kwFrom]
  by_cases hc : q.where_.conditions = []
  · refine ⟨joinWith c!" " q.headTokens, [], ?_, none, by simp, lex_head h, ?_, ⟨q.renderFrom, hfrom⟩, fun hn => absurd hc hn⟩
    · unfold BaseSelect.build; rw [if_neg (by simp [hc])]
    · unfold WhereRead; rw [if_pos hc]; rfl
  · have hr := h.cond.resolve_left hc
    obtain ⟨s, vs, e, h1, h2, h3, h4, _⟩ := cond_read q.where_.group.toCond [] qs hr
    simp only [List.length_nil] at h1
    have hb : q.build = .ok (joinWith c!" " (q.headTokens ++ [kwWhere, s]), vs) := by
      unfold BaseSelect.build
      rw [if_pos (List.length_pos_iff.mpr hc)]
      have h1' : q.where_.render 0 = .ok s := h1
      have h2' : q.where_.values = .ok vs := h2
      simp only [h1', h2', Res.bind_ok]
    have hsplit : joinWith c!" " (q.headTokens ++ [kwWhere, s]) = joinWith c!" " q.headTokens ++ c!" WHERE " ++ s := by
      rw [joinWith_append_sep c!" " q.headTokens [kwWhere, s] (by simp [BaseSelect.headTokens]) (by simp)]
      simp [joinWith, kwWhere]
    refine ⟨_, vs, hb, some (lex s, e), by simpa using h3, ?_, ?_, ⟨q.renderFrom ++ c!" WHERE " ++ s, ?_⟩, fun _ => ⟨s, e, h1, rfl⟩⟩
    · rw [segs_tail, ← lex_head h]
      have hw : lex kwWhere = [.word c!"WHERE"] := by decide
      rw [lex_joinSpace, List.flatMap_append, ← lex_joinSpace]
      simp [tailSegs, optSeg, segToks, hw]
    · unfold WhereRead; rw [if_neg hc]; exact ⟨e, rfl, by simpa using h4⟩
    · rw [hsplit, hfrom]; simp

/-- The text of a key: its column, or its alias. -/
theorem renderField_eq (fd : FieldDef) :
    fd.renderField = if fd.alias = [] ∨ fd.alias = fd.fieldName then fd.col else fd.alias := by
  unfold FieldDef.renderField FieldDef.col
  by_cases ha : fd.alias = [] ∨ fd.alias = fd.fieldName
  · rw [if_pos ha, if_neg (by rcases ha with h0 | h0 <;> simp [h0])]
    by_cases ht : fd.tableName = []
    · rw [if_neg (by simp [ht]), if_pos ht]
    · rw [if_pos (List.length_pos_iff.mpr ht), if_neg ht]
  · rw [if_neg ha]
    simp only [not_or] at ha
    rw [if_pos ⟨List.length_pos_iff.mpr ha.1, ha.2⟩]

theorem plain_key {fd : FieldDef} (h : KeyDef fd) : PlainName fd.renderField := by
  rw [renderField_eq]
  unfold KeyDef at h
  split at h
  · rw [if_pos ‹_›]; exact h.1
  · rw [if_neg ‹_›]; exact h.1

theorem read_key {fd : FieldDef} (h : KeyDef fd) : readCol fd.renderField = some fd.key := by
  rw [renderField_eq]
  unfold KeyDef at h
  unfold FieldDef.key
  split at h
  · rename_i ha
    rw [if_pos ha, if_pos ha]
    unfold readCol
    rw [if_pos h.1.2.2]
    congr 1
    unfold FieldDef.col FieldDef.ref optStr
    split
    · exact colRef_plain h.2
    · exact colRef_dot h.2
  · rename_i ha
    rw [if_neg ha, if_neg ha]
    exact readCol_ident h

/-- The text of what is counted. -/
theorem plain_count {fd : FieldDef} (h : CountDef fd) : PlainItem fd.renderField := by
  rw [renderField_eq]
  unfold CountDef at h
  split at h
  · rw [if_pos ‹_›]; exact h.1
  · rw [if_neg ‹_›]; exact h.1

theorem read_count {fd : FieldDef} (h : CountDef fd) : readCols fd.renderField = some fd.key := by
  rw [readCols, if_pos (plain_count h).2, renderField_eq]
  unfold CountDef at h
  unfold FieldDef.key
  split at h
  · rename_i ha
    rw [if_pos ha, if_pos ha]
    congr 1
    unfold FieldDef.col FieldDef.ref optStr
    split
    · exact colRef_plain h.2
    · exact colRef_dot h.2
  · rename_i ha
    rw [if_neg ha, if_neg ha, colRef_plain h.2]

/-- The tokens of the ORDER BY clause of a many-row builder. -/
def orderSeg (os : List FieldSorting) : Option (List Tok × List (ColRef × Str)) :=
  if os = [] then none
  else some (.word c!"BY" :: commaJoin (os.map fun o => [.word o.fd.renderField, .word o.direction]),
    os.map fun o => (o.fd.key, o.direction))

theorem key_read {o : FieldSorting} (h : PlainKey o) : Inner [.word o.fd.renderField, .word o.direction] ∧
    readKey [.word o.fd.renderField, .word o.direction] = some (o.fd.key, o.direction) ∧
    lex (o.fd.renderField ++ c!" " ++ o.direction) = [.word o.fd.renderField, .word o.direction] := by
  have hdir : lex o.direction = [.word o.direction] ∧ (Tok.word o.direction).clause? = none := by
    rcases h.2 with h0 | h0 <;> rw [h0] <;> decide
  refine ⟨?_, ?_, ?_⟩
  · apply inner_words
    intro t ht
    simp only [List.mem_cons, List.not_mem_nil, or_false] at ht
    rcases ht with rfl | rfl
    · exact ⟨_, rfl, name_clause (plain_key h.1).2.2⟩
    · exact ⟨_, rfl, hdir.2⟩
  · simp only [readKey, if_pos h.2, read_key h.1, Option.map_some]
  · have := lex_space o.fd.renderField o.direction
    rw [lex_name (plain_key h.1), hdir.1] at this
    simpa using this

theorem order_read {os : List FieldSorting} (h : ∀ o ∈ os, PlainKey o) :
    ∀ p ∈ orderSeg os, readOrder p.1 = some p.2 ∧ ∀ x ∈ p.1, x.clause? = none := by
  intro p hp
  unfold orderSeg at hp
  split at hp
  · cases hp
  · rename_i hne
    simp only [Option.mem_some_iff] at hp
    subst hp
    constructor
    · simp only [readOrder, if_true]
      rw [commas_join (by simpa using hne)]
      · exact readAll_map _ _ _ _ fun o ho => (key_read (h o ho)).2.1
      · intro l hl
        obtain ⟨o, ho, rfl⟩ := List.mem_map.mp hl
        exact (key_read (h o ho)).1.1
    · intro x hx
      simp only [List.mem_cons] at hx
      rcases hx with rfl | hx
      · decide
      · refine commaJoin_free ?_ x hx
        intro l hl
        obtain ⟨o, ho, rfl⟩ := List.mem_map.mp hl
        exact (key_read (h o ho)).1.2

/-- The tokens of a limit in force. -/
def rowsSeg (n : Nat) (on : Prop) [Decidable on] : Option (List Tok × Rows) :=
  if on then some ([.dollar n], .param n) else none

theorem rows_read (n : Nat) (on : Prop) [Decidable on] :
    ∀ p ∈ rowsSeg n on, readRows p.1 = some p.2 ∧ ∀ x ∈ p.1, x.clause? = none := by
  intro p hp
  unfold rowsSeg at hp
  split at hp
  · simp only [Option.mem_some_iff] at hp
    subst hp
    exact ⟨rfl, by simp [Tok.clause?]⟩
  · cases hp

theorem name_inner {w : Str} (h : PlainName w) : Inner [.word w] :=
  inner_words fun t ht => by
    simp only [List.mem_cons, List.not_mem_nil, or_false] at ht
    exact ⟨w, ht, name_clause h.2.2⟩

theorem read_paren {α : Type} (f : List Tok → Option α) (ls : List (List Tok)) (xs : List α) (hn : ls ≠ [])
    (hc : ∀ l ∈ ls, .comma ∉ l) (h : readAll f ls = some xs) : readList f (.lpar :: (commaJoin ls ++ [.rpar])) = some xs := by
  simp only [readList, List.reverse_append, List.reverse_cons, List.reverse_nil, List.nil_append, List.cons_append,
    List.reverse_reverse, commas_join hn hc, h]

end Query
