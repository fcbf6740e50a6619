import Verif.Proof.SelectRead
import Verif.Props.Select
import Verif.Props.Write
import Verif.Props.Logic
/-!
# C22, C44–C46: statements read back to the builders' content
-/
namespace Query

/-! ## SELECT -/

/-- **C22, what holds.**  The text of every base builder over plain identifiers reads back to its field list with aliases,
table and alias, joins (kind, table, alias, columns) in order, and WHERE expression.

Missing for the full claim: join columns without a table (`C22_join_false`), aliased columns, empty groups and custom
conditions in WHERE (`C22_alias_false`), all columns with an alias (`C22_star_false`). -/
theorem C22_base_partial (q : BaseSelect) (h : PlainSelect q) :
    ∃ sql params w, q.build = .ok (sql, params) ∧
      readStmt sql = some (.select ⟨q.fields.refs, q.baseTable.ref, q.joins.map TableJoiner.ref, w, [], none, none⟩) ∧
      WhereRead q params w :=
  base_read q h

/-- **C22, what holds**, single row: also LIMIT 1.  Missing: as in `C22_base_partial`. -/
theorem C22_single_partial (q : SelectSingle) (h : PlainSelect q.base) :
    ∃ sql params w, q.build = .ok (sql, params) ∧
      readStmt sql = some (.select ⟨q.base.fields.refs, q.base.baseTable.ref, q.base.joins.map TableJoiner.ref, w, [], none,
        some (.lit c!"1")⟩) ∧ WhereRead q.base params w :=
  single_read q h

/-- **C22, what holds**, count: the item is the count of the column, or of all.  Missing: as in `C22_base_partial`. -/
theorem C22_count_partial (q : CountB) (h : PlainSelect q.base) (hf : CountDef q.countField) :
    ∃ sql params w, q.build = .ok (sql, params) ∧
      readStmt sql = some (.select ⟨[.count q.countField.key], q.base.baseTable.ref, q.base.joins.map TableJoiner.ref, w, [],
        none, none⟩) ∧ WhereRead q.base params w :=
  count_read q h hf

/-- **C22, what holds**, many rows: also the ORDER BY keys with their directions in order, OFFSET and LIMIT with the
parameters they are bound to.  Missing: as in `C22_base_partial`. -/
theorem C22_many_partial (q : SelectMany) (h : PlainSelect q.base) (ho : ∀ o ∈ q.order, PlainKey o) :
    ∃ sql params w off lim, q.build = .ok (sql, params) ∧
      readStmt sql = some (.select ⟨q.base.fields.refs, q.base.baseTable.ref, q.base.joins.map TableJoiner.ref, w,
        q.order.map fun o => (o.fd.key, o.direction), off, lim⟩) ∧
      WhereRead q.base params w ∧ RowsRead params q.offset off ∧ RowsRead params q.limit.toNat lim :=
  many_read q h ho

theorem example_plain : PlainSelect exampleMany.base := by
  have pn : ∀ w ∈ [c!"t", c!"x", c!"u", c!"id", c!"tid", c!"name", c!"n", c!"a", c!"b", c!"c", c!"t.b"], PlainName w := by
    intro w hw
    refine ⟨?_, ?_, ?_⟩ <;> revert w <;> decide
  refine ⟨?_, .of (pn c!"t" (by simp)) (.inr ⟨pn c!"x" (by simp), by decide⟩), ?_, .inr ?_⟩
  · intro fd hfd
    simp only [exampleMany, List.mem_cons, List.not_mem_nil, or_false] at hfd
    rcases hfd with rfl | rfl
    · exact .of ⟨pn _ (by simp), by decide⟩ (.inr (pn _ (by simp))) (.inl rfl)
    · exact .of ⟨pn _ (by simp), by decide⟩ (.inr (pn _ (by simp))) (.inr ⟨pn _ (by simp), by decide⟩)
  · intro j hj
    simp only [exampleMany, List.mem_cons, List.not_mem_nil, or_false] at hj
    subst hj
    exact ⟨by decide, PlainTable.of (pn _ (by simp)) (.inl rfl), ⟨.of ⟨pn _ (by simp), by decide⟩ (.inr (pn _ (by simp))), by simp⟩,
      ⟨.of ⟨pn _ (by simp), by decide⟩ (.inr (pn _ (by simp))), by simp⟩⟩
  · refine one_readable (three_readable ?_ ?_ ?_ (.inr rfl) (.inl rfl))
    · exact ⟨⟨.inl rfl, pn c!"a" (by simp)⟩, .other 1, rfl⟩
    · exact ⟨⟨.inl rfl, pn c!"t.b" (by simp)⟩, _, _, rfl⟩
    · exact ⟨.inl rfl, pn c!"c" (by simp)⟩

/-- The statement of the example, read. -/
example : (exampleMany.build.bind fun r => .ok (readStmt r.1)) = .ok (some (.select
    ⟨[.col ⟨some c!"x", c!"id"⟩ none, .col ⟨some c!"u", c!"name"⟩ (some c!"n")], ⟨c!"t", some c!"x"⟩,
     [⟨c!"LEFT", ⟨c!"u", none⟩, ⟨some c!"x", c!"id"⟩, ⟨some c!"u", c!"tid"⟩⟩],
     some (.not (.or (.atom (.cmp c!"=" c!"a" 1)) (.and (.atom (.inn c!"t.b" [2, 3])) (.atom (.isNull c!"c"))))),
     [(⟨some c!"x", c!"id"⟩, c!"DESC")], some (.param 4), some (.param 5)⟩)) := by decide

/-- **C22 is false** for join columns without a table: `On(Field("id"), Field("tid"))` gives `ON .id=.tid`, which is no SQL. -/
theorem C22_join_false : let q : BaseSelect := ⟨0, ⟨c!"t", []⟩, [⟨⟨c!"u", []⟩, innerJoin, ⟨⟨c!"id", [], []⟩, ⟨c!"tid", [], []⟩⟩⟩],
      ⟨[]⟩, newWhere⟩
    q.build = .ok (c!"SELECT * FROM t INNER JOIN u ON .id=.tid", []) ∧
    readStmt c!"SELECT * FROM t INNER JOIN u ON .id=.tid" = none ∧
    q.joins.map TableJoiner.ref = [⟨c!"INNER", ⟨c!"u", none⟩, ⟨none, c!"id"⟩, ⟨none, c!"tid"⟩⟩] := by
  exact ⟨rfl, by decide, by decide⟩

/-- **C22 is false** for an aliased column in WHERE and for an empty group: the text is no SELECT statement. -/
theorem C22_alias_false :
    let q : BaseSelect := ⟨0, ⟨c!"t", []⟩, [], ⟨[]⟩, newWhere⟩
    (q.addWhere [.fieldc .eq ⟨lAND, false⟩ ⟨⟨c!"f", [], c!"x"⟩, .other 1⟩]).build =
      .ok (c!"SELECT * FROM t WHERE f AS x=$1", [.other 1]) ∧
    readStmt c!"SELECT * FROM t WHERE f AS x=$1" = none ∧
    (q.addWhere [(newGroup lAND []).toCond]).build = .ok (c!"SELECT * FROM t WHERE ", []) ∧
    readStmt c!"SELECT * FROM t WHERE " = none := by
  exact ⟨rfl, by decide, rfl, by decide⟩

/-- **C22 is false** for all columns with an alias: `Fields(Field("* AS a"))` gives a text that is no SQL. -/
theorem C22_star_false : ∃ f, field c!"* AS a" = .ok f ∧
    ((⟨0, ⟨c!"t", []⟩, [], ⟨[]⟩, newWhere⟩ : BaseSelect).setFields [f]).build = .ok (c!"SELECT * AS a FROM t", []) ∧
    readStmt c!"SELECT * AS a FROM t" = none :=
  ⟨⟨c!"*", [], c!"a"⟩, by decide, rfl, by decide⟩

/-! ## INSERT, UPDATE, DELETE -/

/-- The text of an INSERT reads back, whatever the numbers of its placeholders. -/
theorem read_insert (t : Str) (names : List Str) (ns : List Nat) (hs : names ≠ []) (hns : ns ≠ []) (ht : PlainName t)
    (hf : ∀ w ∈ names, PlainIdent w) :
    readStmt (c!"INSERT INTO " ++ t ++ c!"(" ++ joinWith c!", " names ++ c!") VALUES (" ++
      joinWith c!", " (ns.map fun i => '$' :: itoa i) ++ c!")") = some (.insert t names ns) := by
  let cs := names.map fun w => [Tok.word w]
  let ps := ns.map fun i => [Tok.dollar i]
  have hps : ps ≠ [] := by simpa [ps] using hns
  have hcs : cs ≠ [] := by simpa [cs] using hs
  have hlex : lex (c!"INSERT INTO " ++ t ++ c!"(" ++
      joinWith c!", " names ++ c!") VALUES (" ++
      joinWith c!", " (ns.map fun i => '$' :: itoa i) ++ c!")") =
      segToks [(c!"INSERT", []), (c!"INTO", .word t :: .lpar :: (commaJoin cs ++ [.rpar])),
        (c!"VALUES", .lpar :: (commaJoin ps ++ [.rpar]))] := by
    have e0 := lex_joinSpace [c!"INSERT", c!"INTO", t ++ '(' :: (joinWith c!", " names ++ ')' :: []),
      c!"VALUES", '(' :: (joinWith c!", " (ns.map fun i => '$' :: itoa i) ++ ')' :: [])]
    have k1 : lex c!"INSERT" = [.word c!"INSERT"] := by decide
    have k2 : lex c!"INTO" = [.word c!"INTO"] := by decide
    have k3 : lex c!"VALUES" = [.word c!"VALUES"] := by decide
    have m1 : names.map lex = cs := List.map_congr_left fun w hw => lex_name (hf w hw).1
    have m2 : (ns.map fun i => '$' :: itoa i).map lex = ps := by
      rw [List.map_map]
      exact List.map_congr_left fun i _ => lex_placeholder i
    simp only [List.flatMap_cons, List.flatMap_nil, k1, k2, k3, lex_lpar, lex_lpar', lex_rpar, lex_joinComma, m1, m2, lex_name ht,
      lex_nil, List.append_nil, List.nil_append, List.cons_append] at e0
    refine Eq.trans ?_ (e0.trans ?_)
    · simp [joinWith]
    · simp [segToks]
  unfold readStmt
  rw [hlex, clauses_segs]
  · have r1 : readInto (.word t :: .lpar :: (commaJoin cs ++ [.rpar])) =
        some (t, names) := by
      have := read_paren readIdent cs names hcs (by
        intro l hl
        obtain ⟨fv, _, rfl⟩ := List.mem_map.mp hl
        simp) (by
        have := readAll_map readIdent (fun w => [Tok.word w]) id names fun w hw => by
          simp only [readIdent, isIdent_of (hf w hw), if_true, id]
        simpa using this)
      simp only [readInto, ht.2.2, if_true, this, Option.map_some]
    have r2 : readList readParam (.lpar :: (commaJoin ps ++ [.rpar])) = some ns := by
      refine read_paren readParam ps _ hps (by
        intro l hl
        obtain ⟨i, _, rfl⟩ := List.mem_map.mp hl
        simp) ?_
      have := readAll_map readParam (fun i : Nat => [Tok.dollar i]) id ns fun _ _ => rfl
      simpa using this
    simp only [readClauses, r1, r2, Option.map_some, and_self, if_true]
    rfl
  · intro p hp
    simp only [List.mem_cons, List.not_mem_nil, or_false] at hp
    have hcl : ∀ ls : List (List Tok), (∀ l ∈ ls, Inner l) → ∀ t ∈ Tok.lpar :: (commaJoin ls ++ [.rpar]), t.clause? = none := by
      intro ls hl t ht
      simp only [List.mem_cons, List.mem_append, List.not_mem_nil, or_false] at ht
      rcases ht with rfl | ht | rfl
      · rfl
      · exact commaJoin_free (fun l h => (hl l h).2) t ht
      · rfl
    rcases hp with rfl | rfl | rfl
    · exact ⟨(by decide : c!"INSERT" ∈ clauseWords), by simp⟩
    · refine ⟨(by decide : c!"INTO" ∈ clauseWords), fun t h => ?_⟩
      simp only [List.mem_cons] at h
      rcases h with rfl | h
      · exact name_clause ht.2.2
      · refine hcl cs ?_ t (by simpa using h)
        intro l hl
        obtain ⟨fv, hfv, rfl⟩ := List.mem_map.mp hl
        exact name_inner (hf fv hfv).1
    · refine ⟨(by decide : c!"VALUES" ∈ clauseWords), hcl ps ?_⟩
      intro l hl
      obtain ⟨i, _, rfl⟩ := List.mem_map.mp hl
      exact ⟨by simp, by simp [Tok.clause?]⟩

/-- **C44, what holds.**  The text of an INSERT over plain names reads back to its table, its columns in order and as many
placeholders, the `i`-th bound to the value given for the `i`-th column.

Missing for the full claim: values that are slices, see `C05_insert_false`. -/
theorem C44_insert_partial (q : InsertB) (vs : List Val) (hs : q.setValues ≠ []) (ht : PlainName q.tableName)
    (hf : ∀ fv ∈ q.setValues, PlainIdent fv.fd.fieldName)
    (hone : q.setValues.map FieldValue.values = vs.map fun v => .ok [v]) :
    ∃ sql ns, q.build = .ok (sql, vs) ∧
      readStmt sql = some (.insert q.tableName (q.setValues.map fun fv => fv.fd.fieldName) ns) ∧
      ns.map (bound 0 vs) = vs := by
  obtain ⟨hb, hlen, _⟩ := C05_insert_partial q vs hs ht.1 hone
  refine ⟨_, numbersFrom 0 q.setValues.length, hb, ?_, ?_⟩
  · refine read_insert _ _ _ (by simpa using hs) ?_ ht ?_
    · cases hq : q.setValues with
      | nil => exact absurd hq hs
      | cons a l => simp [numbersFrom]
    · intro w hw
      obtain ⟨fv, hfv, rfl⟩ := List.mem_map.mp hw
      exact hf fv hfv
  · rw [← hlen]
    exact bound_agree 0 vs

example : (((insertInto (.str c!"t")).addValues
    [⟨⟨c!"f", [], []⟩, .other 7⟩, ⟨⟨c!"g", c!"x", c!"y"⟩, .nil⟩]).build.bind fun r => .ok (readStmt r.1)) = .ok (some (.insert c!"t" [c!"f", c!"g"] [1, 2])) := by decide

/-- The text of a DELETE, given the text of its condition. -/
theorem delete_reads (q : DeleteB) (ht : PlainName q.tableName) (hne : q.where_.conds ≠ []) {s : Str} {vs : List Val} {e : BExp}
    (h1 : q.where_.render 0 = .ok s) (h2 : q.where_.values = .ok vs) (h3 : IsE (lex s) e) :
    ∃ sql, q.build = .ok (sql, vs) ∧ readStmt sql = some (.delete q.tableName e) := by
  have hb : q.build = .ok (joinWith c!" " [kwDelete, kwFrom, q.tableName, kwWhere, s], vs) := by
    have n1 : ¬ q.where_.conds.length = 0 := by simpa using hne
    have n2 : ¬ q.tableName.length = 0 := by simpa using ht.1
    simp only [DeleteB.build, n1, n2, if_false, h1, h2, Res.bind_ok]
  refine ⟨_, hb, ?_⟩
  have hlex : lex (joinWith c!" " [kwDelete, kwFrom, q.tableName, kwWhere, s]) =
      segToks [(c!"DELETE", []), (c!"FROM", [.word q.tableName]), (c!"WHERE", lex s)] := by
    have k1 : lex kwDelete = [.word c!"DELETE"] := by decide
    have k2 : lex kwFrom = [.word c!"FROM"] := by decide
    have k3 : lex kwWhere = [.word c!"WHERE"] := by decide
    rw [lex_joinSpace]
    simp [k1, k2, k3, lex_name ht, segToks]
  unfold readStmt
  rw [hlex, clauses_segs]
  · have r1 : readName [.word q.tableName] = some q.tableName := by simp only [readName, ht.2.2, if_true]
    simp only [readClauses, r1, reader_finds h3, Option.map_some, and_self, if_true]
    rfl
  · intro p hp
    simp only [List.mem_cons, List.not_mem_nil, or_false] at hp
    rcases hp with rfl | rfl | rfl
    · exact ⟨(by decide : c!"DELETE" ∈ clauseWords), by simp⟩
    · exact ⟨(by decide : c!"FROM" ∈ clauseWords), (name_inner ht).2⟩
    · exact ⟨(by decide : c!"WHERE" ∈ clauseWords), cond_clause h3⟩

/-- **C46, what holds.**  The text of a DELETE with a plain table and a readable condition reads back to its table and its
condition.

Missing for the full claim: empty groups (`C46_empty_false`), aliased columns (`C33_alias_false`) and custom conditions. -/
theorem C46_delete_partial (q : DeleteB) (ht : PlainName q.tableName) (hc : q.where_.toCond.Readable) :
    ∃ sql params e, q.build = .ok (sql, params) ∧ readStmt sql = some (.delete q.tableName e) ∧
      CondRead q.where_.toCond params e := by
  obtain ⟨s, vs, e, h1, h2, h3, h4, _⟩ := cond_read q.where_.toCond [] [] hc
  obtain ⟨sql, g1, g2⟩ := delete_reads q ht (readable_group.mp hc).1 h1 h2 h3
  exact ⟨sql, vs, e, g1, g2, by simpa using h4⟩

/-- **C46 is false** for an empty group: the text is no statement. -/
theorem C46_empty_false :
    ((delete (.str c!"t")).addWhere [(newGroup lAND []).toCond]).build = .ok (c!"DELETE FROM t WHERE ", []) ∧
    readStmt c!"DELETE FROM t WHERE " = none := ⟨rfl, by decide⟩

example : (((delete (.str c!"t")).addWhere [exampleCond]).build.bind fun r => .ok (readStmt r.1)) = .ok (some (.delete c!"t"
    (.not (.or (.atom (.cmp c!"=" c!"a" 1)) (.and (.atom (.inn c!"t.b" [2, 3])) (.atom (.isNull c!"c"))))))) := by decide

/-- The text of an UPDATE, given the text of its condition. -/
theorem update_reads (q : UpdateB) (vs : List Val) (hs : q.setValues ≠ []) (ht : PlainName q.tableName)
    (hf : ∀ fv ∈ q.setValues, PlainIdent fv.fd.fieldName)
    (hone : q.setValues.map FieldValue.values = vs.map fun v => .ok [v]) (hne : q.where_.conds ≠ [])
    {s : Str} {wv : List Val} {e : BExp} (h1 : q.where_.render vs.length = .ok s) (h2 : q.where_.values = .ok wv)
    (h3 : IsE (lex s) e) :
    ∃ sql, q.build = .ok (sql, vs ++ wv) ∧ readStmt sql = some (.update q.tableName
      ((q.setValues.map fun fv => fv.fd.fieldName).zip (numbersFrom 0 (q.setValues.map fun fv => fv.fd.fieldName).length)) e) := by
  obtain ⟨w, hw, hb, _⟩ := C04_update_partial q vs wv hne hs ht.1 hone h2
  have hws : w = s := by
    rw [h1] at hw
    cases hw
    rfl
  subst hws
  have hlen : vs.length = q.setValues.length := by
    have := congrArg List.length hone
    simpa using this.symm
  let names := q.setValues.map fun fv => fv.fd.fieldName
  let sets := names.zip (numbersFrom 0 names.length)
  have hnum : ∀ k n, (numbersFrom k n).length = n := by
    intro k n
    induction n generalizing k with
    | zero => rfl
    | succ n ih => simp [numbersFrom]
  refine ⟨_, hb, ?_⟩
  · let ss := sets.map fun p => [Tok.word p.1, .op c!"=", .dollar p.2]
    have hss : ss ≠ [] := by
      cases hq : q.setValues with
      | nil => exact absurd hq hs
      | cons a l => simp [ss, sets, names, hq, numbersFrom]
    have hident : ∀ p ∈ sets, PlainIdent p.1 := by
      intro p hp
      have := (List.of_mem_zip hp).1
      obtain ⟨fv, hfv, he⟩ := List.mem_map.mp this
      exact he ▸ hf fv hfv
    have hplain : ∀ p ∈ sets, PlainName p.1 := fun p hp => (hident p hp).1
    have hlex : lex (c!"UPDATE " ++ q.tableName ++ c!" SET " ++ setList names ++ c!" WHERE " ++ w) =
        segToks [(c!"UPDATE", [.word q.tableName]), (c!"SET", commaJoin ss), (c!"WHERE", lex w)] := by
      have e0 := lex_joinSpace [c!"UPDATE", q.tableName, c!"SET", setList names, c!"WHERE", w]
      have k1 : lex c!"UPDATE" = [.word c!"UPDATE"] := by decide
      have k2 : lex c!"SET" = [.word c!"SET"] := by decide
      have k3 : lex c!"WHERE" = [.word c!"WHERE"] := by decide
      have m1 : lex (setList names) = commaJoin ss := by
        unfold setList
        rw [lex_joinComma]
        congr 1
        rw [← List.map_uncurry_zip_eq_zipWith, List.map_map]
        refine List.map_congr_left fun p hp => ?_
        have hn := hplain p hp
        have := lex_word_op hn.1 hn.2.1 (o := c!"=") (by decide) (itoa p.2)
        rw [lex_placeholder] at this
        simpa [Function.uncurry] using this
      simp only [List.flatMap_cons, List.flatMap_nil, k1, k2, k3, m1, lex_name ht, List.append_nil,
        List.nil_append, List.cons_append] at e0
      refine Eq.trans ?_ (e0.trans ?_)
      · simp [joinWith]
      · simp [segToks]
    unfold readStmt
    rw [hlex, clauses_segs]
    · have r1 : readName [.word q.tableName] = some q.tableName := by simp only [readName, ht.2.2, if_true]
      have r2 : readAll readSet (commas (commaJoin ss)) = some sets := by
        rw [commas_join hss]
        · have := readAll_map readSet (fun p : Str × Nat => [Tok.word p.1, .op c!"=", .dollar p.2]) id sets
            fun p hp => by simp [readSet, isIdent_of (hident p hp)]
          simpa using this
        · intro l hl
          obtain ⟨p, _, rfl⟩ := List.mem_map.mp hl
          simp
      simp only [readClauses, r1, r2, reader_finds h3, Option.map_some, and_self, if_true]
      rfl
    · intro p hp
      simp only [List.mem_cons, List.not_mem_nil, or_false] at hp
      rcases hp with rfl | rfl | rfl
      · exact ⟨(by decide : c!"UPDATE" ∈ clauseWords), (name_inner ht).2⟩
      · refine ⟨(by decide : c!"SET" ∈ clauseWords), commaJoin_free ?_⟩
        intro l hl t h
        obtain ⟨p, hp, rfl⟩ := List.mem_map.mp hl
        simp only [List.mem_cons, List.not_mem_nil, or_false] at h
        rcases h with rfl | rfl | rfl
        · exact name_clause (hplain p hp).2.2
        · rfl
        · rfl
      · exact ⟨(by decide : c!"WHERE" ∈ clauseWords), cond_clause h3⟩

/-- **C45, what holds.**  The text of an UPDATE over plain names and a readable condition reads back to its table, the columns it sets
in order, each with a placeholder bound to the value given for it, and its condition.

Missing for the full claim: values that are slices (`C04_update_false`) and the conditions missing in
`C46_delete_partial`. -/
theorem C45_update_partial (q : UpdateB) (vs : List Val) (hs : q.setValues ≠ []) (ht : PlainName q.tableName)
    (hf : ∀ fv ∈ q.setValues, PlainIdent fv.fd.fieldName)
    (hone : q.setValues.map FieldValue.values = vs.map fun v => .ok [v]) (hc : q.where_.toCond.Readable) :
    ∃ sql params sets e, q.build = .ok (sql, params) ∧ readStmt sql = some (.update q.tableName sets e) ∧
      sets.map (·.1) = q.setValues.map (fun fv => fv.fd.fieldName) ∧ sets.map (fun p => bound 0 params p.2) = vs ∧
      CondRead q.where_.toCond params e := by
  obtain ⟨s, wv, e, h1, h2, h3, h4, _⟩ := cond_read q.where_.toCond vs [] hc
  obtain ⟨sql, g1, g2⟩ := update_reads q vs hs ht hf hone (readable_group.mp hc).1 h1 h2 h3
  have hlen : vs.length = q.setValues.length := by
    have := congrArg List.length hone
    simpa using this.symm
  refine ⟨sql, _, _, e, g1, g2, ?_, ?_, by simpa using h4⟩
  · exact List.map_fst_zip (by simp [numbersFrom_length])
  · generalize hn : (q.setValues.map fun fv => fv.fd.fieldName) = names
    have hl : names.length = vs.length := by rw [← hn, hlen]; simp
    have e1 : (names.zip (numbersFrom 0 names.length)).map (fun p => bound 0 (vs ++ wv) p.2) =
        ((names.zip (numbersFrom 0 names.length)).map (·.2)).map (bound 0 (vs ++ wv)) := by simp
    rw [e1, List.map_snd_zip (by simp [numbersFrom_length])]
    have := bound_agree_mid [] vs wv
    simpa [Agree, hl] using this

example : (exampleUpdate.build.bind fun r => .ok (readStmt r.1)) = .ok (some (.update c!"t" [(c!"f", 1), (c!"g", 2)]
    (.not (.or (.atom (.cmp c!"=" c!"a" 3)) (.and (.atom (.inn c!"t.b" [4, 5])) (.atom (.isNull c!"c"))))))) := by decide

end Query
