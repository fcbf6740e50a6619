import Verif.Props.KindProgram
/-!
# C67, C78, C81: counting a column

`Count("column")` on the builder of a program: the rows on which the conditions hold and that have a value in the column.
-/
namespace Query

theorem count_column_ran (eng : Engine) (db : Db) {p : SelectProg} {S : Row → Tri} {q : SelectMany} (hc : ∀ c ∈ p.clauses, c.OK)
    (h0 : p.clauses = [] → ∀ row, S row = .t) (hr : Ran p S q) {cr : ColRef} (hcr : cr.OK) (more : List Str) :
    ∃ c sql params, count q.base (cr.text :: more) = .ok c ∧ c.build = .ok (sql, params) ∧ params = paramsOf p.clauses ∧
      runQuery eng db sql params =
        if fromOK db p.table p.joins && (p.scope db).has cr && knownIn (p.scope db) p.clauses then
          some [[(c!"count", some (.uint (countedBy S cr eng (fromRows eng db p.table p.joins))))]]
        else none := by
  obtain ⟨sql, params, w, h1, h2, h3⟩ := C22_count_partial ⟨q.base, cr.fd⟩ hr.plain (fd_key hcr).count
  have hp : params = paramsOf p.clauses := by
    have hw := hr.cond
    have e1 := h1
    unfold CountB.build at e1
    by_cases hn : p.clauses = []
    · have h9 : q.base.where_.conditions = [] := hw.none hn
      simp only [h9, List.length_nil, gt_iff_lt, Nat.lt_irrefl, if_false, Res.ok.injEq, Prod.mk.injEq] at e1
      rw [hn, ← e1.2]
      rfl
    · have h9 : q.base.where_.conditions.length > 0 :=
        List.length_pos_iff.mpr (readable_group.mp (hw.read hn)).1
      simp only [h9, if_true, Res.bind_eq_ok, Res.ok.injEq, Prod.mk.injEq] at e1
      obtain ⟨_, _, vs, hv, _, rfl⟩ := e1
      have hv' : q.base.where_.group.toCond.values = .ok vs := hv
      rw [whereIs_values hw hn] at hv'
      exact (Res.ok.inj hv').symm
  refine ⟨_, sql, params, by simp only [count, field_col hcr, Res.bind_ok], h1, hp, ?_⟩
  have hk : FieldDef.key cr.fd = cr := by
    unfold FieldDef.key
    rw [if_pos (.inl rfl)]
    exact fd_ref' hcr
  have hne : cr ≠ star := by
    rintro rfl
    exact absurd hcr.name.plain.1.2.2 (by decide)
  have h8 := prog_where hr h3
  have hs : (fromOK db p.table p.joins && [SelItem.count cr].all (SelItem.ok (fromScope db p.table p.joins)) &&
      knownIn (fromScope db p.table p.joins) p.clauses && [].all fun k : ColRef × Str =>
        (fromScope db p.table p.joins).has (keyCol [.count cr] k.1)) =
      (fromOK db p.table p.joins && (p.scope db).has cr && knownIn (p.scope db) p.clauses) := by
    have hb : (cr == star) = false := beq_eq_false_iff_ne.mpr hne
    simp [SelItem.ok, SelectProg.scope, hb]
  have hf : ∀ rows : List Env, countRows cr (rows.filter fun env => S (eng.row env) == .t) = countedBy S cr eng rows := by
    intro rows
    unfold countRows countedBy
    rw [if_neg hne, List.filter_filter]
    congr 1
    exact List.filter_congr fun env _ => Bool.and_comm ..
  simp only [runQuery, h2, SelectStmt.run, SelectStmt.ok, hr.table, hr.joins, hk, condIs_cols h8 hc, optNum,
    condIs_rows h8 h0, hs, hf]
  rfl

/-- **C67, exactly**, counting a column: the rows on which `wheresSay` holds and that have a value in it; further names are ignored. -/
theorem C67_count_column_exact (eng : Engine) (db : Db) (p : SelectProg) (h : p.Names) (cr : ColRef) (hcr : cr.OK) (more : List Str) :
    ∃ q c sql params, p.run = .ok q ∧ count q.base (cr.text :: more) = .ok c ∧ c.build = .ok (sql, params) ∧
      params = paramsOf p.clauses ∧
      runQuery eng db sql params =
        if fromOK db p.table p.joins && (p.scope db).has cr && knownIn (p.scope db) p.clauses then
          some [[(c!"count", some (.uint (countedBy (fun row => wheresSay row p.wheres) cr eng (fromRows eng db p.table p.joins))))]]
        else none := by
  obtain ⟨q, h1, hr⟩ := prog_run p h
  obtain ⟨c, sql, params, h2⟩ := count_column_ran eng db (prog_clauses h) (fun hn => wheresSay_nil p.wheres hn) hr hcr more
  exact ⟨q, c, sql, params, h1, h2⟩

/-- **C78**, counting a column, for all nested conditions. -/
theorem C78_count_column_exact (eng : Engine) (db : Db) (p : NSelectProg) (h : p.OK) (cr : ColRef) (hcr : cr.OK) (more : List Str) :
    if wheresSound p.wheres then
      ∃ q c sql params, p.run = .ok q ∧ count q.base (cr.text :: more) = .ok c ∧ c.build = .ok (sql, params) ∧
        params = paramsOf p.flat.clauses ∧
        runQuery eng db sql params =
          if fromOK db p.table p.flat.joins && (p.flat.scope db).has cr && knownIn (p.flat.scope db) p.flat.clauses then
            some [[(c!"count", some (.uint (countedBy (wheresText p.wheres) cr eng (fromRows eng db p.table p.flat.joins))))]]
          else none
    else p.run = .panic .nilDeref := by
  have hr := nselect_run p h
  split
  · rename_i hs
    rw [if_pos hs] at hr
    obtain ⟨q, h1, hr, h0⟩ := hr
    obtain ⟨c, sql, params, h2⟩ := count_column_ran eng db (nflat_clauses h) h0 hr hcr more
    exact ⟨q, c, sql, params, h1, h2⟩
  · rename_i hs
    rw [if_neg hs] at hr
    exact hr

/-- **C81**, counting a column: `Count(column)` on a select of any kind. -/
theorem C81_count_column_exact (eng : Engine) (db : Db) (p : KindProg) (h : p.OK) (cr : ColRef) (hcr : cr.OK) (more : List Str) :
    if wheresSound p.wheres then
      ∃ b c sql params, p.run = .ok b ∧ b.countOf (cr.text :: more) = .ok c ∧ c.build = .ok (sql, params) ∧
        params = paramsOf p.said.flat.clauses ∧
        runQuery eng db sql params =
          if fromOK db p.table p.said.flat.joins && (p.said.flat.scope db).has cr && knownIn (p.said.flat.scope db) p.said.flat.clauses then
            some [[(c!"count", some (.uint (countedBy (wheresText p.wheres) cr eng (fromRows eng db p.table p.said.flat.joins))))]]
          else none
    else p.run = .panic .nilDeref := by
  have hc := C78_count_column_exact eng db p.eff (eff_ok h) cr hcr more
  rw [eff_wheres_eq] at hc
  rw [C81_calls p h]
  split
  · rename_i hs
    rw [if_pos hs] at hc
    obtain ⟨q, c, sql, params, h1, h2, h3, h4, h5⟩ := hc
    refine ⟨q.as p.kind, c, sql, params, by rw [h1]; rfl, Eq.trans (by cases p.kind <;> rfl) h2, h3, eff_clauses p ▸ h4, ?_⟩
    unfold SelectProg.scope at h5 ⊢
    rw [eff_joins, eff_clauses] at h5
    exact h5
  · rename_i hs
    rw [if_neg hs] at hc
    rw [hc]
    rfl

/-- `Count("a")` at the end of the program of C81, and of a column that is not there. -/
example : exKindProg.OK ∧ (exCol [] c!"a").OK ∧
    (exKindProg.run.bind fun b => b.countOf [c!"a", c!"id"]).bind CountB.build =
      .ok (c!"SELECT COUNT(a) FROM t WHERE a=$1 OR id=$2", [.other 7, .other 3]) ∧
    runBuilt exEng exDb ((exKindProg.run.bind fun b => b.countOf [c!"a", c!"id"]).bind CountB.build) =
      some [[(c!"count", some (.uint 2))]] ∧
    runBuilt exEng exDb ((exKindProg.run.bind fun b => b.countOf [c!"n"]).bind CountB.build) = none :=
  ⟨exKindProg_ok, exCol_ok (by decide), rfl, rfl, rfl⟩

end Query
