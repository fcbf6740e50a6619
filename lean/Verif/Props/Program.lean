import Verif.Proof.Program
import Verif.Props.Rows
/-!
# C67: from the calls of a program to the statement, its parameters and its effect

A program (`Spec/Program.lean`) is names as texts, values and a list of method calls.  The library calls succeed, the text they
give reads as the statement the program describes, its parameters are those of the program in order, and running it in any
database does what the program says.
-/
namespace Query

theorem item_asName {p : ColRef × Option Str} (h : p.1.OKItem)
    (ha : ∀ a ∈ p.2, Ident a ∧ (p.1.table = none → a ≠ p.1.name ∧ p.1.name ≠ c!"*")) :
    (itemFd p).asName = p.2 := by
  obtain ⟨⟨t, n⟩, a⟩ := p
  unfold FieldDef.asName itemFd ColRef.fd
  cases a with
  | none =>
    have := h.ne
    simp [optStr, this.symm]
  | some a =>
    obtain ⟨h1, h2⟩ := ha a rfl
    rw [if_neg]
    · simp [optStr, h1.ne]
    · rintro ⟨e1, e2⟩
      cases t with
      | none => exact (h2 rfl).1 e1
      | some t => exact (h.table t rfl).ne e2

theorem calls_items {t : TabRef} {calls : List SCall} (h : ∀ c ∈ calls, c.OK) {f : Fields}
    (hf : f.specs = ((calls.filterMap SCall.fields?).getLast?.map (·.map itemFd)).getD []) :
    f.refs = SelectProg.items ⟨t, calls⟩ ∧ ∀ fd ∈ f.specs, PlainDef fd := by
  generalize hl : (calls.filterMap SCall.fields?).getLast? = last at hf
  have hlast : ∀ l ∈ last, SCall.OK (.fields l) := by
    intro l hm
    have := List.mem_of_getLast? (hl.trans hm)
    rw [List.mem_filterMap] at this
    obtain ⟨c, hc, e⟩ := this
    cases c <;> simp [SCall.fields?] at e
    subst e
    exact h _ hc
  unfold Fields.refs SelectProg.items
  rw [hf, hl]
  cases last with
  | none => exact ⟨rfl, by simp⟩
  | some l =>
    have hOK := hlast l rfl
    refine ⟨?_, ?_⟩
    · cases l with
      | nil => rfl
      | cons p l =>
        simp only [Option.map_some, Option.getD_some, List.map_cons, if_neg (List.cons_ne_nil _ _), List.cons.injEq, List.map_map]
        have h1 : ∀ x ∈ p :: l, SelItem.col (itemFd x).ref (itemFd x).asName = .col x.1 x.2 := by
          intro p hp
          rw [item_asName (hOK p hp).1 (hOK p hp).2]
          congr 1
          exact fd_ref (hOK p hp).1 _
        exact ⟨h1 p (by simp), List.map_congr_left fun x hx => h1 x (by simp [hx])⟩
    · intro fd hfd
      simp only [Option.map_some, Option.getD_some, List.mem_map] at hfd
      obtain ⟨p, hp, rfl⟩ := hfd
      exact fd_item (hOK p hp).1 fun a ha => ⟨((hOK p hp).2 a ha).1, fun h0 => (((hOK p hp).2 a ha).2 h0).2⟩

theorem joinKind_type (k : JoinKind) : joinKind k.type = some k.text := by cases k <;> rfl

theorem calls_joins {t : TabRef} {calls : List SCall} (h : ∀ c ∈ calls, c.OK) :
    (calls.filterMap SCall.joiner).map TableJoiner.ref = SelectProg.joins ⟨t, calls⟩ ∧
      ∀ j ∈ calls.filterMap SCall.joiner, PlainJoin j := by
  constructor
  · unfold SelectProg.joins
    induction calls with
    | nil => rfl
    | cons c calls ih =>
      have hc := h c (by simp)
      have ih := ih fun d hd => h d (by simp [hd])
      cases c <;> simp only [List.filterMap_cons, SCall.joiner, SCall.join?] <;> try exact ih
      rename_i k tb l r
      obtain ⟨h1, h2, h3, _⟩ := hc
      simp only [List.map_cons, ih, List.cons.injEq, and_true]
      simp [TableJoiner.ref, joinKind_type, ident_ref h1, joinFields, fd_ref' h2, fd_ref' h3]
  · intro j hj
    obtain ⟨c, hc, e⟩ := List.mem_filterMap.mp hj
    replace hc := h c hc
    clear hj
    cases c <;> simp [SCall.joiner] at e
    rename_i k tb l r
    obtain ⟨h1, h2, h3, h4, h5⟩ := hc
    subst e
    have hne : ∀ c : ColRef, c.OK → c.table ≠ none → c.fd.tableName ≠ [] := by
      intro c hc hn
      obtain ⟨t, n⟩ := c
      cases t with
      | none => exact absurd rfl hn
      | some t => exact (hc.table t rfl).ne
    exact ⟨by simp [joinKind_type], ident_plain h1, ⟨fd_side h2, hne l h2 h4⟩,
      ⟨fd_side h3, hne r h3 h5⟩⟩

theorem key_sort {k : ColRef × Bool} (h : k.1.OK) : PlainKey (keySort k) ∧
    ((keySort k).fd.key, (keySort k).direction) = (k.1, if k.2 then c!"DESC" else c!"ASC") := by
  refine ⟨⟨fd_key h, ?_⟩, ?_⟩
  · cases k.2 <;> simp [keySort]
  · have : (keySort k).fd.key = k.1 := by
      simp only [FieldDef.key, keySort, ColRef.fd, true_or, if_true]
      exact fd_ref' h
    rw [this]
    rfl

/-- A builder as a program describes it, with a condition that says `S`. -/
structure Ran (p : SelectProg) (S : Row → Tri) (q : SelectMany) : Prop where
  cond : WhereIs p.clauses S q.base.where_.group
  items : q.base.fields.refs = p.items
  table : q.base.baseTable.ref = p.table
  joins : q.base.joins.map TableJoiner.ref = p.joins
  plain : PlainSelect q.base
  order : ∀ o ∈ q.order, PlainKey o
  keys : (q.order.map fun o => (o.fd.key, o.direction)) = p.keys
  offset : q.offset = p.offset
  limit : q.limit = p.limit

theorem prog_run (p : SelectProg) (h : p.Names) : ∃ q, p.run = .ok q ∧ Ran p (fun row => wheresSay row p.wheres) q := by
  obtain ⟨t, calls⟩ := p
  have hq0 : selectManyFrom (.str t.text) = .ok ⟨⟨0, t.ident, [], ⟨[]⟩, newWhere⟩, 0, noLimit, [], false⟩ := by
    have := table_text h.table
    simp only [table] at this
    simp [selectManyFrom, selectFrom, tableP, tableOrErrorP, this]
  obtain ⟨q, hq, ha⟩ := calls_run t calls h.calls ⟨⟨0, t.ident, [], ⟨[]⟩, newWhere⟩, 0, noLimit, [], false⟩
  have hcl : ∀ c ∈ (SelectProg.wheres ⟨t, calls⟩).flatten, c.OK := by
    intro c hc
    obtain ⟨cs, h1, h2⟩ := List.mem_flatten.mp hc
    obtain ⟨d, h3, h4⟩ := List.mem_filterMap.mp h1
    have := h.calls d h3
    cases d <;> simp [SCall.where?, SCall.keys?] at h4
    subst h4
    exact this c h2
  have hw := where_any _ hcl
  have hg : q.base.where_.group = (condsOf (SelectProg.wheres ⟨t, calls⟩)).foldl Group.groupAND newWhere.group := ha.where_
  rw [← hg] at hw
  obtain ⟨hi1, hi2⟩ := calls_items (t := t) h.calls ha.fields
  obtain ⟨hj1, hj2⟩ := calls_joins (t := t) h.calls
  have hjoins : q.base.joins = calls.filterMap SCall.joiner := by simpa using ha.joins
  have htab : q.base.baseTable = t.ident := ha.table
  have hplain : PlainSelect q.base := by
    refine ⟨hi2, by rw [htab]; exact ident_plain h.table, by rw [hjoins]; exact hj2, ?_⟩
    by_cases hn : (SelectProg.wheres ⟨t, calls⟩).flatten = []
    · exact .inl (hw.none hn)
    · exact .inr (hw.read hn)
  have hks : ∀ k ∈ (calls.filterMap SCall.keys?).flatten, k.1.OK := by
    intro k hk
    obtain ⟨ks, h1, h2⟩ := List.mem_flatten.mp hk
    obtain ⟨d, h3, h4⟩ := List.mem_filterMap.mp h1
    have := h.calls d h3
    cases d <;> simp [SCall.where?, SCall.keys?] at h4
    subst h4
    exact this k h2
  have hord : q.order = (calls.filterMap SCall.keys?).flatten.map keySort := by simpa using ha.order
  have hkeys : (q.order.map fun o => (o.fd.key, o.direction)) = SelectProg.keys ⟨t, calls⟩ := by
    rw [hord, SelectProg.keys, List.map_map]
    exact List.map_congr_left fun k hk => (key_sort (hks k hk)).2
  exact ⟨q, by simp [SelectProg.run, hq0, hq], hw, hi1, by rw [htab, ident_ref h.table], by rw [hjoins, hj1], hplain, (by
    rw [hord]
    intro o ho
    obtain ⟨k, hk, rfl⟩ := List.mem_map.mp ho
    exact (key_sort (hks k hk)).1), hkeys, ha.offset, ha.limit⟩

theorem prog_values {p : SelectProg} {S : Row → Tri} {q : SelectMany} (h : Ran p S q) {sql : Str} {params : List Val}
    (e1 : q.base.build = .ok (sql, params)) : params = paramsOf p.clauses := by
  have hw := h.cond
  unfold BaseSelect.build at e1
  by_cases hn : p.clauses = []
  · have h0 : q.base.where_.conditions = [] := hw.none hn
    simp only [h0, List.length_nil, gt_iff_lt, Nat.lt_irrefl, if_false, Res.ok.injEq, Prod.mk.injEq] at e1
    rw [hn, ← e1.2]
    rfl
  · have h0 : q.base.where_.conditions ≠ [] := (readable_group.mp (hw.read hn)).1
    rw [if_pos (by simpa [List.length_pos_iff] using h0)] at e1
    simp only [Res.bind_eq_ok, Res.ok.injEq, Prod.mk.injEq] at e1
    obtain ⟨_, _, vs, hv, _, rfl⟩ := e1
    have hv' : q.base.where_.group.toCond.values = .ok vs := hv
    rw [whereIs_values hw hn] at hv'
    exact (Res.ok.inj hv').symm

theorem prog_where {p : SelectProg} {S : Row → Tri} {q : SelectMany} (h : Ran p S q) {params : List Val} {w : Option BExp}
    (h3 : WhereRead q.base params w) : CondIs p.clauses S params w := by
  have hw := h.cond
  unfold WhereRead at h3
  by_cases hn : p.clauses = []
  · have h0 : q.base.where_.conditions = [] := hw.none hn
    rw [if_pos h0] at h3
    rw [CondIs, if_pos hn]
    exact h3
  · have h0 : q.base.where_.conditions ≠ [] := (readable_group.mp (hw.read hn)).1
    rw [if_neg h0] at h3
    obtain ⟨e, rfl, he⟩ := h3
    exact condIs_of hw hn he

theorem select_ran {p : SelectProg} {S : Row → Tri} {q : SelectMany} (hr : Ran p S q) :
    ∃ sql s, q.build = .ok (sql, p.params) ∧ readStmt sql = some (.select s) ∧
      s.items = p.items ∧ s.table = p.table ∧ s.joins = p.joins ∧ s.order = p.keys ∧ CondIs p.clauses S p.params s.cond ∧
      RowsRead p.params p.offset s.offset ∧ RowsRead p.params p.limit.toNat s.limit := by
  obtain ⟨sql, params, w, off, lim, h1, h2, h3, h4, h5⟩ := C22_many_partial q hr.plain hr.order
  have hparams : params = p.params := by
    obtain ⟨sql0, params0, e1, _, e3⟩ := C20_many_tail q sql params h1
    rw [e3, prog_values hr e1, SelectProg.params, ← hr.offset, ← hr.limit, limitItems]
    split <;> split <;> simp
  subst hparams
  exact ⟨sql, _, h1, h2, hr.items, hr.table, hr.joins, hr.keys, prog_where hr h3, hr.offset ▸ h4, hr.limit ▸ h5⟩

/-- **C67, exactly**, SELECT: for any clauses in any Where calls, the calls succeed; the text they give reads as the statement the
program describes, with a condition that says `wheresSay` and has the tests of the clauses in order; the parameters are those of the
program. -/
theorem C67_select_exact (p : SelectProg) (h : p.Names) :
    ∃ q sql s, p.run = .ok q ∧ q.build = .ok (sql, p.params) ∧ readStmt sql = some (.select s) ∧
      s.items = p.items ∧ s.table = p.table ∧ s.joins = p.joins ∧ s.order = p.keys ∧
      CondIs p.clauses (fun row => wheresSay row p.wheres) p.params s.cond ∧
      RowsRead p.params p.offset s.offset ∧ RowsRead p.params p.limit.toNat s.limit := by
  obtain ⟨q, h1, hr⟩ := prog_run p h
  obtain ⟨sql, s, h2⟩ := select_ran hr
  exact ⟨q, sql, s, h1, h2⟩

theorem prog_clauses {p : SelectProg} (h : p.Names) : ∀ c ∈ p.clauses, c.OK := by
  intro c hc
  obtain ⟨cs, h1, h2⟩ := List.mem_flatten.mp hc
  obtain ⟨d, h3, h4⟩ := List.mem_filterMap.mp h1
  have := h.calls d h3
  cases d <;> simp [SCall.where?, SCall.keys?] at h4
  subst h4
  exact this c h2

/-- Where alternatives do no harm, the condition says what the clauses say. -/
theorem prog_says {p : SelectProg} (h : p.OK) : (fun row => wheresSay row p.wheres) = fun row => saysAll row p.clauses :=
  funext fun row => wheres_all p.wheres (prog_clauses h.toNames) h.wheres row

/-- **C67**, SELECT: the calls succeed; the text they give reads as the statement the program describes; the parameters are
those of the program.

Missing for the full claim: alternatives in the first Where, for which it is false (`C67_or_false`; `C67_select_exact` says what the
text means then), and names that are not plain identifiers (`SelectProg.OK`). -/
theorem C67_select_partial (p : SelectProg) (h : p.OK) :
    ∃ q sql s, p.run = .ok q ∧ q.build = .ok (sql, p.params) ∧ readStmt sql = some (.select s) ∧
      s.items = p.items ∧ s.table = p.table ∧ s.joins = p.joins ∧ s.order = p.keys ∧
      CondIs p.clauses (fun row => saysAll row p.clauses) p.params s.cond ∧
      RowsRead p.params p.offset s.offset ∧ RowsRead p.params p.limit.toNat s.limit :=
  prog_says h ▸ C67_select_exact p h.toNames

theorem condIs_cols {cs : List Clause} {S : Row → Tri} {params : List Val} {w : Option BExp} (h : CondIs cs S params w)
    (hc : ∀ c ∈ cs, c.OK) (sc : Scope) : sc.hasCond w = knownIn sc cs := by
  unfold CondIs at h
  split at h
  · rename_i h0; subst h0 h; rfl
  · obtain ⟨e, rfl, _, h2⟩ := h
    unfold Scope.hasCond knownIn
    simp only [bexp_cols (bound 0 params), h2, List.all_map, List.map_map]
    have hOK : ∀ t ∈ testsOf cs, t.col.OK := by
      intro t ht
      obtain ⟨c, hm, ht⟩ := List.mem_flatMap.mp ht
      obtain ⟨l, hl, rfl⟩ := List.mem_map.mp ht
      have := (hc c hm).tests l hl
      revert this
      cases l.test <;> simp only [Test.OK, Test.col] <;> intro h
      · exact h.1
      · exact h.1
      all_goals exact h
    rw [Bool.eq_iff_iff]
    simp only [List.all_eq_true, Function.comp]
    constructor
    · intro hh t ht
      have := hh t ht
      rwa [colRef_text (hOK t ht)] at this
    · intro hh t ht
      rw [colRef_text (hOK t ht)]
      exact hh t ht

theorem condIs_rows {cs : List Clause} {S : Row → Tri} {params : List Val} {w : Option BExp} (h : CondIs cs S params w)
    (h0 : cs = [] → ∀ row, S row = .t) (eng : Engine) (rows : List Env) :
    whereRows eng params w rows = rows.filter fun env => S (eng.row env) == .t := by
  unfold CondIs at h
  split at h
  · rename_i hn
    subst h
    exact (List.filter_eq_self.mpr fun _ _ => by simp [h0 hn]).symm
  · obtain ⟨e, rfl, h1, _⟩ := h
    simp only [whereRows, h1]

theorem wheresSay_nil (calls : List (List Clause)) (h : calls.flatten = []) (row : Row) : wheresSay row calls = .t := by
  have : ∀ cs : List (List Clause), cs.flatten = [] → cs.foldl (wheresStep row) none = none := by
    intro cs
    induction cs with
    | nil => intro _; rfl
    | cons ds cs ih =>
      intro h
      simp only [List.flatten_cons, List.append_eq_nil_iff] at h
      obtain ⟨rfl, h⟩ := h
      exact ih h
  rw [wheresSay, this _ h]
  rfl

theorem items_noCount (p : SelectProg) : p.items.any SelItem.isCount = false ∧ ∀ c, p.items ≠ [.count c] := by
  unfold SelectProg.items
  split
  · exact ⟨rfl, by simp⟩
  · rename_i l _
    refine ⟨by simp [List.any_map, Function.comp_def, SelItem.isCount], fun c h => ?_⟩
    have := congrArg List.head? h
    cases l <;> simp at this

theorem rows_ran (eng : Engine) (db : Db) {p : SelectProg} {S : Row → Tri} {q : SelectMany} (hc : ∀ c ∈ p.clauses, c.OK)
    (h0 : p.clauses = [] → ∀ row, S row = .t) (hr : Ran p S q) :
    ∃ sql params, q.build = .ok (sql, params) ∧ runQuery eng db sql params = if p.known db then some (p.rowsBy S eng db) else none := by
  obtain ⟨sql, s, h2, h3, h4, h5, h6, h7, h8, h9, h10⟩ := select_ran hr
  refine ⟨sql, _, h2, ?_⟩
  simp only [runQuery, h3]
  unfold SelectStmt.run
  have hok : s.ok db = p.known db := by
    unfold SelectStmt.ok SelectProg.known SelectProg.scope
    simp only [h4, h5, h6, h7, condIs_cols h8 hc]
  rw [hok]
  split
  · simp only [rowsRead_num h9, rowsRead_num h10, h5, h6, condIs_rows h8 h0]
    obtain ⟨n1, n2⟩ := items_noCount p
    split
    · rename_i c hc
      exact absurd (h4.symm.trans hc) (n2 c)
    · simp only [h4, n1, Bool.false_eq_true, if_false, h7, window_page]
      rfl
  · rfl

/-- **C67, exactly**, the rows: in every database, running the text gives the rows on which `wheresSay` holds; if a name of the
program is not known there, the database refuses it. -/
theorem C67_rows_exact (eng : Engine) (db : Db) (p : SelectProg) (h : p.Names) :
    ∃ q sql params, p.run = .ok q ∧ q.build = .ok (sql, params) ∧
      runQuery eng db sql params = if p.known db then some (p.rowsBy (fun row => wheresSay row p.wheres) eng db) else none := by
  obtain ⟨q, h1, hr⟩ := prog_run p h
  obtain ⟨sql, params, h2⟩ := rows_ran eng db (prog_clauses h) (fun hn => wheresSay_nil p.wheres hn) hr
  exact ⟨q, sql, params, h1, h2⟩

/-- **C67**, the rows: in every database, running the text gives the rows the program asks for; if a name of the program is not
known there, the database refuses it.  Missing: as in `C67_select_partial`. -/
theorem C67_rows_partial (eng : Engine) (db : Db) (p : SelectProg) (h : p.OK) :
    ∃ q sql params, p.run = .ok q ∧ q.build = .ok (sql, params) ∧
      runQuery eng db sql params = if p.known db then some (p.rows eng db) else none := by
  have := C67_rows_exact eng db p h.toNames
  rw [prog_says h] at this
  exact this

theorem count_ran (eng : Engine) (db : Db) {p : SelectProg} {S : Row → Tri} {q : SelectMany} (hc : ∀ c ∈ p.clauses, c.OK)
    (h0 : p.clauses = [] → ∀ row, S row = .t) (hr : Ran p S q) :
    ∃ c sql params, count q.base [] = .ok c ∧ c.build = .ok (sql, params) ∧ params = paramsOf p.clauses ∧
      runQuery eng db sql params =
        if fromOK db p.table p.joins && knownIn (p.scope db) p.clauses then
          some [[(c!"count", some (.uint ((fromRows eng db p.table p.joins).filter fun env => S (eng.row env) == .t).length))]]
        else none := by
  have star_plain : CountDef ⟨c!"*", [], []⟩ := ⟨⟨by decide, by decide⟩, by decide⟩
  obtain ⟨sql, params, w, h1, h2, h3⟩ := C22_count_partial ⟨q.base, ⟨c!"*", [], []⟩⟩ hr.plain star_plain
  have hp : params = paramsOf p.clauses := by
    have hw := hr.cond
    have e1 := h1
    unfold CountB.build at e1
    by_cases hn : p.clauses = []
    · have h9 : q.base.where_.conditions = [] := hw.none hn
      simp only [h9, List.length_nil, gt_iff_lt, Nat.lt_irrefl, if_false, Res.ok.injEq, Prod.mk.injEq] at e1
      rw [hn, ← e1.2]
      rfl
    · have h9 : q.base.where_.conditions.length > 0 :=
        List.length_pos_iff.mpr (readable_group.mp (hw.read hn)).1
      simp only [h9, if_true, Res.bind_eq_ok, Res.ok.injEq, Prod.mk.injEq] at e1
      obtain ⟨_, _, vs, hv, _, rfl⟩ := e1
      have hv' : q.base.where_.group.toCond.values = .ok vs := hv
      rw [whereIs_values hw hn] at hv'
      exact (Res.ok.inj hv').symm
  refine ⟨_, sql, params, rfl, h1, hp, ?_⟩
  have hk : FieldDef.key ⟨c!"*", [], []⟩ = star := by decide
  have h8 := prog_where hr h3
  have hs : (fromOK db p.table p.joins && [SelItem.count star].all (SelItem.ok (fromScope db p.table p.joins)) &&
      knownIn (fromScope db p.table p.joins) p.clauses && [].all fun k : ColRef × Str =>
        (fromScope db p.table p.joins).has (keyCol [.count star] k.1)) =
      (fromOK db p.table p.joins && knownIn (p.scope db) p.clauses) := by
    simp [SelItem.ok, SelectProg.scope]
  simp only [runQuery, h2, SelectStmt.run, SelectStmt.ok, hr.table, hr.joins, hk, condIs_cols h8 hc, optNum,
    condIs_rows h8 h0, hs]
  rfl

/-- **C67, exactly**, counting: `Count()` on the builder of a program gives the number of rows on which `wheresSay` holds. -/
theorem C67_count_exact (eng : Engine) (db : Db) (p : SelectProg) (h : p.Names) :
    ∃ q c sql params, p.run = .ok q ∧ count q.base [] = .ok c ∧ c.build = .ok (sql, params) ∧
      params = paramsOf p.clauses ∧
      runQuery eng db sql params =
        if fromOK db p.table p.joins && knownIn (p.scope db) p.clauses then
          some [[(c!"count", some (.uint ((fromRows eng db p.table p.joins).filter fun env =>
            wheresSay (eng.row env) p.wheres == .t).length))]]
        else none := by
  obtain ⟨q, h1, hr⟩ := prog_run p h
  obtain ⟨c, sql, params, h2⟩ := count_ran eng db (prog_clauses h) (fun hn => wheresSay_nil p.wheres hn) hr
  exact ⟨q, c, sql, params, h1, h2⟩

/-- **C67**, counting: `Count()` on the builder of a program gives the number of rows on which its clauses hold.
Missing: as in `C67_select_partial`. -/
theorem C67_count_partial (eng : Engine) (db : Db) (p : SelectProg) (h : p.OK) :
    ∃ q c sql params, p.run = .ok q ∧ count q.base [] = .ok c ∧ c.build = .ok (sql, params) ∧
      params = paramsOf p.clauses ∧
      runQuery eng db sql params =
        if fromOK db p.table p.joins && knownIn (p.scope db) p.clauses then
          some [[(c!"count", some (.uint ((fromRows eng db p.table p.joins).filter fun env =>
            saysAll (eng.row env) p.clauses == .t).length))]]
        else none := by
  obtain ⟨q, c, sql, params, h1, h2, h3, h4, h5⟩ := C67_count_exact eng db p h.toNames
  refine ⟨q, c, sql, params, h1, h2, h3, h4, h5.trans ?_⟩
  have e : ∀ row, wheresSay row p.wheres = saysAll row p.clauses := fun row => congrFun (prog_says h) row
  simp only [e]

/-! ## INSERT, UPDATE, DELETE -/

/-- The field value of a column and a value. -/
def SetTo.fv (s : SetTo) : FieldValue := ⟨⟨s.name, [], []⟩, s.value⟩

theorem set_call {s : SetTo} (h : s.OK) : s.call = .ok s.fv := by
  have hc : (ColRef.mk none s.name).OK := ⟨h.name, by simp⟩
  have := field_col hc
  simp only [ColRef.text] at this
  simp [SetTo.call, newFieldValue, this, ColRef.fd, SetTo.fv]

theorem sets_call {l : List SetTo} (h : ∀ s ∈ l, s.OK) : Res.mapL SetTo.call l = .ok (l.map SetTo.fv) :=
  mapL_ok _ _ _ fun s hs => set_call (h s hs)

theorem sets_values {l : List SetTo} (h : ∀ s ∈ l, s.OK) :
    (l.map SetTo.fv).map FieldValue.values = (l.map (·.param)).map fun v => .ok [v] := by
  rw [List.map_map, List.map_map]
  exact List.map_congr_left fun s hs => (C38_values s.fv _).mpr (h s hs).value

theorem insert_calls (calls : List (List SetTo)) (h : ∀ s ∈ calls.flatten, s.OK) : ∀ q : InsertB,
    InsertProg.runCalls q calls = .ok ⟨q.op, q.tableName, q.setValues ++ calls.flatten.map SetTo.fv⟩ := by
  induction calls with
  | nil => intro q; simp [InsertProg.runCalls]
  | cons c calls ih =>
    intro q
    simp only [List.flatten_cons, List.mem_append] at h
    simp only [InsertProg.runCalls, sets_call fun s hs => h s (.inl hs), Res.bind_ok]
    rw [ih fun s hs => h s (.inr hs)]
    simp [InsertB.addValues]

theorem zip_sets (l : List SetTo) (vs : List Val) (ns : List Nat) (f : Nat → Val) (h : ns.map f = vs)
    (hv : vs = l.map (·.param)) :
    (l.map (·.name)).zip (ns.map fun n => cellOf (f n)) = l.map fun s => (s.name, cellOf s.param) := by
  have : (ns.map fun n => cellOf (f n)) = l.map fun s => cellOf s.param := by
    have := congrArg (List.map cellOf) (h.trans hv)
    rwa [List.map_map, List.map_map] at this
  rw [this]
  induction l with
  | nil => rfl
  | cons s l ih => simp [List.zip_map']

/-- **C67**, INSERT: the calls succeed; the text reads as an INSERT of the columns given, with the values as parameters; running
it does what the program says. -/
theorem C67_insert (eng : Engine) (db : Db) (p : InsertProg) (h : p.OK) :
    ∃ q sql ns, p.run = .ok q ∧ q.build = .ok (sql, p.sets.map (·.param)) ∧
      readStmt sql = some (.insert p.table (p.sets.map (·.name)) ns) ∧
      ns.map (bound 0 (p.sets.map (·.param))) = p.sets.map (·.param) ∧
      runStmt eng db sql (p.sets.map (·.param)) = p.effect db := by
  have hrun : p.run = .ok ⟨doInsert, p.table, p.sets.map SetTo.fv⟩ := by
    unfold InsertProg.run
    rw [insert_calls _ h.sets]
    rfl
  obtain ⟨sql, ns, h1, h2, h3⟩ := C44_insert_partial ⟨doInsert, p.table, p.sets.map SetTo.fv⟩ (p.sets.map (·.param))
    (by simpa using h.some) h.table.plain.1
    (by
      intro fv hfv
      obtain ⟨s, hs, rfl⟩ := List.mem_map.mp hfv
      exact (h.sets s hs).name.plain)
    (sets_values h.sets)
  have hnames : (p.sets.map SetTo.fv).map (fun fv => fv.fd.fieldName) = p.sets.map (·.name) := by
    rw [List.map_map]; rfl
  rw [hnames] at h2
  refine ⟨_, sql, ns, hrun, h1, h2, h3, ?_⟩
  have hlen : (p.sets.map (·.name)).length = ns.length := by
    have := congrArg List.length h3
    simp only [List.length_map] at this ⊢
    exact this.symm
  simp only [runStmt, h2, Stmt.run, InsertProg.effect]
  rw [zip_sets p.sets _ ns _ h3 rfl]
  have : ((p.sets.map (·.name)).Nodup ∧ (p.sets.map (·.name)).length = ns.length ∧
      ∀ c ∈ p.sets.map (·.name), c ∈ (db p.table).cols) ↔
      ((p.sets.map (·.name)).Nodup ∧ ∀ s ∈ p.sets, s.name ∈ (db p.table).cols) := by
    simp only [hlen, true_and, List.mem_map, forall_exists_index, and_imp, forall_apply_eq_imp_iff₂]
  simp only [this]

theorem update_calls (calls : List UCall) (hs : ∀ s ∈ (calls.filterMap UCall.set?).flatten, s.OK)
    (hc : ∀ c ∈ (calls.filterMap UCall.where?).flatten, c.OK) : ∀ q : UpdateB,
    UpdateProg.runCalls q calls = .ok ⟨q.op, q.tableName,
      (condsOf (calls.filterMap UCall.where?)).foldl Group.groupAND q.where_,
      q.setValues ++ (calls.filterMap UCall.set?).flatten.map SetTo.fv⟩ := by
  induction calls with
  | nil => intro q; simp [UpdateProg.runCalls, condsOf]
  | cons c calls ih =>
    intro q
    cases c with
    | set l =>
      simp only [List.filterMap_cons, UCall.set?, UCall.where?, List.flatten_cons, List.mem_append] at hs hc ⊢
      simp only [UpdateProg.runCalls, UCall.run, sets_call fun s h => hs s (.inl h), Res.bind_ok]
      rw [ih (fun s h => hs s (.inr h)) hc]
      simp [UpdateB.set]
    | addWhere cs =>
      simp only [List.filterMap_cons, UCall.set?, UCall.where?, List.flatten_cons, List.mem_append] at hs hc ⊢
      simp only [UpdateProg.runCalls, UCall.run, clauses_call fun s h => hc s (.inl h), Res.bind_ok]
      rw [ih hs (fun s h => hc s (.inr h))]
      simp [UpdateB.addWhere, condsOf]

theorem update_ran (eng : Engine) (db : Db) (p : UpdateProg) (h : p.Names) {S : Row → Tri} {g : Group} (hw : WhereIs p.clauses S g) :
    ∃ sql sets e, (UpdateB.mk doUpdate p.table g (p.sets.map SetTo.fv)).build = .ok (sql, p.params) ∧
      readStmt sql = some (.update p.table sets e) ∧
      (sets.map fun s => (s.1, bound 0 p.params s.2)) = p.sets.map (fun s => (s.name, s.param)) ∧
      CondIs p.clauses S p.params (some e) ∧ runStmt eng db sql p.params = p.effectBy S eng db := by
  have hf : ∀ fv ∈ p.sets.map SetTo.fv, PlainIdent fv.fd.fieldName := by
    intro fv hfv
    obtain ⟨s, hs, rfl⟩ := List.mem_map.mp hfv
    exact (h.sets s hs).name.plain
  let q : UpdateB := ⟨doUpdate, p.table, g, p.sets.map SetTo.fv⟩
  obtain ⟨sql, params, sets, e, h1, h2, h3, h4, h5⟩ := C45_update_partial q (p.sets.map (·.param)) (by simpa [q] using h.some)
    h.table.plain.1 hf (sets_values h.sets) (hw.read h.where_)
  obtain ⟨w, _, hb, _⟩ := C04_update_partial q (p.sets.map (·.param)) (paramsOf p.clauses)
    (readable_group.mp (hw.read h.where_)).1 (by simpa [q] using h.some) h.table.plain.1.1 (sets_values h.sets)
    (whereIs_values hw h.where_)
  have hp : params = p.params := by
    rw [h1] at hb
    simp only [Res.ok.injEq, Prod.mk.injEq] at hb
    exact hb.2
  subst hp
  have hnames : (p.sets.map SetTo.fv).map (fun fv => fv.fd.fieldName) = p.sets.map (·.name) := by
    rw [List.map_map]; rfl
  have h3 : sets.map (·.1) = p.sets.map (·.name) := h3.trans hnames
  have hsets : (sets.map fun s => (s.1, bound 0 p.params s.2)) = p.sets.map (fun s => (s.name, s.param)) := by
    have e1 : (sets.map fun s => (s.1, bound 0 p.params s.2)) =
        (sets.map (·.1)).zip (sets.map fun s => bound 0 p.params s.2) := (List.zip_map' ..).symm
    rw [e1, h3, h4, List.zip_map']
  have hc := condIs_of hw h.where_ h5
  refine ⟨sql, sets, e, h1, h2, hsets, hc, ?_⟩
  simp only [runStmt, h2, Stmt.run, UpdateProg.effectBy]
  have hcols : (e.cols.all fun w => Scope.has [(p.table, (db p.table).cols)] (colRef w)) =
      knownIn [(p.table, (db p.table).cols)] p.clauses := condIs_cols hc h.clauses [(p.table, (db p.table).cols)]
  have hin : (∀ s ∈ sets, s.1 ∈ (db p.table).cols) ↔ ∀ s ∈ p.sets, s.name ∈ (db p.table).cols := by
    have : (∀ n ∈ sets.map (·.1), n ∈ (db p.table).cols) ↔ ∀ n ∈ p.sets.map (·.name), n ∈ (db p.table).cols := by rw [h3]
    simpa using this
  have hassign : (sets.map fun s => (s.1, cellOf (bound 0 p.params s.2))) = p.sets.map fun s => (s.name, cellOf s.param) := by
    have := congrArg (List.map fun x : Str × Val => (x.1, cellOf x.2)) hsets
    rwa [List.map_map, List.map_map] at this
  have hq : q.tableName = p.table := rfl
  have hholds : ∀ r, holdsOn eng (db p.table) p.table p.params e r =
      (S (eng.row ((db p.table).env p.table r)) == .t) := by
    intro r
    have h7 := hc
    rw [CondIs, if_neg h.where_] at h7
    obtain ⟨e', he, h6, _⟩ := h7
    cases he
    simp only [holdsOn, h6]
  simp only [hq, h3, hin, hcols, hassign, hholds]

/-- **C67, exactly**, UPDATE: for any clauses in any Where calls, the calls succeed; the text reads as an UPDATE that sets the
columns given where `wheresSay` holds; the parameters are those of the program; running it does just that. -/
theorem C67_update_exact (eng : Engine) (db : Db) (p : UpdateProg) (h : p.Names) :
    ∃ q sql sets e, p.run = .ok q ∧ q.build = .ok (sql, p.params) ∧ readStmt sql = some (.update p.table sets e) ∧
      (sets.map fun s => (s.1, bound 0 p.params s.2)) = p.sets.map (fun s => (s.name, s.param)) ∧
      CondIs p.clauses (fun row => wheresSay row p.wheres) p.params (some e) ∧
      runStmt eng db sql p.params = p.effectBy (fun row => wheresSay row p.wheres) eng db := by
  have hw : WhereIs p.clauses (fun row => wheresSay row p.wheres) ((condsOf p.wheres).foldl Group.groupAND newWhere.group) :=
    where_any p.wheres h.clauses
  have hrun : p.run = .ok ⟨doUpdate, p.table, (condsOf p.wheres).foldl Group.groupAND newWhere.group, p.sets.map SetTo.fv⟩ := by
    unfold UpdateProg.run
    rw [update_calls _ h.sets h.clauses]
    rfl
  obtain ⟨sql, sets, e, h1⟩ := update_ran eng db p h hw
  exact ⟨_, sql, sets, e, hrun, h1⟩

/-- **C67**, UPDATE: the calls succeed; the text reads as an UPDATE that sets the columns given where the clauses hold; the
parameters are those of the program; running it does what the program says.  Missing: as in `C67_select_partial`. -/
theorem C67_update_partial (eng : Engine) (db : Db) (p : UpdateProg) (h : p.OK) :
    ∃ q sql sets e, p.run = .ok q ∧ q.build = .ok (sql, p.params) ∧ readStmt sql = some (.update p.table sets e) ∧
      (sets.map fun s => (s.1, bound 0 p.params s.2)) = p.sets.map (fun s => (s.name, s.param)) ∧
      CondIs p.clauses (fun row => saysAll row p.clauses) p.params (some e) ∧ runStmt eng db sql p.params = p.effect eng db := by
  have e : (fun row => wheresSay row p.wheres) = fun row => saysAll row p.clauses :=
    funext fun row => wheres_all p.wheres h.clauses h.wheres row
  have := C67_update_exact eng db p h.toNames
  rw [e] at this
  exact this

theorem delete_calls (calls : List (List Clause)) (h : ∀ c ∈ calls.flatten, c.OK) : ∀ q : DeleteB,
    DeleteProg.runCalls q calls = .ok ⟨q.op, q.tableName, (condsOf calls).foldl Group.groupAND q.where_⟩ := by
  induction calls with
  | nil => intro q; simp [DeleteProg.runCalls, condsOf]
  | cons c calls ih =>
    intro q
    simp only [List.flatten_cons, List.mem_append] at h
    simp only [DeleteProg.runCalls, clauses_call fun s hs => h s (.inl hs), Res.bind_ok]
    rw [ih fun s hs => h s (.inr hs)]
    simp [DeleteB.addWhere, condsOf]

theorem delete_ran (eng : Engine) (db : Db) (p : DeleteProg) (h : p.Names) {S : Row → Tri} {g : Group} (hw : WhereIs p.clauses S g) :
    ∃ sql e, (DeleteB.mk doDelete p.table g).build = .ok (sql, paramsOf p.clauses) ∧ readStmt sql = some (.delete p.table e) ∧
      CondIs p.clauses S (paramsOf p.clauses) (some e) ∧ runStmt eng db sql (paramsOf p.clauses) = p.effectBy S eng db := by
  let q : DeleteB := ⟨doDelete, p.table, g⟩
  obtain ⟨sql, params, e, h1, h2, h3⟩ := C46_delete_partial q h.table.plain.1 (hw.read h.where_)
  have hp : params = paramsOf p.clauses := by
    have hne : q.where_.conds ≠ [] := (readable_group.mp (hw.read h.where_)).1
    have h1' := h1
    unfold DeleteB.build at h1'
    rw [if_neg (by simpa using hne), if_neg (by simpa [q] using h.table.ne)] at h1'
    simp only [Res.bind_eq_ok, Res.ok.injEq, Prod.mk.injEq] at h1'
    obtain ⟨_, _, vs, hv, _, rfl⟩ := h1'
    have hv' : q.where_.toCond.values = .ok vs := hv
    have := whereIs_values hw h.where_
    rw [show g.toCond = q.where_.toCond from rfl, hv'] at this
    exact Res.ok.inj this
  subst hp
  have hc := condIs_of hw h.where_ h3
  refine ⟨sql, e, h1, h2, hc, ?_⟩
  have hcols : (e.cols.all fun w => Scope.has [(p.table, (db p.table).cols)] (colRef w)) =
      knownIn [(p.table, (db p.table).cols)] p.clauses := condIs_cols hc h.clauses [(p.table, (db p.table).cols)]
  have hholds : ∀ r, holdsOn eng (db p.table) p.table (paramsOf p.clauses) e r =
      (S (eng.row ((db p.table).env p.table r)) == .t) := by
    intro r
    have h7 := hc
    rw [CondIs, if_neg h.where_] at h7
    obtain ⟨e', he, h6, _⟩ := h7
    cases he
    simp only [holdsOn, h6]
  have hq : q.tableName = p.table := rfl
  simp only [runStmt, h2, Stmt.run, DeleteProg.effectBy, hq, hcols, hholds]

/-- **C67, exactly**, DELETE: for any clauses in any Where calls, the calls succeed; the text reads as a DELETE where `wheresSay`
holds; the parameters are those of the program; running it removes just those rows. -/
theorem C67_delete_exact (eng : Engine) (db : Db) (p : DeleteProg) (h : p.Names) :
    ∃ q sql e, p.run = .ok q ∧ q.build = .ok (sql, paramsOf p.clauses) ∧ readStmt sql = some (.delete p.table e) ∧
      CondIs p.clauses (fun row => wheresSay row p.wheres) (paramsOf p.clauses) (some e) ∧
      runStmt eng db sql (paramsOf p.clauses) = p.effectBy (fun row => wheresSay row p.wheres) eng db := by
  have hw : WhereIs p.clauses (fun row => wheresSay row p.wheres) ((condsOf p.wheres).foldl Group.groupAND newWhere.group) :=
    where_any p.wheres h.clauses
  let q : DeleteB := ⟨doDelete, p.table, (condsOf p.wheres).foldl Group.groupAND newWhere.group⟩
  have hrun : p.run = .ok q := by
    unfold DeleteProg.run
    rw [delete_calls _ h.clauses]
    rfl
  obtain ⟨sql, e, h1⟩ := delete_ran eng db p h hw
  exact ⟨q, sql, e, hrun, h1⟩

/-- **C67**, DELETE: the calls succeed; the text reads as a DELETE where the clauses hold; the parameters are those of the
program; running it does what the program says.  Missing: as in `C67_select_partial`. -/
theorem C67_delete_partial (eng : Engine) (db : Db) (p : DeleteProg) (h : p.OK) :
    ∃ q sql e, p.run = .ok q ∧ q.build = .ok (sql, paramsOf p.clauses) ∧ readStmt sql = some (.delete p.table e) ∧
      CondIs p.clauses (fun row => saysAll row p.clauses) (paramsOf p.clauses) (some e) ∧
      runStmt eng db sql (paramsOf p.clauses) = p.effect eng db := by
  have e : (fun row => wheresSay row p.wheres) = fun row => saysAll row p.clauses :=
    funext fun row => wheres_all p.wheres h.clauses h.wheres row
  have := C67_delete_exact eng db p h.toNames
  rw [e] at this
  exact this

/-! ## Examples and the exception -/

/-- Words for examples. -/
theorem exIdent {w : Str} (h : w ∈ [c!"t", c!"x", c!"u", c!"id", c!"a", c!"tid", c!"n"]) : Ident w := by
  refine ⟨⟨⟨?_, ?_, ?_⟩, ?_⟩, ?_, ?_⟩ <;> revert w <;> decide

/-- A column of the examples. -/
def exCol (t : Str) (n : Str) : ColRef := ⟨if t = [] then none else some t, n⟩

/-- `a = v`. -/
def exEq (c : ColRef) (v : Nat) : Lit := ⟨false, .cmp .eq c (.other v) (.other v)⟩

/-- `SelectManyFrom("t AS x").LeftJoin("u").On("x.id", "u.tid").Fields("x.id AS n").Where(Not(IsNull("x.id")))`
`.Where(EqualTo("a", 7).Or(EqualTo("x.id", 3))).OrderBy(DESC("x.id")).Limit(2)`. -/
def exProg : SelectProg :=
  ⟨⟨c!"t", some c!"x"⟩,
    [.join .left ⟨c!"u", none⟩ (exCol c!"x" c!"id") (exCol c!"u" c!"tid"), .fields [(exCol c!"x" c!"id", some c!"n")],
      .addWhere [⟨⟨true, .null (exCol c!"x" c!"id")⟩, []⟩],
      .addWhere [⟨exEq (exCol [] c!"a") 7, [exEq (exCol c!"x" c!"id") 3]⟩],
      .orderBy [(exCol c!"x" c!"id", true)], .limit 2]⟩

example : exProg.OK := by
  have c1 : (exCol c!"x" c!"id").OK := ⟨exIdent (by decide), fun t ht => by cases ht; exact exIdent (by decide)⟩
  have c2 : (exCol c!"u" c!"tid").OK := ⟨exIdent (by decide), fun t ht => by cases ht; exact exIdent (by decide)⟩
  have c3 : (exCol [] c!"a").OK := ⟨exIdent (by decide), fun t ht => by cases ht⟩
  have hv : ∀ n, Converts (.other n) [.other n] := fun n => (C38_values ⟨⟨[], [], []⟩, .other n⟩ _).mp rfl
  refine ⟨⟨⟨exIdent (by decide), fun a ha => by cases ha; exact ⟨exIdent (by decide), by decide⟩⟩, ?_⟩, ?_⟩
  · intro c hc
    simp only [exProg, List.mem_cons, List.not_mem_nil, or_false] at hc
    rcases hc with rfl | rfl | rfl | rfl | rfl | rfl
    · exact ⟨⟨exIdent (by decide), fun a ha => by cases ha⟩, c1, c2, by decide, by decide⟩
    · intro p hp
      simp only [List.mem_singleton] at hp
      subst hp
      exact ⟨c1.item, fun a ha => by cases ha; exact ⟨exIdent (by decide), by decide⟩⟩
    · intro c hc
      simp only [List.mem_singleton] at hc
      subst hc
      refine ⟨fun l hl => ?_, by simp⟩
      simp only [Clause.lits, List.mem_singleton] at hl
      subst hl
      exact c1
    · intro c hc
      simp only [List.mem_singleton] at hc
      subst hc
      refine ⟨fun l hl => ?_, fun _ => rfl⟩
      simp only [Clause.lits, List.mem_cons, List.not_mem_nil, or_false] at hl
      rcases hl with rfl | rfl
      · exact ⟨c3, hv 7⟩
      · exact ⟨c1, hv 3⟩
    · intro p hp
      simp only [List.mem_singleton] at hp
      subst hp
      exact c1
    · trivial
  · exact ⟨by simp, by simp [SCall.where?]⟩

/-- The text of the example. -/
example : exProg.run.bind SelectMany.build =
    .ok (c!"SELECT x.id AS n FROM t AS x LEFT JOIN u ON x.id=u.tid WHERE x.id IS NOT NULL AND (a=$1 OR x.id=$2) ORDER BY x.id DESC LIMIT $3",
      [.other 7, .other 3, .uint 2]) := rfl

/-- What it asks for, and what the database answers. -/
example : exProg.known exDb = true ∧ exProg.rows exEng exDb = [[(c!"n", some (.other 3))], [(c!"n", some (.other 2))]] ∧
    runBuilt exEng exDb (exProg.run.bind SelectMany.build) =
      some [[(c!"n", some (.other 3))], [(c!"n", some (.other 2))]] := ⟨rfl, rfl, rfl⟩

/-- `SelectManyFrom("t AS x").Fields(Field("x.*"), Field("id AS n"), Field("*")).Where(EqualTo("id", 3))`. -/
def exStars : SelectProg :=
  ⟨⟨c!"t", some c!"x"⟩,
    [.fields [(⟨some c!"x", c!"*"⟩, none), (exCol [] c!"id", some c!"n"), (⟨none, c!"*"⟩, none)],
      .addWhere [⟨exEq (exCol [] c!"id") 3, []⟩]]⟩

example : exStars.OK := by
  have c1 : (exCol [] c!"id").OK := ⟨exIdent (by decide), fun t ht => by cases ht⟩
  have hv : ∀ n, Converts (.other n) [.other n] := fun n => (C38_values ⟨⟨[], [], []⟩, .other n⟩ _).mp rfl
  refine ⟨⟨⟨exIdent (by decide), fun a ha => by cases ha; exact ⟨exIdent (by decide), by decide⟩⟩, ?_⟩, ?_⟩
  · intro c hc
    simp only [exStars, List.mem_cons, List.not_mem_nil, or_false] at hc
    rcases hc with rfl | rfl
    · intro p hp
      simp only [List.mem_cons, List.not_mem_nil, or_false] at hp
      rcases hp with rfl | rfl | rfl
      · exact ⟨⟨.inr rfl, fun t ht => by cases ht; exact exIdent (by decide)⟩, fun a ha => by cases ha⟩
      · exact ⟨c1.item, fun a ha => by cases ha; exact ⟨exIdent (by decide), by decide⟩⟩
      · exact ⟨⟨.inr rfl, fun t ht => by cases ht⟩, fun a ha => by cases ha⟩
    · intro c hc
      simp only [List.mem_singleton] at hc
      subst hc
      refine ⟨fun l hl => ?_, by simp⟩
      simp only [Clause.lits, List.mem_singleton] at hl
      subst hl
      exact ⟨c1, hv 3⟩
  · exact ⟨by simp, by simp [SCall.where?]⟩

/-- All columns of the table, one of them under another name, and all columns again. -/
example : exStars.run.bind SelectMany.build = .ok (c!"SELECT x.*, id AS n, * FROM t AS x WHERE id=$1", [.other 3]) ∧
    exStars.known exDb = true ∧ (exStars.rows exEng exDb).length = 1 ∧
    (exStars.rows exEng exDb).all (fun r => r.length == 2 * (exDb c!"t").cols.length + 1) = true ∧
    runBuilt exEng exDb (exStars.run.bind SelectMany.build) = some (exStars.rows exEng exDb) := ⟨rfl, rfl, rfl, rfl, rfl⟩

/-- **C67 is false** for alternatives in the first Where: `Where(a = 7 Or id = 3).Where(id = 3)` asks for one row and gets
three. -/
theorem C67_or_false :
    let p : SelectProg := ⟨⟨c!"t", none⟩, [.fields [(exCol [] c!"id", none)],
      .addWhere [⟨exEq (exCol [] c!"a") 7, [exEq (exCol [] c!"id") 3]⟩], .addWhere [⟨exEq (exCol [] c!"id") 3, []⟩]]⟩
    p.run.bind SelectMany.build = .ok (c!"SELECT id FROM t WHERE a=$1 OR id=$2 AND id=$3", [.other 7, .other 3, .other 3]) ∧
    p.rows exEng exDb = [[(c!"id", some (.other 3))]] ∧
    runBuilt exEng exDb (p.run.bind SelectMany.build) =
      some [[(c!"id", some (.other 1))], [(c!"id", some (.other 2))], [(c!"id", some (.other 3))]] := ⟨rfl, rfl, rfl⟩

/-- The rows `C67_rows_exact` gives for it. -/
example :
    let p : SelectProg := ⟨⟨c!"t", none⟩, [.fields [(exCol [] c!"id", none)],
      .addWhere [⟨exEq (exCol [] c!"a") 7, [exEq (exCol [] c!"id") 3]⟩], .addWhere [⟨exEq (exCol [] c!"id") 3, []⟩]]⟩
    p.rowsBy (fun row => wheresSay row p.wheres) exEng exDb =
      [[(c!"id", some (.other 1))], [(c!"id", some (.other 2))], [(c!"id", some (.other 3))]] := rfl

/-- An UPDATE: `Update("t").Set(a = 9).Where(id = 3).Set(…)`. -/
example : (UpdateProg.mk c!"t" [.set [⟨c!"a", .other 9, .other 9⟩], .addWhere [⟨exEq (exCol [] c!"id") 3, []⟩]]).run.bind
    UpdateB.build = .ok (c!"UPDATE t SET a=$1 WHERE id=$2", [.other 9, .other 3]) := rfl

end Query
