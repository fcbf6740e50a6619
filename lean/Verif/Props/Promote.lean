import Verif.Spec.Promote
import Verif.Props.Rows
/-!
# C76: changing the kind of a select

`Single()` of a builder should return the first of its rows, `Many()` its rows, and `OrderBy`, `Offset`, `Limit` of a single-row
builder should leave it a single-row builder.  All are methods of the embedded builder and know nothing of the builder they are
called on.
-/
namespace Query

theorem getLast?_getD_cons {α : Type} (x d : α) (l : List α) : (x :: l).getLast?.getD d = l.getLast?.getD x := by
  cases l with
  | nil => rfl
  | cons y l => rw [List.getLast?_cons_cons]; simp [List.getLast?_eq_some_getLast]

/-- **C76, exactly**, settings on a select of many rows: the keys are appended in order, the last offset and the last limit
count; table, joins, fields and conditions stay. -/
theorem C76_settings_exact (q : SelectMany) (cs : List Conv) (h : ∀ c ∈ cs, c.isSetting = true) :
    (SelB.many q).convs cs =
      .many ⟨q.base, (offsetIn cs).getD q.offset, (limitIn cs).getD q.limit, q.order ++ ordersIn cs, q.tableSpec⟩ := by
  induction cs generalizing q with
  | nil => simp [SelB.convs, offsetIn, limitIn, ordersIn]
  | cons c cs ih =>
    have hr := fun c hc => h c (List.mem_cons_of_mem _ hc)
    have hc := h c (by simp)
    cases c with
    | single => cases hc
    | many => cases hc
    | offset n =>
      show (SelB.many (q.setOffset n)).convs cs = _
      rw [ih _ hr]
      simp only [SelectMany.setOffset, offsetIn, limitIn, ordersIn, List.filterMap_cons, List.flatMap_cons, List.nil_append,
        getLast?_getD_cons]
    | limit n =>
      show (SelB.many (q.setLimit n)).convs cs = _
      rw [ih _ hr]
      simp only [SelectMany.setLimit, offsetIn, limitIn, ordersIn, List.filterMap_cons, List.flatMap_cons, List.nil_append,
        getLast?_getD_cons]
    | orderBy os =>
      show (SelB.many (q.addOrder os)).convs cs = _
      rw [ih _ hr]
      simp only [SelectMany.addOrder, offsetIn, limitIn, ordersIn, List.filterMap_cons, List.flatMap_cons, List.append_assoc]

theorem conv_inner (q : SelB) (c : Conv) : (q.conv c).inner = q.inner := by
  cases q <;> cases c <;> rfl

/-- **C76, exactly**: whatever calls are made, in any number, table, joins, fields and conditions stay. -/
theorem C76_inner_exact (q : SelB) (cs : List Conv) : (q.convs cs).inner = q.inner := by
  induction cs generalizing q with
  | nil => rfl
  | cons c cs ih => exact (ih (q.conv c)).trans (conv_inner q c)

theorem convs_append (q : SelB) (as bs : List Conv) : q.convs (as ++ bs) = (q.convs as).convs bs := by
  simp [SelB.convs]

theorem conv_single (q : SelB) : q.conv .single = .single ⟨q.inner⟩ := by cases q <;> rfl
theorem conv_many (q : SelB) : q.conv .many = .many ⟨q.inner, 0, -1, [], false⟩ := by cases q <;> rfl

/-- **C76, exactly**: after any calls, `Single()` makes the select of one row of the embedded builder; ordering, offset and
limit set before are gone. -/
theorem C76_single_exact (q : SelB) (before : List Conv) :
    q.convs (before ++ [.single]) = .single ⟨q.inner⟩ ∧
    ∀ sql params, q.inner.build = .ok (sql, params) →
      (q.convs (before ++ [.single])).build = .ok (sql ++ c!" LIMIT 1", params) := by
  have e : q.convs (before ++ [.single]) = .single ⟨q.inner⟩ := by
    rw [convs_append]
    show (q.convs before).conv .single = _
    rw [conv_single, C76_inner_exact]
  refine ⟨e, fun sql params hb => ?_⟩
  rw [e]
  simp [SelB.build, SelectSingle.build, hb]

/-- **C76, exactly**: after any calls, `Many()` starts anew: only what is set after it counts. -/
theorem C76_many_exact (q : SelB) (before after : List Conv) (h : ∀ c ∈ after, c.isSetting = true) :
    q.convs (before ++ .many :: after) =
      .many ⟨q.inner, (offsetIn after).getD 0, (limitIn after).getD (-1), ordersIn after, false⟩ := by
  rw [convs_append]
  show ((q.convs before).conv .many).convs after = _
  rw [conv_many, C76_inner_exact, C76_settings_exact _ _ h]
  rfl

/-- **C76, exactly**: settings on a base builder make a select of many rows with just these settings. -/
theorem C76_base_exact (q : BaseSelect) (c : Conv) (cs : List Conv) (h : ∀ d ∈ c :: cs, d.isSetting = true) :
    (SelB.base q).convs (c :: cs) =
      .many ⟨q, (offsetIn (c :: cs)).getD 0, (limitIn (c :: cs)).getD (-1), ordersIn (c :: cs), false⟩ := by
  refine Eq.trans ?_ (C76_many_exact (.base q) [] (c :: cs) h)
  show ((SelB.base q).conv c).convs cs = (((SelB.base q).conv .many).conv c).convs cs
  congr 1
  have hc := h c (by simp)
  cases c with
  | single => cases hc
  | many => cases hc
  | offset n => rfl
  | limit n => rfl
  | orderBy os => rfl

/-- **C76, exactly**: a setting on a single-row builder makes a select of many rows with just that setting; that only one row was
wanted is forgotten. -/
theorem C76_forgets_exact (q : SelB) (before after : List Conv) (c : Conv) (hc : c.isSetting = true) :
    q.convs (before ++ .single :: c :: after) = q.convs (before ++ .many :: c :: after) := by
  rw [convs_append, convs_append]
  show (((q.convs before).conv .single).conv c).convs after = (((q.convs before).conv .many).conv c).convs after
  rw [conv_single, conv_many]
  congr 1
  cases c with
  | single => cases hc
  | many => cases hc
  | offset n => rfl
  | limit n => rfl
  | orderBy os => rfl

/-- Text of a select of many rows without settings. -/
theorem many_build_unset (q : SelectMany) (h : (SelB.many q).Unset) : q.build = q.base.build := by
  obtain ⟨h1, h2, h3⟩ := h
  simp only [SelectMany.build, h1, h2, List.length_nil, Nat.lt_irrefl, if_false, gt_iff_lt, Int.not_lt.mpr h3]
  cases q.base.build <;> rfl

/-- **C76, exactly**: `Many()` of a builder that builds keeps text and parameters just if the builder has no ordering, no offset
and no limit and is no single-row builder. -/
theorem C76_same_text_exact (q : SelB) (sql : Str) (params : List Val) (hb : q.inner.build = .ok (sql, params)) :
    (q.conv .many).build = q.build ↔ q.Unset := by
  have hm : (q.conv .many).build = .ok (sql, params) := by
    rw [conv_many]
    show SelectMany.build _ = _
    rw [many_build_unset _ ⟨rfl, rfl, (by show (-1 : Int) ≤ 0; omega)⟩]
    exact hb
  rw [hm]
  cases q with
  | base q => exact ⟨fun _ => trivial, fun _ => hb.symm⟩
  | single q =>
    refine ⟨fun h => ?_, fun h => h.elim⟩
    have hb' : q.base.build = .ok (sql, params) := hb
    simp only [SelB.build, SelectSingle.build, hb', Res.bind_ok, Res.ok.injEq, Prod.mk.injEq] at h
    have := congrArg List.length h.1
    have h8 : (c!" LIMIT 1" : Str).length = 8 := rfl
    simp only [List.length_append, h8] at this
    omega
  | many q =>
    have hb' : q.base.build = .ok (sql, params) := hb
    refine ⟨fun h => ?_, fun h => ?_⟩
    · simp only [SelB.build, SelectMany.build, hb', Res.bind_ok, Res.ok.injEq, Prod.mk.injEq] at h
      obtain ⟨h1, h2⟩ := h
      have l2 := congrArg List.length h2
      have ho : ¬ q.offset > 0 := by
        intro h0
        simp only [h0, if_true] at l2
        split at l2 <;> simp at l2 <;> omega
      have hl : ¬ q.limit > 0 := by
        intro h0
        simp only [h0, if_true] at l2
        split at l2 <;> simp at l2 <;> omega
      simp only [ho, hl, if_false] at h1
      have l1 := congrArg List.length h1
      refine ⟨?_, by omega, by omega⟩
      cases hq : q.order with
      | nil => rfl
      | cons o os =>
        rw [hq] at l1
        simp only [List.length_cons, Nat.zero_lt_succ, gt_iff_lt, if_true, List.length_append] at l1
        have : (c!" ORDER BY " : Str).length = 10 := rfl
        omega
    · show _ = q.build
      rw [many_build_unset q h, hb']

/-- **C76, what holds.**  `Single()` of a base builder, or of a builder of many rows without ordering and offset, returns the first
of the rows the builder returns; `Many()` of a builder that is not a single-row builder and has no ordering, offset and limit
returns its rows.

Missing for the full claim: builders with ordering, offset or limit (`C76_single_false`, `C76_many_false`), settings on
single-row builders (`C76_one_false`), and builders that are not plain, as in `C59_select_partial`. -/
theorem C76_rows_partial (eng : Engine) (db : Db) (q : SelB) (h : PlainSelect q.inner) (hs : q.inner.InScope db)
    (y : Env → Tri) (hy : ∀ env ∈ q.inner.tables eng db, q.inner.Says (eng.row env) (y env)) :
    ((∀ m, q = .many m → m.order = [] ∧ m.offset = 0) →
      ∃ rows, runBuilt eng db q.build = some rows ∧ runBuilt eng db (q.conv .single).build = some (rows.take 1)) ∧
    (q.Unset → ∃ rows, runBuilt eng db q.build = some rows ∧ runBuilt eng db (q.conv .many).build = some rows) := by
  obtain ⟨sql, params, e1, e2⟩ := C59_select_partial eng db q.inner h hs y hy
  obtain ⟨sql1, params1, e3, e4⟩ := C59_single_partial eng db ⟨q.inner⟩ h hs y hy
  refine ⟨fun hq => ?_, fun hu => ?_⟩
  · have k : runBuilt eng db (q.conv .single).build =
        some (((q.inner.matching eng db y).take 1).map q.inner.wanted) := by
      rw [conv_single]
      simp only [SelB.build, runBuilt, e3]
      exact e4
    cases q with
    | base q =>
      refine ⟨_, by simp only [SelB.build, runBuilt]; rw [show q.build = _ from e1]; exact e2, ?_⟩
      rw [k, List.map_take]
    | single q =>
      refine ⟨_, by simp only [SelB.build, runBuilt]; rw [show q.build = _ from e3]; exact e4, ?_⟩
      rw [k, ← List.map_take, List.take_take]; rfl
    | many q =>
      obtain ⟨ho, hf⟩ := hq q rfl
      obtain ⟨sql2, params2, e5, e6⟩ := C59_many_partial eng db q h hs (by rw [ho]; simp) y hy
      refine ⟨_, by simp only [SelB.build, runBuilt]; rw [e5]; exact e6, ?_⟩
      rw [k, ho, hf, ← List.map_take]
      have hs : ∀ rows : List Env, sortedBy eng [] rows = rows := fun rows => sortRows_nil eng rows
      rw [hs]
      congr 2
      unfold page
      split
      · rw [List.drop_zero, List.take_take]
        congr 1
        omega
      · rfl
  · refine ⟨(q.inner.matching eng db y).map q.inner.wanted, ?_, ?_⟩
    · rw [← (C76_same_text_exact q sql params e1).mpr hu, conv_many]
      simp only [SelB.build]
      rw [many_build_unset _ ⟨rfl, rfl, (by show (-1 : Int) ≤ 0; omega)⟩]
      simp only [runBuilt, e1]
      exact e2
    · rw [conv_many]
      simp only [SelB.build]
      rw [many_build_unset _ ⟨rfl, rfl, (by show (-1 : Int) ≤ 0; omega)⟩]
      simp only [runBuilt, e1]
      exact e2

/-- The keys of the examples: `id` descending. -/
def exDesc : FieldSorting := ⟨⟨c!"id", [], []⟩, c!"DESC"⟩

/-- Two settings on a base builder. -/
example : ((SelB.base exSel).convs [.limit 3, .orderBy [exDesc]]) = .many ⟨exSel, 0, 3, [exDesc], false⟩ :=
  C76_base_exact exSel (.limit 3) [.orderBy [exDesc]] (by simp [Conv.isSetting])

/-- **C76 is false** for `Single()`: the row it returns is not the first of the rows of the ordered builder. -/
theorem C76_single_false :
    let q := (SelB.base exSel).convs [.orderBy [exDesc]]
    runBuilt exEng exDb q.build = some [[(c!"id", some (.other 2))], [(c!"id", some (.other 1))]] ∧
    runBuilt exEng exDb (q.conv .single).build = some [[(c!"id", some (.other 1))]] := ⟨rfl, rfl⟩

/-- **C76 is false** for `Many()`: it returns rows the builder does not return, because the page is dropped. -/
theorem C76_many_false :
    let q := (SelB.base exSel).convs [.offset 1, .limit 1]
    runBuilt exEng exDb q.build = some [[(c!"id", some (.other 2))]] ∧
    runBuilt exEng exDb (q.conv .many).build = some [[(c!"id", some (.other 1))], [(c!"id", some (.other 2))]] := ⟨rfl, rfl⟩

/-- **C76 is false** for a single-row builder: with an ordering it returns all rows. -/
theorem C76_one_false :
    let q := (SelB.base exSel).convs [.single]
    runBuilt exEng exDb q.build = some [[(c!"id", some (.other 1))]] ∧
    runBuilt exEng exDb (q.conv (.orderBy [exDesc])).build =
      some [[(c!"id", some (.other 2))], [(c!"id", some (.other 1))]] := ⟨rfl, rfl⟩

/-- A chain of settings: both keys, the last offset, the last limit. -/
example : (SelB.base exSel).convs [.limit 9, .many, .orderBy [exDesc], .offset 4, .limit 3, .orderBy [⟨⟨c!"a", [], []⟩, c!"ASC"⟩], .offset 2] =
    .many ⟨exSel, 2, 3, [exDesc, ⟨⟨c!"a", [], []⟩, c!"ASC"⟩], false⟩ := rfl

/-- The hypotheses of `C76_rows_partial` hold of a builder with a limit. -/
example : ∃ rows, runBuilt exEng exDb ((SelB.base exSel).convs [.limit 2]).build = some rows ∧
    runBuilt exEng exDb (((SelB.base exSel).convs [.limit 2]).conv .single).build = some (rows.take 1) :=
  (C76_rows_partial exEng exDb ((SelB.base exSel).convs [.limit 2]) exSel_plain.1 exSel_plain.2 _
    fun _ _ => C59_says_tree_partial exSel exSel_plain.1 rfl _).1 fun m hm => by
      cases hm; exact ⟨rfl, rfl⟩

/-- The limit is gone. -/
example : ((SelB.base exSel).convs [.limit 2, .single]).build = .ok (c!"SELECT id FROM t WHERE a=$1 LIMIT 1", [.other 7]) := rfl

end Query
