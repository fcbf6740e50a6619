import Verif.Proof.Wish
import Verif.Props.Program
/-!
# C90: every statement can be said

Whatever boolean expression over tests is wished for, in whatever nesting, there are calls whose text reads as exactly that
expression; and so for the statements around it.
-/
namespace Query

theorem nums_split {as bs : List Nat} {k m : Nat} (h : as ++ bs = numbersFrom k m) :
    as = numbersFrom k as.length ∧ bs = numbersFrom (k + as.length) bs.length := by
  have hm : m = as.length + bs.length := by
    have := congrArg List.length h
    rw [numbersFrom_length, List.length_append] at this
    exact this.symm
  rw [hm, numbersFrom_add] at h
  exact List.append_inj h (by rw [numbersFrom_length])


/-- **C90**, conditions: the calls succeed, and at every offset the text reads as the expression wished for, with its parameters in order. -/
theorem C90_condition (w : Wish) (h : w.OK) : ∃ c, w.call = .ok c ∧ c.values = .ok w.params ∧
    ∀ k, ∃ s, c.render k = .ok s ∧ Reads s (w.exp k) := by
  obtain ⟨c, h1, h2⟩ := wish_says w h
  obtain ⟨_, _, h3, _⟩ := says_text h2 0
  refine ⟨c, h1, h3, fun k => ?_⟩
  obtain ⟨s, h4, _, h5⟩ := says_text h2 k
  exact ⟨s, h4, h5⟩

theorem each_valuer (vs : List Val) : Each GivesValue (vs.map fun v => .valuer v false) vs := by
  induction vs with
  | nil => exact .nil
  | cons v vs ih => exact .cons .valuer ih

/-- **C90**, what can be wished for: every expression of SQL over the tests of the library whose placeholders are numbered from left to
right, with any values bound to them. -/
theorem C90_every_expression (e : BExp) (env : Nat → Val) (k m : Nat) (hn : e.nums = numbersFrom k m) (h : e.Sayable env) :
    ∃ w : Wish, w.OK ∧ w.exp k = e ∧ w.params = e.nums.map env := by
  induction e generalizing k m with
  | atom a =>
    cases a with
    | cmp o col n =>
      obtain ⟨ho, c, hc, rfl⟩ := h
      have hk : n = k + 1 := by
        cases m with
        | zero => cases hn
        | succ m => simp only [BExp.nums, Atom.nums, numbersFrom, List.range'] at hn; exact (List.cons.inj hn).1
      subst hk
      obtain ⟨op, rfl⟩ : ∃ op : CmpOp, op.text = o := by
        simp only [cmpOps, List.mem_cons, List.not_mem_nil, or_false] at ho
        rcases ho with rfl | rfl | rfl | rfl | rfl
        · exact ⟨.eq, rfl⟩
        · exact ⟨.lt, rfl⟩
        · exact ⟨.gt, rfl⟩
        · exact ⟨.lte, rfl⟩
        · exact ⟨.gte, rfl⟩
      exact ⟨.test (.cmp op c (.valuer (env (k + 1)) false) (env (k + 1))), ⟨hc, .value .valuer⟩, rfl, rfl⟩
    | like col n =>
      obtain ⟨⟨c, hc, rfl⟩, s, hs⟩ := h
      have hk : n = k + 1 := by
        cases m with
        | zero => cases hn
        | succ m => simp only [BExp.nums, Atom.nums, numbersFrom, List.range'] at hn; exact (List.cons.inj hn).1
      subst hk
      exact ⟨.test (.has c s), hc, rfl, by simp [Wish.params, Test.params, BExp.nums, Atom.nums, hs]⟩
    | ilike col n =>
      obtain ⟨⟨c, hc, rfl⟩, s, hs⟩ := h
      have hk : n = k + 1 := by
        cases m with
        | zero => cases hn
        | succ m => simp only [BExp.nums, Atom.nums, numbersFrom, List.range'] at hn; exact (List.cons.inj hn).1
      subst hk
      exact ⟨.test (.ihas c s), hc, rfl, by simp [Wish.params, Test.params, BExp.nums, Atom.nums, hs]⟩
    | inn col ns =>
      obtain ⟨⟨c, hc, rfl⟩, hne⟩ := h
      have hm : ns = numbersFrom k m := hn
      have hl : ns.length = m := by rw [hm, numbersFrom_length]
      refine ⟨.test (.isIn c (.valuers ((ns.map env).map fun v => .valuer v false)) (ns.map env)),
        ⟨hc, .valuers (each_valuer _), by simpa using hne⟩, ?_, rfl⟩
      simp only [Wish.exp, Test.exp, List.length_map, hl, ← hm]
    | isNull col =>
      obtain ⟨c, hc, rfl⟩ := h
      exact ⟨.test (.null c), hc, rfl, rfl⟩
  | not e ih =>
    obtain ⟨w, h1, h2, h3⟩ := ih k m hn h
    exact ⟨.not w, h1, by simp only [Wish.exp, h2], h3⟩
  | and a b iha ihb =>
    obtain ⟨ha, hb⟩ := nums_split hn
    obtain ⟨w, h1, h2, h3⟩ := iha k _ ha h.1
    obtain ⟨x, g1, g2, g3⟩ := ihb _ _ hb h.2
    refine ⟨.and w x, ⟨h1, g1⟩, ?_, by simp only [Wish.params, h3, g3, BExp.nums, List.map_append]⟩
    simp only [Wish.exp, h2, h3, List.length_map, g2]
  | or a b iha ihb =>
    obtain ⟨ha, hb⟩ := nums_split hn
    obtain ⟨w, h1, h2, h3⟩ := iha k _ ha h.1
    obtain ⟨x, g1, g2, g3⟩ := ihb _ _ hb h.2
    refine ⟨.or w x, ⟨h1, g1⟩, ?_, by simp only [Wish.params, h3, g3, BExp.nums, List.map_append]⟩
    simp only [Wish.exp, h2, h3, List.length_map, g2]

/-- **C90**, over SQL: for every such expression and every list of parameters for it there are calls that say it. -/
theorem C90_every_condition (e : BExp) (k : Nat) (ps : List Val) (hn : e.nums = numbersFrom k ps.length)
    (h : e.Sayable (bound k ps)) :
    ∃ w c s, Wish.call w = .ok c ∧ c.render k = .ok s ∧ c.values = .ok ps ∧ Reads s e := by
  obtain ⟨w, h1, h2, h3⟩ := C90_every_expression e _ k _ hn h
  obtain ⟨c, g1, g2, g3⟩ := C90_condition w h1
  obtain ⟨s, g4, g5⟩ := g3 k
  have hp : w.params = ps := by
    rw [h3, hn]
    exact bound_agree k ps
  exact ⟨w, c, s, g1, g4, hp ▸ g2, h2 ▸ g5⟩

/-- An expression with each connective inside each other. -/
def exampleWish : Wish :=
  .and (.or (.test (.cmp .gte ⟨none, c!"a"⟩ (.other 1) (.other 1))) (.not (.and (.test (.null ⟨some c!"t", c!"x"⟩))
      (.test (.isIn ⟨none, c!"id"⟩ (.strs [c!"x", c!"y"]) [.str c!"x", .str c!"y"])))))
    (.not (.not (.test (.has ⟨none, c!"n"⟩ c!"z"))))

theorem exampleWish_ok : exampleWish.OK := by
  have hi : ∀ {n : Str}, n ∈ [c!"t", c!"x", c!"u", c!"id", c!"a", c!"tid", c!"n"] → ColRef.OK ⟨none, n⟩ :=
    fun h => ⟨exIdent h, fun t ht => by cases ht⟩
  refine ⟨⟨⟨hi (by decide), .ordinary trivial⟩, ⟨exIdent (by decide), ?_⟩, hi (by decide), .strs, by simp⟩, hi (by decide)⟩
  intro t ht
  simp only [Option.mem_some_iff] at ht
  subst ht
  exact exIdent (by decide)

example : exampleWish.exp 2 = .and (.or (.atom (.cmp c!">=" c!"a" 3))
      (.not (.and (.atom (.isNull c!"t.x")) (.atom (.inn c!"id" [4, 5])))))
    (.not (.not (.atom (.like c!"n" 6)))) := rfl

example : (exampleWish.call.bind fun c => c.render 2) =
    .ok c!"((a>=$3) OR (NOT ((t.x IS NULL) AND (id IN ($4,$5))))) AND (NOT (NOT (n LIKE $6)))" := by decide

/-- **C90**, DELETE. -/
theorem C90_delete (t : Str) (ht : Ident t) (w : Wish) (h : w.OK) :
    ∃ c sql, w.call = .ok c ∧ ((delete (.str t)).addWhere [c]).build = .ok (sql, w.params) ∧
      readStmt sql = some (.delete t (w.exp 0)) := by
  obtain ⟨c, h1, h2⟩ := wish_says w h
  obtain ⟨s, g1, g2, g3⟩ := says_text (says_alone h2) 0
  obtain ⟨sql, k1, k2⟩ := delete_reads ((delete (.str t)).addWhere [c]) ht.plain.1 (by simp [DeleteB.addWhere, delete, newGroup,
    setToAll, Group.groupAND, Group.addConditions]) g1 g2 g3
  exact ⟨c, sql, h1, k1, k2⟩

/-- **C90**, UPDATE. -/
theorem C90_update (t : Str) (ht : Ident t) (sets : List SetTo) (hs : ∀ s ∈ sets, s.OK) (hne : sets ≠ []) (w : Wish) (h : w.OK) :
    ∃ vs c sql, Res.mapL SetTo.call sets = .ok vs ∧ w.call = .ok c ∧
      (((update (.str t)).set vs).addWhere [c]).build = .ok (sql, sets.map (·.param) ++ w.params) ∧
      readStmt sql = some (.update t ((sets.map (·.name)).zip (numbersFrom 0 sets.length)) (w.exp sets.length)) := by
  obtain ⟨c, h1, h2⟩ := wish_says w h
  obtain ⟨s, g1, g2, g3⟩ := says_text (says_alone h2) sets.length
  obtain ⟨sql, k1, k2⟩ := update_reads (((update (.str t)).set (sets.map SetTo.fv)).addWhere [c]) (sets.map SetTo.param)
    (by simpa [UpdateB.addWhere, UpdateB.set, update] using hne) ht.plain.1
    (by
      intro fv hfv
      simp only [UpdateB.addWhere, UpdateB.set, update, List.nil_append] at hfv
      obtain ⟨s, hm, rfl⟩ := List.mem_map.mp hfv
      exact (hs s hm).name.plain)
    (sets_values hs)
    (by simp [UpdateB.addWhere, UpdateB.set, update, newGroup, setToAll, Group.groupAND, Group.addConditions])
    (by rw [List.length_map]; exact g1) g2 g3
  refine ⟨_, c, sql, sets_call hs, h1, k1, ?_⟩
  have hn : (((update (.str t)).set (sets.map SetTo.fv)).addWhere [c]).setValues.map (fun fv => fv.fd.fieldName) =
      sets.map (·.name) := by
    simp only [UpdateB.addWhere, UpdateB.set, update, List.nil_append, List.map_map]
    rfl
  rw [hn, List.length_map] at k2
  exact k2

/-- **C90**, INSERT. -/
theorem C90_insert (t : Str) (ht : Ident t) (sets : List SetTo) (hs : ∀ s ∈ sets, s.OK) (hne : sets ≠ []) :
    ∃ vs sql, Res.mapL SetTo.call sets = .ok vs ∧ ((insertInto (.str t)).addValues vs).build = .ok (sql, sets.map (·.param)) ∧
      readStmt sql = some (.insert t (sets.map (·.name)) (numbersFrom 0 sets.length)) := by
  have hq : (insertInto (.str t)).addValues (sets.map SetTo.fv) = ⟨doInsert, t, sets.map SetTo.fv⟩ := rfl
  obtain ⟨hb, _, _⟩ := C05_insert_partial ⟨doInsert, t, sets.map SetTo.fv⟩ (sets.map (·.param)) (by simpa using hne) ht.ne (sets_values hs)
  have hnames : (sets.map SetTo.fv).map (fun fv => fv.fd.fieldName) = sets.map (·.name) := by
    rw [List.map_map]; rfl
  simp only [hnames, List.length_map] at hb
  refine ⟨_, _, sets_call hs, hq ▸ hb, ?_⟩
  refine read_insert _ _ _ (by simpa using hne) ?_ ht.plain.1 ?_
  · cases sets with
    | nil => exact absurd rfl hne
    | cons a l => simp [numbersFrom]
  · intro w hw
    obtain ⟨s, hm, rfl⟩ := List.mem_map.mp hw
    exact (hs s hm).name.plain

/-- A program without Where calls leaves the condition as the constructor makes it. -/
theorem prog_bare (p : SelectProg) (h : p.Names) (hn : p.wheres = []) {q : SelectMany} (hq : p.run = .ok q) :
    q.base.where_ = newWhere := by
  obtain ⟨t, calls⟩ := p
  have hq0 : selectManyFrom (.str t.text) = .ok ⟨⟨0, t.ident, [], ⟨[]⟩, newWhere⟩, 0, noLimit, [], false⟩ := by
    have := table_text h.table
    simp only [table] at this
    simp [selectManyFrom, selectFrom, tableP, tableOrErrorP, this]
  obtain ⟨q', hq', ha⟩ := calls_run t calls h.calls ⟨⟨0, t.ident, [], ⟨[]⟩, newWhere⟩, 0, noLimit, [], false⟩
  simp only [SelectProg.run, hq0, Res.bind_ok, hq', Res.ok.injEq] at hq
  subst hq
  have hg : q'.base.where_.group = (condsOf (SelectProg.wheres ⟨t, calls⟩)).foldl Group.groupAND newWhere.group := ha.where_
  rw [hn] at hg
  show WhereClause.mk q'.base.where_.group = newWhere
  rw [hg]
  rfl

/-- The select a program without Where calls makes, with the condition of a wish added: its clause, and that it is still plain. -/
theorem wish_added {p : SelectProg} {S : Row → Tri} {q : SelectMany} (hr : Ran p S q) (hb : q.base.where_ = newWhere) {w : Wish} {c : Cond}
    (h : SaysExp c w.params w.exp) :
    (q.addWhere [c]).base.where_.conditions ≠ [] ∧ PlainSelect (q.addWhere [c]).base ∧
      (∀ s e, (q.addWhere [c]).base.where_.render 0 = .ok s → Reads s e → e = w.exp 0) ∧
      ∀ sql params, (q.addWhere [c]).base.build = .ok (sql, params) → params = w.params := by
  have hs := says_alone h
  obtain ⟨s, g1, g2, g3⟩ := says_text hs 0
  have hwh : (q.addWhere [c]).base.where_ = ⟨⟨⟨lAND, false⟩, [c], false⟩⟩ := by
    simp only [SelectMany.addWhere, BaseSelect.addWhere, hb]
    rfl
  have hne : (q.addWhere [c]).base.where_.conditions ≠ [] := by rw [hwh]; simp [WhereClause.conditions]
  have g1' : (WhereClause.mk ⟨⟨lAND, false⟩, [c], false⟩).render 0 = .ok s := g1
  have g2' : (WhereClause.mk ⟨⟨lAND, false⟩, [c], false⟩).values = .ok w.params := g2
  refine ⟨hne, ⟨hr.plain.fields, hr.plain.table, hr.plain.joins, .inr ?_⟩, ?_, ?_⟩
  · rw [hwh]
    exact hs.read
  · intro s' e e1 e2
    rw [hwh, g1'] at e1
    cases e1
    exact reads_unique e2 g3
  · intro sql params k2
    unfold BaseSelect.build at k2
    rw [if_pos (List.length_pos_iff.mpr hne), hwh] at k2
    simp only [g1', g2', Res.bind_ok, Res.ok.injEq, Prod.mk.injEq] at k2
    exact k2.2.symm

/-- **C90**, SELECT: any items, table, joins, keys, offset and limit, and any expression. -/
theorem C90_select (p : SelectProg) (h : p.Names) (hn : p.wheres = []) (w : Wish) (hw : w.OK) :
    ∃ q c sql, p.run = .ok q ∧ w.call = .ok c ∧ (q.addWhere [c]).build = .ok (sql, w.params ++ p.params) ∧
      readStmt sql = some (.select ⟨p.items, p.table, p.joins, some (w.exp 0), p.keys,
        if p.offset > 0 then some (.param (w.params.length + 1)) else none,
        if p.limit > 0 then some (.param (w.params.length + (if p.offset > 0 then 1 else 0) + 1)) else none⟩) := by
  obtain ⟨q, hq, hr⟩ := prog_run p h
  have hb := prog_bare p h hn hq
  obtain ⟨c, h1, h2⟩ := wish_says w hw
  obtain ⟨hne, hp, hu, hv⟩ := wish_added hr hb h2
  obtain ⟨sql, params, x, off, lim, k1, ⟨sql0, params0, k2, k3, k4, k5⟩, k6, k7, _⟩ := many_read_at (q.addWhere [c]) hp hr.order
  obtain ⟨s, e, e1, e2, rfl⟩ := k6 hne
  have he := hu s e e1 e2
  subst he
  have hps := hv _ _ k2
  subst hps
  have ho : (q.addWhere [c]).offset = p.offset := hr.offset
  have hl : (q.addWhere [c]).limit = p.limit := hr.limit
  rw [ho, hl] at k3
  rw [ho] at k4 k5
  rw [hl] at k5
  refine ⟨q, c, sql, hq, h1, ?_, ?_⟩
  · rw [k1, k3]
    have hc : p.clauses = [] := by simp [SelectProg.clauses, hn]
    congr 3
    unfold SelectProg.params limitItems
    rw [hc]
    split <;> split <;> rfl
  · rw [k7, k4, k5]
    have i1 : (q.addWhere [c]).base.fields.refs = p.items := hr.items
    have i2 : (q.addWhere [c]).base.baseTable.ref = p.table := hr.table
    have i3 : (q.addWhere [c]).base.joins.map TableJoiner.ref = p.joins := hr.joins
    have i4 : ((q.addWhere [c]).order.map fun o => (o.fd.key, o.direction)) = p.keys := hr.keys
    rw [i1, i2, i3, i4]

example : ((((update (.str c!"t")).set [⟨⟨c!"f", [], []⟩, .other 7⟩]).addWhere [notC (inBrackets (.null ⟨lAND, false⟩ ⟨c!"a", [], []⟩))]).build.bind
    fun r => .ok (readStmt r.1)) = .ok (some (.update c!"t" [(c!"f", 1)] (.not (.atom (.isNull c!"a"))))) := by decide

/-- `SelectManyFrom("t").OrderBy(DESC("id")).Limit(2)`, and the expression. -/
example : ∃ p : SelectProg, p.Names ∧ p.wheres = [] ∧ exampleWish.OK ∧
    (p.run.bind fun q => exampleWish.call.bind fun c => (q.addWhere [c]).build.bind fun r => .ok r.1) =
      .ok c!"SELECT * FROM t WHERE ((a>=$1) OR (NOT ((t.x IS NULL) AND (id IN ($2,$3))))) AND (NOT (NOT (n LIKE $4))) ORDER BY id DESC LIMIT $5" := by
  refine ⟨⟨⟨c!"t", none⟩, [.orderBy [(⟨none, c!"id"⟩, true)], .limit 2]⟩, ⟨⟨exIdent (by decide), by simp⟩, ?_⟩, rfl, exampleWish_ok,
    by decide⟩
  intro c hc
  simp only [List.mem_cons, List.not_mem_nil, or_false] at hc
  rcases hc with rfl | rfl
  · intro k hk
    simp only [List.mem_cons, List.not_mem_nil, or_false] at hk
    subst hk
    exact ⟨exIdent (by decide), by simp⟩
  · trivial

/-- **C90**, SELECT of one row: the select made from the same base. -/
theorem C90_single (p : SelectProg) (h : p.Names) (hn : p.wheres = []) (w : Wish) (hw : w.OK) :
    ∃ q c sql, p.run = .ok q ∧ w.call = .ok c ∧ (selectSingleFromBase (q.addWhere [c]).base).build = .ok (sql, w.params) ∧
      readStmt sql = some (.select ⟨p.items, p.table, p.joins, some (w.exp 0), [], none, some (.lit c!"1")⟩) := by
  obtain ⟨q, hq, hr⟩ := prog_run p h
  obtain ⟨c, h1, h2⟩ := wish_says w hw
  obtain ⟨hne, hp, hu, hv⟩ := wish_added hr (prog_bare p h hn hq) h2
  obtain ⟨sql, params, x, k1, ⟨_, k2⟩, k3, k4, _⟩ := single_read_at (selectSingleFromBase (q.addWhere [c]).base) hp
  obtain ⟨s, e, e1, e2, rfl⟩ := k3 hne
  have he := hu s e e1 e2
  subst he
  have hps := hv _ _ k2
  subst hps
  refine ⟨q, c, sql, hq, h1, k1, ?_⟩
  rw [k4]
  have i1 : (q.addWhere [c]).base.fields.refs = p.items := hr.items
  have i2 : (q.addWhere [c]).base.baseTable.ref = p.table := hr.table
  have i3 : (q.addWhere [c]).base.joins.map TableJoiner.ref = p.joins := hr.joins
  simp only [selectSingleFromBase, i1, i2, i3]

/-- **C90**, `Count()`. -/
theorem C90_count (p : SelectProg) (h : p.Names) (hn : p.wheres = []) (w : Wish) (hw : w.OK) :
    ∃ q c n sql, p.run = .ok q ∧ w.call = .ok c ∧ count (q.addWhere [c]).base [] = .ok n ∧ n.build = .ok (sql, w.params) ∧
      readStmt sql = some (.select ⟨[.count star], p.table, p.joins, some (w.exp 0), [], none, none⟩) := by
  obtain ⟨q, hq, hr⟩ := prog_run p h
  obtain ⟨c, h1, h2⟩ := wish_says w hw
  obtain ⟨hne, hp, hu, hv⟩ := wish_added hr (prog_bare p h hn hq) h2
  have hf : CountDef ⟨c!"*", [], []⟩ := ⟨⟨by decide, by decide⟩, by decide⟩
  obtain ⟨sql, params, x, k1, ⟨_, k2⟩, k3, k4, _⟩ := count_read_at ⟨(q.addWhere [c]).base, ⟨c!"*", [], []⟩⟩ hp hf
  obtain ⟨s, e, e1, e2, rfl⟩ := k3 hne
  have he := hu s e e1 e2
  subst he
  have hps := hv _ _ k2
  subst hps
  refine ⟨q, c, _, sql, hq, h1, rfl, k1, ?_⟩
  rw [k4]
  have i2 : (q.addWhere [c]).base.baseTable.ref = p.table := hr.table
  have i3 : (q.addWhere [c]).base.joins.map TableJoiner.ref = p.joins := hr.joins
  simp only [i2, i3]
  rfl

/-- The program for a SELECT: one call each for the items, the keys, offset and limit, one for each join. -/
def selectFor (items : List (ColRef × Option Str)) (t : TabRef) (js : List (JoinKind × TabRef × ColRef × ColRef))
    (ks : List (ColRef × Bool)) (off lim : Nat) : SelectProg :=
  ⟨t, .fields items :: (js.map fun j => .join j.1 j.2.1 j.2.2.1 j.2.2.2) ++ [.orderBy ks, .offset off, .limit lim]⟩

theorem selectFor_parts (items : List (ColRef × Option Str)) (t : TabRef) (js : List (JoinKind × TabRef × ColRef × ColRef))
    (ks : List (ColRef × Bool)) (off lim : Nat) (hi : items ≠ []) :
    let p := selectFor items t js ks off lim
    p.wheres = [] ∧ p.items = items.map (fun q => .col q.1 q.2) ∧ p.table = t ∧
      p.joins = js.map (fun j => ⟨j.1.text, j.2.1, j.2.2.1, j.2.2.2⟩) ∧
      p.keys = ks.map (fun k => (k.1, if k.2 then c!"DESC" else c!"ASC")) ∧ p.offset = off ∧ p.limit = lim := by
  have hw : ∀ l : List (JoinKind × TabRef × ColRef × ColRef),
      (l.map fun j => SCall.join j.1 j.2.1 j.2.2.1 j.2.2.2).filterMap SCall.where? = [] ∧
      (l.map fun j => SCall.join j.1 j.2.1 j.2.2.1 j.2.2.2).filterMap SCall.fields? = [] ∧
      (l.map fun j => SCall.join j.1 j.2.1 j.2.2.1 j.2.2.2).filterMap SCall.keys? = [] ∧
      (l.map fun j => SCall.join j.1 j.2.1 j.2.2.1 j.2.2.2).filterMap SCall.offset? = [] ∧
      (l.map fun j => SCall.join j.1 j.2.1 j.2.2.1 j.2.2.2).filterMap SCall.limit? = [] ∧
      (l.map fun j => SCall.join j.1 j.2.1 j.2.2.1 j.2.2.2).filterMap SCall.join? =
        l.map fun j => ⟨j.1.text, j.2.1, j.2.2.1, j.2.2.2⟩ := by
    intro l
    induction l with
    | nil => exact ⟨rfl, rfl, rfl, rfl, rfl, rfl⟩
    | cons j l ih =>
      obtain ⟨h1, h2, h3, h4, h5, h6⟩ := ih
      simp [List.filterMap_cons, SCall.where?, SCall.fields?, SCall.keys?, SCall.offset?, SCall.limit?, SCall.join?, h1, h2, h3,
        h4, h5, h6]
  obtain ⟨h1, h2, h3, h4, h5, h6⟩ := hw js
  refine ⟨?_, ?_, rfl, ?_, ?_, ?_, ?_⟩
  · simp [SelectProg.wheres, selectFor, List.filterMap_append, List.filterMap_cons, SCall.where?, h1]
  · have : (selectFor items t js ks off lim).calls.filterMap SCall.fields? = [items] := by
      simp [selectFor, List.filterMap_append, List.filterMap_cons, SCall.fields?, h2]
    unfold SelectProg.items
    rw [this]
    cases items with
    | nil => exact absurd rfl hi
    | cons i l => rfl
  · simp [SelectProg.joins, selectFor, List.filterMap_append, List.filterMap_cons, SCall.join?, h6]
  · simp [SelectProg.keys, selectFor, List.filterMap_append, List.filterMap_cons, SCall.keys?, h3]
  · simp [SelectProg.offset, selectFor, List.filterMap_append, List.filterMap_cons, SCall.offset?, h4]
  · simp [SelectProg.limit, selectFor, List.filterMap_append, List.filterMap_cons, SCall.limit?, h5]

/-- **C90**, over SQL, SELECT: for every SELECT over identifiers there are calls that say it, with its condition, its offset and its limit
bound to the parameters given. -/
theorem C90_every_select (items : List (ColRef × Option Str)) (t : TabRef) (js : List (JoinKind × TabRef × ColRef × ColRef))
    (e : BExp) (ps : List Val) (ks : List (ColRef × Bool)) (off lim : Nat) (hi : items ≠ []) (ht : t.OK)
    (hit : ∀ p ∈ items, p.1.OKItem ∧ ∀ a ∈ p.2, Ident a ∧ (p.1.table = none → a ≠ p.1.name ∧ p.1.name ≠ c!"*"))
    (hj : ∀ j ∈ js, j.2.1.OK ∧ j.2.2.1.OK ∧ j.2.2.2.OK ∧ j.2.2.1.table ≠ none ∧ j.2.2.2.table ≠ none)
    (hk : ∀ k ∈ ks, k.1.OK) (hn : e.nums = numbersFrom 0 ps.length) (he : e.Sayable (bound 0 ps)) :
    ∃ p w q c sql, SelectProg.run p = .ok q ∧ Wish.call w = .ok c ∧
      (q.addWhere [c]).build = .ok (sql, ps ++ ((if off > 0 then [.uint off] else []) ++ if lim > 0 then [.uint lim] else [])) ∧
      readStmt sql = some (.select ⟨items.map fun q => .col q.1 q.2, t, js.map fun j => ⟨j.1.text, j.2.1, j.2.2.1, j.2.2.2⟩, some e,
        ks.map fun k => (k.1, if k.2 then c!"DESC" else c!"ASC"),
        if off > 0 then some (.param (ps.length + 1)) else none,
        if lim > 0 then some (.param (ps.length + (if off > 0 then 1 else 0) + 1)) else none⟩) := by
  obtain ⟨w, h1, h2, h3⟩ := C90_every_expression e _ 0 _ hn he
  have hp : w.params = ps := by
    rw [h3, hn]
    exact bound_agree 0 ps
  obtain ⟨g1, g2, g3, g4, g5, g6, g7⟩ := selectFor_parts items t js ks off lim hi
  have hN : (selectFor items t js ks off lim).Names := by
    refine ⟨ht, fun c hc => ?_⟩
    simp only [selectFor, List.cons_append, List.mem_cons, List.mem_append, List.mem_map, List.not_mem_nil, or_false] at hc
    rcases hc with rfl | ⟨j, hm, rfl⟩ | rfl | rfl | rfl
    · exact hit
    · exact hj j hm
    · exact hk
    · trivial
    · trivial
  obtain ⟨q, c, sql, k1, k2, k3, k4⟩ := C90_select _ hN g1 w h1
  refine ⟨_, w, q, c, sql, k1, k2, ?_, ?_⟩
  · rw [k3, hp]
    have hc : (selectFor items t js ks off lim).clauses = [] := by simp [SelectProg.clauses, g1]
    unfold SelectProg.params
    rw [hc, g6, g7]
    simp [paramsOf, testsOf]
  · rw [k4, g2, g3, g4, g5, g6, g7, h2, hp]
    simp

/-- **C90**, over SQL, DELETE. -/
theorem C90_every_delete (t : Str) (ht : Ident t) (e : BExp) (ps : List Val) (hn : e.nums = numbersFrom 0 ps.length)
    (he : e.Sayable (bound 0 ps)) :
    ∃ w c sql, Wish.call w = .ok c ∧ ((delete (.str t)).addWhere [c]).build = .ok (sql, ps) ∧ readStmt sql = some (.delete t e) := by
  obtain ⟨w, h1, h2, h3⟩ := C90_every_expression e _ 0 _ hn he
  have hp : w.params = ps := by
    rw [h3, hn]
    exact bound_agree 0 ps
  obtain ⟨c, sql, k1, k2, k3⟩ := C90_delete t ht w h1
  exact ⟨w, c, sql, k1, hp ▸ k2, h2 ▸ k3⟩

/-- The columns to set, with any parameters. -/
theorem setsFor_ok (sets : List (Str × Val)) (hs : ∀ s ∈ sets, Ident s.1) :
    (∀ s ∈ sets.map (fun s => SetTo.mk s.1 (.valuer s.2 false) s.2), s.OK) := by
  intro s hm
  obtain ⟨x, hx, rfl⟩ := List.mem_map.mp hm
  exact ⟨hs x hx, .value .valuer⟩

/-- **C90**, over SQL, UPDATE: the columns take the first placeholders, the condition those after them. -/
theorem C90_every_update (t : Str) (ht : Ident t) (sets : List (Str × Val)) (hs : ∀ s ∈ sets, Ident s.1) (hne : sets ≠ [])
    (e : BExp) (ps : List Val) (hn : e.nums = numbersFrom sets.length ps.length) (he : e.Sayable (bound sets.length ps)) :
    ∃ ss vs w c sql, Res.mapL SetTo.call ss = .ok vs ∧ Wish.call w = .ok c ∧
      (((update (.str t)).set vs).addWhere [c]).build = .ok (sql, sets.map (·.2) ++ ps) ∧
      readStmt sql = some (.update t ((sets.map (·.1)).zip (numbersFrom 0 sets.length)) e) := by
  obtain ⟨w, h1, h2, h3⟩ := C90_every_expression e _ sets.length _ hn he
  have hp : w.params = ps := by
    rw [h3, hn]
    exact bound_agree sets.length ps
  obtain ⟨vs, c, sql, k1, k2, k3, k4⟩ := C90_update t ht _ (setsFor_ok sets hs) (by simpa using hne) w h1
  refine ⟨_, vs, w, c, sql, k1, k2, ?_, ?_⟩
  · rw [k3, hp]
    simp [List.map_map, Function.comp_def]
  · rw [k4]
    simp [List.map_map, Function.comp_def, h2]

/-- **C90**, over SQL, INSERT. -/
theorem C90_every_insert (t : Str) (ht : Ident t) (sets : List (Str × Val)) (hs : ∀ s ∈ sets, Ident s.1) (hne : sets ≠ []) :
    ∃ ss vs sql, Res.mapL SetTo.call ss = .ok vs ∧ ((insertInto (.str t)).addValues vs).build = .ok (sql, sets.map (·.2)) ∧
      readStmt sql = some (.insert t (sets.map (·.1)) (numbersFrom 0 sets.length)) := by
  obtain ⟨vs, sql, k1, k2, k3⟩ := C90_insert t ht _ (setsFor_ok sets hs) (by simpa using hne)
  refine ⟨_, vs, sql, k1, ?_, ?_⟩
  · rw [k2]
    simp [List.map_map, Function.comp_def]
  · rw [k3]
    simp [List.map_map, Function.comp_def]

/-- An expression with each connective inside each other, numbered from 2. -/
def exampleExp : BExp :=
  .or (.not (.and (.atom (.cmp c!"<" c!"t.x" 2)) (.atom (.inn c!"id" [3, 4])))) (.not (.not (.atom (.ilike c!"n" 5))))

/-- The hypotheses hold of it. -/
theorem exampleExp_sayable : let ps := [Val.nil, .other 3, .strs [c!"x"], .str c!"%z%"]
    exampleExp.nums = numbersFrom 1 ps.length ∧ exampleExp.Sayable (bound 1 ps) := by
  have hi : ∀ {n : Str}, n ∈ [c!"t", c!"x", c!"u", c!"id", c!"a", c!"tid", c!"n"] → ColText n :=
    fun h => ⟨⟨none, _⟩, ⟨exIdent h, fun t ht => by cases ht⟩, rfl⟩
  refine ⟨by decide, ⟨⟨by decide, ⟨some c!"t", c!"x"⟩, ⟨exIdent (by decide), ?_⟩, rfl⟩, hi (by decide), by simp⟩, hi (by decide), c!"z",
    rfl⟩
  intro t ht
  simp only [Option.mem_some_iff] at ht
  subst ht
  exact exIdent (by decide)

/-- **C90**, nothing else can be said: whatever calls made a condition, if its text is SQL over columns of identifiers, then the expression
is one of these, its placeholders numbered from left to right. -/
theorem C90_nothing_else (c : Cond) (h : c.Readable) (hc : ∀ l ∈ c.leaves, ColText l.col) (k : Nat) :
    ∃ s vs e, c.render k = .ok s ∧ c.values = .ok vs ∧ Reads s e ∧ e.nums = numbersFrom k vs.length ∧ e.Sayable (bound k vs) := by
  obtain ⟨h1, h2⟩ := render_reads c k h
  have hne := (flat_isF c k h).1
  have ha := bound_agree k c.valuesP
  refine ⟨_, _, _, h1, readable_valuesP h, h2, ?_, asm_sayable _ _ hne (flat_sayable _ c k h ha hc)⟩
  rw [asm_nums _ hne, (flat_leaves _ c k h ha).2]

/-- **C90**, exactly: the expressions the conditions of the library say. -/
theorem C90_exactly (e : BExp) (k : Nat) (ps : List Val) :
    (∃ c s, Cond.Readable c ∧ (∀ l ∈ c.leaves, ColText l.col) ∧ c.render k = .ok s ∧ c.values = .ok ps ∧ Reads s e) ↔
      e.nums = numbersFrom k ps.length ∧ e.Sayable (bound k ps) := by
  constructor
  · rintro ⟨c, s, h, hc, h1, h2, h3⟩
    obtain ⟨s', vs, e', g1, g2, g3, g4⟩ := C90_nothing_else c h hc k
    rw [h1] at g1
    cases g1
    rw [h2] at g2
    cases g2
    rw [reads_unique h3 g3]
    exact g4
  · rintro ⟨hn, h⟩
    obtain ⟨w, h1, h2, h3⟩ := C90_every_expression e _ k _ hn h
    obtain ⟨c, _, g2⟩ := wish_says w h1
    obtain ⟨s, g3, g4, g5⟩ := says_text g2 k
    have hp : w.params = ps := by
      rw [h3, hn]
      exact bound_agree k ps
    refine ⟨c, s, g2.read, says_cols g2 k ?_, g3, hp ▸ g4, h2 ▸ g5⟩
    rw [h2, hp]
    exact h

/-- **C90**, exactly, DELETE: whatever calls made the builder. -/
theorem C90_exactly_delete (t : Str) (ht : Ident t) (e : BExp) (ps : List Val) :
    (∃ q sql, DeleteB.tableName q = t ∧ q.where_.toCond.Readable ∧ (∀ l ∈ q.where_.toCond.leaves, ColText l.col) ∧
      q.build = .ok (sql, ps) ∧ readStmt sql = some (.delete t e)) ↔ e.nums = numbersFrom 0 ps.length ∧ e.Sayable (bound 0 ps) := by
  constructor
  · rintro ⟨q, sql, rfl, hr, hc, h1, h2⟩
    obtain ⟨s, vs, e', g1, g2, g3, g4⟩ := C90_nothing_else _ hr hc 0
    obtain ⟨sql', k1, k2⟩ := delete_reads q ht.plain.1 (readable_group.mp hr).1 g1 g2 g3
    rw [h1] at k1
    cases k1
    rw [h2] at k2
    cases k2
    exact g4
  · rintro ⟨hn, he⟩
    obtain ⟨w, h1, h2, h3⟩ := C90_every_expression e _ 0 _ hn he
    have hp : w.params = ps := by
      rw [h3, hn]
      exact bound_agree 0 ps
    obtain ⟨c, sql, k1, k2, k3⟩ := C90_delete t ht w h1
    obtain ⟨c', k1', g⟩ := wish_says w h1
    rw [k1] at k1'
    cases k1'
    refine ⟨(delete (.str t)).addWhere [c], sql, rfl, (says_alone g).read, says_cols (says_alone g) 0 ?_, hp ▸ k2, h2 ▸ k3⟩
    rw [h2, hp]
    exact he

/-- **C90**, exactly, UPDATE: the columns set take the first numbers, the condition counts on. -/
theorem C90_exactly_update (t : Str) (ht : Ident t) (sets : List (Str × Val)) (hs : ∀ s ∈ sets, Ident s.1) (hne : sets ≠ [])
    (e : BExp) (ps : List Val) (ns : List (Str × Nat)) :
    (∃ q sql, UpdateB.tableName q = t ∧ q.setValues.map (fun fv => fv.fd.fieldName) = sets.map (·.1) ∧
      q.setValues.map FieldValue.values = (sets.map (·.2)).map (fun v => .ok [v]) ∧
      q.where_.toCond.Readable ∧ (∀ l ∈ q.where_.toCond.leaves, ColText l.col) ∧
      q.build = .ok (sql, sets.map (·.2) ++ ps) ∧ readStmt sql = some (.update t ns e)) ↔
      ns = (sets.map (·.1)).zip (numbersFrom 0 sets.length) ∧ e.nums = numbersFrom sets.length ps.length ∧
        e.Sayable (bound sets.length ps) := by
  constructor
  · rintro ⟨q, sql, rfl, hf, hv, hr, hc, h1, h2⟩
    obtain ⟨s, vs, e', g1, g2, g3, g4⟩ := C90_nothing_else _ hr hc sets.length
    have hq : q.setValues ≠ [] := by
      intro h0
      rw [h0] at hf
      exact hne (List.map_eq_nil_iff.mp hf.symm)
    obtain ⟨sql', k1, k2⟩ := update_reads q (sets.map (·.2)) hq ht.plain.1 (fun fv hm => by
      have := List.mem_map_of_mem (f := fun fv : FieldValue => fv.fd.fieldName) hm
      rw [hf] at this
      obtain ⟨s, hm', he⟩ := List.mem_map.mp this
      rw [← he]
      exact (hs s hm').plain) hv (readable_group.mp hr).1 (by rw [List.length_map]; exact g1) g2 g3
    rw [h1] at k1
    have hps : ps = vs := by
      have := congrArg (fun r => match r with | Res.ok p => p.2 | _ => []) k1
      exact List.append_cancel_left this
    have hsql : sql = sql' := congrArg (fun r => match r with | Res.ok p => p.1 | _ => []) k1
    subst hps hsql
    rw [h2, hf, List.length_map] at k2
    cases k2
    exact ⟨rfl, g4⟩
  · rintro ⟨rfl, hn, he⟩
    obtain ⟨w, h1, h2, h3⟩ := C90_every_expression e _ sets.length _ hn he
    have hp : w.params = ps := by
      rw [h3, hn]
      exact bound_agree sets.length ps
    have hok := setsFor_ok sets hs
    obtain ⟨vs, c, sql, k0, k1, k2, k3⟩ := C90_update t ht _ hok (by simpa using hne) w h1
    rw [sets_call hok] at k0
    cases k0
    obtain ⟨c', k1', g⟩ := wish_says w h1
    rw [k1] at k1'
    cases k1'
    refine ⟨((update (.str t)).set ((sets.map fun s => SetTo.mk s.1 (.valuer s.2 false) s.2).map SetTo.fv)).addWhere [c], sql, rfl, ?_, ?_,
      (says_alone g).read, says_cols (says_alone g) sets.length (by rw [h2, hp]; exact he), ?_, ?_⟩
    · simp only [UpdateB.addWhere, UpdateB.set, update, List.nil_append, List.map_map]
      rfl
    · refine (sets_values hok).trans ?_
      simp [List.map_map, Function.comp_def]
    · refine k2.trans ?_
      rw [hp]
      simp [List.map_map, Function.comp_def]
    · rw [List.length_map, h2, List.map_map] at k3
      exact k3

/-- **C90**, exactly, INSERT. -/
theorem C90_exactly_insert (t : Str) (ht : Ident t) (sets : List (Str × Val)) (hs : ∀ s ∈ sets, Ident s.1) (hne : sets ≠ [])
    (cols : List Str) (ns : List Nat) :
    (∃ q sql, InsertB.tableName q = t ∧ q.setValues.map (fun fv => fv.fd.fieldName) = sets.map (·.1) ∧
      q.setValues.map FieldValue.values = (sets.map (·.2)).map (fun v => .ok [v]) ∧
      q.build = .ok (sql, sets.map (·.2)) ∧ readStmt sql = some (.insert t cols ns)) ↔
      cols = sets.map (·.1) ∧ ns = numbersFrom 0 sets.length := by
  have hok := setsFor_ok sets hs
  obtain ⟨vs, sql, k0, k1, k2⟩ := C90_insert t ht _ hok (by simpa using hne)
  rw [sets_call hok] at k0
  cases k0
  constructor
  · rintro ⟨q, sql', rfl, hf, hv, h1, h2⟩
    have hl := congrArg List.length hf
    simp only [List.length_map] at hl
    have hq : q.setValues ≠ [] := by
      intro h0
      rw [h0] at hl
      exact hne (List.length_eq_zero_iff.mp hl.symm)
    obtain ⟨hb, _, _⟩ := C05_insert_partial q (sets.map (·.2)) hq ht.ne hv
    have hr := read_insert q.tableName (q.setValues.map fun fv => fv.fd.fieldName) (numbersFrom 0 q.setValues.length) (by simpa using hq)
      (by rw [hl]; exact numbersFrom_ne (by simpa using hne)) ht.plain.1 (by
        rw [hf]
        intro w hw
        obtain ⟨s, hm, rfl⟩ := List.mem_map.mp hw
        exact (hs s hm).plain)
    rw [h1] at hb
    cases hb
    rw [h2] at hr
    cases hr
    exact ⟨hf, by rw [hl]⟩
  · rintro ⟨rfl, rfl⟩
    refine ⟨_, sql, rfl, ?_, ?_, k1.trans ?_, k2.trans ?_⟩
    · simp only [InsertB.addValues, insertInto, List.nil_append, List.map_map]
      rfl
    · refine (sets_values hok).trans ?_
      simp [List.map_map, Function.comp_def]
    · simp [List.map_map, Function.comp_def]
    · simp [List.map_map, Function.comp_def]

/-- The condition of a select: its numbers and its expression, whatever calls made it. -/
theorem where_nothing_else {q : BaseSelect} (h : PlainSelect q) (hc : ∀ l ∈ q.where_.group.toCond.leaves, ColText l.col)
    {sql0 : Str} {params ps : List Val} {x : Option BExp} (k2 : q.build = .ok (sql0, ps))
    (k6 : q.where_.conditions ≠ [] → ∃ s e, q.where_.render 0 = .ok s ∧ Reads s e ∧ x = some e) (k8 : WhereRead q params x) :
    (∀ e ∈ x, e.nums = numbersFrom 0 ps.length ∧ e.Sayable (bound 0 ps)) ∧ (x = none → ps = []) := by
  by_cases hne : q.where_.conditions = []
  · have hx : x = none := by simpa [WhereRead, hne] using k8
    subst hx
    refine ⟨by simp, fun _ => ?_⟩
    unfold BaseSelect.build at k2
    rw [if_neg (by simp [hne])] at k2
    simp only [Res.ok.injEq, Prod.mk.injEq] at k2
    exact k2.2.symm
  · obtain ⟨s, e, e1, e2, rfl⟩ := k6 hne
    have hr := h.cond.resolve_left hne
    obtain ⟨s', vs, e', g1, g2, g3, g4⟩ := C90_nothing_else _ hr hc 0
    have g1' : q.where_.render 0 = .ok s' := g1
    have g2' : q.where_.values = .ok vs := g2
    rw [e1] at g1'
    cases g1'
    have hps : vs = ps := by
      unfold BaseSelect.build at k2
      rw [if_pos (List.length_pos_iff.mpr hne)] at k2
      simp only [e1, g2', Res.bind_ok, Res.ok.injEq, Prod.mk.injEq] at k2
      exact k2.2
    subst hps
    refine ⟨fun e0 he0 => ?_, by simp⟩
    simp only [Option.mem_some_iff] at he0
    subst he0
    rw [reads_unique e2 g3]
    exact g4

/-- **C90**, nothing else, SELECT: whatever calls made the builder, the condition takes the first numbers from left to right, OFFSET and
LIMIT the last. -/
theorem C90_select_nothing_else (q : SelectMany) (h : PlainSelect q.base) (ho : ∀ o ∈ q.order, PlainKey o)
    (hc : ∀ l ∈ q.base.where_.group.toCond.leaves, ColText l.col) :
    ∃ sql ps x, q.build = .ok (sql, ps ++ (limitItems q.offset q.limit).map (fun p => .uint p.2)) ∧
      readStmt sql = some (.select ⟨q.base.fields.refs, q.base.baseTable.ref, q.base.joins.map TableJoiner.ref, x,
        q.order.map fun o => (o.fd.key, o.direction), if q.offset > 0 then some (.param (ps.length + 1)) else none,
        if q.limit > 0 then some (.param (ps.length + (if q.offset > 0 then 1 else 0) + 1)) else none⟩) ∧
      (∀ e ∈ x, e.nums = numbersFrom 0 ps.length ∧ e.Sayable (bound 0 ps)) ∧ (x = none → ps = []) := by
  obtain ⟨sql, params, x, off, lim, k1, ⟨sql0, ps, k2, k3, k4, k5⟩, k6, k7, k8, _⟩ := many_read_at q h ho
  subst k3 k4 k5
  exact ⟨sql, ps, x, k1, k7, where_nothing_else h hc k2 k6 k8⟩

/-- **C90**, nothing else, SELECT of one row. -/
theorem C90_single_nothing_else (q : SelectSingle) (h : PlainSelect q.base) (hc : ∀ l ∈ q.base.where_.group.toCond.leaves, ColText l.col) :
    ∃ sql ps x, q.build = .ok (sql, ps) ∧
      readStmt sql = some (.select ⟨q.base.fields.refs, q.base.baseTable.ref, q.base.joins.map TableJoiner.ref, x, [], none,
        some (.lit c!"1")⟩) ∧
      (∀ e ∈ x, e.nums = numbersFrom 0 ps.length ∧ e.Sayable (bound 0 ps)) ∧ (x = none → ps = []) := by
  obtain ⟨sql, ps, x, k1, ⟨_, k2⟩, k6, k7, k8⟩ := single_read_at q h
  exact ⟨sql, ps, x, k1, k7, where_nothing_else h hc k2 k6 k8⟩

/-- **C90**, nothing else, counts. -/
theorem C90_count_nothing_else (q : CountB) (h : PlainSelect q.base) (hf : CountDef q.countField)
    (hc : ∀ l ∈ q.base.where_.group.toCond.leaves, ColText l.col) :
    ∃ sql ps x, q.build = .ok (sql, ps) ∧
      readStmt sql = some (.select ⟨[.count q.countField.key], q.base.baseTable.ref, q.base.joins.map TableJoiner.ref, x, [], none, none⟩) ∧
      (∀ e ∈ x, e.nums = numbersFrom 0 ps.length ∧ e.Sayable (bound 0 ps)) ∧ (x = none → ps = []) := by
  obtain ⟨sql, ps, x, k1, ⟨_, k2⟩, k6, k7, k8⟩ := count_read_at q h hf
  exact ⟨sql, ps, x, k1, k7, where_nothing_else h hc k2 k6 k8⟩

/-- The example of C44: its columns are names of columns. -/
example : PlainSelect exampleMany.base ∧ ∀ l ∈ exampleMany.base.where_.group.toCond.leaves, ColText l.col := by
  have hi : ∀ {n : Str}, n ∈ [c!"a", c!"b", c!"c", c!"t"] → Ident n := by
    intro n h
    refine ⟨⟨⟨?_, ?_, ?_⟩, ?_⟩, ?_, ?_⟩ <;> revert n <;> decide
  refine ⟨example_plain, fun l hl => ?_⟩
  simp only [exampleMany, exampleCond, Group.toCond, Cond.leaves, Cond.leavesL, List.mem_cons, List.not_mem_nil, or_false,
    List.append_nil, List.nil_append, List.cons_append] at hl
  rcases hl with rfl | rfl | rfl
  · exact ⟨⟨none, c!"a"⟩, ⟨hi (by decide), fun t ht => by cases ht⟩, rfl⟩
  · exact ⟨⟨some c!"t", c!"b"⟩, ⟨hi (by decide), fun t ht => by cases ht; exact hi (by decide)⟩, rfl⟩
  · exact ⟨⟨none, c!"c"⟩, ⟨hi (by decide), fun t ht => by cases ht⟩, rfl⟩

/-- The statements around it, with columns to set. -/
example : Ident c!"t" ∧ (∀ s ∈ [(c!"x", Val.nil), (c!"n", .other 3)], Ident s.1) :=
  ⟨exIdent (by decide), by
    intro s hs
    simp only [List.mem_cons, List.not_mem_nil, or_false] at hs
    rcases hs with rfl | rfl <;> exact exIdent (by decide)⟩

/-- Some condition says the example, and meets the hypotheses of both. -/
example : ∃ c s, Cond.Readable c ∧ (∀ l ∈ c.leaves, ColText l.col) ∧ c.render 1 = .ok s ∧
    c.values = .ok [Val.nil, .other 3, .strs [c!"x"], .str c!"%z%"] ∧ Reads s exampleExp :=
  (C90_exactly exampleExp 1 _).mpr exampleExp_sayable

/-- Numbers out of order cannot be said, whatever the calls. -/
example (x y : Str) (ps : List Val) : ¬ ∃ c s, Cond.Readable c ∧ (∀ l ∈ c.leaves, ColText l.col) ∧ c.render 0 = .ok s ∧ c.values = .ok ps ∧
    Reads s (.and (.atom (.cmp c!"=" x 2)) (.atom (.cmp c!"=" y 1))) := by
  rw [C90_exactly]
  rintro ⟨h, _⟩
  have hl := congrArg List.length h
  simp only [BExp.nums, Atom.nums, numbersFrom_length, List.length_append, List.length_cons, List.length_nil] at hl
  rw [← hl] at h
  exact absurd h (by simp [BExp.nums, Atom.nums, numbersFrom, List.range'])

end Query
