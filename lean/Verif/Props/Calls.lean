import Verif.Props.Access
import Verif.Props.Numbering
import Verif.Props.Reads
/-!
# Builders made by calls: C04, C05, C44, C45 in call order, C19 as text, C23 for tables given as text
-/
namespace Query

/-- The table name a write builder is made for: the name, not the alias. -/
def TableParam.given : TableParam → Str
  | .str s => s
  | .name s => s
  | .ident t => t.name

theorem insertFrom_calls (p : TableParam) (vss : List (List FieldValue)) :
    (vss.foldl InsertB.addValues (insertInto p)).tableName = p.given ∧
    (vss.foldl InsertB.addValues (insertInto p)).setValues = vss.flatten := by
  obtain ⟨h1, _, _, _, _, _, h2, _⟩ := C57_write p vss [] []
  refine ⟨?_, h2⟩
  have : (vss.foldl InsertB.addValues (insertInto p)).getTable = (vss.foldl InsertB.addValues (insertInto p)).tableName := rfl
  rw [← this, h1]
  cases p <;> rfl

theorem updateFrom_calls (p : TableParam) (us : List UpdateCall) :
    (runUpdate (update p) us).tableName = p.given ∧ (runUpdate (update p) us).setValues = UpdateCall.values us := by
  obtain ⟨_, h1, _, _, _, _, _, h2⟩ := C57_write p [] us []
  refine ⟨?_, h2⟩
  have : (runUpdate (update p) us).getTable = (runUpdate (update p) us).tableName := rfl
  rw [← this, h1]
  cases p <;> rfl

/-- **C05, what holds, in call order.**  An INSERT made by any number of `Values` calls, each value supplying one parameter, has
the columns and parameters of all calls in call order.  Missing: as in `C05_insert_partial`. -/
theorem C05_calls_partial (p : TableParam) (vss : List (List FieldValue)) (vs : List Val) (hs : vss.flatten ≠ [])
    (ht : p.given ≠ []) (hone : vss.flatten.map FieldValue.values = vs.map fun v => .ok [v]) :
    (vss.foldl InsertB.addValues (insertInto p)).build = .ok (c!"INSERT INTO " ++ p.given ++ c!"(" ++
      joinWith c!", " (vss.flatten.map fun fv => fv.fd.fieldName) ++ c!") VALUES (" ++
      joinWith c!", " ((numbersFrom 0 vss.flatten.length).map fun i => '$' :: itoa i) ++ c!")", vs) := by
  obtain ⟨h1, h2⟩ := insertFrom_calls p vss
  have := (C05_insert_partial (vss.foldl InsertB.addValues (insertInto p)) vs (by rw [h2]; exact hs) (by rw [h1]; exact ht)
    (by rw [h2]; exact hone)).1
  rw [h1, h2] at this
  exact this

example : ([[FieldValue.mk ⟨c!"a", [], []⟩ (.other 1)], [⟨⟨c!"b", [], []⟩, .other 2⟩, ⟨⟨c!"c", [], []⟩, .other 3⟩]].foldl
    InsertB.addValues (insertInto (.str c!"t"))).build =
    .ok (c!"INSERT INTO t(a, b, c) VALUES ($1, $2, $3)", [.other 1, .other 2, .other 3]) := rfl

/-- **C44, what holds, in call order.**  Missing: as in `C44_insert_partial`. -/
theorem C44_calls_partial (p : TableParam) (vss : List (List FieldValue)) (vs : List Val) (hs : vss.flatten ≠ [])
    (ht : PlainName p.given) (hf : ∀ fv ∈ vss.flatten, PlainIdent fv.fd.fieldName)
    (hone : vss.flatten.map FieldValue.values = vs.map fun v => .ok [v]) :
    ∃ sql ns, (vss.foldl InsertB.addValues (insertInto p)).build = .ok (sql, vs) ∧
      readStmt sql = some (.insert p.given (vss.flatten.map fun fv => fv.fd.fieldName) ns) ∧ ns.map (bound 0 vs) = vs := by
  obtain ⟨h1, h2⟩ := insertFrom_calls p vss
  have := C44_insert_partial (vss.foldl InsertB.addValues (insertInto p)) vs (by rw [h2]; exact hs) (by rw [h1]; exact ht)
    (by rw [h2]; exact hf) (by rw [h2]; exact hone)
  rw [h1, h2] at this
  exact this

/-- **C04, what holds, in call order.**  An UPDATE made by any `Set` and `Where` calls sets the fields of all `Set` calls in call
order, numbered from 1, before the WHERE clause.  Missing: as in `C04_update_partial`. -/
theorem C04_calls_partial (p : TableParam) (us : List UpdateCall) (vs wv : List Val) (hc : UpdateCall.conds us ≠ [])
    (hs : UpdateCall.values us ≠ []) (ht : p.given ≠ [])
    (hone : (UpdateCall.values us).map FieldValue.values = vs.map fun v => .ok [v])
    (hw : (runUpdate (update p) us).where_.values = .ok wv) :
    ∃ w, (runUpdate (update p) us).where_.render vs.length = .ok w ∧
      (runUpdate (update p) us).build = .ok (c!"UPDATE " ++ p.given ++ c!" SET " ++
        setList ((UpdateCall.values us).map fun fv => fv.fd.fieldName) ++ c!" WHERE " ++ w, vs ++ wv) := by
  obtain ⟨h1, h2⟩ := updateFrom_calls p us
  have hcs : (runUpdate (update p) us).where_.conds ≠ [] := by
    intro e
    refine hc ((C15_update_needs_condition p us).1 ?_)
    simp only [UpdateB.build, e, List.length_nil, if_true]
  obtain ⟨w, hw1, hw2, _⟩ := C04_update_partial (runUpdate (update p) us) vs wv hcs (by rw [h2]; exact hs) (by rw [h1]; exact ht)
    (by rw [h2]; exact hone) hw
  rw [h1, h2] at hw2
  exact ⟨w, hw1, hw2⟩

/-- **C45, what holds, in call order.**  Missing: as in `C45_update_partial`. -/
theorem C45_calls_partial (p : TableParam) (us : List UpdateCall) (vs : List Val) (hs : UpdateCall.values us ≠ [])
    (ht : PlainName p.given) (hf : ∀ fv ∈ UpdateCall.values us, PlainIdent fv.fd.fieldName)
    (hone : (UpdateCall.values us).map FieldValue.values = vs.map fun v => .ok [v])
    (hc : (runUpdate (update p) us).where_.toCond.Readable) :
    ∃ sql params sets e, (runUpdate (update p) us).build = .ok (sql, params) ∧
      readStmt sql = some (.update p.given sets e) ∧
      sets.map (·.1) = (UpdateCall.values us).map (fun fv => fv.fd.fieldName) ∧
      sets.map (fun p => bound 0 params p.2) = vs ∧ CondRead (runUpdate (update p) us).where_.toCond params e := by
  obtain ⟨h1, h2⟩ := updateFrom_calls p us
  have := C45_update_partial (runUpdate (update p) us) vs (by rw [h2]; exact hs) (by rw [h1]; exact ht) (by rw [h2]; exact hf)
    (by rw [h2]; exact hone) hc
  rw [h1, h2] at this
  exact this

/-- Two `Set` calls around a `Where`. -/
def exampleCalls : List UpdateCall :=
  [.set [⟨⟨c!"a", [], []⟩, .other 1⟩], .addWhere [exampleCond],
    .set [⟨⟨c!"b", [], []⟩, .other 2⟩]]

example : (runUpdate (update (.str c!"t")) exampleCalls).build =
    .ok (c!"UPDATE t SET a=$1, b=$2 WHERE NOT (a=$3 OR t.b IN ($4,$5) AND c IS NULL)",
      [.other 1, .other 2, .other 1, .str c!"x", .str c!"y"]) := rfl

/-! ## C19 as text -/

/-- **C19**, the text: after any calls the statement is the base SELECT, the ORDER BY keys of all `OrderBy` calls in call order,
and OFFSET and LIMIT of the last calls, each only if positive, numbered after the parameters of the base SELECT. -/
theorem C19_text (q : SelectMany) (ops : List ManyCall) (sql : Str) (params : List Val)
    (h : (runMany q ops).build = .ok (sql, params)) :
    let order := q.order ++ (ManyCall.orders ops).flatten
    let offset := (ManyCall.offsets ops).getLast?.getD q.offset
    let limit := (ManyCall.limits ops).getLast?.getD q.limit
    ∃ sql0 params0, (runMany q ops).base.build = .ok (sql0, params0) ∧
      sql = sql0 ++ (if order = [] then [] else c!" ORDER BY " ++
          joinWith c!", " (order.map fun o => o.fd.renderField ++ c!" " ++ o.direction)) ++
        (if offset > 0 then c!" OFFSET $" ++ itoa (params0.length + 1) else []) ++
        (if limit > 0 then c!" LIMIT $" ++ itoa (params0.length + (if offset > 0 then 1 else 0) + 1) else []) ∧
      params = params0 ++ (if offset > 0 then [.uint offset] else []) ++ (if limit > 0 then [.uint limit.toNat] else []) := by
  obtain ⟨h1, h2, h3, _⟩ := C19_history q ops
  obtain ⟨sql0, params0, hb, hs, hp⟩ := C20_many_tail _ sql params h
  rw [h1, h2, h3] at hs
  rw [h2, h3] at hp
  refine ⟨sql0, params0, hb, hs.trans ?_, hp.trans ?_⟩
  · generalize (ManyCall.offsets ops).getLast?.getD q.offset = o
    generalize (ManyCall.limits ops).getLast?.getD q.limit = l
    unfold limitItems
    by_cases ho : o > 0 <;> by_cases hl : l > 0 <;> simp [ho, hl, limitTexts, spaced]
  · generalize (ManyCall.offsets ops).getLast?.getD q.offset = o
    generalize (ManyCall.limits ops).getLast?.getD q.limit = l
    unfold limitItems
    by_cases ho : o > 0 <;> by_cases hl : l > 0 <;> simp [ho, hl]

/-! ## C23 for tables given as text -/

/-- **C23**, the single and many builders, whose joins take the table as text: for every text `Table` accepts, the join is that of
the table and alias it reads, and nothing else changes; a text it does not accept panics. -/
theorem C23_join_text (s : SelectSingle) (m : SelectMany) (right : Str) (joinType : Int) (l r : FieldDef) :
    (∀ t, table right = .ok t →
      (∃ s', (s.join right joinType).bind (fun s => s.on l r) = .ok s' ∧
        s'.base.renderFrom = s.base.renderFrom ++ c!" " ++ JoinCall.text ⟨t, joinType, l, r⟩ ∧
        s'.base.fields = s.base.fields ∧ s'.base.where_ = s.base.where_) ∧
      (∃ m', (m.join right joinType).bind (fun m => m.on l r) = .ok m' ∧
        m'.base.renderFrom = m.base.renderFrom ++ c!" " ++ JoinCall.text ⟨t, joinType, l, r⟩ ∧
        m'.base.fields = m.base.fields ∧ m'.base.where_ = m.base.where_ ∧ m'.order = m.order ∧ m'.offset = m.offset ∧
        m'.limit = m.limit)) ∧
    (∀ p, table right = .panic p → (s.join right joinType) = .panic p ∧ (m.join right joinType) = .panic p) := by
  refine ⟨fun t ht => ?_, fun p hp => ?_⟩
  · obtain ⟨⟨s', hs, hsb⟩, m', hm, hmb, h1, h2, h3⟩ := C23_joins_single_many s m ⟨t, joinType, l, r⟩
    obtain ⟨q1, e1, f1, w1, _, _, _, r1⟩ := C23_joins s.base [⟨t, joinType, l, r⟩]
    obtain ⟨q2, e2, f2, w2, _, _, _, r2⟩ := C23_joins m.base [⟨t, joinType, l, r⟩]
    rw [hsb] at e1
    rw [hmb] at e2
    cases e1
    cases e2
    refine ⟨⟨s', ?_, ?_, f1, w1⟩, m', ?_, ?_, f2, w2, h1, h2, h3⟩
    · simp only [SelectSingle.join, ht, Res.bind_ok]; exact hs
    · rw [r1]; simp [spaced]
    · simp only [SelectMany.join, ht, Res.bind_ok]; exact hm
    · rw [r2]; simp [spaced]
  · simp only [SelectSingle.join, SelectMany.join, hp, Res.bind_panic, and_self]

example : table c!"users AS u" = .ok ⟨c!"users", c!"u"⟩ := by decide

/-! ## C56: which panic -/

theorem setToAllI_nil (j : Str) (cs : List CondI) (h : none ∈ cs) : setToAllI j cs = .panic .nilDeref := by
  induction cs with
  | nil => simp at h
  | cons c cs ih =>
    cases c with
    | none => simp [setToAllI, Res.mapL, joinOneI]
    | some c =>
      have := ih (by simpa using h)
      simp only [setToAllI] at this
      simp [setToAllI, Res.mapL, joinOneI, this]

/-- **C56**, the panics: no condition is an index error, a nil one a nil dereference, and there are no others. -/
theorem C56_panics (j : Str) (cs : List CondI) :
    (cs = [] → joinAll j cs = .panic .index) ∧ (none ∈ cs → joinAll j cs = .panic .nilDeref) ∧
    (cs ≠ [] → none ∉ cs → ∃ c, joinAll j cs = .ok c) := by
  refine ⟨fun h => by subst h; rfl, fun h => ?_, fun h1 h2 => ?_⟩
  · match cs, h with
    | [c], h =>
      have : c = none := (List.mem_singleton.1 h).symm
      subst this
      rfl
    | c :: d :: cs, h => simp [joinAll, newGroupI, setToAllI_nil j _ h]
  · cases hr : joinAll j cs with
    | ok c => exact ⟨c, rfl⟩
    | err e => exact absurd hr ((C56_join j cs).2.1 e)
    | panic p =>
      rcases (C56_join j cs).1.1 ⟨p, hr⟩ with h | h
      · exact absurd h h1
      · exact absurd h h2

example : joinAll lOR [none] = .panic .nilDeref ∧ joinAll lOR [] = .panic .index := ⟨rfl, rfl⟩

end Query
