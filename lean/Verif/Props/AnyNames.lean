import Verif.Proof.Pieces
import Verif.Props.Numbering
/-!
# C01, C03, C06: placeholders of texts over any names
-/
namespace Query

/-- **C01, whatever the names.**  A condition of any shape, over any names and join words at all, whose comparisons (other than IN)
carry one parameter each: one list of pieces gives the text at every offset, and its placeholders are those of the first, second, …
last value, from left to right, each once.  In `Render(k)` the placeholder of value `i` is `$k+i+1`, and no digit follows it unless a join word is empty. -/
theorem C01_any_names (c : Cond) (vs : List Val) (hv : c.values = .ok vs) (hc : c.Every OneEach) :
    ∃ ps, holes ps = List.range vs.length ∧ (∀ k, c.render k = .ok (numberedText k ps)) ∧ (c.Every SpacedNode → Ended ps) :=
  let ⟨ps, _, h2, h3⟩ := cond_pieces hv hc.keeps
  ⟨ps, (h3 hc).1, h2, (h3 hc).2⟩

/-- **C06, whatever the names and the number of values.**  The two renderings of a condition are the same words with placeholders in
the same places: one list of pieces gives `RenderSQL()` with question marks and `Render(k)`, for every `k`, with numbers. -/
theorem C06_any_names (c : Cond) (vs : List Val) (hv : c.values = .ok vs) (hc : c.Every KeepsContract) :
    ∃ ps, c.renderSQL = .ok (questionText ps) ∧ ∀ k, c.render k = .ok (numberedText k ps) :=
  let ⟨ps, h1, h2, _⟩ := cond_pieces hv hc
  ⟨ps, h1, h2⟩

/-- **C06, where clauses, the same.** -/
theorem C06_any_names_where (w : WhereClause) (vs : List Val) (hv : w.values = .ok vs)
    (hc : w.group.toCond.Every KeepsContract) :
    ∃ ps, w.renderSQL = .ok (questionText ps) ∧ ∀ k, w.render k = .ok (numberedText k ps) :=
  C06_any_names w.group.toCond vs hv hc

/-- **C06, limiters, with C12's count.** -/
theorem C06_any_names_limiter (l : Limiter) :
    ∃ ps, l.renderSQL = questionText ps ∧ (∀ k, l.render k = numberedText k ps) ∧ holes ps = List.range l.values.length := by
  by_cases h1 : l.offset > 0 <;> by_cases h2 : l.limit > 0
  · refine ⟨[.txt c!"OFFSET ", .hole 0, .txt c!" LIMIT ", .hole 1], ?_, ?_, ?_⟩
    · simp [Limiter.renderSQL, h1, h2, questionText, Piece.question]
    · intro k; simp [Limiter.render, h1, h2, numberedText, Piece.numbered]
    · simp only [Limiter.values, h1, h2, and_self, if_true]; rfl
  · refine ⟨[.txt c!"OFFSET ", .hole 0], ?_, ?_, ?_⟩
    · simp [Limiter.renderSQL, h1, h2, questionText, Piece.question]
    · intro k; simp [Limiter.render, h1, h2, numberedText, Piece.numbered]
    · have : l.limit = 0 := by omega
      simp [Limiter.values, h1, this, holes]
  · refine ⟨[.txt c!"LIMIT ", .hole 0], ?_, ?_, ?_⟩
    · simp [Limiter.renderSQL, h1, h2, questionText, Piece.question]
    · intro k; simp [Limiter.render, h1, h2, numberedText, Piece.numbered]
    · have : l.offset = 0 := by omega
      simp [Limiter.values, h2, this, holes]
  · refine ⟨[], ?_, ?_, ?_⟩
    · simp [Limiter.renderSQL, h1, h2, questionText]
    · intro k; simp [Limiter.render, h1, h2, numberedText]
    · have e1 : l.limit = 0 := by omega
      have e2 : l.offset = 0 := by omega
      simp [Limiter.values, e1, e2, holes]

/-- **C06, select builders, whatever the names.** -/
theorem C06_any_names_select (q : BaseSelect) (s : SelectSingle) (m : SelectMany) (hs : s.base = q) (hm : m.base = q)
    (vs : List Val) (hv : q.values = .ok vs) (hc : q.where_.group.toCond.Every KeepsContract) :
    ∃ ps, q.renderSQL = .ok (questionText ps) ∧ s.renderSQL = .ok (questionText ps) ∧ m.renderSQL = .ok (questionText ps) ∧
      ∀ k, q.render k = .ok (numberedText k ps) ∧ s.render k = .ok (numberedText k ps) ∧
        m.render k = .ok (numberedText k ps) := by
  subst hs
  obtain ⟨ps, h1, h2, _⟩ := select_pieces hv hc
  refine ⟨ps, h1, h1, ?_, fun k => ⟨h2 k, h2 k, ?_⟩⟩
  · rw [← h1, ← hm]; rfl
  · rw [← h2 k, ← hm]; rfl

/-- **C03, whatever the names** (comparisons with one value each, see `C03_slices_false`).  A base, single or many select that builds:
one list of pieces gives the base statement in both dialects and at every offset, with one placeholder per parameter of the base, in
order.  The base text is that list from `$1`; a single select puts ` LIMIT 1` behind it; a many select puts behind it the ordering,
then ` OFFSET ` and the placeholder of the next parameter, which is the offset, then ` LIMIT ` and the placeholder of the next one,
which is the limit. -/
theorem C03_any_names_partial (q : BaseSelect) (s : SelectSingle) (m : SelectMany) (hs : s.base = q) (hm : m.base = q)
    (sql : Str) (params : List Val) (hw : q.where_.group.toCond.Every OneEach) (h : q.build = .ok (sql, params)) :
    ∃ ps, holes ps = List.range params.length ∧ (q.where_.group.toCond.Every SpacedNode → Ended ps) ∧
      (∀ k, q.render k = .ok (numberedText k ps)) ∧ q.renderSQL = .ok (questionText ps) ∧
      sql = numberedText 0 ps ∧
      s.build = .ok (numberedText 0 (ps ++ [.txt c!" LIMIT 1"]), params) ∧
      m.build = .ok (numberedText 0 (ps ++ pagePieces (orderLoop m.order 0) m.offset m.limit params.length),
        params ++ (if m.offset > 0 then [.uint m.offset] else []) ++ (if m.limit > 0 then [.uint m.limit.toNat] else [])) := by
  obtain ⟨hr, hv⟩ := build_render_values h
  obtain ⟨ps, h1, h2, h3⟩ := select_pieces hv hw.keeps
  have hsql : sql = numberedText 0 ps := by
    have := h2 0
    rw [hr] at this
    simpa using this
  refine ⟨ps, (h3 hw).1, (h3 hw).2, h2, h1, hsql, ?_, ?_⟩
  · unfold SelectSingle.build
    rw [hs, h, Res.bind_ok, numberedText_append, ← hsql]
    rfl
  · unfold SelectMany.build
    rw [hm, h, Res.bind_ok, numberedText_append, ← hsql]
    have ho : (if orderLoop m.order 0 = [] then ([] : List Piece) else [.txt (c!" ORDER BY " ++ orderLoop m.order 0)]) =
        if m.order.length > 0 then [.txt (c!" ORDER BY " ++ orderLoop m.order 0)] else [] := by
      cases hmo : m.order with
      | nil => rfl
      | cons o os =>
        have : orderLoop (o :: os) 0 ≠ [] := by simp [orderLoop, FieldSorting.render]
        simp [this]
    simp only [pagePieces, ho]
    by_cases h4 : m.order.length > 0 <;> by_cases h5 : m.offset > 0 <;> by_cases h6 : m.limit > 0 <;>
      simp [h4, h5, h6, numberedText, Piece.numbered]

/-- **C03, counts, whatever the names.**  The placeholders of a count are those of its where clause, numbered from `$1`. -/
theorem C03_any_names_count_partial (q : CountB) (sql : Str) (params : List Val)
    (hw : q.base.where_.group.toCond.Every OneEach) (h : q.build = .ok (sql, params)) :
    ∃ ps, holes ps = List.range params.length ∧ (q.base.where_.group.toCond.Every SpacedNode → Ended ps) ∧
      (q.base.where_.conditions ≠ [] → ∀ k, q.base.where_.render k = .ok (numberedText k ps)) ∧
      (q.base.where_.conditions = [] → ps = []) ∧
      sql = c!"SELECT COUNT(" ++ q.countField.renderField ++ c!") FROM " ++ q.base.renderFrom ++
        (if q.base.where_.conditions = [] then [] else c!" WHERE ") ++ numberedText 0 ps := by
  unfold CountB.build at h
  by_cases hl : q.base.where_.conditions.length > 0
  · simp only [hl, if_true, Res.bind_eq_ok, Res.ok.injEq, Prod.mk.injEq] at h
    obtain ⟨w, hr, vs, hv, hs, hp⟩ := h
    subst hp
    obtain ⟨ps, h1, h2, h3⟩ := cond_pieces (c := q.base.where_.group.toCond) hv hw.keeps
    have hne : q.base.where_.conditions ≠ [] := List.ne_nil_of_length_pos hl
    refine ⟨ps, (h3 hw).1, (h3 hw).2, fun _ => h2, fun e => absurd e hne, ?_⟩
    rw [join_where _ _ (by simp)] at hs
    have hw0 : w = numberedText 0 ps := by
      have := (h2 0).symm.trans hr
      simpa using this.symm
    rw [← hs, if_neg hne, hw0]
    simp [joinWith, kwCount, kwFrom, kwSelect, operationString, doSelect]
  · simp only [hl, if_false, Res.ok.injEq, Prod.mk.injEq] at h
    have he : q.base.where_.conditions = [] := by simpa using hl
    refine ⟨[], by rw [← h.2]; rfl, fun _ => trivial, fun e => absurd he e, fun _ => rfl, ?_⟩
    rw [← h.1, if_pos he]
    simp [joinWith, kwCount, kwFrom, kwSelect, operationString, doSelect, numberedText]

/-- **C04, whatever the names.**  As `C04_update_partial` says, the text of the WHERE clause of an UPDATE that sets `m` fields is the
condition's text from `m`; its placeholders are those of the condition's values, `$m+1 … $m+n`. -/
theorem C04_any_names_partial (q : UpdateB) (vs wv : List Val) (hc : q.where_.conds ≠ []) (hs : q.setValues ≠ [])
    (ht : q.tableName ≠ []) (hone : q.setValues.map FieldValue.values = vs.map fun v => .ok [v])
    (hw : q.where_.values = .ok wv) (ho : q.where_.toCond.Every OneEach) :
    ∃ ps, holes ps = List.range wv.length ∧ (q.where_.toCond.Every SpacedNode → Ended ps) ∧ (∀ k, q.where_.render k = .ok (numberedText k ps)) ∧
      q.build = .ok (c!"UPDATE " ++ q.tableName ++ c!" SET " ++ setList (q.setValues.map fun fv => fv.fd.fieldName) ++
        c!" WHERE " ++ numberedText vs.length ps, vs ++ wv) := by
  obtain ⟨ps, h1, h2, h3⟩ := C01_any_names q.where_.toCond wv hw ho
  obtain ⟨w, hr, hb, _⟩ := C04_update_partial q vs wv hc hs ht hone hw
  have : w = numberedText vs.length ps := by
    have := hr.symm.trans (h2 vs.length)
    simpa using this
  subst this
  exact ⟨ps, h1, h3, h2, hb⟩

/-- `NOT (a$5=$1 OR $t.b? IN ($2,$3) AND c IS NULL)`: names with dollar signs and question marks. -/
def dollarCond : Cond :=
  .group ⟨lAND, true⟩
    [.fieldc .eq ⟨lAND, false⟩ ⟨⟨c!"a$5", [], []⟩, .other 1⟩,
     .fieldc .inn ⟨lOR, false⟩ ⟨⟨c!"b?", c!"$t", []⟩, .strs [c!"x", c!"y"]⟩,
     .null ⟨lAND, false⟩ ⟨c!"c", [], []⟩] false

example : dollarCond.Every OneEach ∧ dollarCond.Every KeepsContract ∧ dollarCond.Every SpacedNode ∧ ¬ dollarCond.Every NumberedNode ∧
    dollarCond.values = .ok [.other 1, .str c!"x", .str c!"y"] ∧
    dollarCond.render 4 = .ok c!"NOT (a$5=$5 OR $t.b? IN ($6,$7) AND c IS NULL)" ∧
    dollarCond.renderSQL = .ok c!"NOT (a$5=? OR $t.b? IN (?,?) AND c IS NULL)" := by
  have h : dollarCond.Every OneEach := by
    simp only [dollarCond, Cond.Every, Cond.EveryL, OneEach, OneParam]
    exact ⟨trivial, ⟨.other 1, rfl⟩, trivial, trivial, trivial⟩
  have hs : dollarCond.Every SpacedNode := by
    simp only [dollarCond, Cond.Every, Cond.EveryL, SpacedNode]
    exact ⟨by simp [Cond.joinType, Cond.base, lAND, lOR], trivial, trivial, trivial, trivial⟩
  refine ⟨h, h.keeps, hs, ?_, rfl, by decide, by decide⟩
  intro h
  have h1 : FieldDef.Free '$' ⟨c!"a$5", [], []⟩ := h.2.1.1
  revert h1
  simp [FieldDef.Free]

/-- The statement around it, in a select of many rows, a count and an update. -/
example :
    let q : BaseSelect := ⟨0, ⟨c!"t", []⟩, [], ⟨[⟨c!"x$1", [], []⟩]⟩, ⟨⟨⟨lAND, false⟩, [dollarCond], false⟩⟩⟩
    q.where_.group.toCond.Every OneEach ∧
    (SelectMany.mk q 5 10 [⟨⟨c!"$2", [], []⟩, descending⟩] false).build = .ok (
      c!"SELECT x$1 FROM t WHERE NOT (a$5=$1 OR $t.b? IN ($2,$3) AND c IS NULL) ORDER BY $2 DESC OFFSET $4 LIMIT $5",
      [.other 1, .str c!"x", .str c!"y", .uint 5, .uint 10]) ∧
    (CountB.mk q ⟨c!"x$1", [], []⟩).build = .ok (
      c!"SELECT COUNT(x$1) FROM t WHERE NOT (a$5=$1 OR $t.b? IN ($2,$3) AND c IS NULL)",
      [.other 1, .str c!"x", .str c!"y"]) ∧
    (UpdateB.mk doUpdate c!"t$" ⟨⟨lAND, false⟩, [dollarCond], false⟩ [⟨⟨c!"f$", [], []⟩, .other 7⟩]).build = .ok (
      c!"UPDATE t$ SET f$=$1 WHERE NOT (a$5=$2 OR $t.b? IN ($3,$4) AND c IS NULL)",
      [.other 7, .other 1, .str c!"x", .str c!"y"]) := by
  refine ⟨?_, rfl, rfl, rfl⟩
  simp only [dollarCond, Group.toCond, Cond.Every, Cond.EveryL, OneEach, OneParam]
  exact ⟨trivial, ⟨trivial, ⟨.other 1, rfl⟩, trivial, trivial, trivial⟩, trivial⟩

/-- **C01, whatever the names, read off the text.**  Names may contain dollar signs and numbers.  From some offset on, the numbers
above the offset that a reader finds behind dollar signs in `Render(k)` are `k+1 … k+n`, from left to right, each once. -/
theorem C01_any_names_read (c : Cond) (vs : List Val) (hv : c.values = .ok vs) (hc : c.Every OneEach)
    (hs : c.Every SpacedNode) :
    ∃ N, ∀ k, N ≤ k → ∃ s, c.render k = .ok s ∧ (dollars s).filter (fun x => decide (k < x)) = numbersFrom k vs.length := by
  obtain ⟨ps, h1, h2, h3⟩ := C01_any_names c vs hv hc
  obtain ⟨N, hN⟩ := read_off ps [] (h3 hs)
  refine ⟨N, fun k hk => ⟨_, h2 k, ?_⟩⟩
  have := hN k hk
  rw [List.nil_append] at this
  rw [this, h1, numbersFrom, List.range'_eq_map_range]
  apply List.map_congr_left
  intro a _
  omega

example : (dollars c!"NOT (a$5=$8 OR $t.b? IN ($9,$10) AND c IS NULL)").filter (fun x => decide (7 < x)) = numbersFrom 7 3 ∧
    dollarCond.render 7 = .ok c!"NOT (a$5=$8 OR $t.b? IN ($9,$10) AND c IS NULL)" := by decide

/-- **C02, whatever the names.**  A condition of the library on any field and any value whose values can be read: both texts are one
list of pieces, with one placeholder per value for IN and one placeholder for anything else.  So the counts agree exactly when the
condition is an IN or supplies one value (`C02_count_false` for the others). -/
theorem C02_any_names_partial (k : Kind) (b : CondBase) (fv : FieldValue) (vs : List Val)
    (hv : (Cond.fieldc k b fv).values = .ok vs) :
    ∃ ps, (Cond.fieldc k b fv).renderSQL = .ok (questionText ps) ∧
      (∀ n, (Cond.fieldc k b fv).render n = .ok (numberedText n ps)) ∧ Ended ps ∧
      holes ps = (if k = .inn then List.range vs.length else [0]) ∧
      ((holes ps).length = vs.length ↔ k = .inn ∨ vs.length = 1) := by
  have hl : ∃ ps, Says ps (fieldcRenderSQLP k b fv) (fieldcRenderP k b fv) ∧ Ended ps ∧
      holes ps = (if k = .inn then List.range vs.length else [0]) := by
    cases k
    case inn =>
      obtain ⟨ps, h, hh, he⟩ := says_in b fv.fd (fv.values.getD []).length
      have hv' : fv.values = .ok vs := hv
      exact ⟨ps, h, he, by rw [hh, hv']; rfl⟩
    case like => obtain ⟨ps, h, hh, he⟩ := says_like .like b fv.fd; exact ⟨ps, h, he, hh⟩
    case ilike => obtain ⟨ps, h, hh, he⟩ := says_like .ilike b fv.fd; exact ⟨ps, h, he, hh⟩
    all_goals
      obtain ⟨ps, h, hh, he⟩ := says_cmp _ b fv.fd
      exact ⟨ps, h, he, hh⟩
  obtain ⟨ps, ⟨h1, h2⟩, he, hh⟩ := hl
  refine ⟨ps, by rw [Cond.renderSQL_pure _ _ hv]; exact congrArg Res.ok h1,
    fun n => by rw [Cond.render_pure _ _ hv]; exact congrArg Res.ok (h2 n), he, hh, ?_⟩
  rw [hh]
  by_cases hk : k = .inn
  · simp [hk]
  · simp [hk]; omega

example : (Cond.fieldc .inn ⟨lAND, true⟩ ⟨⟨c!"$1", [], []⟩, .strs [c!"x", c!"y"]⟩).render 0 = .ok c!"$1 NOT IN ($1,$2)" ∧
    (Cond.fieldc .inn ⟨lAND, true⟩ ⟨⟨c!"$1", [], []⟩, .strs [c!"x", c!"y"]⟩).renderSQL = .ok c!"$1 NOT IN (?,?)" := by decide

end Query
