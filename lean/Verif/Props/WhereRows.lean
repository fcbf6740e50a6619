import Verif.Props.Adding
import Verif.Props.Rows
import Verif.Props.Slices
/-!
# C59, C61, C62, C64: the rows of any chain of Where calls

`Props/Adding.lean` says what a chain of Where calls means, whatever the shapes of the conditions (`whereSem`).  Here the rows a
statement returns, removes or changes: exactly those on which `whereSem` is true, also where that is not what the claim asks for
(`C64_or_false`).
-/
namespace Query

/-- The row is selected by the calls: their meaning is true on it, or there is no condition. -/
def selects (calls : List (List Cond)) (row : Row) : Bool := (whereSem row calls).getD .t == .t

/-- The group built by a chain of Where calls: empty without conditions, readable and of the meaning `whereSem` otherwise. -/
theorem where_group (row : Row) (calls : List (List Cond)) (hc : ∀ ds ∈ calls, ∀ d ∈ ds, d.Readable ∧ d.Worded) :
    let g := calls.foldl Group.groupAND (newGroup lAND [])
    if calls.flatten = [] then g.conds = [] ∧ whereSem row calls = none
    else g.toCond.Readable ∧ ∃ x, whereSem row calls = some x ∧ TextMeans g.toCond row x := by
  intro g
  split
  · rename_i hn
    refine ⟨by rw [show g = _ from foldl_where_nil _ _ hn]; rfl, ?_⟩
    have : ∀ (cs : List (List Cond)), cs.flatten = [] → cs.foldl (whereStep row) none = none := by
      intro cs
      induction cs with
      | nil => intro _; rfl
      | cons ds cs ih =>
        intro h
        simp only [List.flatten_cons, List.append_eq_nil_iff] at h
        obtain ⟨rfl, h⟩ := h
        exact ih h
    unfold whereSem
    rw [this _ hn]
    rfl
  · rename_i hne
    have H := whereHolds_calls row calls (newGroup lAND []) none ⟨rfl, rfl⟩ hc
    cases e : calls.foldl (whereStep row) none with
    | none =>
      have := whereStep_some row calls none (Or.inl hne)
      rw [e] at this; cases this
    | some s =>
      rw [e] at H
      obtain ⟨facs, noOr⟩ := s
      obtain ⟨h1, h2, h3, _⟩ := H
      have hr : g.toCond.Readable := readable_toCond.mpr h1
      refine ⟨hr, _, by unfold whereSem; rw [e]; rfl, ?_⟩
      rw [C08_exact _ row _ hr, toCond_sem row _ (by rw [h2]), h3]

/-- A chain of Where calls on a plain builder gives a plain builder, whatever the shapes of the conditions. -/
theorem plain_calls {db : Db} (q : BaseSelect) (h0 : q.where_ = newWhere) (h : PlainSelect q) (hs : q.InScope db)
    (calls : List (List Cond)) (hc : ∀ ds ∈ calls, ∀ d ∈ ds, d.Readable ∧ d.Worded)
    (hl : ∀ d ∈ calls.flatten, ∀ l ∈ d.leaves, (q.scope db).has (colRef l.col) = true) :
    PlainSelect (calls.foldl BaseSelect.addWhere q) ∧ (calls.foldl BaseSelect.addWhere q).InScope db := by
  obtain ⟨h1, h2, h3⟩ := where_same q calls
  have hg := where_base q calls
  rw [h0] at hg
  have hsc : (calls.foldl BaseSelect.addWhere q).scope db = q.scope db := by
    unfold BaseSelect.scope; rw [h2, h3]
  refine ⟨⟨by rw [h1]; exact h.fields, by rw [h2]; exact h.table, by rw [h3]; exact h.joins, ?_⟩,
    ⟨by rw [h2, h3]; exact hs.tables, by rw [h1, hsc]; exact hs.fields, ?_⟩⟩
  · unfold WhereClause.conditions
    rw [hg]
    have := where_group ⟨fun _ _ _ => .u, fun _ _ => .u, fun _ _ => .u, fun _ => false⟩ calls hc
    by_cases hne : calls.flatten = []
    · rw [if_pos hne] at this; exact .inl this.1
    · rw [if_neg hne] at this; exact .inr this.1
  · rw [hsc]
    intro l hm
    have hp := (C58_where calls q ⟨q⟩ ⟨q, 0, 0, [], false⟩ (update (.str [])) (delete (.str []))).1
    rw [h0] at hp
    rw [leaves_parts, hp] at hm
    simp only [List.flatMap_append, List.mem_append, List.mem_flatMap] at hm
    rcases hm with ⟨c, hc, _⟩ | ⟨c, ⟨d, hd, hc⟩, hlc⟩
    · simp [newWhere, newGroup, setToAll, Group.toCond, Cond.parts, Cond.partsL] at hc
    · refine hl d hd l ?_
      rw [leaves_parts]
      exact List.mem_flatMap.mpr ⟨c, hc, hlc⟩

/-- What the conditions of the built select say. -/
theorem calls_says (q : BaseSelect) (h0 : q.where_ = newWhere) (calls : List (List Cond))
    (hc : ∀ ds ∈ calls, ∀ d ∈ ds, d.Readable ∧ d.Worded) (row : Row) :
    (calls.foldl BaseSelect.addWhere q).Says row ((whereSem row calls).getD .t) := by
  have hg : (calls.foldl BaseSelect.addWhere q).where_.group = calls.foldl Group.groupAND (newGroup lAND []) := by
    rw [where_base, h0]; rfl
  have := where_group row calls hc
  unfold BaseSelect.Says WhereClause.conditions
  rw [hg]
  by_cases hne : calls.flatten = []
  · rw [if_pos hne] at this
    rw [if_pos this.1, this.2]; rfl
  · rw [if_neg hne] at this
    obtain ⟨hr, x, hx, ht⟩ := this
    rw [if_neg (readable_group.mp hr).1, hx]
    exact ht

/-- **C59, exactly.**  For any chain of Where calls with any readable conditions on a plain new builder: the statement returns
exactly the rows on which `whereSem` is true, in order, with the columns asked for. -/
theorem C59_exact (eng : Engine) (db : Db) (q : BaseSelect) (h0 : q.where_ = newWhere) (h : PlainSelect q)
    (hs : q.InScope db) (calls : List (List Cond)) (hc : ∀ ds ∈ calls, ∀ d ∈ ds, d.Readable ∧ d.Worded)
    (hl : ∀ d ∈ calls.flatten, ∀ l ∈ d.leaves, (q.scope db).has (colRef l.col) = true) :
    ∃ sql params, (calls.foldl BaseSelect.addWhere q).build = .ok (sql, params) ∧
      runQuery eng db sql params =
        some (((q.tables eng db).filter fun env => selects calls (eng.row env)).map q.wanted) := by
  obtain ⟨hp, hi⟩ := plain_calls q h0 h hs calls hc hl
  obtain ⟨sql, params, h1, h2⟩ := C59_select_partial eng db _ hp hi (fun env => (whereSem (eng.row env) calls).getD .t)
    fun env _ => calls_says q h0 calls hc _
  refine ⟨sql, params, h1, h2.trans ?_⟩
  obtain ⟨e1, e2, e3⟩ := where_same q calls
  unfold BaseSelect.matching BaseSelect.tables
  rw [e2, e3]
  congr 2
  funext env
  unfold BaseSelect.wanted
  rw [e1]

/-- **C60, exactly.**  `Count()` of such a builder returns the number of those rows. -/
theorem C60_exact (eng : Engine) (db : Db) (q : BaseSelect) (h0 : q.where_ = newWhere) (h : PlainSelect q)
    (hs : q.InScope db) (calls : List (List Cond)) (hc : ∀ ds ∈ calls, ∀ d ∈ ds, d.Readable ∧ d.Worded)
    (hl : ∀ d ∈ calls.flatten, ∀ l ∈ d.leaves, (q.scope db).has (colRef l.col) = true) :
    ∃ c csql cparams, count (calls.foldl BaseSelect.addWhere q) [] = .ok c ∧ c.build = .ok (csql, cparams) ∧
      runQuery eng db csql cparams =
        some [[(c!"count", some (.uint ((q.tables eng db).filter fun env => selects calls (eng.row env)).length))]] := by
  obtain ⟨hp, hi⟩ := plain_calls q h0 h hs calls hc hl
  obtain ⟨sql, params, rows, h1, h2, ⟨c, csql, cparams, h3, h4, h5⟩, _⟩ :=
    C60_count_partial eng db _ hp hi (fun env => (whereSem (eng.row env) calls).getD .t) fun env _ => calls_says q h0 calls hc _
  obtain ⟨sql', params', h1', h2'⟩ := C59_exact eng db q h0 h hs calls hc hl
  rw [h1] at h1'
  cases h1'
  rw [h2] at h2'
  cases h2'
  exact ⟨c, csql, cparams, h3, h4, by rw [h5, List.length_map]⟩

/-- **C64, exactly.**  One more Where call: the rows on which `whereSem` of all calls is true, which are the former ones
narrowed by the new conditions unless the conditions have shapes as in `C64_or_false`. -/
theorem C64_exact (eng : Engine) (db : Db) (q : BaseSelect) (h0 : q.where_ = newWhere) (h : PlainSelect q)
    (hs : q.InScope db) (calls : List (List Cond)) (ds : List Cond)
    (hc : ∀ es ∈ calls ++ [ds], ∀ d ∈ es, d.Readable ∧ d.Worded)
    (hl : ∀ d ∈ calls.flatten ++ ds, ∀ l ∈ d.leaves, (q.scope db).has (colRef l.col) = true) :
    ∃ sql params sql' params', (calls.foldl BaseSelect.addWhere q).build = .ok (sql, params) ∧
      ((calls.foldl BaseSelect.addWhere q).addWhere ds).build = .ok (sql', params') ∧
      runQuery eng db sql params =
        some (((q.tables eng db).filter fun env => selects calls (eng.row env)).map q.wanted) ∧
      runQuery eng db sql' params' =
        some (((q.tables eng db).filter fun env => selects (calls ++ [ds]) (eng.row env)).map q.wanted) := by
  obtain ⟨sql, params, h1, h2⟩ := C59_exact eng db q h0 h hs calls (fun es he => hc es (by simp [he]))
    (fun d hd => hl d (by simp [hd]))
  obtain ⟨sql', params', h3, h4⟩ := C59_exact eng db q h0 h hs (calls ++ [ds]) hc (fun d hd => hl d (by simpa using hd))
  exact ⟨sql, params, sql', params', h1, by simpa using h3, h2, h4⟩

theorem calls_delete (calls : List (List Cond)) (d : DeleteB) :
    (calls.foldl DeleteB.addWhere d).where_ = calls.foldl Group.groupAND d.where_ ∧
    (calls.foldl DeleteB.addWhere d).tableName = d.tableName := by
  induction calls generalizing d with
  | nil => exact ⟨rfl, rfl⟩
  | cons ds calls ih => exact ih (d.addWhere ds)

theorem calls_update (calls : List (List Cond)) (u : UpdateB) :
    (calls.foldl UpdateB.addWhere u).where_ = calls.foldl Group.groupAND u.where_ ∧
    (calls.foldl UpdateB.addWhere u).tableName = u.tableName ∧ (calls.foldl UpdateB.addWhere u).setValues = u.setValues := by
  induction calls generalizing u with
  | nil => exact ⟨rfl, rfl, rfl⟩
  | cons ds calls ih => exact ih (u.addWhere ds)

/-- The comparisons of the group built by a chain of calls are those of the conditions. -/
theorem leaves_of_calls (calls : List (List Cond)) (l : Leaf) (hm : l ∈ (calls.foldl Group.groupAND (newGroup lAND [])).toCond.leaves) :
    ∃ d ∈ calls.flatten, l ∈ d.leaves := by
  have hp := (C58_where calls ⟨doSelect, ⟨[], []⟩, [], ⟨[]⟩, newWhere⟩ ⟨⟨doSelect, ⟨[], []⟩, [], ⟨[]⟩, newWhere⟩⟩
    ⟨⟨doSelect, ⟨[], []⟩, [], ⟨[]⟩, newWhere⟩, 0, 0, [], false⟩ (update (.str [])) (delete (.str []))).1
  rw [where_base] at hp
  rw [leaves_parts, show newGroup lAND [] = newWhere.group from rfl, hp] at hm
  simp only [List.flatMap_append, List.mem_append, List.mem_flatMap] at hm
  rcases hm with ⟨c, hc, _⟩ | ⟨c, ⟨d, hd, hc⟩, hlc⟩
  · simp [newWhere, newGroup, setToAll, Group.toCond, Cond.parts, Cond.partsL] at hc
  · refine ⟨d, hd, ?_⟩
    rw [leaves_parts]
    exact List.mem_flatMap.mpr ⟨c, hc, hlc⟩

/-- **C61, exactly.**  For any chain of Where calls with any readable conditions, at least one, on a new DELETE builder: exactly
the rows on which `whereSem` is true are removed, and all else stays. -/
theorem C61_exact (eng : Engine) (db : Db) (t : Str) (ht : PlainName t) (calls : List (List Cond))
    (hc : ∀ ds ∈ calls, ∀ d ∈ ds, d.Readable ∧ d.Worded) (hne : calls.flatten ≠ [])
    (hl : ∀ d ∈ calls.flatten, ∀ l ∈ d.leaves, Scope.has [(t, (db t).cols)] (colRef l.col) = true) :
    ∃ sql params, (calls.foldl DeleteB.addWhere (delete (.str t))).build = .ok (sql, params) ∧
      runStmt eng db sql params = some (db.set t ((db t).withRows ((db t).rows.filter fun r =>
        !selects calls (eng.row ((db t).env t r))))) := by
  obtain ⟨w1, w2⟩ := calls_delete calls (delete (.str t))
  have w2' : (calls.foldl DeleteB.addWhere (delete (.str t))).tableName = t := w2
  have w1' : (calls.foldl DeleteB.addWhere (delete (.str t))).where_ = calls.foldl Group.groupAND (newGroup lAND []) := w1
  have hg := fun row => by have := where_group row calls hc; rw [if_neg hne] at this; exact this
  have := C61_delete_partial eng db (calls.foldl DeleteB.addWhere (delete (.str t))) (by rw [w2']; exact ht)
    (by rw [w1']; exact (hg ⟨fun _ _ _ => .u, fun _ _ => .u, fun _ _ => .u, fun _ => false⟩).1)
    (by
      rw [w1', w2']
      intro l hm
      obtain ⟨d, hd, hm⟩ := leaves_of_calls calls l hm
      exact hl d hd l hm)
    (fun r => (whereSem (eng.row ((db t).env t r)) calls).getD .t)
    (by
      rw [w1', w2']
      intro r _
      obtain ⟨_, x, hx, hm⟩ := hg (eng.row ((db t).env t r))
      rw [hx]
      exact hm)
  rw [w2'] at this
  exact this

/-- **C62, exactly.**  For any such chain on a new UPDATE builder with values to set, `vss` being what their `Values()` return and none empty: exactly the rows on which `whereSem` is true
are changed, each column to the first of its values, and all else stays. -/
theorem C62_where_exact (eng : Engine) (db : Db) (t : Str) (ht : PlainName t) (sets : List FieldValue) (vss : List (List Val))
    (hs : sets ≠ []) (hf : ∀ fv ∈ sets, PlainIdent fv.fd.fieldName)
    (hv : sets.map FieldValue.values = vss.map .ok) (hev : [] ∉ vss) (hnd : (sets.map fun fv => fv.fd.fieldName).Nodup)
    (hin : ∀ fv ∈ sets, fv.fd.fieldName ∈ (db t).cols) (calls : List (List Cond))
    (hc : ∀ ds ∈ calls, ∀ d ∈ ds, d.Readable ∧ d.Worded) (hne : calls.flatten ≠ [])
    (hl : ∀ d ∈ calls.flatten, ∀ l ∈ d.leaves, Scope.has [(t, (db t).cols)] (colRef l.col) = true) :
    ∃ sql params, (calls.foldl UpdateB.addWhere { update (.str t) with setValues := sets }).build = .ok (sql, params) ∧
      runStmt eng db sql params = some (db.set t ((db t).withRows ((db t).rows.map fun r =>
        if selects calls (eng.row ((db t).env t r)) then setCols (sets.map fun fv => fv.fd.fieldName) (vss.filterMap List.head?) r else r))) := by
  obtain ⟨w1, w2, w3⟩ := calls_update calls { update (.str t) with setValues := sets }
  generalize hu : calls.foldl UpdateB.addWhere { update (.str t) with setValues := sets } = u at *
  have w2' : u.tableName = t := w2
  have w3' : u.setValues = sets := w3
  have w1' : u.where_ = calls.foldl Group.groupAND (newGroup lAND []) := w1
  have hg := fun row => by have := where_group row calls hc; rw [if_neg hne] at this; exact this
  have := C62_exact eng db u vss (by rw [w3']; exact hs) (by rw [w2']; exact ht) (by rw [w3']; exact hf)
    (by rw [w3']; exact hv) hev
    (by rw [w1']; exact (hg ⟨fun _ _ _ => .u, fun _ _ => .u, fun _ _ => .u, fun _ => false⟩).1)
    (by
      rw [w1', w2']
      intro l hm
      obtain ⟨d, hd, hm⟩ := leaves_of_calls calls l hm
      exact hl d hd l hm)
    (by rw [w3']; exact hnd) (by rw [w3', w2']; exact hin)
    (fun r => (whereSem (eng.row ((db t).env t r)) calls).getD .t)
    (by
      rw [w1', w2']
      intro r _
      obtain ⟨_, x, hx, hm⟩ := hg (eng.row ((db t).env t r))
      rw [hx]
      exact hm)
  rw [w2', w3'] at this
  simpa [selects] using this

/-- **C65, exactly.**  For any such chain on a single-builder and on a many-builder with any order, offset and limit: the first of
these rows, and the page of these rows sorted. -/
theorem C65_exact (eng : Engine) (db : Db) (s : SelectSingle) (m : SelectMany) (q : BaseSelect) (hsb : s.base = q) (hmb : m.base = q)
    (h0 : q.where_ = newWhere) (h : PlainSelect q) (hs : q.InScope db)
    (ho : ∀ o ∈ m.order, PlainKey o ∧ q.KeyInScope db o)
    (calls : List (List Cond)) (hc : ∀ ds ∈ calls, ∀ d ∈ ds, d.Readable ∧ d.Worded)
    (hl : ∀ d ∈ calls.flatten, ∀ l ∈ d.leaves, (q.scope db).has (colRef l.col) = true) :
    let rows := (q.tables eng db).filter fun env => selects calls (eng.row env)
    (∃ sql params, (calls.foldl SelectSingle.addWhere s).build = .ok (sql, params) ∧
      runQuery eng db sql params = some ((rows.take 1).map q.wanted)) ∧
    (∃ sql params, (calls.foldl SelectMany.addWhere m).build = .ok (sql, params) ∧
      runQuery eng db sql params = some ((page m.offset m.limit (sortedBy eng m.order rows)).map q.wanted)) := by
  intro rows
  obtain ⟨hp, hi⟩ := plain_calls q h0 h hs calls hc hl
  obtain ⟨e1, e2, e3⟩ := where_same q calls
  have hb1 := where_single_base s calls
  have hb2 := where_many_base m calls
  rw [hsb] at hb1
  rw [hmb] at hb2
  have hm : ∀ (ms : List (List Cond)) (m : SelectMany), let m' := ms.foldl SelectMany.addWhere m
      m'.order = m.order ∧ m'.offset = m.offset ∧ m'.limit = m.limit := by
    intro ms
    induction ms with
    | nil => intro m; exact ⟨rfl, rfl, rfl⟩
    | cons ds ms ih => intro m; exact ih (m.addWhere ds)
  obtain ⟨m1, m2, m3⟩ := hm calls m
  have hwant : (calls.foldl BaseSelect.addWhere q).wanted = q.wanted := by
    funext env; unfold BaseSelect.wanted; rw [e1]
  have hmat : (calls.foldl BaseSelect.addWhere q).matching eng db (fun env => (whereSem (eng.row env) calls).getD .t) = rows := by
    unfold BaseSelect.matching BaseSelect.tables
    rw [e2, e3]
    rfl
  constructor
  · have := C59_single_partial eng db (calls.foldl SelectSingle.addWhere s) (by rw [hb1]; exact hp) (by rw [hb1]; exact hi)
      (fun env => (whereSem (eng.row env) calls).getD .t) (by rw [hb1]; exact fun env _ => calls_says q h0 calls hc _)
    rw [hb1, hmat, hwant] at this
    exact this
  · have := C59_many_partial eng db (calls.foldl SelectMany.addWhere m) (by rw [hb2]; exact hp) (by rw [hb2]; exact hi)
      (by
        rw [hb2, m1]
        intro o hm
        refine ⟨(ho o hm).1, ?_⟩
        have := (ho o hm).2
        unfold BaseSelect.KeyInScope BaseSelect.scope at this ⊢
        rw [e1, e2, e3]
        exact this)
      (fun env => (whereSem (eng.row env) calls).getD .t) (by rw [hb2]; exact fun env _ => calls_says q h0 calls hc _)
    rw [hb2, hmat, hwant, m1, m2, m3] at this
    exact this

/-! ## Examples and witnesses -/

/-- The builder of the examples before its Where call. -/
def exAll : BaseSelect := ⟨doSelect, ⟨c!"t", []⟩, [], ⟨[⟨c!"id", [], []⟩]⟩, newWhere⟩

/-- `id = 3`. -/
def exId3 : Cond := .fieldc .eq ⟨lAND, false⟩ ⟨⟨c!"id", [], []⟩, .other 3⟩

/-- The chain of `C64_or_false`: it meets the hypotheses, and `whereSem` says which rows it selects. -/
example : (∀ ds ∈ [[orC (exA7 []) [exId3]], [exId3]], ∀ d ∈ ds, d.Readable ∧ d.Worded) ∧
    (∀ d ∈ [[orC (exA7 []) [exId3]], [exId3]].flatten, ∀ l ∈ d.leaves, (exAll.scope exDb).has (colRef l.col) = true) ∧
    ((exAll.tables exEng exDb).map fun env => selects [[orC (exA7 []) [exId3]], [exId3]] (exEng.row env)) = [true, true, true] ∧
    ((exAll.tables exEng exDb).map fun env => selects [[exId3], [orC (exA7 []) [exId3]]] (exEng.row env)) = [false, false, true] ∧
    ((exAll.tables exEng exDb).map fun env => selects [[], []] (exEng.row env)) = [true, true, true] := by
  have pa : PlainName c!"a" := by refine ⟨?_, ?_, ?_⟩ <;> decide
  have pi : PlainName c!"id" := by refine ⟨?_, ?_, ?_⟩ <;> decide
  have ra : (exA7 []).Readable := ⟨⟨.inl rfl, pa⟩, .other 7, rfl⟩
  have ri : exId3.Readable := ⟨⟨.inl rfl, pi⟩, .other 3, rfl⟩
  refine ⟨fun ds hds d hd => ?_, ?_, rfl, rfl, rfl⟩
  · simp only [List.mem_cons, List.not_mem_nil, or_false] at hds
    rcases hds with rfl | rfl <;> simp only [List.mem_cons, List.not_mem_nil, or_false] at hd <;> subst hd
    · exact ⟨pair_readable ra ri (Or.inr rfl), .inr rfl, .inr rfl⟩
    · exact ⟨ri, .inl rfl⟩
  · intro d hd l hl
    have hs : [[orC (exA7 []) [exId3]], [exId3]].flatten = [orC (exA7 []) [exId3], exId3] := rfl
    rw [hs] at hd
    simp only [List.mem_cons, List.not_mem_nil, or_false] at hd
    have e1 : (orC (exA7 []) [exId3]).leaves = [⟨c!"=", c!"a", [.other 7]⟩, ⟨c!"=", c!"id", [.other 3]⟩] := rfl
    have e2 : exId3.leaves = [⟨c!"=", c!"id", [.other 3]⟩] := rfl
    rcases hd with rfl | rfl
    · rw [e1] at hl
      simp only [List.mem_cons, List.not_mem_nil, or_false] at hl
      rcases hl with rfl | rfl <;> decide
    · rw [e2] at hl
      simp only [List.mem_cons, List.not_mem_nil, or_false] at hl
      subst hl
      decide

/-- **C59 is false** for a condition on a column with an alias: the text has an AS in its WHERE clause and no database runs it,
although two rows meet the condition. -/
theorem C59_alias_false :
    let q := exAll.addWhere [.fieldc .eq ⟨lAND, false⟩ ⟨⟨c!"a", [], c!"x"⟩, .other 7⟩]
    q.build = .ok (c!"SELECT id FROM t WHERE a AS x=$1", [.other 7]) ∧
    runBuilt exEng exDb q.build = none := ⟨rfl, rfl⟩

/-- The cells of id and a in `t` after a statement. -/
def cellsAfter (eng : Engine) (db : Db) (r : Res (Str × List Val)) : Option (List (Cell × Cell)) :=
  match r with
  | .ok (sql, params) => (runStmt eng db sql params).map fun db' => (db' c!"t").rows.map fun r => (r c!"id", r c!"a")
  | _ => none

/-- **C62 is false** with joins: the select returns one row, its UPDATE changes both rows with `a = 7`. -/
theorem C62_join_false :
    let q : BaseSelect := BaseSelect.addWhere ⟨doSelect, ⟨c!"t", []⟩, [⟨⟨c!"u", []⟩, innerJoin, ⟨⟨c!"id", c!"t", []⟩, ⟨c!"tid", c!"u", []⟩⟩⟩],
      ⟨[⟨c!"id", [], []⟩]⟩, newWhere⟩ [exA7 []]
    runBuilt exEng exDb q.build = some [[(c!"id", some (.other 1))]] ∧
    cellsAfter exEng exDb (q.update [⟨⟨c!"a", [], []⟩, .other 9⟩]).build =
      some [(some (.other 1), some (.other 9)), (some (.other 2), some (.other 9)), (some (.other 3), none)] := ⟨rfl, rfl⟩

/-- **C62 is false** for a table with alias: the UPDATE names the alias, which it does not introduce, and fails. -/
theorem C62_alias_false :
    let q : BaseSelect := BaseSelect.addWhere ⟨doSelect, ⟨c!"t", c!"x"⟩, [], ⟨[⟨c!"id", [], []⟩]⟩, newWhere⟩ [exA7 c!"x"]
    runBuilt exEng exDb q.build = some [[(c!"id", some (.other 1))], [(c!"id", some (.other 2))]] ∧
    (q.update [⟨⟨c!"a", [], []⟩, .other 9⟩]).build = .ok (c!"UPDATE t SET a=$1 WHERE x.a=$2", [.other 9, .other 7]) ∧
    cellsAfter exEng exDb (q.update [⟨⟨c!"a", [], []⟩, .other 9⟩]).build = none := ⟨rfl, rfl, rfl⟩

/-- **C62 is false** for limits: a single-builder selects one row, its UPDATE changes both matching rows. -/
theorem C62_single_false :
    runBuilt exEng exDb (SelectSingle.mk exSel).build = some [[(c!"id", some (.other 1))]] ∧
    cellsAfter exEng exDb ((SelectSingle.mk exSel).update [⟨⟨c!"a", [], []⟩, .other 9⟩]).build =
      some [(some (.other 1), some (.other 9)), (some (.other 2), some (.other 9)), (some (.other 3), none)] := ⟨rfl, rfl⟩

/-- **C62 is false** with a slice among the values: the column is set to the first element. -/
theorem C62_slice_false :
    cellsAfter exEng exDb (exSel.update [⟨⟨c!"a", [], []⟩, .strs [c!"p", c!"q"]⟩]).build =
      some [(some (.other 1), some (.str c!"p")), (some (.other 2), some (.str c!"p")), (some (.other 3), none)] := rfl

/-- **C63 is false** with a slice among the values: the row added holds the last element. -/
theorem C63_slice_false :
    (cellsAfter exEng exDb ((insertInto (.str c!"t")).addValues [⟨⟨c!"id", [], []⟩, .strs [c!"p", c!"q"]⟩]).build).map (·.getLast?) =
      some (some (some (.str c!"q"), none)) := rfl

end Query
