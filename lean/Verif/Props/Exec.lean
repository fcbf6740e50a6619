import Verif.Proof.Exec
import Verif.Proof.Sort
import Verif.Props.Reads
import Verif.Props.Parts
/-!
# C59–C65: what the statements do in a database

The text a builder gives is read by `readStmt` and run by the rules of `Spec/Exec.lean`, with its parameters bound.  What the
caller wants is said on the content of the builder (`Spec/Intent.lean`).
-/
namespace Query

/-! ## C59: SELECT -/

/-- **C59, what holds.**  Running the text of a base builder returns, in the order of the tables, one row for each joined row
on which its conditions hold, with the columns asked for.

Missing for the full claim: builders that are not plain (`PlainSelect`, see `C22_join_false` and `C22_alias_false`). -/
theorem C59_select_partial (eng : Engine) (db : Db) (q : BaseSelect) (h : PlainSelect q) (hs : q.InScope db) (y : Env → Tri)
    (hy : ∀ env ∈ q.tables eng db, q.Says (eng.row env) (y env)) :
    ∃ sql params, q.build = .ok (sql, params) ∧
      runQuery eng db sql params = some ((q.matching eng db y).map q.wanted) := by
  obtain ⟨sql, params, w, h1, h2, h3⟩ := C22_base_partial q h
  refine ⟨sql, params, h1, ?_⟩
  simp only [runQuery, h2]
  rw [run_cols eng db params q w [] none none none none y hs h3 hy rfl rfl rfl, List.map_nil, sortRows_nil]
  rfl

/-- **C59, what holds**, single row: at most the first of these rows.  Missing: as in `C59_select_partial`. -/
theorem C59_single_partial (eng : Engine) (db : Db) (q : SelectSingle) (h : PlainSelect q.base) (hs : q.base.InScope db)
    (y : Env → Tri) (hy : ∀ env ∈ q.base.tables eng db, q.base.Says (eng.row env) (y env)) :
    ∃ sql params, q.build = .ok (sql, params) ∧
      runQuery eng db sql params = some (((q.base.matching eng db y).take 1).map q.base.wanted) := by
  obtain ⟨sql, params, w, h1, h2, h3⟩ := C22_single_partial q h
  refine ⟨sql, params, h1, ?_⟩
  simp only [runQuery, h2]
  rw [run_cols eng db params q.base w [] none _ none (some 1) y hs h3 hy rfl rfl rfl, List.map_nil, sortRows_nil]
  rfl

/-- **C59, what holds**, many rows: these rows sorted by the fields asked for, without the first `offset`, at most `limit`.
Missing: as in `C59_select_partial`; a limit of 0 is no limit (`C65_limit_zero_false`). -/
theorem C59_many_partial (eng : Engine) (db : Db) (q : SelectMany) (h : PlainSelect q.base) (hs : q.base.InScope db)
    (ho : ∀ o ∈ q.order, PlainKey o ∧ q.base.KeyInScope db o) (y : Env → Tri)
    (hy : ∀ env ∈ q.base.tables eng db, q.base.Says (eng.row env) (y env)) :
    ∃ sql params, q.build = .ok (sql, params) ∧
      runQuery eng db sql params =
        some ((page q.offset q.limit (sortedBy eng q.order (q.base.matching eng db y))).map q.base.wanted) := by
  obtain ⟨sql, params, w, off, lim, h1, h2, h3, h4, h5⟩ := C22_many_partial q h fun o hm => (ho o hm).1
  refine ⟨sql, params, h1, ?_⟩
  simp only [runQuery, h2]
  have hord : (q.order.map fun o => (o.fd.key, o.direction)).all
      (fun k => (q.base.scope db).has (keyCol q.base.fields.refs k.1)) = true := by
    rw [List.all_eq_true]
    intro k hk
    obtain ⟨o, hm, rfl⟩ := List.mem_map.mp hk
    simp only [(ho o hm).2.1, (ho o hm).2.2]
  rw [run_cols eng db params q.base w _ off lim _ _ y hs h3 hy hord (rowsRead_num h4) (rowsRead_num h5), window_page]
  have hk : ((q.order.map fun o => (o.fd.key, o.direction)).map fun k => (keyCol q.base.fields.refs k.1, k.2)) =
      q.order.map fun o => (o.fd.ref, o.direction) := by
    rw [List.map_map]
    exact List.map_congr_left fun o hm => by simp [(ho o hm).2.1]
  rw [hk]
  rfl

/-- The truth value of the caller's condition tree. -/
def BaseSelect.truth (q : BaseSelect) (row : Row) : Tri :=
  if q.where_.conditions = [] then .t else q.where_.group.toCond.means row

/-- The hypothesis on the conditions holds with the meaning of the tree, if the brackets of the text agree with it. -/
theorem C59_says_tree_partial (q : BaseSelect) (h : PlainSelect q) (hs : q.where_.group.toCond.safe = true) (row : Row) :
    q.Says row (q.truth row) := by
  unfold BaseSelect.Says BaseSelect.truth
  split
  · rfl
  · rename_i hn
    have hr : q.where_.group.toCond.Readable := h.cond.resolve_left hn
    intro k
    exact C08_meaning_partial _ k row hr hs

theorem foldl_where_nil (g : Group) (calls : List (List Cond)) (h : calls.flatten = []) :
    calls.foldl Group.groupAND g = g := by
  induction calls with
  | nil => rfl
  | cons ds calls ih =>
    simp only [List.flatten_cons, List.append_eq_nil_iff] at h
    obtain ⟨rfl, h⟩ := h
    exact ih h

theorem foldl_where_ne (calls : List (List Cond)) (hw : whereCalls calls = true)
    (hc : ∀ d ∈ calls.flatten, d.Readable) (hne : calls.flatten ≠ []) (g : Group) (h0 : g.conds = [])
    (h1 : g.base.negate = false) : (calls.foldl Group.groupAND g).toCond.Readable := by
  have row : Row := ⟨fun _ _ _ => .u, fun _ _ => .u, fun _ _ => .u, fun _ => false⟩
  exact readable_toCond.mpr (where_calls row calls g h0 h1
    (fun ds hd c h => hc c (List.mem_flatten.mpr ⟨ds, hd, h⟩)) hw hne).read

/-- The hypothesis on the conditions holds for a chain of Where calls, with the conjunction of all conditions, for calls of the
shapes `whereCalls` (see C12). -/
theorem C59_says_where_partial (q : BaseSelect) (h0 : q.where_ = newWhere) (calls : List (List Cond)) (row : Row) (y : Cond → Tri)
    (hc : ∀ d ∈ calls.flatten, d.Readable ∧ TextMeans d row (y d)) (hw : whereCalls calls = true) :
    (calls.foldl BaseSelect.addWhere q).Says row (allOf (calls.flatten.map y)) := by
  have hg := where_base q calls
  rw [h0] at hg
  unfold BaseSelect.Says WhereClause.conditions
  rw [hg]
  by_cases hne : calls.flatten = []
  · rw [foldl_where_nil _ _ hne, hne]
    rfl
  · have hr := foldl_where_ne calls hw (fun d hd => (hc d hd).1) hne newWhere.group rfl rfl
    rw [if_neg (readable_group.mp hr).1]
    exact where_means calls row y rfl rfl (fun ds hd d h => hc d (List.mem_flatten.mpr ⟨ds, hd, h⟩)) hw hne

theorem where_same (q : BaseSelect) (calls : List (List Cond)) :
    let p := calls.foldl BaseSelect.addWhere q
    p.fields = q.fields ∧ p.baseTable = q.baseTable ∧ p.joins = q.joins := by
  induction calls generalizing q with
  | nil => exact ⟨rfl, rfl, rfl⟩
  | cons ds calls ih => exact ih (q.addWhere ds)

theorem allOf_t (l : List Tri) : (allOf l == .t) = l.all (· == .t) := by
  induction l with
  | nil => rfl
  | cons x l ih =>
    simp only [allOf, List.foldr_cons, List.all_cons] at ih ⊢
    rw [← ih]
    cases x <;> cases List.foldr Tri.and .t l <;> rfl

/-- A chain of Where calls on a plain builder gives a plain builder. -/
theorem plain_where {db : Db} (q : BaseSelect) (h0 : q.where_ = newWhere) (h : PlainSelect q) (hs : q.InScope db)
    (calls : List (List Cond)) (hw : whereCalls calls = true) (hr : ∀ d ∈ calls.flatten, d.Readable)
    (hl : ∀ d ∈ calls.flatten, ∀ l ∈ d.leaves, (q.scope db).has (colRef l.col) = true) :
    PlainSelect (calls.foldl BaseSelect.addWhere q) ∧ (calls.foldl BaseSelect.addWhere q).InScope db := by
  obtain ⟨h1, h2, h3⟩ := where_same q calls
  have hg := where_base q calls
  rw [h0] at hg
  have hsc : (calls.foldl BaseSelect.addWhere q).scope db = q.scope db := by
    unfold BaseSelect.scope; rw [h2, h3]
  refine ⟨⟨by rw [h1]; exact h.fields, by rw [h2]; exact h.table, by rw [h3]; exact h.joins, ?_⟩,
    ⟨by rw [h2, h3]; exact hs.tables, by rw [h1, hsc]; exact hs.fields, ?_⟩⟩
  · unfold WhereClause.conditions
    rw [hg]
    by_cases hne : calls.flatten = []
    · left; rw [foldl_where_nil _ _ hne]; rfl
    · right; exact foldl_where_ne calls hw hr hne _ rfl rfl
  · rw [hsc]
    intro l hm
    have hp := (C58_where calls q ⟨q⟩ ⟨q, 0, 0, [], false⟩ (update (.str [])) (delete (.str []))).1
    rw [h0] at hp
    rw [leaves_parts, hp] at hm
    simp only [List.flatMap_append, List.mem_append, List.mem_flatMap] at hm
    rcases hm with ⟨c, hc, _⟩ | ⟨c, ⟨d, hd, hc⟩, hlc⟩
    · simp [newWhere, newGroup, setToAll, Group.toCond, Cond.parts, Cond.partsL] at hc
    · refine hl d hd l ?_
      rw [leaves_parts]
      exact List.mem_flatMap.mpr ⟨c, hc, hlc⟩

/-- **C59, what holds**, for chains of Where calls: the rows on which every condition of every call holds.  Missing: as in
`C59_select_partial` and in `C12_where_partial`. -/
theorem C59_where_partial (eng : Engine) (db : Db) (q : BaseSelect) (h0 : q.where_ = newWhere) (h : PlainSelect q)
    (hs : q.InScope db) (calls : List (List Cond)) (hw : whereCalls calls = true) (y : Cond → Env → Tri)
    (hc : ∀ d ∈ calls.flatten, d.Readable ∧ ∀ env, TextMeans d (eng.row env) (y d env))
    (hl : ∀ d ∈ calls.flatten, ∀ l ∈ d.leaves, (q.scope db).has (colRef l.col) = true) :
    ∃ sql params, (calls.foldl BaseSelect.addWhere q).build = .ok (sql, params) ∧
      runQuery eng db sql params =
        some (((q.tables eng db).filter fun env => calls.flatten.all fun d => y d env == .t).map q.wanted) := by
  obtain ⟨hp, hi⟩ := plain_where q h0 h hs calls hw (fun d hd => (hc d hd).1) hl
  obtain ⟨sql, params, h1, h2⟩ := C59_select_partial eng db _ hp hi (fun env => allOf (calls.flatten.map (y · env)))
    fun env _ => C59_says_where_partial q h0 calls _ _ (fun d hd => ⟨(hc d hd).1, (hc d hd).2 env⟩) hw
  refine ⟨sql, params, h1, h2.trans ?_⟩
  obtain ⟨e1, e2, e3⟩ := where_same q calls
  unfold BaseSelect.matching BaseSelect.tables
  rw [e2, e3]
  have : ∀ env, (allOf (calls.flatten.map (y · env)) == .t) = calls.flatten.all fun d => y d env == .t := fun env => by
    rw [allOf_t, List.all_map]; rfl
  simp only [this]
  congr 2
  funext env
  unfold BaseSelect.wanted
  rw [e1]

/-! ## C60: COUNT -/

/-- **C60, what holds.**  `Count()` returns one number, the number of rows the builder returns without order and limits;
`Count(f)` the number of those rows in which `f` is not NULL.

Missing for the full claim: as in `C59_select_partial`. -/
theorem C60_count_partial (eng : Engine) (db : Db) (q : BaseSelect) (h : PlainSelect q) (hs : q.InScope db) (y : Env → Tri)
    (hy : ∀ env ∈ q.tables eng db, q.Says (eng.row env) (y env)) :
    ∃ sql params rows, q.build = .ok (sql, params) ∧ runQuery eng db sql params = some rows ∧
      (∃ c csql cparams, count q [] = .ok c ∧ c.build = .ok (csql, cparams) ∧
        runQuery eng db csql cparams = some [[(c!"count", some (.uint rows.length))]]) ∧
      (∀ f fs fd, field f = .ok fd → KeyDef fd → (q.scope db).has fd.key = true → fd.key ≠ star →
        ∃ c csql cparams, count q (f :: fs) = .ok c ∧ c.build = .ok (csql, cparams) ∧
          runQuery eng db csql cparams =
            some [[(c!"count", some (.uint ((q.matching eng db y).filter fun env => (env.get fd.key).isSome).length))]]) := by
  obtain ⟨sql, params, h1, h2⟩ := C59_select_partial eng db q h hs y hy
  have star_plain : CountDef ⟨c!"*", [], []⟩ := ⟨⟨by decide, by decide⟩, by decide⟩
  refine ⟨sql, params, _, h1, h2, ?_, ?_⟩
  · obtain ⟨csql, cparams, w, c1, c2, c3⟩ := C22_count_partial ⟨q, ⟨c!"*", [], []⟩⟩ h star_plain
    refine ⟨_, csql, cparams, rfl, c1, ?_⟩
    simp only [runQuery, c2]
    rw [run_count eng db cparams q w (FieldDef.key ⟨c!"*", [], []⟩) y hs.tables hs.cond c3 hy (.inl (by decide : FieldDef.key ⟨c!"*", [], []⟩ = star))]
    have : countRows (FieldDef.key ⟨c!"*", [], []⟩) (q.matching eng db y) = (q.matching eng db y).length := if_pos rfl
    rw [this, List.length_map]
  · intro f fs fd hf hp hk hn
    obtain ⟨csql, cparams, w, c1, c2, c3⟩ := C22_count_partial ⟨q, fd⟩ h hp.count
    refine ⟨⟨q, fd⟩, csql, cparams, by simp [count, hf], c1, ?_⟩
    simp only [runQuery, c2]
    rw [run_count eng db cparams q w _ y hs.tables hs.cond c3 hy (.inr hk)]
    rw [countRows, if_neg hn]

/-! ## C61: DELETE -/

/-- **C61, what holds.**  Running the text of a DELETE builder removes from its table exactly the rows on which its condition
holds, and leaves all else as it is.

Missing for the full claim: as in `C46_delete_partial`. -/
theorem C61_delete_partial (eng : Engine) (db : Db) (d : DeleteB) (ht : PlainName d.tableName) (hc : d.where_.toCond.Readable)
    (hl : ∀ l ∈ d.where_.toCond.leaves, Scope.has [(d.tableName, (db d.tableName).cols)] (colRef l.col) = true)
    (y : Rec → Tri)
    (hy : ∀ r ∈ (db d.tableName).rows, TextMeans d.where_.toCond (eng.row ((db d.tableName).env d.tableName r)) (y r)) :
    ∃ sql params, d.build = .ok (sql, params) ∧
      runStmt eng db sql params = some (db.set d.tableName
        ((db d.tableName).withRows ((db d.tableName).rows.filter fun r => !(y r == .t)))) := by
  obtain ⟨sql, params, e, h1, h2, h3⟩ := C46_delete_partial d ht hc
  refine ⟨sql, params, h1, ?_⟩
  simp only [runStmt, h2, Stmt.run]
  rw [if_pos (condRead_cols h3 hl)]
  congr 3
  refine List.filter_congr fun r hr => ?_
  rw [holdsOn, h3.means _ _ (hy r hr)]

/-- What a builder over one table without alias selects. -/
theorem one_table {b : BaseSelect} (eng : Engine) (db : Db) (hj : b.joins = [])
    (ha : b.baseTable.alias = [] ∨ b.baseTable.alias = b.baseTable.name) :
    b.tables eng db = (db b.baseTable.name).rows.map ((db b.baseTable.name).env b.baseTable.name) ∧
      b.scope db = [(b.baseTable.name, (db b.baseTable.name).cols)] := by
  have hq : b.baseTable.ref = ⟨b.baseTable.name, none⟩ := by
    unfold TableIdent.ref optStr
    rcases ha with h | h
    · rw [h]; split <;> simp_all
    · rw [if_pos h]
  unfold BaseSelect.tables BaseSelect.scope fromRows fromScope
  rw [hj, hq]
  simp [joinRows, TabRef.srcs, TabRef.qual, Tab.env, Function.comp_def]

theorem toCond_base (g : Group) (j : Str) (c : Cond)
    (h : c = ({ g with base := ⟨j, false⟩ } : Group).toCond) (hn : g.base.negate = false) :
    (g.toCond.Readable → c.Readable) ∧ c.leaves = g.toCond.leaves ∧ ∀ row x, TextMeans g.toCond row x → TextMeans c row x := by
  obtain ⟨⟨j', neg⟩, cs, br⟩ := g
  simp only at hn
  subst hn h
  exact ⟨fun h => h, rfl, fun row x h => h⟩

theorem set_same (db : Db) (t : Str) (tab : Tab) : (db.set t tab) t = tab := if_pos rfl

/-- **C61, what holds**, derived from a select over one table: exactly the rows the select selects are removed, and the select
then selects nothing.

Missing for the full claim: as in `C59_select_partial` and `C61_delete_partial`; selects with joins or a table alias
(`C61_join_false`, `C61_alias_false`) and with limits (`C61_single_false`). -/
theorem C61_derived_partial (eng : Engine) (db : Db) (b : BaseSelect) (hb : b.Api) (h : PlainSelect b) (hs : b.InScope db)
    (hj : b.joins = []) (ha : b.baseTable.alias = [] ∨ b.baseTable.alias = b.baseTable.name)
    (hc : b.where_.conditions ≠ []) (y : Env → Tri) (hy : ∀ env, b.Says (eng.row env) (y env)) :
    let t := b.baseTable.name
    ∃ sql params dsql dparams db', b.build = .ok (sql, params) ∧ b.delete.build = .ok (dsql, dparams) ∧
      (∀ s : SelectSingle, s.base = b → s.delete.build = .ok (dsql, dparams)) ∧
      (∀ m : SelectMany, m.base = b → m.delete.build = .ok (dsql, dparams)) ∧
      runQuery eng db sql params =
        some (((db t).rows.filter fun r => y ((db t).env t r) == .t).map fun r => b.wanted ((db t).env t r)) ∧
      runStmt eng db dsql dparams = some db' ∧
      (db' t).rows = ((db t).rows.filter fun r => !(y ((db t).env t r) == .t)) ∧ (db' t).cols = (db t).cols ∧
      (∀ u, u ≠ t → db' u = db u) ∧ runQuery eng db' sql params = some [] := by
  intro t
  have hpw := plainWhere_api hb
  obtain ⟨j, hd⟩ := derived_where _ hpw
  have hr : b.where_.group.toCond.Readable := h.cond.resolve_left hc
  have hw : b.delete.where_ = { b.where_.group with base := ⟨j, false⟩ } := hd
  have htn : b.delete.tableName = t := rfl
  obtain ⟨k1, k2, k3⟩ := toCond_base b.where_.group j b.delete.where_.toCond (by rw [hw]) hpw.1
  obtain ⟨s1, s2⟩ := one_table eng db hj ha
  have hy' : ∀ env, TextMeans b.where_.group.toCond (eng.row env) (y env) := by
    intro env
    have := hy env
    rwa [BaseSelect.Says, if_neg hc] at this
  obtain ⟨sql, params, h1, h2⟩ := C59_select_partial eng db b h hs y fun env _ => hy env
  obtain ⟨dsql, dparams, h3, h4⟩ := C61_delete_partial eng db b.delete h.table.name (k1 hr)
    (by rw [k2]; intro l hl; have := hs.cond l hl; rwa [s2] at this) (fun r => y ((db t).env t r))
    (fun r _ => k3 _ _ (hy' _))
  refine ⟨sql, params, dsql, dparams, _, h1, h3, fun s hs => by subst hs; exact h3, fun m hm => by subst hm; exact h3, ?_, h4, ?_, ?_, ?_, ?_⟩
  · rw [h2, BaseSelect.matching, s1, List.filter_map, List.map_map]; rfl
  · rw [htn, set_same]; rfl
  · rw [htn, set_same]; rfl
  · intro u hu; exact if_neg hu
  · rw [htn]
    let tab := (db t).withRows ((db t).rows.filter fun r => !(y ((db t).env t r) == .t))
    have hcols : ((db.set t tab) t).cols = (db t).cols := by rw [set_same]; rfl
    obtain ⟨s1', s2'⟩ := one_table eng (db.set t tab) hj ha
    have hsc : b.scope (db.set t tab) = b.scope db := by rw [s2', s2, hcols]
    have hs' : b.InScope (db.set t tab) := by
      refine ⟨?_, by rw [hsc]; exact hs.fields, by rw [hsc]; exact hs.cond⟩
      have := hs.tables
      rw [hj] at this ⊢
      exact this
    obtain ⟨sql', params', h1', h2'⟩ := C59_select_partial eng (db.set t tab) b h hs' y fun env _ => hy env
    rw [h1] at h1'
    cases h1'
    refine h2'.trans ?_
    rw [BaseSelect.matching, s1', set_same, List.filter_map]
    have : tab.rows.filter ((fun env => y env == Tri.t) ∘ tab.env b.baseTable.name) = [] := by
      rw [List.filter_eq_nil_iff]
      intro r hr
      have := (List.mem_filter.mp hr).2
      simp only [Bool.not_eq_true', beq_eq_false_iff_ne, ne_eq] at this
      simp only [Function.comp, beq_iff_eq]
      exact this
    rw [this]
    rfl

/-! ## C62: UPDATE -/

/-- The values of the columns of a record after an update: `vs` in the columns `cs`, the rest as it was. -/
def setCols (cs : List Str) (vs : List Val) (r : Rec) : Rec := assign (cs.zip (vs.map cellOf)) r

/-- **C62, what holds.**  Running the text of an UPDATE builder sets, in exactly the rows of its table on which its condition
holds, the given columns to the given values, and leaves all else as it is.

Missing for the full claim: as in `C45_update_partial`. -/
theorem C62_update_partial (eng : Engine) (db : Db) (u : UpdateB) (vs : List Val) (hs : u.setValues ≠ [])
    (ht : PlainName u.tableName) (hf : ∀ fv ∈ u.setValues, PlainIdent fv.fd.fieldName)
    (hone : u.setValues.map FieldValue.values = vs.map fun v => .ok [v]) (hc : u.where_.toCond.Readable)
    (hl : ∀ l ∈ u.where_.toCond.leaves, Scope.has [(u.tableName, (db u.tableName).cols)] (colRef l.col) = true)
    (hnd : (u.setValues.map fun fv => fv.fd.fieldName).Nodup) (hin : ∀ fv ∈ u.setValues, fv.fd.fieldName ∈ (db u.tableName).cols)
    (y : Rec → Tri)
    (hy : ∀ r ∈ (db u.tableName).rows, TextMeans u.where_.toCond (eng.row ((db u.tableName).env u.tableName r)) (y r)) :
    ∃ sql params, u.build = .ok (sql, params) ∧
      runStmt eng db sql params = some (db.set u.tableName ((db u.tableName).withRows ((db u.tableName).rows.map fun r =>
        if y r = .t then setCols (u.setValues.map fun fv => fv.fd.fieldName) vs r else r))) := by
  obtain ⟨sql, params, sets, e, h1, h2, h3, h4, h5⟩ := C45_update_partial u vs hs ht hf hone hc
  refine ⟨sql, params, h1, ?_⟩
  simp only [runStmt, h2, Stmt.run]
  have hin' : ∀ s ∈ sets, s.1 ∈ (db u.tableName).cols := by
    intro s hm
    have : s.1 ∈ sets.map (·.1) := List.mem_map.mpr ⟨s, hm, rfl⟩
    rw [h3] at this
    obtain ⟨fv, hfv, he⟩ := List.mem_map.mp this
    rw [← he]
    exact hin fv hfv
  rw [if_pos ⟨by rw [h3]; exact hnd, hin', condRead_cols h5 hl⟩]
  congr 3
  refine List.map_congr_left fun r hr => ?_
  have hset : (sets.map fun s => (s.1, cellOf (bound 0 params s.2))) =
      (u.setValues.map fun fv => fv.fd.fieldName).zip (vs.map cellOf) := by
    rw [← h3, ← h4, List.map_map, List.zip_map']
    rfl
  rw [hset, holdsOn, h5.means _ _ (hy r hr)]
  simp only [beq_iff_eq]
  rfl

/-- What the updated record holds: the `i`-th column the `i`-th value, the others as before. -/
theorem C62_columns (cs : List Str) (vs : List Val) (r : Rec) (hnd : cs.Nodup) (hlen : cs.length = vs.length) :
    (∀ i (h : i < cs.length), setCols cs vs r cs[i] = cellOf (vs[i]'(hlen ▸ h))) ∧
    ∀ c, c ∉ cs → setCols cs vs r c = r c := by
  have skip : ∀ (l : List (Str × Cell)) (r : Rec) c, c ∉ l.map (·.1) → assign l r c = r c := by
    intro l
    induction l with
    | nil => intro r c _; rfl
    | cons p l ih =>
      intro r c hc
      simp only [List.map_cons, List.mem_cons, not_or] at hc
      simp only [assign]
      rw [ih _ _ hc.2]
      simp [hc.1]
  induction cs generalizing vs r with
  | nil => exact ⟨fun i h => absurd h (by simp), fun c _ => rfl⟩
  | cons c cs ih =>
    cases vs with
    | nil => simp at hlen
    | cons v vs =>
      have hlen' : cs.length = vs.length := by simpa using hlen
      obtain ⟨hn1, hn2⟩ := List.nodup_cons.mp hnd
      have e : setCols (c :: cs) (v :: vs) r = setCols cs vs fun u => if u = c then cellOf v else r u := rfl
      have hz : (cs.zip (vs.map cellOf)).map (·.1) = cs := by
        have := List.map_fst_zip (l₁ := cs) (l₂ := vs.map cellOf) (by simp [hlen'])
        exact this
      refine ⟨fun i h => ?_, fun d hd => ?_⟩
      · rw [e]
        cases i with
        | zero =>
          show assign _ _ c = _
          rw [skip _ _ c (by rw [hz]; exact hn1)]
          simp
        | succ i => exact (ih vs _ hn2 hlen').1 i (by simpa using h)
      · simp only [List.mem_cons, not_or] at hd
        rw [e, (ih vs _ hn2 hlen').2 d hd.2]
        simp [hd.1]

/-- **C62, what holds**, derived from a select over one table: exactly the rows the select selects are changed.  Missing: as in
`C61_derived_partial` and `C62_update_partial`. -/
theorem C62_derived_partial (eng : Engine) (db : Db) (b : BaseSelect) (hb : b.Api) (h : PlainSelect b) (hs : b.InScope db)
    (hj : b.joins = []) (ha : b.baseTable.alias = [] ∨ b.baseTable.alias = b.baseTable.name)
    (hc : b.where_.conditions ≠ []) (y : Env → Tri) (hy : ∀ env, b.Says (eng.row env) (y env)) (sets : List FieldValue)
    (vs : List Val) (hne : sets ≠ []) (hf : ∀ fv ∈ sets, PlainIdent fv.fd.fieldName)
    (hone : sets.map FieldValue.values = vs.map fun v => .ok [v]) (hnd : (sets.map fun fv => fv.fd.fieldName).Nodup)
    (hin : ∀ fv ∈ sets, fv.fd.fieldName ∈ (db b.baseTable.name).cols) :
    let t := b.baseTable.name
    ∃ sql params usql uparams db', b.build = .ok (sql, params) ∧ (b.update sets).build = .ok (usql, uparams) ∧
      (∀ s : SelectSingle, s.base = b → (s.update sets).build = .ok (usql, uparams)) ∧
      (∀ m : SelectMany, m.base = b → (m.update sets).build = .ok (usql, uparams)) ∧
      runQuery eng db sql params =
        some (((db t).rows.filter fun r => y ((db t).env t r) == .t).map fun r => b.wanted ((db t).env t r)) ∧
      runStmt eng db usql uparams = some db' ∧
      (db' t).rows = ((db t).rows.map fun r =>
        if y ((db t).env t r) = .t then setCols (sets.map fun fv => fv.fd.fieldName) vs r else r) ∧
      (∀ u, u ≠ t → db' u = db u) := by
  intro t
  have hpw := plainWhere_api hb
  obtain ⟨j, hd⟩ := derived_where _ hpw
  have hr : b.where_.group.toCond.Readable := h.cond.resolve_left hc
  have hw : (b.update sets).where_ = { b.where_.group with base := ⟨j, false⟩ } := hd
  have htn : (b.update sets).tableName = t := rfl
  have hsv : (b.update sets).setValues = sets := by
    show ([] : List FieldValue) ++ sets = sets
    rfl
  obtain ⟨k1, k2, k3⟩ := toCond_base b.where_.group j (b.update sets).where_.toCond (by rw [hw]) hpw.1
  obtain ⟨s1, s2⟩ := one_table eng db hj ha
  have hy' : ∀ env, TextMeans b.where_.group.toCond (eng.row env) (y env) := by
    intro env
    have := hy env
    rwa [BaseSelect.Says, if_neg hc] at this
  obtain ⟨sql, params, h1, h2⟩ := C59_select_partial eng db b h hs y fun env _ => hy env
  obtain ⟨usql, uparams, h3, h4⟩ := C62_update_partial eng db (b.update sets) vs (by rw [hsv]; exact hne) h.table.name
    (by rw [hsv]; exact hf) (by rw [hsv]; exact hone) (k1 hr)
    (by rw [k2]; intro l hl; have := hs.cond l hl; rwa [s2] at this) (by rw [hsv]; exact hnd) (by rw [hsv]; exact hin)
    (fun r => y ((db t).env t r)) (fun r _ => k3 _ _ (hy' _))
  refine ⟨sql, params, usql, uparams, _, h1, h3, fun s hs => by subst hs; exact h3, fun m hm => by subst hm; exact h3, ?_, h4, ?_, ?_⟩
  · rw [h2, BaseSelect.matching, s1, List.filter_map, List.map_map]; rfl
  · rw [htn, set_same, hsv]; rfl
  · intro u hu; exact if_neg hu

/-! ## C63: INSERT -/

/-- **C63, what holds.**  Running the text of an INSERT builder adds one row at the end of its table: the given values in the
given columns, the defaults of the table in the others.

Missing for the full claim: as in `C44_insert_partial`. -/
theorem C63_insert_partial (eng : Engine) (db : Db) (q : InsertB) (vs : List Val) (hs : q.setValues ≠ [])
    (ht : PlainName q.tableName) (hf : ∀ fv ∈ q.setValues, PlainIdent fv.fd.fieldName)
    (hone : q.setValues.map FieldValue.values = vs.map fun v => .ok [v])
    (hnd : (q.setValues.map fun fv => fv.fd.fieldName).Nodup) (hin : ∀ fv ∈ q.setValues, fv.fd.fieldName ∈ (db q.tableName).cols) :
    ∃ sql params, q.build = .ok (sql, params) ∧
      runStmt eng db sql params = some (db.set q.tableName ((db q.tableName).withRows ((db q.tableName).rows ++
        [setCols (q.setValues.map fun fv => fv.fd.fieldName) vs (db q.tableName).dflt]))) := by
  obtain ⟨sql, ns, h1, h2, h3⟩ := C44_insert_partial q vs hs ht hf hone
  refine ⟨sql, vs, h1, ?_⟩
  simp only [runStmt, h2, Stmt.run]
  have hlen : (q.setValues.map fun fv => fv.fd.fieldName).length = ns.length := by
    have e1 := congrArg List.length hone
    have e2 := congrArg List.length h3
    simp only [List.length_map] at e1 e2 ⊢
    omega
  have hin' : ∀ c ∈ q.setValues.map (fun fv => fv.fd.fieldName), c ∈ (db q.tableName).cols := by
    intro c hm
    obtain ⟨fv, hfv, rfl⟩ := List.mem_map.mp hm
    exact hin fv hfv
  rw [if_pos ⟨hnd, hlen, hin'⟩]
  have : (ns.map fun n => cellOf (bound 0 vs n)) = vs.map cellOf := by
    rw [← h3, List.map_map, h3]; rfl
  rw [this]
  rfl

end Query
