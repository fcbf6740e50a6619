import Verif.Props.Exec
import Verif.Proof.Sort
/-!
# C64, C65: narrowing, order and pages; witnesses for C59–C65
-/
namespace Query

/-! ## C64: Where narrows -/

theorem whereCalls_init (calls : List (List Cond)) (ds : List Cond) (h : whereCalls (calls ++ [ds]) = true) :
    whereCalls calls = true := by
  induction calls with
  | nil => rfl
  | cons cs calls ih =>
    cases cs with
    | nil => exact ih h
    | cons c cs =>
      simp only [List.cons_append, whereCalls, Bool.and_eq_true, List.all_append] at h ⊢
      exact ⟨h.1, h.2.1⟩

/-- **C64, what holds.**  One more Where call keeps, of the rows returned before, exactly those on which all its conditions hold,
in the same order and with the same columns.

Missing for the full claim: as in `C59_where_partial` (`C64_or_false`). -/
theorem C64_narrow_partial (eng : Engine) (db : Db) (q : BaseSelect) (h0 : q.where_ = newWhere) (h : PlainSelect q)
    (hs : q.InScope db) (calls : List (List Cond)) (ds : List Cond) (hw : whereCalls (calls ++ [ds]) = true)
    (y : Cond → Env → Tri)
    (hc : ∀ d ∈ calls.flatten ++ ds, d.Readable ∧ ∀ env, TextMeans d (eng.row env) (y d env))
    (hl : ∀ d ∈ calls.flatten ++ ds, ∀ l ∈ d.leaves, (q.scope db).has (colRef l.col) = true) :
    ∃ sql params sql' params', ∃ rows : List Env, (calls.foldl BaseSelect.addWhere q).build = .ok (sql, params) ∧
      ((calls.foldl BaseSelect.addWhere q).addWhere ds).build = .ok (sql', params') ∧
      runQuery eng db sql params = some (rows.map q.wanted) ∧
      runQuery eng db sql' params' = some ((rows.filter fun env => ds.all fun d => y d env == .t).map q.wanted) := by
  obtain ⟨sql, params, h1, h2⟩ := C59_where_partial eng db q h0 h hs calls (whereCalls_init calls ds hw) y
    (fun d hd => hc d (by simp [hd])) (fun d hd => hl d (by simp [hd]))
  obtain ⟨sql', params', h3, h4⟩ := C59_where_partial eng db q h0 h hs (calls ++ [ds]) hw y
    (fun d hd => hc d (by simpa using hd)) (fun d hd => hl d (by simpa using hd))
  refine ⟨sql, params, sql', params', _, h1, by simpa using h3, h2, h4.trans ?_⟩
  rw [List.filter_filter]
  congr 2
  refine List.filter_congr fun env _ => ?_
  simp [List.all_append, Bool.and_comm]

/-! ## C65: order and pages -/

theorem refs_named {f : Fields} {k c : ColRef} (h : f.refs.findSome? (SelItem.named k) = some c) :
    ∃ fd ∈ f.specs, c = fd.ref ∧ k = ⟨none, fd.alias⟩ := by
  obtain ⟨it, hit, hn⟩ := List.exists_of_findSome?_eq_some h
  unfold Fields.refs at hit
  split at hit
  · simp only [List.mem_singleton] at hit
    subst hit
    cases hn
  · obtain ⟨fd, hfd, rfl⟩ := List.mem_map.mp hit
    refine ⟨fd, hfd, ?_⟩
    cases hx : fd.asName with
    | none => rw [hx] at hn; cases hn
    | some a =>
      have haa : fd.alias = a := by
        unfold FieldDef.asName optStr at hx
        split at hx
        · cases hx
        · split at hx
          · cases hx
          · exact Option.some.inj hx
      rw [hx] at hn
      simp only [SelItem.named] at hn
      split at hn
      · rename_i hk
        exact ⟨(Option.some.inj hn).symm, by rw [haa]; exact hk.1⟩
      · cases hn

/-- A sort key without alias that is no alias of the SELECT list names its column. -/
theorem C65_key_column (db : Db) (q : BaseSelect) (o : FieldSorting) (ha : o.fd.alias = [])
    (hn : o.fd.tableName = [] → ∀ fd ∈ q.fields.specs, fd.alias ≠ o.fd.fieldName)
    (hs : (q.scope db).has o.fd.ref = true) : q.KeyInScope db o := by
  refine ⟨?_, hs⟩
  have hk : o.fd.key = o.fd.ref := if_pos (.inl ha)
  unfold keyCol
  cases hf : q.fields.refs.findSome? (SelItem.named o.fd.key) with
  | none => exact hk
  | some c =>
    obtain ⟨fd, hfd, _, he⟩ := refs_named hf
    rw [hk] at he
    have e1 : optStr o.fd.tableName = none := congrArg ColRef.table he
    have e2 : o.fd.fieldName = fd.alias := congrArg ColRef.name he
    have e3 : o.fd.tableName = [] := by
      unfold optStr at e1
      split at e1
      · assumption
      · cases e1
    exact absurd e2.symm (hn e3 fd hfd)

/-- A sort key that is a field of the SELECT list, with an alias no other column has, names its column. -/
theorem C65_key_alias (db : Db) (q : BaseSelect) (o : FieldSorting) (ha : o.fd.alias ≠ []) (hm : o.fd ∈ q.fields.specs)
    (hn : ∀ fd ∈ q.fields.specs, fd.alias = o.fd.alias → fd.ref = o.fd.ref) (hst : o.fd.fieldName ≠ c!"*")
    (hs : (q.scope db).has o.fd.ref = true) : q.KeyInScope db o := by
  refine ⟨?_, hs⟩
  unfold keyCol
  cases hf : q.fields.refs.findSome? (SelItem.named o.fd.key) with
  | some c =>
    obtain ⟨fd, hfd, rfl, he⟩ := refs_named hf
    have e2 : o.fd.key.name = fd.alias := congrArg ColRef.name he
    have e3 : o.fd.key.name = o.fd.alias := by
      unfold FieldDef.key
      split
      · rename_i h
        exact (h.resolve_left ha).symm
      · rfl
    exact hn fd hfd (e2.symm.trans e3)
  | none =>
    by_cases hc : o.fd.alias = o.fd.fieldName
    · exact if_pos (.inr hc)
    · exfalso
      have hk : o.fd.key = ⟨none, o.fd.alias⟩ := if_neg (by simp [ha, hc])
      have hn' := List.findSome?_eq_none_iff.mp hf (.col o.fd.ref o.fd.asName) (by
        unfold Fields.refs
        rw [if_neg (List.ne_nil_of_mem hm)]
        exact List.mem_map.mpr ⟨o.fd, hm, rfl⟩)
      have has : o.fd.asName = some o.fd.alias := by
        unfold FieldDef.asName optStr
        rw [if_neg (fun h => hc h.1), if_neg ha]
      rw [has, hk] at hn'
      simp [SelItem.named] at hn'
      exact hst hn'

/-- **C65, what holds.**  The rows of a many-builder are a page of its matching rows in the order asked for: the list the page
is cut from holds exactly the matching rows, and each is not after the next by the fields and directions asked for, the first
deciding.

Missing for the full claim: as in `C59_many_partial`. -/
theorem C65_sorted_partial (eng : Engine) (ht : ∀ a b, eng.le a b = true ∨ eng.le b a = true)
    (hr : ∀ a b c, eng.le a b = true → eng.le b c = true → eng.le a c = true) (db : Db) (q : SelectMany)
    (h : PlainSelect q.base) (hs : q.base.InScope db) (ho : ∀ o ∈ q.order, PlainKey o ∧ q.base.KeyInScope db o) (y : Env → Tri)
    (hy : ∀ env ∈ q.base.tables eng db, q.base.Says (eng.row env) (y env)) :
    ∃ sql params sorted, q.build = .ok (sql, params) ∧ sorted.Perm (q.base.matching eng db y) ∧
      sorted.Pairwise (fun a b => keysLe eng (q.order.map fun o => (o.fd.ref, o.direction)) a b = true) ∧
      runQuery eng db sql params = some ((page q.offset q.limit sorted).map q.base.wanted) := by
  obtain ⟨sql, params, h1, h2⟩ := C59_many_partial eng db q h hs ho y hy
  exact ⟨sql, params, _, h1, perm_sortRows _ _ _, sorted_sortRows eng ht hr _ _, h2⟩

/-- What the order by one key is: ascending or descending in the column. -/
theorem C65_one_key (eng : Engine) (ht : ∀ a b, eng.le a b = true ∨ eng.le b a = true) (c : ColRef) (a b : Env) :
    (keysLe eng [(c, c!"ASC")] a b = true ↔ eng.le (a.get c) (b.get c) = true) ∧
    (keysLe eng [(c, c!"DESC")] a b = true ↔ eng.le (b.get c) (a.get c) = true) := by
  have := ht (a.get c) (b.get c)
  simp only [keysLe]
  cases e1 : eng.le (a.get c) (b.get c) <;> cases e2 : eng.le (b.get c) (a.get c) <;> simp_all

/-- **C65, what holds.**  A page holds at most `limit` rows, for a positive limit; a single-builder returns at most one row;
without a limit (and offset) all matching rows are returned.

Missing for the full claim: as in `C59_many_partial`; a limit of 0 (`C65_limit_zero_false`). -/
theorem C65_limit_partial (eng : Engine) (db : Db) (q : SelectMany) (h : PlainSelect q.base) (hs : q.base.InScope db)
    (ho : ∀ o ∈ q.order, PlainKey o ∧ q.base.KeyInScope db o) (y : Env → Tri)
    (hy : ∀ env ∈ q.base.tables eng db, q.base.Says (eng.row env) (y env)) :
    ∃ sql params rows, q.build = .ok (sql, params) ∧ runQuery eng db sql params = some rows ∧
      (q.limit > 0 → (rows.length : Int) = min q.limit ((q.base.matching eng db y).length - q.offset : Nat)) ∧
      (q.limit ≤ 0 → rows.length = (q.base.matching eng db y).length - q.offset) := by
  obtain ⟨sql, params, h1, h2⟩ := C59_many_partial eng db q h hs ho y hy
  have hlen : (sortedBy eng q.order (q.base.matching eng db y)).length = (q.base.matching eng db y).length :=
    (perm_sortRows _ _ _).length_eq
  refine ⟨sql, params, _, h1, h2, fun hl => ?_, fun hl => ?_⟩
  · rw [List.length_map, page, if_pos hl, List.length_take, List.length_drop, hlen]
    omega
  · rw [List.length_map, page, if_neg (by omega), List.length_drop, hlen]

/-- **C65, what holds.**  Consecutive pages put together are the page of both: nothing is lost or repeated between pages.
Missing: as in `C59_many_partial`. -/
theorem C65_pages_partial (eng : Engine) (db : Db) (q : SelectMany) (h : PlainSelect q.base) (hs : q.base.InScope db)
    (ho : ∀ o ∈ q.order, PlainKey o ∧ q.base.KeyInScope db o) (y : Env → Tri)
    (hy : ∀ env ∈ q.base.tables eng db, q.base.Says (eng.row env) (y env)) (off n m : Nat) (hn : n > 0) (hm : m > 0) :
    ∃ r1 r2 r3 a b c, ((q.setOffset off).setLimit n).build = .ok r1 ∧ ((q.setOffset (off + n)).setLimit m).build = .ok r2 ∧
      ((q.setOffset off).setLimit ((n + m : Nat) : Int)).build = .ok r3 ∧ runQuery eng db r1.1 r1.2 = some a ∧
      runQuery eng db r2.1 r2.2 = some b ∧ runQuery eng db r3.1 r3.2 = some c ∧ a ++ b = c := by
  obtain ⟨s1, p1, h1, e1⟩ := C59_many_partial eng db ((q.setOffset off).setLimit n) h hs ho y hy
  obtain ⟨s2, p2, h2, e2⟩ := C59_many_partial eng db ((q.setOffset (off + n)).setLimit m) h hs ho y hy
  obtain ⟨s3, p3, h3, e3⟩ := C59_many_partial eng db ((q.setOffset off).setLimit ((n + m : Nat) : Int)) h hs ho y hy
  refine ⟨_, _, _, _, _, _, h1, h2, h3, e1, e2, e3, ?_⟩
  show List.map q.base.wanted _ ++ List.map q.base.wanted _ = List.map q.base.wanted _
  rw [← List.map_append]
  congr 1
  exact page_append off n m hn hm _

/-! ## Examples and witnesses -/

/-- Values are numbers; equality decides comparisons, NULL is last in order. -/
def exEng : Engine where
  cmp op x y := match x, y with
    | .other i, .other j => if op = c!"=" then .ofBool (i == j) else if op = c!"<" then .ofBool (i < j) else .u
    | _, _ => .u
  like _ _ := .u
  ilike _ _ := .u
  le x y := match x, y with
    | some (.other i), some (.other j) => i ≤ j
    | some _, _ => true
    | none, none => true
    | none, some _ => false

/-- A row for examples. -/
def exRec (l : List (Str × Nat)) : Rec := fun c => (l.find? fun p => p.1 == c).map fun p => .other p.2

/-- Table `t` with columns id and a, three rows; table `u` with column tid, one row. -/
def exDb : Db := fun n =>
  if n = c!"t" then ⟨[c!"id", c!"a"], fun _ => none,
    [exRec [(c!"id", 1), (c!"a", 7)], exRec [(c!"id", 2), (c!"a", 7)], exRec [(c!"id", 3)]]⟩
  else if n = c!"u" then ⟨[c!"tid"], fun _ => none, [exRec [(c!"tid", 1)]]⟩
  else ⟨[], fun _ => none, []⟩

/-- `a = 7`, with or without a table. -/
def exA7 (table : Str) : Cond := .fieldc .eq ⟨lAND, false⟩ ⟨⟨c!"a", table, []⟩, .other 7⟩

/-- `SelectFrom(t).Where(a = 7)`. -/
def exSel : BaseSelect := BaseSelect.addWhere ⟨doSelect, ⟨c!"t", []⟩, [], ⟨[⟨c!"id", [], []⟩]⟩, newWhere⟩ [exA7 []]

/-- Run what a builder gives. -/
def runBuilt (eng : Engine) (db : Db) (r : Res (Str × List Val)) : Option (List OutRow) :=
  match r with
  | .ok (sql, params) => runQuery eng db sql params
  | _ => none

/-- Run what a builder gives, and count the rows of a table afterwards. -/
def rowsAfter (eng : Engine) (db : Db) (t : Str) (r : Res (Str × List Val)) : Option Nat :=
  match r with
  | .ok (sql, params) => (runStmt eng db sql params).map fun db' => (db' t).rows.length
  | _ => none

/-- The plain select of the example, and what it returns. -/
example : runBuilt exEng exDb exSel.build =
    some [[(c!"id", some (.other 1))], [(c!"id", some (.other 2))]] := rfl

theorem exSel_plain : PlainSelect exSel ∧ exSel.InScope exDb := by
  have pn : ∀ w ∈ [c!"t", c!"id", c!"a"], PlainName w := by
    intro w hw
    refine ⟨?_, ?_, ?_⟩ <;> revert w <;> decide
  refine ⟨⟨?_, .of (pn c!"t" (by simp)) (.inl rfl), ?_, .inr ?_⟩, ⟨by decide, ?_, ?_⟩⟩
  · intro fd hfd
    simp only [exSel, BaseSelect.addWhere, List.mem_cons, List.not_mem_nil, or_false] at hfd
    subst hfd
    exact .of ⟨pn _ (by simp), by decide⟩ (.inl rfl) (.inl rfl)
  · intro j hj
    simp [exSel, BaseSelect.addWhere] at hj
  · exact one_readable ⟨⟨.inl rfl, pn c!"a" (by simp)⟩, .other 7, rfl⟩
  · intro fd hfd
    simp only [exSel, BaseSelect.addWhere, List.mem_cons, List.not_mem_nil, or_false] at hfd
    subst hfd
    decide
  · intro l hl
    have : exSel.where_.group.toCond.leaves = [⟨c!"=", c!"a", [.other 7]⟩] := rfl
    rw [this, List.mem_singleton] at hl
    subst hl
    decide

/-- The hypotheses of `C59_select_partial`, `C60_count_partial` and `C61_derived_partial` are met by the example, with the truth
value of the tree. -/
example : ∀ env, exSel.Says (exEng.row env) (exSel.truth (exEng.row env)) :=
  fun env => C59_says_tree_partial exSel exSel_plain.1 rfl _

example : runBuilt exEng exDb ((count exSel []).bind CountB.build) = some [[(c!"count", some (.uint 2))]] := rfl

/-- **C60 is false** for an aliased field: `Count("a AS x")` counts a column `x`, which no table has. -/
theorem C60_alias_false :
    (count exSel [c!"a AS x"]).bind CountB.build = .ok (c!"SELECT COUNT(x) FROM t WHERE a=$1", [.other 7]) ∧
    runBuilt exEng exDb ((count exSel [c!"a AS x"]).bind CountB.build) = none := ⟨rfl, rfl⟩

/-- Its DELETE leaves one row of three. -/
example : rowsAfter exEng exDb c!"t" exSel.delete.build = some 1 := rfl

/-- **C61 is false** with joins: the select returns one row (only one of the two has a partner in `u`), its DELETE removes
both rows with `a = 7`. -/
theorem C61_join_false :
    let q : BaseSelect := BaseSelect.addWhere ⟨doSelect, ⟨c!"t", []⟩, [⟨⟨c!"u", []⟩, innerJoin, ⟨⟨c!"id", c!"t", []⟩, ⟨c!"tid", c!"u", []⟩⟩⟩],
      ⟨[⟨c!"id", [], []⟩]⟩, newWhere⟩ [exA7 []]
    runBuilt exEng exDb q.build = some [[(c!"id", some (.other 1))]] ∧
    rowsAfter exEng exDb c!"t" q.delete.build = some 1 := ⟨rfl, rfl⟩

/-- **C61 is false** for a table with alias: the select works, its DELETE names the alias, which it does not introduce, and
fails. -/
theorem C61_alias_false :
    let q : BaseSelect := BaseSelect.addWhere ⟨doSelect, ⟨c!"t", c!"x"⟩, [], ⟨[⟨c!"id", [], []⟩]⟩, newWhere⟩ [exA7 c!"x"]
    q.build = .ok (c!"SELECT id FROM t AS x WHERE x.a=$1", [.other 7]) ∧
    runBuilt exEng exDb q.build = some [[(c!"id", some (.other 1))], [(c!"id", some (.other 2))]] ∧
    q.delete.build = .ok (c!"DELETE FROM t WHERE x.a=$1", [.other 7]) ∧
    rowsAfter exEng exDb c!"t" q.delete.build = none := ⟨rfl, rfl, rfl, rfl⟩

/-- **C61 is false** for limits: a single-builder selects one row, its DELETE removes both matching rows; so for Limit(1). -/
theorem C61_single_false :
    let s : SelectSingle := ⟨exSel⟩
    let m : SelectMany := ⟨exSel, 0, 1, [], false⟩
    runBuilt exEng exDb s.build = some [[(c!"id", some (.other 1))]] ∧
    rowsAfter exEng exDb c!"t" s.delete.build = some 1 ∧
    runBuilt exEng exDb m.build = some [[(c!"id", some (.other 1))]] ∧
    rowsAfter exEng exDb c!"t" m.delete.build = some 1 := ⟨rfl, rfl, rfl, rfl⟩

/-- **C65, a new select of many rows**: `b.Many()` returns all matching rows, in the order of the tables, as `b` itself does.
Missing: as in `C59_select_partial`. -/
theorem C65_fresh_partial (eng : Engine) (db : Db) (b : BaseSelect) (h : PlainSelect b) (hs : b.InScope db) (y : Env → Tri)
    (hy : ∀ env ∈ b.tables eng db, b.Says (eng.row env) (y env)) :
    ∃ sql params, (selectManyFromBase b).build = .ok (sql, params) ∧
      runQuery eng db sql params = some ((b.matching eng db y).map b.wanted) := by
  obtain ⟨sql, params, h1, h2⟩ := C59_many_partial eng db (selectManyFromBase b) h hs (fun o ho => by cases ho) y hy
  refine ⟨sql, params, h1, h2.trans ?_⟩
  show some ((page 0 (-1) (sortRows eng [] (b.matching eng db y))).map b.wanted) = _
  rw [sortRows_nil]
  rfl

/-- All rows of the example. -/
example : runBuilt exEng exDb (selectManyFromBase exSel).build = some [[(c!"id", some (.other 1))], [(c!"id", some (.other 2))]] := rfl

/-- **C65 is false** for a limit of 0: all rows are returned. -/
theorem C65_limit_zero_false :
    let m : SelectMany := SelectMany.setLimit ⟨exSel, 0, noLimit, [], false⟩ 0
    runBuilt exEng exDb m.build = some [[(c!"id", some (.other 1))], [(c!"id", some (.other 2))]] := rfl

/-- Sorted descending, second row on. -/
example : runBuilt exEng exDb (SelectMany.build ⟨exSel, 1, 5, [⟨⟨c!"id", [], []⟩, c!"DESC"⟩], false⟩) =
    some [[(c!"id", some (.other 1))]] := by
  rfl

/-- **C64 is false** for an OR in the first Where: `Where(Or(a = 7, id = 3)).Where(id = 3)` returns rows whose id is not 3. -/
theorem C64_or_false :
    let id3 : Cond := .fieldc .eq ⟨lAND, false⟩ ⟨⟨c!"id", [], []⟩, .other 3⟩
    let q : BaseSelect := ⟨doSelect, ⟨c!"t", []⟩, [], ⟨[⟨c!"id", [], []⟩]⟩, newWhere⟩
    runBuilt exEng exDb ((q.addWhere [orC (exA7 []) [id3]]).addWhere [id3]).build =
      some [[(c!"id", some (.other 1))], [(c!"id", some (.other 2))], [(c!"id", some (.other 3))]] := rfl

/-- An UPDATE derived from the example: the rows of `t` afterwards. -/
example : (match (exSel.update [⟨⟨c!"a", [], []⟩, .other 9⟩]).build with
    | .ok (sql, params) => (runStmt exEng exDb sql params).map fun db' => (db' c!"t").rows.map fun r => (r c!"id", r c!"a")
    | _ => none) =
    some [(some (.other 1), some (.other 9)), (some (.other 2), some (.other 9)), (some (.other 3), none)] := rfl

/-- An INSERT into `t`: the columns not given get the default. -/
example : (match ((insertInto (.str c!"t")).addValues [⟨⟨c!"id", [], []⟩, .other 4⟩]).build with
    | .ok (sql, params) => (runStmt exEng exDb sql params).map fun db' => (db' c!"t").rows.map fun r => (r c!"id", r c!"a")
    | _ => none) =
    some [(some (.other 1), some (.other 7)), (some (.other 2), some (.other 7)), (some (.other 3), none),
      (some (.other 4), none)] := rfl

/-- The sort key `id` of the example names its column. -/
example : exSel.KeyInScope exDb ⟨⟨c!"id", [], []⟩, c!"DESC"⟩ := by
  refine C65_key_column exDb exSel _ rfl (fun _ fd hfd => ?_) (by decide)
  simp only [exSel, BaseSelect.addWhere, List.mem_cons, List.not_mem_nil, or_false] at hfd
  subst hfd
  decide

/-- A left join: rows without partner get NULL. -/
example : runBuilt exEng exDb (BaseSelect.build ⟨doSelect, ⟨c!"t", c!"x"⟩,
      [⟨⟨c!"u", []⟩, leftJoin, ⟨⟨c!"id", c!"x", []⟩, ⟨c!"tid", c!"u", []⟩⟩⟩],
      ⟨[⟨c!"id", c!"x", c!"n"⟩, ⟨c!"tid", [], []⟩]⟩, newWhere⟩) =
    some [[(c!"n", some (.other 1)), (c!"tid", some (.other 1))], [(c!"n", some (.other 2)), (c!"tid", none)],
      [(c!"n", some (.other 3)), (c!"tid", none)]] := rfl

end Query
