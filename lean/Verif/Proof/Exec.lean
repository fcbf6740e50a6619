import Verif.Spec.Intent
import Verif.Proof.Stmt
/-!
# Running statements: lemmas
-/
namespace Query

theorem atom_col (env : Nat → Val) (a : Atom) : (a.leaf env).col = a.col := by
  cases a <;> rfl

theorem bexp_cols (env : Nat → Val) (e : BExp) : e.cols = (e.leaves env).map (·.col) := by
  induction e with
  | atom a => simp [BExp.cols, BExp.leaves, atom_col]
  | not e ih => simpa [BExp.cols, BExp.leaves] using ih
  | and a b iha ihb => simp [BExp.cols, BExp.leaves, iha, ihb]
  | or a b iha ihb => simp [BExp.cols, BExp.leaves, iha, ihb]

theorem condRead_cols {c : Cond} {params : List Val} {e : BExp} {sc : Scope} (h : CondRead c params e)
    (hc : ∀ l ∈ c.leaves, sc.has (colRef l.col) = true) : e.cols.all (fun w => sc.has (colRef w)) = true := by
  rw [bexp_cols (bound 0 params), h.leaves, List.all_eq_true]
  intro w hw
  obtain ⟨l, hl, rfl⟩ := List.mem_map.mp hw
  exact hc l hl

theorem whereRead_cols {q : BaseSelect} {params : List Val} {w : Option BExp} {sc : Scope} (h : WhereRead q params w)
    (hc : ∀ l ∈ q.where_.group.toCond.leaves, sc.has (colRef l.col) = true) :
    sc.hasCond w = true := by
  unfold WhereRead at h
  split at h
  · subst h; rfl
  · obtain ⟨e, rfl, he⟩ := h
    exact condRead_cols he hc

theorem whereRead_rows {q : BaseSelect} {params : List Val} {w : Option BExp} {eng : Engine} {y : Env → Tri} {rows : List Env}
    (h : WhereRead q params w) (hy : ∀ env ∈ rows, q.Says (eng.row env) (y env)) :
    whereRows eng params w rows = rows.filter fun env => y env == .t := by
  unfold WhereRead at h
  split at h
  · rename_i hn
    subst h
    symm
    refine List.filter_eq_self.mpr fun env he => ?_
    have := hy env he
    rw [BaseSelect.Says, if_pos hn] at this
    rw [this]; rfl
  · rename_i hn
    obtain ⟨e, rfl, he⟩ := h
    refine List.filter_congr fun env hm => ?_
    have := hy env hm
    rw [BaseSelect.Says, if_neg hn] at this
    rw [he.means _ _ this]

theorem asName_getD (fd : FieldDef) : fd.asName.getD fd.fieldName = fd.outName := by
  unfold FieldDef.asName FieldDef.outName optStr
  by_cases h : fd.alias = []
  · simp [h]
  · by_cases h2 : fd.alias = fd.fieldName ∧ fd.tableName = []
    · rw [if_pos h2, if_neg h, h2.1]; rfl
    · simp [h, h2]

theorem refs_out (q : BaseSelect) (env : Env) : q.fields.refs.flatMap (SelItem.out env) = q.wanted env := by
  unfold Fields.refs BaseSelect.wanted
  split
  · simp [SelItem.out]
  · rw [List.flatMap_map]
    congr 1
    funext fd
    simp [SelItem.out, FieldDef.wanted, FieldDef.ref, asName_getD]

theorem refs_ok {q : BaseSelect} {db : Db} (h : ∀ fd ∈ q.fields.specs, (q.scope db).hasItem fd.ref = true) :
    q.fields.refs.all (SelItem.ok (q.scope db)) = true := by
  unfold Fields.refs
  split
  · rfl
  · simpa [List.all_eq_true, SelItem.ok] using h

theorem refs_noCount (f : Fields) :
    f.refs.any SelItem.isCount = false := by
  unfold Fields.refs
  split
  · rfl
  · simp [List.any_map, Function.comp_def, SelItem.isCount]

theorem refs_notCount (f : Fields) (c : ColRef) : f.refs ≠ [.count c] := by
  unfold Fields.refs
  split
  · simp
  · intro h
    have := congrArg List.head? h
    cases hs : f.specs <;> simp [hs] at this

/-- Running a statement whose items are columns. -/
theorem run_cols (eng : Engine) (db : Db) (params : List Val) (q : BaseSelect) (w : Option BExp) (order : List (ColRef × Str))
    (off lim : Option Rows) (off' lim' : Option Nat) (y : Env → Tri) (hs : q.InScope db) (hw : WhereRead q params w)
    (hy : ∀ env ∈ q.tables eng db, q.Says (eng.row env) (y env))
    (ho : order.all (fun k => (q.scope db).has (keyCol q.fields.refs k.1)) = true)
    (h1 : optNum params off = some off') (h2 : optNum params lim = some lim') :
    SelectStmt.run eng db params ⟨q.fields.refs, q.baseTable.ref, q.joins.map TableJoiner.ref, w, order, off, lim⟩ =
      some ((window off' lim' (sortRows eng (order.map fun k => (keyCol q.fields.refs k.1, k.2)) (q.matching eng db y))).map
        q.wanted) := by
  have hok : SelectStmt.ok db ⟨q.fields.refs, q.baseTable.ref, q.joins.map TableJoiner.ref, w, order, off, lim⟩ = true := by
    unfold SelectStmt.ok
    simp only [Bool.and_eq_true]
    exact ⟨⟨⟨hs.tables, refs_ok hs.fields⟩, whereRead_cols hw hs.cond⟩, ho⟩
  unfold SelectStmt.run
  rw [if_pos hok]
  simp only [h1, h2]
  split
  · rename_i c hc
    exact absurd hc (refs_notCount _ c)
  · rw [refs_noCount]
    simp only [Bool.false_eq_true, if_false, Option.some.injEq]
    have := whereRead_rows (eng := eng) (rows := fromRows eng db q.baseTable.ref (q.joins.map TableJoiner.ref)) hw hy
    rw [this]
    simp only [refs_out]
    rfl

/-- Running a count. -/
theorem run_count (eng : Engine) (db : Db) (params : List Val) (q : BaseSelect) (w : Option BExp) (c : ColRef)
    (y : Env → Tri) (ht : fromOK db q.baseTable.ref (q.joins.map TableJoiner.ref) = true)
    (hl : ∀ l ∈ q.where_.group.toCond.leaves, (q.scope db).has (colRef l.col) = true) (hw : WhereRead q params w)
    (hy : ∀ env ∈ q.tables eng db, q.Says (eng.row env) (y env)) (hc : c = star ∨ (q.scope db).has c = true) :
    SelectStmt.run eng db params ⟨[.count c], q.baseTable.ref, q.joins.map TableJoiner.ref, w, [], none, none⟩ =
      some [[(c!"count", some (.uint (countRows c (q.matching eng db y))))]] := by
  have hok : SelectStmt.ok db ⟨[.count c], q.baseTable.ref, q.joins.map TableJoiner.ref, w, [], none, none⟩ = true := by
    unfold SelectStmt.ok
    simp only [Bool.and_eq_true]
    refine ⟨⟨⟨ht, ?_⟩, whereRead_cols hw hl⟩, rfl⟩
    simpa [SelItem.ok, BaseSelect.scope] using hc
  unfold SelectStmt.run
  rw [if_pos hok]
  have := whereRead_rows (eng := eng) (rows := fromRows eng db q.baseTable.ref (q.joins.map TableJoiner.ref)) hw hy
  simp only [optNum, this]
  rfl

theorem rowsRead_num {params : List Val} {n : Nat} {r : Option Rows} (h : RowsRead params n r) :
    optNum params r = some (if n = 0 then none else some n) := by
  unfold RowsRead at h
  split at h
  · subst h; rename_i h0; simp [optNum, h0]
  · rename_i h0
    obtain ⟨i, rfl, hi⟩ := h
    simp [optNum, Rows.num, hi, h0]

theorem window_page {α : Type} (off : Nat) (lim : Int) (rows : List α) :
    window (if off = 0 then none else some off) (if lim.toNat = 0 then none else some lim.toNat) rows = page off lim rows := by
  unfold window page
  by_cases h : lim > 0
  · have : lim.toNat ≠ 0 := by omega
    by_cases h0 : off = 0 <;> simp [h, h0, this]
  · have : lim.toNat = 0 := by omega
    by_cases h0 : off = 0 <;> simp [h, h0, this]

end Query
