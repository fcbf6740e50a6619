import Verif.Props.Exact
import Verif.Props.Exec
/-!
# Exact forms of C44, C45, C62 and C63: values that are slices

A value that is a slice supplies any number of parameters.  Here is what the text of an INSERT and of an UPDATE then reads
back to, and what it does in a database.
-/
namespace Query

/-! ## INSERT -/

/-- **C44 is false** with a slice among the values: the text has one placeholder for the column, bound to the last element, and
the first is bound to nothing. -/
theorem C44_slice_false :
    let q : InsertB := ⟨doInsert, c!"t", [⟨⟨c!"f", [], []⟩, .strs [c!"a", c!"b"]⟩, ⟨⟨c!"g", [], []⟩, .other 8⟩]⟩
    q.build = .ok (c!"INSERT INTO t(f, g) VALUES ($2, $3)", [.str c!"a", .str c!"b", .other 8]) ∧
    readStmt c!"INSERT INTO t(f, g) VALUES ($2, $3)" = some (.insert c!"t" [c!"f", c!"g"] [2, 3]) ∧
    [2, 3].map (bound 0 [.str c!"a", .str c!"b", .other 8]) = [.str c!"b", .other 8] :=
  ⟨rfl, by decide, rfl⟩

/-- **C44, exactly.**  For any values, `vss` being what their `Values()` return: the text reads back to the builder's table and its
columns in order, and the placeholder of a column with values is bound to the last of them. -/
theorem C44_exact (q : InsertB) (vss : List (List Val)) (hs : q.setValues ≠ []) (ht : PlainName q.tableName)
    (hf : ∀ fv ∈ q.setValues, PlainIdent fv.fd.fieldName) (hv : q.setValues.map FieldValue.values = vss.map .ok) :
    ∃ sql ns, q.build = .ok (sql, vss.flatten) ∧
      readStmt sql = some (.insert q.tableName (q.setValues.map fun fv => fv.fd.fieldName) ns) ∧
      ns.length = q.setValues.length ∧
      (∀ (i : Nat) (vs : List Val) v, vss[i]? = some vs → vs.getLast? = some v → ∃ n, ns[i]? = some n ∧ bound 0 vss.flatten n = v) ∧
      ((∀ vs ∈ vss, vs ≠ []) → ns.map (bound 0 vss.flatten) = vss.filterMap List.getLast?) := by
  obtain ⟨ns, h1, h2, h3, -⟩ := C05_exact q vss hs ht.1 hv
  have hlen : vss.length = q.setValues.length := by
    have := congrArg List.length hv
    simpa using this.symm
  have key : ∀ (i : Nat) (vs : List Val) v, vss[i]? = some vs → vs.getLast? = some v → ∃ n, ns[i]? = some n ∧ bound 0 vss.flatten n = v := by
    intro i vs v hi hl
    obtain ⟨n, hn, -, hb⟩ := h3 i vs hi
    refine ⟨n, hn, ?_⟩
    have hne : vs ≠ [] := by rintro rfl; simp at hl
    unfold bound
    rw [show n - 0 - 1 = n - 1 from rfl, hb hne, hl]
    rfl
  refine ⟨_, ns, h1, ?_, h2, key, ?_⟩
  · refine read_insert _ _ _ (by simpa using hs) ?_ ht ?_
    · intro e
      rw [e] at h2
      exact hs (List.length_eq_zero_iff.mp h2.symm)
    · intro w hw
      obtain ⟨fv, hfv, rfl⟩ := List.mem_map.mp hw
      exact hf fv hfv
  · intro hne
    have hfm : vss.filterMap List.getLast? = vss.map fun vs => vs.getLast?.getD .nil := by
      clear key h3 h2 h1 hlen hv
      induction vss with
      | nil => rfl
      | cons vs vss ih =>
        have h := hne vs (by simp)
        have ih := ih fun x hx => hne x (by simp [hx])
        cases hl : vs.getLast? with
        | none => exact absurd (List.getLast?_eq_none_iff.mp hl) h
        | some v => simp [hl, ih]
    rw [hfm]
    apply List.ext_getElem?
    intro i
    simp only [List.getElem?_map]
    cases hi : vss[i]? with
    | none =>
      have : ns.length ≤ i := by rw [h2, ← hlen]; exact List.getElem?_eq_none_iff.mp hi
      simp [List.getElem?_eq_none this]
    | some vs =>
      have hvs : vs ≠ [] := hne vs (List.mem_of_getElem? hi)
      cases hl : vs.getLast? with
      | none => exact absurd (List.getLast?_eq_none_iff.mp hl) hvs
      | some v =>
        obtain ⟨n, hn, hb⟩ := key i vs v hi hl
        simp [hn, hb, hl]

example : let q : InsertB := ⟨doInsert, c!"t", [⟨⟨c!"f", [], []⟩, .strs [c!"a", c!"b"]⟩, ⟨⟨c!"g", [], []⟩, .other 8⟩]⟩
    q.setValues.map FieldValue.values = [[Val.str c!"a", .str c!"b"], [.other 8]].map .ok ∧
    (∀ fv ∈ q.setValues, PlainIdent fv.fd.fieldName) ∧ PlainName q.tableName := by
  refine ⟨rfl, ?_, ?_⟩
  · intro fv hfv
    simp only [List.mem_cons, List.not_mem_nil, or_false] at hfv
    rcases hfv with rfl | rfl <;> exact ⟨⟨by decide, by decide, by decide⟩, by decide⟩
  · exact ⟨by decide, by decide, by decide⟩

/-- **C63, exactly**: for values of any kind that supply at least one parameter each, the row added holds the last parameter of
each. -/
theorem C63_exact (eng : Engine) (db : Db) (q : InsertB) (vss : List (List Val)) (hs : q.setValues ≠ [])
    (ht : PlainName q.tableName) (hf : ∀ fv ∈ q.setValues, PlainIdent fv.fd.fieldName)
    (hv : q.setValues.map FieldValue.values = vss.map .ok) (hne : ∀ vs ∈ vss, vs ≠ [])
    (hnd : (q.setValues.map fun fv => fv.fd.fieldName).Nodup) (hin : ∀ fv ∈ q.setValues, fv.fd.fieldName ∈ (db q.tableName).cols) :
    ∃ sql params, q.build = .ok (sql, params) ∧
      runStmt eng db sql params = some (db.set q.tableName ((db q.tableName).withRows ((db q.tableName).rows ++
        [setCols (q.setValues.map fun fv => fv.fd.fieldName) (vss.filterMap List.getLast?) (db q.tableName).dflt]))) := by
  obtain ⟨sql, ns, h1, h2, hl, -, h3⟩ := C44_exact q vss hs ht hf hv
  have h3 := h3 hne
  refine ⟨sql, _, h1, ?_⟩
  simp only [runStmt, h2, Stmt.run]
  have hin' : ∀ c ∈ q.setValues.map (fun fv => fv.fd.fieldName), c ∈ (db q.tableName).cols := by
    intro c hm
    obtain ⟨fv, hfv, rfl⟩ := List.mem_map.mp hm
    exact hin fv hfv
  rw [if_pos ⟨hnd, by simp [hl], hin'⟩]
  have : (ns.map fun n => cellOf (bound 0 vss.flatten n)) = (vss.filterMap List.getLast?).map cellOf := by
    rw [← h3, List.map_map]; rfl
  rw [this]
  rfl

/-! ## UPDATE -/

/-- The builder that sets each field to the first of its values. -/
def firstOnly (q : UpdateB) (vs : List Val) : UpdateB :=
  { q with setValues := List.zipWith (fun fv v => (⟨fv.fd, .valuer v false⟩ : FieldValue)) q.setValues vs }

theorem firstOnly_build (q : UpdateB) (vss : List (List Val)) (wv : List Val)
    (hc : q.where_.conds ≠ []) (hs : q.setValues ≠ []) (ht : q.tableName ≠ [])
    (hv : q.setValues.map FieldValue.values = vss.map .ok) (hw : q.where_.values = .ok wv) (hne : [] ∉ vss) :
    (firstOnly q (vss.filterMap List.head?)).build = q.build ∧
    (firstOnly q (vss.filterMap List.head?)).setValues.map (fun fv => fv.fd.fieldName) =
      q.setValues.map (fun fv => fv.fd.fieldName) ∧
    (firstOnly q (vss.filterMap List.head?)).setValues.map FieldValue.values =
      (vss.filterMap List.head?).map (fun v => .ok [v]) := by
  obtain ⟨w, hr, hb, hlen, -⟩ := (C04_exact q vss wv hc hs ht hv hw).2 hne
  generalize vss.filterMap List.head? = hd at *
  have e1 : ∀ (l : List FieldValue) (hd : List Val), hd.length = l.length →
      (List.zipWith (fun fv v => (⟨fv.fd, .valuer v false⟩ : FieldValue)) l hd).map (fun fv => fv.fd.fieldName) =
        l.map (fun fv => fv.fd.fieldName) ∧
      (List.zipWith (fun fv v => (⟨fv.fd, .valuer v false⟩ : FieldValue)) l hd).map FieldValue.values =
        hd.map (fun v => .ok [v]) := by
    intro l
    induction l with
    | nil =>
      intro hd h
      cases hd with
      | nil => exact ⟨rfl, rfl⟩
      | cons _ _ => simp at h
    | cons fv l ih =>
      intro hd h
      cases hd with
      | nil => simp at h
      | cons v hd =>
        have := ih hd (by simpa using h)
        simp only [List.zipWith_cons_cons, List.map_cons, this.1, this.2]
        exact ⟨trivial, rfl⟩
  obtain ⟨e1, e2⟩ := e1 q.setValues hd hlen
  refine ⟨?_, e1, e2⟩
  have hs' : (firstOnly q hd).setValues ≠ [] := by
    intro e
    have := congrArg List.length e1
    have e' : (List.zipWith (fun fv v => (⟨fv.fd, .valuer v false⟩ : FieldValue)) q.setValues hd) = [] := e
    rw [e'] at this
    simp only [List.map_nil, List.length_nil, List.length_map] at this
    exact hs (List.length_eq_zero_iff.mp this.symm)
  obtain ⟨w', hr', hb', -⟩ := C04_update_partial (firstOnly q hd) hd wv hc hs' ht e2 hw
  have : q.where_.render hd.length = .ok w' := hr'
  rw [hlen, hr] at this
  cases this
  rw [hb, hb', show (firstOnly q hd).setValues.map (fun fv => fv.fd.fieldName) = _ from e1]
  rfl

/-- **C45 is false** with a slice among the values: the column is set to the first element and the rest is dropped. -/
theorem C45_slice_false :
    let q : UpdateB := ((update (.str c!"t")).set [⟨⟨c!"f", [], []⟩, .strs [c!"a", c!"b"]⟩]).addWhere [.null ⟨lAND, false⟩ ⟨c!"g", [], []⟩]
    q.build = .ok (c!"UPDATE t SET f=$1 WHERE g IS NULL", [.str c!"a"]) ∧
    readStmt c!"UPDATE t SET f=$1 WHERE g IS NULL" = some (.update c!"t" [(c!"f", 1)] (.atom (.isNull c!"g"))) ∧
    bound 0 [.str c!"a"] 1 = .str c!"a" := ⟨rfl, by decide, rfl⟩

/-- **C45, exactly.**  For any values, `vss` being what their `Values()` return: with an empty one the build panics; otherwise the
text reads back to the builder's table, its columns in order, each with a placeholder bound to the first of its values, and its
condition. -/
theorem C45_exact (q : UpdateB) (vss : List (List Val)) (hs : q.setValues ≠ []) (ht : PlainName q.tableName)
    (hf : ∀ fv ∈ q.setValues, PlainIdent fv.fd.fieldName) (hv : q.setValues.map FieldValue.values = vss.map .ok)
    (hc : q.where_.toCond.Readable) :
    ([] ∈ vss → q.build = .panic .index) ∧
    ([] ∉ vss → ∃ sql params sets e, q.build = .ok (sql, params) ∧ readStmt sql = some (.update q.tableName sets e) ∧
      sets.map (·.1) = q.setValues.map (fun fv => fv.fd.fieldName) ∧
      sets.map (fun p => bound 0 params p.2) = vss.filterMap List.head? ∧ CondRead q.where_.toCond params e) := by
  obtain ⟨s, wv, e, h1, h2, -⟩ := cond_read q.where_.toCond [] [] hc
  have hcc : q.where_.conds ≠ [] := (readable_group.mp hc).1
  refine ⟨(C04_exact q vss wv hcc hs ht.1 hv h2).1, fun hne => ?_⟩
  obtain ⟨f1, f2, f3⟩ := firstOnly_build q vss wv hcc hs ht.1 hv h2 hne
  have hs' : (firstOnly q (vss.filterMap List.head?)).setValues ≠ [] := by
    intro e
    have := congrArg List.length f2
    rw [e] at this
    simp only [List.map_nil, List.length_nil, List.length_map] at this
    exact hs (List.length_eq_zero_iff.mp this.symm)
  have hf' : ∀ fv ∈ (firstOnly q (vss.filterMap List.head?)).setValues, PlainIdent fv.fd.fieldName := by
    intro fv hfv
    have : fv.fd.fieldName ∈ q.setValues.map (fun fv => fv.fd.fieldName) := by
      rw [← f2]
      exact List.mem_map.mpr ⟨fv, hfv, rfl⟩
    obtain ⟨fv', h', he⟩ := List.mem_map.mp this
    rw [← he]
    exact hf fv' h'
  obtain ⟨sql, params, sets, e, k1, k2, k3, k4, k5⟩ :=
    C45_update_partial (firstOnly q (vss.filterMap List.head?)) (vss.filterMap List.head?) hs' ht hf' f3 hc
  exact ⟨sql, params, sets, e, f1 ▸ k1, k2, k3.trans f2, k4, k5⟩

example : let q : UpdateB := ⟨doUpdate, c!"t", ⟨newBase lAND false, [exLeaf lAND true c!"a" 1], false⟩, [⟨⟨c!"f", [], []⟩, .strs [c!"p", c!"q"]⟩]⟩
    q.setValues.map FieldValue.values = [[Val.str c!"p", .str c!"q"]].map .ok ∧ q.where_.toCond.Readable ∧
    [] ∉ [[Val.str c!"p", .str c!"q"]] :=
  ⟨rfl, readable_group.mpr ⟨by simp, by simp, by simpa using exA⟩, by simp⟩

/-- **C62, exactly**, for values of any kind that supply at least one parameter each: the columns are set to the first parameter of
each. -/
theorem C62_exact (eng : Engine) (db : Db) (u : UpdateB) (vss : List (List Val)) (hs : u.setValues ≠ [])
    (ht : PlainName u.tableName) (hf : ∀ fv ∈ u.setValues, PlainIdent fv.fd.fieldName)
    (hv : u.setValues.map FieldValue.values = vss.map .ok) (hne : [] ∉ vss) (hc : u.where_.toCond.Readable)
    (hl : ∀ l ∈ u.where_.toCond.leaves, Scope.has [(u.tableName, (db u.tableName).cols)] (colRef l.col) = true)
    (hnd : (u.setValues.map fun fv => fv.fd.fieldName).Nodup) (hin : ∀ fv ∈ u.setValues, fv.fd.fieldName ∈ (db u.tableName).cols)
    (y : Rec → Tri)
    (hy : ∀ r ∈ (db u.tableName).rows, TextMeans u.where_.toCond (eng.row ((db u.tableName).env u.tableName r)) (y r)) :
    ∃ sql params, u.build = .ok (sql, params) ∧
      runStmt eng db sql params = some (db.set u.tableName ((db u.tableName).withRows ((db u.tableName).rows.map fun r =>
        if y r = .t then setCols (u.setValues.map fun fv => fv.fd.fieldName) (vss.filterMap List.head?) r else r))) := by
  obtain ⟨s, wv, e, h1, h2, -⟩ := cond_read u.where_.toCond [] [] hc
  have hcc : u.where_.conds ≠ [] := (readable_group.mp hc).1
  obtain ⟨f1, f2, f3⟩ := firstOnly_build u vss wv hcc hs ht.1 hv h2 hne
  have hs' : (firstOnly u (vss.filterMap List.head?)).setValues ≠ [] := by
    intro e
    have := congrArg List.length f2
    rw [e] at this
    simp only [List.map_nil, List.length_nil, List.length_map] at this
    exact hs (List.length_eq_zero_iff.mp this.symm)
  have hm : ∀ fv ∈ (firstOnly u (vss.filterMap List.head?)).setValues, ∃ fv' ∈ u.setValues, fv'.fd.fieldName = fv.fd.fieldName := by
    intro fv hfv
    have : fv.fd.fieldName ∈ u.setValues.map (fun fv => fv.fd.fieldName) := by
      rw [← f2]
      exact List.mem_map.mpr ⟨fv, hfv, rfl⟩
    obtain ⟨fv', h', he⟩ := List.mem_map.mp this
    exact ⟨fv', h', he⟩
  obtain ⟨sql, params, k1, k2⟩ := C62_update_partial eng db (firstOnly u (vss.filterMap List.head?)) (vss.filterMap List.head?) hs' ht
    (fun fv hfv => by obtain ⟨g, hg, e⟩ := hm fv hfv; exact e ▸ hf g hg) f3 hc hl (by rw [f2]; exact hnd)
    (fun fv hfv => by obtain ⟨g, hg, e⟩ := hm fv hfv; exact e ▸ hin g hg) y hy
  refine ⟨sql, params, f1 ▸ k1, ?_⟩
  rw [k2, f2]
  rfl

end Query
