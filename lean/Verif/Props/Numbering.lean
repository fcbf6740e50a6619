import Verif.Proof.Build
/-!
# C01–C05: placeholders and parameters
-/
namespace Query

/-! ## C01 -/

/-- **C01.** For a condition of any shape whose comparisons (other than IN) carry one parameter each, over names without
a dollar sign: if `Values()` returns `vs`, then `Render(k)` returns a text whose placeholders are exactly
`$k+1 … $k+len(vs)`, from left to right, each once. -/
theorem C01_condition_placeholders (c : Cond) (k : Nat) (vs : List Val) (hc : c.Every NumberedNode)
    (hv : c.values = .ok vs) : ∃ s, c.render k = .ok s ∧ dollars s = numbersFrom k vs.length :=
  ⟨c.renderP k, Cond.render_pure c vs hv k, by rw [dollars_render c k hc vs hv, Cond.values_pure c vs hv]⟩

/-- `NOT (a=$1 OR t.b IN ($2,$3) AND c IS NULL)`: a condition meeting the hypotheses of C01. -/
def exampleCond : Cond :=
  .group ⟨lAND, true⟩
    [.fieldc .eq ⟨lAND, false⟩ ⟨⟨c!"a", [], []⟩, .other 1⟩,
     .fieldc .inn ⟨lOR, false⟩ ⟨⟨c!"b", c!"t", []⟩, .strs [c!"x", c!"y"]⟩,
     .null ⟨lAND, false⟩ ⟨c!"c", [], []⟩] false

example : exampleCond.Every NumberedNode ∧ exampleCond.values = .ok [.other 1, .str c!"x", .str c!"y"] ∧
    exampleCond.render 4 = .ok c!"NOT (a=$5 OR t.b IN ($6,$7) AND c IS NULL)" := by
  refine ⟨?_, rfl, by decide⟩
  simp only [exampleCond, Cond.Every, Cond.EveryL, NumberedNode, FieldDef.Free, OneParam]
  refine ⟨by simp [Cond.joinType, Cond.base, lAND, lOR], ⟨by decide, .other 1, rfl⟩, by decide, by decide, trivial⟩

/-! ## C02 -/

/-- **C02, what holds.** For each library constructor and any Go value: `Render` has one placeholder for comparisons and
LIKE/ILIKE and one per value for IN, so the counts agree exactly when the condition is an IN or supplies one value.

Missing for the full claim: it is false for comparisons given a `[]string` or a slice of valuers, see
`C02_count_false`. -/
theorem C02_count_partial (k : Kind) (b : CondBase) (fv : FieldValue) (n : Nat) (s : Str) (vs : List Val)
    (hf : fv.fd.Free '$') (hr : (Cond.fieldc k b fv).render n = .ok s) (hv : (Cond.fieldc k b fv).values = .ok vs) :
    (dollars s).length = vs.length ↔ k = .inn ∨ vs.length = 1 := by
  have hr' := Cond.render_pure _ _ hv n
  rw [hr'] at hr
  simp only [Res.ok.injEq] at hr
  subst hr
  simp only [Cond.values] at hv
  cases k <;> simp only [Cond.renderP, fieldcRenderP] <;>
    first
    | (rw [dollars_renderCmp _ _ _ _ hf]; simp; omega)
    | (rw [dollars_renderLike _ _ _ _ hf]; simp; omega)
    | skip
  rw [dollars_renderIn _ _ _ _ hf]
  simp only [fieldcValues] at hv
  simp [hv, numbersFrom_length]

example : (Cond.fieldc .inn ⟨lAND, false⟩ ⟨⟨c!"a", [], []⟩, .strs [c!"x", c!"y"]⟩).render 0 = .ok c!"a IN ($1,$2)" := by
  decide

/-- **C02 is false**: `EqualTo("f", []string{"a","b"})` renders one placeholder and supplies two values. -/
theorem C02_count_false : ¬ ∀ (fn : Str) (v : Val) (c : Cond) (s : Str) (vs : List Val),
    equalTo fn v = .ok c → c.render 0 = .ok s → c.values = .ok vs → (dollars s).length = vs.length := by
  intro h
  have := h c!"f" (.strs [c!"a", c!"b"]) (.fieldc .eq ⟨lAND, false⟩ ⟨⟨c!"f", [], []⟩, .strs [c!"a", c!"b"]⟩)
    c!"f=$1" [.str c!"a", .str c!"b"] rfl (by decide) rfl
  revert this
  decide

/-! ## C03 -/

/-- A many-row build: the base build, then a placeholder for the offset (if positive) and one for the limit (if positive)
counting on from the parameters of the base. -/
theorem many_build_dollars (q : SelectMany) (sql : Str) (params : List Val) (ho : ∀ o ∈ q.order, o.Free '$')
    (h : q.build = .ok (sql, params)) :
    ∃ sql0 params0, q.base.build = .ok (sql0, params0) ∧
      params = params0 ++ (if q.offset > 0 then [.uint q.offset] else []) ++
        (if q.limit > 0 then [.uint q.limit.toNat] else []) ∧
      dollars sql = dollars sql0 ++ numbersFrom params0.length (params.length - params0.length) := by
  simp only [SelectMany.build, Res.bind_eq_ok, Res.ok.injEq, Prod.mk.injEq, Prod.exists] at h
  obtain ⟨s, p, hb, hs, hp⟩ := h
  refine ⟨s, p, hb, ?_, ?_⟩
  · rw [← hp]
    by_cases h2 : q.offset > 0 <;> by_cases h3 : q.limit > 0 <;> simp [h2, h3]
  · have h1 : dollars (if q.order.length > 0 then s ++ c!" ORDER BY " ++ orderLoop q.order 0 else s) = dollars s := by
      split
      · rw [List.append_assoc, dollars_append _ _ (by rfl)]
        rw [dollars_free_append _ _ (by decide), dollars_of_free _ (orderLoop_free q.order 0 ho (by decide))]
        simp
      · rfl
    have tail : ∀ (pre : Str) (t : Str) (k : Nat), '$' ∉ t → noDigitHead t = true → t ≠ [] →
        dollars (pre ++ (t ++ ['$']) ++ itoa k) = dollars pre ++ [k] := by
      intro pre t k h1 h2 h3
      rw [List.append_assoc, dollars_append _ _ (by
        cases t with
        | nil => exact absurd rfl h3
        | cons c t => simpa [noDigitHead] using h2)]
      rw [List.append_assoc, dollars_free_append _ _ h1]
      rw [List.singleton_append, dollars_placeholder]
    rw [← hs, ← hp]
    by_cases h2 : q.offset > 0 <;> by_cases h3 : q.limit > 0 <;> simp only [h2, h3, if_true, if_false]
    · have e1 := tail (pre := (if q.order.length > 0 then s ++ c!" ORDER BY " ++ orderLoop q.order 0 else s))
        c!" OFFSET " (p.length + 1) (by decide) rfl (by decide)
      have e2 := fun pre => tail (pre := pre) c!" LIMIT " (p.length + 2) (by decide) rfl (by decide)
      simp only [List.cons_append, List.nil_append, List.length_append, List.length_cons, List.length_nil] at e1 e2 ⊢
      rw [e2, e1, h1, show p.length + (0 + 1) + (0 + 1) - p.length = 2 by omega, List.append_assoc]
      rfl
    · have e1 := tail (pre := (if q.order.length > 0 then s ++ c!" ORDER BY " ++ orderLoop q.order 0 else s))
        c!" OFFSET " (p.length + 1) (by decide) rfl (by decide)
      simp only [List.cons_append, List.nil_append, List.length_append, List.length_cons, List.length_nil] at e1 ⊢
      rw [e1, h1, show p.length + (0 + 1) - p.length = 1 by omega]
      simp [numbersFrom]
    · have e1 := tail (pre := (if q.order.length > 0 then s ++ c!" ORDER BY " ++ orderLoop q.order 0 else s))
        c!" LIMIT " (p.length + 1) (by decide) rfl (by decide)
      simp only [List.cons_append, List.nil_append, List.length_append, List.length_cons, List.length_nil] at e1 ⊢
      rw [e1, h1, show p.length + (0 + 1) - p.length = 1 by omega]
      simp [numbersFrom]
    · rw [h1]
      simp [numbersFrom]

/-- A count build: the placeholders are those of its where text. -/
theorem count_build_dollars (q : CountB) (sql : Str) (params : List Val) (hf : q.base.HeadFree '$')
    (hc : q.countField.Free '$') (h : q.build = .ok (sql, params)) :
    (q.base.where_.conditions = [] ∧ dollars sql = [] ∧ params = []) ∨
    (q.base.where_.conditions ≠ [] ∧ ∃ w, q.base.where_.group.render 0 = .ok w ∧ q.base.where_.group.values = .ok params ∧
      dollars sql = dollars w) := by
  obtain ⟨ht, hj, -⟩ := hf
  have hfrom : '$' ∉ q.base.renderFrom := by
    apply not_mem_joinWith (by decide)
    intro x hx
    simp only [List.mem_cons, List.mem_map] at hx
    rcases hx with h | ⟨j, hjm, h⟩ <;> subst h
    · exact tableIdent_free ht (by decide)
    · exact joiner_free (hj j hjm)
  have hhead : '$' ∉ joinWith c!" " [operationString doSelect, kwCount ++ c!"(" ++ q.countField.renderField ++ c!")",
      kwFrom, q.base.renderFrom] := by
    apply not_mem_joinWith (by decide)
    intro x hx
    simp only [List.mem_cons, List.not_mem_nil, or_false] at hx
    rcases hx with h | h | h | h <;> subst h
    · decide
    · have := renderField_free hc (by decide)
      simp [kwCount, this]
    · decide
    · exact hfrom
  unfold CountB.build at h
  by_cases hl : q.base.where_.conditions.length > 0
  · simp only [hl, if_true, Res.bind_eq_ok, Res.ok.injEq, Prod.mk.injEq] at h
    obtain ⟨w, hr, vs, hv, hs, hp⟩ := h
    subst hp
    refine .inr ⟨by intro e; simp [e] at hl, w, hr, hv, ?_⟩
    rw [join_where _ _ (by simp)] at hs
    rw [← hs, List.append_assoc, dollars_free_append _ _ hhead, dollars_free_append _ _ (by decide)]
  · simp only [hl, if_false, Res.ok.injEq, Prod.mk.injEq] at h
    refine .inl ⟨by simpa using hl, ?_, h.2.symm⟩
    rw [← h.1, dollars_of_free _ hhead]

/-- **C03**, base select, comparisons with one value each (a slice in a comparison breaks it: `C03_slices_false`). -/
theorem C03_select_partial (q : BaseSelect) (sql : Str) (params : List Val) (hf : q.HeadFree '$')
    (hw : q.where_.group.toCond.Every NumberedNode) (h : q.build = .ok (sql, params)) :
    dollars sql = numbersFrom 0 params.length :=
  base_build_dollars q sql params hf hw h

/-- **C03**, single-row select. -/
theorem C03_single_partial (q : SelectSingle) (sql : Str) (params : List Val) (hf : q.base.HeadFree '$')
    (hw : q.base.where_.group.toCond.Every NumberedNode) (h : q.build = .ok (sql, params)) :
    dollars sql = numbersFrom 0 params.length := by
  simp only [SelectSingle.build, Res.bind_eq_ok, Res.ok.injEq, Prod.mk.injEq, Prod.exists] at h
  obtain ⟨s, p, hb, hs, hp⟩ := h
  subst hs hp
  rw [dollars_append _ _ (by rfl), base_build_dollars q.base s p hf hw hb]
  simp [dollars]

/-- **C03**, many-row select: the numbers are `$1 … $n`, the parameters are those of the base select followed by the
offset (if positive) and the limit (if positive), so OFFSET and LIMIT take the last numbers. -/
theorem C03_many_partial (q : SelectMany) (sql : Str) (params : List Val) (hf : q.base.HeadFree '$')
    (hw : q.base.where_.group.toCond.Every NumberedNode) (ho : ∀ o ∈ q.order, o.Free '$')
    (h : q.build = .ok (sql, params)) :
    dollars sql = numbersFrom 0 params.length ∧
    ∃ sql0 params0, q.base.build = .ok (sql0, params0) ∧
      params = params0 ++ (if q.offset > 0 then [.uint q.offset] else []) ++
        (if q.limit > 0 then [.uint q.limit.toNat] else []) := by
  obtain ⟨s, p, hb, hp, hd⟩ := many_build_dollars q sql params ho h
  refine ⟨?_, s, p, hb, hp⟩
  have hlen : params.length = p.length + (params.length - p.length) := by
    rw [hp]; simp only [List.length_append]; omega
  rw [hd, base_build_dollars q.base s p hf hw hb]
  conv => rhs; rw [hlen, numbersFrom_add]
  simp

/-- **C03**, count. -/
theorem C03_count_partial (q : CountB) (sql : Str) (params : List Val) (hf : q.base.HeadFree '$')
    (hc : q.countField.Free '$') (hw : q.base.where_.group.toCond.Every NumberedNode)
    (h : q.build = .ok (sql, params)) : dollars sql = numbersFrom 0 params.length := by
  rcases count_build_dollars q sql params hf hc h with ⟨-, h1, h2⟩ | ⟨-, w, hr, hv, hd⟩
  · rw [h1, h2]; rfl
  · obtain ⟨s, hs, hd2⟩ := group_render_dollars q.base.where_.group 0 hw params hv
    rw [hr] at hs
    simp only [Res.ok.injEq] at hs
    subst hs
    rw [hd, hd2]

/-- **C03 is false** of a comparison with a slice: one placeholder, two parameters, and OFFSET and LIMIT count on from the
parameters. -/
theorem C03_slices_false : ¬ ∀ (q : SelectMany) (sql : Str) (params : List Val), q.base.HeadFree '$' →
    q.build = .ok (sql, params) → dollars sql = numbersFrom 0 params.length := by
  intro h
  have := h ⟨⟨0, ⟨c!"t", []⟩, [], ⟨[]⟩,
      ⟨⟨⟨lAND, false⟩, [.fieldc .eq ⟨lAND, false⟩ ⟨⟨c!"f", [], []⟩, .strs [c!"a", c!"b"]⟩], false⟩⟩⟩, 5, 10, [], false⟩
    c!"SELECT * FROM t WHERE f=$1 OFFSET $3 LIMIT $4" [.str c!"a", .str c!"b", .uint 5, .uint 10]
    ⟨by simp [TableIdent.Free], by simp, by simp⟩ rfl
  revert this
  decide

/-- A many-select meeting the hypotheses of C03. -/
def exampleMany : SelectMany :=
  ⟨⟨0, ⟨c!"t", c!"x"⟩, [⟨⟨c!"u", []⟩, leftJoin, ⟨⟨c!"id", c!"x", []⟩, ⟨c!"tid", c!"u", []⟩⟩⟩],
    ⟨[⟨c!"id", c!"x", []⟩, ⟨c!"name", c!"u", c!"n"⟩]⟩, ⟨⟨⟨lAND, false⟩, [exampleCond], false⟩⟩⟩,
    5, 10, [⟨⟨c!"id", c!"x", []⟩, descending⟩], false⟩

example : exampleMany.base.HeadFree '$' ∧ exampleMany.base.where_.group.toCond.Every NumberedNode ∧
    (∀ o ∈ exampleMany.order, o.Free '$') ∧ exampleMany.build = .ok (
      c!"SELECT x.id, u.name AS n FROM t AS x LEFT JOIN u ON x.id=u.tid WHERE NOT (a=$1 OR t.b IN ($2,$3) AND c IS NULL) ORDER BY x.id DESC OFFSET $4 LIMIT $5",
      [.other 1, .str c!"x", .str c!"y", .uint 5, .uint 10]) := by
  refine ⟨?_, ?_, ?_, ?_⟩
  · simp [exampleMany, BaseSelect.HeadFree, TableIdent.Free, TableJoiner.Free, FieldDef.Free]
  · simp only [exampleMany, Group.toCond, exampleCond, Cond.Every, Cond.EveryL, NumberedNode, FieldDef.Free, OneParam]
    refine ⟨by simp, ⟨by simp [Cond.joinType, Cond.base, lAND, lOR], ⟨by decide, .other 1, rfl⟩, by decide, by decide,
      trivial⟩, trivial⟩
  · simp [exampleMany, FieldSorting.Free, FieldDef.Free, descending]
  · rfl

/-! ## C04 -/

/-- The SET list of an UPDATE: the `i`-th field with placeholder `$i`. -/
def setList (names : List Str) : Str :=
  joinWith c!", " (List.zipWith (fun name i => name ++ c!"=$" ++ itoa i) names (numbersFrom 0 names.length))

theorem setList_eq (names : List Str) : setList names =
    joinWith c!", " ((numbered 0 (names.map fun x => x ++ c!"=")).map fun p => p.1 ++ '$' :: itoa p.2) := by
  have h : ∀ k, List.zipWith (fun name i => name ++ c!"=$" ++ itoa i) names (numbersFrom k names.length) =
      (numbered k (names.map fun x => x ++ c!"=")).map fun p => p.1 ++ '$' :: itoa p.2 := by
    induction names with
    | nil => intro k; rfl
    | cons x xs ih =>
      intro k
      simp only [List.length_cons, List.map_cons, numbered]
      rw [Nat.add_comm xs.length 1, numbersFrom_add, numbersFrom_one, ← ih (k + 1)]
      simp
  rw [setList, h 0]

/-- **C04, what holds.** An update builder with at least one condition, one set value and a table name, whose set values
supply one parameter each, builds `UPDATE t SET f1=$1, …, fm=$m WHERE w` where `w` is the condition's text numbered from
`m + 1`; the parameters are the set values in order followed by the condition's values, and the placeholders are exactly
`$1 … $n`.

Missing for the full claim: a set value that is a slice of strings or valuers supplies several values, of which only the
first is kept, or panics when empty, see `C04_update_false`. -/
theorem C04_update_partial (q : UpdateB) (vs wv : List Val)
    (hc : q.where_.conds ≠ []) (hs : q.setValues ≠ []) (ht : q.tableName ≠ [])
    (hone : q.setValues.map FieldValue.values = vs.map fun v => .ok [v]) (hw : q.where_.values = .ok wv) :
    ∃ w, q.where_.render vs.length = .ok w ∧
      q.build = .ok (c!"UPDATE " ++ q.tableName ++ c!" SET " ++ setList (q.setValues.map fun fv => fv.fd.fieldName) ++
        c!" WHERE " ++ w, vs ++ wv) ∧
      ('$' ∉ q.tableName → (∀ fv ∈ q.setValues, '$' ∉ fv.fd.fieldName) → q.where_.toCond.Every NumberedNode →
        ∀ sql params, q.build = .ok (sql, params) → dollars sql = numbersFrom 0 params.length) := by
  have hlen : vs.length = q.setValues.length := by
    have := congrArg List.length hone
    simpa using this.symm
  have hr := Cond.render_pure _ _ hw vs.length
  have hbuild : q.build = .ok (c!"UPDATE " ++ q.tableName ++ c!" SET " ++
      setList (q.setValues.map fun fv => fv.fd.fieldName) ++ c!" WHERE " ++ q.where_.toCond.renderP vs.length,
      vs ++ wv) := by
    have h1 : ¬ q.where_.conds.length = 0 := by simpa using hc
    have h2 : ¬ q.setValues.length = 0 := by simpa using hs
    have h3 : ¬ q.tableName.length = 0 := by simpa using ht
    simp only [UpdateB.build, h1, h2, h3, if_false, UpdateB.fieldsAndValues, update_loop _ _ hone, Res.bind_ok, hw,
      setList_eq]
    simp only [Group.render, hr, Res.bind_ok, joinWith, kwUpdate, kwSet, kwWhere, List.map_map]
    simp [Function.comp_def]
  refine ⟨_, hr, hbuild, ?_⟩
  intro hf hff hwf sql params hb
  rw [hbuild] at hb
  simp only [Res.ok.injEq, Prod.mk.injEq] at hb
  obtain ⟨rfl, rfl⟩ := hb
  have hd := dollars_render q.where_.toCond vs.length hwf wv hw
  rw [Cond.values_pure _ _ hw] at hd
  have hset : dollars (setList (q.setValues.map fun fv => fv.fd.fieldName)) = numbersFrom 0 vs.length := by
    rw [setList_eq, dollars_items c!", " (by decide) rfl (by decide), numbered_snd]
    · simp [hlen]
    · intro p hp
      have := numbered_mem hp
      simp only [List.map_map, List.mem_map, Function.comp_apply] at this
      obtain ⟨fv, hfv, he⟩ := this
      rw [← he]
      simp [hff fv hfv]
  simp only [List.append_assoc]
  rw [dollars_free_append _ _ (by decide), dollars_free_append _ _ hf, dollars_free_append _ _ (by decide),
    dollars_append _ _ (by rfl), hset, dollars_free_append _ _ (by decide), hd, List.length_append, numbersFrom_add]
  simp

/-- An update builder meeting the hypotheses of C04. -/
def exampleUpdate : UpdateB :=
  ⟨doUpdate, c!"t", ⟨⟨lAND, false⟩, [exampleCond], false⟩,
    [⟨⟨c!"f", [], []⟩, .other 7⟩, ⟨⟨c!"g", [], []⟩, .valuer (.other 8) false⟩]⟩

example : exampleUpdate.where_.conds ≠ [] ∧ exampleUpdate.setValues ≠ [] ∧ exampleUpdate.tableName ≠ [] ∧
    exampleUpdate.setValues.map FieldValue.values = [Val.other 7, Val.other 8].map (fun v => .ok [v]) ∧
    exampleUpdate.build = .ok (c!"UPDATE t SET f=$1, g=$2 WHERE NOT (a=$3 OR t.b IN ($4,$5) AND c IS NULL)",
      [.other 7, .other 8, .other 1, .str c!"x", .str c!"y"]) := by
  refine ⟨by simp [exampleUpdate], by simp [exampleUpdate], by simp [exampleUpdate], rfl, rfl⟩

/-- **C04 is false** in general: `Update("t").Set(Field("f").Value([]string{"a","b"}))` binds `f` to "a" only, and the
empty slice panics. -/
theorem C04_update_false (w : Group) (hw : w.conds ≠ []) :
    (UpdateB.mk doUpdate c!"t" w [⟨⟨c!"f", [], []⟩, .strs [c!"a", c!"b"]⟩]).fieldsAndValues =
      .ok (c!"f=$1", [.str c!"a"]) ∧
    (UpdateB.mk doUpdate c!"t" w [⟨⟨c!"f", [], []⟩, .strs []⟩]).build = .panic .index := by
  refine ⟨rfl, ?_⟩
  have h1 : ¬ w.conds.length = 0 := by simpa using hw
  simp [UpdateB.build, hw, UpdateB.fieldsAndValues, UpdateB.loop, firstValue, FieldValue.values]

/-! ## C05 -/

/-- **C05, what holds.** An insert builder with a table name and at least one value, each supplying one parameter, builds
`INSERT INTO t(c1, …, cn) VALUES ($1, …, $n)` with the `i`-th parameter the database value of the `i`-th field value.

Missing for the full claim: values that are slices of strings or valuers, see `C05_insert_false`. -/
theorem C05_insert_partial (q : InsertB) (vs : List Val) (hs : q.setValues ≠ []) (ht : q.tableName ≠ [])
    (hone : q.setValues.map FieldValue.values = vs.map fun v => .ok [v]) :
    q.build = .ok (c!"INSERT INTO " ++ q.tableName ++ c!"(" ++
      joinWith c!", " (q.setValues.map fun fv => fv.fd.fieldName) ++ c!") VALUES (" ++
      joinWith c!", " ((numbersFrom 0 q.setValues.length).map fun i => '$' :: itoa i) ++ c!")", vs) ∧
    vs.length = q.setValues.length ∧
    ('$' ∉ q.tableName → (∀ fv ∈ q.setValues, '$' ∉ fv.fd.fieldName) →
      ∀ sql params, q.build = .ok (sql, params) → dollars sql = numbersFrom 0 params.length) := by
  have hlen : vs.length = q.setValues.length := by
    have := congrArg List.length hone
    simpa using this.symm
  have hbuild : q.build = .ok (c!"INSERT INTO " ++ q.tableName ++ c!"(" ++
      joinWith c!", " (q.setValues.map fun fv => fv.fd.fieldName) ++ c!") VALUES (" ++
      joinWith c!", " ((numbersFrom 0 q.setValues.length).map fun i => '$' :: itoa i) ++ c!")", vs) := by
    have h2 : ¬ q.setValues.length = 0 := by simpa using hs
    have h3 : ¬ q.tableName.length = 0 := by simpa using ht
    simp only [InsertB.build, h2, h3, if_false, insert_loop _ _ hone, Res.bind_ok]
    simp [joinWith, kwInsert, kwInto, kwValues]
  refine ⟨hbuild, hlen, ?_⟩
  intro hf hff sql params hb
  rw [hbuild] at hb
  simp only [Res.ok.injEq, Prod.mk.injEq] at hb
  obtain ⟨rfl, rfl⟩ := hb
  simp only [List.append_assoc]
  rw [dollars_free_append _ _ (by decide), dollars_free_append _ _ hf, dollars_free_append _ _ (by decide)]
  rw [dollars_free_append _ _ (not_mem_joinWith (by decide) (by
    intro x hx
    obtain ⟨fv, hfv, rfl⟩ := List.mem_map.mp hx
    exact hff fv hfv)), dollars_free_append _ _ (by decide), dollars_append _ _ (by rfl)]
  have := dollars_items c!", " (by decide) rfl (by decide)
    ((numbersFrom 0 q.setValues.length).map fun i => (([] : Str), i)) (by
      intro p hp
      obtain ⟨i, -, rfl⟩ := List.mem_map.mp hp
      simp)
  simp only [List.map_map, Function.comp_def, List.nil_append, List.map_id'] at this
  rw [this, hlen]
  simp [dollars]

example : (InsertB.mk doInsert c!"t" [⟨⟨c!"f", [], []⟩, .other 7⟩, ⟨⟨c!"g", [], []⟩, .provider (.other 8)⟩]).build =
    .ok (c!"INSERT INTO t(f, g) VALUES ($1, $2)", [.other 7, .other 8]) := rfl

/-- **C05 is false** in general: with a `[]string` value the placeholders skip numbers, so the next column is bound to a
wrong parameter; an empty slice first gives `$0`. -/
theorem C05_insert_false :
    (InsertB.mk doInsert c!"t" [⟨⟨c!"f", [], []⟩, .strs [c!"a", c!"b"]⟩, ⟨⟨c!"g", [], []⟩, .other 8⟩]).build =
      .ok (c!"INSERT INTO t(f, g) VALUES ($2, $3)", [.str c!"a", .str c!"b", .other 8]) ∧
    (InsertB.mk doInsert c!"t" [⟨⟨c!"f", [], []⟩, .strs []⟩, ⟨⟨c!"g", [], []⟩, .other 8⟩]).build =
      .ok (c!"INSERT INTO t(f, g) VALUES ($0, $1)", [.other 8]) := ⟨rfl, rfl⟩

end Query
