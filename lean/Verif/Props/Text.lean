import Verif.Proof.Dialect
import Verif.Props.Numbering
/-!
# C06, C07: what the text depends on
-/
namespace Query

/-! ## C06 -/

/-- **C06**, conditions and where clauses: the `?` text is the numbered text with every `$<digits>` replaced by `?`. -/
theorem C06_condition_dialects (c : Cond) (k : Nat) (vs : List Val) (hc : c.Every DialectNode)
    (hv : c.values = .ok vs) : ∃ s, c.render k = .ok s ∧ c.renderSQL = .ok (toQ s) :=
  ⟨c.renderP k, Cond.render_pure c vs hv k, by rw [Cond.renderSQL_pure c vs hv, toQ_render c k hc]⟩

example : exampleCond.render 4 = .ok c!"NOT (a=$5 OR t.b IN ($6,$7) AND c IS NULL)" ∧
    exampleCond.renderSQL = .ok c!"NOT (a=? OR t.b IN (?,?) AND c IS NULL)" ∧ exampleCond.Every DialectNode := by
  refine ⟨by decide, by decide, ?_⟩
  simp only [exampleCond, Cond.Every, Cond.EveryL, DialectNode, FieldDef.Free]
  refine ⟨by simp [Cond.joinType, Cond.base, lAND, lOR], by decide, by decide, by decide, trivial⟩

/-- **C06**, limiters. -/
theorem C06_limiter_dialects (l : Limiter) (k : Nat) : l.renderSQL = toQ (l.render k) := by
  unfold Limiter.renderSQL Limiter.render
  have e1 : ∀ n, toQ (c!"OFFSET $" ++ itoa n) = c!"OFFSET ?" := fun n => by
    have h := toQ_free_append c!"OFFSET " ('$' :: itoa n) (by decide)
    simpa [toQ_placeholder] using h
  have e2 : ∀ n, toQ (c!"LIMIT $" ++ itoa n) = c!"LIMIT ?" := fun n => by
    have h := toQ_free_append c!"LIMIT " ('$' :: itoa n) (by decide)
    simpa [toQ_placeholder] using h
  by_cases h1 : l.offset > 0 <;> by_cases h2 : l.limit > 0 <;> simp only [h1, h2, if_true, if_false, List.nil_append]
  · have h3 : ∀ n, (c!"OFFSET $" ++ itoa n).length > 0 := by simp
    rw [if_pos (h3 _), List.append_assoc, List.append_assoc, toQ_append (c!"OFFSET $" ++ itoa (k + 1)) _ (by rfl), e1,
      toQ_free_append c!" " _ (by decide), e2]
    rfl
  · exact (e1 _).symm
  · simpa using (e2 _).symm
  · rfl

example : (Limiter.mk 10 5).render 3 = c!"OFFSET $4 LIMIT $5" := by decide

/-- **C06**, select builders (`Render`/`RenderSQL` of the base select, which the many and single builders promote). -/
theorem C06_select_dialects (q : BaseSelect) (m : SelectMany) (hm : m.base = q) (s1 : SelectSingle) (h1 : s1.base = q)
    (k : Nat) (vs : List Val) (hf : q.HeadFree '$')
    (hc : q.where_.group.toCond.Every DialectNode) (hv : q.values = .ok vs) :
    ∃ s, q.render k = .ok s ∧ q.renderSQL = .ok (toQ s) ∧ m.render k = .ok s ∧ m.renderSQL = .ok (toQ s) ∧
      s1.render k = .ok s ∧ s1.renderSQL = .ok (toQ s) := by
  suffices ∃ s, q.render k = .ok s ∧ q.renderSQL = .ok (toQ s) by
    obtain ⟨s, ha, hb⟩ := this
    subst hm
    refine ⟨s, ha, hb, ha, hb, ?_, ?_⟩
    · rw [SelectSingle.render, h1]; exact ha
    · rw [SelectSingle.renderSQL, h1]; exact hb
  clear hm h1
  have hh : '$' ∉ joinWith c!" " q.headTokens := not_mem_joinWith (by decide) (headTokens_free hf)
  unfold BaseSelect.render BaseSelect.renderSQL
  unfold BaseSelect.values at hv
  by_cases hl : q.where_.conditions.length > 0
  · rw [if_pos hl] at hv ⊢
    rw [if_pos hl]
    obtain ⟨s, h1, h2⟩ := C06_condition_dialects q.where_.group.toCond k vs hc hv
    refine ⟨_, by simp only [WhereClause.render, Group.render, h1, Res.bind_ok]; rfl, ?_⟩
    simp only [WhereClause.renderSQL, Group.renderSQL, h2, Res.bind_ok]
    rw [join_where _ _ (headTokens_ne q), join_where _ _ (headTokens_ne q), List.append_assoc, List.append_assoc,
      toQ_free_append _ _ hh, toQ_free_append _ _ (by decide)]
  · rw [if_neg hl, if_neg hl]
    exact ⟨_, rfl, by rw [toQ_free _ hh]⟩

example : exampleMany.base.renderSQL = .ok
    c!"SELECT x.id, u.name AS n FROM t AS x LEFT JOIN u ON x.id=u.tid WHERE NOT (a=? OR t.b IN (?,?) AND c IS NULL)" := by
  decide

/-! ## C07 -/

/-- Two values supply the same number of parameters. -/
def SameCount (x y : Res (List Val)) : Prop := ∃ vs ws, x = .ok vs ∧ y = .ok ws ∧ vs.length = ws.length

/-- The same field with values that supply the same number of parameters. -/
def FieldValue.SameShape (x y : FieldValue) : Prop := x.fd = y.fd ∧ SameCount x.values y.values

mutual
/-- The same condition up to the values it holds: the values may differ but supply as many parameters.  A user's own
condition must itself not print its values. -/
def Cond.SameShape : Cond → Cond → Prop
  | .fieldc k b fv, .fieldc k' b' fv' =>
    k = k' ∧ b = b' ∧ fv.fd = fv'.fd ∧ SameCount (fieldcValues k fv) (fieldcValues k' fv')
  | .null b fd, .null b' fd' => b = b' ∧ fd = fd'
  | .custom b x, .custom b' x' =>
    b = b' ∧ x.fd = x'.fd ∧ x.text = x'.text ∧ x.textSQL = x'.textSQL ∧ x.vals.length = x'.vals.length
  | .group b cs br, .group b' cs' br' => b = b' ∧ br = br' ∧ Cond.SameShapeL cs cs'
  | _, _ => False
/-- `SameShape` pointwise. -/
def Cond.SameShapeL : List Cond → List Cond → Prop
  | [], [] => True
  | c :: cs, d :: ds => c.SameShape d ∧ Cond.SameShapeL cs ds
  | _, _ => False
end

theorem SameShapeL_length : ∀ (cs ds : List Cond), Cond.SameShapeL cs ds → cs.length = ds.length
  | [], [], _ => rfl
  | [], _ :: _, h => by simp [Cond.SameShapeL] at h
  | _ :: _, [], h => by simp [Cond.SameShapeL] at h
  | c :: cs, d :: ds, h => by
    simp only [Cond.SameShapeL] at h
    simp [SameShapeL_length cs ds h.2]

theorem SameShape_base (c d : Cond) (h : c.SameShape d) : c.base = d.base := by
  cases c <;> cases d <;> simp only [Cond.SameShape] at h <;> first | exact h.2.1 | exact h.1 | exact absurd h id

theorem fieldc_text (k : Kind) (b : CondBase) (fv fv' : FieldValue) (n : Nat) (hf : fv.fd = fv'.fd)
    (h : SameCount (fieldcValues k fv) (fieldcValues k fv')) :
    fieldcRender k b fv n = fieldcRender k b fv' n ∧ fieldcRenderSQL k b fv = fieldcRenderSQL k b fv' := by
  obtain ⟨vs, ws, h1, h2, h3⟩ := h
  cases k <;> simp_all [fieldcRender, fieldcRenderSQL, fieldcValues]

mutual
theorem sameShape_values (c d : Cond) (h : c.SameShape d) : SameCount c.values d.values := by
  cases c <;> cases d <;> simp only [Cond.SameShape] at h
  case fieldc.fieldc => exact h.2.2.2
  case null.null => exact ⟨[], [], rfl, rfl, rfl⟩
  case custom.custom => exact ⟨_, _, rfl, rfl, h.2.2.2.2⟩
  case group.group => exact sameShapeL_values _ _ h.2.2
theorem sameShapeL_values (cs ds : List Cond) (h : Cond.SameShapeL cs ds) :
    SameCount (Cond.valuesL cs) (Cond.valuesL ds) := by
  cases cs <;> cases ds <;> simp only [Cond.SameShapeL] at h
  case nil.nil => exact ⟨[], [], rfl, rfl, rfl⟩
  case cons.cons c cs d ds =>
    obtain ⟨v1, w1, h1, h2, h3⟩ := sameShape_values c d h.1
    obtain ⟨v2, w2, h4, h5, h6⟩ := sameShapeL_values cs ds h.2
    exact ⟨v1 ++ v2, w1 ++ w2, by simp [Cond.valuesL, h1, h4], by simp [Cond.valuesL, h2, h5], by simp [h3, h6]⟩
end

mutual
theorem sameShape_text (c d : Cond) (h : c.SameShape d) (n : Nat) :
    c.render n = d.render n ∧ c.renderSQL = d.renderSQL := by
  cases c <;> cases d <;> simp only [Cond.SameShape] at h
  case fieldc.fieldc k b fv k' b' fv' =>
    obtain ⟨rfl, rfl, h3, h4⟩ := h
    exact fieldc_text k b fv fv' n h3 h4
  case null.null => obtain ⟨rfl, rfl⟩ := h; exact ⟨rfl, rfl⟩
  case custom.custom => obtain ⟨rfl, h2, h3, h4, _⟩ := h; simp [Cond.render, Cond.renderSQL, h2, h3, h4]
  case group.group b cs br b' cs' br' =>
    obtain ⟨rfl, rfl, h3⟩ := h
    have hl := SameShapeL_length cs cs' h3
    obtain ⟨h4, h5⟩ := sameShapeL_text cs cs' h3 true n
    simp only [Cond.render, Cond.renderSQL, hl, h4, h5, and_self]
theorem sameShapeL_text (cs ds : List Cond) (h : Cond.SameShapeL cs ds) (f : Bool) (n : Nat) :
    Cond.renderL cs f n = Cond.renderL ds f n ∧ Cond.renderSQLL cs f = Cond.renderSQLL ds f := by
  cases cs <;> cases ds <;> simp only [Cond.SameShapeL] at h
  case nil.nil => exact ⟨rfl, rfl⟩
  case cons.cons c cs d ds =>
    obtain ⟨h1, h2⟩ := sameShape_text c d h.1 n
    obtain ⟨v1, w1, h3, h4, h5⟩ := sameShape_values c d h.1
    have hb := SameShape_base c d h.1
    obtain ⟨h6, h7⟩ := sameShapeL_text cs ds h.2 false (n + w1.length)
    have hj : joinToken c f = joinToken d f := by simp [joinToken, hb]
    simp [Cond.renderL, Cond.renderSQLL, h1, h2, h3, h4, h5, h6, h7, hj]
end

/-- **C07**, conditions: two conditions that differ only in values, with equally many parameters, have the same text in
both dialects. -/
theorem C07_condition_text (c d : Cond) (h : c.SameShape d) (k : Nat) :
    c.render k = d.render k ∧ c.renderSQL = d.renderSQL := sameShape_text c d h k

example : exampleCond.SameShape (.group ⟨lAND, true⟩
    [.fieldc .eq ⟨lAND, false⟩ ⟨⟨c!"a", [], []⟩, .str c!"1; DROP TABLE t"⟩,
     .fieldc .inn ⟨lOR, false⟩ ⟨⟨c!"b", c!"t", []⟩, .strs [c!"')", c!"$9"]⟩,
     .null ⟨lAND, false⟩ ⟨c!"c", [], []⟩] false) := by
  simp only [exampleCond, Cond.SameShape, Cond.SameShapeL]
  exact ⟨trivial, trivial, ⟨trivial, trivial, trivial, _, _, rfl, rfl, rfl⟩,
    ⟨trivial, trivial, trivial, _, _, rfl, rfl, rfl⟩, ⟨trivial, trivial⟩, trivial⟩

/-- The SQL text of a build, whatever the parameters. -/
def sqlOf (r : Res (Str × List Val)) : Res Str := r.bind fun x => .ok x.1

theorem base_sql (q : BaseSelect) (g : Group) (h : q.where_.group.toCond.SameShape g.toCond) :
    sqlOf q.build = sqlOf ({ q with where_ := ⟨g⟩ } : BaseSelect).build ∧
    SameCount (q.build.bind fun x => .ok x.2) (({ q with where_ := ⟨g⟩ } : BaseSelect).build.bind fun x => .ok x.2) := by
  obtain ⟨ht, _⟩ := sameShape_text _ _ h 0
  obtain ⟨vs, ws, hv1, hv2, hv3⟩ := sameShape_values _ _ h
  have hr := Cond.render_pure _ _ hv1 0
  have hl : q.where_.group.conds.length = g.conds.length := by
    simp only [Group.toCond, Cond.SameShape] at h
    exact SameShapeL_length _ _ h.2.2
  rw [hr] at ht
  unfold BaseSelect.build
  simp only [WhereClause.conditions, WhereClause.render, WhereClause.values, Group.render, Group.values, hr, ← ht, hv1,
    hv2, hl, Res.bind_ok]
  by_cases hz : g.conds.length > 0
  · rw [if_pos hz, if_pos hz]
    exact ⟨rfl, vs, ws, rfl, rfl, hv3⟩
  · rw [if_neg hz, if_neg hz]
    exact ⟨rfl, [], [], rfl, rfl, rfl⟩

/-- **C07**, select builders of all kinds: replacing the where clause by one of the same shape keeps the SQL. -/
theorem C07_select_text (q : SelectMany) (g : Group) (h : q.base.where_.group.toCond.SameShape g.toCond)
    (fd : FieldDef) :
    let base' : BaseSelect := { q.base with where_ := ⟨g⟩ }
    sqlOf q.base.build = sqlOf base'.build ∧
    sqlOf (SelectSingle.mk q.base).build = sqlOf (SelectSingle.mk base').build ∧
    sqlOf q.build = sqlOf ({ q with base := base' } : SelectMany).build ∧
    sqlOf (CountB.mk q.base fd).build = sqlOf (CountB.mk base' fd).build := by
  obtain ⟨h1, vs, ws, h2, h3, h4⟩ := base_sql q.base g h
  intro base'
  refine ⟨h1, ?_, ?_, ?_⟩
  · cases hb : q.base.build <;> cases hb' : base'.build <;>
      simp_all [sqlOf, SelectSingle.build, base']
  · cases hb : q.base.build <;> cases hb' : base'.build <;>
      simp_all [sqlOf, SelectMany.build, base']
    by_cases ho : q.offset > 0 <;> by_cases hl : q.limit > 0 <;> simp [ho, hl, h4]
  · obtain ⟨ht, _⟩ := sameShape_text _ _ h 0
    obtain ⟨vs, ws, hv1, hv2, hv3⟩ := sameShape_values _ _ h
    have hr := Cond.render_pure _ _ hv1 0
    have hl : q.base.where_.group.conds.length = g.conds.length := by
      simp only [Group.toCond, Cond.SameShape] at h
      exact SameShapeL_length _ _ h.2.2
    rw [hr] at ht
    have hbase : base'.renderFrom = q.base.renderFrom := rfl
    unfold CountB.build
    simp only [WhereClause.conditions, WhereClause.render, WhereClause.values, Group.render, Group.values, hr, hv1, hl,
      Res.bind_ok, hbase]
    simp only [base', ← ht, hv2, Res.bind_ok]
    by_cases hz : g.conds.length > 0
    · rw [if_pos hz, if_pos hz]; rfl
    · rw [if_neg hz, if_neg hz]

/-- **C07**, DELETE. -/
theorem C07_delete_text (q : DeleteB) (g : Group) (h : q.where_.toCond.SameShape g.toCond) :
    sqlOf q.build = sqlOf ({ q with where_ := g } : DeleteB).build := by
  obtain ⟨ht, _⟩ := sameShape_text _ _ h 0
  obtain ⟨vs, ws, hv1, hv2, hv3⟩ := sameShape_values _ _ h
  have hr := Cond.render_pure _ _ hv1 0
  have hl : q.where_.conds.length = g.conds.length := by
    simp only [Group.toCond, Cond.SameShape] at h
    exact SameShapeL_length _ _ h.2.2
  rw [hr] at ht
  unfold DeleteB.build
  simp only [Group.render, Group.values, hr, ← ht, hv1, hv2, hl, Res.bind_ok]
  by_cases hz : g.conds.length = 0
  · rw [if_pos hz, if_pos hz]
  · rw [if_neg hz, if_neg hz]
    by_cases hz : q.tableName.length = 0
    · rw [if_pos hz, if_pos hz]
    · rw [if_neg hz, if_neg hz]; rfl

/-- Lists of set values of the same shape. -/
inductive SameValues : List FieldValue → List FieldValue → Prop
  | nil : SameValues [] []
  | cons {x y xs ys} : x.SameShape y → SameValues xs ys → SameValues (x :: xs) (y :: ys)

theorem SameValues.length {xs ys : List FieldValue} (h : SameValues xs ys) : xs.length = ys.length := by
  induction h with
  | nil => rfl
  | cons _ _ ih => simp [ih]

theorem update_loop_text {xs ys : List FieldValue} (h : SameValues xs ys) (idx : Nat) :
    (∃ ps vs ws, UpdateB.loop xs idx = .ok (ps, vs) ∧ UpdateB.loop ys idx = .ok (ps, ws) ∧ vs.length = ws.length) ∨
    (∃ p, UpdateB.loop xs idx = .panic p ∧ UpdateB.loop ys idx = .panic p) := by
  induction h generalizing idx with
  | nil => exact .inl ⟨[], [], [], rfl, rfl, rfl⟩
  | @cons x y xs ys hxy hs ih =>
    obtain ⟨hf, vs, ws, h1, h2, h3⟩ := hxy
    simp only [UpdateB.loop, firstValue, h1, h2, Res.bind_ok]
    cases vs with
    | nil =>
      cases ws with
      | nil => exact .inr ⟨_, rfl, rfl⟩
      | cons w ws => simp at h3
    | cons v vs =>
      cases ws with
      | nil => simp at h3
      | cons w ws =>
        rcases ih (idx + 1) with ⟨ps, v2, w2, h4, h5, h6⟩ | ⟨p, h4, h5⟩
        · exact .inl ⟨(x.fd.fieldName ++ c!"=$" ++ itoa (idx + 1)) :: ps, v :: v2, w :: w2, by simp [h4], by simp [h5, hf],
            by simp [h6]⟩
        · exact .inr ⟨p, by simp [h4], by simp [h5]⟩

/-- **C07**, UPDATE: replacing set values and where clause by others of the same shape keeps the SQL. -/
theorem C07_update_text (q : UpdateB) (g : Group) (vs : List FieldValue) (h : q.where_.toCond.SameShape g.toCond)
    (hs : SameValues q.setValues vs) :
    sqlOf q.build = sqlOf ({ q with where_ := g, setValues := vs } : UpdateB).build := by
  obtain ⟨v1, w1, hv1, hv2, hv3⟩ := sameShape_values _ _ h
  have hl : q.where_.conds.length = g.conds.length := by
    simp only [Group.toCond, Cond.SameShape] at h
    exact SameShapeL_length _ _ h.2.2
  unfold UpdateB.build
  simp only [hl, hs.length, UpdateB.fieldsAndValues]
  by_cases hz : g.conds.length = 0
  · rw [if_pos hz, if_pos hz]
  rw [if_neg hz, if_neg hz]
  by_cases hz : vs.length = 0
  · rw [if_pos hz, if_pos hz]
  rw [if_neg hz, if_neg hz]
  by_cases hz : q.tableName.length = 0
  · rw [if_pos hz, if_pos hz]
  rw [if_neg hz, if_neg hz]
  rcases update_loop_text hs 0 with ⟨ps, v2, w2, h4, h5, h6⟩ | ⟨p, h4, h5⟩
  · obtain ⟨ht, _⟩ := sameShape_text _ _ h w2.length
    have hr := Cond.render_pure _ _ hv1 w2.length
    rw [hr] at ht
    simp [h4, h5, h6, Group.render, Group.values, hr, ← ht, hv1, hv2, sqlOf]
  · simp [h4, h5, sqlOf]

theorem insert_loop_text {xs ys : List FieldValue} (h : SameValues xs ys) (p1 p2 : List Val) (cols phs : List Str)
    (hp : p1.length = p2.length) :
    ∃ vs ws cs ps, InsertB.loop xs p1 cols phs = .ok (vs, cs, ps) ∧ InsertB.loop ys p2 cols phs = .ok (ws, cs, ps) := by
  induction h generalizing p1 p2 cols phs with
  | nil => exact ⟨_, _, _, _, rfl, rfl⟩
  | @cons x y xs ys hxy hs ih =>
    obtain ⟨hf, vs, ws, h1, h2, h3⟩ := hxy
    have hlen : (p1 ++ vs).length = (p2 ++ ws).length := by simp [hp, h3]
    simp only [InsertB.loop, h1, h2, Res.bind_ok, hf, hlen]
    exact ih _ _ _ _ hlen

/-- **C07**, INSERT. -/
theorem C07_insert_text (q : InsertB) (vs : List FieldValue) (hs : SameValues q.setValues vs) :
    sqlOf q.build = sqlOf ({ q with setValues := vs } : InsertB).build := by
  obtain ⟨v1, w1, cs, ps, h1, h2⟩ := insert_loop_text hs [] [] [] [] rfl
  unfold InsertB.build
  simp only [hs.length]
  by_cases hz : vs.length = 0
  · rw [if_pos hz, if_pos hz]
  rw [if_neg hz, if_neg hz]
  by_cases hz : q.tableName.length = 0
  · rw [if_pos hz, if_pos hz]
  rw [if_neg hz, if_neg hz]
  simp [h1, h2, sqlOf]

example : SameValues exampleUpdate.setValues
    [⟨⟨c!"f", [], []⟩, .str c!"x', g='y"⟩, ⟨⟨c!"g", [], []⟩, .nil⟩] :=
  .cons ⟨rfl, _, _, rfl, rfl, rfl⟩ (.cons ⟨rfl, _, _, rfl, rfl, rfl⟩ .nil)

end Query
