import Verif.Spec.Exact
import Verif.Props.Numbering
import Verif.Props.Write
import Verif.Props.Fields
import Verif.Proof.Stmt
/-!
# Exact forms of C01, C02, C03, C04, C05, C15, C17 and C31

The claims hold under hypotheses on values and shapes; here is what the code does without them.
-/
namespace Query

/-! ## C01 and C02 -/

theorem numbering_append (n : Nat) (a b : List Cond) :
    numbering n (a ++ b) = numbering n a ++ numbering (n + (a.map Cond.size).sum) b := by
  induction a generalizing n with
  | nil => simp [numbering]
  | cons c a ih => simp [numbering, ih, Nat.add_assoc]

theorem size_ok {c : Cond} {vs : List Val} (h : c.values = .ok vs) : c.size = vs.length := by simp [Cond.size, h]

mutual
theorem parts_sum (c : Cond) (vs : List Val) (h : c.values = .ok vs) : (c.parts.map Cond.size).sum = vs.length := by
  cases c with
  | fieldc k b fv => simp [Cond.parts, size_ok (c := .fieldc k ⟨c!"AND", b.negate⟩ fv) h]
  | null b fd => simp [Cond.parts, size_ok (c := .null ⟨c!"AND", b.negate⟩ fd) h]
  | custom b x => simp [Cond.parts, size_ok (c := .custom ⟨c!"AND", b.negate⟩ x) h]
  | group b cs br =>
    simp only [Cond.values] at h
    simp only [Cond.parts]
    exact partsL_sum cs vs h
theorem partsL_sum (cs : List Cond) (vs : List Val) (h : Cond.valuesL cs = .ok vs) :
    ((Cond.partsL cs).map Cond.size).sum = vs.length := by
  cases cs with
  | nil => simp [Cond.valuesL] at h; simp [Cond.partsL, h]
  | cons c cs =>
    simp only [Cond.valuesL, Res.bind_def, Res.pure_def, Res.bind_eq_ok, Res.ok.injEq] at h
    obtain ⟨v1, h1, v2, h2, rfl⟩ := h
    simp [Cond.partsL, parts_sum c v1 h1, partsL_sum cs v2 h2]
end

mutual
theorem dollars_exact (c : Cond) (n : Nat) (h : c.Every DollarFreeNode) (vs : List Val) (hv : c.values = .ok vs) :
    dollars (c.renderP n) = numbering n c.parts := by
  cases c with
  | fieldc k b fv =>
    simp only [Cond.Every, DollarFreeNode] at h
    simp only [Cond.values] at hv
    simp only [Cond.parts, numbering, List.append_nil]
    cases k <;> simp only [Cond.renderP, fieldcRenderP, partNumbers] <;>
      first
      | exact dollars_renderCmp _ _ _ _ h
      | exact dollars_renderLike _ _ _ _ h
      | skip
    rw [dollars_renderIn _ _ _ _ h]
    simp only [fieldcValues] at hv
    simp [Cond.size, Cond.values, fieldcValues, hv]
  | null b fd =>
    simp only [Cond.Every, DollarFreeNode] at h
    simp only [Cond.renderP, Cond.parts, numbering, partNumbers]
    rw [dollars_of_free _ (renderNull_free h)]
    rfl
  | custom b x => simp [Cond.renderP, Cond.parts, numbering, partNumbers]
  | group b cs br =>
    simp only [Cond.Every, DollarFreeNode] at h
    simp only [Cond.values] at hv
    simp only [Cond.renderP, Cond.parts]
    split
    · rename_i h0
      have : cs = [] := List.length_eq_zero_iff.mp h0
      subst this
      rfl
    · rw [dollars_wrapGroup]
      exact dollars_exactL cs true n h.2 (fun hf => by simp at hf) h.1 vs hv
theorem dollars_exactL (cs : List Cond) (f : Bool) (n : Nat) (h : Cond.EveryL DollarFreeNode cs)
    (hj0 : f = false → ∀ c ∈ cs.head?, c.joinType ≠ [] ∧ '$' ∉ c.joinType)
    (hj : ∀ c ∈ cs.drop 1, c.joinType ≠ [] ∧ '$' ∉ c.joinType) (vs : List Val) (hv : Cond.valuesL cs = .ok vs) :
    dollars (Cond.renderPL cs f n) = numbering n (Cond.partsL cs) := by
  cases cs with
  | nil => rfl
  | cons c cs =>
    simp only [Cond.EveryL] at h
    simp only [Cond.valuesL, Res.bind_def, Res.pure_def, Res.bind_eq_ok] at hv
    obtain ⟨v1, h1, v2, h2, _⟩ := hv
    have ih1 := dollars_exact c n h.1 v1 h1
    have hj' : ∀ d ∈ cs.head?, d.joinType ≠ [] ∧ '$' ∉ d.joinType := by
      intro d hd
      apply hj d
      simp only [List.drop_one, List.tail_cons]
      exact List.mem_of_mem_head? hd
    have hj'' : ∀ d ∈ cs.drop 1, d.joinType ≠ [] ∧ '$' ∉ d.joinType := by
      intro d hd
      apply hj d
      simp only [List.drop_one, List.tail_cons]
      exact List.mem_of_mem_drop hd
    have ih2 := dollars_exactL cs false (n + c.valuesP.length) h.2 (fun _ => hj') hj'' v2 h2
    simp only [Cond.renderPL, Cond.partsL, numbering_append, parts_sum c v1 h1, List.append_assoc]
    rw [Cond.values_pure c v1 h1] at ih2 ⊢
    have hfree : '$' ∉ joinToken c f := by
      cases f with
      | true => simp [joinToken_first]
      | false => exact joinToken_free c (hj0 rfl c (by simp)).2 (by decide)
    rw [dollars_free_append _ _ hfree]
    rw [dollars_append, ih1, ih2]
    cases cs with
    | nil => rfl
    | cons d ds =>
      simp only [Cond.renderPL, List.append_assoc]
      exact joinToken_head d _ (hj' d (by simp)).1
end

mutual
theorem parts_leaf (c : Cond) : ∀ d ∈ c.parts, ∀ b cs br, d ≠ .group b cs br := by
  cases c with
  | group b cs br => simp only [Cond.parts]; exact partsL_leaf cs
  | _ => simp [Cond.parts]
theorem partsL_leaf (cs : List Cond) : ∀ d ∈ Cond.partsL cs, ∀ b cs br, d ≠ .group b cs br := by
  cases cs with
  | nil => simp [Cond.partsL]
  | cons c cs =>
    intro d hd
    simp only [Cond.partsL, List.mem_append] at hd
    exact hd.elim (parts_leaf c d) (partsL_leaf cs d)
end

/-- **C01, exactly.**  Whatever its values: a condition of any shape over names without a dollar sign renders the
placeholders of its parts in sequence, each part counting on from the values of the parts before it.  (With one value for
each comparison this is `C01_condition_placeholders`.) -/
theorem C01_exact (c : Cond) (k : Nat) (vs : List Val) (hc : c.Every DollarFreeNode) (hv : c.values = .ok vs) :
    ∃ s, c.render k = .ok s ∧ dollars s = numbering k c.parts ∧ vs.length = (c.parts.map Cond.size).sum :=
  ⟨c.renderP k, Cond.render_pure c vs hv k, dollars_exact c k hc vs hv, (parts_sum c vs hv).symm⟩

/-- The same condition with a slice in the comparison: `$5` stands for two values, the list goes on at `$7`. -/
def exampleCondMany : Cond :=
  .group ⟨lAND, true⟩
    [.fieldc .eq ⟨lAND, false⟩ ⟨⟨c!"a", [], []⟩, .strs [c!"p", c!"q"]⟩,
     .fieldc .inn ⟨lOR, false⟩ ⟨⟨c!"b", c!"t", []⟩, .strs [c!"x", c!"y"]⟩,
     .null ⟨lAND, false⟩ ⟨c!"c", [], []⟩] false

example : exampleCondMany.Every DollarFreeNode ∧
    exampleCondMany.values = .ok [.str c!"p", .str c!"q", .str c!"x", .str c!"y"] ∧
    exampleCondMany.render 4 = .ok c!"NOT (a=$5 OR t.b IN ($7,$8) AND c IS NULL)" ∧
    numbering 4 exampleCondMany.parts = [5, 7, 8] := by
  refine ⟨?_, rfl, by decide, by decide⟩
  simp only [exampleCondMany, Cond.Every, Cond.EveryL, DollarFreeNode, FieldDef.Free]
  refine ⟨by simp [Cond.joinType, Cond.base, lAND, lOR], by decide, by decide, by decide, trivial⟩

/-! ## C03 -/

theorem where_exact (g : Group) (w : Str) (params : List Val) (hw : g.toCond.Every DollarFreeNode)
    (hr : g.render 0 = .ok w) (hv : g.values = .ok params) : dollars w = numbering 0 g.toCond.parts := by
  obtain ⟨s, hs, hd, -⟩ := C01_exact g.toCond 0 params hw hv
  simp only [Group.render] at hr
  rw [hr] at hs
  simp only [Res.ok.injEq] at hs
  rw [hs, hd]

theorem base_exact (q : BaseSelect) (sql : Str) (params : List Val) (hf : q.HeadFree '$')
    (hw : q.where_.group.toCond.Every DollarFreeNode) (h : q.build = .ok (sql, params)) :
    dollars sql = numbering 0 q.where_.group.toCond.parts ∧
      params.length = (q.where_.group.toCond.parts.map Cond.size).sum := by
  have hh : '$' ∉ joinWith c!" " q.headTokens := not_mem_joinWith (by decide) (headTokens_free hf)
  rcases base_build_shape q sql params h with ⟨hn, hs, hp⟩ | ⟨_, w, hr, hv, hs⟩
  · subst hs hp
    have hc : q.where_.group.conds = [] := by simpa using hn
    rw [dollars_of_free _ hh]
    simp [Group.toCond, hc, Cond.parts, Cond.partsL, numbering]
  · subst hs
    refine ⟨?_, (parts_sum _ _ hv).symm⟩
    rw [List.append_assoc, dollars_free_append _ _ hh, dollars_free_append _ _ (by decide),
      where_exact q.where_.group w params hw hr hv]

/-- **C03, exactly.**  Whatever the values: the placeholders of a base or single select and of a count are those of the
parts of the WHERE clause in sequence, each counting on from the values of the parts before it; in a many select OFFSET
and LIMIT then take the numbers of the last parameters, which are the offset and the limit in force. -/
theorem C03_exact (q : BaseSelect) (s : SelectSingle) (m : SelectMany) (c : CountB) (hs : s.base = q) (hm : m.base = q)
    (hq : c.base = q) (sql : Str) (params : List Val) (hf : q.HeadFree '$')
    (hw : q.where_.group.toCond.Every DollarFreeNode) :
    (q.build = .ok (sql, params) ∨ s.build = .ok (sql, params) ∨
        (c.countField.Free '$' ∧ c.build = .ok (sql, params)) →
      dollars sql = numbering 0 q.where_.group.toCond.parts ∧
      params.length = (q.where_.group.toCond.parts.map Cond.size).sum) ∧
    ((∀ o ∈ m.order, o.Free '$') → m.build = .ok (sql, params) →
      ∃ n, n = (q.where_.group.toCond.parts.map Cond.size).sum ∧
        params.drop n = (if m.offset > 0 then [.uint m.offset] else []) ++
          (if m.limit > 0 then [.uint m.limit.toNat] else []) ∧
        dollars sql = numbering 0 q.where_.group.toCond.parts ++ numbersFrom n (params.length - n)) := by
  constructor
  · rintro (h | h | ⟨hc, h⟩)
    · exact base_exact q sql params hf hw h
    · subst hs
      simp only [SelectSingle.build, Res.bind_eq_ok, Res.ok.injEq, Prod.mk.injEq, Prod.exists] at h
      obtain ⟨t, p, hb, ht, hp⟩ := h
      subst ht hp
      obtain ⟨h1, h2⟩ := base_exact s.base t p hf hw hb
      refine ⟨?_, h2⟩
      rw [dollars_append _ _ (by rfl), h1]
      simp [dollars]
    · subst hq
      rcases count_build_dollars c sql params hf hc h with ⟨h0, h1, h2⟩ | ⟨-, w, hr, hv, hd⟩
      · have hc : c.base.where_.group.conds = [] := h0
        rw [h1, h2]
        simp [Group.toCond, hc, Cond.parts, Cond.partsL, numbering]
      · exact ⟨by rw [hd, where_exact _ w params hw hr hv], (parts_sum _ _ hv).symm⟩
  · intro ho h
    subst hm
    obtain ⟨t, p, hb, hp, hd⟩ := many_build_dollars m sql params ho h
    obtain ⟨h1, h2⟩ := base_exact m.base t p hf hw hb
    refine ⟨p.length, h2, ?_, by rw [hd, h1]⟩
    rw [hp, List.append_assoc, List.drop_left]

/-- A many select whose comparison has a slice: `$1` stands for two values, the list goes on at `$3`. -/
def exampleManySlice : SelectMany :=
  ⟨⟨0, ⟨c!"t", []⟩, [], ⟨[]⟩, ⟨⟨⟨lAND, false⟩, [exampleCondMany], false⟩⟩⟩, 5, 10, [], false⟩

example : exampleManySlice.build = .ok
    (c!"SELECT * FROM t WHERE NOT (a=$1 OR t.b IN ($3,$4) AND c IS NULL) OFFSET $5 LIMIT $6",
      [.str c!"p", .str c!"q", .str c!"x", .str c!"y", .uint 5, .uint 10]) ∧
    exampleManySlice.base.HeadFree '$' ∧ exampleManySlice.base.where_.group.toCond.Every DollarFreeNode := by
  refine ⟨rfl, ⟨by simp [exampleManySlice, TableIdent.Free], by simp [exampleManySlice], by simp [exampleManySlice]⟩, ?_⟩
  simp only [exampleManySlice, Group.toCond, exampleCondMany, Cond.Every, Cond.EveryL, DollarFreeNode, FieldDef.Free]
  refine ⟨by simp, ⟨by simp [Cond.joinType, Cond.base, lAND, lOR], by decide, by decide, by decide, trivial⟩, trivial⟩

/-! ## C02 -/

theorem numbering_length (n : Nat) (ps : List Cond) (hc : ∀ c ∈ ps, (∀ b x, c ≠ .custom b x) ∧ ∀ b cs br, c ≠ .group b cs br) :
    (numbering n ps).length + ((ps.filter Cond.isSingle).map Cond.size).sum =
      (ps.map Cond.size).sum + (ps.filter Cond.isSingle).length := by
  induction ps generalizing n with
  | nil => rfl
  | cons c ps ih =>
    have ih := ih (n + c.size) (fun d hd => hc d (by simp [hd]))
    have hc := hc c (by simp)
    cases c with
    | fieldc k b fv =>
      cases k <;> simp only [numbering, partNumbers, List.length_append, List.filter_cons, Cond.isSingle, if_true,
        List.map_cons, List.sum_cons, List.length_cons, List.length_nil, numbersFrom_length] <;>
        first | omega | (simp only [Bool.false_eq_true, if_false]; omega)
    | null b fd =>
      have : (Cond.null b fd).size = 0 := rfl
      simp only [numbering, partNumbers, List.filter_cons, Cond.isSingle, List.map_cons, List.sum_cons,
        List.nil_append, Bool.false_eq_true, if_false]
      omega
    | custom b x => exact absurd rfl (hc.1 b x)
    | group b cs br => exact absurd rfl (hc.2 b cs br)

/-- **C02, exactly**, for trees of any shape made of the library's conditions: the number of placeholders equals the number
of values if and only if the comparisons, LIKEs and ILIKEs together supply as many values as there are of them. -/
theorem C02_exact (c : Cond) (k : Nat) (s : Str) (vs : List Val) (hc : c.Every DollarFreeNode)
    (hl : ∀ d ∈ c.parts, ∀ b x, d ≠ .custom b x) (hr : c.render k = .ok s) (hv : c.values = .ok vs) :
    (dollars s).length = vs.length ↔
      ((c.parts.filter Cond.isSingle).map Cond.size).sum = (c.parts.filter Cond.isSingle).length := by
  obtain ⟨s', h1, h2, h3⟩ := C01_exact c k vs hc hv
  rw [hr] at h1
  simp only [Res.ok.injEq] at h1
  subst h1
  have := numbering_length k c.parts (fun d hd => ⟨hl d hd, parts_leaf c d hd⟩)
  rw [h2, h3]
  omega

example : ((exampleCondMany.parts.filter Cond.isSingle).map Cond.size).sum = 2 ∧
    (exampleCondMany.parts.filter Cond.isSingle).length = 1 ∧
    ((exampleCond.parts.filter Cond.isSingle).map Cond.size).sum = 1 ∧
    (exampleCond.parts.filter Cond.isSingle).length = 1 := by decide

/-! ## C04 -/

theorem update_loop_exact (fvs : List FieldValue) (vss : List (List Val)) (idx : Nat)
    (h : fvs.map FieldValue.values = vss.map .ok) :
    ([] ∈ vss → UpdateB.loop fvs idx = .panic .index) ∧
    ([] ∉ vss → UpdateB.loop fvs idx =
      .ok ((numbered idx (fvs.map fun fv => fv.fd.fieldName ++ c!"=")).map fun p => p.1 ++ '$' :: itoa p.2,
        vss.filterMap List.head?)) := by
  induction fvs generalizing vss idx with
  | nil =>
    cases vss with
    | nil => simp [UpdateB.loop, numbered]
    | cons v vss => simp at h
  | cons fv fvs ih =>
    cases vss with
    | nil => simp at h
    | cons vs vss =>
      simp only [List.map_cons, List.cons.injEq] at h
      obtain ⟨i1, i2⟩ := ih vss (idx + 1) h.2
      cases vs with
      | nil => simp [UpdateB.loop, firstValue, h.1]
      | cons v vs =>
        constructor
        · intro hm
          have hm : [] ∈ vss := by simpa using hm
          simp [UpdateB.loop, firstValue, h.1, i1 hm]
        · intro hm
          have hm : [] ∉ vss := by simpa using hm
          simp [UpdateB.loop, firstValue, h.1, i2 hm, numbered]

/-- **C04, exactly.**  For any set values, `vss` being what their `Values()` return: if one of them returns nothing the
build panics; otherwise the SQL is that of `C04_update_partial`, with one numbered placeholder for each set field, and the
parameters are the first value of each followed by those of the condition, so the placeholders are always `$1 … $n`. -/
theorem C04_exact (q : UpdateB) (vss : List (List Val)) (wv : List Val)
    (hc : q.where_.conds ≠ []) (hs : q.setValues ≠ []) (ht : q.tableName ≠ [])
    (hv : q.setValues.map FieldValue.values = vss.map .ok) (hw : q.where_.values = .ok wv) :
    ([] ∈ vss → q.build = .panic .index) ∧
    ([] ∉ vss → ∃ w, q.where_.render q.setValues.length = .ok w ∧
      q.build = .ok (c!"UPDATE " ++ q.tableName ++ c!" SET " ++ setList (q.setValues.map fun fv => fv.fd.fieldName) ++
        c!" WHERE " ++ w, vss.filterMap List.head? ++ wv) ∧
      (vss.filterMap List.head?).length = q.setValues.length ∧
      ('$' ∉ q.tableName → (∀ fv ∈ q.setValues, '$' ∉ fv.fd.fieldName) → q.where_.toCond.Every NumberedNode →
        ∀ sql params, q.build = .ok (sql, params) → dollars sql = numbersFrom 0 params.length)) := by
  have h1 : ¬ q.where_.conds.length = 0 := by simpa using hc
  have h2 : ¬ q.setValues.length = 0 := by simpa using hs
  have h3 : ¬ q.tableName.length = 0 := by simpa using ht
  obtain ⟨l1, l2⟩ := update_loop_exact q.setValues vss 0 hv
  constructor
  · intro hm
    simp only [UpdateB.build, h1, h2, h3, if_false, UpdateB.fieldsAndValues, l1 hm, Res.bind_panic]
  · intro hm
    have hlen : (vss.filterMap List.head?).length = q.setValues.length := by
      have e : vss.length = q.setValues.length := by
        have := congrArg List.length hv
        simpa using this.symm
      rw [← e]
      clear l1 l2 hv e
      induction vss with
      | nil => rfl
      | cons vs vss ih =>
        simp only [List.mem_cons, not_or] at hm
        cases vs with
        | nil => exact absurd rfl hm.1
        | cons v vs => simp [ih hm.2]
    have hr := Cond.render_pure _ _ hw q.setValues.length
    have hbuild : q.build = .ok (c!"UPDATE " ++ q.tableName ++ c!" SET " ++
        setList (q.setValues.map fun fv => fv.fd.fieldName) ++ c!" WHERE " ++ q.where_.toCond.renderP q.setValues.length,
        vss.filterMap List.head? ++ wv) := by
      simp only [UpdateB.build, h1, h2, h3, if_false, UpdateB.fieldsAndValues, l2 hm, Res.bind_ok, hw,
        setList_eq, hlen]
      simp only [Group.render, hr, Res.bind_ok, joinWith, kwUpdate, kwSet, kwWhere, List.map_map]
      simp [Function.comp_def]
    refine ⟨_, hr, hbuild, hlen, ?_⟩
    intro hf hff hwf sql params hb
    rw [hbuild] at hb
    simp only [Res.ok.injEq, Prod.mk.injEq] at hb
    obtain ⟨rfl, rfl⟩ := hb
    have hd := dollars_render q.where_.toCond q.setValues.length hwf wv hw
    rw [Cond.values_pure _ _ hw] at hd
    have hset : dollars (setList (q.setValues.map fun fv => fv.fd.fieldName)) = numbersFrom 0 q.setValues.length := by
      rw [setList_eq, dollars_items c!", " (by decide) rfl (by decide), numbered_snd]
      · simp
      · intro p hp
        have := numbered_mem hp
        simp only [List.map_map, List.mem_map, Function.comp_apply] at this
        obtain ⟨fv, hfv, he⟩ := this
        rw [← he]
        simp [hff fv hfv]
    simp only [List.append_assoc]
    rw [dollars_free_append _ _ (by decide), dollars_free_append _ _ hf, dollars_free_append _ _ (by decide),
      dollars_append _ _ (by rfl), hset, dollars_free_append _ _ (by decide), hd, List.length_append, numbersFrom_add,
      hlen]
    simp

example : let q : UpdateB := ⟨doUpdate, c!"t", ⟨⟨lAND, false⟩, [exampleCond], false⟩,
      [⟨⟨c!"f", [], []⟩, .strs [c!"a", c!"b"]⟩, ⟨⟨c!"g", [], []⟩, .other 8⟩]⟩
    q.setValues.map FieldValue.values = [[Val.str c!"a", .str c!"b"], [.other 8]].map .ok ∧
    q.build = .ok (c!"UPDATE t SET f=$1, g=$2 WHERE NOT (a=$3 OR t.b IN ($4,$5) AND c IS NULL)",
      [.str c!"a", .other 8, .other 1, .str c!"x", .str c!"y"]) := ⟨rfl, rfl⟩

/-! ## C05 -/

/-- **C17, exactly**, for any set values, `vss` being what their `Values()` return: if one of them returns nothing the
derived UPDATE panics; otherwise it sets one placeholder for each field, bound to the first of its values, and its WHERE is
the select's, numbered after the set fields and bound to the same values. -/
theorem C17_update_exact (b : BaseSelect) (hb : b.Api) (m : SelectMany) (hm : m.base = b) (s : SelectSingle)
    (hs : s.base = b) (sets : List FieldValue) (ht : b.baseTable.name ≠ []) (hc : b.where_.conditions ≠ [])
    (hne : sets ≠ []) (vss : List (List Val)) (hset : sets.map FieldValue.values = vss.map .ok)
    (w : Str) (vs : List Val) (hw : b.where_.render sets.length = .ok w) (hv : b.where_.values = .ok vs) :
    let out : Res (Str × List Val) := if vss.any List.isEmpty then .panic .index else
      .ok (c!"UPDATE " ++ b.baseTable.name ++ c!" SET " ++ setList (sets.map fun fv => fv.fd.fieldName) ++
        c!" WHERE " ++ w, vss.filterMap List.head? ++ vs)
    (b.update sets).build = out ∧ (s.update sets).build = out ∧ (m.update sets).build = out := by
  subst hm
  intro out
  obtain ⟨j, hj⟩ := derived_where _ (plainWhere_api hb)
  have hn := (plainWhere_api hb).1
  have key : ∀ u : UpdateB, u.tableName = m.base.baseTable.name → u.setValues = sets →
      u.where_ = (newGroup lAND []).groupAND m.base.where_.conditions → u.build = out := by
    intro u h1 h3 h2
    have e : u.where_ = { m.base.where_.group with base := { m.base.where_.group.base with joinType := j } } := by
      rw [h2, hj]; simp [← hn]
    have hr : u.where_.render sets.length = .ok w := by rw [e, render_joinType]; exact hw
    have hvv : u.where_.values = .ok vs := by rw [e]; exact hv
    have hcc : u.where_.conds ≠ [] := by rw [e]; exact hc
    obtain ⟨e1, e2⟩ := C04_exact u vss vs hcc (by rw [h3]; exact hne) (by rw [h1]; exact ht) (by rw [h3]; exact hset) hvv
    have hany : vss.any List.isEmpty = true ↔ [] ∈ vss := by simp
    simp only [out]
    split
    · rename_i h; exact e1 (hany.mp h)
    · rename_i h
      obtain ⟨w', hw', hb', -⟩ := e2 (fun h' => h (hany.mpr h'))
      rw [h3, hr] at hw'
      simp only [Res.ok.injEq] at hw'
      subst hw'
      rw [hb', h1, h3]
  refine ⟨key _ rfl (by simp [BaseSelect.update, UpdateB.set, UpdateB.addWhere, Query.update]) rfl, ?_,
    key _ rfl (by simp [SelectMany.update, UpdateB.set, UpdateB.addWhere, Query.update]) rfl⟩
  obtain ⟨sb⟩ := s
  simp only at hs
  subst hs
  exact key _ rfl (by simp [SelectSingle.update, UpdateB.set, UpdateB.addWhere, Query.update]) rfl

example :
    let b := (BaseSelect.mk 0 ⟨c!"t", c!"x"⟩ [] ⟨[]⟩ newWhere).addWhere [exampleCond]
    b.Api ∧ (b.update [⟨⟨c!"f", [], []⟩, .strs [c!"p", c!"q"]⟩]).build = .ok
      (c!"UPDATE t SET f=$1 WHERE NOT (a=$2 OR t.b IN ($3,$4) AND c IS NULL)",
        [.str c!"p", .other 1, .str c!"x", .str c!"y"]) ∧
    (b.update [⟨⟨c!"f", [], []⟩, .strs []⟩]).build = .panic .index :=
  ⟨.addWhere _ _ (.from (.ident ⟨c!"t", c!"x"⟩) _ rfl), rfl, rfl⟩

theorem insert_loop_exact (fvs : List FieldValue) (vss : List (List Val))
    (h : fvs.map FieldValue.values = vss.map .ok) (params : List Val) (cols phs : List Str) :
    InsertB.loop fvs params cols phs = .ok (params ++ vss.flatten, cols ++ fvs.map (fun fv => fv.fd.fieldName),
      phs ++ (totals params.length (vss.map List.length)).map fun i => '$' :: itoa i) := by
  induction fvs generalizing vss params cols phs with
  | nil =>
    cases vss with
    | nil => simp [InsertB.loop, totals]
    | cons v vs => simp at h
  | cons fv fvs ih =>
    cases vss with
    | nil => simp at h
    | cons vs vss =>
      simp only [List.map_cons, List.cons.injEq] at h
      simp only [InsertB.loop, h.1, Res.bind_ok, ih vss h.2]
      simp [totals]

theorem totals_get (n : Nat) (xs : List Nat) (i : Nat) (h : i < xs.length) :
    (totals n xs)[i]? = some (n + (xs.take (i + 1)).sum) := by
  induction xs generalizing n i with
  | nil => simp at h
  | cons x xs ih =>
    cases i with
    | zero => simp [totals]
    | succ i =>
      have := ih (n + x) i (by simpa using h)
      simp [totals, this, Nat.add_assoc]

theorem totals_length (n : Nat) (xs : List Nat) : (totals n xs).length = xs.length := by
  induction xs generalizing n with
  | nil => rfl
  | cons x xs ih => simp [totals, ih]

theorem totals_ones (n : Nat) (xs : List Nat) : totals n xs = numbersFrom n xs.length ↔ ∀ x ∈ xs, x = 1 := by
  induction xs generalizing n with
  | nil => simp [totals, numbersFrom]
  | cons x xs ih =>
    rw [List.length_cons, Nat.add_comm xs.length 1, numbersFrom_add, numbersFrom_one]
    simp only [totals, List.cons_append, List.nil_append, List.cons.injEq, List.mem_cons, forall_eq_or_imp]
    constructor
    · rintro ⟨h1, h2⟩
      have : x = 1 := by omega
      subst this
      exact ⟨rfl, (ih _).mp h2⟩
    · rintro ⟨rfl, h2⟩
      exact ⟨rfl, (ih _).mpr h2⟩

theorem take_sum_pos (vss : List (List Val)) (i : Nat) (vs : List Val) (h : vss[i]? = some vs) (hn : vs ≠ []) :
    0 < ((vss.map List.length).take (i + 1)).sum := by
  have hp : 0 < vs.length := List.length_pos_iff.mpr hn
  induction vss generalizing i with
  | nil => simp at h
  | cons ws vss ih =>
    cases i with
    | zero =>
      simp only [List.getElem?_cons_zero, Option.some.injEq] at h
      subst h
      simp; omega
    | succ i =>
      have := ih i (by simpa using h)
      simp only [List.map_cons, List.take_succ_cons, List.sum_cons] at this ⊢
      omega

theorem flatten_last (vss : List (List Val)) (i : Nat) (vs : List Val) (h : vss[i]? = some vs) (hn : vs ≠ []) :
    vss.flatten[((vss.map List.length).take (i + 1)).sum - 1]? = vs.getLast? := by
  induction vss generalizing i with
  | nil => simp at h
  | cons us vss ih =>
    cases i with
    | zero =>
      simp only [List.getElem?_cons_zero, Option.some.injEq] at h
      subst h
      have hp : 0 < us.length := List.length_pos_iff.mpr hn
      simp only [List.map_cons, List.take_succ_cons, List.take_zero, List.sum_cons, List.sum_nil, Nat.add_zero,
        List.flatten_cons]
      rw [List.getElem?_append_left (by omega), List.getLast?_eq_getElem?]
    | succ i =>
      simp only [List.getElem?_cons_succ] at h
      have ih := ih i h
      have hp := take_sum_pos vss i vs h hn
      rw [← ih]
      simp only [List.map_cons, List.take_succ_cons, List.sum_cons, List.flatten_cons] at hp ⊢
      rw [List.getElem?_append_right (by omega)]
      congr 1
      omega

/-- **C05, exactly.**  For any values, `vss` being what their `Values()` return: the parameters are all values in order and
the placeholder of a column is the running total of values, so that a column with values is bound to the last of its own;
the placeholders are `$1 … $n` for the `n` columns exactly when every field value supplies one value. -/
theorem C05_exact (q : InsertB) (vss : List (List Val)) (hs : q.setValues ≠ []) (ht : q.tableName ≠ [])
    (hv : q.setValues.map FieldValue.values = vss.map .ok) :
    ∃ ns : List Nat,
      q.build = .ok (c!"INSERT INTO " ++ q.tableName ++ c!"(" ++
        joinWith c!", " (q.setValues.map fun fv => fv.fd.fieldName) ++ c!") VALUES (" ++
        joinWith c!", " (ns.map fun i => '$' :: itoa i) ++ c!")", vss.flatten) ∧
      ns.length = q.setValues.length ∧
      (∀ i vs, vss[i]? = some vs → ∃ n, ns[i]? = some n ∧ n = ((vss.map List.length).take (i + 1)).sum ∧
        (vs ≠ [] → vss.flatten[n - 1]? = vs.getLast?)) ∧
      (ns = numbersFrom 0 q.setValues.length ↔ ∀ vs ∈ vss, vs.length = 1) := by
  have hlen : vss.length = q.setValues.length := by
    have := congrArg List.length hv
    simpa using this.symm
  refine ⟨totals 0 (vss.map List.length), ?_, ?_, ?_, ?_⟩
  · have h2 : ¬ q.setValues.length = 0 := by simpa using hs
    have h3 : ¬ q.tableName.length = 0 := by simpa using ht
    simp only [InsertB.build, h2, h3, if_false, insert_loop_exact _ _ hv, Res.bind_ok]
    simp [joinWith, kwInsert, kwInto, kwValues]
  · rw [totals_length, List.length_map, hlen]
  · intro i vs hi
    have hi' : i < (vss.map List.length).length := by
      rw [List.length_map]
      exact (List.getElem?_eq_some_iff.mp hi).1
    refine ⟨_, totals_get 0 _ i hi', by omega, fun hn => ?_⟩
    rw [Nat.zero_add]
    exact flatten_last vss i vs hi hn
  · rw [← hlen]
    have := totals_ones 0 (vss.map List.length)
    rw [List.length_map] at this
    rw [this]
    simp

example : let q : InsertB := ⟨doInsert, c!"t", [⟨⟨c!"f", [], []⟩, .strs [c!"a", c!"b"]⟩, ⟨⟨c!"g", [], []⟩, .other 8⟩]⟩
    q.setValues.map FieldValue.values = [[Val.str c!"a", .str c!"b"], [.other 8]].map .ok ∧
    q.build = .ok (c!"INSERT INTO t(f, g) VALUES ($2, $3)", [.str c!"a", .str c!"b", .other 8]) := ⟨rfl, rfl⟩

/-! ## C31 -/

theorem like_append (v p s : Str) (hv : dangling v = false) :
    Like (v ++ p) s ↔ ∃ m t, s = m ++ t ∧ Like v m ∧ Like p t := by
  constructor
  · generalize hq : v ++ p = q
    intro h
    induction h generalizing v with
    | nil =>
      have : v = [] ∧ p = [] := by simpa using hq
      obtain ⟨rfl, rfl⟩ := this
      exact ⟨[], [], rfl, .nil, .nil⟩
    | @any p' s t h ih =>
      cases v with
      | nil => exact ⟨[], s ++ t, rfl, .nil, by simp only [List.nil_append] at hq; subst hq; exact .any h⟩
      | cons c v =>
        simp only [List.cons_append, List.cons.injEq] at hq
        obtain ⟨rfl, hq⟩ := hq
        have hd : dangling v = false := by
          cases v with
          | nil => rfl
          | cons d v => simpa [dangling] using hv
        obtain ⟨m, t', rfl, h1, h2⟩ := ih v hd hq
        exact ⟨s ++ m, t', by simp, .any h1, h2⟩
    | @one p' c s h ih =>
      cases v with
      | nil => exact ⟨[], c :: s, rfl, .nil, by simp only [List.nil_append] at hq; subst hq; exact .one h⟩
      | cons d v =>
        simp only [List.cons_append, List.cons.injEq] at hq
        obtain ⟨rfl, hq⟩ := hq
        have hd : dangling v = false := by
          cases v with
          | nil => rfl
          | cons d v => simpa [dangling] using hv
        obtain ⟨m, t', rfl, h1, h2⟩ := ih v hd hq
        exact ⟨c :: m, t', by simp, .one h1, h2⟩
    | @esc p' c s h ih =>
      cases v with
      | nil => exact ⟨[], c :: s, rfl, .nil, by simp only [List.nil_append] at hq; subst hq; exact .esc h⟩
      | cons d v =>
        simp only [List.cons_append, List.cons.injEq] at hq
        obtain ⟨rfl, hq⟩ := hq
        cases v with
        | nil => simp [dangling] at hv
        | cons e v =>
          simp only [List.cons_append, List.cons.injEq] at hq
          obtain ⟨rfl, hq⟩ := hq
          have hd : dangling v = false := by simpa [dangling] using hv
          obtain ⟨m, t', rfl, h1, h2⟩ := ih v hd hq
          exact ⟨e :: m, t', by simp, .esc h1, h2⟩
    | @lit p' c s hc h ih =>
      cases v with
      | nil => exact ⟨[], c :: s, rfl, .nil, by simp only [List.nil_append] at hq; subst hq; exact .lit hc h⟩
      | cons d v =>
        simp only [List.cons_append, List.cons.injEq] at hq
        obtain ⟨rfl, hq⟩ := hq
        have hd : dangling v = false := by
          have hb : d ≠ '\\' := fun h => hc (.inr (.inr h))
          cases v with
          | nil => rfl
          | cons e v => simpa [dangling, hb] using hv
        obtain ⟨m, t', rfl, h1, h2⟩ := ih v hd hq
        exact ⟨d :: m, t', by simp, .lit hc h1, h2⟩
  · rintro ⟨m, t, rfl, h1, h2⟩
    clear hv
    induction h1 with
    | nil => simpa using h2
    | any _ ih => rw [List.append_assoc]; exact .any ih
    | one _ ih => exact .one ih
    | esc _ ih => exact .esc ih
    | lit hc _ ih => exact .lit hc ih

theorem dangling_split (v : Str) (h : dangling v = true) : ∃ u, v = u ++ c!"\\" ∧ dangling u = false := by
  match v with
  | [] => simp [dangling] at h
  | [c] => exact ⟨[], by simpa [dangling] using h, rfl⟩
  | c :: d :: s =>
    by_cases hc : c = '\\'
    · obtain ⟨u, e, hu⟩ := dangling_split s (by simpa [dangling, hc] using h)
      refine ⟨c :: d :: u, by simp [e], by simpa [dangling, hc] using hu⟩
    · obtain ⟨u, e, hu⟩ := dangling_split (d :: s) (by simpa [dangling, hc] using h)
      refine ⟨c :: u, by simp [e], ?_⟩
      cases u with
      | nil => simp [dangling, hc]
      | cons x u => simpa [dangling, hc] using hu

/-- **C31, exactly.**  For any value, the pattern `Contains` and `IContains` bind matches the texts in which some part
matches the value read as a LIKE pattern; a value that ends in a backslash with nothing to escape matches the texts that
end in `%` after such a part. -/
theorem C31_exact (fn v : Str) (c d : Cond) (hc : contains fn v = .ok c) (hd : iContains fn v = .ok d) :
    ∃ p, c.values = .ok [.str p] ∧ d.values = .ok [.str p] ∧
      (∃ f, ∀ k, c.render k = .ok (f ++ c!" LIKE $" ++ itoa (k + 1)) ∧ d.render k = .ok (f ++ c!" ILIKE $" ++ itoa (k + 1))) ∧
      (dangling v = false → ∀ s, Like p s ↔ ∃ a m b, s = a ++ m ++ b ∧ Like v m) ∧
      (dangling v = true → ∃ u, v = u ++ c!"\\" ∧ ∀ s, Like p s ↔ ∃ a m, s = a ++ m ++ c!"%" ∧ Like u m) := by
  simp only [contains, iContains, mkField, newFieldValue] at hc hd
  cases hf : field fn with
  | err e => simp [hf] at hc
  | panic p => simp [hf] at hc
  | ok fd =>
    simp [hf] at hc hd
    subst hc hd
    refine ⟨c!"%" ++ v ++ c!"%", rfl, rfl, like_texts fd _, fun hv s => ?_, fun hv => ?_⟩
    · rw [List.append_assoc]
      simp only [List.cons_append, List.nil_append]
      rw [like_any]
      constructor
      · rintro ⟨a, b, rfl, h⟩
        obtain ⟨m, t, rfl, h1, h2⟩ := (like_append v _ b hv).mp h
        exact ⟨a, m, t, by simp, h1⟩
      · rintro ⟨a, m, b, rfl, h⟩
        refine ⟨a, m ++ b, by simp, (like_append v _ _ hv).mpr ⟨m, b, rfl, h, ?_⟩⟩
        have := Like.any (s := b) (p := []) (t := []) .nil
        simpa using this
    · obtain ⟨u, rfl, hu⟩ := dangling_split v hv
      refine ⟨u, rfl, fun s => ?_⟩
      simp only [List.append_assoc, List.cons_append, List.nil_append]
      rw [like_any]
      constructor
      · rintro ⟨a, b, rfl, h⟩
        obtain ⟨m, t, rfl, h1, h2⟩ := (like_append u _ b hu).mp h
        cases h2 with
        | esc h3 =>
          cases h3 with
          | nil => exact ⟨a, m, by simp, h1⟩
        | lit hl _ => exact absurd (.inr (.inr rfl)) hl
      · rintro ⟨a, m, rfl, h⟩
        exact ⟨a, m ++ c!"%", by simp, (like_append u _ _ hu).mpr ⟨m, c!"%", rfl, h, .esc .nil⟩⟩

example : dangling c!"a_b" = false ∧ dangling c!"50\\%" = false ∧ dangling c!"a\\" = true ∧
    Like c!"a_b" c!"axb" := by
  refine ⟨rfl, rfl, rfl, .lit (by simp [isWild]) (.one (.lit (by simp [isWild]) .nil))⟩

end Query
