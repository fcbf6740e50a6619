import Verif.Proof.Scan
import Verif.Spec.Names
/-!
# Lemmas about the text of whole statements
-/
namespace Query

theorem not_mem_joinWith {ch : Char} {sep : Str} {items : List Str} (hs : ch ∉ sep) (hi : ∀ x ∈ items, ch ∉ x) :
    ch ∉ joinWith sep items := by
  induction items with
  | nil => simp [joinWith]
  | cons x xs ih =>
    cases xs with
    | nil => simpa [joinWith] using hi x (by simp)
    | cons y ys =>
      have h1 := hi x (by simp)
      have h2 := ih (fun z hz => hi z (by simp [hz]))
      simp [joinWith, h1, hs, h2]

theorem not_mem_joinTypeString (j : Int) : '$' ∉ joinTypeString j := by
  unfold joinTypeString
  split
  · decide
  split
  · decide
  split
  · decide
  split
  · decide
  have : '$' ∉ itoaInt j := by
    cases j with
    | ofNat n => exact not_mem_itoa n (by decide)
    | negSucc n =>
      simp only [itoaInt, List.mem_cons, not_or]
      exact ⟨by decide, not_mem_itoa (n + 1) (by decide)⟩
  simp [this]

theorem tableIdent_free {ch : Char} {t : TableIdent} (h : t.Free ch) (h1 : ch ∉ c!" AS") : ch ∉ t.renderFrom := by
  obtain ⟨hn, ha⟩ := h
  simp only [List.mem_cons, List.not_mem_nil, or_false, not_or] at h1
  unfold TableIdent.renderFrom
  split <;> simp_all

theorem joiner_free {j : TableJoiner} (h : j.Free '$') : '$' ∉ j.renderFrom := by
  obtain ⟨ht, ⟨hl1, hl2, _⟩, ⟨hr1, hr2, _⟩⟩ := h
  have h1 := tableIdent_free ht (by decide)
  have h2 := not_mem_joinTypeString j.joinType
  unfold TableJoiner.renderFrom
  apply not_mem_joinWith (by decide)
  intro x hx
  simp only [List.mem_cons, List.not_mem_nil, or_false] at hx
  rcases hx with h | h | h | h <;> subst h
  · exact h2
  · exact h1
  · decide
  · simp [JoinCondition.render, FieldDef.renderTableSpec, hl1, hl2, hr1, hr2]

theorem fieldList_free {f : Fields} (h : ∀ x ∈ f.specs, x.Free '$') : '$' ∉ f.fieldList := by
  unfold Fields.fieldList
  split
  · decide
  · apply not_mem_joinWith (by decide)
    intro x hx
    obtain ⟨fd, hfd, rfl⟩ := List.mem_map.mp hx
    exact renderSpec_free (h fd hfd) (by decide)

theorem headTokens_free {q : BaseSelect} (h : q.HeadFree '$') : ∀ x ∈ q.headTokens, '$' ∉ x := by
  obtain ⟨ht, hj, hf⟩ := h
  intro x hx
  simp only [BaseSelect.headTokens, List.mem_append, List.mem_cons, List.not_mem_nil, or_false, List.mem_map] at hx
  rcases hx with (h | h | h | h) | ⟨j, hjm, h⟩ <;> subst h
  · decide
  · exact fieldList_free hf
  · decide
  · exact tableIdent_free ht (by decide)
  · exact joiner_free (hj j hjm)

theorem headTokens_ne (q : BaseSelect) : q.headTokens ≠ [] := by simp [BaseSelect.headTokens]

theorem joinWith_two (sep a b : Str) : joinWith sep [a, b] = a ++ sep ++ b := rfl

/-- The tokens before WHERE, then WHERE and a text: one space in between. -/
theorem join_where (toks : List Str) (w : Str) (h : toks ≠ []) :
    joinWith c!" " (toks ++ [kwWhere, w]) = joinWith c!" " toks ++ c!" WHERE " ++ w := by
  rw [joinWith_append_sep _ _ _ h (by simp), joinWith_two]
  simp [kwWhere]

theorem group_render_dollars (g : Group) (n : Nat) (h : g.toCond.Every NumberedNode) (vs : List Val)
    (hv : g.values = .ok vs) : ∃ s, g.render n = .ok s ∧ dollars s = numbersFrom n vs.length := by
  refine ⟨g.toCond.renderP n, Cond.render_pure _ vs hv n, ?_⟩
  rw [dollars_render _ n h vs hv, Cond.values_pure _ vs hv]

/-- What a successful build of a base select looks like. -/
theorem base_build_shape (q : BaseSelect) (sql : Str) (params : List Val) (h : q.build = .ok (sql, params)) :
    (q.where_.group.conds = [] ∧ sql = joinWith c!" " q.headTokens ∧ params = []) ∨
    (q.where_.group.conds ≠ [] ∧ ∃ w, q.where_.group.render 0 = .ok w ∧ q.where_.group.values = .ok params ∧
      sql = joinWith c!" " q.headTokens ++ c!" WHERE " ++ w) := by
  unfold BaseSelect.build at h
  by_cases hl : q.where_.conditions.length > 0
  · rw [if_pos hl] at h
    right
    refine ⟨List.ne_nil_of_length_pos hl, ?_⟩
    simp only [Res.bind_eq_ok, Res.ok.injEq, Prod.mk.injEq] at h
    obtain ⟨w, hw, vs, hvs, hs, hp⟩ := h
    subst hp
    refine ⟨w, hw, hvs, ?_⟩
    rw [← hs, join_where _ _ (headTokens_ne q)]
  · rw [if_neg hl] at h
    left
    simp only [Res.ok.injEq, Prod.mk.injEq] at h
    refine ⟨?_, h.1.symm, h.2.symm⟩
    cases hq : q.where_.group.conds with
    | nil => rfl
    | cons a b => simp [WhereClause.conditions, hq] at hl

theorem base_build_dollars (q : BaseSelect) (sql : Str) (params : List Val) (hf : q.HeadFree '$')
    (hw : q.where_.group.toCond.Every NumberedNode) (h : q.build = .ok (sql, params)) :
    dollars sql = numbersFrom 0 params.length := by
  have hh : '$' ∉ joinWith c!" " q.headTokens := not_mem_joinWith (by decide) (headTokens_free hf)
  rcases base_build_shape q sql params h with ⟨_, hs, hp⟩ | ⟨_, w, hr, hv, hs⟩
  · subst hs hp
    rw [dollars_of_free _ hh]
    rfl
  · obtain ⟨s, hs2, hd⟩ := group_render_dollars q.where_.group 0 hw params hv
    rw [hr] at hs2
    simp only [Res.ok.injEq] at hs2
    subst hs2
    subst hs
    rw [List.append_assoc, dollars_free_append _ _ hh, dollars_free_append _ _ (by decide), hd]

theorem orderLoop_free {ch : Char} (os : List FieldSorting) (i : Nat) (h : ∀ o ∈ os, o.Free ch)
    (h1 : ch ∉ c!"., ") : ch ∉ orderLoop os i := by
  simp only [List.mem_cons, List.not_mem_nil, or_false, not_or] at h1
  induction os generalizing i with
  | nil => simp [orderLoop]
  | cons o os ih =>
    have ho := h o (by simp)
    have hr := renderField_free ho.1 h1.1
    have hi := ih (i + 1) (fun x hx => h x (by simp [hx]))
    have hd := ho.2
    simp only [orderLoop, FieldSorting.render, List.mem_append, not_or]
    refine ⟨⟨?_, ⟨hr, by simp [h1.2.2]⟩, hd⟩, hi⟩
    split <;> simp [h1]

end Query

namespace Query

/-- Items `a$i` separated by a text that does not look like a placeholder. -/
theorem dollars_items (sep : Str) (hs : '$' ∉ sep) (hd : noDigitHead sep = true) (hne : sep ≠ [])
    (ps : List (Str × Nat)) (h : ∀ p ∈ ps, '$' ∉ p.1) :
    dollars (joinWith sep (ps.map fun p => p.1 ++ '$' :: itoa p.2)) = ps.map (·.2) := by
  induction ps with
  | nil => rfl
  | cons p ps ih =>
    have hp := h p (by simp)
    cases ps with
    | nil =>
      simp only [List.map_cons, List.map_nil, joinWith]
      rw [dollars_free_append _ _ hp, dollars_placeholder]
    | cons p' ps =>
      have ih := ih (fun x hx => h x (by simp [hx]))
      simp only [List.map_cons, joinWith, List.append_assoc, List.cons_append] at ih ⊢
      rw [dollars_free_append _ _ hp, dollars_placeholder_append _ _ (by
        cases sep with
        | nil => exact absurd rfl hne
        | cons c s => simpa [noDigitHead] using hd), dollars_free_append _ _ hs, ih]

/-- The `i`-th of a list of names with the number `i`, from `k + 1` on. -/
def numbered (k : Nat) : List Str → List (Str × Nat)
  | [] => []
  | x :: xs => (x, k + 1) :: numbered (k + 1) xs

theorem numbered_snd (k : Nat) (xs : List Str) : (numbered k xs).map (·.2) = numbersFrom k xs.length := by
  induction xs generalizing k with
  | nil => rfl
  | cons x xs ih =>
    simp only [numbered, List.map_cons, ih, List.length_cons]
    rw [Nat.add_comm xs.length 1, numbersFrom_add, numbersFrom_one]
    rfl

theorem numbered_fst (k : Nat) (xs : List Str) : (numbered k xs).map (·.1) = xs := by
  induction xs generalizing k with
  | nil => rfl
  | cons x xs ih => simp [numbered, ih]

theorem numbered_mem {k : Nat} {xs : List Str} {p : Str × Nat} (h : p ∈ numbered k xs) : p.1 ∈ xs := by
  rw [← numbered_fst k xs]
  exact List.mem_map_of_mem h

/-- The INSERT loop on values that supply one parameter each. -/
theorem insert_loop (fvs : List FieldValue) (vs : List Val) (h : fvs.map FieldValue.values = vs.map fun v => .ok [v])
    (params : List Val) (cols phs : List Str) :
    InsertB.loop fvs params cols phs = .ok (params ++ vs, cols ++ fvs.map (fun fv => fv.fd.fieldName),
      phs ++ (numbersFrom params.length fvs.length).map fun i => '$' :: itoa i) := by
  induction fvs generalizing vs params cols phs with
  | nil =>
    cases vs with
    | nil => simp [InsertB.loop, numbersFrom]
    | cons v vs => simp at h
  | cons fv fvs ih =>
    cases vs with
    | nil => simp at h
    | cons v vs =>
      simp only [List.map_cons, List.cons.injEq] at h
      simp only [InsertB.loop, h.1, Res.bind_ok, ih vs h.2]
      simp only [List.append_assoc, List.singleton_append, List.map_cons, List.length_append, List.length_cons,
        List.length_nil]
      rw [Nat.add_comm fvs.length 1, numbersFrom_add, numbersFrom_one]
      simp

/-- The SET loop on values that supply one parameter each. -/
theorem update_loop (fvs : List FieldValue) (vs : List Val) (h : fvs.map FieldValue.values = vs.map fun v => .ok [v])
    (idx : Nat) :
    UpdateB.loop fvs idx =
      .ok ((numbered idx (fvs.map fun fv => fv.fd.fieldName ++ c!"=")).map fun p => p.1 ++ '$' :: itoa p.2, vs) := by
  induction fvs generalizing vs idx with
  | nil =>
    cases vs with
    | nil => simp [UpdateB.loop, numbered]
    | cons v vs => simp at h
  | cons fv fvs ih =>
    cases vs with
    | nil => simp at h
    | cons v vs =>
      simp only [List.map_cons, List.cons.injEq] at h
      simp [UpdateB.loop, firstValue, h.1, ih vs h.2, numbered]

/-- The SET loop in general: the text does not depend on the number of values. -/
theorem update_loop_gen (fvs : List FieldValue) (idx : Nat) (r : List Str × List Val)
    (h : UpdateB.loop fvs idx = .ok r) :
    r.1 = ((numbered idx (fvs.map fun fv => fv.fd.fieldName ++ c!"=")).map fun p => p.1 ++ '$' :: itoa p.2) ∧
      r.2.length = fvs.length ∧
      ∀ i (hi : i < fvs.length), ∃ rest, fvs[i].values = .ok ((r.2[i]?.toList) ++ rest) := by
  induction fvs generalizing idx r with
  | nil => simp [UpdateB.loop] at h; subst h; simp [numbered]
  | cons fv fvs ih =>
    simp only [UpdateB.loop, Res.bind_eq_ok] at h
    obtain ⟨v, hv, r', hr', h⟩ := h
    obtain ⟨h1, h2, h3⟩ := ih (idx + 1) r' hr'
    simp only [Res.ok.injEq] at h
    subst h
    refine ⟨by simp [numbered, h1], by simp [h2], ?_⟩
    intro i hi
    cases i with
    | zero =>
      simp only [firstValue, Res.bind_eq_ok] at hv
      obtain ⟨vs, hvs, hv⟩ := hv
      cases vs with
      | nil => simp at hv
      | cons a b =>
        simp at hv
        subst hv
        exact ⟨b, by simp [hvs]⟩
    | succ i =>
      have := h3 i (by simpa using hi)
      simpa using this

end Query
