import Verif.Proof.Build
/-!
# Replacing `$<number>` by `?` in rendered text
-/
namespace Query

theorem toQGo_append (b : Bool) (s t : Str) (h : noDigitHead t = true) : toQGo b (s ++ t) = toQGo b s ++ toQ t := by
  induction s generalizing b with
  | nil =>
    cases t with
    | nil => simp [toQGo, toQ]
    | cons c t =>
      simp only [noDigitHead, Bool.not_eq_true'] at h
      simp [toQGo, toQ, h]
  | cons c s ih =>
    simp only [List.cons_append, toQGo]
    split
    · simp [ih]
    · split
      · exact ih true
      · simp [ih]

theorem toQ_append (s t : Str) (h : noDigitHead t = true) : toQ (s ++ t) = toQ s ++ toQ t := toQGo_append false s t h

theorem toQ_free (s : Str) (h : '$' ∉ s) : toQ s = s := by
  induction s with
  | nil => rfl
  | cons c s ih =>
    simp only [List.mem_cons, not_or] at h
    simp only [toQ, toQGo, Bool.false_and]
    rw [if_neg (fun e => h.1 e.symm)]
    simp only [Bool.false_eq_true, if_false]
    rw [show toQGo false s = s from ih h.2]

theorem toQ_free_append (s t : Str) (h : '$' ∉ s) : toQ (s ++ t) = s ++ toQ t := by
  induction s with
  | nil => rfl
  | cons c s ih =>
    simp only [List.mem_cons, not_or] at h
    simp only [List.cons_append, toQ, toQGo, Bool.false_and]
    rw [if_neg (fun e => h.1 e.symm)]
    simp only [Bool.false_eq_true, if_false]
    rw [show toQGo false (s ++ t) = s ++ toQGo false t from ih h.2]

theorem toQGo_digits (s t : Str) (h : ∀ c ∈ s, c.isDigit = true) : toQGo true (s ++ t) = toQGo true t := by
  induction s with
  | nil => rfl
  | cons c s ih =>
    have hc := h c (by simp)
    simp only [List.cons_append, toQGo, hc, Bool.true_and]
    rw [if_neg (isDigit_ne hc (by decide)), if_pos trivial]
    exact ih (fun d hd => h d (by simp [hd]))

theorem toQ_placeholder (n : Nat) : toQ ('$' :: itoa n) = c!"?" := by
  have h := toQGo_digits (itoa n) [] (itoa_digits n)
  simp only [List.append_nil] at h
  simp [toQ, toQGo, h]

theorem toQ_placeholder_append (n : Nat) (t : Str) (h : noDigitHead t = true) :
    toQ ('$' :: (itoa n ++ t)) = '?' :: toQ t := by
  rw [← List.cons_append, toQ_append _ _ h, toQ_placeholder]
  rfl

theorem toQ_inList (n count : Nat) :
    toQ (joinWith c!"," (inPlaceholders n count) ++ c!")") = joinWith c!"," (List.replicate count c!"?") ++ c!")" := by
  suffices h : ∀ (is : List Nat), toQ (joinWith c!"," (is.map fun idx => c!"$" ++ itoa (n + idx + 1)) ++ c!")") =
      joinWith c!"," (List.replicate is.length c!"?") ++ c!")" by
    rw [inPlaceholders, h, List.length_range]
  intro is
  induction is with
  | nil => rfl
  | cons i is ih =>
    cases is with
    | nil =>
      simp only [List.map_cons, List.map_nil, joinWith, List.cons_append, List.nil_append]
      rw [toQ_placeholder_append _ _ (by rfl)]
      rfl
    | cons j is =>
      simp only [List.map_cons, joinWith, List.append_assoc, List.cons_append, List.nil_append, List.length_cons,
        List.replicate_succ] at ih ⊢
      rw [toQ_placeholder_append _ _ (by rfl), show ∀ t, toQ (',' :: t) = ',' :: toQ t from fun t => rfl, ih]

theorem toQ_wrapGroup (b : CondBase) (n : Nat) (br : Bool) (sql : Str) :
    toQ (wrapGroup b n br sql) = wrapGroup b n br (toQ sql) := by
  unfold wrapGroup
  cases b with
  | mk j neg =>
    have e1 : toQ (c!"(" ++ sql ++ c!")") = c!"(" ++ toQ sql ++ c!")" := by
      rw [List.append_assoc, toQ_free_append _ _ (by decide), toQ_append _ _ (by rfl), List.append_assoc]
      rfl
    have e2 : ∀ s, toQ (c!"NOT" ++ c!" " ++ s) = c!"NOT" ++ c!" " ++ toQ s := fun s =>
      toQ_free_append (c!"NOT" ++ c!" ") s (by decide)
    by_cases hn : n > 1 <;> cases neg <;> cases br <;> simp only [CondBase.renderNegate, hn, decide_true, decide_false,
      Bool.and_true, Bool.and_false, if_true, if_false, Bool.false_eq_true, e1, e2]

theorem toQ_fieldc (k : Kind) (b : CondBase) (fv : FieldValue) (n : Nat) (h : fv.fd.Free '$') :
    toQ (fieldcRenderP k b fv n) = fieldcRenderSQLP k b fv := by
  have hs := renderSpec_free h (by decide)
  have hn := renderNegate_free b
  have hk := cmpSym_free k
  have hp : ∀ n, toQ (c!"$" ++ itoa n) = c!"?" := fun n => toQ_placeholder n
  cases k <;> simp only [fieldcRenderP, fieldcRenderSQLP, renderCmp, renderCmpSQL, renderLike, renderLikeSQL, renderIn,
    renderInSQL] <;> split <;> simp only [joinWith, List.append_assoc, List.append_nil] <;>
    (first
    | rw [toQ_free_append _ _ hn, toQ_free_append _ _ (by decide), toQ_free_append _ _ hs, toQ_free_append _ _ hk, hp]
    | rw [toQ_free_append _ _ hs, toQ_free_append _ _ (by decide), toQ_free_append _ _ hn,
        toQ_free_append _ _ (by decide), toQ_free_append _ _ hk, toQ_free_append _ _ (by decide), hp]
    | rw [toQ_free_append _ _ hs, toQ_free_append _ _ (by decide), toQ_free_append _ _ hn,
        toQ_free_append _ _ (by decide), toQ_free_append _ _ hk, toQ_free_append _ _ (by decide),
        toQ_free_append _ _ (by decide), toQ_inList]
    | rw [toQ_free_append _ _ hs, toQ_free_append _ _ hk, hp]
    | rw [toQ_free_append _ _ hs, toQ_free_append _ _ (by decide), toQ_free_append _ _ hk,
        toQ_free_append _ _ (by decide), hp]
    | rw [toQ_free_append _ _ hs, toQ_free_append _ _ (by decide), toQ_free_append _ _ hk,
        toQ_free_append _ _ (by decide), toQ_free_append _ _ (by decide), toQ_inList])

mutual
theorem toQ_render (c : Cond) (n : Nat) (h : c.Every DialectNode) : toQ (c.renderP n) = c.renderSQLP := by
  cases c with
  | fieldc k b fv =>
    simp only [Cond.Every, DialectNode] at h
    exact toQ_fieldc k b fv n h
  | null b fd =>
    simp only [Cond.Every, DialectNode] at h
    simp only [Cond.renderP, Cond.renderSQLP]
    exact toQ_free _ (renderNull_free h)
  | custom b x =>
    simp only [Cond.Every, DialectNode] at h
    exact h n
  | group b cs br =>
    simp only [Cond.Every, DialectNode] at h
    simp only [Cond.renderP, Cond.renderSQLP]
    split
    · rfl
    · rw [toQ_wrapGroup, toQ_renderL cs true n h.2 (fun hf => by simp at hf) h.1]
theorem toQ_renderL (cs : List Cond) (f : Bool) (n : Nat) (h : Cond.EveryL DialectNode cs)
    (hj0 : f = false → ∀ c ∈ cs.head?, c.joinType ≠ [] ∧ '$' ∉ c.joinType)
    (hj : ∀ c ∈ cs.drop 1, c.joinType ≠ [] ∧ '$' ∉ c.joinType) :
    toQ (Cond.renderPL cs f n) = Cond.renderSQLPL cs f := by
  cases cs with
  | nil => rfl
  | cons c cs =>
    simp only [Cond.EveryL] at h
    have ih1 := toQ_render c n h.1
    have hj' : ∀ d ∈ cs.head?, d.joinType ≠ [] ∧ '$' ∉ d.joinType := by
      intro d hd
      apply hj d
      simp only [List.drop_one, List.tail_cons]
      exact List.mem_of_mem_head? hd
    have hj'' : ∀ d ∈ cs.drop 1, d.joinType ≠ [] ∧ '$' ∉ d.joinType := by
      intro d hd
      apply hj d
      simp only [List.drop_one, List.tail_cons]
      exact List.mem_of_mem_drop hd
    have ih2 := toQ_renderL cs false (n + c.valuesP.length) h.2 (fun _ => hj') hj''
    simp only [Cond.renderPL, Cond.renderSQLPL, List.append_assoc]
    have hfree : '$' ∉ joinToken c f := by
      cases f with
      | true => simp [joinToken_first]
      | false => exact joinToken_free c (hj0 rfl c (by simp)).2 (by decide)
    rw [toQ_free_append _ _ hfree]
    rw [toQ_append, ih1, ih2]
    cases cs with
    | nil => rfl
    | cons d ds =>
      simp only [Cond.renderPL, List.append_assoc]
      exact joinToken_head d _ (hj' d (by simp)).1
end

end Query
