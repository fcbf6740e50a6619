import Verif.Proof.Pure
import Verif.Spec.Hyp
/-!
# Lemmas about scanning rendered text
-/
namespace Query

/-- The text does not begin with a digit. -/
def noDigitHead : Str → Bool
  | [] => true
  | c :: _ => !c.isDigit

theorem takeWhile_append_noDigit (s t : Str) (h : noDigitHead t = true) :
    (s ++ t).takeWhile Char.isDigit = s.takeWhile Char.isDigit := by
  induction s with
  | nil =>
    cases t with
    | nil => rfl
    | cons c t => simp [noDigitHead] at h; simp [h]
  | cons c s ih =>
    simp only [List.cons_append, List.takeWhile_cons, ih]

theorem dollars_append (s t : Str) (h : noDigitHead t = true) : dollars (s ++ t) = dollars s ++ dollars t := by
  induction s with
  | nil => simp [dollars]
  | cons c s ih =>
    simp only [List.cons_append, dollars]
    split
    · simp [ih, takeWhile_append_noDigit s t h]
    · exact ih

theorem dollars_of_free (s : Str) (h : '$' ∉ s) : dollars s = [] := by
  induction s with
  | nil => rfl
  | cons c s ih =>
    simp only [List.mem_cons, not_or] at h
    simp only [dollars]
    rw [if_neg (fun e => h.1 e.symm)]
    exact ih h.2

theorem dollars_free_append (s t : Str) (h : '$' ∉ s) : dollars (s ++ t) = dollars t := by
  induction s with
  | nil => rfl
  | cons c s ih =>
    simp only [List.mem_cons, not_or] at h
    simp only [List.cons_append, dollars]
    rw [if_neg (fun e => h.1 e.symm)]
    exact ih h.2

theorem itoa_digits (n : Nat) : ∀ c ∈ itoa n, c.isDigit = true := fun c h =>
  Nat.isDigit_of_mem_toDigits (by decide) (by decide) h

theorem itoa_ne_nil (n : Nat) : itoa n ≠ [] := by
  simp [itoa, Nat.toDigits_ne_nil]

theorem isDigit_ne {c d : Char} (h : c.isDigit = true) (hd : d.isDigit = false) : c ≠ d := by
  intro e; subst e; simp [h] at hd

theorem not_mem_itoa {d : Char} (n : Nat) (hd : d.isDigit = false) : d ∉ itoa n := fun h =>
  isDigit_ne (itoa_digits n d h) hd rfl

theorem takeWhile_all {p : Char → Bool} (s : Str) (h : ∀ c ∈ s, p c = true) : s.takeWhile p = s := by
  induction s with
  | nil => rfl
  | cons c s ih =>
    simp only [List.takeWhile_cons, h c (by simp), if_true]
    rw [ih (fun d hd => h d (by simp [hd]))]

theorem itoa_value (n : Nat) : Nat.ofDigitChars 10 (itoa n) 0 = n := by
  simp [itoa]

theorem dollars_placeholder_append (n : Nat) (t : Str) (h : noDigitHead t = true) :
    dollars ('$' :: (itoa n ++ t)) = n :: dollars t := by
  simp only [dollars, if_true]
  rw [takeWhile_append_noDigit _ _ h, takeWhile_all _ (itoa_digits n), itoa_value,
    dollars_free_append _ _ (not_mem_itoa n (by decide))]

theorem dollars_placeholder (n : Nat) : dollars ('$' :: itoa n) = [n] := by
  have h := dollars_placeholder_append n [] rfl
  simpa [dollars] using h

theorem renderSpec_free {ch : Char} {fd : FieldDef} (h : fd.Free ch) (h1 : ch ∉ c!". AS") : ch ∉ fd.renderSpec := by
  obtain ⟨hf, ht, ha⟩ := h
  simp only [List.mem_cons, List.not_mem_nil, or_false, not_or] at h1
  unfold FieldDef.renderSpec
  split <;> split <;> (try split) <;> simp_all [joinWith, kwAs]

theorem renderField_free {ch : Char} {fd : FieldDef} (h : fd.Free ch) (h1 : ch ≠ '.') : ch ∉ fd.renderField := by
  obtain ⟨hf, ht, ha⟩ := h
  unfold FieldDef.renderField
  split
  · exact ha
  · split <;> simp_all

theorem numbersFrom_zero (k : Nat) : numbersFrom k 0 = [] := rfl

theorem numbersFrom_one (k : Nat) : numbersFrom k 1 = [k + 1] := rfl

theorem numbersFrom_add (k m n : Nat) : numbersFrom k (m + n) = numbersFrom k m ++ numbersFrom (k + m) n := by
  simp only [numbersFrom]
  rw [← List.range'_append_1]
  congr 2
  omega

theorem numbersFrom_length (k n : Nat) : (numbersFrom k n).length = n := by simp [numbersFrom]

theorem dollars_inList (n count : Nat) :
    dollars (joinWith c!"," (inPlaceholders n count) ++ c!")") = numbersFrom n count := by
  suffices h : ∀ (is : List Nat), dollars (joinWith c!"," (is.map fun idx => c!"$" ++ itoa (n + idx + 1)) ++ c!")") =
      is.map (fun idx => n + idx + 1) by
    rw [inPlaceholders, h]
    simp only [numbersFrom, List.range'_eq_map_range]
    apply List.map_congr_left
    intro a _
    omega
  intro is
  induction is with
  | nil => rfl
  | cons i is ih =>
    cases is with
    | nil =>
      simp only [List.map_cons, List.map_nil, joinWith, List.cons_append, List.nil_append]
      rw [dollars_placeholder_append _ _ (by rfl)]
      rfl
    | cons j is =>
      simp only [List.map_cons, joinWith, List.append_assoc, List.cons_append, List.nil_append] at ih ⊢
      rw [dollars_placeholder_append _ _ (by rfl)]
      rw [show ∀ t, dollars (',' :: t) = dollars t from fun t => rfl, ih]

/-! ## Pieces of rendered text -/

theorem joinToken_head (c : Cond) (t : Str) (h : c.joinType ≠ []) : noDigitHead (joinToken c false ++ t) = true := by
  simp only [Cond.joinType] at h
  have : (CondBase.renderJoin c.base false).length > 0 := by
    simp [CondBase.renderJoin, List.length_pos_iff, h]
  simp [joinToken, this, noDigitHead]

theorem joinToken_first (c : Cond) : joinToken c true = [] := by simp [joinToken, CondBase.renderJoin]

theorem joinToken_free {ch : Char} (c : Cond) (h : ch ∉ c.joinType) (hs : ch ≠ ' ') : ch ∉ joinToken c false := by
  simp only [Cond.joinType] at h
  unfold joinToken
  simp only [CondBase.renderJoin]
  split <;> simp_all

theorem wrapGroup_cases (b : CondBase) (n : Nat) (br : Bool) (sql : Str) :
    wrapGroup b n br sql = sql ∨ wrapGroup b n br sql = c!"(" ++ sql ++ c!")" ∨
    wrapGroup b n br sql = c!"NOT " ++ sql ∨ wrapGroup b n br sql = c!"NOT (" ++ sql ++ c!")" := by
  unfold wrapGroup
  cases b with
  | mk j neg =>
    by_cases hn : n > 1 <;> cases neg <;> cases br <;> simp [CondBase.renderNegate, hn]

theorem dollars_wrapGroup (b : CondBase) (n : Nat) (br : Bool) (sql : Str) :
    dollars (wrapGroup b n br sql) = dollars sql := by
  rcases wrapGroup_cases b n br sql with h | h | h | h <;> rw [h]
  · simp only [List.append_assoc]
    rw [dollars_free_append _ _ (by decide), dollars_append _ _ (by rfl)]
    simp [dollars]
  · rw [dollars_free_append _ _ (by decide)]
  · simp only [List.append_assoc]
    rw [dollars_free_append _ _ (by decide), dollars_append _ _ (by rfl)]
    simp [dollars]

theorem renderNegate_free (b : CondBase) : '$' ∉ b.renderNegate := by
  unfold CondBase.renderNegate; split <;> decide

theorem cmpSym_free (k : Kind) : '$' ∉ cmpSym k := by cases k <;> decide

theorem dollars_renderCmp (k : Kind) (b : CondBase) (fd : FieldDef) (n : Nat) (h : fd.Free '$') :
    dollars (renderCmp k b fd n) = [n + 1] := by
  have hs := renderSpec_free h (by decide)
  have hn := renderNegate_free b
  have hk := cmpSym_free k
  unfold renderCmp
  split <;> simp only [joinWith, List.append_assoc, List.append_nil]
  · rw [dollars_free_append _ _ hn, dollars_free_append _ _ (by decide), dollars_free_append _ _ hs,
      dollars_free_append _ _ hk]
    exact dollars_placeholder _
  · rw [dollars_free_append _ _ hs, dollars_free_append _ _ hk]
    exact dollars_placeholder _

theorem dollars_renderLike (k : Kind) (b : CondBase) (fd : FieldDef) (n : Nat) (h : fd.Free '$') :
    dollars (renderLike k b fd n) = [n + 1] := by
  have hs := renderSpec_free h (by decide)
  have hn := renderNegate_free b
  have hk := cmpSym_free k
  unfold renderLike
  split <;> simp only [joinWith, List.append_assoc]
  · rw [dollars_free_append _ _ hs, dollars_free_append _ _ (by decide), dollars_free_append _ _ hn,
      dollars_free_append _ _ (by decide), dollars_free_append _ _ hk, dollars_free_append _ _ (by decide)]
    exact dollars_placeholder _
  · rw [dollars_free_append _ _ hs, dollars_free_append _ _ (by decide), dollars_free_append _ _ hk,
      dollars_free_append _ _ (by decide)]
    exact dollars_placeholder _

theorem dollars_renderIn (b : CondBase) (fd : FieldDef) (count n : Nat) (h : fd.Free '$') :
    dollars (renderIn b fd count n) = numbersFrom n count := by
  have hs := renderSpec_free h (by decide)
  have hn := renderNegate_free b
  have hk := cmpSym_free .inn
  unfold renderIn
  split <;> simp only [joinWith, List.append_assoc]
  · rw [dollars_free_append _ _ hs, dollars_free_append _ _ (by decide), dollars_free_append _ _ hn,
      dollars_free_append _ _ (by decide), dollars_free_append _ _ hk, dollars_free_append _ _ (by decide),
      dollars_free_append _ _ (by decide)]
    exact dollars_inList n count
  · rw [dollars_free_append _ _ hs, dollars_free_append _ _ (by decide), dollars_free_append _ _ hk,
      dollars_free_append _ _ (by decide), dollars_free_append _ _ (by decide)]
    exact dollars_inList n count

theorem renderNull_free {b : CondBase} {fd : FieldDef} (h : fd.Free '$') : '$' ∉ renderNull b fd := by
  have hs := renderSpec_free h (by decide)
  unfold renderNull
  split <;> simp [joinWith, hs]

theorem dollars_fieldc (k : Kind) (b : CondBase) (fv : FieldValue) (n : Nat)
    (h : NumberedNode (.fieldc k b fv)) (hv : ∃ vs, fieldcValues k fv = .ok vs) :
    dollars (fieldcRenderP k b fv n) = numbersFrom n ((fieldcValues k fv).getD []).length := by
  obtain ⟨vs, hv⟩ := hv
  cases k <;> simp only [NumberedNode] at h <;> simp only [fieldcRenderP]
  case like =>
    rw [dollars_renderLike _ _ _ _ h]
    simp only [fieldcValues, likeValues] at hv ⊢
    split at hv <;> simp at hv
    subst hv
    rfl
  case ilike =>
    rw [dollars_renderLike _ _ _ _ h]
    simp only [fieldcValues, likeValues] at hv ⊢
    split at hv <;> simp at hv
    subst hv
    rfl
  case inn =>
    rw [dollars_renderIn _ _ _ _ h]
    rfl
  all_goals
    obtain ⟨h, v, hv1⟩ := h
    rw [dollars_renderCmp _ _ _ _ h]
    simp [fieldcValues, hv1, numbersFrom]

mutual
theorem dollars_render (c : Cond) (n : Nat) (h : c.Every NumberedNode) (vs : List Val) (hv : c.values = .ok vs) :
    dollars (c.renderP n) = numbersFrom n c.valuesP.length := by
  cases c with
  | fieldc k b fv =>
    simp only [Cond.Every] at h
    exact dollars_fieldc k b fv n h ⟨vs, hv⟩
  | null b fd =>
    simp only [Cond.Every, NumberedNode] at h
    simp only [Cond.renderP, Cond.valuesP]
    rw [dollars_of_free _ (renderNull_free h)]
    rfl
  | custom b x =>
    simp only [Cond.Every, NumberedNode] at h
    simp only [Cond.renderP, Cond.valuesP]
    exact h n
  | group b cs br =>
    simp only [Cond.Every, NumberedNode] at h
    simp only [Cond.values] at hv
    simp only [Cond.renderP, Cond.valuesP]
    split
    · rename_i h0
      have : cs = [] := List.length_eq_zero_iff.mp h0
      subst this
      rfl
    · rw [dollars_wrapGroup]
      exact dollars_renderL cs true n h.2 (fun hf => by simp at hf) h.1 vs hv
theorem dollars_renderL (cs : List Cond) (f : Bool) (n : Nat) (h : Cond.EveryL NumberedNode cs)
    (hj0 : f = false → ∀ c ∈ cs.head?, c.joinType ≠ [] ∧ '$' ∉ c.joinType)
    (hj : ∀ c ∈ cs.drop 1, c.joinType ≠ [] ∧ '$' ∉ c.joinType) (vs : List Val) (hv : Cond.valuesL cs = .ok vs) :
    dollars (Cond.renderPL cs f n) = numbersFrom n (Cond.valuesPL cs).length := by
  cases cs with
  | nil => rfl
  | cons c cs =>
    simp only [Cond.EveryL] at h
    simp only [Cond.valuesL, Res.bind_def, Res.pure_def, Res.bind_eq_ok] at hv
    obtain ⟨v1, h1, v2, h2, _⟩ := hv
    have ih1 := dollars_render c n h.1 v1 h1
    have hj' : ∀ d ∈ cs.head?, d.joinType ≠ [] ∧ '$' ∉ d.joinType := by
      intro d hd
      apply hj d
      simp only [List.drop_one, List.tail_cons]
      exact List.mem_of_mem_head? hd
    have hj'' : ∀ d ∈ cs.drop 1, d.joinType ≠ [] ∧ '$' ∉ d.joinType := by
      intro d hd
      apply hj d
      simp only [List.drop_one, List.tail_cons]
      exact List.mem_of_mem_drop hd
    have ih2 := dollars_renderL cs false (n + c.valuesP.length) h.2 (fun _ => hj') hj'' v2 h2
    simp only [Cond.renderPL, Cond.valuesPL, List.length_append, numbersFrom_add, List.append_assoc]
    have hfree : '$' ∉ joinToken c f := by
      cases f with
      | true => simp [joinToken_first]
      | false => exact joinToken_free c (hj0 rfl c (by simp)).2 (by decide)
    rw [dollars_free_append _ _ hfree]
    rw [dollars_append, ih1, ih2]
    cases cs with
    | nil => rfl
    | cons d ds =>
      simp only [Cond.renderPL, List.append_assoc]
      exact joinToken_head d _ (hj' d (by simp)).1
end

end Query
