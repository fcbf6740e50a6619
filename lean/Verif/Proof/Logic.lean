import Verif.Proof.Alg
import Verif.Proof.Combine
import Verif.Props.Meaning
/-!
# Adding conditions to groups, as truth values
-/
namespace Query

/-- The readable list of members of a group. -/
def ReadL (cs : List Cond) : Prop :=
  cs ≠ [] ∧ (∀ d ∈ cs.drop 1, d.joinType = c!"AND" ∨ d.joinType = c!"OR") ∧ ∀ c ∈ cs, c.Readable

theorem readL_every {cs : List Cond} (h : ReadL cs) : Cond.EveryL ReadableNode cs := everyL_mem.mpr h.2.2

theorem join_word {d : Cond} (h : d.joinType = c!"AND" ∨ d.joinType = c!"OR") : d.isOr = false ↔ d.joinType = c!"AND" := by
  unfold Cond.isOr
  rcases h with h | h <;> rw [h] <;> decide

theorem join_word' {d : Cond} : d.isOr = true ↔ d.joinType = c!"OR" := by
  unfold Cond.isOr; simp

theorem hasAll_and {g : Group} (h : ReadL g.conds) : g.hasAll lAND = allAnd g.conds := by
  rw [Bool.eq_iff_iff]
  simp only [Group.hasAll, allAnd, List.all_eq_true, beq_iff_eq, Bool.not_eq_true']
  exact ⟨fun k d hd => (join_word (h.2.1 d hd)).mpr (k d hd), fun k d hd => (join_word (h.2.1 d hd)).mp (k d hd)⟩

theorem hasAll_or {g : Group} : g.hasAll lOR = allOr g.conds := rfl

theorem hasOne_or {g : Group} : g.hasOne lOR = !allAnd g.conds := by
  rw [Bool.eq_iff_iff]
  simp only [Group.hasOne, allAnd, List.any_eq_true, beq_iff_eq, List.not_all_eq_any_not, Bool.not_not, Cond.isOr, lOR]

theorem hasOne_and {g : Group} (h : ReadL g.conds) : g.hasOne lAND = !allOr g.conds := by
  rw [Bool.eq_iff_iff]
  simp only [Group.hasOne, allOr, List.any_eq_true, beq_iff_eq, List.not_all_eq_any_not, Bool.not_eq_true']
  constructor
  · rintro ⟨d, hd, k⟩; exact ⟨d, hd, (join_word (h.2.1 d hd)).mpr k⟩
  · rintro ⟨d, hd, k⟩; exact ⟨d, hd, (join_word (h.2.1 d hd)).mp k⟩

theorem allAnd_one (c : Cond) : allAnd [c] = true := rfl
theorem allOr_one (c : Cond) : allOr [c] = true := rfl

theorem both_one {cs : List Cond} (h1 : allAnd cs = true) (h2 : allOr cs = true) : cs.length ≤ 1 := by
  cases cs with
  | nil => simp
  | cons c cs =>
    cases cs with
    | nil => simp
    | cons d ds => simp [allAnd, allOr] at h1 h2; simp [h1.1] at h2

theorem not_allAnd_len {cs : List Cond} (h : allAnd cs = false) : cs.length > 1 := by
  cases cs with
  | nil => simp [allAnd] at h
  | cons c cs =>
    cases cs with
    | nil => simp [allAnd] at h
    | cons d ds => simp

theorem not_allOr_len {cs : List Cond} (h : allOr cs = false) : cs.length > 1 := by
  cases cs with
  | nil => simp [allOr] at h
  | cons c cs =>
    cases cs with
    | nil => simp [allOr] at h
    | cons d ds => simp

/-- The branches of `addGroup` for AND. -/
theorem addGroup_and (g a : Group) (hg : ReadL g.conds) (ha : ReadL a.conds) (hj : a.base.joinType = c!"AND") :
    (g.addGroup a).conds =
      (if allAnd g.conds then
        if allAnd a.conds then g.conds ++ a.conds else g.conds ++ [a.withBrackets.toCond]
      else if allOr a.conds then [g.withBrackets.toCond, a.withBrackets.toCond] else g.withBrackets.toCond :: a.conds) ∧
    (g.addGroup a).base = g.base ∧ (g.addGroup a).brackets = g.brackets := by
  have hjj : a.withBrackets.toCond.join a.base.joinType = a.withBrackets.toCond := by
    cases a with
    | mk b cs br => rfl
  have h0 : (g.conds.length == 0) = false := by
    have := hg.1
    cases hc : g.conds with
    | nil => exact absurd hc this
    | cons c cs => simp
  have hAO : (a.base.joinType == lOR) = false := by rw [hj]; decide
  have hAA : (a.base.joinType == lAND) = true := by rw [hj]; decide
  unfold Group.addGroup
  simp only [hasAll_and hg, hasAll_or, hasOne_or, hasOne_and hg, hasAll_and ha, hasOne_and ha, h0, hAO, hAA, hjj]
  simp only [Bool.false_eq_true, if_false, Bool.and_false, Bool.and_true, Bool.false_and]
  by_cases h1 : (g.conds.length == 1) = true
  · have e1 : allAnd g.conds = true := by
      cases hc : g.conds with
      | nil => rfl
      | cons c cs =>
        cases cs with
        | nil => rfl
        | cons d ds => rw [hc] at h1; simp at h1
    simp only [h1, e1, if_true, Bool.true_and]
    split <;> exact ⟨rfl, rfl, rfl⟩
  · have h1 : (g.conds.length == 1) = false := by simpa using h1
    simp only [h1, Bool.false_and, Bool.false_eq_true, if_false]
    cases hA : allAnd g.conds <;> cases hB : allAnd a.conds <;> cases hC : allOr a.conds <;> exact ⟨rfl, rfl, rfl⟩

/-- The branches of `addGroup` for OR. -/
theorem addGroup_or (g a : Group) (hg : ReadL g.conds) (ha : ReadL a.conds) (hj : a.base.joinType = c!"OR") :
    (g.addGroup a).conds =
      (if allOr g.conds then
        if allOr a.conds then g.conds ++ a.conds else g.conds ++ [a.withBrackets.toCond]
      else if allOr a.conds then g.withBrackets.toCond :: a.conds else [g.withBrackets.toCond, a.withBrackets.toCond]) ∧
    (g.addGroup a).base = g.base ∧ (g.addGroup a).brackets = g.brackets := by
  have hjj : a.withBrackets.toCond.join a.base.joinType = a.withBrackets.toCond := by
    cases a with
    | mk b cs br => rfl
  have h0 : (g.conds.length == 0) = false := by
    have := hg.1
    cases hc : g.conds with
    | nil => exact absurd hc this
    | cons c cs => simp
  have hAO : (a.base.joinType == lOR) = true := by rw [hj]; decide
  have hAA : (a.base.joinType == lAND) = false := by rw [hj]; decide
  unfold Group.addGroup
  simp only [hasAll_and hg, hasAll_or, hasOne_or, hasOne_and hg, hasAll_and ha, hasOne_and ha, h0, hAO, hAA, hjj]
  simp only [Bool.false_eq_true, if_false, Bool.and_false, Bool.and_true, Bool.false_and]
  by_cases h1 : (g.conds.length == 1) = true
  · have e1 : allOr g.conds = true := by
      cases hc : g.conds with
      | nil => rfl
      | cons c cs =>
        cases cs with
        | nil => rfl
        | cons d ds => rw [hc] at h1; simp at h1
    simp only [h1, e1, if_true, Bool.true_and]
    split <;> exact ⟨rfl, rfl, rfl⟩
  · have h1 : (g.conds.length == 1) = false := by simpa using h1
    simp only [h1, Bool.false_and, Bool.false_eq_true, if_false]
    cases hA : allOr g.conds <;> cases hB : allAnd a.conds <;> cases hC : allOr a.conds <;> exact ⟨rfl, rfl, rfl⟩

theorem join_join (c : Cond) (j : Str) : (c.join j).join j = c.join j := by cases c <;> rfl
theorem joinType_join (c : Cond) (j : Str) : (c.join j).joinType = j := by cases c <;> rfl
theorem asGroup_join (c : Cond) (j : Str) :
    (c.join j).asGroup = c.asGroup.map fun g => { g with base := g.base.join j } := by cases c <;> rfl

/-- The branches of `addSingleCondition` for a condition that is no group. -/
theorem addSingle_leaf (g : Group) (c : Cond) (op : Str) (hg : ReadL g.conds) (hc : c.asGroup = none)
    (hop : op = lAND ∨ op = lOR) :
    (g.addSingleCondition (c.join op)).conds =
      (if g.hasAll op then g.conds ++ [c.join op] else [g.withBrackets.toCond, c.join op]) ∧
    (g.addSingleCondition (c.join op)).base = g.base ∧ (g.addSingleCondition (c.join op)).brackets = g.brackets := by
  have h0 : (g.conds.length == 0) = false := by
    have := hg.1
    cases hc : g.conds with
    | nil => exact absurd hc this
    | cons c cs => simp
  have hn : (c.join op).asGroup = none := by rw [asGroup_join, hc]; rfl
  unfold Group.addSingleCondition
  simp only [hn, joinType_join, join_join, h0, Bool.false_eq_true, if_false]
  by_cases h1 : (g.conds.length == 1) = true
  · have e1 : g.hasAll op = true := by
      unfold Group.hasAll
      cases hc : g.conds with
      | nil => rfl
      | cons c cs =>
        cases cs with
        | nil => rfl
        | cons d ds => rw [hc] at h1; simp at h1
    rw [if_pos h1, if_pos e1]; exact ⟨rfl, rfl, rfl⟩
  · have h2 : decide (g.conds.length > 1) = true := by
      have : g.conds.length ≠ 0 := by simpa using h0
      have : g.conds.length ≠ 1 := by simpa using h1
      simp; omega
    have h1 : (g.conds.length == 1) = false := by simpa using h1
    simp only [h1, h2, Bool.false_eq_true, if_false, Bool.true_and]
    have hAO : (lAND == lOR) = false := by decide
    have hOA : (lOR == lAND) = false := by decide
    rcases hop with rfl | rfl
    · simp only [hAO, Bool.false_and, Bool.false_eq_true, if_false, beq_self_eq_true, Bool.true_and]
      cases g.hasAll lAND <;> exact ⟨rfl, rfl, rfl⟩
    · simp only [hOA, Bool.false_and, Bool.false_eq_true, if_false, beq_self_eq_true, Bool.true_and]
      cases g.hasAll lOR <;> exact ⟨rfl, rfl, rfl⟩

/-! ## Truth values -/

theorem sflat_join (row : Row) (c : Cond) (j : Str) : (c.join j).sflat row = ssetHead (j == c!"OR") (c.sflat row) := by
  cases c with
  | fieldc k b fv => rfl
  | null b fd => rfl
  | custom b x => rfl
  | group b cs br =>
    simp only [Cond.join, CondBase.join, Cond.sflat]
    have : effBr { b with joinType := j } cs.length br = effBr b cs.length br := rfl
    rw [this]
    split
    · rfl
    · cases Cond.sflatL row cs with
      | nil => rfl
      | cons p l => rfl

theorem textSem_join (row : Row) (c : Cond) (j : Str) : (c.join j).textSem row = c.textSem row := by
  simp [Cond.textSem, sflat_join]

theorem single_join (c : Cond) (j : Str) : (c.join j).single = c.single := by cases c <;> simp [Cond.join, Cond.single, CondBase.join]
theorem orFree_join (c : Cond) (j : Str) : (c.join j).orFree = c.orFree := by cases c <;> simp [Cond.join, Cond.orFree, CondBase.join]

theorem brackets_single (g : Group) : g.withBrackets.toCond.single = true := by
  simp [Group.withBrackets, Group.toCond, Cond.single]

theorem single_orFree (c : Cond) (h : c.single = true) : c.orFree = true := by
  match c with
  | .fieldc _ _ _ => rfl
  | .null _ _ => rfl
  | .custom _ _ => rfl
  | .group b [] br => simpa [Cond.single, Cond.orFree, Cond.singleL, Cond.orFreeL] using Or.inr trivial
  | .group b [c] br =>
    simp only [Cond.single, Cond.singleL, Bool.or_eq_true] at h
    simp only [Cond.orFree, Cond.orFreeL, Bool.or_eq_true]
    rcases h with h | h
    · exact Or.inl h
    · right; simp [single_orFree c h]
  | .group b (c :: d :: ds) br =>
    simp only [Cond.single, Cond.singleL, Bool.or_eq_true, Bool.false_eq_true, or_false] at h
    simp only [Cond.orFree, Bool.or_eq_true]
    exact Or.inl h

theorem brackets_sem (row : Row) (g : Group) (h : g.base.negate = false ∨ g.conds.length > 1) :
    g.withBrackets.toCond.textSem row = g.toCond.textSem row := by
  obtain ⟨b, cs, br⟩ := g
  by_cases hb : b.negate = false
  · simp only [Group.withBrackets, Group.toCond]
    rw [textSem_group row _ _ _ hb, textSem_group row _ _ _ hb]
  · have hl : cs.length > 1 := h.resolve_left hb
    have hb : b.negate = true := by simpa using hb
    simp [Group.withBrackets, Group.toCond, Cond.textSem, Cond.sflat, effBr_eq, hb, hl]

theorem readable_brackets {g : Group} (h : g.toCond.Readable) : g.withBrackets.toCond.Readable := h

/-- Members joined by OR. -/
theorem sem_append_or (row : Row) (cs : List Cond) (d : Cond) (ds : List Cond) (hc : ∀ c ∈ cs, c.Readable)
    (hn : cs ≠ []) (hd : d.Readable) (ho : d.isOr = true) :
    joinTri (Cond.sflatL row (cs ++ d :: ds)) = (joinTri (Cond.sflatL row cs)).or (joinTri (Cond.sflatL row (d :: ds))) := by
  rw [sflatL_append]
  obtain ⟨x, l, e⟩ := sflat_head row d hd
  simp only [Cond.sflatL, e, ho, List.cons_append]
  apply joinTri_append_or
  cases cs with
  | nil => exact absurd rfl hn
  | cons c cs => simp [Cond.sflatL, sflat_ne row c (hc c (by simp))]

theorem conj_noOr (row : Row) (cs : List Cond) (h : Cond.EveryL ReadableNode cs) (hf : Cond.orFreeL cs = true)
    (ha : allAnd cs = true) : OFree (Cond.sflatL row cs) := by
  cases cs with
  | nil => simp [Cond.sflatL, OFree]
  | cons c cs =>
    simp only [Cond.orFreeL, Bool.and_eq_true] at hf
    have e1 := orFree_sflat row c h.1 hf.1
    have e2 := orFreeL_sflat row cs h.2 hf.2 (by simpa [allAnd] using ha)
    obtain ⟨x, l, e⟩ := sflat_head row c h.1
    simp only [Cond.sflatL]
    rw [e] at e1 ⊢
    intro p hp
    simp only [List.cons_append, List.drop_succ_cons, List.drop_zero, List.mem_append] at hp
    exact hp.elim (fun hp => e1 p (by simpa using hp)) (e2 p)

/-- Members joined by AND, without OR outside brackets. -/
theorem sem_append_and (row : Row) (cs : List Cond) (d : Cond) (ds : List Cond) (hc : ReadL cs)
    (hcf : Cond.orFreeL cs = true) (hca : allAnd cs = true) (hd : ReadL (d :: ds)) (hdf : Cond.orFreeL (d :: ds) = true)
    (hda : allAnd (d :: ds) = true) (ho : d.isOr = false) :
    joinTri (Cond.sflatL row (cs ++ d :: ds)) = (joinTri (Cond.sflatL row cs)).and (joinTri (Cond.sflatL row (d :: ds))) := by
  rw [sflatL_append]
  have h1 := conj_noOr row cs (readL_every hc) hcf hca
  have h2 := conj_noOr row (d :: ds) (readL_every hd) hdf hda
  obtain ⟨x, l, e⟩ := sflat_head row d (hd.2.2 d (by simp))
  simp only [Cond.sflatL, e, ho, List.cons_append] at h2 ⊢
  apply joinTri_append_and _ _ _ _ h1
  · intro p hp; exact h2 p (by simpa using hp)
  · cases cs with
    | nil => exact absurd rfl hc.1
    | cons c cs => simp [Cond.sflatL, sflat_ne row c (hc.2.2 c (by simp))]

theorem sem_one (row : Row) (c : Cond) : joinTri (Cond.sflatL row [c]) = c.textSem row := by
  simp [Cond.sflatL, Cond.textSem]

theorem readL_append {cs ds : List Cond} (hc : ReadL cs) (hd : ReadL ds)
    (hj : ∀ d ∈ ds.head?, d.joinType = c!"AND" ∨ d.joinType = c!"OR") : ReadL (cs ++ ds) := by
  refine ⟨by simp [hc.1], ?_, ?_⟩
  · intro d h
    cases cs with
    | nil => exact absurd rfl hc.1
    | cons c cs =>
      simp only [List.cons_append, List.drop_succ_cons, List.drop_zero, List.mem_append] at h
      rcases h with h | h
      · exact hc.2.1 d (by simpa using h)
      · cases ds with
        | nil => simp at h
        | cons e ds =>
          rcases List.mem_cons.mp h with rfl | h
          · exact hj _ rfl
          · exact hd.2.1 d (by simpa using h)
  · intro c h
    exact (List.mem_append.mp h).elim (hc.2.2 c) (hd.2.2 c)

theorem readL_one {c : Cond} (h : c.Readable) : ReadL [c] := ⟨by simp, by simp, by simpa using h⟩

theorem readable_toCond {g : Group} : g.toCond.Readable ↔ ReadL g.conds := readable_group

end Query
