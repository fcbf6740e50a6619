import Verif.Spec.Adding
import Verif.Proof.LogicChain
/-!
# Adding to groups: exact forms
-/
namespace Query

set_option linter.unusedSimpArgs false

/-- A group of two or more members: in brackets if negated. -/
theorem textSem_two (row : Row) (g : Group) (h : g.conds.length > 1) :
    g.toCond.textSem row = (joinTri (Cond.sflatL row g.conds)).notIf g.base.negate := by
  obtain ⟨b, cs, br⟩ := g
  cases hb : b.negate with
  | false => rw [toCond_sem row _ hb]; rfl
  | true => simp only [Group.toCond, Cond.textSem, Cond.sflat, effBr, hb, Bool.true_and, decide_eq_true h, if_true, joinTri_one]

/-- A group in brackets. -/
theorem sflat_boxed (row : Row) (g : Group) :
    g.withBrackets.toCond.sflat row = [(g.base.joinType == c!"OR", (joinTri (Cond.sflatL row g.conds)).notIf g.base.negate)] := by
  obtain ⟨b, cs, br⟩ := g
  simp only [Group.withBrackets, Group.toCond, Cond.sflat, effBr]
  simp

theorem sflatL_joined (row : Row) (j : Str) (o : Bool) (hj : (j == c!"OR") = o) :
    ∀ ds : List Cond, Cond.sflatL row (setToAll j ds) = joinedBy row o ds
  | [] => rfl
  | d :: ds => by
    have ih := sflatL_joined row j o hj ds
    simp only [setToAll, joinedBy] at ih ⊢
    simp only [List.map_cons, Cond.sflatL, List.flatMap_cons, sflat_join, hj, ih]

/-- What a group holds. -/
def Group.held (row : Row) (g : Group) : Held :=
  ⟨Cond.sflatL row g.conds, allAnd g.conds, allOr g.conds, g.base.negate, g.base.joinType == c!"OR"⟩

/-- The result of adding: its text is SQL, and what it says. -/
structure Holds (row : Row) (g r : Group) (facs : List (Bool × Tri)) (noOr : Bool) : Prop where
  read : ReadL r.conds
  base : r.base = g.base
  two : r.conds.length > 1
  facs : Cond.sflatL row r.conds = facs
  all : allAnd r.conds = noOr

theorem word_or (j : Str) (h : IsWord j) : (j != c!"OR") = !(j == c!"OR") := rfl

theorem headWord_append {cs ds : List Cond} (h : cs ≠ []) : headWord (cs ++ ds) = headWord cs := by
  cases cs with
  | nil => exact absurd rfl h
  | cons c cs => rfl

theorem head_words {cs : List Cond} (h : IsWord (headWord cs)) : ∀ d ∈ cs.head?, d.joinType = c!"AND" ∨ d.joinType = c!"OR" := by
  intro d hd
  cases cs with
  | nil => simp at hd
  | cons c cs => simp at hd; subst hd; exact h

theorem allAnd_after {cs ds : List Cond} (h : cs ≠ []) (hd : ds ≠ []) (hc : allAnd cs = true) :
    allAnd (cs ++ ds) = (headWord ds != c!"OR" && allAnd ds) := by
  obtain ⟨c, cs, rfl⟩ := List.exists_cons_of_ne_nil h
  obtain ⟨d, ds, rfl⟩ := List.exists_cons_of_ne_nil hd
  simp only [allAnd, List.cons_append, List.drop_one, List.tail_cons, List.all_append, List.all_cons] at hc ⊢
  rw [hc]
  simp only [Bool.true_and, headWord, Cond.isOr]
  rfl

theorem allAnd_cons' (c : Cond) {ds : List Cond} (hd : ds ≠ []) : allAnd (c :: ds) = (headWord ds != c!"OR" && allAnd ds) := by
  exact allAnd_after (cs := [c]) (by simp) hd rfl

theorem len_append_two {cs ds : List Cond} (h : cs ≠ []) (hd : ds ≠ []) : (cs ++ ds).length > 1 := by
  have h1 := List.length_pos_iff.2 h
  have h2 := List.length_pos_iff.2 hd
  simp only [List.length_append]; omega

theorem leaf_held_facs {row : Row} {d : Cond} (h : d.asGroup = none) (o : Bool) :
    d.held row o = ⟨ssetHead o (d.sflat row), true, true, false, false⟩ := by
  cases d <;> first | rfl | cases h

theorem addAnd_leaf {row : Row} {d : Cond} (hd : d.asGroup = none) (h : Held) :
    h.addAnd row [d] = (if h.noOr then h.facs else [h.box h.word]) ++ ssetHead false (d.sflat row) := by
  cases d <;> first | rfl | cases hd

theorem addOr_leaf {row : Row} {d : Cond} (hd : d.asGroup = none) (h : Held) :
    h.addOr row [d] = (if h.noAnd then h.facs else [h.box h.word]) ++ ssetHead true (d.sflat row) := by
  cases d <;> first | rfl | cases hd

theorem andNoOr_leaf {d : Cond} (hd : d.asGroup = none) (h : Held) : h.andNoOr [d] = true := by
  cases d <;> first | rfl | cases hd

/-- And with one condition. -/
theorem adds_and_one (row : Row) (g : Group) (d : Cond) (hg : ReadL g.conds) (hd : d.Readable) (hw : d.Worded) :
    Holds row g (g.groupAND [d]) ((g.held row).addAnd row [d]) ((g.held row).andNoOr [d]) := by
  unfold Group.groupAND
  rw [addConditions_one g lAND d hg.1]
  have hdj : (d.join lAND).Readable := readable_join lAND hd
  cases hdg : d.asGroup with
  | none =>
    obtain ⟨e1, e2, _⟩ := addSingle_leaf g d lAND hg hdg (Or.inl rfl)
    rw [hasAll_and hg] at e1
    rw [addAnd_leaf hdg, andNoOr_leaf hdg]
    have hw' : ∀ x ∈ [d.join lAND].head?, x.joinType = c!"AND" ∨ x.joinType = c!"OR" := by
      intro x hx; simp at hx; rw [← hx]; exact joinType_cases _ (Or.inl rfl) d
    rcases Bool.eq_false_or_eq_true (allAnd g.conds) with hA | hA
    · try simp only [hA, Bool.false_eq_true, if_false, if_true, Bool.not_true, Bool.not_false, Bool.true_or, Bool.false_or]
      rw [hA, if_pos rfl] at e1
      refine ⟨?_, e2, ?_, ?_, ?_⟩
      · rw [e1]; exact readL_append hg (readL_one hdj) hw'
      · rw [e1]; exact len_append_two hg.1 (by simp)
      · rw [e1, sflatL_append]; simp only [Group.held, hA, if_true, Cond.sflatL, sflat_join, List.append_nil]; rfl
      · rw [e1, allAnd_after hg.1 (by simp) hA]; simp only [headWord, joinType_join]; rfl
    · try simp only [hA, Bool.false_eq_true, if_false, if_true, Bool.not_true, Bool.not_false, Bool.true_or, Bool.false_or]
      rw [hA, if_neg (by simp)] at e1
      refine ⟨?_, e2, ?_, ?_, ?_⟩
      · rw [e1]; exact readL_bracket_cons g hg _ (readL_one hdj) hw'
      · rw [e1]; simp
      · rw [e1]; simp only [Group.held, hA, Bool.false_eq_true, if_false, Cond.sflatL, sflat_boxed, sflat_join, List.append_nil]; rfl
      · rw [e1, allAnd_cons' _ (by simp)]; simp only [headWord, joinType_join]; rfl
  | some a =>
    obtain rfl := asGroup_some hdg
    have haR : ReadL a.conds := readable_toCond.mp hd
    have e0 : g.addSingleCondition (a.toCond.join lAND) = g.addGroup { a with base := a.base.join lAND } := rfl
    rw [e0]
    obtain ⟨e1, e2, _⟩ := addGroup_and g { a with base := a.base.join lAND } hg haR rfl
    simp only at e1
    have hbr : (({ a with base := a.base.join lAND } : Group).withBrackets.toCond).Readable := hd
    have hbrj : ∀ d ∈ ([({ a with base := a.base.join lAND } : Group).withBrackets.toCond]).head?,
        d.joinType = c!"AND" ∨ d.joinType = c!"OR" := by
      intro x hx; simp at hx; rw [← hx]; exact Or.inl rfl
    have hwd : IsWord (headWord a.conds) := hw.2
    have hb2 := sflat_boxed row { a with base := a.base.join lAND }
    have hb1 := sflat_boxed row g
    have hjj : ((a.base.join lAND).joinType == c!"OR") = false := by
      show (lAND == c!"OR") = false
      decide
    have hng : (a.base.join lAND).negate = a.base.negate := rfl
    simp only [hjj, hng] at hb2
    have hbw : headWord [({ a with base := a.base.join lAND } : Group).withBrackets.toCond] = lAND := rfl
    show Holds row g _ ((g.held row).addAnd row [.group a.base a.conds a.brackets]) ((g.held row).andNoOr [.group a.base a.conds a.brackets])
    simp only [Held.addAnd, Held.andNoOr, Cond.held, Held.box, Group.held]
    rcases Bool.eq_false_or_eq_true (allAnd g.conds) with hA | hA
    · try simp only [hA, Bool.false_eq_true, if_false, if_true, Bool.not_true, Bool.not_false, Bool.true_or, Bool.false_or]
      simp only [hA, if_true] at e1
      rcases Bool.eq_false_or_eq_true (allAnd a.conds) with hB | hB
      · try simp only [hB, Bool.false_eq_true, if_false, if_true, Bool.not_true, Bool.not_false, Bool.true_or, Bool.false_or]
        simp only [hB, if_true] at e1
        refine ⟨?_, e2, ?_, ?_, ?_⟩
        · rw [e1]; exact readL_append hg haR (head_words hwd)
        · rw [e1]; exact len_append_two hg.1 haR.1
        · rw [e1, sflatL_append]
        · rw [e1, allAnd_after hg.1 haR.1 hA, hB]; simp
      · try simp only [hB, Bool.false_eq_true, if_false, if_true, Bool.not_true, Bool.not_false, Bool.true_or, Bool.false_or]
        simp only [hB, Bool.false_eq_true, if_false] at e1
        refine ⟨?_, e2, ?_, ?_, ?_⟩
        · rw [e1]; exact readL_append hg (readL_one hbr) hbrj
        · rw [e1]; exact len_append_two hg.1 (by simp)
        · rw [e1, sflatL_append]; simp only [Cond.sflatL, hb2]; rfl
        · rw [e1, allAnd_after hg.1 (by simp) hA, hbw]; rfl
    · try simp only [hA, Bool.false_eq_true, if_false, if_true, Bool.not_true, Bool.not_false, Bool.true_or, Bool.false_or]
      simp only [hA, Bool.false_eq_true, if_false] at e1
      rcases Bool.eq_false_or_eq_true (allOr a.conds) with hB | hB
      · try simp only [hB, Bool.false_eq_true, if_false, if_true, Bool.not_true, Bool.not_false, Bool.true_or, Bool.false_or]
        simp only [hB, if_true] at e1
        refine ⟨?_, e2, ?_, ?_, ?_⟩
        · rw [e1]; exact readL_bracket_cons g hg _ (readL_one hbr) hbrj
        · rw [e1]; simp
        · rw [e1]; simp only [Cond.sflatL, hb1, hb2]; rfl
        · rw [e1, allAnd_cons' _ (by simp), hbw]; rfl
      · try simp only [hB, Bool.false_eq_true, if_false, if_true, Bool.not_true, Bool.not_false, Bool.true_or, Bool.false_or]
        simp only [hB, Bool.false_eq_true, if_false] at e1
        refine ⟨?_, e2, ?_, ?_, ?_⟩
        · rw [e1]; exact readL_bracket_cons g hg _ haR (head_words hwd)
        · rw [e1]; have := List.length_pos_iff.2 haR.1; simp only [List.length_cons]; omega
        · rw [e1]; simp only [Cond.sflatL, hb1]; rfl
        · rw [e1, allAnd_cons' _ haR.1]

theorem readL_of_words {ds : List Cond} (hn : ds ≠ []) (h : ∀ d ∈ ds, d.Readable ∧ d.Worded) : ReadL ds := by
  refine ⟨hn, fun d hd => ?_, fun d hd => (h d hd).1⟩
  have := (h d (List.mem_of_mem_drop hd)).2
  cases d <;> first | exact this.1 | exact this

theorem word_of {d : Cond} (h : d.Worded) : IsWord d.joinType := by
  cases d <;> first | exact h.1 | exact h

theorem newGroup_held (row : Row) (j : Str) (o : Bool) (hj : (j == c!"OR") = o) (ds : List Cond) :
    Cond.sflatL row (newGroup j ds).conds = joinedBy row o ds := sflatL_joined row j o hj ds

/-- And with several conditions. -/
theorem adds_and_many (row : Row) (g : Group) (d e : Cond) (ds : List Cond) (hg : ReadL g.conds)
    (hd : ∀ x ∈ d :: e :: ds, x.Readable ∧ x.Worded) :
    Holds row g (g.groupAND (d :: e :: ds)) ((g.held row).addAnd row (d :: e :: ds)) ((g.held row).andNoOr (d :: e :: ds)) := by
  have hl : decide (g.conds.length > 0) = true := by simpa [List.length_pos_iff] using hg.1
  have hAO : (lAND == lOR) = false := by decide
  have hRd := readL_of_words (by simp) hd
  have hN : ReadL (setToAll lAND (d :: e :: ds)) := readL_setToAll (Or.inl rfl) (by simp) fun c hc => (hd c hc).1
  have hb2 := sflat_boxed row (newGroup lAND (d :: e :: ds))
  rw [newGroup_held row lAND false (by decide)] at hb2
  have hb1 := sflat_boxed row g
  unfold Group.groupAND Group.addConditions
  simp only [hl, Bool.not_true, Bool.false_eq_true, if_false, List.length_cons, hasOne_or, hAO, Bool.and_false, beq_self_eq_true, Bool.and_true]
  rw [if_neg (by simp)]
  simp only [Held.addAnd, Held.andNoOr, Held.box, Group.held]
  rcases Bool.eq_false_or_eq_true (allAnd g.conds) with hA | hA
  · try simp only [hA, Bool.false_eq_true, if_false, if_true, Bool.not_true, Bool.not_false, Bool.true_or, Bool.false_or]
    refine ⟨readL_bracket_cons g hg _ (readL_one (readable_brackets (readable_toCond.mpr hN))) ?_, rfl, by simp, ?_, ?_⟩
    · intro x hx; simp at hx; rw [← hx]; exact Or.inl rfl
    · simp only [Cond.sflatL, hb1, hb2]
      rfl
    · rfl
  · try simp only [hA, Bool.false_eq_true, if_false, if_true, Bool.not_true, Bool.not_false, Bool.true_or, Bool.false_or]
    refine ⟨readL_bracket_cons g hg _ hRd ?_, rfl, by simp, ?_, ?_⟩
    · intro x hx; simp at hx; rw [← hx]; exact word_of (hd d (by simp)).2
    · simp only [Cond.sflatL, hb1]
      rfl
    · simp only [allAnd, List.drop_one, List.tail_cons]

theorem adds_and (row : Row) (g : Group) (ds : List Cond) (hg : ReadL g.conds) (hn : ds ≠ []) (hd : ∀ x ∈ ds, x.Readable ∧ x.Worded) :
    Holds row g (g.groupAND ds) ((g.held row).addAnd row ds) ((g.held row).andNoOr ds) := by
  match ds, hn, hd with
  | [d], _, hd => exact adds_and_one row g d hg (hd d (by simp)).1 (hd d (by simp)).2
  | d :: e :: ds, _, hd => exact adds_and_many row g d e ds hg hd

/-- Or with one condition. -/
theorem adds_or_one (row : Row) (g : Group) (d : Cond) (hg : ReadL g.conds) (hd : d.Readable) (hw : d.Worded) :
    ReadL (g.groupOR [d]).conds ∧ (g.groupOR [d]).base = g.base ∧ (g.groupOR [d]).conds.length > 1 ∧
      Cond.sflatL row (g.groupOR [d]).conds = (g.held row).addOr row [d] := by
  unfold Group.groupOR
  rw [addConditions_one g lOR d hg.1]
  have hdj : (d.join lOR).Readable := readable_join lOR hd
  cases hdg : d.asGroup with
  | none =>
    obtain ⟨e1, e2, _⟩ := addSingle_leaf g d lOR hg hdg (Or.inr rfl)
    rw [hasAll_or] at e1
    rw [addOr_leaf hdg]
    have hw' : ∀ x ∈ [d.join lOR].head?, x.joinType = c!"AND" ∨ x.joinType = c!"OR" := by
      intro x hx; simp at hx; rw [← hx]; exact joinType_cases _ (Or.inr rfl) d
    rcases Bool.eq_false_or_eq_true (allOr g.conds) with hA | hA
    · try simp only [hA, Bool.false_eq_true, if_false, if_true, Bool.not_true, Bool.not_false, Bool.true_or, Bool.false_or]
      rw [hA, if_pos rfl] at e1
      refine ⟨?_, e2, ?_, ?_⟩
      · rw [e1]; exact readL_append hg (readL_one hdj) hw'
      · rw [e1]; exact len_append_two hg.1 (by simp)
      · rw [e1, sflatL_append]; simp only [Group.held, hA, if_true, Cond.sflatL, sflat_join, List.append_nil]; rfl
    · try simp only [hA, Bool.false_eq_true, if_false, if_true, Bool.not_true, Bool.not_false, Bool.true_or, Bool.false_or]
      rw [hA, if_neg (by simp)] at e1
      refine ⟨?_, e2, ?_, ?_⟩
      · rw [e1]; exact readL_bracket_cons g hg _ (readL_one hdj) hw'
      · rw [e1]; simp
      · rw [e1]; simp only [Group.held, hA, Bool.false_eq_true, if_false, Cond.sflatL, sflat_boxed, sflat_join, List.append_nil]; rfl
  | some a =>
    obtain rfl := asGroup_some hdg
    have haR : ReadL a.conds := readable_toCond.mp hd
    have e0 : g.addSingleCondition (a.toCond.join lOR) = g.addGroup { a with base := a.base.join lOR } := rfl
    rw [e0]
    obtain ⟨e1, e2, _⟩ := addGroup_or g { a with base := a.base.join lOR } hg haR rfl
    simp only at e1
    have hbr : (({ a with base := a.base.join lOR } : Group).withBrackets.toCond).Readable := hd
    have hbrj : ∀ d ∈ ([({ a with base := a.base.join lOR } : Group).withBrackets.toCond]).head?,
        d.joinType = c!"AND" ∨ d.joinType = c!"OR" := by
      intro x hx; simp at hx; rw [← hx]; exact Or.inr rfl
    have hwd : IsWord (headWord a.conds) := hw.2
    have hb2 := sflat_boxed row { a with base := a.base.join lOR }
    have hb1 := sflat_boxed row g
    have hjj : ((a.base.join lOR).joinType == c!"OR") = true := by
      show (lOR == c!"OR") = true
      decide
    have hng : (a.base.join lOR).negate = a.base.negate := rfl
    simp only [hjj, hng] at hb2
    show _ ∧ _ ∧ _ ∧ _ = (g.held row).addOr row [.group a.base a.conds a.brackets]
    simp only [Held.addOr, Cond.held, Held.box, Group.held]
    rcases (Bool.eq_false_or_eq_true (allOr g.conds)).symm with hA | hA <;> rcases (Bool.eq_false_or_eq_true (allOr a.conds)).symm with hB | hB <;>
      simp only [hA, hB, Bool.false_eq_true, if_false, if_true] at e1 ⊢ <;> refine ⟨?_, e2, ?_, ?_⟩ <;> rw [e1]
    · exact readL_bracket_cons g hg _ (readL_one hbr) hbrj
    · simp
    · simp only [Cond.sflatL, hb1, hb2]; rfl
    · exact readL_bracket_cons g hg _ haR (head_words hwd)
    · have := List.length_pos_iff.2 haR.1; simp only [List.length_cons]; omega
    · simp only [Cond.sflatL, hb1]
    · exact readL_append hg (readL_one hbr) hbrj
    · exact len_append_two hg.1 (by simp)
    · rw [sflatL_append]; simp only [Cond.sflatL, hb2]; rfl
    · exact readL_append hg haR (head_words hwd)
    · exact len_append_two hg.1 haR.1
    · rw [sflatL_append]

/-- Or with several conditions. -/
theorem adds_or_many (row : Row) (g : Group) (d e : Cond) (ds : List Cond) (hg : ReadL g.conds)
    (hd : ∀ x ∈ d :: e :: ds, x.Readable ∧ x.Worded) :
    ReadL (g.groupOR (d :: e :: ds)).conds ∧ (g.groupOR (d :: e :: ds)).base = g.base ∧ (g.groupOR (d :: e :: ds)).conds.length > 1 ∧
      Cond.sflatL row (g.groupOR (d :: e :: ds)).conds = (g.held row).addOr row (d :: e :: ds) := by
  have hl : decide (g.conds.length > 0) = true := by simpa [List.length_pos_iff] using hg.1
  have hOA : (lOR == lAND) = false := by decide
  have hN : ReadL (setToAll lAND (d :: e :: ds)) := readL_setToAll (Or.inl rfl) (by simp) fun c hc => (hd c hc).1
  have hO : ReadL (setToAll lOR (d :: e :: ds)) := readL_setToAll (Or.inr rfl) (by simp) fun c hc => (hd c hc).1
  have hb2 := sflat_boxed row (newGroup lAND (d :: e :: ds))
  rw [newGroup_held row lAND false (by decide)] at hb2
  have hb1 := sflat_boxed row g
  unfold Group.groupOR Group.addConditions
  simp only [hl, Bool.not_true, Bool.false_eq_true, if_false, List.length_cons, hasOne_and hg, hOA, Bool.and_false, beq_self_eq_true, Bool.and_true]
  rw [if_neg (by simp)]
  simp only [Held.addOr, Held.box, Group.held]
  rcases Bool.eq_false_or_eq_true (allOr g.conds) with hA | hA
  · try simp only [hA, Bool.false_eq_true, if_false, if_true, Bool.not_true, Bool.not_false, Bool.true_or, Bool.false_or]
    refine ⟨readL_bracket_cons g hg _ (readL_one (readable_brackets (readable_toCond.mpr hN))) ?_, trivial, by simp, ?_⟩
    · intro x hx; simp at hx; rw [← hx]; exact Or.inl rfl
    · simp only [Cond.sflatL, hb1, hb2]
      rfl
  · try simp only [hA, Bool.false_eq_true, if_false, if_true, Bool.not_true, Bool.not_false, Bool.true_or, Bool.false_or]
    refine ⟨readL_append hg (readL_one (readable_join _ (readable_toCond.mpr hO))) ?_, trivial, len_append_two hg.1 (by simp), ?_⟩
    · intro x hx; simp at hx; rw [← hx]; exact joinType_cases _ (Or.inr rfl) _
    · have h1 : (newGroup lOR (d :: e :: ds)).toCond.sflat row = ssetHead false (joinedBy row true (d :: e :: ds)) := by
        rw [← newGroup_held row lOR true (by decide)]
        simp only [Group.toCond, Cond.sflat]
        rw [if_neg (by simp [effBr, newGroup, newBase])]
        show ssetHead (lAND == c!"OR") (snegHead false _) = _
        rw [show (lAND == c!"OR") = false by decide]
        cases Cond.sflatL row (newGroup lOR (d :: e :: ds)).conds <;> rfl
      rw [sflatL_append]
      simp only [Cond.sflatL, sflat_join, List.append_nil, h1]
      rw [show (lOR == c!"OR") = true by decide]
      cases joinedBy row true (d :: e :: ds) <;> rfl

theorem adds_or (row : Row) (g : Group) (ds : List Cond) (hg : ReadL g.conds) (hn : ds ≠ []) (hd : ∀ x ∈ ds, x.Readable ∧ x.Worded) :
    ReadL (g.groupOR ds).conds ∧ (g.groupOR ds).base = g.base ∧ (g.groupOR ds).conds.length > 1 ∧
      Cond.sflatL row (g.groupOR ds).conds = (g.held row).addOr row ds := by
  match ds, hn, hd with
  | [d], _, hd => exact adds_or_one row g d hg (hd d (by simp)).1 (hd d (by simp)).2
  | d :: e :: ds, _, hd => exact adds_or_many row g d e ds hg hd

/-- The group And and Or start from holds what the receiver holds. -/
theorem recvG_held (row : Row) (j : Str) (o : Bool) (hj : (j == c!"OR") = o) (c : Cond) : (recvG j c).held row = c.held row o := by
  cases c with
  | group b cs br => rfl
  | _ =>
    all_goals
      simp only [recvG, Cond.asGroup, Group.held, newGroup, setToAll, List.map_cons, List.map_nil, Cond.sflatL, sflat_join, hj, List.append_nil,
        Cond.held, newBase]
      rfl

/-! ## Where -/

/-- The where clause of a builder after some calls. -/
def WhereHolds (row : Row) (g : Group) : Option (List (Bool × Tri) × Bool) → Prop
  | none => g.conds = [] ∧ g.base.negate = false
  | some (facs, noOr) => ReadL g.conds ∧ g.base = ⟨lAND, false⟩ ∧ Cond.sflatL row g.conds = facs ∧ allAnd g.conds = noOr

theorem addAnd_noAnd (row : Row) (h : Held) (b : Bool) (ds : List Cond) : ({ h with noAnd := b } : Held).addAnd row ds = h.addAnd row ds := by
  match ds with
  | [] => rfl
  | [.group _ _ _] => rfl
  | [.fieldc _ _ _] => rfl
  | [.null _ _] => rfl
  | [.custom _ _] => rfl
  | _ :: _ :: _ => rfl

theorem andNoOr_noAnd (h : Held) (b : Bool) (ds : List Cond) : ({ h with noAnd := b } : Held).andNoOr ds = h.andNoOr ds := by
  match ds with
  | [] => rfl
  | [.group _ _ _] => rfl
  | [.fieldc _ _ _] => rfl
  | [.null _ _] => rfl
  | [.custom _ _] => rfl
  | _ :: _ :: _ => rfl

theorem whereHolds_step (row : Row) (g : Group) (s : Option (List (Bool × Tri) × Bool)) (ds : List Cond) (h : WhereHolds row g s)
    (hd : ∀ x ∈ ds, x.Readable ∧ x.Worded) : WhereHolds row (g.groupAND ds) (whereStep row s ds) := by
  cases ds with
  | nil =>
    have e : g.groupAND [] = g := rfl
    rw [e]
    cases s <;> exact h
  | cons d ds =>
    cases s with
    | none =>
      have e : g.groupAND (d :: ds) = { g with conds := d :: ds, base := { g.base with joinType := lAND } } := by
        unfold Group.groupAND Group.addConditions
        simp [h.1]
      rw [e]
      refine ⟨readL_of_words (by simp) hd, ?_, rfl, rfl⟩
      simp [h.2]
    | some s =>
      obtain ⟨facs, noOr⟩ := s
      obtain ⟨h1, h2, h3, h4⟩ := h
      have H := adds_and row g (d :: ds) h1 (by simp) hd
      have eh : g.held row = { (⟨facs, noOr, false, false, false⟩ : Held) with noAnd := allOr g.conds } := by
        simp only [Group.held, h3, h4, h2]
        rfl
      rw [eh, addAnd_noAnd, andNoOr_noAnd] at H
      exact ⟨H.read, by rw [H.base]; exact h2, H.facs, H.all⟩

theorem whereHolds_calls (row : Row) : ∀ (calls : List (List Cond)) (g : Group) (s : Option (List (Bool × Tri) × Bool)),
    WhereHolds row g s → (∀ ds ∈ calls, ∀ d ∈ ds, d.Readable ∧ d.Worded) →
    WhereHolds row (calls.foldl Group.groupAND g) (calls.foldl (whereStep row) s)
  | [], _, _, h, _ => h
  | ds :: calls, g, s, h, hd =>
    whereHolds_calls row calls _ _ (whereHolds_step row g s ds h (hd ds (by simp))) fun es he => hd es (by simp [he])

/-- A condition that was added is there. -/
theorem whereStep_some (row : Row) : ∀ (calls : List (List Cond)) (s : Option (List (Bool × Tri) × Bool)),
    calls.flatten ≠ [] ∨ s.isSome = true → (calls.foldl (whereStep row) s).isSome = true
  | [], _, h => h.resolve_left fun h => h rfl
  | ds :: calls, s, h => by
    refine whereStep_some row calls _ ?_
    cases ds with
    | nil =>
      rcases h with h | h
      · exact Or.inl (by simpa using h)
      · refine Or.inr ?_
        cases s <;> exact h
    | cons d ds =>
      refine Or.inr ?_
      cases s with
      | none => rfl
      | some s => obtain ⟨f, o⟩ := s; rfl

end Query
