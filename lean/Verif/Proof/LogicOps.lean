import Verif.Proof.Logic
/-!
# And and Or on groups, as truth values
-/
namespace Query

theorem addConditions_one (g : Group) (op : Str) (d : Cond) (h : g.conds ≠ []) :
    g.addConditions op [d] = g.addSingleCondition (d.join op) := by
  have : decide (g.conds.length > 0) = true := by simpa [List.length_pos_iff] using h
  simp [Group.addConditions, this]

theorem leaf_asGroup {c : Cond} (h : c.isLeaf = true) : c.asGroup = none := by cases c <;> simp_all [Cond.isLeaf, Cond.asGroup]

theorem leaf_single {c : Cond} (h : c.isLeaf = true) : c.single = true := by cases c <;> simp_all [Cond.isLeaf, Cond.single]

theorem orFreeL_mem {cs : List Cond} : Cond.orFreeL cs = true ↔ ∀ c ∈ cs, c.orFree = true := by
  induction cs with
  | nil => simp [Cond.orFreeL]
  | cons c cs ih => simp [Cond.orFreeL, ih]

theorem allAnd_cons (c : Cond) (cs : List Cond) : allAnd (c :: cs) = true ↔ ∀ d ∈ cs, d.isOr = false := by
  simp [allAnd]

theorem isOr_and {c : Cond} (h : c.joinType = c!"AND") : c.isOr = false := by
  simp only [Cond.isOr, h]; decide

/-- The first member has a join word. -/
theorem head_word {cs : List Cond} {j : Str} (h : headWord cs = j) (hj : j = c!"AND" ∨ j = c!"OR") :
    ∀ d ∈ cs.head?, d.joinType = c!"AND" ∨ d.joinType = c!"OR" := by
  intro d hd
  cases cs with
  | nil => simp at hd
  | cons c cs =>
    simp only [List.head?_cons, Option.mem_some_iff] at hd
    subst hd
    simp only [headWord] at h
    rw [h]; exact hj

theorem isOr_join_and (c : Cond) : (c.join lAND).isOr = false := by
  simp only [Cond.isOr, joinType_join]; decide

theorem isOr_join_or (c : Cond) : (c.join lOR).isOr = true := by
  simp only [Cond.isOr, joinType_join]; decide

/-- The result of adding to a group. -/
structure Added (row : Row) (g r : Group) (x : Tri) : Prop where
  read : ReadL r.conds
  base : r.base = g.base
  sem : joinTri (Cond.sflatL row r.conds) = x

theorem toCond_sem (row : Row) (g : Group) (h : g.base.negate = false) :
    g.toCond.textSem row = joinTri (Cond.sflatL row g.conds) := textSem_group row g.base g.conds g.brackets h

/-- Appending one condition without OR outside brackets, joined by AND. -/
theorem append_one_and (row : Row) (cs : List Cond) (d : Cond) (hc : ReadL cs) (hcf : Cond.orFreeL cs = true)
    (hca : allAnd cs = true) (hd : d.Readable) (hdf : d.orFree = true) (ho : d.isOr = false) :
    joinTri (Cond.sflatL row (cs ++ [d])) = (joinTri (Cond.sflatL row cs)).and (d.textSem row) := by
  rw [sem_append_and row cs d [] hc hcf hca (readL_one hd) (by simp [Cond.orFreeL, hdf]) rfl ho, sem_one]

/-- A bracketed group followed by members joined by AND. -/
theorem bracket_and (row : Row) (g : Group) (hg : ReadL g.conds) (hn : g.base.negate = false) (ds : List Cond)
    (hd : ReadL ds) (hdf : Cond.orFreeL ds = true) (hda : allAnd ds = true) (ho : headWord ds = c!"AND") :
    joinTri (Cond.sflatL row (g.withBrackets.toCond :: ds)) =
      (joinTri (Cond.sflatL row g.conds)).and (joinTri (Cond.sflatL row ds)) := by
  obtain ⟨d, ds, rfl⟩ := List.exists_cons_of_ne_nil hd.1
  have h1 : g.withBrackets.toCond.Readable := readable_brackets (readable_toCond.mpr hg)
  have h2 : Cond.orFreeL [g.withBrackets.toCond] = true := by
    simp [Cond.orFreeL, single_orFree _ (brackets_single g)]
  have := sem_append_and row [g.withBrackets.toCond] d ds (readL_one h1) h2 rfl hd hdf hda (isOr_and ho)
  rw [sem_one, brackets_sem row g (Or.inl hn), toCond_sem row g hn] at this
  exact this

theorem bracket_or (row : Row) (g : Group) (hg : ReadL g.conds) (hn : g.base.negate = false) (ds : List Cond)
    (hd : ReadL ds) (ho : headWord ds = c!"OR") :
    joinTri (Cond.sflatL row (g.withBrackets.toCond :: ds)) =
      (joinTri (Cond.sflatL row g.conds)).or (joinTri (Cond.sflatL row ds)) := by
  obtain ⟨d, ds, rfl⟩ := List.exists_cons_of_ne_nil hd.1
  have h1 : g.withBrackets.toCond.Readable := readable_brackets (readable_toCond.mpr hg)
  have := sem_append_or row [g.withBrackets.toCond] d ds (by simpa using h1) (by simp) (hd.2.2 d (by simp)) (join_word'.mpr ho)
  rw [sem_one, brackets_sem row g (Or.inl hn), toCond_sem row g hn] at this
  exact this

theorem readL_bracket_cons (g : Group) (hg : ReadL g.conds) (ds : List Cond) (hd : ReadL ds)
    (hj : ∀ d ∈ ds.head?, d.joinType = c!"AND" ∨ d.joinType = c!"OR") : ReadL (g.withBrackets.toCond :: ds) :=
  readL_append (cs := [g.withBrackets.toCond]) (readL_one (readable_brackets (readable_toCond.mpr hg))) hd hj

theorem joinType_cases (j : Str) (h : j = lAND ∨ j = lOR) (c : Cond) :
    (c.join j).joinType = c!"AND" ∨ (c.join j).joinType = c!"OR" := by
  rw [joinType_join]; exact h

/-- And with one condition. -/
theorem and_one (row : Row) (g : Group) (d : Cond) (hg : ReadL g.conds) (hd : d.Readable)
    (hr : g.toCond.andRecv = true) (ha : d.andArg g.toCond = true) :
    Added row g (g.groupAND [d]) ((g.toCond.textSem row).and (d.textSem row)) := by
  simp only [Cond.andRecv, Group.toCond, Bool.and_eq_true, Bool.not_eq_true', Bool.or_eq_true] at hr
  obtain ⟨hn, hr⟩ := hr
  rw [toCond_sem row g hn]
  have hgr := hg
  unfold Group.groupAND
  rw [addConditions_one g lAND d hg.1]
  have hdj : (d.join lAND).Readable := readable_join lAND hd
  have hof : allAnd g.conds = true → Cond.orFreeL g.conds = true := fun h => hr.resolve_left (by simp [h])
  cases hdg : d.asGroup with
  | none =>
    have hleaf : d.isLeaf = true := by
      cases d <;> simp_all [Cond.asGroup, Cond.andArg]
    obtain ⟨e1, e2, _⟩ := addSingle_leaf g d lAND hg hdg (Or.inl rfl)
    rw [hasAll_and hg] at e1
    have hf : (d.join lAND).orFree = true := by rw [orFree_join]; exact single_orFree d (leaf_single hleaf)
    refine ⟨?_, e2, ?_⟩
    · rw [e1]; split
      · exact readL_append hg (readL_one hdj) (by intro x hx; simp at hx; rw [← hx]; exact joinType_cases _ (Or.inl rfl) d)
      · exact readL_bracket_cons g hg _ (readL_one hdj) (by intro x hx; simp at hx; rw [← hx]; exact joinType_cases _ (Or.inl rfl) d)
    · rw [e1]; split
      · rename_i hA
        rw [append_one_and row _ _ hg (hof hA) hA hdj hf (isOr_join_and d), textSem_join]
      · rw [bracket_and row g hg hn [d.join lAND] (readL_one hdj) (by simp [Cond.orFreeL, hf]) rfl (joinType_join d _),
          sem_one, textSem_join]
  | some a =>
    obtain rfl := asGroup_some hdg
    have haR : ReadL a.conds := readable_toCond.mp hd
    have hbase : (a.toCond.join lAND).asGroup = some { a with base := a.base.join lAND } := rfl
    have e0 : g.addSingleCondition (a.toCond.join lAND) = g.addGroup { a with base := a.base.join lAND } := by
      unfold Group.addSingleCondition; rw [hbase]
    rw [e0]
    obtain ⟨e1, e2, _⟩ := addGroup_and g { a with base := a.base.join lAND } hg haR rfl
    simp only at e1
    have hbr : (({ a with base := a.base.join lAND } : Group).withBrackets.toCond).Readable := hd
    have hbrj : ∀ d ∈ ([({ a with base := a.base.join lAND } : Group).withBrackets.toCond]).head?,
        d.joinType = c!"AND" ∨ d.joinType = c!"OR" := by
      intro x hx; simp at hx; rw [← hx]; exact Or.inl rfl
    have hbrf := single_orFree _ (brackets_single ({ a with base := a.base.join lAND } : Group))
    have hbrs : (a.base.negate = false ∨ a.conds.length > 1) →
        ({ a with base := a.base.join lAND } : Group).withBrackets.toCond.textSem row = a.toCond.textSem row := by
      intro h
      rw [brackets_sem row { a with base := a.base.join lAND } h]
      exact textSem_join row a.toCond lAND
    simp only [Cond.andArg, Group.toCond, Cond.recvAllAnd, Bool.or_eq_true, Bool.and_eq_true, Bool.not_eq_true',
      decide_eq_true_eq, beq_iff_eq] at ha
    by_cases hA : allAnd g.conds = true
    · rw [if_pos hA] at e1
      by_cases hB : allAnd a.conds = true
      · rw [if_pos hB] at e1
        -- spliced
        have hD : a.base.negate = false ∧ headWord a.conds = c!"AND" ∧ Cond.orFreeL a.conds = true := by
          rcases ha with (ha | ha) | ha
          · exact ⟨ha.1.1.1, ha.1.1.2, ha.1.2⟩
          · have := both_one hB ha.2; omega
          · simp [hB] at ha
        refine ⟨?_, e2, ?_⟩
        · rw [e1]
          exact readL_append hg haR (head_word hD.2.1 (Or.inl rfl))
        · rw [e1]
          obtain ⟨y, ys, hy⟩ := List.exists_cons_of_ne_nil haR.1
          rw [toCond_sem row a hD.1]
          rw [hy] at hD haR hB ⊢
          exact sem_append_and row _ y ys hg (hof hA) hA haR hD.2.2 hB (isOr_and hD.2.1)
      · have hB : allAnd a.conds = false := by simpa using hB
        rw [if_neg (by simp [hB])] at e1
        refine ⟨?_, e2, ?_⟩
        · rw [e1]; exact readL_append hg (readL_one hbr) hbrj
        · rw [e1, append_one_and row _ _ hg (hof hA) hA hbr hbrf rfl, hbrs (Or.inr (not_allAnd_len hB))]
    · have hA : allAnd g.conds = false := by simpa using hA
      rw [if_neg (by simp [hA])] at e1
      by_cases hC : allOr a.conds = true
      · rw [if_pos hC] at e1
        refine ⟨?_, e2, ?_⟩
        · rw [e1]; exact readL_bracket_cons g hg _ (readL_one hbr) hbrj
        · rw [e1, bracket_and row g hg hn _ (readL_one hbr) (by simp [Cond.orFreeL, hbrf]) rfl rfl, sem_one, hbrs]
          rcases ha with (ha | ha) | ha
          · exact Or.inl ha.1.1.1
          · exact Or.inr ha.1
          · rw [hA] at ha; simp at ha
      · have hC : allOr a.conds = false := by simpa using hC
        rw [if_neg (by simp [hC])] at e1
        have hD : a.base.negate = false ∧ headWord a.conds = c!"AND" ∧ Cond.orFreeL a.conds = true ∧ allAnd a.conds = true := by
          rcases ha with (ha | ha) | ha
          · exact ⟨ha.1.1.1, ha.1.1.2, ha.1.2, ha.2⟩
          · rw [hC] at ha; simp at ha
          · rw [hA] at ha; simp at ha
        refine ⟨?_, e2, ?_⟩
        · rw [e1]
          exact readL_bracket_cons g hg _ haR (head_word hD.2.1 (Or.inl rfl))
        · rw [e1, toCond_sem row a hD.1]
          exact bracket_and row g hg hn _ haR hD.2.2.1 hD.2.2.2 hD.2.1

/-- Or with one condition. -/
theorem or_one (row : Row) (g : Group) (d : Cond) (hg : ReadL g.conds) (hd : d.Readable)
    (hr : g.toCond.orRecv = true) (ha : d.orArg = true) :
    Added row g (g.groupOR [d]) ((g.toCond.textSem row).or (d.textSem row)) := by
  have hn : g.base.negate = false := by simpa [Cond.orRecv, Group.toCond] using hr
  rw [toCond_sem row g hn]
  unfold Group.groupOR
  rw [addConditions_one g lOR d hg.1]
  have hdj : (d.join lOR).Readable := readable_join lOR hd
  cases hdg : d.asGroup with
  | none =>
    obtain ⟨e1, e2, _⟩ := addSingle_leaf g d lOR hg hdg (Or.inr rfl)
    have hh : ∀ x ∈ [d.join lOR].head?, x.joinType = c!"AND" ∨ x.joinType = c!"OR" := by
      intro x hx; simp at hx; rw [← hx]; exact joinType_cases _ (Or.inr rfl) d
    refine ⟨?_, e2, ?_⟩
    · rw [e1]; split
      · exact readL_append hg (readL_one hdj) hh
      · exact readL_bracket_cons g hg _ (readL_one hdj) hh
    · rw [e1]; split
      · rw [sem_append_or row _ _ _ hg.2.2 hg.1 hdj (isOr_join_or d), sem_one, textSem_join]
      · rw [bracket_or row g hg hn [d.join lOR] (readL_one hdj) (joinType_join d _), sem_one, textSem_join]
  | some a =>
    obtain rfl := asGroup_some hdg
    have haR : ReadL a.conds := readable_toCond.mp hd
    have hbase : (a.toCond.join lOR).asGroup = some { a with base := a.base.join lOR } := rfl
    have e0 : g.addSingleCondition (a.toCond.join lOR) = g.addGroup { a with base := a.base.join lOR } := by
      unfold Group.addSingleCondition; rw [hbase]
    rw [e0]
    obtain ⟨e1, e2, _⟩ := addGroup_or g { a with base := a.base.join lOR } hg haR rfl
    simp only at e1
    have hbr : (({ a with base := a.base.join lOR } : Group).withBrackets.toCond).Readable := hd
    have hbrj : ∀ d ∈ ([({ a with base := a.base.join lOR } : Group).withBrackets.toCond]).head?,
        d.joinType = c!"AND" ∨ d.joinType = c!"OR" := by
      intro x hx; simp at hx; rw [← hx]; exact Or.inr rfl
    have hbrs : a.conds.length > 1 →
        ({ a with base := a.base.join lOR } : Group).withBrackets.toCond.textSem row = a.toCond.textSem row := by
      intro h
      rw [brackets_sem row { a with base := a.base.join lOR } (Or.inr h)]
      exact textSem_join row a.toCond lOR
    simp only [Cond.orArg, Group.toCond, Bool.or_eq_true, Bool.and_eq_true, Bool.not_eq_true', beq_iff_eq] at ha
    by_cases hB : allOr a.conds = true
    · have hD := ha.resolve_left (by simp [hB])
      simp only [hB, if_true] at e1
      rw [toCond_sem row a hD.1]
      have hh := head_word hD.2 (Or.inr rfl)
      refine ⟨?_, e2, ?_⟩
      · rw [e1]; split
        · exact readL_append hg haR hh
        · exact readL_bracket_cons g hg _ haR hh
      · rw [e1]; split
        · obtain ⟨y, ys, hy⟩ := List.exists_cons_of_ne_nil haR.1
          rw [hy] at hD haR ⊢
          exact sem_append_or row _ y ys hg.2.2 hg.1 (haR.2.2 y (by simp)) (join_word'.mpr hD.2)
        · exact bracket_or row g hg hn _ haR hD.2
    · have hB : allOr a.conds = false := by simpa using hB
      simp only [hB, Bool.false_eq_true, if_false] at e1
      refine ⟨?_, e2, ?_⟩
      · rw [e1]; split
        · exact readL_append hg (readL_one hbr) hbrj
        · exact readL_bracket_cons g hg _ (readL_one hbr) hbrj
      · rw [← hbrs (not_allOr_len hB), ← sem_one]
        rw [e1]; split
        · exact sem_append_or row _ _ _ hg.2.2 hg.1 hbr rfl
        · exact bracket_or row g hg hn _ (readL_one hbr) rfl

/-- Members joined by AND throughout. -/
theorem conj_sem (row : Row) (ds : List Cond) (hr : ∀ d ∈ ds, d.Readable) (hf : ∀ d ∈ ds, d.orFree = true)
    (hj : ∀ d ∈ ds.drop 1, d.joinType = c!"AND") (hn : ds ≠ []) :
    joinTri (Cond.sflatL row ds) = allOf (ds.map (·.textSem row)) := by
  induction ds with
  | nil => exact absurd rfl hn
  | cons d ds ih =>
    cases ds with
    | nil => rw [sem_one]; simp [allOf]
    | cons e es =>
      have hj' : ∀ x ∈ e :: es, x.joinType = c!"AND" := by simpa using hj
      have ih' := ih (fun x hx => hr x (by simp [hx])) (fun x hx => hf x (by simp [hx]))
        (fun x hx => hj' x (List.mem_of_mem_drop hx)) (by simp)
      have h1 : ReadL (e :: es) := ⟨by simp, fun x hx => Or.inl (hj' x (List.mem_of_mem_drop hx)),
        fun x hx => hr x (by simp [hx])⟩
      have := sem_append_and row [d] e es (readL_one (hr d (by simp))) (by simp [Cond.orFreeL, hf]) rfl h1
        (orFreeL_mem.mpr fun x hx => hf x (by simp [hx]))
        ((allAnd_cons _ _).mpr fun x hx => isOr_and (hj' x (by simp [hx]))) (isOr_and (hj' e (by simp)))
      rw [List.cons_append, List.nil_append] at this
      rw [this, ih', sem_one]
      rfl

/-- Members joined by OR throughout. -/
theorem disj_sem (row : Row) (ds : List Cond) (hr : ∀ d ∈ ds, d.Readable)
    (hj : ∀ d ∈ ds.drop 1, d.joinType = c!"OR") (hn : ds ≠ []) :
    joinTri (Cond.sflatL row ds) = anyOf (ds.map (·.textSem row)) := by
  induction ds with
  | nil => exact absurd rfl hn
  | cons d ds ih =>
    cases ds with
    | nil => rw [sem_one]; simp [anyOf]
    | cons e es =>
      have hj' : ∀ x ∈ e :: es, x.joinType = c!"OR" := by simpa using hj
      have ih' := ih (fun x hx => hr x (by simp [hx])) (fun x hx => hj' x (List.mem_of_mem_drop hx)) (by simp)
      have := sem_append_or row [d] e es (by simpa using hr d (by simp)) (by simp) (hr e (by simp))
        (join_word'.mpr (hj' e (by simp)))
      rw [List.cons_append, List.nil_append] at this
      rw [this, ih', sem_one]
      rfl

theorem setToAll_mem {j : Str} {cs : List Cond} {d : Cond} (h : d ∈ setToAll j cs) : ∃ c ∈ cs, d = c.join j := by
  simp only [setToAll, List.mem_map] at h
  obtain ⟨c, h1, h2⟩ := h
  exact ⟨c, h1, h2.symm⟩

theorem readL_setToAll {j : Str} (hj : j = lAND ∨ j = lOR) {cs : List Cond} (hn : cs ≠ []) (h : ∀ c ∈ cs, c.Readable) :
    ReadL (setToAll j cs) := by
  refine ⟨by simpa [setToAll] using hn, ?_, ?_⟩
  · intro d hd
    obtain ⟨c, _, rfl⟩ := setToAll_mem (List.mem_of_mem_drop hd)
    exact joinType_cases j hj c
  · intro d hd
    obtain ⟨c, hc, rfl⟩ := setToAll_mem hd
    exact readable_join j (h c hc)

theorem setToAll_sem (row : Row) (j : Str) (cs : List Cond) :
    (setToAll j cs).map (·.textSem row) = cs.map (·.textSem row) := by
  simp [setToAll, List.map_map, Function.comp_def, textSem_join]

/-- `NewGroup(AND, …)`. -/
theorem newGroup_and_sem (row : Row) (cs : List Cond) (hn : cs ≠ []) (h : ∀ c ∈ cs, c.Readable)
    (hf : ∀ c ∈ cs, c.orFree = true) :
    (newGroup lAND cs).toCond.textSem row = allOf (cs.map (·.textSem row)) := by
  rw [toCond_sem row _ rfl]
  have hr := readL_setToAll (Or.inl rfl) hn h
  rw [← setToAll_sem row lAND]
  refine conj_sem row _ hr.2.2 ?_ ?_ hr.1
  · intro d hd
    obtain ⟨c, hc, rfl⟩ := setToAll_mem hd
    rw [orFree_join]; exact hf c hc
  · intro d hd
    obtain ⟨c, _, rfl⟩ := setToAll_mem (List.mem_of_mem_drop hd)
    exact joinType_join c lAND

/-- `NewGroup(OR, …)`. -/
theorem newGroup_or_sem (row : Row) (cs : List Cond) (hn : cs ≠ []) (h : ∀ c ∈ cs, c.Readable) :
    (newGroup lOR cs).toCond.textSem row = anyOf (cs.map (·.textSem row)) := by
  rw [toCond_sem row _ rfl]
  have hr := readL_setToAll (Or.inr rfl) hn h
  rw [← setToAll_sem row lOR]
  refine disj_sem row _ hr.2.2 ?_ hr.1
  intro d hd
  obtain ⟨c, _, rfl⟩ := setToAll_mem (List.mem_of_mem_drop hd)
  exact joinType_join c lOR

/-- And with several conditions. -/
theorem and_many (row : Row) (g : Group) (d e : Cond) (ds : List Cond) (hg : ReadL g.conds)
    (hd : ∀ x ∈ d :: e :: ds, x.Readable) (hn : g.base.negate = false)
    (ha : g.toCond.andArgs (d :: e :: ds) = true) :
    Added row g (g.groupAND (d :: e :: ds)) ((g.toCond.textSem row).and (allOf ((d :: e :: ds).map (·.textSem row)))) := by
  rw [toCond_sem row g hn]
  have hl : decide (g.conds.length > 0) = true := by simpa [List.length_pos_iff] using hg.1
  have hAA : (lAND == lAND) = true := rfl
  have hAO : (lAND == lOR) = false := by decide
  simp only [Cond.andArgs, Group.toCond, Cond.recvAllAnd, List.all_eq_true, Bool.and_eq_true, Bool.or_eq_true,
    beq_iff_eq] at ha
  unfold Group.groupAND Group.addConditions
  simp only [hl, Bool.not_true, Bool.false_eq_true, if_false, List.length_cons, hasOne_or, hAA, hAO, Bool.and_false,
    Bool.and_true]
  rw [if_neg (by simp)]
  have hf : ∀ x ∈ d :: e :: ds, x.orFree = true := fun x hx => (ha x hx).1
  by_cases hA : allAnd g.conds = true
  · simp only [hA, Bool.not_true, Bool.false_eq_true, if_false]
    have hN : ReadL (newGroup lAND (d :: e :: ds)).conds := readL_setToAll (Or.inl rfl) (by simp) hd
    have hbr := readable_brackets (readable_toCond.mpr hN)
    refine ⟨?_, rfl, ?_⟩
    · exact readL_bracket_cons g hg _ (readL_one hbr) (by intro x hx; simp at hx; rw [← hx]; exact Or.inl rfl)
    · show joinTri (Cond.sflatL row (g.withBrackets.toCond :: [(newGroup lAND (d :: e :: ds)).withBrackets.toCond])) = _
      rw [bracket_and row g hg hn _ (readL_one hbr)
        (by simp [Cond.orFreeL, single_orFree _ (brackets_single _)]) rfl rfl, sem_one,
        brackets_sem row _ (Or.inl rfl), newGroup_and_sem row _ (by simp) hd hf]
  · have hA : allAnd g.conds = false := by simpa using hA
    have hj : ∀ x ∈ d :: e :: ds, x.joinType = c!"AND" := fun x hx => (ha x hx).2.resolve_left (by simp [hA])
    simp only [hA, Bool.not_false, if_true]
    have hR : ReadL (d :: e :: ds) := ⟨by simp, fun x hx => Or.inl (hj x (List.mem_of_mem_drop hx)), hd⟩
    refine ⟨?_, rfl, ?_⟩
    · exact readL_bracket_cons g hg _ hR (by intro x hx; simp at hx; rw [← hx]; exact Or.inl (hj d (by simp)))
    · show joinTri (Cond.sflatL row (g.withBrackets.toCond :: (d :: e :: ds))) = _
      rw [bracket_and row g hg hn _ hR (orFreeL_mem.mpr hf)
        ((allAnd_cons _ _).mpr fun x hx => isOr_and (hj x (by simp at hx ⊢; exact Or.inr hx))) (hj d (by simp)),
        conj_sem row _ hd hf (fun x hx => hj x (List.mem_of_mem_drop hx)) (by simp)]

/-- Or with several conditions: what it really means. -/
theorem or_many (row : Row) (g : Group) (d e : Cond) (ds : List Cond) (hg : ReadL g.conds)
    (hd : ∀ x ∈ d :: e :: ds, x.Readable) (hn : g.base.negate = false)
    (hf : allOr g.conds = true → ∀ x ∈ d :: e :: ds, x.orFree = true) :
    Added row g (g.groupOR (d :: e :: ds))
      (if allOr g.conds then (g.toCond.textSem row).and (allOf ((d :: e :: ds).map (·.textSem row)))
       else (g.toCond.textSem row).or (anyOf ((d :: e :: ds).map (·.textSem row)))) := by
  rw [toCond_sem row g hn]
  have hl : decide (g.conds.length > 0) = true := by simpa [List.length_pos_iff] using hg.1
  have hOO : (lOR == lOR) = true := rfl
  have hOA : (lOR == lAND) = false := by decide
  unfold Group.groupOR Group.addConditions
  simp only [hl, Bool.not_true, Bool.false_eq_true, if_false, List.length_cons, hasOne_and hg, hOO, hOA, Bool.and_false,
    Bool.and_true]
  rw [if_neg (by simp)]
  by_cases hA : allOr g.conds = true
  · simp only [hA, Bool.not_true, Bool.false_eq_true, if_false, if_true]
    have hN : ReadL (newGroup lAND (d :: e :: ds)).conds := readL_setToAll (Or.inl rfl) (by simp) hd
    have hbr := readable_brackets (readable_toCond.mpr hN)
    refine ⟨?_, rfl, ?_⟩
    · exact readL_bracket_cons g hg _ (readL_one hbr) (by intro x hx; simp at hx; rw [← hx]; exact Or.inl rfl)
    · show joinTri (Cond.sflatL row (g.withBrackets.toCond :: [(newGroup lAND (d :: e :: ds)).withBrackets.toCond])) = _
      rw [bracket_and row g hg hn _ (readL_one hbr)
        (by simp [Cond.orFreeL, single_orFree _ (brackets_single _)]) rfl rfl, sem_one,
        brackets_sem row _ (Or.inl rfl), newGroup_and_sem row _ (by simp) hd (hf hA)]
  · have hA : allOr g.conds = false := by simpa using hA
    simp only [hA, Bool.not_false, if_true, Bool.false_eq_true, if_false]
    have hN : ReadL (newGroup lOR (d :: e :: ds)).conds := readL_setToAll (Or.inr rfl) (by simp) hd
    have hNc : ((newGroup lOR (d :: e :: ds)).toCond.join lOR).Readable := readable_join lOR (readable_toCond.mpr hN)
    refine ⟨?_, rfl, ?_⟩
    · exact readL_append hg (readL_one hNc) (by intro x hx; simp at hx; rw [← hx]; exact Or.inr rfl)
    · show joinTri (Cond.sflatL row (g.conds ++ [(newGroup lOR (d :: e :: ds)).toCond.join lOR])) = _
      rw [sem_append_or row _ _ _ hg.2.2 hg.1 hNc rfl, sem_one, textSem_join, newGroup_or_sem row _ (by simp) hd]

/-! ## The receiver -/

/-- The group a receiver of And or Or becomes. -/
def recvG (j : Str) (c : Cond) : Group :=
  match c.asGroup with
  | some g => g
  | none => newGroup j [c]

theorem recvG_read {j : Str} (hj : j = lAND ∨ j = lOR) {c : Cond} (h : c.Readable) : ReadL (recvG j c).conds := by
  unfold recvG
  cases hc : c.asGroup with
  | none => exact readL_setToAll hj (by simp) (by simpa using h)
  | some g => obtain rfl := asGroup_some hc; exact readable_toCond.mp h

theorem recvG_sem (row : Row) (j : Str) (c : Cond) : (recvG j c).toCond.textSem row = c.textSem row := by
  unfold recvG
  cases hc : c.asGroup with
  | none =>
    rw [toCond_sem row _ rfl]
    show joinTri (Cond.sflatL row [c.join j]) = _
    rw [sem_one, textSem_join]
  | some g => obtain rfl := asGroup_some hc; rfl

theorem leaf_or_group {c : Cond} (h : c.Readable) : c.isLeaf = true ∨ ∃ g : Group, c = g.toCond := by
  cases c with
  | fieldc k b fv => exact Or.inl rfl
  | null b fd => exact Or.inl rfl
  | custom b x => exact h.elim
  | group b cs br => exact Or.inr ⟨⟨b, cs, br⟩, rfl⟩

theorem recvG_group (j : Str) (g : Group) : recvG j g.toCond = g := rfl

theorem recvG_leaf {j : Str} {c : Cond} (h : c.isLeaf = true) : recvG j c = newGroup j [c] := by
  unfold recvG; rw [leaf_asGroup h]

theorem recvG_andRecv {j : Str} {c : Cond} (h : c.Readable) (ha : c.andRecv = true) :
    (recvG j c).toCond.andRecv = true := by
  rcases leaf_or_group h with hl | ⟨g, rfl⟩
  · rw [recvG_leaf hl]
    simp [newGroup, newBase, Group.toCond, Cond.andRecv, setToAll, Cond.orFreeL, orFree_join,
      single_orFree c (leaf_single hl)]
  · exact ha

theorem recvG_orRecv {j : Str} {c : Cond} (h : c.Readable) (ha : c.orRecv = true) :
    (recvG j c).toCond.orRecv = true := by
  rcases leaf_or_group h with hl | ⟨g, rfl⟩
  · rw [recvG_leaf hl]; rfl
  · exact ha

theorem recvG_allAnd {j : Str} {c : Cond} (h : c.Readable) : (recvG j c).toCond.recvAllAnd = c.recvAllAnd := by
  rcases leaf_or_group h with hl | ⟨g, rfl⟩
  · rw [recvG_leaf hl]
    cases c <;> first | rfl | simp [Cond.isLeaf] at hl
  · rfl

theorem recvG_allOr {j : Str} {c : Cond} (h : c.Readable) : allOr (recvG j c).conds = c.recvAllOr := by
  rcases leaf_or_group h with hl | ⟨g, rfl⟩
  · rw [recvG_leaf hl]
    cases c <;> first | rfl | simp [Cond.isLeaf] at hl
  · rfl

theorem andArg_congr {d r r' : Cond} (h : r.recvAllAnd = r'.recvAllAnd) : d.andArg r = d.andArg r' := by
  cases d <;> simp [Cond.andArg, h]

theorem andArgs_congr {ds : List Cond} {r r' : Cond} (h : r.recvAllAnd = r'.recvAllAnd) : r.andArgs ds = r'.andArgs ds := by
  match ds with
  | [] => rfl
  | [d] => exact andArg_congr h
  | d :: e :: ds => simp only [Cond.andArgs, h]

/-- The result of a call on a condition: readable, with the truth value. -/
structure Gives (row : Row) (r : Cond) (x : Tri) : Prop where
  read : r.Readable
  sem : r.textSem row = x

theorem added_gives {row : Row} {g r : Group} {x : Tri} (h : Added row g r x) (hn : g.base.negate = false) :
    Gives row r.toCond x :=
  ⟨readable_toCond.mpr h.read, by rw [toCond_sem row r (by rw [h.base]; exact hn)]; exact h.sem⟩

theorem gives_join {row : Row} {r : Cond} {x : Tri} (h : Gives row r x) (j : Str) : Gives row (r.join j) x :=
  ⟨readable_join j h.read, by rw [textSem_join]; exact h.sem⟩

theorem andRecv_negate {g : Group} (h : g.toCond.andRecv = true) : g.base.negate = false := by
  simp only [Group.toCond, Cond.andRecv, Bool.and_eq_true, Bool.not_eq_true'] at h
  exact h.1

theorem orRecv_negate {g : Group} (h : g.toCond.orRecv = true) : g.base.negate = false := by
  simpa [Group.toCond, Cond.orRecv] using h

theorem and_gives (row : Row) (c : Cond) (ds : List Cond) (hc : c.Readable) (hd : ∀ d ∈ ds, d.Readable)
    (hr : c.andRecv = true) (ha : c.andArgs ds = true) (hn : ds ≠ []) :
    Gives row ((recvG lAND c).groupAND ds).toCond ((c.textSem row).and (allOf (ds.map (·.textSem row)))) := by
  have hg := recvG_read (j := lAND) (Or.inl rfl) hc
  have hr' := recvG_andRecv (j := lAND) hc hr
  have hneg := andRecv_negate hr'
  have ha' : (recvG lAND c).toCond.andArgs ds = true := by rw [andArgs_congr (recvG_allAnd hc)]; exact ha
  rw [← recvG_sem row lAND c]
  match ds, hn with
  | [d], _ =>
    have := and_one row (recvG lAND c) d hg (hd d (by simp)) hr' ha'
    simpa [allOf] using added_gives this hneg
  | d :: e :: ds, _ => exact added_gives (and_many row _ d e ds hg hd hneg ha') hneg

theorem or_gives (row : Row) (c d : Cond) (j : Str) (hj : j = lAND ∨ j = lOR) (hc : c.Readable) (hd : d.Readable)
    (hr : c.orRecv = true) (ha : d.orArg = true) :
    Gives row ((recvG j c).groupOR [d]).toCond ((c.textSem row).or (d.textSem row)) := by
  have hg := recvG_read (j := j) hj hc
  have hr' := recvG_orRecv (j := j) hc hr
  rw [← recvG_sem row j c]
  exact added_gives (or_one row (recvG j c) d hg hd hr' ha) (orRecv_negate hr')

theorem and_method (c : Cond) (ds : List Cond) (hn : ds ≠ []) : c.and ds = ((recvG lAND c).groupAND ds).toCond := by
  have hl : ds.length ≠ 0 := by simpa using hn
  cases c with
  | fieldc k b fv => cases k <;> simp [Cond.and, andC, hl, recvG, Cond.asGroup]
  | null b fd => rfl
  | custom b x => simp [Cond.and, andC, hl, recvG, Cond.asGroup]
  | group b cs br => rfl

theorem and_function (c : Cond) (ds : List Cond) (hn : ds ≠ []) : andC c ds = ((recvG lAND c).groupAND ds).toCond := by
  have hl : ds.length ≠ 0 := by simpa using hn
  simp [andC, hl, recvG]
  all_goals rfl

theorem or_function (c : Cond) (ds : List Cond) (hn : ds ≠ []) :
    orC c ds = (((recvG lOR c).groupOR ds).toCond).join lOR := by
  have hl : ds.length ≠ 0 := by simpa using hn
  simp [orC, hl, recvG]
  all_goals rfl

/-- The method Or, except for IS NULL, which panics (C14): like the function, up to the join word of the result. -/
theorem or_method (c : Cond) (ds : List Cond) (hn : ds ≠ []) (hnull : ∀ b fd, c ≠ .null b fd) :
    ∃ r, c.or ds = .ok r ∧ (r = ((recvG lOR c).groupOR ds).toCond ∨ r = (((recvG lOR c).groupOR ds).toCond).join lOR) := by
  cases c with
  | fieldc k b fv =>
    cases k <;>
      first
      | exact ⟨_, rfl, Or.inl rfl⟩
      | exact ⟨_, rfl, Or.inr (or_function _ ds hn)⟩
  | null b fd => exact absurd rfl (hnull b fd)
  | custom b x => exact ⟨_, rfl, Or.inr (or_function _ ds hn)⟩
  | group b cs br => exact ⟨_, rfl, Or.inl rfl⟩

end Query
