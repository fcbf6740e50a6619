import Verif.Proof.LogicOps
/-!
# Chains of And, Or and Where calls
-/
namespace Query

theorem orFreeL_append {cs ds : List Cond} (h1 : Cond.orFreeL cs = true) (h2 : Cond.orFreeL ds = true) :
    Cond.orFreeL (cs ++ ds) = true := by
  rw [orFreeL_mem] at *
  intro c hc
  rcases List.mem_append.mp hc with h | h
  · exact h1 c h
  · exact h2 c h

theorem orFreeL_one {c : Cond} (h : c.orFree = true) : Cond.orFreeL [c] = true := by simp [Cond.orFreeL, h]

theorem orFreeL_bracket {g : Group} {ds : List Cond} (h : Cond.orFreeL ds = true) :
    Cond.orFreeL (g.withBrackets.toCond :: ds) = true := by
  simp [Cond.orFreeL, single_orFree _ (brackets_single g), h]

theorem bracket_orFree (g : Group) : g.withBrackets.toCond.orFree = true := single_orFree _ (brackets_single g)

theorem leaf_orFree {c : Cond} (h : c.isLeaf = true) (j : Str) : (c.join j).orFree = true := by
  rw [orFree_join]; exact single_orFree c (leaf_single h)

theorem addSingle_group (g a : Group) (j : Str) :
    g.addSingleCondition (a.toCond.join j) = g.addGroup { a with base := a.base.join j } := by
  have hbase : (a.toCond.join j).asGroup = some { a with base := a.base.join j } := rfl
  unfold Group.addSingleCondition; rw [hbase]

theorem stepAnd_andArg {d : Cond} (h : d.stepAnd = true) (r : Cond) : d.andArg r = true := by
  cases d <;> simp_all [Cond.stepAnd, Cond.andArg]

theorem stepOr_orArg {d : Cond} (h : d.stepOr = true) : d.orArg = true := by
  cases d with
  | group b cs br =>
    simp only [Cond.stepOr, Cond.orArg, Bool.or_eq_true, Bool.and_eq_true] at *
    rcases h with h | ⟨⟨h1, h2⟩, _⟩
    · exact Or.inl h
    · exact Or.inr ⟨h1, h2⟩
  | _ => exact h

theorem and_keeps (g : Group) (d : Cond) (hg : ReadL g.conds) (hd : d.Readable) (hf : Cond.orFreeL g.conds = true)
    (ha : d.stepAnd = true) : Cond.orFreeL (g.groupAND [d]).conds = true := by
  unfold Group.groupAND
  rw [addConditions_one g lAND d hg.1]
  rcases leaf_or_group hd with hl | ⟨a, rfl⟩
  · rw [(addSingle_leaf g d lAND hg (leaf_asGroup hl) (Or.inl rfl)).1]
    have := orFreeL_one (leaf_orFree hl lAND)
    split
    · exact orFreeL_append hf this
    · exact orFreeL_bracket this
  · have haR : ReadL a.conds := readable_toCond.mp hd
    rw [addSingle_group, (addGroup_and g { a with base := a.base.join lAND } hg haR rfl).1]
    simp only [Cond.stepAnd, Group.toCond, Bool.or_eq_true, Bool.and_eq_true, Bool.not_eq_true', decide_eq_true_eq] at ha
    have hb := orFreeL_one (bracket_orFree { a with base := a.base.join lAND })
    have hboth : ∀ h1 : allOr a.conds = true, a.conds.length > 1 → allAnd a.conds = false := by
      intro h1 h2
      match hc : a.conds with
      | [] => rw [hc] at h2; simp at h2
      | [c] => rw [hc] at h2; simp at h2
      | c :: e :: es => rw [hc] at h1; simp [allOr, allAnd] at h1 ⊢; simp [h1.1]
    rcases ha with ⟨⟨⟨h1, h2⟩, h3⟩, h4⟩ | ⟨h1, h2⟩
    · split
      · exact orFreeL_append hf h3
      · split
        · exact orFreeL_bracket hb
        · exact orFreeL_bracket h3
    · split
      · rw [if_neg (by simp [hboth h2 h1])]; exact orFreeL_append hf hb
      · exact orFreeL_bracket hb

theorem or_keeps (g : Group) (d : Cond) (hg : ReadL g.conds) (hd : d.Readable) (hf : Cond.orFreeL g.conds = true)
    (ha : d.stepOr = true) : Cond.orFreeL (g.groupOR [d]).conds = true := by
  unfold Group.groupOR
  rw [addConditions_one g lOR d hg.1]
  rcases leaf_or_group hd with hl | ⟨a, rfl⟩
  · rw [(addSingle_leaf g d lOR hg (leaf_asGroup hl) (Or.inr rfl)).1]
    have := orFreeL_one (leaf_orFree hl lOR)
    split
    · exact orFreeL_append hf this
    · exact orFreeL_bracket this
  · have haR : ReadL a.conds := readable_toCond.mp hd
    rw [addSingle_group, (addGroup_or g { a with base := a.base.join lOR } hg haR rfl).1]
    simp only [Cond.stepOr, Group.toCond, Bool.or_eq_true, Bool.and_eq_true, Bool.not_eq_true', decide_eq_true_eq] at ha
    have hb := orFreeL_one (bracket_orFree { a with base := a.base.join lOR })
    by_cases hA : allOr a.conds = true
    · have h3 := (ha.resolve_left (by simp [hA])).2
      simp only [hA, if_true]
      split
      · exact orFreeL_append hf h3
      · exact orFreeL_bracket h3
    · simp only [hA, if_false]
      split
      · exact orFreeL_append hf hb
      · exact orFreeL_bracket hb

/-- The state of a chain of calls. -/
structure Chained (row : Row) (c : Cond) (x : Tri) : Prop where
  read : c.Readable
  sem : c.textSem row = x
  shape : c.isLeaf = true ∨ ∃ g : Group, c = g.toCond ∧ g.base.negate = false ∧ Cond.orFreeL g.conds = true

theorem chained_recvG {row : Row} {c : Cond} {x : Tri} (h : Chained row c x) (j : Str) :
    (recvG j c).base.negate = false ∧ Cond.orFreeL (recvG j c).conds = true := by
  rcases h.shape with hl | ⟨g, rfl, hn, hf⟩
  · rw [recvG_leaf hl]
    exact ⟨rfl, orFreeL_one (leaf_orFree hl j)⟩
  · exact ⟨hn, hf⟩

theorem chained_and {row : Row} {c d : Cond} {x : Tri} (h : Chained row c x) (hd : d.Readable) (ha : d.stepAnd = true) :
    Chained row (c.and [d]) (x.and (d.textSem row)) := by
  obtain ⟨hn, hf⟩ := chained_recvG h lAND
  have hg := recvG_read (j := lAND) (Or.inl rfl) h.read
  have hr : (recvG lAND c).toCond.andRecv = true := by simp [Group.toCond, Cond.andRecv, hn, hf]
  have hA := and_one row (recvG lAND c) d hg hd hr (stepAnd_andArg ha _)
  rw [recvG_sem, h.sem] at hA
  rw [and_method c [d] (by simp)]
  obtain ⟨h1, h2⟩ := added_gives hA hn
  exact ⟨h1, h2, Or.inr ⟨_, rfl, by rw [hA.base]; exact hn, and_keeps _ d hg hd hf ha⟩⟩

theorem chained_or {row : Row} {c d : Cond} {x : Tri} (h : Chained row c x) (hnull : ∀ b fd, c ≠ .null b fd)
    (hd : d.Readable) (ha : d.stepOr = true) :
    ∃ r, c.or [d] = .ok r ∧ Chained row r (x.or (d.textSem row)) ∧ ∀ b fd, r ≠ .null b fd := by
  obtain ⟨hn, hf⟩ := chained_recvG h lOR
  have hg := recvG_read (j := lOR) (Or.inr rfl) h.read
  have hr : (recvG lOR c).toCond.orRecv = true := by simp [Group.toCond, Cond.orRecv, hn]
  have hA := or_one row (recvG lOR c) d hg hd hr (stepOr_orArg ha)
  rw [recvG_sem, h.sem] at hA
  obtain ⟨r, hr1, hr2⟩ := or_method c [d] (by simp) hnull
  obtain ⟨h1, h2⟩ := added_gives hA hn
  have hk := or_keeps _ d hg hd hf ha
  refine ⟨r, hr1, ?_⟩
  rcases hr2 with rfl | rfl
  · exact ⟨⟨h1, h2, Or.inr ⟨_, rfl, by rw [hA.base]; exact hn, hk⟩⟩, by intro b fd h; cases h⟩
  · exact ⟨⟨readable_join _ h1, by rw [textSem_join]; exact h2,
      Or.inr ⟨⟨((recvG lOR c).groupOR [d]).base.join lOR, ((recvG lOR c).groupOR [d]).conds, ((recvG lOR c).groupOR [d]).brackets⟩,
        rfl, by show ((recvG lOR c).groupOR [d]).base.negate = false; rw [hA.base]; exact hn, hk⟩⟩, by intro b fd h; cases h⟩

theorem and_not_null (c : Cond) (ds : List Cond) (hn : ds ≠ []) (b : CondBase) (fd : FieldDef) : c.and ds ≠ .null b fd := by
  rw [and_method c ds hn]; intro h; cases h

theorem chain_run (row : Row) (y : Cond → Tri) (steps : List (Bool × Cond)) :
    ∀ (c : Cond) (x : Tri), Chained row c x → (∀ p ∈ steps, p.2.Readable ∧ p.2.textSem row = y p.2 ∧
      (if p.1 then p.2.stepOr else p.2.stepAnd) = true) → (∀ b fd, c = .null b fd → ∀ p ∈ steps.head?, p.1 = false) →
      ∃ r, callChain c steps = .ok r ∧ Chained row r (chainMeans y x steps) := by
  induction steps with
  | nil => intro c x h _ _; exact ⟨c, rfl, h⟩
  | cons p steps ih =>
    intro c x h hs hnull
    obtain ⟨o, d⟩ := p
    obtain ⟨hd, hy, hst⟩ := hs (o, d) (by simp)
    cases o with
    | true =>
      obtain ⟨r, h1, h2, h3⟩ := chained_or h (fun b fd e => by simpa using hnull b fd e (true, d) (by simp)) hd (by simpa using hst)
      obtain ⟨r', h4, h5⟩ := ih r _ h2 (fun p hp => hs p (by simp [hp])) (fun b fd e => absurd e (h3 b fd))
      refine ⟨r', ?_, ?_⟩
      · simp only [callChain, h1, Res.bind_ok, h4]
      · simp only [] at hy; simpa only [chainMeans, ← hy] using h5
    | false =>
      have h2 := chained_and h hd (by simpa using hst)
      obtain ⟨r', h4, h5⟩ := ih _ _ h2 (fun p hp => hs p (by simp [hp]))
        (fun b fd e => absurd e (and_not_null c [d] (by simp) b fd))
      refine ⟨r', ?_, ?_⟩
      · simp only [callChain, h4]
      · simp only [] at hy; simpa only [chainMeans, ← hy] using h5

/-! ## Where -/

/-- The group of a chain of Where calls. -/
structure WhereG (row : Row) (g : Group) (x : Tri) : Prop where
  read : ReadL g.conds
  neg : g.base.negate = false
  free : Cond.orFreeL g.conds = true
  all : allAnd g.conds = true
  sem : joinTri (Cond.sflatL row g.conds) = x

theorem allAnd_append {cs ds : List Cond} (h : allAnd cs = true) (hd : ∀ d ∈ ds, d.isOr = false) (hn : cs ≠ []) :
    allAnd (cs ++ ds) = true := by
  obtain ⟨c, cs, rfl⟩ := List.exists_cons_of_ne_nil hn
  rw [List.cons_append, allAnd_cons]
  rw [allAnd_cons] at h
  intro d hd'
  rcases List.mem_append.mp hd' with h' | h'
  · exact h d h'
  · exact hd d h'

theorem allAnd_all {ds : List Cond} (h : allAnd ds = true) (hw : headWord ds = c!"AND") : ∀ d ∈ ds, d.isOr = false := by
  cases ds with
  | nil => simp
  | cons c cs =>
    intro d hd
    rcases List.mem_cons.mp hd with rfl | hd
    · exact isOr_and hw
    · exact (allAnd_cons _ _).mp h d hd

theorem narrows_andArg {d : Cond} (h : d.narrows = true) (g : Group) (hg : allAnd g.conds = true) :
    d.andArg g.toCond = true := by
  cases d with
  | group b cs br =>
    simp only [Cond.narrows, Cond.andArg, Group.toCond, Cond.recvAllAnd, hg, Bool.or_eq_true, Bool.and_eq_true, and_true] at *
    cases hA : allAnd cs <;> simp_all
  | _ => exact h

theorem where_one {row : Row} {g : Group} {x : Tri} (h : WhereG row g x) (d : Cond) (hd : d.Readable)
    (ha : d.narrows = true) : WhereG row (g.groupAND [d]) (x.and (d.textSem row)) := by
  have hr : g.toCond.andRecv = true := by simp [Group.toCond, Cond.andRecv, h.neg, h.free]
  have hA := and_one row g d h.read hd hr (narrows_andArg ha g h.all)
  rw [toCond_sem row g h.neg, h.sem] at hA
  refine ⟨hA.read, by rw [hA.base]; exact h.neg, ?_, ?_, hA.sem⟩
  all_goals
    unfold Group.groupAND
    rw [addConditions_one g lAND d h.read.1]
  · rcases leaf_or_group hd with hl | ⟨a, rfl⟩
    · rw [(addSingle_leaf g d lAND h.read (leaf_asGroup hl) (Or.inl rfl)).1, hasAll_and h.read, if_pos h.all]
      exact orFreeL_append h.free (orFreeL_one (leaf_orFree hl lAND))
    · rw [addSingle_group, (addGroup_and g { a with base := a.base.join lAND } h.read (readable_toCond.mp hd) rfl).1, if_pos h.all]
      split
      · rename_i hB
        have hB : allAnd a.conds = true := hB
        simp only [Cond.narrows, Group.toCond, hB, Bool.not_true, Bool.false_or, Bool.and_eq_true] at ha
        exact orFreeL_append h.free ha.2
      · exact orFreeL_append h.free (orFreeL_one (bracket_orFree _))
  · rcases leaf_or_group hd with hl | ⟨a, rfl⟩
    · rw [(addSingle_leaf g d lAND h.read (leaf_asGroup hl) (Or.inl rfl)).1, hasAll_and h.read, if_pos h.all]
      exact allAnd_append h.all (by simpa using isOr_join_and d) h.read.1
    · rw [addSingle_group, (addGroup_and g { a with base := a.base.join lAND } h.read (readable_toCond.mp hd) rfl).1, if_pos h.all]
      split
      · rename_i hB
        have hB : allAnd a.conds = true := hB
        simp only [Cond.narrows, Group.toCond, hB, Bool.not_true, Bool.false_or, Bool.and_eq_true, beq_iff_eq] at ha
        exact allAnd_append h.all (allAnd_all hB ha.1.2) h.read.1
      · exact allAnd_append h.all (by intro d hd; simp at hd; subst hd; exact isOr_and rfl) h.read.1

theorem where_many {row : Row} {g : Group} {x : Tri} (h : WhereG row g x) (d e : Cond) (ds : List Cond)
    (hd : ∀ c ∈ d :: e :: ds, c.Readable) (hf : ∀ c ∈ d :: e :: ds, c.orFree = true) :
    WhereG row (g.groupAND (d :: e :: ds)) (x.and (allOf ((d :: e :: ds).map (·.textSem row)))) := by
  have ha : g.toCond.andArgs (d :: e :: ds) = true := by
    simp only [Cond.andArgs, Group.toCond, Cond.recvAllAnd, h.all, Bool.true_or, Bool.and_true, List.all_eq_true]
    exact hf
  have hA := and_many row g d e ds h.read hd h.neg ha
  rw [toCond_sem row g h.neg, h.sem] at hA
  have hc : (g.groupAND (d :: e :: ds)).conds = [g.withBrackets.toCond, (newGroup lAND (d :: e :: ds)).withBrackets.toCond] := by
    have hl : decide (g.conds.length > 0) = true := by simpa [List.length_pos_iff] using h.read.1
    have hAO : (lAND == lOR) = false := by decide
    unfold Group.groupAND Group.addConditions
    simp only [hl, Bool.not_true, Bool.false_eq_true, if_false, List.length_cons, hasOne_or, hAO, Bool.and_false, h.all,
      Bool.false_and]
    rw [if_neg (by simp)]
  refine ⟨hA.read, by rw [hA.base]; exact h.neg, ?_, ?_, hA.sem⟩
  · rw [hc]; exact orFreeL_bracket (orFreeL_one (bracket_orFree _))
  · rw [hc]; rfl

theorem where_next {row : Row} {g : Group} {x : Tri} (h : WhereG row g x) (ds : List Cond)
    (hd : ∀ c ∈ ds, c.Readable) (ha : whereNext ds = true) :
    WhereG row (g.groupAND ds) (x.and (allOf (ds.map (·.textSem row)))) := by
  match ds with
  | [] =>
    have : g.groupAND [] = g := rfl
    rw [this]
    simpa [allOf] using h
  | [d] =>
    have := where_one h d (hd d (by simp)) ha
    simpa [allOf] using this
  | d :: e :: ds =>
    refine where_many h d e ds hd ?_
    simpa [whereNext] using ha

theorem where_rest {row : Row} (calls : List (List Cond)) : ∀ {g : Group} {x : Tri}, WhereG row g x →
    (∀ ds ∈ calls, ∀ c ∈ ds, c.Readable) → calls.all whereNext = true →
    WhereG row (calls.foldl Group.groupAND g) (x.and (allOf (calls.flatten.map (·.textSem row)))) := by
  induction calls with
  | nil => intro g x h _ _; simpa [allOf] using h
  | cons ds calls ih =>
    intro g x h hd ha
    simp only [List.all_cons, Bool.and_eq_true] at ha
    have := ih (where_next h ds (fun c hc => hd ds (by simp) c hc) ha.1) (fun es he c hc => hd es (by simp [he]) c hc) ha.2
    simpa only [List.foldl_cons, List.flatten_cons, List.map_append, allOf_append, Tri.and_assoc] using this

/-- Where calls on a group without conditions. -/
theorem where_calls (row : Row) (calls : List (List Cond)) : ∀ (g : Group), g.conds = [] → g.base.negate = false →
    (∀ ds ∈ calls, ∀ c ∈ ds, c.Readable) → whereCalls calls = true → calls.flatten ≠ [] →
    WhereG row (calls.foldl Group.groupAND g) (allOf (calls.flatten.map (·.textSem row))) := by
  induction calls with
  | nil => intro g _ _ _ _ h; simp at h
  | cons ds calls ih =>
    intro g hg hn hd hw hne
    cases ds with
    | nil =>
      have : g.groupAND [] = g := rfl
      simp only [List.foldl_cons, this]
      exact ih g hg hn (fun es he c hc => hd es (by simp [he]) c hc) hw (by simpa using hne)
    | cons d ds =>
      simp only [whereCalls, whereFirst, Bool.and_eq_true, List.all_eq_true, beq_iff_eq] at hw
      obtain ⟨⟨hf, hj⟩, hr⟩ := hw
      have hc : g.groupAND (d :: ds) = { g with conds := d :: ds, base := { g.base with joinType := lAND } } := by
        unfold Group.groupAND Group.addConditions
        simp [hg]
      have h0 : WhereG row (g.groupAND (d :: ds)) (allOf ((d :: ds).map (·.textSem row))) := by
        rw [hc]
        refine ⟨⟨by simp, fun c hc => Or.inl (hj c hc), fun c hc => hd _ (by simp) c hc⟩, hn, orFreeL_mem.mpr hf, ?_, ?_⟩
        · exact (allAnd_cons _ _).mpr fun c hc => isOr_and (hj c (by simpa using hc))
        · exact conj_sem row _ (fun c hc => hd _ (by simp) c hc) hf hj (by simp)
      have := where_rest calls h0 (fun es he c hc => hd es (by simp [he]) c hc) (by simpa using hr)
      simpa only [List.foldl_cons, List.flatten_cons, List.map_append, allOf_append] using this

end Query
