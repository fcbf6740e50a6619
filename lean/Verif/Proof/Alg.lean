import Verif.Proof.Sem
import Verif.Spec.Shape
/-!
# Joining truth values; texts against trees
-/
namespace Query

/-- Reading on: the state after some factors. -/
def run : Tri × Tri → List (Bool × Tri) → Tri × Tri
  | s, [] => s
  | (o, a), (false, x) :: l => run (o, a.and x) l
  | (o, a), (true, x) :: l => run (o.or a, x) l

theorem joinFrom_append (o a : Tri) (l m : List (Bool × Tri)) :
    joinFrom o a (l ++ m) = joinFrom (run (o, a) l).1 (run (o, a) l).2 m := by
  induction l generalizing o a with
  | nil => rfl
  | cons p l ih => obtain ⟨b, x⟩ := p; cases b <;> simp [joinFrom, run, ih]

theorem joinFrom_run (o a : Tri) (l : List (Bool × Tri)) : joinFrom o a l = (run (o, a) l).1.or (run (o, a) l).2 := by
  have := joinFrom_append o a l []
  simpa [joinFrom] using this

/-- Finished terms stay in front. -/
theorem joinFrom_or (o a : Tri) (l : List (Bool × Tri)) : joinFrom o a l = o.or (joinFrom .f a l) := by
  induction l generalizing o a with
  | nil => simp [joinFrom]
  | cons p l ih =>
    obtain ⟨b, x⟩ := p
    cases b
    · simp [joinFrom, ih o]
    · simp only [joinFrom, Tri.f_or]; rw [ih (o.or a), ih a, Tri.or_assoc]

/-- No OR after the first factor. -/
def OFree (l : List (Bool × Tri)) : Prop := ∀ p ∈ l.drop 1, p.1 = false

/-- No OR at all. -/
def NoOr (l : List (Bool × Tri)) : Prop := ∀ p ∈ l, p.1 = false

theorem run_noOr (o a : Tri) (l : List (Bool × Tri)) (h : NoOr l) :
    run (o, a) l = (o, a.and (allOf (l.map (·.2)))) := by
  induction l generalizing a with
  | nil => simp [run, allOf]
  | cons p l ih =>
    obtain ⟨b, x⟩ := p
    obtain rfl : b = false := h _ List.mem_cons_self
    simp only [run]
    rw [ih _ (fun q hq => h q (by simp [hq]))]
    simp [allOf, Tri.and_assoc]

theorem joinTri_oFree (j : Bool) (x : Tri) (l : List (Bool × Tri)) (h : NoOr l) :
    joinTri ((j, x) :: l) = x.and (allOf (l.map (·.2))) := by
  simp [joinTri, joinFrom_run, run_noOr _ _ _ h]

@[simp] theorem joinTri_ssetHead (o : Bool) (l : List (Bool × Tri)) : joinTri (ssetHead o l) = joinTri l := by
  cases l <;> rfl

theorem joinTri_one (p : Bool × Tri) : joinTri [p] = p.2 := by simp [joinTri, joinFrom]

theorem joinTri_append_or (l m : List (Bool × Tri)) (x : Tri) (hl : l ≠ []) :
    joinTri (l ++ (true, x) :: m) = (joinTri l).or (joinTri ((true, x) :: m)) := by
  cases l with
  | nil => exact absurd rfl hl
  | cons p l =>
    obtain ⟨b, y⟩ := p
    simp only [List.cons_append, joinTri, joinFrom_append, joinFrom]
    rw [joinFrom_or, joinFrom_run .f y l]

theorem allOf_append (xs ys : List Tri) : allOf (xs ++ ys) = (allOf xs).and (allOf ys) := by
  induction xs with
  | nil => rfl
  | cons x xs ih =>
    simp only [allOf, List.cons_append, List.foldr_cons] at ih ⊢
    rw [ih, Tri.and_assoc]

theorem anyOf_append (xs ys : List Tri) : anyOf (xs ++ ys) = (anyOf xs).or (anyOf ys) := by
  induction xs with
  | nil => rfl
  | cons x xs ih =>
    simp only [anyOf, List.cons_append, List.foldr_cons] at ih ⊢
    rw [ih, Tri.or_assoc]

theorem joinTri_append_and (l m : List (Bool × Tri)) (x : Tri) (hl : l ≠ []) (h1 : OFree l) (h2 : NoOr m) :
    joinTri (l ++ (false, x) :: m) = (joinTri l).and (joinTri ((false, x) :: m)) := by
  cases l with
  | nil => exact absurd rfl hl
  | cons p l =>
    obtain ⟨b, y⟩ := p
    have h3 : NoOr l := fun q hq => h1 q (by simpa using hq)
    rw [joinTri_oFree _ _ _ h3, joinTri_oFree _ _ _ h2, List.cons_append, joinTri_oFree]
    · rw [List.map_append, List.map_cons, allOf_append, Tri.and_assoc]
      rfl
    · intro q hq
      simp only [List.mem_append, List.mem_cons] at hq
      rcases hq with hq | rfl | hq
      · exact h3 q hq
      · rfl
      · exact h2 q hq

/-! ## Factors of a condition -/

theorem sflat_head (row : Row) (c : Cond) (h : c.Readable) : ∃ x l, c.sflat row = (c.isOr, x) :: l := by
  obtain ⟨i, l, e1, e2⟩ := flat_head c 0 h
  have := flat_ev row (bound 0 c.valuesP) c 0 h (bound_agree 0 _)
  rw [e1] at this
  refine ⟨i.ast.eval row (bound 0 c.valuesP), l.map (·.ev row (bound 0 c.valuesP)), ?_⟩
  rw [← this, ← e2]; rfl

theorem sflat_ne (row : Row) (c : Cond) (h : c.Readable) : c.sflat row ≠ [] := by
  obtain ⟨x, l, e⟩ := sflat_head row c h
  simp [e]

theorem sflatL_append (row : Row) (cs ds : List Cond) :
    Cond.sflatL row (cs ++ ds) = Cond.sflatL row cs ++ Cond.sflatL row ds := by
  induction cs with
  | nil => rfl
  | cons c cs ih => simp [Cond.sflatL, ih]

theorem effBr_eq (b : CondBase) (n : Nat) (br : Bool) : effBr b n br = (br || (b.negate && decide (n > 1))) := by
  unfold effBr
  cases br <;> cases b.negate <;> by_cases h : n > 1 <;> simp [h]

mutual
theorem single_sflat (row : Row) (c : Cond) (hr : c.Readable) (h : c.single = true) :
    c.sflat row = [(c.isOr, c.textSem row)] := by
  cases c with
  | fieldc k b fv => simp [Cond.sflat, Cond.textSem, joinTri_one, Cond.isOr, Cond.joinType, Cond.base]
  | null b fd => simp [Cond.sflat, Cond.textSem, joinTri_one, Cond.isOr, Cond.joinType, Cond.base]
  | custom b x => exact hr.elim
  | group b cs br =>
    by_cases he : effBr b cs.length br = true
    · simp [Cond.sflat, Cond.textSem, he, joinTri_one, Cond.isOr, Cond.joinType, Cond.base]
    · rw [effBr_eq] at he
      simp only [Cond.single, Bool.or_eq_true] at h he
      have h := h.resolve_left he
      have := singleL_sflat row cs hr.2 h
      obtain ⟨x, e⟩ := this
      simp only [Cond.sflat, Cond.textSem, effBr_eq, Bool.or_eq_true, if_neg he, e, snegHead, ssetHead]
      simp [joinTri_one, Cond.isOr, Cond.joinType, Cond.base]
theorem singleL_sflat (row : Row) (cs : List Cond) (hr : Cond.EveryL ReadableNode cs) (h : Cond.singleL cs = true) :
    ∃ p, Cond.sflatL row cs = [p] := by
  cases cs with
  | nil => simp [Cond.singleL] at h
  | cons c cs =>
    cases cs with
    | nil =>
      simp only [Cond.singleL] at h
      exact ⟨_, by simp only [Cond.sflatL, List.append_nil]; exact single_sflat row c hr.1 h⟩
    | cons d ds => simp [Cond.singleL] at h
end

theorem oFree_heads (o b : Bool) (l : List (Bool × Tri)) (h : OFree l) : OFree (ssetHead o (snegHead b l)) := by
  cases l with
  | nil => exact h
  | cons p l => exact h

theorem noOr_append {l m : List (Bool × Tri)} (h1 : NoOr l) (h2 : NoOr m) : NoOr (l ++ m) := by
  intro p hp
  rcases List.mem_append.mp hp with h | h
  · exact h1 p h
  · exact h2 p h

mutual
theorem orFree_sflat (row : Row) (c : Cond) (hr : c.Readable) (h : c.orFree = true) : OFree (c.sflat row) := by
  cases c with
  | fieldc k b fv => simp [Cond.sflat, OFree]
  | null b fd => simp [Cond.sflat, OFree]
  | custom b x => exact hr.elim
  | group b cs br =>
    simp only [Cond.sflat]
    by_cases he : effBr b cs.length br = true
    · rw [if_pos he]; simp [OFree]
    · rw [if_neg he]
      rw [effBr_eq] at he
      simp only [Cond.orFree, Bool.or_eq_true] at h he
      have h := h.resolve_left he
      simp only [Bool.and_eq_true] at h
      apply oFree_heads
      cases cs with
      | nil => simp [Cond.sflatL, OFree]
      | cons c cs =>
        have hr' := readable_group_cons.mp hr
        have h1 := h.1
        simp only [Cond.orFreeL, Bool.and_eq_true] at h1
        have e1 := orFree_sflat row c hr'.1 h1.1
        have e2 := orFreeL_sflat row cs hr'.2.2 h1.2 (by simpa using h.2)
        obtain ⟨x, l, e⟩ := sflat_head row c hr'.1
        simp only [Cond.sflatL]
        rw [e] at e1 ⊢
        intro p hp
        simp only [List.cons_append, List.drop_succ_cons, List.drop_zero, List.mem_append] at hp
        exact hp.elim (fun hp => e1 p (by simpa using hp)) (e2 p)
theorem orFreeL_sflat (row : Row) (cs : List Cond) (hr : Cond.EveryL ReadableNode cs) (h : Cond.orFreeL cs = true)
    (hj : ∀ c ∈ cs, c.isOr = false) : NoOr (Cond.sflatL row cs) := by
  cases cs with
  | nil => simp [Cond.sflatL, NoOr]
  | cons c cs =>
    simp only [Cond.orFreeL, Bool.and_eq_true] at h
    simp only [Cond.sflatL]
    refine noOr_append ?_ (orFreeL_sflat row cs hr.2 h.2 (fun d hd => hj d (by simp [hd])))
    have e1 := orFree_sflat row c hr.1 h.1
    obtain ⟨x, l, e⟩ := sflat_head row c hr.1
    rw [e] at e1 ⊢
    intro p hp
    rcases List.mem_cons.mp hp with rfl | hp
    · exact hj c (by simp)
    · exact e1 p (by simpa using hp)
end

theorem textSem_group (row : Row) (b : CondBase) (cs : List Cond) (br : Bool) (hn : b.negate = false) :
    (Cond.group b cs br).textSem row = joinTri (Cond.sflatL row cs) := by
  simp only [Cond.textSem, Cond.sflat, hn, Tri.notIf_false]
  split
  · rw [joinTri_one]
  · rw [joinTri_ssetHead]
    cases Cond.sflatL row cs with
    | nil => rfl
    | cons p l => simp [snegHead]

theorem textSem_cons (row : Row) (c : Cond) {x l} (e : c.sflat row = (c.isOr, x) :: l) :
    c.textSem row = joinFrom .f x l := by
  simp [Cond.textSem, e, joinTri]

/-! ## Text and tree -/

/-- One member of a group, read as a unit. -/
theorem member_run (row : Row) (c : Cond) (hr : c.Readable) (hs : (c.single || c.orFree) = true) (o a : Tri) :
    run (o, a) (c.sflat row) = run (o, a) [(c.isOr, c.textSem row)] := by
  simp only [Bool.or_eq_true] at hs
  rcases hs with hs | hs
  · rw [single_sflat row c hr hs]
  · have h1 := orFree_sflat row c hr hs
    obtain ⟨x, l, e⟩ := sflat_head row c hr
    have h2 : NoOr l := by rw [e] at h1; intro p hp; exact h1 p (by simpa using hp)
    have h3 : c.textSem row = x.and (allOf (l.map (·.2))) := by
      rw [Cond.textSem, e, joinTri_oFree _ _ _ h2]
    rw [e, h3]
    cases c.isOr <;> simp [run, run_noOr _ _ _ h2, Tri.and_assoc]

theorem joinFrom_next (o a o' a' : Tri) (l : List (Bool × Tri)) (h : o.or a = o'.or a')
    (hl : ∀ p ∈ l.head?, p.1 = true) : joinFrom o a l = joinFrom o' a' l := by
  cases l with
  | nil => simpa [joinFrom] using h
  | cons p l =>
    obtain ⟨b, x⟩ := p
    obtain rfl : b = true := hl _ rfl
    simp [joinFrom, h]

mutual
theorem safe_sem (row : Row) (c : Cond) (hr : c.Readable) (hs : c.safe = true) : c.textSem row = c.means row := by
  cases c with
  | fieldc k b fv => simp [Cond.textSem, Cond.sflat, joinTri_one, Cond.means]
  | null b fd => simp [Cond.textSem, Cond.sflat, joinTri_one, Cond.means]
  | custom b x => exact hr.elim
  | group b cs br =>
    have hg := readable_group.mp hr
    simp only [Cond.safe, Bool.and_eq_true] at hs
    have e : joinTri (Cond.sflatL row cs) = joinTri (Cond.meansL row cs) := by
      cases cs with
      | nil => rfl
      | cons c cs =>
        have hr' := readable_group_cons.mp hr
        have h1 := hs.1
        simp only [Cond.safeL, Bool.and_eq_true, Bool.or_eq_true, true_or, true_and] at h1
        obtain ⟨⟨hs1, hs2⟩, hs3⟩ := h1
        have ih := safe_sem row c hr'.1 hs1
        obtain ⟨x, l, e⟩ := sflat_head row c hr'.1
        simp only [Cond.sflatL, Cond.meansL, e, List.cons_append, joinTri]
        have hx := textSem_cons row c e
        rw [joinFrom_append]
        rcases hs2 with hs2 | hs2
        · have := member_run row c hr'.1 (by simpa using hs2) .f .f
          have e2 : run (.f, x) l = (.f, c.textSem row) := by
            rw [e] at this
            cases hc : c.isOr
            · -- the join word of the first member does not matter: run from the true state
              have := member_run row c hr'.1 (by simpa using hs2) .f .t
              rw [e, hc] at this
              simpa [run] using this
            · rw [hc] at this
              simpa [run] using this
          rw [e2, ih]
          exact safeL_sem row cs hr'.2.2 hs3 _ _
        · rw [← safeL_sem row cs hr'.2.2 hs3, ← ih]
          apply joinFrom_next
          · rw [← joinFrom_run, hx]; rfl
          · cases cs with
            | nil => simp [Cond.sflatL]
            | cons d ds =>
              obtain ⟨y, m, e3⟩ := sflat_head row d hr'.2.2.1
              simp only [nextOr] at hs2
              simp [Cond.sflatL, e3, hs2]
    simp only [Cond.means, ← e]
    simp only [Cond.textSem, Cond.sflat]
    split
    · rw [joinTri_one]
    · rename_i he
      rw [joinTri_ssetHead]
      rw [effBr_eq] at he
      cases hb : b.negate
      · cases Cond.sflatL row cs with
        | nil => rfl
        | cons p l => simp [snegHead]
      · have h2 := hs.2
        have h3 : Cond.singleL cs = true := by
          simp only [hb, Bool.not_true, Bool.false_or, Bool.true_and, Bool.or_eq_true] at h2 he
          exact h2.resolve_left he
        obtain ⟨p, e4⟩ := singleL_sflat row cs hr.2 h3
        rw [e4]
        simp [snegHead, joinTri_one]
theorem safeL_sem (row : Row) (cs : List Cond) (hr : Cond.EveryL ReadableNode cs) (hs : Cond.safeL false cs = true)
    (o a : Tri) : joinFrom o a (Cond.sflatL row cs) = joinFrom o a (Cond.meansL row cs) := by
  cases cs with
  | nil => rfl
  | cons c cs =>
    simp only [Cond.safeL, Bool.and_eq_true, Bool.or_eq_true, Bool.false_eq_true, false_or] at hs
    obtain ⟨⟨hs1, hs2⟩, hs3⟩ := hs
    have ih := safe_sem row c hr.1 hs1
    have e0 : joinFrom o a ((c.isOr, c.means row) :: Cond.meansL row cs) =
        joinFrom (run (o, a) [(c.isOr, c.textSem row)]).1 (run (o, a) [(c.isOr, c.textSem row)]).2
          (Cond.meansL row cs) := by
      rw [ih]; exact joinFrom_append o a [(c.isOr, c.means row)] _
    simp only [Cond.sflatL, Cond.meansL]
    rw [e0, joinFrom_append, ← safeL_sem row cs hr.2 hs3]
    rcases hs2 with hs2 | ⟨hs2, hs4⟩
    · rw [member_run row c hr.1 (by simpa using hs2)]
    · obtain ⟨x, l, e⟩ := sflat_head row c hr.1
      apply joinFrom_next
      · rw [← joinFrom_run, ← joinFrom_run, e, hs2, textSem_cons row c e]
        simp only [joinFrom]
        rw [joinFrom_or]
      · cases cs with
        | nil => simp [Cond.sflatL]
        | cons d ds =>
          obtain ⟨y, m, e3⟩ := sflat_head row d hr.2.1
          simp only [nextOr] at hs4
          simp [Cond.sflatL, e3, hs4]
end

end Query
