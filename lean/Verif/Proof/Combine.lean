import Verif.Proof.Pure
/-!
# Combining conditions: lemmas
-/
namespace Query

@[simp] theorem Cond.values_join (c : Cond) (j : Str) : (c.join j).values = c.values := by
  cases c <;> simp [Cond.join, Cond.values]

@[simp] theorem Cond.values_setNegate (c : Cond) (n : Bool) : (c.setNegate n).values = c.values := by
  cases c <;> simp [Cond.setNegate, Cond.values]

theorem valuesL_setToAll (j : Str) (cs : List Cond) : Cond.valuesL (setToAll j cs) = Cond.valuesL cs := by
  induction cs with
  | nil => rfl
  | cons c cs ih =>
    simp only [setToAll] at ih
    simp [setToAll, Cond.valuesL, ih]

theorem valuesL_single (c : Cond) : Cond.valuesL [c] = c.values := by
  cases h : c.values <;> simp [Cond.valuesL, h]

theorem toCond_values (g : Group) : g.toCond.values = Cond.valuesL g.conds := rfl

@[simp] theorem withBrackets_values (g : Group) : g.withBrackets.toCond.values = Cond.valuesL g.conds := rfl

theorem valuesL_cons_group (g : Group) (cs : List Cond) :
    Cond.valuesL (g.withBrackets.toCond :: cs) = Cond.valuesL (g.conds ++ cs) := by
  rw [Cond.valuesL_append]
  simp only [Cond.valuesL, withBrackets_values, Res.bind_def, Res.pure_def]

theorem valuesL_append_group (xs : List Cond) (c : Cond) (ys : List Cond) (h : c.values = Cond.valuesL ys) :
    Cond.valuesL (xs ++ [c]) = Cond.valuesL (xs ++ ys) := by
  rw [Cond.valuesL_append, Cond.valuesL_append, valuesL_single, h]

theorem valuesL_pair (g : Group) (c : Cond) (ys : List Cond) (h : c.values = Cond.valuesL ys) :
    Cond.valuesL [g.withBrackets.toCond, c] = Cond.valuesL (g.conds ++ ys) := by
  rw [valuesL_cons_group, valuesL_append_group _ _ ys h]

/-- `addGroup` in every branch: the conditions, in order. -/
theorem addGroup_values (g a : Group) : Cond.valuesL (g.addGroup a).conds = Cond.valuesL (g.conds ++ a.conds) := by
  unfold Group.addGroup
  have ha : a.withBrackets.toCond.values = Cond.valuesL a.conds := rfl
  have ha' : ∀ j, (a.withBrackets.toCond.join j).values = Cond.valuesL a.conds := fun j => by simp
  simp only
  split
  · rename_i h
    have : g.conds = [] := by simpa using h
    simp [this]
  all_goals repeat' (split)
  all_goals first
    | rfl
    | exact valuesL_append_group _ _ _ (ha' _)
    | exact valuesL_append_group _ _ _ ha
    | exact valuesL_cons_group _ _
    | exact valuesL_pair _ _ _ (ha' _)

theorem asGroup_some {c : Cond} {g : Group} (h : c.asGroup = some g) : c = g.toCond := by
  cases c <;> simp [Cond.asGroup] at h
  subst h
  rfl

theorem addSingle_values (g : Group) (c : Cond) :
    Cond.valuesL (g.addSingleCondition c).conds = Cond.valuesL (g.conds ++ [c]) := by
  unfold Group.addSingleCondition
  simp only
  cases h : c.asGroup with
  | some a =>
    have hc := asGroup_some h
    simp only [addGroup_values]
    rw [hc, valuesL_append_group _ _ _ (toCond_values a)]
  | none =>
    have hj : ∀ j, (c.join j).values = Cond.valuesL [c] := fun j => by rw [Cond.values_join, valuesL_single]
    simp only
    repeat' split
    all_goals first
      | rfl
      | exact valuesL_append_group _ _ _ (hj _)
      | exact valuesL_pair _ _ _ (hj _)

theorem addConditions_values (g : Group) (op : Str) (cs : List Cond) :
    Cond.valuesL (g.addConditions op cs).conds = Cond.valuesL (g.conds ++ cs) := by
  unfold Group.addConditions
  cases cs with
  | nil => simp
  | cons c more =>
    simp only
    have hng : ∀ j, (newGroup j (c :: more)).toCond.values = Cond.valuesL (c :: more) := fun j => by
      rw [toCond_values]
      exact valuesL_setToAll j _
    split
    · rfl
    · split
      · rename_i hm
        have : more = [] := List.length_eq_zero_iff.mp hm
        subst this
        rw [addSingle_values, valuesL_append_group _ _ [c] (by rw [Cond.values_join, valuesL_single])]
      · split
        · exact valuesL_cons_group _ _
        · split
          · exact valuesL_append_group _ _ _ (by rw [Cond.values_join, hng])
          · exact valuesL_pair _ _ _ (by
              rw [withBrackets_values]
              exact valuesL_setToAll _ _)

/-- Values of a list of conditions all of which return. -/
theorem valuesL_of_map (cs : List Cond) (ws : List (List Val)) (h : cs.map Cond.values = ws.map .ok) :
    Cond.valuesL cs = .ok ws.flatten := by
  induction cs generalizing ws with
  | nil =>
    cases ws with
    | nil => rfl
    | cons w ws => simp at h
  | cons c cs ih =>
    cases ws with
    | nil => simp at h
    | cons w ws =>
      simp only [List.map_cons, List.cons.injEq] at h
      simp [Cond.valuesL, h.1, ih ws h.2]

theorem addConditions_ok (g : Group) (op : Str) (cs : List Cond) (vs : List Val) (ws : List (List Val))
    (hg : g.values = .ok vs) (hc : cs.map Cond.values = ws.map .ok) :
    (g.addConditions op cs).values = .ok (vs ++ ws.flatten) := by
  have h1 : Cond.valuesL g.conds = .ok vs := hg
  show Cond.valuesL (g.addConditions op cs).conds = _
  rw [addConditions_values, Cond.valuesL_append, h1, valuesL_of_map cs ws hc]
  rfl

/-- Adding conditions to a group never makes it empty, and adding at least one makes it non-empty. -/
theorem addGroup_ne (g a : Group) (h : g.conds ≠ []) : (g.addGroup a).conds ≠ [] := by
  unfold Group.addGroup
  simp only
  rw [if_neg (by simpa using h)]
  repeat' split
  all_goals simp [h]

theorem addSingle_ne (g : Group) (c : Cond) (h : g.conds ≠ []) : (g.addSingleCondition c).conds ≠ [] := by
  unfold Group.addSingleCondition
  simp only
  cases c.asGroup with
  | some a => exact addGroup_ne g a h
  | none =>
    simp only
    repeat' split
    all_goals simp

theorem addConditions_ne (g : Group) (op : Str) (cs : List Cond) (h : g.conds ≠ [] ∨ cs ≠ []) :
    (g.addConditions op cs).conds ≠ [] := by
  unfold Group.addConditions
  cases cs with
  | nil => simpa using h
  | cons c more =>
    simp only
    split
    · simp
    · rename_i hg
      have hg : g.conds ≠ [] := by simpa using hg
      repeat' split
      all_goals first
        | exact addSingle_ne g _ hg
        | simp [hg]

/-- Negation and brackets of the receiver are kept by every branch. -/
theorem addConditions_flags (g : Group) (op : Str) (cs : List Cond) :
    (g.addConditions op cs).base.negate = g.base.negate ∧ (g.addConditions op cs).brackets = g.brackets := by
  have hg : ∀ a : Group, (g.addGroup a).base.negate = g.base.negate ∧ (g.addGroup a).brackets = g.brackets := by
    intro a
    unfold Group.addGroup
    simp only
    repeat' split
    all_goals exact ⟨rfl, rfl⟩
  have hs : ∀ c : Cond, (g.addSingleCondition c).base.negate = g.base.negate ∧
      (g.addSingleCondition c).brackets = g.brackets := by
    intro c
    unfold Group.addSingleCondition
    simp only
    cases c.asGroup with
    | some a => exact hg a
    | none =>
      simp only
      repeat' split
      all_goals exact ⟨rfl, rfl⟩
  unfold Group.addConditions
  cases cs with
  | nil => exact ⟨rfl, rfl⟩
  | cons c more =>
    simp only
    repeat' split
    all_goals first
      | exact hs _
      | exact ⟨rfl, rfl⟩

end Query
