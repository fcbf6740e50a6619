import Verif.Spec.Parts
import Verif.Proof.Combine
/-!
# Combining conditions keeps their parts: lemmas
-/
namespace Query

theorem partsL_append (xs ys : List Cond) : Cond.partsL (xs ++ ys) = Cond.partsL xs ++ Cond.partsL ys := by
  induction xs with
  | nil => rfl
  | cons c cs ih => simp [Cond.partsL, ih]

theorem partsL_flatMap (xs : List Cond) : Cond.partsL xs = xs.flatMap Cond.parts := by
  induction xs with
  | nil => rfl
  | cons c cs ih => simp [Cond.partsL, ih]

@[simp] theorem parts_join (c : Cond) (j : Str) : (c.join j).parts = c.parts := by
  cases c <;> rfl

theorem partsL_setToAll (j : Str) (cs : List Cond) : Cond.partsL (setToAll j cs) = Cond.partsL cs := by
  induction cs with
  | nil => rfl
  | cons c cs ih =>
    simp only [setToAll] at ih
    simp [setToAll, Cond.partsL, ih]

theorem partsL_single (c : Cond) : Cond.partsL [c] = c.parts := by simp [Cond.partsL]

theorem toCond_parts (g : Group) : g.toCond.parts = Cond.partsL g.conds := by
  obtain ⟨b, cs, br⟩ := g
  rfl

@[simp] theorem withBrackets_parts (g : Group) : g.withBrackets.toCond.parts = Cond.partsL g.conds := by
  obtain ⟨b, cs, br⟩ := g
  rfl

theorem addGroup_parts (g a : Group) : Cond.partsL (g.addGroup a).conds = Cond.partsL (g.conds ++ a.conds) := by
  unfold Group.addGroup
  simp only
  split
  · rename_i h
    have : g.conds = [] := by simpa using h
    simp [this]
  all_goals repeat' (split)
  all_goals simp [partsL_append, Cond.partsL]

theorem addSingle_parts (g : Group) (c : Cond) :
    Cond.partsL (g.addSingleCondition c).conds = Cond.partsL (g.conds ++ [c]) := by
  unfold Group.addSingleCondition
  simp only
  cases h : c.asGroup with
  | some a =>
    have hc := asGroup_some h
    simp only [addGroup_parts]
    rw [hc, partsL_append, partsL_append, partsL_single, toCond_parts]
  | none =>
    simp only
    repeat' split
    all_goals simp [partsL_append, Cond.partsL]

theorem addConditions_parts (g : Group) (op : Str) (cs : List Cond) :
    Cond.partsL (g.addConditions op cs).conds = Cond.partsL g.conds ++ Cond.partsL cs := by
  unfold Group.addConditions
  cases cs with
  | nil => simp [Cond.partsL]
  | cons c more =>
    simp only
    have hng : ∀ j, Cond.partsL (newGroup j (c :: more)).conds = Cond.partsL (c :: more) := fun j => partsL_setToAll j _
    split
    · simp [partsL_append]
    · split
      · rename_i hm
        have : more = [] := List.length_eq_zero_iff.mp hm
        subst this
        simp [addSingle_parts, partsL_append, partsL_single]
      · split
        · simp [partsL_append, Cond.partsL]
        · split
          · simp [partsL_append, partsL_single, toCond_parts, hng]
          · simp [Cond.partsL, hng]

mutual
theorem leaves_parts : ∀ c : Cond, c.leaves = c.parts.flatMap Cond.leaves
  | .fieldc _ _ _ => by simp [Cond.parts, Cond.leaves]
  | .null _ _ => by simp [Cond.parts, Cond.leaves]
  | .custom _ _ => by simp [Cond.parts, Cond.leaves]
  | .group _ cs _ => by simpa [Cond.parts, Cond.leaves] using leavesL_parts cs
theorem leavesL_parts : ∀ cs : List Cond, Cond.leavesL cs = (Cond.partsL cs).flatMap Cond.leaves
  | [] => rfl
  | c :: cs => by simp [Cond.partsL, Cond.leavesL, ← leaves_parts c, leavesL_parts cs]
end

end Query
