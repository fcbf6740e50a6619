import Verif.Proof.Parts
import Verif.Props.Combine
/-!
# C58: combining conditions keeps every part
-/
namespace Query

/-- **C58**, groups and where clauses. -/
theorem C58_group (g : Group) (cs : List Cond) :
    (g.groupAND cs).toCond.parts = g.toCond.parts ++ cs.flatMap Cond.parts ∧
    (g.groupOR cs).toCond.parts = g.toCond.parts ++ cs.flatMap Cond.parts ∧
    ((WhereClause.mk g).groupAND cs).group.toCond.parts = g.toCond.parts ++ cs.flatMap Cond.parts ∧
    ((WhereClause.mk g).groupOR cs).group.toCond.parts = g.toCond.parts ++ cs.flatMap Cond.parts := by
  have h : ∀ op, (g.addConditions op cs).toCond.parts = g.toCond.parts ++ cs.flatMap Cond.parts := fun op => by
    rw [toCond_parts, toCond_parts, addConditions_parts, partsL_flatMap cs]
  exact ⟨h _, h _, h _, h _⟩

/-- **C58**, `NewGroup`. -/
theorem C58_newGroup (j : Str) (cs : List Cond) : (newGroup j cs).toCond.parts = cs.flatMap Cond.parts := by
  rw [toCond_parts, ← partsL_flatMap]
  exact partsL_setToAll j cs

/-- **C58**, the functions `And` and `Or`. -/
theorem C58_operation (c : Cond) (cs : List Cond) :
    (andC c cs).parts = c.parts ++ cs.flatMap Cond.parts ∧ (orC c cs).parts = c.parts ++ cs.flatMap Cond.parts := by
  have hg : ∀ j, (match c.asGroup with
      | some g => g
      | none => newGroup j [c]).toCond.parts = c.parts := by
    intro j
    cases h : c.asGroup with
    | some g => rw [asGroup_some h]
    | none => simp [C58_newGroup]
  constructor
  · unfold andC
    split
    · rename_i h; simp [List.length_eq_zero_iff.mp h]
    · exact ((C58_group _ cs).1).trans (congrArg (· ++ cs.flatMap Cond.parts) (hg lAND))
  · unfold orC
    split
    · rename_i h; simp [List.length_eq_zero_iff.mp h]
    · rw [parts_join]
      exact ((C58_group _ cs).2.1).trans (congrArg (· ++ cs.flatMap Cond.parts) (hg lOR))

/-- **C58**, the methods `And` and `Or` of a condition (where `Or` returns, see C14). -/
theorem C58_method (c : Cond) (cs : List Cond) :
    (c.and cs).parts = c.parts ++ cs.flatMap Cond.parts ∧
    (∀ d, c.or cs = .ok d → d.parts = c.parts ++ cs.flatMap Cond.parts) := by
  obtain ⟨h1, h2⟩ := C58_operation c cs
  have h3 := fun j => C58_group (newGroup j [c]) cs
  simp only [C58_newGroup, List.flatMap_cons, List.flatMap_nil, List.append_nil] at h3
  cases c with
  | fieldc k b fv =>
    cases k <;> simp only [Cond.and, Cond.or, Res.ok.injEq] <;>
      first
      | exact ⟨h1, fun d hd => hd ▸ h2⟩
      | exact ⟨(h3 _).1, fun d hd => hd ▸ (h3 _).2.1⟩
  | null b fd =>
    refine ⟨(h3 _).1, fun d hd => ?_⟩
    simp [Cond.or, nullOr, newGroupI, setToAllI, Res.mapL, joinOneI] at hd
  | custom b x =>
    simp only [Cond.and, Cond.or, Res.ok.injEq]
    exact ⟨h1, fun d hd => hd ▸ h2⟩
  | group b ds br =>
    simp only [Cond.and, Cond.or, Res.ok.injEq]
    have := C58_group ⟨b, ds, br⟩ cs
    exact ⟨this.1, fun d hd => hd ▸ this.2.1⟩

/-- **C58**, `Where` of every builder, in a chain of any length. -/
theorem C58_where (calls : List (List Cond)) (b : BaseSelect) (s : SelectSingle) (m : SelectMany) (u : UpdateB) (d : DeleteB) :
    (calls.foldl BaseSelect.addWhere b).where_.group.toCond.parts =
      b.where_.group.toCond.parts ++ calls.flatten.flatMap Cond.parts ∧
    (calls.foldl SelectSingle.addWhere s).base.where_.group.toCond.parts =
      s.base.where_.group.toCond.parts ++ calls.flatten.flatMap Cond.parts ∧
    (calls.foldl SelectMany.addWhere m).base.where_.group.toCond.parts =
      m.base.where_.group.toCond.parts ++ calls.flatten.flatMap Cond.parts ∧
    (calls.foldl UpdateB.addWhere u).where_.toCond.parts = u.where_.toCond.parts ++ calls.flatten.flatMap Cond.parts ∧
    (calls.foldl DeleteB.addWhere d).where_.toCond.parts = d.where_.toCond.parts ++ calls.flatten.flatMap Cond.parts := by
  induction calls generalizing b s m u d with
  | nil => simp
  | cons cs calls ih =>
    obtain ⟨h1, h2, h3, h4, h5⟩ := ih (b.addWhere cs) (s.addWhere cs) (m.addWhere cs) (u.addWhere cs) (d.addWhere cs)
    simp only [List.foldl_cons, List.flatten_cons, List.flatMap_append, ← List.append_assoc]
    refine ⟨h1.trans ?_, h2.trans ?_, h3.trans ?_, h4.trans ?_, h5.trans ?_⟩
    all_goals
      congr 1
      exact (C58_group _ cs).1

/-- **C58**, `Not` of a condition on a field. -/
theorem C58_not (c : Cond) : (notC c).parts = (match c with
    | .group _ cs _ => Cond.partsL cs
    | c => c.parts.map fun p => p.setNegate true) := by
  cases c <;> rfl

example : let a : Cond := .fieldc .eq ⟨lAND, true⟩ ⟨⟨c!"a", [], []⟩, .other 1⟩
    let b : Cond := .null ⟨lAND, false⟩ ⟨c!"b", [], []⟩
    ((orC a [b]).and [b, a]).parts = [a, b, b, a] := rfl

end Query
