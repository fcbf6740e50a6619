import Verif.Props.Combine
/-!
# C13 when a `Values()` panics

Conditions are asked for their values from left to right and the first that panics ends it.
-/
namespace Query

/-- One answer after another, up to the first that is none. -/
def inTurn : List (Res (List Val)) → Res (List Val)
  | [] => .ok []
  | .ok vs :: rest => match inTurn rest with
    | .ok ws => .ok (vs ++ ws)
    | r => r
  | r :: _ => r

theorem valuesL_inTurn (cs : List Cond) : Cond.valuesL cs = inTurn (cs.map Cond.values) := by
  induction cs with
  | nil => rfl
  | cons c cs ih =>
    simp only [Cond.valuesL, List.map_cons, Res.bind_def, Res.pure_def]
    cases hc : c.values with
    | ok vs => simp only [Res.bind_ok, inTurn, ← ih]; cases Cond.valuesL cs <;> rfl
    | err e => rfl
    | panic p => rfl

theorem valuesL_after (cs ds : List Cond) (r : Res (List Val)) (h : Cond.valuesL cs = r) :
    Cond.valuesL (cs ++ ds) = inTurn (r :: ds.map Cond.values) := by
  rw [Cond.valuesL_append, h, valuesL_inTurn]
  cases r with
  | ok vs => simp only [inTurn]; cases inTurn (ds.map Cond.values) <;> rfl
  | err e => rfl
  | panic p => rfl

theorem addConditions_inTurn (g : Group) (op : Str) (cs : List Cond) (r : Res (List Val)) (h : g.values = r) :
    (g.addConditions op cs).values = inTurn (r :: cs.map Cond.values) := by
  show Cond.valuesL (g.addConditions op cs).conds = _
  rw [addConditions_values]
  exact valuesL_after _ _ _ h

theorem inTurn_one (r : Res (List Val)) : inTurn [r] = r := by
  cases r <;> simp [inTurn]

/-- **C13**, whatever the conditions' own `Values()` do: a group, WHERE clause or condition extended by others gives its own values and then
theirs, from left to right, and if one of them panics it panics as the first that does. -/
theorem C13_in_turn (g : Group) (c : Cond) (cs : List Cond) (j : Str) :
    (g.groupAND cs).values = inTurn (g.values :: cs.map Cond.values) ∧
    (g.groupOR cs).values = inTurn (g.values :: cs.map Cond.values) ∧
    (newGroup j cs).values = inTurn (cs.map Cond.values) ∧
    (andC c cs).values = inTurn (c.values :: cs.map Cond.values) ∧
    (orC c cs).values = inTurn (c.values :: cs.map Cond.values) ∧
    (c.and cs).values = inTurn (c.values :: cs.map Cond.values) ∧
    (∀ d, c.or cs = .ok d → d.values = inTurn (c.values :: cs.map Cond.values)) := by
  have hng : ∀ (j op : Str), ((newGroup j [c]).addConditions op cs).values = inTurn (c.values :: cs.map Cond.values) :=
    fun j op => addConditions_inTurn _ _ _ _ (newGroup_one_values j c)
  have hg : ∀ j, (match c.asGroup with
      | some g => g
      | none => newGroup j [c]).values = c.values := by
    intro j
    cases h : c.asGroup with
    | some g =>
      have := asGroup_some h
      subst this
      rfl
    | none => exact newGroup_one_values j c
  have h1 : (andC c cs).values = inTurn (c.values :: cs.map Cond.values) := by
    unfold andC
    split
    · rename_i h
      have : cs = [] := List.length_eq_zero_iff.1 h
      subst this
      rw [Cond.values_join]
      exact (inTurn_one _).symm
    · exact addConditions_inTurn _ _ cs _ (hg lAND)
  have h2 : (orC c cs).values = inTurn (c.values :: cs.map Cond.values) := by
    unfold orC
    split
    · rename_i h
      have : cs = [] := List.length_eq_zero_iff.1 h
      subst this
      rw [Cond.values_join]
      exact (inTurn_one _).symm
    · rw [Cond.values_join]
      exact addConditions_inTurn _ _ cs _ (hg lOR)
  refine ⟨addConditions_inTurn g _ cs _ rfl, addConditions_inTurn g _ cs _ rfl, ?_, h1, h2, ?_⟩
  · show Cond.valuesL (setToAll j cs) = _
    rw [valuesL_setToAll, valuesL_inTurn]
  · cases c with
    | fieldc k b fv =>
      cases k <;> simp only [Cond.and, Cond.or, Res.ok.injEq] <;>
        first
        | exact ⟨h1, fun d hd => hd ▸ h2⟩
        | exact ⟨hng _ _, fun d hd => hd ▸ hng _ _⟩
    | null b fd =>
      refine ⟨hng _ _, fun d hd => ?_⟩
      simp [Cond.or, nullOr, newGroupI, setToAllI, Res.mapL, joinOneI] at hd
    | custom b x =>
      simp only [Cond.and, Cond.or, Res.ok.injEq]
      exact ⟨h1, fun d hd => hd ▸ h2⟩
    | group b ds br =>
      simp only [Cond.and, Cond.or, Res.ok.injEq]
      exact ⟨addConditions_inTurn _ _ cs _ rfl, fun d hd => hd ▸ addConditions_inTurn _ _ cs _ rfl⟩

/-- **C13**, `Where` of every builder, whatever the conditions' `Values()` do. -/
theorem C13_where_in_turn (b : BaseSelect) (s : SelectSingle) (m : SelectMany) (u : UpdateB) (d : DeleteB) (cs : List Cond) :
    (b.addWhere cs).where_.values = inTurn (b.where_.values :: cs.map Cond.values) ∧
    (s.addWhere cs).base.where_.values = inTurn (s.base.where_.values :: cs.map Cond.values) ∧
    (m.addWhere cs).base.where_.values = inTurn (m.base.where_.values :: cs.map Cond.values) ∧
    (u.addWhere cs).where_.values = inTurn (u.where_.values :: cs.map Cond.values) ∧
    (d.addWhere cs).where_.values = inTurn (d.where_.values :: cs.map Cond.values) :=
  ⟨addConditions_inTurn _ _ cs _ rfl, addConditions_inTurn _ _ cs _ rfl, addConditions_inTurn _ _ cs _ rfl,
    addConditions_inTurn _ _ cs _ rfl, addConditions_inTurn _ _ cs _ rfl⟩

/-- A slice with a nil among its valuers, between two conditions that have values. -/
example : (andC (.fieldc .eq ⟨lAND, false⟩ ⟨⟨c!"a", [], []⟩, .str c!"x"⟩)
    [.fieldc .inn ⟨lAND, false⟩ ⟨⟨c!"b", [], []⟩, .valuers [.nil]⟩, .fieldc .eq ⟨lAND, false⟩ ⟨⟨c!"c", [], []⟩, .str c!"y"⟩]).values =
    .panic .nilDeref := by rfl

end Query
