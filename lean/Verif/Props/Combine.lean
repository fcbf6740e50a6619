import Verif.Proof.Combine
import Verif.Props.Numbering
/-!
# C13, C14, C39: combining conditions
-/
namespace Query

/-! ## C13 -/

/-- **C13**, groups and where clauses: `GroupAND`, `GroupOR`, `And`, `Or` on a group and `Where`. -/
theorem C13_group_values (g : Group) (cs : List Cond) (vs : List Val) (ws : List (List Val))
    (hg : g.values = .ok vs) (hc : cs.map Cond.values = ws.map .ok) :
    (g.groupAND cs).values = .ok (vs ++ ws.flatten) ∧ (g.groupOR cs).values = .ok (vs ++ ws.flatten) ∧
    ((WhereClause.mk g).groupAND cs).values = .ok (vs ++ ws.flatten) ∧
    ((WhereClause.mk g).groupOR cs).values = .ok (vs ++ ws.flatten) :=
  ⟨addConditions_ok g _ cs vs ws hg hc, addConditions_ok g _ cs vs ws hg hc, addConditions_ok g _ cs vs ws hg hc,
    addConditions_ok g _ cs vs ws hg hc⟩

/-- **C13**, `NewGroup`. -/
theorem C13_newGroup_values (j : Str) (cs : List Cond) (ws : List (List Val))
    (hc : cs.map Cond.values = ws.map .ok) : (newGroup j cs).values = .ok ws.flatten := by
  show Cond.valuesL (setToAll j cs) = _
  rw [valuesL_setToAll, valuesL_of_map cs ws hc]

theorem newGroup_one_values (j : Str) (c : Cond) : (newGroup j [c]).values = c.values := by
  show Cond.valuesL (setToAll j [c]) = _
  rw [valuesL_setToAll, valuesL_single]

/-- **C13**, the functions `And` and `Or`. -/
theorem C13_operation_values (c : Cond) (cs : List Cond) (vs : List Val) (ws : List (List Val))
    (hv : c.values = .ok vs) (hc : cs.map Cond.values = ws.map .ok) :
    (andC c cs).values = .ok (vs ++ ws.flatten) ∧ (orC c cs).values = .ok (vs ++ ws.flatten) := by
  have h0 : cs.length = 0 → ws.flatten = [] := by
    intro h
    have hl := congrArg List.length hc
    have : ws = [] := List.length_eq_zero_iff.mp (by simpa [h] using hl.symm)
    simp [this]
  have hg : ∀ j, (match c.asGroup with
      | some g => g
      | none => newGroup j [c]).values = .ok vs := by
    intro j
    cases h : c.asGroup with
    | some g =>
      have := asGroup_some h
      subst this
      exact hv
    | none => rw [newGroup_one_values, hv]
  constructor
  · unfold andC
    split
    · rename_i h; simp [hv, h0 h]
    · exact addConditions_ok _ _ cs vs ws (hg lAND) hc
  · unfold orC
    split
    · rename_i h; simp [hv, h0 h]
    · rw [Cond.values_join]
      exact addConditions_ok _ _ cs vs ws (hg lOR) hc

/-- **C13**, the methods `And` and `Or` of a condition (where `Or` returns, see C14). -/
theorem C13_method_values (c : Cond) (cs : List Cond) (vs : List Val) (ws : List (List Val))
    (hv : c.values = .ok vs) (hc : cs.map Cond.values = ws.map .ok) :
    (c.and cs).values = .ok (vs ++ ws.flatten) ∧
    (∀ d, c.or cs = .ok d → d.values = .ok (vs ++ ws.flatten)) := by
  obtain ⟨h1, h2⟩ := C13_operation_values c cs vs ws hv hc
  have h3 := fun j op => addConditions_ok (newGroup j [c]) op cs vs ws (by rw [newGroup_one_values, hv]) hc
  cases c with
  | fieldc k b fv =>
    cases k <;> simp only [Cond.and, Cond.or, Res.ok.injEq] <;>
      first
      | exact ⟨h1, fun d hd => hd ▸ h2⟩
      | exact ⟨h3 _ _, fun d hd => hd ▸ h3 _ _⟩
  | null b fd =>
    refine ⟨h3 _ _, fun d hd => ?_⟩
    simp [Cond.or, nullOr, newGroupI, setToAllI, Res.mapL, joinOneI] at hd
  | custom b x =>
    simp only [Cond.and, Cond.or, Res.ok.injEq]
    exact ⟨h1, fun d hd => hd ▸ h2⟩
  | group b ds br =>
    simp only [Cond.and, Cond.or, Res.ok.injEq]
    exact ⟨addConditions_ok _ _ cs vs ws hv hc, fun d hd => hd ▸ addConditions_ok _ _ cs vs ws hv hc⟩

/-- **C13**, `Where` of every builder. -/
theorem C13_where_values (b : BaseSelect) (s : SelectSingle) (m : SelectMany) (u : UpdateB) (d : DeleteB)
    (cs : List Cond) (ws : List (List Val)) (hc : cs.map Cond.values = ws.map .ok) :
    (∀ vs, b.where_.values = .ok vs → (b.addWhere cs).where_.values = .ok (vs ++ ws.flatten)) ∧
    (∀ vs, s.base.where_.values = .ok vs → (s.addWhere cs).base.where_.values = .ok (vs ++ ws.flatten)) ∧
    (∀ vs, m.base.where_.values = .ok vs → (m.addWhere cs).base.where_.values = .ok (vs ++ ws.flatten)) ∧
    (∀ vs, u.where_.values = .ok vs → (u.addWhere cs).where_.values = .ok (vs ++ ws.flatten)) ∧
    (∀ vs, d.where_.values = .ok vs → (d.addWhere cs).where_.values = .ok (vs ++ ws.flatten)) :=
  ⟨fun vs h => addConditions_ok _ _ cs vs ws h hc, fun vs h => addConditions_ok _ _ cs vs ws h hc,
    fun vs h => addConditions_ok _ _ cs vs ws h hc, fun vs h => addConditions_ok _ _ cs vs ws h hc,
    fun vs h => addConditions_ok _ _ cs vs ws h hc⟩

/-- Two conditions with values, and a group holding both kinds of join: the branch that brackets the receiver. -/
example :
    let a : Cond := .fieldc .eq ⟨lAND, false⟩ ⟨⟨c!"a", [], []⟩, .other 1⟩
    let b : Cond := .fieldc .inn ⟨lAND, false⟩ ⟨⟨c!"b", [], []⟩, .strs [c!"x", c!"y"]⟩
    let g := (newGroup lOR [a, exampleCond])
    g.values = .ok [.other 1, .other 1, .str c!"x", .str c!"y"] ∧
    [b, a].map Cond.values = [[Val.str c!"x", .str c!"y"], [.other 1]].map Res.ok ∧
    (g.groupAND [b, a]).render 0 =
      .ok c!"(a=$1 OR NOT (a=$2 OR t.b IN ($3,$4) AND c IS NULL)) AND b IN ($5,$6) AND a=$7" := by
  refine ⟨rfl, rfl, by decide⟩

/-! ## C14 -/

/-- **C14, what holds.** The method `Or` returns for every receiver that is not an IS NULL condition, whatever the
arguments.  (`And`, `Not` and the functions `And`, `Or` are total in the model: the only call in them that could panic is
`Join` on a nil condition.)

Missing for the full claim: IS NULL receivers, for which it is false, see `C14_isNull_or_panics`. -/
theorem C14_or_partial (c : Cond) (more : List Cond) (h : ∀ b fd, c ≠ .null b fd) : ∃ d, c.or more = .ok d := by
  cases c with
  | fieldc k b fv => cases k <;> exact ⟨_, rfl⟩
  | null b fd => exact absurd rfl (h b fd)
  | custom b x => exact ⟨_, rfl⟩
  | group b cs br => exact ⟨_, rfl⟩

example : (exampleCond.or [exampleCond]).bind (fun d => d.render 0) = .ok
    c!"NOT (NOT (a=$1 OR t.b IN ($2,$3) AND c IS NULL) OR NOT (a=$4 OR t.b IN ($5,$6) AND c IS NULL))" := by decide

/-- **C14 is false**: `IsNull(f).Or(more...)` panics for every field and every list of conditions. -/
theorem C14_isNull_or_panics (b : CondBase) (fd : FieldDef) (more : List Cond) :
    (Cond.null b fd).or more = .panic .nilDeref := rfl

/-! ## C39 -/

/-- **C39.** `Not` sets the negation, is idempotent and undone by `Negate(false)`; `Negate` and `Join` set only their own flag, the last call
wins, they commute, and neither changes values or field name. -/
theorem C39_flags (c : Cond) (n n' : Bool) (j j' : Str) :
    (notC c).isNegate = true ∧ (notC c).joinType = c.joinType ∧ (notC c).values = c.values ∧ (notC c).fieldName = c.fieldName ∧
    notC (notC c) = notC c ∧ ((notC c).setNegate false).isNegate = false ∧
    (notC c).setNegate c.isNegate = c ∧
    (c.setNegate n).isNegate = n ∧ (c.setNegate n).joinType = c.joinType ∧
    (c.join j).joinType = j ∧ (c.join j).isNegate = c.isNegate ∧
    (c.setNegate n).setNegate n' = c.setNegate n' ∧ (c.join j).join j' = c.join j' ∧
    (c.setNegate n).join j = (c.join j).setNegate n ∧
    (c.setNegate n).values = c.values ∧ (c.join j).values = c.values ∧
    (c.setNegate n).fieldName = c.fieldName ∧ (c.join j).fieldName = c.fieldName := by
  cases c <;> simp [notC, Cond.setNegate, Cond.join, CondBase.setNegate, CondBase.join, Cond.isNegate, Cond.joinType,
    Cond.base, Cond.values, Cond.fieldName]

/-- **C39**: negating a condition changes its text and negating it twice does not change it again; a witness that the
flag is visible for every kind of condition of the library. -/
example : (notC exampleCond) = exampleCond ∧
    (exampleCond.setNegate false).render 0 = .ok c!"a=$1 OR t.b IN ($2,$3) AND c IS NULL" := ⟨rfl, by decide⟩

end Query
