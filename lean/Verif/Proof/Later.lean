import Verif.Spec.Later
/-! # Calls do not look at values: lemmas -/
namespace Query
namespace Later

variable (φ : Val → Val)

/-! ## Conditions -/

theorem givenL_map (cs : List Cond) : Cond.givenL φ cs = cs.map (Cond.given φ) := by
  induction cs with
  | nil => rfl
  | cons c cs ih => simp only [Cond.givenL, List.map_cons, ih]

theorem given_toCond (g : Group) : (g.given φ).toCond = g.toCond.given φ := by
  simp only [Group.toCond, Group.given, Cond.given, givenL_map]

theorem given_asGroup (c : Cond) : (c.given φ).asGroup = c.asGroup.map (Group.given φ) := by
  cases c <;> simp [Cond.given, Cond.asGroup, givenL_map, Group.given]

theorem given_joinType (c : Cond) : (c.given φ).joinType = c.joinType := by
  cases c <;> rfl

theorem given_join (c : Cond) (j : Str) : (c.given φ).join j = (c.join j).given φ := by
  cases c <;> rfl

theorem given_setNegate (c : Cond) (n : Bool) : (c.given φ).setNegate n = (c.setNegate n).given φ := by
  cases c <;> rfl

theorem given_spec (fv : FieldValue) (spec : FieldDef) : (fv.given φ).applyFieldSpec spec = (fv.applyFieldSpec spec).given φ := by
  simp only [FieldValue.applyFieldSpec, FieldValue.given]
  by_cases h : fv.fd.fieldName = spec.fieldName
  · simp [h]
  · simp [h]

mutual
theorem given_applySpec (spec : FieldDef) : (c : Cond) → (c.given φ).applyFieldSpec spec = (c.applyFieldSpec spec).given φ
  | .fieldc k b fv => by simp only [Cond.given, Cond.applyFieldSpec, given_spec]
  | .null b fd => by simp only [Cond.given, Cond.applyFieldSpec]
  | .custom b x => by simp only [Cond.given, Cond.applyFieldSpec]
  | .group b cs br => by simp only [Cond.given, Cond.applyFieldSpec, given_applySpecL spec cs]
theorem given_applySpecL (spec : FieldDef) : (cs : List Cond) →
    Cond.applyFieldSpecL (Cond.givenL φ cs) spec = Cond.givenL φ (Cond.applyFieldSpecL cs spec)
  | [] => rfl
  | c :: cs => by simp only [Cond.givenL, Cond.applyFieldSpecL, given_applySpec spec c, given_applySpecL spec cs]
end

mutual
theorem given_applyTable (t : Str) : (c : Cond) → (c.given φ).applyFieldTable t = (c.applyFieldTable t).given φ
  | .fieldc k b fv => by simp only [Cond.given, Cond.applyFieldTable, FieldValue.applyFieldTable, FieldValue.given]
  | .null b fd => by simp only [Cond.given, Cond.applyFieldTable]
  | .custom b x => by simp only [Cond.given, Cond.applyFieldTable]
  | .group b cs br => by simp only [Cond.given, Cond.applyFieldTable, given_applyTableL t cs]
theorem given_applyTableL (t : Str) : (cs : List Cond) →
    Cond.applyFieldTableL (Cond.givenL φ cs) t = Cond.givenL φ (Cond.applyFieldTableL cs t)
  | [] => rfl
  | c :: cs => by simp only [Cond.givenL, Cond.applyFieldTableL, given_applyTable t c, given_applyTableL t cs]
end

/-! ## Groups -/

theorem given_newGroup (j : Str) (cs : List Cond) : newGroup j (cs.map (Cond.given φ)) = (newGroup j cs).given φ := by
  simp [newGroup, setToAll, Group.given, Function.comp_def, given_join]

theorem given_hasAll (g : Group) (j : Str) : (g.given φ).hasAll j = g.hasAll j := by
  simp only [Group.hasAll, Group.given, ← List.map_drop, List.all_map, Function.comp_def, given_joinType]

theorem given_hasOne (g : Group) (j : Str) : (g.given φ).hasOne j = g.hasOne j := by
  simp only [Group.hasOne, Group.given, ← List.map_drop, List.any_map, Function.comp_def, given_joinType]

theorem given_withBrackets (g : Group) : (g.given φ).withBrackets = g.withBrackets.given φ := rfl

theorem given_length (g : Group) : (g.given φ).conds.length = g.conds.length := by simp [Group.given]

theorem given_base (g : Group) : (g.given φ).base = g.base := rfl

theorem given_conds (g : Group) : (g.given φ).conds = g.conds.map (Cond.given φ) := rfl

theorem given_if {P : Prop} [Decidable P] (a b : Group) : (if P then a else b).given φ = if P then a.given φ else b.given φ := by
  by_cases h : P
  · rw [if_pos h, if_pos h]
  · rw [if_neg h, if_neg h]

theorem given_addGroup (g a : Group) : (g.given φ).addGroup (a.given φ) = (g.addGroup a).given φ := by
  unfold Group.addGroup
  simp only [given_hasAll, given_hasOne, given_length, given_base, given_if, given_withBrackets, given_toCond, given_join, given_conds, List.length_map]
  simp only [Group.given, List.map_append, List.map_cons, List.map_nil]

theorem given_addSingle (g : Group) (c : Cond) : (g.given φ).addSingleCondition (c.given φ) = (g.addSingleCondition c).given φ := by
  unfold Group.addSingleCondition
  rw [given_asGroup]
  cases h : c.asGroup with
  | some a => simp only [Option.map_some, given_addGroup]
  | none =>
    simp only [Option.map_none, given_hasAll, given_length, given_base, given_if, given_withBrackets, given_toCond, given_join, given_conds,
      given_joinType, List.length_map]
    simp only [Group.given, List.map_append, List.map_cons, List.map_nil]

theorem given_addConditions (g : Group) (op : Str) (cs : List Cond) :
    (g.given φ).addConditions op (cs.map (Cond.given φ)) = (g.addConditions op cs).given φ := by
  cases cs with
  | nil => rfl
  | cons c0 more =>
    unfold Group.addConditions
    simp only [List.map_cons, given_hasOne, given_length, given_base, given_if, given_withBrackets, given_toCond, given_join, given_conds,
      given_addSingle, List.length_map]
    have n : ∀ j, newGroup j (c0.given φ :: more.map (Cond.given φ)) = (newGroup j (c0 :: more)).given φ := fun j =>
      given_newGroup φ j (c0 :: more)
    simp only [n, given_withBrackets, given_toCond, given_join]
    simp only [Group.given, List.map_append, List.map_cons, List.map_nil]

theorem given_andC (c : Cond) (more : List Cond) : andC (c.given φ) (more.map (Cond.given φ)) = (andC c more).given φ := by
  unfold andC
  rw [List.length_map, given_asGroup]
  by_cases h : more.length = 0
  · rw [if_pos h, if_pos h, given_join]
  · rw [if_neg h, if_neg h]
    cases c.asGroup with
    | some g => simp only [Option.map_some, Group.groupAND, given_addConditions, given_toCond]
    | none =>
      have n := given_newGroup φ lAND [c]
      simp only [List.map_cons, List.map_nil] at n
      simp only [Option.map_none, Group.groupAND, n, given_addConditions, given_toCond]

theorem given_orC (c : Cond) (more : List Cond) : orC (c.given φ) (more.map (Cond.given φ)) = (orC c more).given φ := by
  unfold orC
  rw [List.length_map, given_asGroup]
  by_cases h : more.length = 0
  · rw [if_pos h, if_pos h, given_join]
  · rw [if_neg h, if_neg h]
    cases c.asGroup with
    | some g => simp only [Option.map_some, Group.groupOR, given_addConditions, given_toCond, given_join]
    | none =>
      have n := given_newGroup φ lOR [c]
      simp only [List.map_cons, List.map_nil] at n
      simp only [Option.map_none, Group.groupOR, n, given_addConditions, given_toCond, given_join]

theorem given_and (c : Cond) (more : List Cond) : (c.given φ).and (more.map (Cond.given φ)) = (c.and more).given φ := by
  have n := given_newGroup φ lAND [c]
  simp only [List.map_cons, List.map_nil] at n
  have a := given_andC φ c more
  cases c with
  | fieldc k b fv =>
    simp only [Cond.given] at n a ⊢
    cases k <;> simp only [Cond.and, Group.groupAND, n, given_addConditions, given_toCond, a]
  | null b fd =>
    show ((newGroup lAND [(Cond.null b fd).given φ]).addConditions lAND _).toCond =
      (((newGroup lAND [Cond.null b fd]).addConditions lAND more).toCond).given φ
    rw [n, given_addConditions, given_toCond]
  | custom b x =>
    simp only [Cond.given] at a ⊢
    simp only [Cond.and, a]
  | group b cs br =>
    have := given_addConditions φ ⟨b, cs, br⟩ lAND more
    simp only [Cond.given, givenL_map, Cond.and, Group.groupAND]
    exact (congrArg Group.toCond this).trans (given_toCond φ _)

theorem given_or (c : Cond) (more : List Cond) :
    ((c.given φ).or (more.map (Cond.given φ))).toOption = (c.or more).toOption.map (Cond.given φ) := by
  have n := given_newGroup φ lOR [c]
  simp only [List.map_cons, List.map_nil] at n
  have a := given_orC φ c more
  cases c with
  | fieldc k b fv =>
    simp only [Cond.given] at n a ⊢
    cases k <;> simp only [Cond.or, Group.groupOR, n, given_addConditions, given_toCond, a, Res.toOption, Option.map_some]
  | null b fd => rfl
  | custom b x =>
    simp only [Cond.given] at a ⊢
    simp only [Cond.or, a, Res.toOption, Option.map_some]
  | group b cs br =>
    have := given_addConditions φ ⟨b, cs, br⟩ lOR more
    simp only [Cond.given, givenL_map, Cond.or, Group.groupOR, Res.toOption, Option.map_some]
    exact congrArg some ((congrArg Group.toCond this).trans (given_toCond φ _))

/-! ## Plain values -/

theorem given_getConds (ps : List PV) (is : List Nat) :
    getConds (ps.map (PV.given φ)) is = (getConds ps is).map (List.map (Cond.given φ)) := by
  induction is with
  | nil => rfl
  | cons i is ih =>
    simp only [getConds, List.getElem?_map, ih]
    cases ps[i]? with
    | none => rfl
    | some p =>
      cases p <;> cases getConds ps is <;> rfl

theorem given_addWhere (q : BaseSelect) (cs : List Cond) : (q.given φ).addWhere (cs.map (Cond.given φ)) = (q.addWhere cs).given φ := by
  simp only [BaseSelect.addWhere, BaseSelect.given, WhereClause.groupAND, Group.groupAND, given_addConditions]

theorem given_selectFrom (p : TableParam) : (selectFrom p).toOption.map PV.base =
    ((selectFrom p).toOption.map PV.base).map (PV.given φ) := by
  simp only [selectFrom]
  cases h : tableP p <;> rfl

theorem given_on (q : BaseSelect) (l r : FieldDef) : ((q.given φ).on l r).toOption = (q.on l r).toOption.map (BaseSelect.given φ) := by
  simp only [BaseSelect.on, BaseSelect.given]
  cases h : q.joins.reverse <;> rfl

theorem given_count (q : BaseSelect) (fs : List Str) :
    ((Query.count (q.given φ) fs).toOption.map PV.count) = ((Query.count q fs).toOption.map PV.count).map (PV.given φ) := by
  cases fs with
  | nil =>
    simp only [Query.count]
    cases field c!"*" <;> rfl
  | cons f fs =>
    simp only [Query.count]
    cases field f <;> rfl

theorem given_new (cs : List Cond) : (newGroup lAND []).addConditions lAND (cs.map (Cond.given φ)) =
    ((newGroup lAND []).addConditions lAND cs).given φ := by
  rw [← given_addConditions, ← given_newGroup]; rfl

theorem given_pure (ps : List PV) (c : Call) : (c.given φ).pure (ps.map (PV.given φ)) = (c.pure ps).map (PV.given φ) := by
  cases c with
  | leaf c =>
    simp only [Call.given, Call.pure, given_asGroup, Option.isSome_map]
    by_cases h : c.asGroup.isSome
    · rw [if_pos h, if_pos h]; rfl
    · rw [if_neg h, if_neg h]; rfl
  | newGroup j args =>
    simp only [Call.given, Call.pure, given_getConds]
    cases getConds ps args with
    | none => rfl
    | some cs => simp only [Option.map_some, given_newGroup, given_toCond, PV.given]
  | andF r args =>
    simp only [Call.given, Call.pure, given_getConds, List.getElem?_map]
    cases ps[r]? with
    | none => rfl
    | some p => cases p <;> cases getConds ps args <;> simp only [Option.map_some, Option.map_none, PV.given, given_andC]
  | orF r args =>
    simp only [Call.given, Call.pure, given_getConds, List.getElem?_map]
    cases ps[r]? with
    | none => rfl
    | some p => cases p <;> cases getConds ps args <;> simp only [Option.map_some, Option.map_none, PV.given, given_orC]
  | and r args =>
    simp only [Call.given, Call.pure, given_getConds, List.getElem?_map]
    cases ps[r]? with
    | none => rfl
    | some p => cases p <;> cases getConds ps args <;> simp only [Option.map_some, Option.map_none, PV.given, given_and]
  | or r args =>
    simp only [Call.given, Call.pure, given_getConds, List.getElem?_map]
    cases ps[r]? with
    | none => rfl
    | some p =>
      cases p <;> cases getConds ps args <;>
        simp only [Option.map_some, Option.map_none, PV.given, given_or, Option.map_map] <;> rfl
  | negate r n =>
    simp only [Call.given, Call.pure, List.getElem?_map]
    cases ps[r]? with
    | none => rfl
    | some p => cases p <;> simp only [Option.map_some, Option.map_none, PV.given, given_setNegate]
  | join r n =>
    simp only [Call.given, Call.pure, List.getElem?_map]
    cases ps[r]? with
    | none => rfl
    | some p => cases p <;> simp only [Option.map_some, Option.map_none, PV.given, given_join]
  | withBrackets r =>
    simp only [Call.given, Call.pure, List.getElem?_map]
    cases ps[r]? with
    | none => rfl
    | some p =>
      cases p with
      | cond c => cases c <;> simp only [Option.map_some, Option.map_none, PV.given, Cond.given]
      | _ => rfl
  | applySpec r n =>
    simp only [Call.given, Call.pure, List.getElem?_map]
    cases ps[r]? with
    | none => rfl
    | some p => cases p <;> simp only [Option.map_some, Option.map_none, PV.given, given_applySpec]
  | applyTable r n =>
    simp only [Call.given, Call.pure, List.getElem?_map]
    cases ps[r]? with
    | none => rfl
    | some p => cases p <;> simp only [Option.map_some, Option.map_none, PV.given, given_applyTable]
  | selectFrom p => exact given_selectFrom φ p
  | where_ r args =>
    simp only [Call.given, Call.pure, given_getConds, List.getElem?_map]
    cases ps[r]? with
    | none => rfl
    | some p =>
      cases p <;> cases getConds ps args <;>
        simp only [Option.map_some, Option.map_none, PV.given, SelectSingle.addWhere, SelectMany.addWhere, SelectMany.given, given_addWhere,
          UpdateB.addWhere, DeleteB.addWhere, Group.groupAND, given_addConditions]
  | on r l x =>
    simp only [Call.given, Call.pure, List.getElem?_map]
    cases ps[r]? with
    | none => rfl
    | some p =>
      cases p with
      | joinB q =>
        simp only [Option.map_some, PV.given, given_on, Option.map_map]; rfl
      | joinS q =>
        have := given_on φ q.base l x
        simp only [Option.map_some, PV.given, SelectSingle.on]
        revert this
        cases (q.base.given φ).on l x <;> cases q.base.on l x <;> intro this <;>
          simp only [Res.toOption, Option.map_some, Option.map_none, Option.some.injEq, reduceCtorEq] at this <;>
          simp only [Res.bind_ok, Res.bind_err, Res.bind_panic, Res.toOption, Option.map_some, Option.map_none, PV.given, this]
      | joinM q =>
        have := given_on φ q.base l x
        simp only [Option.map_some, PV.given, SelectMany.on, SelectMany.given]
        revert this
        cases (q.base.given φ).on l x <;> cases q.base.on l x <;> intro this <;>
          simp only [Res.toOption, Option.map_some, Option.map_none, Option.some.injEq, reduceCtorEq] at this <;>
          simp only [Res.bind_ok, Res.bind_err, Res.bind_panic, Res.toOption, Option.map_some, Option.map_none, PV.given, SelectMany.given, this]
      | _ => rfl
  | count r fs =>
    simp only [Call.given, Call.pure, List.getElem?_map]
    cases ps[r]? with
    | none => rfl
    | some p =>
      cases p with
      | base q => exact given_count φ q fs
      | many q => exact given_count φ q.base fs
      | _ => rfl
  | insertInto p => rfl
  | update p => rfl
  | delete p => rfl
  | insertFrom r vs =>
    simp only [Call.given, Call.pure, List.getElem?_map]
    cases ps[r]? with
    | none => rfl
    | some p => cases p <;> rfl
  | values r vs =>
    simp only [Call.given, Call.pure, List.getElem?_map]
    cases ps[r]? with
    | none => rfl
    | some p => cases p <;> simp only [Option.map_some, Option.map_none, PV.given, InsertB.addValues, List.map_append]
  | updateFrom r vs =>
    simp only [Call.given, Call.pure, List.getElem?_map]
    cases ps[r]? with
    | none => rfl
    | some p =>
      cases p <;> simp only [Option.map_some, Option.map_none, PV.given, BaseSelect.update, SelectSingle.update, SelectMany.update,
        SelectMany.given, BaseSelect.given, BaseSelect.tableName, UpdateB.set, UpdateB.addWhere, Query.update, WhereClause.conditions,
        Group.groupAND, List.map_append, List.map_nil, given_conds, given_new]
  | set r vs =>
    simp only [Call.given, Call.pure, List.getElem?_map]
    cases ps[r]? with
    | none => rfl
    | some p => cases p <;> simp only [Option.map_some, Option.map_none, PV.given, UpdateB.set, List.map_append]
  | deleteFrom r =>
    simp only [Call.given, Call.pure, List.getElem?_map]
    cases ps[r]? with
    | none => rfl
    | some p =>
      cases p <;> simp only [Option.map_some, Option.map_none, PV.given, BaseSelect.delete, SelectSingle.delete, SelectMany.delete,
        SelectMany.given, BaseSelect.given, BaseSelect.tableName, DeleteB.addWhere, Query.delete, WhereClause.conditions,
        Group.groupAND, given_conds, given_new]
  | fields r fs =>
    simp only [Call.given, Call.pure, List.getElem?_map]
    cases ps[r]? with
    | none => rfl
    | some p => cases p <;> rfl
  | joinTable r t j =>
    simp only [Call.given, Call.pure, List.getElem?_map]
    cases ps[r]? with
    | none => rfl
    | some p => cases p <;> rfl
  | single r =>
    simp only [Call.given, Call.pure, List.getElem?_map]
    cases ps[r]? with
    | none => rfl
    | some p => cases p <;> rfl
  | many r =>
    simp only [Call.given, Call.pure, List.getElem?_map]
    cases ps[r]? with
    | none => rfl
    | some p => cases p <;> rfl
  | embedded r =>
    simp only [Call.given, Call.pure, List.getElem?_map]
    cases ps[r]? with
    | none => rfl
    | some p => cases p <;> rfl
  | offset r n =>
    simp only [Call.given, Call.pure, List.getElem?_map]
    cases ps[r]? with
    | none => rfl
    | some p => cases p <;> rfl
  | limit r n =>
    simp only [Call.given, Call.pure, List.getElem?_map]
    cases ps[r]? with
    | none => rfl
    | some p => cases p <;> rfl
  | orderBy r os =>
    simp only [Call.given, Call.pure, List.getElem?_map]
    cases ps[r]? with
    | none => rfl
    | some p => cases p <;> rfl

theorem given_runPure (cs : List Call) (ps : List PV) :
    runPure (ps.map (PV.given φ)) (cs.map (Call.given φ)) = (runPure ps cs).map (List.map (PV.given φ)) := by
  induction cs generalizing ps with
  | nil => rfl
  | cons c cs ih =>
    simp only [List.map_cons, runPure, given_pure]
    cases c.pure ps with
    | none => rfl
    | some p =>
      have := ih (ps ++ [p])
      simp only [List.map_append, List.map_cons, List.map_nil] at this
      simp only [Option.map_some, this]

end Later
end Query
