import Verif.Proof.Later
/-! # Calls in memory do not look at values: lemmas -/
namespace Query
namespace Later

/-! ## Arrays -/

section
variable {α β : Type} (f : α → β)

/-- Every cell replaced. -/
def mp (st : Store α) : Store β := st.map (List.map f)

theorem mp_cells (st : Store α) (a : Nat) : Store.cells (mp f st) a = (st.cells a).map f := by
  simp only [Store.cells, mp, List.getElem?_map]
  cases st[a]? <;> rfl

theorem mp_read (st : Store α) (s : Sl) : Store.read (mp f st) s = (st.read s).map f := by
  simp only [Store.read, mp_cells, List.map_take]

theorem mp_length (st : Store α) : (mp f st).length = st.length := by simp [mp]

theorem mp_make (st : Store α) (xs : List α) : Store.make (mp f st) (xs.map f) = (mp f (st.make xs).1, (st.make xs).2) := by
  simp [Store.make, Store.alloc, mp]

theorem mp_append (gr : Grow) (st : Store α) (s : Sl) (xs : List α) :
    Store.append gr (mp f st) s (xs.map f) = (mp f (st.append gr s xs).1, (st.append gr s xs).2) := by
  simp only [Store.append, List.length_map]
  by_cases h : s.len + xs.length ≤ s.cap
  · rw [if_pos h, if_pos h]
    simp only [mp_cells]
    simp only [mp, writeAt, List.map_set, List.map_append, List.map_take, List.map_drop, List.length_map]
  · rw [if_neg h, if_neg h]
    simp only [mp_read, mp_length, Store.alloc, List.length_append, List.length_map]
    simp [mp]

theorem mp_write (st : Store α) (s : Sl) (i : Nat) (x : α) : Store.write (mp f st) s i (f x) = mp f (st.write s i x) := by
  simp only [Store.write, mp_cells]
  simp only [mp, List.map_set]

end

variable (φ : Val → Val)

/-- The condition cells replaced. -/
abbrev mc (st : Store HCond) : Store HCond := mp (HCond.given φ) st

/-- Both results replaced. -/
def mg (r : Store HCond × HGroup) : Store HCond × HGroup := (mc φ r.1, r.2)
/-- Both results replaced. -/
def mh (r : Store HCond × HCond) : Store HCond × HCond := (mc φ r.1, r.2.given φ)

/-! ## Conditions and groups -/

theorem hgiven_toCond (g : HGroup) : g.toCond.given φ = g.toCond := rfl

theorem hgiven_asGroup (c : HCond) : (c.given φ).asGroup = c.asGroup := by cases c <;> rfl

theorem hgiven_joinType (c : HCond) : (c.given φ).joinType = c.joinType := by
  cases c with
  | leaf c => exact given_joinType φ c
  | group b s br => rfl

theorem hgiven_join (c : HCond) (j : Str) : (c.given φ).join j = (c.join j).given φ := by
  cases c with
  | leaf c => simp only [HCond.given, HCond.join, given_join]
  | group b s br => rfl

theorem hgiven_setNegate (c : HCond) (n : Bool) : (c.given φ).setNegate n = (c.setNegate n).given φ := by
  cases c with
  | leaf c => simp only [HCond.given, HCond.setNegate, given_setNegate]
  | group b s br => rfl

theorem hgiven_newGroup (st : Store HCond) (j : Str) (cs : List HCond) :
    newGroupH (mc φ st) j (cs.map (HCond.given φ)) = mg φ (newGroupH st j cs) := by
  have : (cs.map (HCond.given φ)).map (·.join j) = (cs.map (·.join j)).map (HCond.given φ) := by
    simp only [List.map_map, Function.comp_def, hgiven_join]
  simp only [newGroupH, this, mp_make, mg]

theorem hgiven_hasAll (st : Store HCond) (g : HGroup) (j : Str) : g.hasAll (mc φ st) j = g.hasAll st j := by
  simp only [HGroup.hasAll, mp_read, ← List.map_drop, List.all_map, Function.comp_def, hgiven_joinType]

theorem hgiven_hasOne (st : Store HCond) (g : HGroup) (j : Str) : g.hasOne (mc φ st) j = g.hasOne st j := by
  simp only [HGroup.hasOne, mp_read, ← List.map_drop, List.any_map, Function.comp_def, hgiven_joinType]

theorem hgiven_app (gr : Grow) (st : Store HCond) (g : HGroup) (xs : List HCond) :
    g.app gr (mc φ st) (xs.map (HCond.given φ)) = mg φ (g.app gr st xs) := by
  simp only [HGroup.app, mp_append, mg]

theorem hgiven_app1 (gr : Grow) (st : Store HCond) (g : HGroup) (x : HCond) :
    g.app gr (mc φ st) [x.given φ] = mg φ (g.app gr st [x]) := hgiven_app φ gr st g [x]

theorem hgiven_appG (gr : Grow) (st : Store HCond) (g k : HGroup) :
    g.app gr (mc φ st) [k.toCond] = mg φ (g.app gr st [k.toCond]) := hgiven_app φ gr st g [k.toCond]

theorem hgiven_appJ (gr : Grow) (st : Store HCond) (g k : HGroup) (j : Str) :
    g.app gr (mc φ st) [k.toCond.join j] = mg φ (g.app gr st [k.toCond.join j]) := hgiven_app φ gr st g [k.toCond.join j]

theorem hgiven_lit (st : Store HCond) (g : HGroup) (xs : List HCond) :
    g.lit (mc φ st) (xs.map (HCond.given φ)) = mg φ (g.lit st xs) := by
  simp only [HGroup.lit, mp_make, mg]

theorem hgiven_litG (st : Store HCond) (g k : HGroup) : g.lit (mc φ st) [k.toCond] = mg φ (g.lit st [k.toCond]) :=
  hgiven_lit φ st g [k.toCond]

theorem hgiven_litGJ (st : Store HCond) (g k l : HGroup) (j : Str) : g.lit (mc φ st) [k.toCond, l.toCond.join j] =
    mg φ (g.lit st [k.toCond, l.toCond.join j]) := hgiven_lit φ st g [k.toCond, l.toCond.join j]

theorem hgiven_litGC (st : Store HCond) (g k : HGroup) (c : HCond) : g.lit (mc φ st) [k.toCond, c.given φ] =
    mg φ (g.lit st [k.toCond, c]) := hgiven_lit φ st g [k.toCond, c]

theorem hgiven_if {P : Prop} [Decidable P] (a b : Store HCond × HGroup) :
    mg φ (if P then a else b) = if P then mg φ a else mg φ b := by
  by_cases h : P
  · rw [if_pos h, if_pos h]
  · rw [if_neg h, if_neg h]

theorem mg_fst (r : Store HCond × HGroup) : (mg φ r).1 = mc φ r.1 := rfl
theorem mg_snd (r : Store HCond × HGroup) : (mg φ r).2 = r.2 := rfl
theorem mg_mk (st : Store HCond) (g : HGroup) : mg φ (st, g) = (mc φ st, g) := rfl

theorem hgiven_addGroup (gr : Grow) (st : Store HCond) (g a : HGroup) : g.addGroup gr (mc φ st) a = mg φ (g.addGroup gr st a) := by
  unfold HGroup.addGroup
  simp only [hgiven_hasAll, hgiven_hasOne, hgiven_if, mp_read, hgiven_app, hgiven_appG, hgiven_appJ, hgiven_litG, hgiven_litGJ, mg_fst,
    mg_snd, mg_mk]

theorem hgiven_addSingle (gr : Grow) (st : Store HCond) (g : HGroup) (c : HCond) :
    g.addSingleCondition gr (mc φ st) (c.given φ) = mg φ (g.addSingleCondition gr st c) := by
  unfold HGroup.addSingleCondition
  rw [hgiven_asGroup]
  cases h : c.asGroup with
  | some a => exact hgiven_addGroup φ gr st g a
  | none =>
    simp only [hgiven_hasAll, hgiven_joinType, hgiven_join, hgiven_if, hgiven_app1, hgiven_litGC, mg_fst, mg_snd, mg_mk]

theorem hgiven_addConditions (gr : Grow) (st : Store HCond) (g : HGroup) (op : Str) (cs : List HCond) :
    g.addConditions gr (mc φ st) op (cs.map (HCond.given φ)) = mg φ (g.addConditions gr st op cs) := by
  cases cs with
  | nil => rfl
  | cons c0 more =>
    unfold HGroup.addConditions
    have n : ∀ st j, newGroupH (mc φ st) j (c0.given φ :: more.map (HCond.given φ)) = mg φ (newGroupH st j (c0 :: more)) := fun st j =>
      hgiven_newGroup φ st j (c0 :: more)
    have a : ∀ st (k : HGroup), k.app gr (mc φ st) (c0.given φ :: more.map (HCond.given φ)) = mg φ (k.app gr st (c0 :: more)) :=
      fun st k => hgiven_app φ gr st k (c0 :: more)
    simp only [List.map_cons, hgiven_hasOne, hgiven_if, List.length_map, n, a, hgiven_join, hgiven_addSingle, hgiven_litG, hgiven_appG,
      hgiven_appJ, mg_fst, mg_snd, mg_mk]

theorem hgiven_groupOf (gr : Grow) (st : Store HCond) (j : Str) (c : HCond) (more : List HCond) :
    groupOf gr (mc φ st) j (c.given φ) (more.map (HCond.given φ)) = mh φ (groupOf gr st j c more) := by
  have n := hgiven_newGroup φ st j [c]
  simp only [List.map_cons, List.map_nil] at n
  simp only [groupOf, n, mg_fst, mg_snd, hgiven_addConditions, mh, hgiven_toCond]

theorem hgiven_andH (gr : Grow) (st : Store HCond) (c : HCond) (more : List HCond) :
    andH gr (mc φ st) (c.given φ) (more.map (HCond.given φ)) = mh φ (andH gr st c more) := by
  unfold andH
  rw [List.length_map, hgiven_asGroup]
  by_cases h : more.length = 0
  · rw [if_pos h, if_pos h, hgiven_join]; rfl
  · rw [if_neg h, if_neg h]
    cases c.asGroup with
    | some g => simp only [HGroup.groupAND, hgiven_addConditions, mg_fst, mg_snd, mh, hgiven_toCond]
    | none => exact hgiven_groupOf φ gr st lAND c more

theorem hgiven_orH (gr : Grow) (st : Store HCond) (c : HCond) (more : List HCond) :
    orH gr (mc φ st) (c.given φ) (more.map (HCond.given φ)) = mh φ (orH gr st c more) := by
  unfold orH
  rw [List.length_map, hgiven_asGroup]
  by_cases h : more.length = 0
  · rw [if_pos h, if_pos h, hgiven_join]; rfl
  · rw [if_neg h, if_neg h]
    cases c.asGroup with
    | some g => simp only [HGroup.groupOR, hgiven_addConditions, mg_fst, mg_snd, mh]; rfl
    | none => simp only [hgiven_groupOf, mh, hgiven_join]

theorem hgiven_and (gr : Grow) (st : Store HCond) (c : HCond) (more : List HCond) :
    (c.given φ).and gr (mc φ st) (more.map (HCond.given φ)) = mh φ (c.and gr st more) := by
  have g := hgiven_groupOf φ gr st lAND c more
  have a := hgiven_andH φ gr st c more
  cases c with
  | leaf c =>
    cases c with
    | fieldc k b fv => cases k <;> first | exact g | exact a
    | null b fd => exact g
    | custom b x => exact a
    | group b cs br => exact a
  | group b s br =>
    simp only [HCond.given, HCond.and, HGroup.groupAND, hgiven_addConditions, mg_fst, mg_snd, mh]
    rfl

theorem hgiven_or (gr : Grow) (st : Store HCond) (c : HCond) (more : List HCond) :
    ((c.given φ).or gr (mc φ st) (more.map (HCond.given φ))).toOption = (c.or gr st more).toOption.map (mh φ) := by
  have g := congrArg some (hgiven_groupOf φ gr st lOR c more)
  have a := congrArg some (hgiven_orH φ gr st c more)
  cases c with
  | leaf c =>
    cases c with
    | fieldc k b fv => cases k <;> first | exact g | exact a
    | null b fd => rfl
    | custom b x => exact a
    | group b cs br => exact a
  | group b s br =>
    simp only [HCond.given, HCond.or, HGroup.groupOR, hgiven_addConditions, mg_fst, mg_snd, mh, Res.toOption, Option.map_some]
    rfl

/-! ## ApplyFieldSpec and ApplyFieldTable -/

theorem hgiven_applyLoop (s : Sl) (f : Store HCond → HCond → Option (Store HCond × HCond))
    (hf : ∀ st c, f (mc φ st) (c.given φ) = (f st c).map (mh φ)) (is : List Nat) (st : Store HCond) :
    applyLoop s f is (mc φ st) = (applyLoop s f is st).map (mc φ) := by
  induction is generalizing st with
  | nil => rfl
  | cons i is ih =>
    simp only [applyLoop, mp_cells, List.getElem?_map]
    cases (st.cells s.arr)[i]? with
    | none => rfl
    | some c =>
      simp only [Option.map_some, hf]
      cases f st c with
      | none => rfl
      | some r => simp only [Option.map_some, Option.bind_some, mh, mp_write, ih]

theorem hgiven_applySpec (spec : FieldDef) (d : Nat) (st : Store HCond) (c : HCond) :
    applySpecH d (mc φ st) spec (c.given φ) = (applySpecH d st spec c).map (mh φ) := by
  induction d generalizing st c with
  | zero =>
    cases c with
    | leaf c => simp only [HCond.given, applySpecH, given_applySpec, Option.map_some, mh]
    | group b s br => rfl
  | succ d ih =>
    cases c with
    | leaf c => simp only [HCond.given, applySpecH, given_applySpec, Option.map_some, mh]
    | group b s br =>
      simp only [HCond.given, applySpecH, hgiven_applyLoop φ s (fun st c => applySpecH d st spec c) ih, Option.map_map]
      rfl

theorem hgiven_applyTable (t : Str) (d : Nat) (st : Store HCond) (c : HCond) :
    applyTableH d (mc φ st) t (c.given φ) = (applyTableH d st t c).map (mh φ) := by
  induction d generalizing st c with
  | zero =>
    cases c with
    | leaf c => simp only [HCond.given, applyTableH, given_applyTable, Option.map_some, mh]
    | group b s br => rfl
  | succ d ih =>
    cases c with
    | leaf c => simp only [HCond.given, applyTableH, given_applyTable, Option.map_some, mh]
    | group b s br =>
      simp only [HCond.given, applyTableH, hgiven_applyLoop φ s (fun st c => applyTableH d st t c) ih, Option.map_map]
      rfl

/-! ## Builders -/

/-- The value cells replaced. -/
abbrev mv (st : Store FieldValue) : Store FieldValue := mp (FieldValue.given φ) st

/-- Memory and a builder, which holds no values itself. -/
def mm {α : Type} (r : Mem × α) : Mem × α := (r.1.given φ, r.2)

theorem mem_conds (m : Mem) : (m.given φ).conds = mc φ m.conds := rfl
theorem mem_vals (m : Mem) : (m.given φ).vals = mv φ m.vals := rfl

theorem hgiven_empty (st : Store HCond) (j : Str) : newGroupH (mc φ st) j [] = mg φ (newGroupH st j []) := hgiven_newGroup φ st j []

theorem hgiven_selectFrom (m : Mem) (p : TableParam) : (selectFromH (m.given φ) p).toOption = (selectFromH m p).toOption.map (mm φ) := by
  simp only [selectFromH]
  cases tableP p with
  | ok t => simp only [Res.bind_ok, mem_conds, hgiven_empty]; rfl
  | err e => rfl
  | panic e => rfl

theorem make_nil {α β : Type} (f : α → β) (st : Store α) : Store.make (mp f st) [] = (mp f (st.make []).1, (st.make []).2) :=
  mp_make f st []

theorem hgiven_zeroBase (m : Mem) : zeroBaseH (m.given φ) = mm φ (zeroBaseH m) := by
  simp only [zeroBaseH, mem_conds, make_nil]
  rfl

theorem hgiven_baseWhere (pol : Policy) (m : Mem) (q : HBase) (cs : List HCond) :
    q.addWhere pol (m.given φ) (cs.map (HCond.given φ)) = mm φ (q.addWhere pol m cs) := by
  simp only [HBase.addWhere, HGroup.groupAND, mem_conds, hgiven_addConditions]
  rfl

theorem hgiven_baseOn (m : Mem) (q : HBase) (l r : FieldDef) :
    (q.on (m.given φ) l r).toOption = (q.on m l r).toOption.map (mm φ) := by
  have e : (m.given φ).joins = m.joins := rfl
  simp only [HBase.on, e]
  cases (Store.read m.joins q.joins)[q.joins.len - 1]? <;> rfl

theorem hgiven_updateH (m : Mem) (p : TableParam) : updateH (m.given φ) p = mm φ (updateH m p) := by
  simp only [updateH, mem_conds, mem_vals, make_nil, hgiven_empty]
  rfl

theorem hgiven_deleteH (m : Mem) (p : TableParam) : deleteH (m.given φ) p = mm φ (deleteH m p) := by
  simp only [deleteH, mem_conds, hgiven_empty]
  rfl

theorem hgiven_insertH (m : Mem) (p : TableParam) : insertIntoH (m.given φ) p = mm φ (insertIntoH m p) := by
  simp only [insertIntoH, mem_vals, make_nil]
  rfl

theorem hgiven_addValues (pol : Policy) (m : Mem) (q : HInsert) (vs : List FieldValue) :
    q.addValues pol (m.given φ) (vs.map (FieldValue.given φ)) = mm φ (q.addValues pol m vs) := by
  simp only [HInsert.addValues, mem_vals, mp_append]
  rfl

theorem hgiven_set (pol : Policy) (m : Mem) (q : HUpdate) (vs : List FieldValue) :
    q.set pol (m.given φ) (vs.map (FieldValue.given φ)) = mm φ (q.set pol m vs) := by
  simp only [HUpdate.set, mem_vals, mp_append]
  rfl

theorem hgiven_updWhere (pol : Policy) (m : Mem) (q : HUpdate) (cs : List HCond) :
    q.addWhere pol (m.given φ) (cs.map (HCond.given φ)) = mm φ (q.addWhere pol m cs) := by
  simp only [HUpdate.addWhere, HGroup.groupAND, mem_conds, hgiven_addConditions]
  rfl

theorem hgiven_delWhere (pol : Policy) (m : Mem) (q : HDelete) (cs : List HCond) :
    q.addWhere pol (m.given φ) (cs.map (HCond.given φ)) = mm φ (q.addWhere pol m cs) := by
  simp only [HDelete.addWhere, HGroup.groupAND, mem_conds, hgiven_addConditions]
  rfl

theorem hgiven_conditions (m : Mem) (q : HBase) : q.conditions (m.given φ) = mm φ (q.conditions m) := by
  simp only [HBase.conditions, mem_conds, mp_read, mp_make]
  rfl

theorem mm_fst {α : Type} (r : Mem × α) : (mm φ r).1 = r.1.given φ := rfl
theorem mm_snd {α : Type} (r : Mem × α) : (mm φ r).2 = r.2 := rfl

theorem hgiven_baseUpdate (pol : Policy) (m : Mem) (q : HBase) (p : TableParam) (vs : List FieldValue) :
    q.update pol (m.given φ) p (vs.map (FieldValue.given φ)) = mm φ (q.update pol m p vs) := by
  simp only [HBase.update, hgiven_conditions, mm_fst, mm_snd, hgiven_updateH, mem_conds, mp_read, hgiven_updWhere, hgiven_set]

theorem hgiven_baseDelete (pol : Policy) (m : Mem) (q : HBase) (p : TableParam) :
    q.delete pol (m.given φ) p = mm φ (q.delete pol m p) := by
  simp only [HBase.delete, hgiven_conditions, mm_fst, mm_snd, hgiven_deleteH, mem_conds, mp_read, hgiven_delWhere]

theorem hgiven_depth (m : Mem) : (m.given φ).depth = m.depth := by
  simp only [Mem.depth, Mem.given, List.map_map, Function.comp_def, List.length_map]

theorem hgiven_getConds (hs : List HV) (is : List Nat) :
    getCondsH (hs.map (HV.given φ)) is = (getCondsH hs is).map (List.map (HCond.given φ)) := by
  induction is with
  | nil => rfl
  | cons i is ih =>
    simp only [getCondsH, List.getElem?_map, ih]
    cases hs[i]? with
    | none => rfl
    | some p =>
      cases p <;> cases getCondsH hs is <;> rfl

/-- Memory and value replaced. -/
def mx (r : Mem × HV) : Mem × HV := (r.1.given φ, r.2.given φ)

theorem hgiven_heap (pol : Policy) (m : Mem) (hs : List HV) (c : Call) :
    (c.given φ).heap pol (m.given φ) (hs.map (HV.given φ)) = (c.heap pol m hs).map (mx φ) := by
  cases c with
  | leaf c =>
    simp only [Call.given, Call.heap, given_asGroup, Option.isSome_map]
    by_cases h : c.asGroup.isSome
    · rw [if_pos h, if_pos h]; rfl
    · rw [if_neg h, if_neg h]; rfl
  | newGroup j args =>
    simp only [Call.given, Call.heap, hgiven_getConds]
    cases getCondsH hs args with
    | none => rfl
    | some cs => simp only [Option.map_some, mem_conds, hgiven_newGroup]; rfl
  | andF r args =>
    simp only [Call.given, Call.heap, hgiven_getConds, List.getElem?_map]
    cases hs[r]? with
    | none => rfl
    | some p =>
      cases p <;> cases getCondsH hs args <;> simp only [Option.map_some, Option.map_none, HV.given, mem_conds, hgiven_andH] <;> rfl
  | orF r args =>
    simp only [Call.given, Call.heap, hgiven_getConds, List.getElem?_map]
    cases hs[r]? with
    | none => rfl
    | some p =>
      cases p <;> cases getCondsH hs args <;> simp only [Option.map_some, Option.map_none, HV.given, mem_conds, hgiven_orH] <;> rfl
  | and r args =>
    simp only [Call.given, Call.heap, hgiven_getConds, List.getElem?_map]
    cases hs[r]? with
    | none => rfl
    | some p =>
      cases p <;> cases getCondsH hs args <;> simp only [Option.map_some, Option.map_none, HV.given, mem_conds, hgiven_and] <;> rfl
  | or r args =>
    simp only [Call.given, Call.heap, hgiven_getConds, List.getElem?_map]
    cases hs[r]? with
    | none => rfl
    | some p =>
      cases p <;> cases getCondsH hs args <;>
        simp only [Option.map_some, Option.map_none, HV.given, mem_conds, hgiven_or, Option.map_map] <;> rfl
  | negate r n =>
    simp only [Call.given, Call.heap, List.getElem?_map]
    cases hs[r]? with
    | none => rfl
    | some p => cases p <;> simp only [Option.map_some, Option.map_none, HV.given, hgiven_setNegate, mx]
  | join r n =>
    simp only [Call.given, Call.heap, List.getElem?_map]
    cases hs[r]? with
    | none => rfl
    | some p => cases p <;> simp only [Option.map_some, Option.map_none, HV.given, hgiven_join, mx]
  | withBrackets r =>
    simp only [Call.given, Call.heap, List.getElem?_map]
    cases hs[r]? with
    | none => rfl
    | some p =>
      cases p with
      | cond c => cases c <;> rfl
      | _ => rfl
  | applySpec r n =>
    simp only [Call.given, Call.heap, List.getElem?_map]
    cases hs[r]? with
    | none => rfl
    | some p =>
      cases p <;> simp only [Option.map_some, Option.map_none, HV.given, hgiven_depth, mem_conds, hgiven_applySpec, Option.map_map] <;> rfl
  | applyTable r n =>
    simp only [Call.given, Call.heap, List.getElem?_map]
    cases hs[r]? with
    | none => rfl
    | some p =>
      cases p <;> simp only [Option.map_some, Option.map_none, HV.given, hgiven_depth, mem_conds, hgiven_applyTable, Option.map_map] <;> rfl
  | selectFrom p =>
    simp only [Call.given, Call.heap, hgiven_selectFrom, Option.map_map]
    rfl
  | fields r fs =>
    simp only [Call.given, Call.heap, List.getElem?_map, hgiven_zeroBase]
    cases hs[r]? with
    | none => rfl
    | some p => cases p <;> rfl
  | where_ r args =>
    simp only [Call.given, Call.heap, hgiven_getConds, List.getElem?_map]
    cases hs[r]? with
    | none => rfl
    | some p =>
      cases p <;> cases getCondsH hs args <;>
        simp only [Option.map_some, Option.map_none, HV.given, hgiven_baseWhere, hgiven_updWhere, hgiven_delWhere] <;> rfl
  | on r l x =>
    simp only [Call.given, Call.heap, List.getElem?_map]
    cases hs[r]? with
    | none => rfl
    | some p => cases p <;> simp only [Option.map_some, Option.map_none, HV.given, hgiven_baseOn, Option.map_map] <;> rfl
  | count r fs =>
    simp only [Call.given, Call.heap, List.getElem?_map]
    cases hs[r]? with
    | none => rfl
    | some p => cases p <;> simp only [Option.map_some, Option.map_none, HV.given, Option.map_map] <;> rfl
  | insertInto p => simp only [Call.given, Call.heap, hgiven_insertH]; rfl
  | update p => simp only [Call.given, Call.heap, hgiven_updateH]; rfl
  | delete p => simp only [Call.given, Call.heap, hgiven_deleteH]; rfl
  | insertFrom r vs =>
    simp only [Call.given, Call.heap, List.getElem?_map]
    cases hs[r]? with
    | none => rfl
    | some p =>
      cases p <;> simp only [Option.map_some, Option.map_none, HV.given, hgiven_insertH, mm_fst, mm_snd, hgiven_addValues] <;> rfl
  | values r vs =>
    simp only [Call.given, Call.heap, List.getElem?_map]
    cases hs[r]? with
    | none => rfl
    | some p => cases p <;> simp only [Option.map_some, Option.map_none, HV.given, hgiven_addValues] <;> rfl
  | updateFrom r vs =>
    simp only [Call.given, Call.heap, List.getElem?_map]
    cases hs[r]? with
    | none => rfl
    | some p => cases p <;> simp only [Option.map_some, Option.map_none, HV.given, hgiven_baseUpdate] <;> rfl
  | set r vs =>
    simp only [Call.given, Call.heap, List.getElem?_map]
    cases hs[r]? with
    | none => rfl
    | some p => cases p <;> simp only [Option.map_some, Option.map_none, HV.given, hgiven_set] <;> rfl
  | deleteFrom r =>
    simp only [Call.given, Call.heap, List.getElem?_map]
    cases hs[r]? with
    | none => rfl
    | some p => cases p <;> simp only [Option.map_some, Option.map_none, HV.given, hgiven_baseDelete] <;> rfl
  | joinTable r t j =>
    simp only [Call.given, Call.heap, List.getElem?_map]
    cases hs[r]? with
    | none => rfl
    | some p => cases p <;> rfl
  | single r =>
    simp only [Call.given, Call.heap, List.getElem?_map]
    cases hs[r]? with
    | none => rfl
    | some p => cases p <;> rfl
  | many r =>
    simp only [Call.given, Call.heap, List.getElem?_map]
    cases hs[r]? with
    | none => rfl
    | some p => cases p <;> rfl
  | embedded r =>
    simp only [Call.given, Call.heap, List.getElem?_map]
    cases hs[r]? with
    | none => rfl
    | some p => cases p <;> rfl
  | offset r n =>
    simp only [Call.given, Call.heap, List.getElem?_map]
    cases hs[r]? with
    | none => rfl
    | some p => cases p <;> rfl
  | limit r n =>
    simp only [Call.given, Call.heap, List.getElem?_map]
    cases hs[r]? with
    | none => rfl
    | some p => cases p <;> rfl
  | orderBy r os =>
    simp only [Call.given, Call.heap, List.getElem?_map]
    cases hs[r]? with
    | none => rfl
    | some p => cases p <;> rfl

theorem hgiven_runHeap (pol : Policy) (cs : List Call) (m : Mem) (hs : List HV) :
    runHeap pol (m.given φ) (hs.map (HV.given φ)) (cs.map (Call.given φ)) =
      (runHeap pol m hs cs).map fun x => (x.1.given φ, x.2.map (HV.given φ)) := by
  induction cs generalizing m hs with
  | nil => rfl
  | cons c cs ih =>
    simp only [List.map_cons, runHeap, hgiven_heap]
    cases c.heap pol m hs with
    | none => rfl
    | some x =>
      have := ih x.1 (hs ++ [x.2])
      simp only [List.map_append, List.map_cons, List.map_nil] at this
      simp only [Option.map_some, mx, this]

end Later
end Query
