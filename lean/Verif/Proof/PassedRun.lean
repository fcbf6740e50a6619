import Verif.Proof.PassedLook
/-!
# Programs that pass lists: what holds after every step
-/
namespace Query
open Store

/-- The arrays of the lists. -/
def listsOf (ls : List Lst) : Lists := ⟨inConds ls, inDefs ls, inSorts ls, inVals ls⟩

/-- Kind and array of a list. -/
def Lst.key : Lst → Nat × Nat
  | .conds s => (0, s.arr)
  | .defs s => (1, s.arr)
  | .sorts s => (2, s.arr)
  | .vals s => (3, s.arr)

/-- The list is all of its array. -/
def Lst.Fit (m : Mem) : Lst → Prop
  | .conds l => l.arr < m.conds.length ∧ (m.conds.cells l.arr).length = l.len
  | .defs l => l.arr < m.defs.length ∧ (m.defs.cells l.arr).length = l.len
  | .sorts l => l.arr < m.sorts.length ∧ (m.sorts.cells l.arr).length = l.len
  | .vals l => l.arr < m.vals.length ∧ (m.vals.cells l.arr).length = l.len

structure PInv (s : Prog) (L : List PLst) : Prop where
  stb : StB s.mem.conds
  bnd : ∀ (i : Nat) (h : HV), s.hs[i]? = some h → h.bnd s.mem
  away : AwayM (listsOf s.ls) s.mem
  off : ∀ (i : Nat) (h : HV), s.hs[i]? = some h → h.off (listsOf s.ls)
  fit : ∀ l ∈ s.ls, l.Fit s.mem
  apart : (s.ls.map Lst.key).Nodup
  len : s.ls.length = L.length
  holds : ∀ (u : Nat) (l : Lst) (pl : PLst), s.ls[u]? = some l → L[u]? = some pl → l.Holds s pl

/-- The call that a step makes. -/
def PStep.asCall (L : List PLst) (p : PStep) : Option Call :=
  match p.spell [] L with
  | some (some c, _) => some c
  | _ => none

/-- Making a list or writing into one. -/
def PStep.onList : PStep → Bool
  | .listConds _ | .listDefs _ | .listSorts _ | .listVals _ => true
  | p => p.isPut

/-- What the lists hold after a step. -/
def PStep.lists (L : List PLst) : PStep → List PLst
  | .listConds ns => L ++ [.conds ns]
  | .listDefs fs => L ++ [.defs fs]
  | .listSorts os => L ++ [.sorts os]
  | .listVals vs => L ++ [.vals vs]
  | .putCond u i n =>
    match L[u]? with
    | some (.conds ns) => L.set u (.conds (ns.set i n))
    | _ => L
  | .putDef u i f =>
    match L[u]? with
    | some (.defs fs) => L.set u (.defs (fs.set i f))
    | _ => L
  | .putSort u i o =>
    match L[u]? with
    | some (.sorts os) => L.set u (.sorts (os.set i o))
    | _ => L
  | .putVal u i v =>
    match L[u]? with
    | some (.vals vs) => L.set u (.vals (vs.set i v))
    | _ => L
  | _ => L

/-! ## Calls with a list are calls -/

section
variable {α : Type} {st : Store α} {l : Sl}

theorem read_all (h : (st.cells l.arr).length = l.len) : st.read l = st.cells l.arr := by
  simp only [Store.read]; rw [← h, List.take_length]

theorem read_make_ne (xs : List α) (h : l.arr < st.length) : (st.make xs).1.read l = st.read l := by
  simp only [Store.read, Store.cells, Store.make, Store.alloc]; rw [List.getElem?_append_left h]

end

theorem addConditionsL_eq (gr : Grow) (st : Store HCond) (g : HGroup) (op : Str) (l : Sl) (h : l.arr < st.length) :
    g.addConditionsL gr st op l = g.addConditions gr st op (st.read l) := by
  have e : ∀ c, (g.lit st [c]).1.read l = st.read l := fun c => read_make_ne _ h
  unfold HGroup.addConditionsL HGroup.addConditions
  cases hr : st.read l with
  | nil => rfl
  | cons c0 more =>
    simp only [HGroup.appL, HGroup.app, Store.appendS, newGroupL, newGroupH, e, hr]

theorem isEmpty_read {st : Store HCond} {l : Sl} (h : (st.cells l.arr).length = l.len) : (st.read l).length = l.len := by
  rw [read_all h, h]

theorem groupOfL_eq (gr : Grow) (st : Store HCond) (j : Str) (c : HCond) (l : Sl) (h : l.arr < st.length) :
    groupOfL gr st j c l = groupOf gr st j c (st.read l) := by
  have h' : l.arr < (newGroupH st j [c]).1.length := by simp only [newGroupH, Store.make, Store.alloc, List.length_append]; omega
  have e : (newGroupH st j [c]).1.read l = st.read l := read_make_ne _ h
  simp only [groupOfL, groupOf, addConditionsL_eq _ _ _ _ _ h', e]

section
variable {st : Store HCond} {l : Sl}

theorem andHL_eq (gr : Grow) (c : HCond) (h : l.arr < st.length) (hl : (st.cells l.arr).length = l.len) :
    andHL gr st c l = andH gr st c (st.read l) := by
  simp only [andHL, andH, isEmpty_read hl, HGroup.groupANDL, HGroup.groupAND, addConditionsL_eq _ _ _ _ _ h, groupOfL_eq _ _ _ _ _ h]
  rfl

theorem orHL_eq (gr : Grow) (c : HCond) (h : l.arr < st.length) (hl : (st.cells l.arr).length = l.len) :
    orHL gr st c l = orH gr st c (st.read l) := by
  simp only [orHL, orH, isEmpty_read hl, HGroup.groupORL, HGroup.groupOR, addConditionsL_eq _ _ _ _ _ h, groupOfL_eq _ _ _ _ _ h]
  rfl

theorem andL_eq (gr : Grow) (c : HCond) (h : l.arr < st.length) (hl : (st.cells l.arr).length = l.len) :
    c.andL gr st l = c.and gr st (st.read l) := by
  unfold HCond.andL HCond.and
  split <;> simp only [groupOfL_eq _ _ _ _ _ h, andHL_eq gr _ h hl, HGroup.groupANDL, HGroup.groupAND, addConditionsL_eq _ _ _ _ _ h]

theorem orL_eq (gr : Grow) (c : HCond) (h : l.arr < st.length) (hl : (st.cells l.arr).length = l.len) :
    c.orL gr st l = c.or gr st (st.read l) := by
  unfold HCond.orL HCond.or
  split <;> simp only [groupOfL_eq _ _ _ _ _ h, orHL_eq gr _ h hl, HGroup.groupORL, HGroup.groupOR, addConditionsL_eq _ _ _ _ _ h]

end

section
variable {m : Mem} {l : Sl}

theorem whereL_eq (pol : Policy) (q : HBase) (h : l.arr < m.conds.length) : q.addWhereL pol m l = q.addWhere pol m (m.conds.read l) := by
  simp only [HBase.addWhereL, HBase.addWhere, HGroup.groupANDL, HGroup.groupAND, addConditionsL_eq _ _ _ _ _ h]

theorem whereUL_eq (pol : Policy) (q : HUpdate) (h : l.arr < m.conds.length) : q.addWhereL pol m l = q.addWhere pol m (m.conds.read l) := by
  simp only [HUpdate.addWhereL, HUpdate.addWhere, HGroup.groupANDL, HGroup.groupAND, addConditionsL_eq _ _ _ _ _ h]

theorem whereDL_eq (pol : Policy) (q : HDelete) (h : l.arr < m.conds.length) : q.addWhereL pol m l = q.addWhere pol m (m.conds.read l) := by
  simp only [HDelete.addWhereL, HDelete.addWhere, HGroup.groupANDL, HGroup.groupAND, addConditionsL_eq _ _ _ _ _ h]

theorem zero_fields (h : l.arr < m.defs.length) : (zeroBaseH m).2.setFieldsL (zeroBaseH m).1 l = (zeroBaseH m).2.setFields (zeroBaseH m).1 (m.defs.read l) := by
  have : (zeroBaseH m).1.defs.read l = m.defs.read l := read_make_ne _ h
  simp only [HBase.setFieldsL, HBase.setFields, this]

theorem insert_vals (pol : Policy) (p : TableParam) (h : l.arr < m.vals.length) :
    (insertIntoH m p).2.addValuesL pol (insertIntoH m p).1 l = (insertIntoH m p).2.addValues pol (insertIntoH m p).1 (m.vals.read l) := by
  have : (insertIntoH m p).1.vals.read l = m.vals.read l := read_make_ne _ h
  simp only [HInsert.addValuesL, HInsert.addValues, Store.appendS, this]

theorem updateL_eq (pol : Policy) (q : HBase) (p : TableParam) (h : l.arr < m.vals.length) :
    q.updateL pol m p l = q.update pol m p (m.vals.read l) := by
  have e : (updateH (q.conditions m).1 p).1.vals.read l = m.vals.read l := read_make_ne _ h
  have hc : (q.conditions m).2.arr < (updateH (q.conditions m).1 p).1.conds.length := by
    simp only [HBase.conditions, updateH, newGroupH, Store.make, Store.alloc, List.length_append]
    simp; omega
  simp only [HBase.updateL, HBase.update, whereUL_eq pol _ hc, HUpdate.setL, HUpdate.set, Store.appendS, HUpdate.addWhere, e]

end

variable {s : Prog} {L : List PLst}

theorem PInv.at (inv : PInv s L) (u : Nat) : (s.ls[u]? = none ∧ L[u]? = none) ∨
    ∃ l pl, s.ls[u]? = some l ∧ L[u]? = some pl ∧ l.Holds s pl ∧ l.Fit s.mem := by
  by_cases h : u < s.ls.length
  · have h' : u < L.length := by rw [← inv.len]; exact h
    have e1 := List.getElem?_eq_getElem h
    have e2 := List.getElem?_eq_getElem h'
    exact .inr ⟨_, _, e1, e2, inv.holds u _ _ e1 e2, inv.fit _ (List.mem_of_getElem? e1)⟩
  · exact .inl ⟨List.getElem?_eq_none (by omega), List.getElem?_eq_none (by rw [← inv.len]; omega)⟩

/-- The kind of a list and what it holds. -/
theorem PInv.kind (inv : PInv s L) (u : Nat) : s.ls[u]? = none ∧ L[u]? = none ∨
      (∃ (l : Sl) (ns : List Nat), s.ls[u]? = some (Lst.conds l) ∧ L[u]? = some (PLst.conds ns) ∧ getCondsH s.hs ns = some (s.mem.conds.read l) ∧
        l.arr < s.mem.conds.length ∧ (s.mem.conds.cells l.arr).length = l.len) ∨
      (∃ l : Sl, s.ls[u]? = some (Lst.defs l) ∧ L[u]? = some (PLst.defs (s.mem.defs.read l)) ∧ l.arr < s.mem.defs.length) ∨
      (∃ l : Sl, s.ls[u]? = some (Lst.sorts l) ∧ L[u]? = some (PLst.sorts (s.mem.sorts.read l)) ∧ l.arr < s.mem.sorts.length) ∨
      (∃ l : Sl, s.ls[u]? = some (Lst.vals l) ∧ L[u]? = some (PLst.vals (s.mem.vals.read l)) ∧ l.arr < s.mem.vals.length) := by
  have conds : ∀ (u : Nat) (l : Sl), s.ls[u]? = some (.conds l) → ∃ ns, L[u]? = some (.conds ns) ∧
      getCondsH s.hs ns = some (s.mem.conds.read l) ∧ l.arr < s.mem.conds.length ∧ (s.mem.conds.cells l.arr).length = l.len := by
    intro u l h
    rcases inv.at u with ⟨e, _⟩ | ⟨l', pl, e1, e2, e3, e4⟩
    · rw [h] at e; cases e
    · rw [h] at e1; cases e1
      cases pl <;> first | exact ⟨_, e2, e3, e4⟩ | exact e3.elim
  have defs : ∀ (u : Nat) (l : Sl), s.ls[u]? = some (.defs l) → L[u]? = some (.defs (s.mem.defs.read l)) ∧ l.arr < s.mem.defs.length := by
    intro u l h
    rcases inv.at u with ⟨e, _⟩ | ⟨l', pl, e1, e2, e3, e4⟩
    · rw [h] at e; cases e
    · rw [h] at e1; cases e1
      cases pl <;> first | (rw [e2, ← show _ = _ from e3]; exact ⟨rfl, e4.1⟩) | exact e3.elim
  have sorts : ∀ (u : Nat) (l : Sl), s.ls[u]? = some (.sorts l) → L[u]? = some (.sorts (s.mem.sorts.read l)) ∧ l.arr < s.mem.sorts.length := by
    intro u l h
    rcases inv.at u with ⟨e, _⟩ | ⟨l', pl, e1, e2, e3, e4⟩
    · rw [h] at e; cases e
    · rw [h] at e1; cases e1
      cases pl <;> first | (rw [e2, ← show _ = _ from e3]; exact ⟨rfl, e4.1⟩) | exact e3.elim
  have vals : ∀ (u : Nat) (l : Sl), s.ls[u]? = some (.vals l) → L[u]? = some (.vals (s.mem.vals.read l)) ∧ l.arr < s.mem.vals.length := by
    intro u l h
    rcases inv.at u with ⟨e, _⟩ | ⟨l', pl, e1, e2, e3, e4⟩
    · rw [h] at e; cases e
    · rw [h] at e1; cases e1
      cases pl <;> first | (rw [e2, ← show _ = _ from e3]; exact ⟨rfl, e4.1⟩) | exact e3.elim
  cases h : s.ls[u]? with
  | none =>
    rcases inv.at u with ⟨_, e⟩ | ⟨l', pl, e1, _⟩
    · exact .inl ⟨rfl, e⟩
    · rw [h] at e1; cases e1
  | some l =>
    cases l with
    | conds l => obtain ⟨ns, e⟩ := conds u l h; exact .inr (.inl ⟨l, ns, rfl, e⟩)
    | defs l => exact .inr (.inr (.inl ⟨l, rfl, defs u l h⟩))
    | sorts l => exact .inr (.inr (.inr (.inl ⟨l, rfl, sorts u l h⟩)))
    | vals l => exact .inr (.inr (.inr (.inr ⟨l, rfl, vals u l h⟩)))

/-- The step is the call that it makes. -/
def Called (pol : Policy) (s : Prog) (L : List PLst) (p : PStep) : Prop :=
  p.run pol s = (p.asCall L).bind fun c => (c.heap pol s.mem s.hs).map s.made

theorem called_newGroup (pol : Policy) (inv : PInv s L) (j : Str) (u : Nat) : Called pol s L (.newGroup j u) := by
  simp only [Called, PStep.run, PStep.asCall, PStep.spell]
  rcases inv.kind u with ⟨e1, e2⟩ | ⟨l, ns, e1, e2, e3, e4, e5⟩ | ⟨l, e1, e2, e3⟩ | ⟨l, e1, e2, e3⟩ | ⟨l, e1, e2, e3⟩ <;> simp only [e1, e2]
  · rfl
  · simp only [Option.bind_some, Call.heap, e3]; rfl
  · rfl
  · rfl
  · rfl

theorem called_andF (pol : Policy) (inv : PInv s L) (r u : Nat) : Called pol s L (.andF r u) := by
  simp only [Called, PStep.run, PStep.asCall, PStep.spell]
  rcases inv.kind u with ⟨e1, e2⟩ | ⟨l, ns, e1, e2, e3, e4, e5⟩ | ⟨l, e1, e2, e3⟩ | ⟨l, e1, e2, e3⟩ | ⟨l, e1, e2, e3⟩ <;> simp only [e1, e2]
  · cases hr : s.hs[r]? with
    | none => rfl
    | some h => cases h <;> rfl
  · cases hr : s.hs[r]? with
    | none => simp only [Option.bind_some, Call.heap, hr]; rfl
    | some h => cases h <;> simp only [Option.bind_some, Call.heap, hr, e3, andHL_eq _ _ e4 e5] <;> rfl
  · cases hr : s.hs[r]? with
    | none => rfl
    | some h => cases h <;> rfl
  · cases hr : s.hs[r]? with
    | none => rfl
    | some h => cases h <;> rfl
  · cases hr : s.hs[r]? with
    | none => rfl
    | some h => cases h <;> rfl

theorem called_orF (pol : Policy) (inv : PInv s L) (r u : Nat) : Called pol s L (.orF r u) := by
  simp only [Called, PStep.run, PStep.asCall, PStep.spell]
  rcases inv.kind u with ⟨e1, e2⟩ | ⟨l, ns, e1, e2, e3, e4, e5⟩ | ⟨l, e1, e2, e3⟩ | ⟨l, e1, e2, e3⟩ | ⟨l, e1, e2, e3⟩ <;> simp only [e1, e2]
  · cases hr : s.hs[r]? with
    | none => rfl
    | some h => cases h <;> rfl
  · cases hr : s.hs[r]? with
    | none => simp only [Option.bind_some, Call.heap, hr]; rfl
    | some h => cases h <;> simp only [Option.bind_some, Call.heap, hr, e3, orHL_eq _ _ e4 e5] <;> rfl
  · cases hr : s.hs[r]? with
    | none => rfl
    | some h => cases h <;> rfl
  · cases hr : s.hs[r]? with
    | none => rfl
    | some h => cases h <;> rfl
  · cases hr : s.hs[r]? with
    | none => rfl
    | some h => cases h <;> rfl

theorem called_and (pol : Policy) (inv : PInv s L) (r u : Nat) : Called pol s L (.and r u) := by
  simp only [Called, PStep.run, PStep.asCall, PStep.spell]
  rcases inv.kind u with ⟨e1, e2⟩ | ⟨l, ns, e1, e2, e3, e4, e5⟩ | ⟨l, e1, e2, e3⟩ | ⟨l, e1, e2, e3⟩ | ⟨l, e1, e2, e3⟩ <;> simp only [e1, e2]
  · cases hr : s.hs[r]? with
    | none => rfl
    | some h => cases h <;> rfl
  · cases hr : s.hs[r]? with
    | none => simp only [Option.bind_some, Call.heap, hr]; rfl
    | some h => cases h <;> simp only [Option.bind_some, Call.heap, hr, e3, andL_eq _ _ e4 e5] <;> rfl
  · cases hr : s.hs[r]? with
    | none => rfl
    | some h => cases h <;> rfl
  · cases hr : s.hs[r]? with
    | none => rfl
    | some h => cases h <;> rfl
  · cases hr : s.hs[r]? with
    | none => rfl
    | some h => cases h <;> rfl

theorem called_or (pol : Policy) (inv : PInv s L) (r u : Nat) : Called pol s L (.or r u) := by
  simp only [Called, PStep.run, PStep.asCall, PStep.spell]
  rcases inv.kind u with ⟨e1, e2⟩ | ⟨l, ns, e1, e2, e3, e4, e5⟩ | ⟨l, e1, e2, e3⟩ | ⟨l, e1, e2, e3⟩ | ⟨l, e1, e2, e3⟩ <;> simp only [e1, e2]
  · cases hr : s.hs[r]? with
    | none => rfl
    | some h => cases h <;> rfl
  · cases hr : s.hs[r]? with
    | none => simp only [Option.bind_some, Call.heap, hr]; rfl
    | some h => cases h <;> simp only [Option.bind_some, Call.heap, hr, e3, orL_eq _ _ e4 e5] <;> first | rfl | (simp only [Option.map_map]; rfl)
  · cases hr : s.hs[r]? with
    | none => rfl
    | some h => cases h <;> rfl
  · cases hr : s.hs[r]? with
    | none => rfl
    | some h => cases h <;> rfl
  · cases hr : s.hs[r]? with
    | none => rfl
    | some h => cases h <;> rfl

theorem called_where (pol : Policy) (inv : PInv s L) (r u : Nat) : Called pol s L (.where_ r u) := by
  simp only [Called, PStep.run, PStep.asCall, PStep.spell]
  rcases inv.kind u with ⟨e1, e2⟩ | ⟨l, ns, e1, e2, e3, e4, e5⟩ | ⟨l, e1, e2, e3⟩ | ⟨l, e1, e2, e3⟩ | ⟨l, e1, e2, e3⟩ <;> simp only [e1, e2]
  · cases hr : s.hs[r]? with
    | none => rfl
    | some h => cases h <;> rfl
  · cases hr : s.hs[r]? with
    | none => simp only [Option.bind_some, Call.heap, hr]; rfl
    | some h => cases h <;> simp only [Option.bind_some, Call.heap, hr, e3, whereL_eq _ _ e4, whereUL_eq _ _ e4, whereDL_eq _ _ e4] <;> rfl
  · cases hr : s.hs[r]? with
    | none => rfl
    | some h => cases h <;> rfl
  · cases hr : s.hs[r]? with
    | none => rfl
    | some h => cases h <;> rfl
  · cases hr : s.hs[r]? with
    | none => rfl
    | some h => cases h <;> rfl

theorem called_fields (pol : Policy) (inv : PInv s L) (r u : Nat) : Called pol s L (.fields r u) := by
  simp only [Called, PStep.run, PStep.asCall, PStep.spell]
  rcases inv.kind u with ⟨e1, e2⟩ | ⟨l, ns, e1, e2, e3, e4, e5⟩ | ⟨l, e1, e2, e3⟩ | ⟨l, e1, e2, e3⟩ | ⟨l, e1, e2, e3⟩ <;> simp only [e1, e2]
  · cases hr : s.hs[r]? with
    | none => rfl
    | some h => cases h <;> rfl
  · cases hr : s.hs[r]? with
    | none => rfl
    | some h => cases h <;> rfl
  · cases hr : s.hs[r]? with
    | none => simp only [Option.bind_some, Call.heap, hr]; rfl
    | some h => cases h <;> simp only [Option.bind_some, Call.heap, hr, zero_fields e3] <;> rfl
  · cases hr : s.hs[r]? with
    | none => rfl
    | some h => cases h <;> rfl
  · cases hr : s.hs[r]? with
    | none => rfl
    | some h => cases h <;> rfl

theorem called_orderBy (pol : Policy) (inv : PInv s L) (r u : Nat) : Called pol s L (.orderBy r u) := by
  simp only [Called, PStep.run, PStep.asCall, PStep.spell]
  rcases inv.kind u with ⟨e1, e2⟩ | ⟨l, ns, e1, e2, e3, e4, e5⟩ | ⟨l, e1, e2, e3⟩ | ⟨l, e1, e2, e3⟩ | ⟨l, e1, e2, e3⟩ <;> simp only [e1, e2]
  · cases hr : s.hs[r]? with
    | none => rfl
    | some h => cases h <;> rfl
  · cases hr : s.hs[r]? with
    | none => rfl
    | some h => cases h <;> rfl
  · cases hr : s.hs[r]? with
    | none => rfl
    | some h => cases h <;> rfl
  · cases hr : s.hs[r]? with
    | none => simp only [Option.bind_some, Call.heap, hr]; rfl
    | some h => cases h <;> simp only [Option.bind_some, Call.heap, hr] <;> rfl
  · cases hr : s.hs[r]? with
    | none => rfl
    | some h => cases h <;> rfl

theorem called_insertFrom (pol : Policy) (inv : PInv s L) (r u : Nat) : Called pol s L (.insertFrom r u) := by
  simp only [Called, PStep.run, PStep.asCall, PStep.spell]
  rcases inv.kind u with ⟨e1, e2⟩ | ⟨l, ns, e1, e2, e3, e4, e5⟩ | ⟨l, e1, e2, e3⟩ | ⟨l, e1, e2, e3⟩ | ⟨l, e1, e2, e3⟩ <;> simp only [e1, e2]
  · cases hr : s.hs[r]? with
    | none => rfl
    | some h => cases h <;> rfl
  · cases hr : s.hs[r]? with
    | none => rfl
    | some h => cases h <;> rfl
  · cases hr : s.hs[r]? with
    | none => rfl
    | some h => cases h <;> rfl
  · cases hr : s.hs[r]? with
    | none => rfl
    | some h => cases h <;> rfl
  · cases hr : s.hs[r]? with
    | none => simp only [Option.bind_some, Call.heap, hr]; rfl
    | some h => cases h <;> simp only [Option.bind_some, Call.heap, hr, insert_vals pol _ e3] <;> rfl

theorem called_values (pol : Policy) (inv : PInv s L) (r u : Nat) : Called pol s L (.values r u) := by
  simp only [Called, PStep.run, PStep.asCall, PStep.spell]
  rcases inv.kind u with ⟨e1, e2⟩ | ⟨l, ns, e1, e2, e3, e4, e5⟩ | ⟨l, e1, e2, e3⟩ | ⟨l, e1, e2, e3⟩ | ⟨l, e1, e2, e3⟩ <;> simp only [e1, e2]
  · cases hr : s.hs[r]? with
    | none => rfl
    | some h => cases h <;> rfl
  · cases hr : s.hs[r]? with
    | none => rfl
    | some h => cases h <;> rfl
  · cases hr : s.hs[r]? with
    | none => rfl
    | some h => cases h <;> rfl
  · cases hr : s.hs[r]? with
    | none => rfl
    | some h => cases h <;> rfl
  · cases hr : s.hs[r]? with
    | none => simp only [Option.bind_some, Call.heap, hr]; rfl
    | some h => cases h <;> simp only [Option.bind_some, Call.heap, hr] <;> rfl

theorem called_updateFrom (pol : Policy) (inv : PInv s L) (r u : Nat) : Called pol s L (.updateFrom r u) := by
  simp only [Called, PStep.run, PStep.asCall, PStep.spell]
  rcases inv.kind u with ⟨e1, e2⟩ | ⟨l, ns, e1, e2, e3, e4, e5⟩ | ⟨l, e1, e2, e3⟩ | ⟨l, e1, e2, e3⟩ | ⟨l, e1, e2, e3⟩ <;> simp only [e1, e2]
  · cases hr : s.hs[r]? with
    | none => rfl
    | some h => cases h <;> rfl
  · cases hr : s.hs[r]? with
    | none => rfl
    | some h => cases h <;> rfl
  · cases hr : s.hs[r]? with
    | none => rfl
    | some h => cases h <;> rfl
  · cases hr : s.hs[r]? with
    | none => rfl
    | some h => cases h <;> rfl
  · cases hr : s.hs[r]? with
    | none => simp only [Option.bind_some, Call.heap, hr]; rfl
    | some h => cases h <;> simp only [Option.bind_some, Call.heap, hr, updateL_eq pol _ _ e3] <;> rfl

theorem called_set (pol : Policy) (inv : PInv s L) (r u : Nat) : Called pol s L (.set r u) := by
  simp only [Called, PStep.run, PStep.asCall, PStep.spell]
  rcases inv.kind u with ⟨e1, e2⟩ | ⟨l, ns, e1, e2, e3, e4, e5⟩ | ⟨l, e1, e2, e3⟩ | ⟨l, e1, e2, e3⟩ | ⟨l, e1, e2, e3⟩ <;> simp only [e1, e2]
  · cases hr : s.hs[r]? with
    | none => rfl
    | some h => cases h <;> rfl
  · cases hr : s.hs[r]? with
    | none => rfl
    | some h => cases h <;> rfl
  · cases hr : s.hs[r]? with
    | none => rfl
    | some h => cases h <;> rfl
  · cases hr : s.hs[r]? with
    | none => rfl
    | some h => cases h <;> rfl
  · cases hr : s.hs[r]? with
    | none => simp only [Option.bind_some, Call.heap, hr]; rfl
    | some h => cases h <;> simp only [Option.bind_some, Call.heap, hr] <;> rfl

/-- A call with a list is the call with its elements written out. -/
theorem run_asCall (pol : Policy) (inv : PInv s L) (p : PStep) (hp : p.onList = false) : Called pol s L p := by
  cases p with
  | call c => rfl
  | listConds _ | listDefs _ | listSorts _ | listVals _ | putCond _ _ _ | putDef _ _ _ | putSort _ _ _ | putVal _ _ _ => cases hp
  | newGroup j u => exact called_newGroup pol inv j u
  | andF r u => exact called_andF pol inv r u
  | orF r u => exact called_orF pol inv r u
  | and r u => exact called_and pol inv r u
  | or r u => exact called_or pol inv r u
  | where_ r u => exact called_where pol inv r u
  | fields r u => exact called_fields pol inv r u
  | orderBy r u => exact called_orderBy pol inv r u
  | insertFrom r u => exact called_insertFrom pol inv r u
  | values r u => exact called_values pol inv r u
  | updateFrom r u => exact called_updateFrom pol inv r u
  | set r u => exact called_set pol inv r u

/-! ## Every step keeps it so -/

theorem get_pushH {hs : List HV} {x h : HV} {i : Nat} (e : (hs ++ [x])[i]? = some h) : hs[i]? = some h ∨ h = x := by
  rcases get_push e with ⟨_, e⟩ | ⟨_, e⟩
  · exact .inl e
  · exact .inr e

theorem getCondsH_push {hs : List HV} (x : HV) : ∀ {ns : List Nat} {cs : List HCond}, getCondsH hs ns = some cs →
    getCondsH (hs ++ [x]) ns = some cs
  | [], cs, h => h
  | n :: ns, cs, h => by
    simp only [getCondsH] at h ⊢
    split at h
    · rename_i c cs' h1 h2
      rw [List.getElem?_append_left (List.getElem?_eq_some_iff.1 h1).1, h1, getCondsH_push x h2]
      exact h
    · cases h

theorem getCondsH_set {hs : List HV} {n : Nat} {c : HCond} (hn : hs[n]? = some (.cond c)) : ∀ {ns : List Nat} {cs : List HCond} (i : Nat),
    getCondsH hs ns = some cs → getCondsH hs (ns.set i n) = some (cs.set i c)
  | [], cs, i, h => by cases h; rfl
  | a :: ns, cs, i, h => by
    simp only [getCondsH] at h
    split at h
    · rename_i c' cs' h1 h2
      cases h
      cases i with
      | zero => simp only [List.set, getCondsH, hn, h2]
      | succ i => simp only [List.set, getCondsH, h1, getCondsH_set hn i h2]
    · cases h

theorem getCondsH_len {hs : List HV} : ∀ {ns : List Nat} {cs : List HCond}, getCondsH hs ns = some cs → cs.length = ns.length
  | [], cs, h => by cases h; rfl
  | a :: ns, cs, h => by
    simp only [getCondsH] at h
    split at h
    · rename_i c' cs' h1 h2
      cases h
      simp [getCondsH_len h2]
    · cases h

/-- Lists left alone hold what they held. -/
theorem Lst.Holds.mono {s s' : Prog} {l : Lst} {pl : PLst} (h : l.Holds s pl) (hm : l.Same s.mem s'.mem)
    (hh : ∀ ns cs, getCondsH s.hs ns = some cs → getCondsH s'.hs ns = some cs) : l.Holds s' pl := by
  cases l <;> cases pl <;> simp only [Lst.Holds, Lst.Same, Store.read, Store.cells] at h hm ⊢
  · rw [hm]; exact hh _ _ h
  · rw [hm]; exact h
  · rw [hm]; exact h
  · rw [hm]; exact h

theorem lt_of_get {α : Type} {st st' : List α} {a : Nat} (h : a < st.length) (e : st'[a]? = st[a]?) : a < st'.length := by
  rw [List.getElem?_eq_getElem h] at e
  exact (List.getElem?_eq_some_iff.1 e).1

theorem Lst.Fit.mono {m m' : Mem} {l : Lst} (h : l.Fit m) (hm : l.Same m m') : l.Fit m' := by
  cases l <;> simp only [Lst.Fit, Lst.Same, Store.cells] at h hm ⊢
  all_goals rw [hm]; exact ⟨lt_of_get h.1 hm, h.2⟩

theorem FrM.same {ls : List Lst} {m m' : Mem} (k : FrM (listsOf ls) m m') : ∀ l ∈ ls, l.Same m m' := by
  intro l hl
  cases l with
  | conds l => exact k.conds.2 _ ⟨l, hl, rfl⟩
  | defs l => exact k.defs.2 _ ⟨l, hl, rfl⟩
  | sorts l => exact k.sorts.2 _ ⟨l, hl, rfl⟩
  | vals l => exact k.vals.2 _ ⟨l, hl, rfl⟩

/-- After a call. -/
theorem PInv.made (pol : Policy) (inv : PInv s L) {c : Call} {x : Mem × HV} (h : c.heap pol s.mem s.hs = some x) :
    PInv (s.made x) L ∧ FrM (listsOf s.ls) s.mem x.1 := by
  have b := step_call pol inv.stb inv.bnd c x h
  have f := fr_call pol inv.away inv.off c x h
  have sm := f.1.1.same
  refine ⟨⟨b.1.2, fun i h' e => ?_, f.1.2, fun i h' e => ?_, fun l hl => (inv.fit l hl).mono (sm l hl), inv.apart, inv.len,
    fun u l pl e1 e2 => ?_⟩, f.1.1⟩
  · rcases get_pushH e with e | rfl
    · exact (inv.bnd i h' e).mono b.1.1
    · exact b.2
  · rcases get_pushH e with e | rfl
    · exact inv.off i h' e
    · exact f.2
  · exact (inv.holds u l pl e1 e2).mono (sm l (List.mem_of_getElem? e1)) fun ns cs => getCondsH_push _

/-- More lists, made after the values. -/
theorem HV.off.more {U U' : Lists} {m : Mem} {h : HV} (o : h.off U) (b : h.bnd m)
    (kc : ∀ a, U'.c a → U.c a ∨ m.conds.length ≤ a) (kd : ∀ a, U'.d a → U.d a ∨ m.defs.length ≤ a)
    (ks : ∀ a, U'.s a → U.s a ∨ m.sorts.length ≤ a) (kv : ∀ a, U'.v a → U.v a ∨ m.vals.length ≤ a) : h.off U' := by
  have c : ∀ {s : Sl}, ¬ U.c s.arr → InB m.conds s → ¬ U'.c s.arr := fun n i u => (kc _ u).elim n (fun e => Nat.not_lt.2 e i.1)
  have d : ∀ {s : Sl}, ¬ U.d s.arr → InB m.defs s → ¬ U'.d s.arr := fun n i u => (kd _ u).elim n (fun e => Nat.not_lt.2 e i.1)
  have v : ∀ {s : Sl}, ¬ U.v s.arr → InB m.vals s → ¬ U'.v s.arr := fun n i u => (kv _ u).elim n (fun e => Nat.not_lt.2 e i.1)
  have so : ∀ {s : Sl}, ¬ U.s s.arr → InB m.sorts s → ¬ U'.s s.arr := fun n i u => (ks _ u).elim n (fun e => Nat.not_lt.2 e i.1)
  have q : ∀ {q : HBase}, BaseO U q → BaseB m q → BaseO U' q := fun o b => ⟨d o.fields b.fields, c o.cond b.cond⟩
  cases h <;> simp only [HV.off, HV.bnd] at o b ⊢
  · rename_i x
    cases x with
    | leaf y => trivial
    | group _ _ _ => exact c o b
  · exact q o b
  · exact q o b
  · exact ⟨q o.1 b.1, so o.2 b.2⟩
  · exact q o b
  · exact v o b
  · exact ⟨c o.1 b.1, v o.2 b.2⟩
  · exact c o b
  · exact q o b
  · exact q o b
  · exact ⟨q o.1 b.1, so o.2 b.2⟩

theorem HCond.off.more {U U' : Nat → Prop} {st : Store HCond} {h : HCond} (o : h.off U) (b : h.bnd st)
    (kc : ∀ a, U' a → U a ∨ st.length ≤ a) : h.off U' := by
  cases h with
  | leaf _ => trivial
  | group _ s _ => exact fun u => (kc _ u).elim o (fun e => Nat.not_lt.2 e (show InB st s from b).1)

theorem inConds_push {ls : List Lst} {l : Lst} {a : Nat} (h : inConds (ls ++ [l]) a) : inConds ls a ∨ ∃ x, l = .conds x ∧ x.arr = a := by
  obtain ⟨x, hx, e⟩ := h
  rcases List.mem_append.1 hx with h | h
  · exact .inl ⟨x, h, e⟩
  · exact .inr ⟨x, (List.mem_singleton.1 h).symm, e⟩

theorem inDefs_push {ls : List Lst} {l : Lst} {a : Nat} (h : inDefs (ls ++ [l]) a) : inDefs ls a ∨ ∃ x, l = .defs x ∧ x.arr = a := by
  obtain ⟨x, hx, e⟩ := h
  rcases List.mem_append.1 hx with h | h
  · exact .inl ⟨x, h, e⟩
  · exact .inr ⟨x, (List.mem_singleton.1 h).symm, e⟩

theorem inSorts_push {ls : List Lst} {l : Lst} {a : Nat} (h : inSorts (ls ++ [l]) a) : inSorts ls a ∨ ∃ x, l = .sorts x ∧ x.arr = a := by
  obtain ⟨x, hx, e⟩ := h
  rcases List.mem_append.1 hx with h | h
  · exact .inl ⟨x, h, e⟩
  · exact .inr ⟨x, (List.mem_singleton.1 h).symm, e⟩

theorem inVals_push {ls : List Lst} {l : Lst} {a : Nat} (h : inVals (ls ++ [l]) a) : inVals ls a ∨ ∃ x, l = .vals x ∧ x.arr = a := by
  obtain ⟨x, hx, e⟩ := h
  rcases List.mem_append.1 hx with h | h
  · exact .inl ⟨x, h, e⟩
  · exact .inr ⟨x, (List.mem_singleton.1 h).symm, e⟩

/-- The list did not exist before. -/
def Lst.New (m : Mem) : Lst → Prop
  | .conds l => m.conds.length ≤ l.arr
  | .defs l => m.defs.length ≤ l.arr
  | .sorts l => m.sorts.length ≤ l.arr
  | .vals l => m.vals.length ≤ l.arr

/-- A step that makes a list and leaves all arrays there were alone. -/
theorem PInv.push (inv : PInv s L) {m' : Mem} {l : Lst} {pl : PLst} (hn : l.New s.mem) (sz : SzM s.mem m') (sb : StB m'.conds)
    (so : ∀ (a : Nat) (c : HCond), c ∈ Store.cells m'.conds a → c.bnd s.mem.conds ∧ c.off (inConds s.ls))
    (fr : FrM (listsOf s.ls) s.mem m') (hf : l.Fit m') (hh : l.Holds { s with mem := m', ls := s.ls ++ [l] } pl) :
    PInv { s with mem := m', ls := s.ls ++ [l] } (L ++ [pl]) := by
  have kc : ∀ a, (listsOf (s.ls ++ [l])).c a → (listsOf s.ls).c a ∨ s.mem.conds.length ≤ a := fun a h => by
    rcases inConds_push h with h | ⟨x, rfl, rfl⟩
    · exact .inl h
    · exact .inr hn
  have kd : ∀ a, (listsOf (s.ls ++ [l])).d a → (listsOf s.ls).d a ∨ s.mem.defs.length ≤ a := fun a h => by
    rcases inDefs_push h with h | ⟨x, rfl, rfl⟩
    · exact .inl h
    · exact .inr hn
  have ks : ∀ a, (listsOf (s.ls ++ [l])).s a → (listsOf s.ls).s a ∨ s.mem.sorts.length ≤ a := fun a h => by
    rcases inSorts_push h with h | ⟨x, rfl, rfl⟩
    · exact .inl h
    · exact .inr hn
  have kv : ∀ a, (listsOf (s.ls ++ [l])).v a → (listsOf s.ls).v a ∨ s.mem.vals.length ≤ a := fun a h => by
    rcases inVals_push h with h | ⟨x, rfl, rfl⟩
    · exact .inl h
    · exact .inr hn
  have sm := fr.same
  have bc : Bd (inConds (s.ls ++ [l])) m'.conds := fun a h => by
    rcases inConds_push h with h | ⟨x, rfl, rfl⟩
    · exact inv.away.conds.bd.mono fr.conds a h
    · exact hf.1
  have bd : Bd (inDefs (s.ls ++ [l])) m'.defs := fun a h => by
    rcases inDefs_push h with h | ⟨x, rfl, rfl⟩
    · exact inv.away.defs.mono fr.defs a h
    · exact hf.1
  have bs : Bd (inSorts (s.ls ++ [l])) m'.sorts := fun a h => by
    rcases inSorts_push h with h | ⟨x, rfl, rfl⟩
    · exact inv.away.sorts.mono fr.sorts a h
    · exact hf.1
  have bv : Bd (inVals (s.ls ++ [l])) m'.vals := fun a h => by
    rcases inVals_push h with h | ⟨x, rfl, rfl⟩
    · exact inv.away.vals.mono fr.vals a h
    · exact hf.1
  refine ⟨sb, fun i h e => (inv.bnd i h e).mono sz, ⟨⟨bc, fun a c hc => (so a c hc).2.more (so a c hc).1 kc⟩, bd, bs, bv⟩,
    fun i h e => (inv.off i h e).more (inv.bnd i h e) kc kd ks kv, fun x hx => ?_, ?_, by simp [inv.len], fun u x px e1 e2 => ?_⟩
  · rcases List.mem_append.1 hx with hx | hx
    · exact (inv.fit x hx).mono (sm x hx)
    · rw [List.mem_singleton.1 hx]; exact hf
  · rw [List.map_append, List.map_singleton, List.nodup_append]
    refine ⟨inv.apart, by simp, ?_⟩
    intro k hk k' hk' e
    rw [List.mem_singleton] at hk'
    subst hk'; subst e
    obtain ⟨x, hx, e⟩ := List.mem_map.1 hk
    have f := inv.fit x hx
    cases x <;> cases l <;> simp only [Lst.key, Prod.mk.injEq] at e <;> first | (have := e.1; omega) | (have := e.2; simp only [Lst.New] at hn; have := f.1; omega)
  · rcases get_push e1 with ⟨hl, e1⟩ | ⟨hl, rfl⟩
    · rw [List.getElem?_append_left (by rw [← inv.len]; exact hl)] at e2
      exact (inv.holds u x px e1 e2).mono (sm x (List.mem_of_getElem? e1)) fun _ _ h => h
    · rw [hl, inv.len, List.getElem?_append_right (Nat.le_refl _)] at e2
      simp at e2; subst e2; exact hh

theorem nodup_get {α β : Type} {f : α → β} {xs : List α} (h : (xs.map f).Nodup) {i j : Nat} {a b : α} (hi : xs[i]? = some a)
    (hj : xs[j]? = some b) (e : f a = f b) : i = j := by
  have li := (List.getElem?_eq_some_iff.1 hi).1
  have lj := (List.getElem?_eq_some_iff.1 hj).1
  have := (List.getElem_inj (h₀ := show i < (xs.map f).length by simpa using li) (h₁ := show j < (xs.map f).length by simpa using lj) h).1 (by
    simp only [List.getElem_map, (List.getElem?_eq_some_iff.1 hi).2, (List.getElem?_eq_some_iff.1 hj).2, e])
  exact this

/-- A step that writes into a list. -/
theorem PInv.put (inv : PInv s L) {u : Nat} {l : Lst} {pl : PLst} {m' : Mem} (hu : s.ls[u]? = some l)
    (ot : ∀ x : Lst, x.key ≠ l.key → x.Same s.mem m') (sz : SzM s.mem m') (sb : StB m'.conds) (so : StOff (inConds s.ls) m'.conds)
    (hf : l.Fit m') (hh : l.Holds { s with mem := m' } pl) : PInv { s with mem := m' } (L.set u pl) := by
  refine ⟨sb, fun i h e => (inv.bnd i h e).mono sz, ⟨⟨fun a h => Nat.lt_of_lt_of_le (inv.away.conds.bd a h) sz.conds.1, so⟩,
    fun a h => Nat.lt_of_lt_of_le (inv.away.defs a h) sz.defs.1, fun a h => Nat.lt_of_lt_of_le (inv.away.sorts a h) sz.sorts.1,
    fun a h => Nat.lt_of_lt_of_le (inv.away.vals a h) sz.vals.1⟩, inv.off, fun x hx => ?_, inv.apart, by simp [inv.len],
    fun v x px e1 e2 => ?_⟩
  · by_cases e : x.key = l.key
    · obtain ⟨v, hv⟩ := List.getElem?_of_mem hx
      have := nodup_get inv.apart hv hu e
      subst this
      have e' : some x = some l := hv.symm.trans hu
      cases e'; exact hf
    · exact (inv.fit x hx).mono (ot x e)
  · by_cases e : x.key = l.key
    · have := nodup_get inv.apart e1 hu e
      subst this
      have e' : some x = some l := e1.symm.trans hu
      cases e'
      rw [List.getElem?_set] at e2
      split at e2
      · split at e2
        · cases e2; exact hh
        · cases e2
      · rename_i h; exact absurd rfl h
    · have ne : u ≠ v := fun h => by
        subst h
        have e' : some x = some l := e1.symm.trans hu
        cases e'; exact e rfl
      rw [List.getElem?_set_ne ne] at e2
      exact (inv.holds v x px e1 e2).mono (ot x e) fun _ _ h => h

section
variable {α : Type} {st : Store α} {l : Sl}

theorem cells_write (i : Nat) (x : α) (h : l.arr < st.length) : (st.write l i x).cells l.arr = (st.cells l.arr).set i x := by
  simp [Store.write, Store.cells, h]

theorem write_ne (i : Nat) (x : α) {a : Nat} (h : a ≠ l.arr) : (st.write l i x)[a]? = st[a]? := by
  simp only [Store.write]; exact List.getElem?_set_ne (Ne.symm h)

theorem read_write (i : Nat) (x : α) (h : l.arr < st.length) (hl : (st.cells l.arr).length = l.len) :
    (st.write l i x).read l = (st.read l).set i x := by
  rw [read_all hl, read_all (by rw [cells_write i x h]; simpa using hl), cells_write i x h]

theorem make_fit (xs : List α) : (st.make xs).2.arr < (st.make xs).1.length ∧ ((st.make xs).1.cells (st.make xs).2.arr).length = (st.make xs).2.len := by
  simp [Store.make, Store.alloc, Store.cells]

theorem make_read (xs : List α) : (st.make xs).1.read (st.make xs).2 = xs := by
  simp [Store.make, Store.alloc, Store.read, Store.cells]

end

theorem SzM.ofConds {m : Mem} {st : Store HCond} (h : Sz m.conds st) : SzM m { m with conds := st } := ⟨h, .refl _, .refl _, .refl _, .refl _⟩

/-- Every step. -/
theorem PInv.step (pol : Policy) (inv : PInv s L) (p : PStep) {s' : Prog} (h : p.run pol s = some s') : PInv s' (p.lists L) := by
  have call : p.onList = false → ∃ c x, p.asCall L = some c ∧ c.heap pol s.mem s.hs = some x ∧ s' = s.made x := by
    intro hp
    have e := run_asCall pol inv p hp
    rw [Called, h] at e
    cases hc : p.asCall L with
    | none => rw [hc] at e; cases e
    | some c =>
      rw [hc] at e
      simp only [Option.bind_some] at e
      cases hx : c.heap pol s.mem s.hs with
      | none => rw [hx] at e; cases e
      | some x => rw [hx] at e; cases e; exact ⟨c, x, rfl, hx, rfl⟩
  have done : p.onList = false → PInv s' L := by
    intro hp
    obtain ⟨c, x, _, hx, rfl⟩ := call hp
    exact (inv.made pol hx).1
  have old : ∀ (a : Nat) (c : HCond), c ∈ s.mem.conds.cells a → c.bnd s.mem.conds ∧ c.off (inConds s.ls) :=
    fun a c hc => ⟨inv.stb a c hc, inv.away.conds.off a c hc⟩
  cases p with
  | call _ | newGroup _ _ | andF _ _ | orF _ _ | and _ _ | or _ _ | where_ _ _ | fields _ _ | orderBy _ _ | insertFrom _ _ | values _ _
    | updateFrom _ _ | set _ _ => exact done rfl
  | listConds ns =>
    simp only [PStep.run] at h
    cases hn : getCondsH s.hs ns with
    | none => rw [hn] at h; cases h
    | some cs =>
      rw [hn] at h; cases h
      have mem : ∀ (a : Nat) (c : HCond), c ∈ Store.cells (s.mem.conds.make cs).1 a → c.bnd s.mem.conds ∧ c.off (inConds s.ls) := by
        intro a c hc
        rcases mem_alloc (cap := cs.length) hc with h | h
        · exact old a c h
        · exact ⟨getCondsH_bnd inv.bnd ns cs hn c h, getCondsH_off (U := listsOf s.ls) inv.off ns cs hn c h⟩
      refine inv.push (m' := { s.mem with conds := (s.mem.conds.make cs).1 }) (l := .conds (s.mem.conds.make cs).2)
        (Nat.le_refl _) (.ofConds (sz_make _ _)) (stB_of (sz_make _ _) fun a c hc => (mem a c hc).1) mem
        ⟨fr_make inv.away.conds.bd _, .refl _, .refl _, .refl _⟩ (make_fit _) ?_
      simp only [Lst.Holds]
      rw [make_read]; exact hn
  | listDefs fs =>
    simp only [PStep.run] at h
    cases h
    exact inv.push (m' := { s.mem with defs := (s.mem.defs.make fs).1 }) (l := .defs (s.mem.defs.make fs).2)
        (Nat.le_refl _) ⟨.refl _, .refl _, .refl _, .refl _, sz_make _ _⟩ inv.stb old
        ⟨.refl _, fr_make inv.away.defs _, .refl _, .refl _⟩ (make_fit _) (make_read _)
  | listSorts os =>
    simp only [PStep.run] at h
    cases h
    exact inv.push (m' := { s.mem with sorts := (s.mem.sorts.make os).1 }) (l := .sorts (s.mem.sorts.make os).2)
        (Nat.le_refl _) ⟨.refl _, .refl _, sz_make _ _, .refl _, .refl _⟩ inv.stb old
        ⟨.refl _, .refl _, fr_make inv.away.sorts _, .refl _⟩ (make_fit _) (make_read _)
  | listVals vs =>
    simp only [PStep.run] at h
    cases h
    exact inv.push (m' := { s.mem with vals := (s.mem.vals.make vs).1 }) (l := .vals (s.mem.vals.make vs).2)
        (Nat.le_refl _) ⟨.refl _, .refl _, .refl _, sz_make _ _, .refl _⟩ inv.stb old
        ⟨.refl _, .refl _, .refl _, fr_make inv.away.vals _⟩ (make_fit _) (make_read _)
  | putCond u i n =>
    simp only [PStep.run] at h
    split at h
    · rename_i l c hu hn
      split at h
      · rename_i hi
        cases h
        rcases inv.kind u with ⟨e1, e2⟩ | ⟨l', ns, e1, e2, e3, e4, e5⟩ | ⟨l', e1, e2, e3⟩ | ⟨l', e1, e2, e3⟩ | ⟨l', e1, e2, e3⟩ <;>
          rw [hu] at e1 <;> cases e1
        have mem : ∀ (a : Nat) (x : HCond), x ∈ Store.cells (s.mem.conds.write l i c) a → x.bnd s.mem.conds ∧ x.off (inConds s.ls) := by
          intro a x hx
          rcases mem_write hx with h | rfl | h
          · exact old a x h
          · exact ⟨inv.bnd n _ hn, inv.off n _ hn⟩
          · exact old _ x h
        simp only [PStep.lists, e2]
        refine inv.put (m' := { s.mem with conds := s.mem.conds.write l i c }) hu (fun x hx => ?_) (.ofConds (sz_write _ _ _ _))
          (stB_of (sz_write _ _ _ _) fun a c hc => (mem a c hc).1) (fun a c hc => (mem a c hc).2) ?_ ?_
        · cases x with
          | conds y => exact write_ne _ _ fun e => hx (by simp only [Lst.key, e])
          | _ => rfl
        · exact ⟨by simp [Store.write]; exact e4, by rw [cells_write i c e4]; simpa using e5⟩
        · simp only [Lst.Holds]
          rw [read_write i c e4 e5]
          exact getCondsH_set hn i e3
      · cases h
    · cases h
  | putDef u i f =>
    simp only [PStep.run] at h
    split at h
    · rename_i l hu
      split at h
      · rename_i hi
        cases h
        have ft : l.arr < s.mem.defs.length ∧ (s.mem.defs.cells l.arr).length = l.len := inv.fit _ (List.mem_of_getElem? hu)
        rcases inv.kind u with ⟨e1, e2⟩ | ⟨l', ns, e1, e2, e3, e4, e5⟩ | ⟨l', e1, e2, e3⟩ | ⟨l', e1, e2, e3⟩ | ⟨l', e1, e2, e3⟩ <;>
          rw [hu] at e1 <;> cases e1
        simp only [PStep.lists, e2]
        refine inv.put (m' := { s.mem with defs := s.mem.defs.write l i f }) hu (fun x hx => ?_) ⟨.refl _, .refl _, .refl _, .refl _, sz_write _ _ _ _⟩
          inv.stb inv.away.conds.off ?_ (read_write i f ft.1 ft.2)
        · cases x with
          | defs y => exact write_ne _ _ fun e => hx (by simp only [Lst.key, e])
          | _ => rfl
        · exact ⟨by simp [Store.write]; exact ft.1, by rw [cells_write i f ft.1]; simpa using ft.2⟩
      · cases h
    · cases h
  | putSort u i f =>
    simp only [PStep.run] at h
    split at h
    · rename_i l hu
      split at h
      · rename_i hi
        cases h
        have ft : l.arr < s.mem.sorts.length ∧ (s.mem.sorts.cells l.arr).length = l.len := inv.fit _ (List.mem_of_getElem? hu)
        rcases inv.kind u with ⟨e1, e2⟩ | ⟨l', ns, e1, e2, e3, e4, e5⟩ | ⟨l', e1, e2, e3⟩ | ⟨l', e1, e2, e3⟩ | ⟨l', e1, e2, e3⟩ <;>
          rw [hu] at e1 <;> cases e1
        simp only [PStep.lists, e2]
        refine inv.put (m' := { s.mem with sorts := s.mem.sorts.write l i f }) hu (fun x hx => ?_) ⟨.refl _, .refl _, sz_write _ _ _ _, .refl _, .refl _⟩
          inv.stb inv.away.conds.off ?_ (read_write i f ft.1 ft.2)
        · cases x with
          | sorts y => exact write_ne _ _ fun e => hx (by simp only [Lst.key, e])
          | _ => rfl
        · exact ⟨by simp [Store.write]; exact ft.1, by rw [cells_write i f ft.1]; simpa using ft.2⟩
      · cases h
    · cases h
  | putVal u i f =>
    simp only [PStep.run] at h
    split at h
    · rename_i l hu
      split at h
      · rename_i hi
        cases h
        have ft : l.arr < s.mem.vals.length ∧ (s.mem.vals.cells l.arr).length = l.len := inv.fit _ (List.mem_of_getElem? hu)
        rcases inv.kind u with ⟨e1, e2⟩ | ⟨l', ns, e1, e2, e3, e4, e5⟩ | ⟨l', e1, e2, e3⟩ | ⟨l', e1, e2, e3⟩ | ⟨l', e1, e2, e3⟩ <;>
          rw [hu] at e1 <;> cases e1
        simp only [PStep.lists, e2]
        refine inv.put (m' := { s.mem with vals := s.mem.vals.write l i f }) hu (fun x hx => ?_) ⟨.refl _, .refl _, .refl _, sz_write _ _ _ _, .refl _⟩
          inv.stb inv.away.conds.off ?_ (read_write i f ft.1 ft.2)
        · cases x with
          | vals y => exact write_ne _ _ fun e => hx (by simp only [Lst.key, e])
          | _ => rfl
        · exact ⟨by simp [Store.write]; exact ft.1, by rw [cells_write i f ft.1]; simpa using ft.2⟩
      · cases h
    · cases h

theorem PInv.empty : PInv Prog.empty [] :=
  ⟨fun a c hc => by simp [Prog.empty, Mem.empty, Store.cells] at hc, fun i h e => by simp [Prog.empty] at e,
    ⟨⟨fun a ⟨l, h, _⟩ => by simp [Prog.empty] at h, fun a c hc => by simp [Prog.empty, Mem.empty, Store.cells] at hc⟩,
      fun a ⟨l, h, _⟩ => by simp [Prog.empty] at h, fun a ⟨l, h, _⟩ => by simp [Prog.empty] at h, fun a ⟨l, h, _⟩ => by simp [Prog.empty] at h⟩,
    fun i h e => by simp [Prog.empty] at e, fun l hl => by simp [Prog.empty] at hl, by simp [Prog.empty], rfl,
    fun u l pl e => by simp [Prog.empty] at e⟩

/-- Every program. -/
theorem PInv.runProg (pol : Policy) : ∀ (steps : List PStep) {s s' : Prog} {L : List PLst}, PInv s L → Query.runProg pol s steps = some s' →
    ∃ L', PInv s' L'
  | [], s, s', L, inv, h => by cases h; exact ⟨L, inv⟩
  | p :: ps, s, s', L, inv, h => by
    simp only [Query.runProg] at h
    split at h
    · rename_i s1 h1
      exact PInv.runProg pol ps (inv.step pol p h1) h
    · cases h

/-- A step that writes into no list leaves all lists alone. -/
theorem PInv.keeps (pol : Policy) (inv : PInv s L) (p : PStep) {s' : Prog} (h : p.run pol s = some s') (hp : p.isPut = false) :
    ∀ l ∈ s.ls, l.Same s.mem s'.mem := by
  have make : ∀ {α : Type} {st : Store α} (xs : List α) {a : Nat}, a < st.length → (st.make xs).1[a]? = st[a]? := fun xs a h => by
    simp only [Store.make, Store.alloc]; exact List.getElem?_append_left h
  by_cases ho : p.onList = false
  · have e := run_asCall pol inv p ho
    rw [Called, h] at e
    cases hc : p.asCall L with
    | none => rw [hc] at e; cases e
    | some c =>
      rw [hc] at e
      simp only [Option.bind_some] at e
      cases hx : c.heap pol s.mem s.hs with
      | none => rw [hx] at e; cases e
      | some x => rw [hx] at e; cases e; exact (inv.made pol hx).2.same
  · intro l hl
    have ft := inv.fit l hl
    cases p <;> simp [PStep.onList, PStep.isPut] at ho hp <;> simp only [PStep.run] at h
    · rename_i ns
      cases hn : getCondsH s.hs ns with
      | none => rw [hn] at h; cases h
      | some cs =>
        rw [hn] at h; cases h
        cases l <;> first | rfl | exact make _ ft.1
    all_goals cases h; cases l <;> first | rfl | exact make _ ft.1

end Query
