import Verif.Proof.Spill
/-!
# Which cells each call writes
-/
namespace Query
open Store

/-- Cells outside of the four sets keep what they hold; the fields are never written. -/
structure SparM (Wc Wj Ws Wv : Nat → Nat → Prop) (m m' : Mem) : Prop where
  conds : Spar Wc m.conds m'.conds
  joins : Spar Wj m.joins m'.joins
  sorts : Spar Ws m.sorts m'.sorts
  vals : Spar Wv m.vals m'.vals
  defs : Spar (fun _ _ => False) m.defs m'.defs

section
variable {Wc Wj Ws Wv : Nat → Nat → Prop} {m m' m'' : Mem}

theorem SparM.refl (m : Mem) : SparM Wc Wj Ws Wv m m := ⟨.refl _, .refl _, .refl _, .refl _, .refl _⟩

theorem SparM.trans (h : SparM Wc Wj Ws Wv m m') (k : SparM Wc Wj Ws Wv m' m'') : SparM Wc Wj Ws Wv m m'' :=
  ⟨h.conds.trans k.conds, h.joins.trans k.joins, h.sorts.trans k.sorts, h.vals.trans k.vals, h.defs.trans k.defs⟩

theorem sparM_conds {st : Store HCond} (h : Spar Wc m.conds st) : SparM Wc Wj Ws Wv m { m with conds := st } :=
  ⟨h, .refl _, .refl _, .refl _, .refl _⟩

theorem sparM_joins {st : Store TableJoiner} (h : Spar Wj m.joins st) : SparM Wc Wj Ws Wv m { m with joins := st } :=
  ⟨.refl _, h, .refl _, .refl _, .refl _⟩

theorem sparM_sorts {st : Store FieldSorting} (h : Spar Ws m.sorts st) : SparM Wc Wj Ws Wv m { m with sorts := st } :=
  ⟨.refl _, .refl _, h, .refl _, .refl _⟩

theorem sparM_vals {st : Store FieldValue} (h : Spar Wv m.vals st) : SparM Wc Wj Ws Wv m { m with vals := st } :=
  ⟨.refl _, .refl _, .refl _, h, .refl _⟩

theorem sparM_defs {st : Store FieldDef} (h : Spar (fun _ _ => False) m.defs st) : SparM Wc Wj Ws Wv m { m with defs := st } :=
  ⟨.refl _, .refl _, .refl _, .refl _, h⟩

theorem sparM_select {p : TableParam} {x : Mem × HBase} (h : selectFromH m p = .ok x) : SparM Wc Wj Ws Wv m x.1 := by
  simp only [selectFromH] at h
  obtain ⟨t, _, e⟩ := Res.bind_eq_ok.1 h
  cases e
  exact ⟨spar_newGroup _ _, spar_make _, .refl _, .refl _, spar_make _⟩

theorem sparM_zero : SparM Wc Wj Ws Wv m (zeroBaseH m).1 := ⟨spar_make _, spar_make _, .refl _, .refl _, spar_make _⟩

theorem sparM_where (pol : Policy) (q : HBase) (hn : New m.conds.length Wc) (h : Wr Wc q.where_.s) (cs : List HCond) :
    SparM Wc Wj Ws Wv m (q.addWhere pol m cs).1 :=
  sparM_conds (spar_addConditions _ hn h _ _)

theorem sparM_on {q : HBase} {l r : FieldDef} {x : Mem × HBase} (h : q.on m l r = .ok x)
    (hw : ∀ a i, q.joins.arr = a → i + 1 = q.joins.len → Wj a i) : SparM Wc Wj Ws Wv m x.1 := by
  simp only [HBase.on] at h
  split at h
  · rename_i j hj
    cases h
    have : q.joins.len - 1 < q.joins.len := by
      have := (List.getElem?_eq_some_iff.1 hj).1
      simp only [Store.read, List.length_take] at this
      omega
    exact sparM_joins (spar_write _ _ (hw _ _ rfl (by omega)))
  · cases h

theorem sparM_conditions (q : HBase) : SparM Wc Wj Ws Wv m (q.conditions m).1 := sparM_conds (spar_make _)

theorem sparM_update (p : TableParam) : SparM Wc Wj Ws Wv m (updateH m p).1 := ⟨spar_newGroup _ _, .refl _, .refl _, spar_make _, .refl _⟩

theorem sparM_updateFrom (pol : Policy) (q : HBase) (hc : New m.conds.length Wc) (hv : New m.vals.length Wv) (p : TableParam)
    (vs : List FieldValue) : SparM Wc Wj Ws Wv m (q.update pol m p vs).1 := by
  simp only [HBase.update]
  have k1 : SparM Wc Wj Ws Wv m (q.conditions m).1 := sparM_conditions q
  have k2 : SparM Wc Wj Ws Wv (q.conditions m).1 (updateH (q.conditions m).1 p).1 := sparM_update p
  have hc1 := hc.mono k1.conds.len
  have hc2 := hc1.mono k2.conds.len
  have k3 : SparM Wc Wj Ws Wv _ ((updateH (q.conditions m).1 p).2.addWhere pol (updateH (q.conditions m).1 p).1
      ((updateH (q.conditions m).1 p).1.conds.read (q.conditions m).2)).1 :=
    sparM_conds (spar_addConditions _ hc2 (wr_newGroup hc1 _ _) _ _)
  exact ((k1.trans k2).trans k3).trans (sparM_vals (spar_append _ (wr_make (hv.mono k1.vals.len) []) _))

theorem sparM_insertFrom (pol : Policy) (hv : New m.vals.length Wv) (p : TableParam) (vs : List FieldValue) :
    SparM Wc Wj Ws Wv m ((insertIntoH m p).2.addValues pol (insertIntoH m p).1 vs).1 := by
  have k : SparM Wc Wj Ws Wv m (insertIntoH m p).1 := sparM_vals (spar_make _)
  exact k.trans (sparM_vals (spar_append _ (wr_make hv []) _))

theorem sparM_deleteFrom (pol : Policy) (q : HBase) (hc : New m.conds.length Wc) (p : TableParam) :
    SparM Wc Wj Ws Wv m (q.delete pol m p).1 := by
  simp only [HBase.delete]
  have k1 : SparM Wc Wj Ws Wv m (q.conditions m).1 := sparM_conditions q
  have k2 : SparM Wc Wj Ws Wv (q.conditions m).1 (deleteH (q.conditions m).1 p).1 := sparM_conds (spar_newGroup _ _)
  have hc1 := hc.mono k1.conds.len
  exact (k1.trans k2).trans (sparM_conds (spar_addConditions _ (hc1.mono k2.conds.len) (wr_newGroup hc1 _ _) _ _))

end

/-- The cells of conditions that may differ after the call. -/
def Call.outC (m : Mem) (hs : List HV) (c : Call) (a i : Nat) : Prop := c.writesCond m hs a i ∨ m.conds.length ≤ a
/-- The cells of joins that may differ after the call. -/
def Call.outJ (m : Mem) (hs : List HV) (c : Call) (a i : Nat) : Prop := c.writesJoin hs a i ∨ m.joins.length ≤ a
/-- The cells of ordering keys that may differ after the call. -/
def Call.outS (m : Mem) (hs : List HV) (c : Call) (a i : Nat) : Prop := c.writesSort hs a i ∨ m.sorts.length ≤ a
/-- The cells of values that may differ after the call. -/
def Call.outV (m : Mem) (hs : List HV) (c : Call) (a i : Nat) : Prop := c.writesVal hs a i ∨ m.vals.length ≤ a

section
variable {m : Mem} {hs : List HV}

theorem wr_cond {c : Call} {r : Nat} {h : HV} {s : Sl} (ha : c.condsAct = .app r) (hr : hs[r]? = some h) (hsl : h.condsSl = some s) :
    Wr (c.outC m hs) s :=
  fun a i k => .inl (.inl ⟨s, by simp [ha, Act.slice, Act.operand, hr, hsl], k⟩)

theorem wr_join {c : Call} {r : Nat} {h : HV} {s : Sl} (ha : c.joinsAct = .app r) (hr : hs[r]? = some h) (hsl : h.joinsSl = some s) :
    Wr (c.outJ m hs) s :=
  fun a i k => .inl (.inl ⟨s, by simp [ha, Act.slice, Act.operand, hr, hsl], k⟩)

theorem wr_sort {c : Call} {r : Nat} {h : HV} {s : Sl} (ha : c.sortsAct = .app r) (hr : hs[r]? = some h) (hsl : h.sortsSl = some s) :
    Wr (c.outS m hs) s :=
  fun a i k => .inl ⟨s, by simp [ha, Act.slice, Act.operand, hr, hsl], k⟩

theorem wr_val {c : Call} {r : Nat} {h : HV} {s : Sl} (ha : c.valsAct = .app r) (hr : hs[r]? = some h) (hsl : h.valsSl = some s) :
    Wr (c.outV m hs) s :=
  fun a i k => .inl ⟨s, by simp [ha, Act.slice, Act.operand, hr, hsl], k⟩

theorem ok_of_toOption {α : Type} {r : Res α} {x : α} (h : r.toOption = some x) : r = .ok x := by
  cases r <;> simp [Res.toOption] at h; rw [h]

/-- Every call writes only where `writesCond` and the others say, and into new arrays. -/
theorem sparM_call (pol : Policy) (c : Call) (x : Mem × HV) (h : c.heap pol m hs = some x) :
    SparM (c.outC m hs) (c.outJ m hs) (c.outS m hs) (c.outV m hs) m x.1 := by
  have nc : New m.conds.length (c.outC m hs) := fun a i l => .inr l
  have nv : New m.vals.length (c.outV m hs) := fun a i l => .inr l
  cases c <;> simp only [Call.heap] at h
  case leaf c => split at h <;> cases h; exact .refl _
  case newGroup j args =>
    obtain ⟨cs, _, rfl⟩ := Option.map_eq_some_iff.1 h
    exact sparM_conds (spar_newGroup _ _)
  case andF r args =>
    split at h
    · rename_i c cs hr _
      cases h
      exact sparM_conds (spar_and _ nc c (fun b s br e => by subst e; exact wr_cond rfl hr rfl) cs).2
    · cases h
  case orF r args =>
    split at h
    · rename_i c cs hr _
      cases h
      exact sparM_conds (spar_or _ nc c (fun b s br e => by subst e; exact wr_cond rfl hr rfl) cs).2
    · cases h
  case and r args =>
    split at h
    · rename_i c cs hr _
      cases h
      exact sparM_conds (spar_and _ nc c (fun b s br e => by subst e; exact wr_cond rfl hr rfl) cs).1
    · cases h
  case or r args =>
    split at h
    · rename_i c cs hr _
      obtain ⟨y, e, rfl⟩ := Option.map_eq_some_iff.1 h
      exact sparM_conds ((spar_or _ nc c (fun b s br e => by subst e; exact wr_cond rfl hr rfl) cs).1 y (ok_of_toOption e))
    · cases h
  case negate r n => split at h <;> cases h; exact .refl _
  case join r j => split at h <;> cases h; exact .refl _
  case withBrackets r => split at h <;> cases h; exact .refl _
  case applySpec r spec =>
    split at h
    · rename_i c hr
      obtain ⟨y, e, rfl⟩ := Option.map_eq_some_iff.1 h
      obtain ⟨k1, k2⟩ := shut_through (st := m.conds) c
      refine sparM_conds ((spar_applySpec spec _ _ _ _ k1 k2 e).1.mono fun a i ⟨s, h1, h2⟩ => ?_)
      exact .inl (.inr ⟨rfl, r, _, rfl, hr, c, s, rfl, h1, h2⟩)
    · cases h
  case applyTable r t =>
    split at h
    · rename_i c hr
      obtain ⟨y, e, rfl⟩ := Option.map_eq_some_iff.1 h
      obtain ⟨k1, k2⟩ := shut_through (st := m.conds) c
      refine sparM_conds ((spar_applyTable t _ _ _ _ k1 k2 e).1.mono fun a i ⟨s, h1, h2⟩ => ?_)
      exact .inl (.inr ⟨rfl, r, _, rfl, hr, c, s, rfl, h1, h2⟩)
    · cases h
  case selectFrom p =>
    obtain ⟨y, e, rfl⟩ := Option.map_eq_some_iff.1 h
    exact sparM_select (ok_of_toOption e)
  case fields r fs =>
    split at h
    · cases h; exact sparM_defs (spar_make _)
    · cases h; exact sparM_zero.trans (sparM_defs (spar_make _))
    · cases h; exact sparM_defs (spar_make _)
    · cases h
  case where_ r args =>
    split at h
    · rename_i q cs hr _; cases h; exact sparM_where pol q nc (wr_cond rfl hr rfl) cs
    · rename_i q cs hr _; cases h; exact sparM_where pol q nc (wr_cond rfl hr rfl) cs
    · rename_i q cs hr _; cases h; exact sparM_where pol q.base nc (wr_cond rfl hr rfl) cs
    · rename_i q cs hr _; cases h; exact sparM_conds (spar_addConditions _ nc (wr_cond rfl hr rfl) _ _)
    · rename_i q cs hr _; cases h; exact sparM_conds (spar_addConditions _ nc (wr_cond rfl hr rfl) _ _)
    · cases h
  case joinTable r t j =>
    split at h
    · rename_i q hr; cases h; exact sparM_joins (spar_append _ (wr_join rfl hr rfl) _)
    · rename_i q hr; cases h; exact sparM_joins (spar_append _ (wr_join rfl hr rfl) _)
    · rename_i q hr; cases h; exact sparM_joins (spar_append _ (wr_join rfl hr rfl) _)
    · cases h
  case on r l x =>
    split at h
    · rename_i q hr
      obtain ⟨y, e, rfl⟩ := Option.map_eq_some_iff.1 h
      exact sparM_on (ok_of_toOption e) fun a i h1 h2 => .inl (.inr ⟨r, _, _, rfl, hr, rfl, h1, h2⟩)
    · rename_i q hr
      obtain ⟨y, e, rfl⟩ := Option.map_eq_some_iff.1 h
      exact sparM_on (ok_of_toOption e) fun a i h1 h2 => .inl (.inr ⟨r, _, _, rfl, hr, rfl, h1, h2⟩)
    · rename_i q hr
      obtain ⟨y, e, rfl⟩ := Option.map_eq_some_iff.1 h
      exact sparM_on (ok_of_toOption e) fun a i h1 h2 => .inl (.inr ⟨r, _, _, rfl, hr, rfl, h1, h2⟩)
    · cases h
  case single r => split at h <;> cases h; exact .refl _
  case many r => split at h <;> cases h; exact sparM_sorts (spar_make _)
  case embedded r => split at h <;> cases h <;> exact .refl _
  case offset r n => split at h <;> cases h; exact .refl _
  case limit r n => split at h <;> cases h; exact .refl _
  case orderBy r os =>
    split at h
    · rename_i q hr; cases h; exact sparM_sorts (spar_append _ (wr_sort rfl hr rfl) _)
    · cases h
  case count r fs =>
    split at h
    · obtain ⟨y, e, rfl⟩ := Option.map_eq_some_iff.1 h; exact .refl _
    · obtain ⟨y, e, rfl⟩ := Option.map_eq_some_iff.1 h; exact .refl _
    · cases h
  case insertInto p => cases h; exact sparM_vals (spar_make _)
  case insertFrom r vs =>
    split at h
    · cases h
      exact sparM_insertFrom pol nv _ _
    · cases h
  case values r vs =>
    split at h
    · rename_i q hr; cases h; exact sparM_vals (spar_append _ (wr_val rfl hr rfl) _)
    · cases h
  case update p => cases h; exact sparM_update p
  case updateFrom r vs =>
    split at h
    · cases h; exact sparM_updateFrom pol _ nc nv _ _
    · cases h; exact sparM_updateFrom pol _ nc nv _ _
    · cases h; exact sparM_updateFrom pol _ nc nv _ _
    · cases h
  case set r vs =>
    split at h
    · rename_i q hr; cases h; exact sparM_vals (spar_append _ (wr_val rfl hr rfl) _)
    · cases h
  case delete p => cases h; exact sparM_conds (spar_newGroup _ _)
  case deleteFrom r =>
    split at h
    · cases h; exact sparM_deleteFrom pol _ nc _
    · cases h; exact sparM_deleteFrom pol _ nc _
    · cases h; exact sparM_deleteFrom pol _ nc _
    · cases h

end

end Query
