import Verif.Proof.SpillLook
/-!
# Calls on new values leave old arrays alone
-/
namespace Query
open Store

/-- The slice is in an array from number `n` on. -/
def Hi (n : Nat) (s : Sl) : Prop := n ≤ s.arr

/-- If the condition is a group, its members are in an array from number `n` on. -/
def HCond.hi (n : Nat) (c : HCond) : Prop := ∀ b s br, c = .group b s br → Hi n s

theorem HCond.hi.join {n : Nat} {c : HCond} (h : c.hi n) (j : Str) : (c.join j).hi n := by
  cases c with
  | leaf c => intro b s br e; simp [HCond.join] at e
  | group b s br => intro b' s' br' e; simp only [HCond.join, HCond.group.injEq] at e; rw [← e.2.1]; exact h _ _ _ rfl

theorem HCond.hi.neg {n : Nat} {c : HCond} (h : c.hi n) (x : Bool) : (c.setNegate x).hi n := by
  cases c with
  | leaf c => intro b s br e; simp [HCond.setNegate] at e
  | group b s br => intro b' s' br' e; simp only [HCond.setNegate, HCond.group.injEq] at e; rw [← e.2.1]; exact h _ _ _ rfl

theorem hi_group {n : Nat} {g : HGroup} (h : Hi n g.s) : g.toCond.hi n := by
  intro b s br e
  simp only [HGroup.toCond, HCond.group.injEq] at e
  rw [← e.2.1]; exact h

section
variable {n : Nat} {st : Store HCond}

theorem hi_alloc {α : Type} {st : Store α} (hn : n ≤ st.length) (xs : List α) (cap : Nat) : Hi n (st.alloc xs cap).2 := hn

theorem hi_make {α : Type} {st : Store α} (hn : n ≤ st.length) (xs : List α) : Hi n (st.make xs).2 := hn

theorem hi_append {α : Type} {st : Store α} {s : Sl} (gr : Grow) (hn : n ≤ st.length) (h : Hi n s) (xs : List α) : Hi n (st.append gr s xs).2 := by
  simp only [Store.append]
  split
  · exact h
  · exact hn

theorem hi_app {g : HGroup} (gr : Grow) (hn : n ≤ st.length) (h : Hi n g.s) (xs : List HCond) : Hi n (g.app gr st xs).2.s := hi_append gr hn h xs

theorem hi_lit {g : HGroup} (hn : n ≤ st.length) (xs : List HCond) : Hi n (g.lit st xs).2.s := hn

theorem hi_litApp {g : HGroup} (gr : Grow) (hn : n ≤ st.length) (xs ys : List HCond) :
    Hi n ((g.lit st xs).2.app gr (g.lit st xs).1 ys).2.s :=
  hi_app gr (by simp only [HGroup.lit, Store.make, Store.alloc, List.length_append]; omega) (hi_lit hn xs) ys

theorem hi_addGroup {g a : HGroup} (gr : Grow) (hn : n ≤ st.length) (h : Hi n g.s) (ha : Hi n a.s) : Hi n (g.addGroup gr st a).2.s := by
  simp only [HGroup.addGroup]
  repeat' split
  all_goals first
    | exact ha
    | exact hi_app gr hn h _
    | exact hi_litApp gr hn _ _
    | exact hi_lit hn _

theorem hi_addSingle {g : HGroup} {c : HCond} (gr : Grow) (hn : n ≤ st.length) (h : Hi n g.s) (hc : c.hi n) :
    Hi n (g.addSingleCondition gr st c).2.s := by
  simp only [HGroup.addSingleCondition]
  split
  · rename_i a e
    refine hi_addGroup gr hn h ?_
    cases c with
    | leaf c => cases e
    | group b s br => cases e; exact hc _ _ _ rfl
  · repeat' split
    all_goals first
      | exact hi_app gr hn h _
      | exact hi_lit hn _

theorem hi_newGroup (hn : n ≤ st.length) (j : Str) (cs : List HCond) : Hi n (newGroupH st j cs).2.s := hn

theorem newGroupH_len (j : Str) (cs : List HCond) : (newGroupH st j cs).1.length = st.length + 1 := by
  simp [newGroupH, Store.make, Store.alloc]

theorem hi_addConditions {g : HGroup} {cs : List HCond} (gr : Grow) (hn : n ≤ st.length) (h : Hi n g.s) (hc : ∀ c ∈ cs, c.hi n) (op : Str) :
    Hi n (g.addConditions gr st op cs).2.s := by
  simp only [HGroup.addConditions]
  split
  · exact h
  · rename_i c0 more
    repeat' split
    · exact hi_app gr hn h _
    · exact hi_addSingle gr hn h ((hc c0 (List.mem_cons_self ..)).join op)
    · exact hi_litApp gr hn _ _
    · exact hi_app gr (by rw [newGroupH_len]; omega) h _
    · exact hi_litApp gr (by rw [newGroupH_len]; omega) _ _

theorem hi_addFirst {g : HGroup} {cs : List HCond} (gr : Grow) (hn : n ≤ st.length) (h : Hi n g.s) (h0 : g.s.len = 0) (op : Str) :
    Hi n (g.addConditions gr st op cs).2.s := by
  simp only [HGroup.addConditions, h0]
  split
  · exact h
  · exact hi_app gr hn h _

theorem hi_groupOf {c : HCond} {cs : List HCond} (gr : Grow) (hn : n ≤ st.length) (hc : ∀ c ∈ cs, c.hi n) (j : Str) :
    (groupOf gr st j c cs).2.hi n :=
  hi_group (hi_addConditions gr (by rw [newGroupH_len]; omega) (hi_newGroup hn _ _) hc _)

theorem hi_andH {c : HCond} {cs : List HCond} (gr : Grow) (hn : n ≤ st.length) (h : c.hi n) (hc : ∀ c ∈ cs, c.hi n) :
    (andH gr st c cs).2.hi n := by
  simp only [andH]
  split
  · exact h.join _
  · split
    · rename_i g e
      cases c with
      | leaf c => cases e
      | group b s br => cases e; exact hi_group (hi_addConditions gr hn (h _ _ _ rfl) hc _)
    · exact hi_groupOf gr hn hc _

theorem hi_orH {c : HCond} {cs : List HCond} (gr : Grow) (hn : n ≤ st.length) (h : c.hi n) (hc : ∀ c ∈ cs, c.hi n) :
    (orH gr st c cs).2.hi n := by
  simp only [orH]
  split
  · exact h.join _
  · split
    · rename_i g e
      cases c with
      | leaf c => cases e
      | group b s br => cases e; exact (hi_group (hi_addConditions gr hn (h _ _ _ rfl) hc _)).join _
    · exact (hi_groupOf gr hn hc _).join _

theorem hi_and {c : HCond} {cs : List HCond} (gr : Grow) (hn : n ≤ st.length) (h : c.hi n) (hc : ∀ c ∈ cs, c.hi n) :
    (c.and gr st cs).2.hi n := by
  simp only [HCond.and]
  split
  · exact hi_groupOf gr hn hc _
  · exact hi_groupOf gr hn hc _
  · exact hi_groupOf gr hn hc _
  · exact hi_andH gr hn h hc
  · exact hi_group (hi_addConditions gr hn (h _ _ _ rfl) hc _)

theorem hi_or {c : HCond} {cs : List HCond} (gr : Grow) (hn : n ≤ st.length) (h : c.hi n) (hc : ∀ c ∈ cs, c.hi n) {x : Store HCond × HCond}
    (e : c.or gr st cs = .ok x) : x.2.hi n := by
  simp only [HCond.or] at e
  split at e <;> cases e
  · exact hi_groupOf gr hn hc _
  · exact hi_groupOf gr hn hc _
  · exact hi_orH gr hn h hc
  · exact hi_group (hi_addConditions gr hn (h _ _ _ rfl) hc _)

end

/-! ## Values -/

/-- The lists the value's calls extend are in arrays from these numbers on. -/
structure HV.Above (m0 : Mem) (h : HV) : Prop where
  conds : ∀ s, h.condsSl = some s → Hi m0.conds.length s
  joins : ∀ s, h.joinsSl = some s → Hi m0.joins.length s
  sorts : ∀ s, h.sortsSl = some s → Hi m0.sorts.length s
  vals : ∀ s, h.valsSl = some s → Hi m0.vals.length s

/-- The memory has at least the arrays of another. -/
structure Mem.Past (m0 m : Mem) : Prop where
  conds : m0.conds.length ≤ m.conds.length
  joins : m0.joins.length ≤ m.joins.length
  sorts : m0.sorts.length ≤ m.sorts.length
  vals : m0.vals.length ≤ m.vals.length

section
variable {m0 m : Mem} {hs : List HV}

theorem above_cond {c : HCond} (h : c.hi m0.conds.length) : HV.Above m0 (.cond c) := by
  refine ⟨fun s e => ?_, (fun s e => by cases e), (fun s e => by cases e), (fun s e => by cases e)⟩
  cases c with
  | leaf c => cases e
  | group b s br => cases e; exact h _ _ _ rfl

theorem HV.Above.cond {c : HCond} (h : HV.Above m0 (.cond c)) : c.hi m0.conds.length := by
  intro b s br e
  subst e
  exact h.conds s rfl

theorem above_args (ab : ∀ (i : Nat) (h : HV), hs[i]? = some h → h.Above m0) : ∀ (is : List Nat) (cs : List HCond), getCondsH hs is = some cs →
    ∀ c ∈ cs, c.hi m0.conds.length
  | [], cs, e => by cases e; intro c h; cases h
  | i :: is, cs, e => by
    simp only [getCondsH] at e
    split at e
    · rename_i c ds e1 e2
      cases e
      exact List.forall_mem_cons.2 ⟨(ab i _ e1).cond, above_args ab is ds e2⟩
    · cases e

/-- A base of a select. -/
theorem above_base {q : HBase} (h1 : Hi m0.conds.length q.where_.s) (h2 : Hi m0.joins.length q.joins) :
    HV.Above m0 (.base q) ∧ HV.Above m0 (.single q) ∧ HV.Above m0 (.joinB q) ∧ HV.Above m0 (.joinS q) := by
  refine ⟨?_, ?_, ?_, ?_⟩ <;>
    exact ⟨(fun s e => by cases e; exact h1), (fun s e => by cases e; exact h2), (fun s e => by cases e), (fun s e => by cases e)⟩

theorem above_many {q : HMany} (h1 : Hi m0.conds.length q.base.where_.s) (h2 : Hi m0.joins.length q.base.joins)
    (h3 : Hi m0.sorts.length q.order) : HV.Above m0 (.many q) ∧ HV.Above m0 (.joinM q) := by
  refine ⟨?_, ?_⟩ <;>
    exact ⟨(fun s e => by cases e; exact h1), (fun s e => by cases e; exact h2), (fun s e => by cases e; exact h3), (fun s e => by cases e)⟩

theorem above_insert {q : HInsert} (h : Hi m0.vals.length q.setValues) : HV.Above m0 (.insert q) :=
  ⟨(fun s e => by cases e), (fun s e => by cases e), (fun s e => by cases e), (fun s e => by cases e; exact h)⟩

theorem above_update {q : HUpdate} (h1 : Hi m0.conds.length q.where_.s) (h2 : Hi m0.vals.length q.setValues) : HV.Above m0 (.update q) :=
  ⟨(fun s e => by cases e; exact h1), (fun s e => by cases e), (fun s e => by cases e), (fun s e => by cases e; exact h2)⟩

theorem above_delete {q : HDelete} (h : Hi m0.conds.length q.where_.s) : HV.Above m0 (.delete q) :=
  ⟨(fun s e => by cases e; exact h), (fun s e => by cases e), (fun s e => by cases e), (fun s e => by cases e)⟩

theorem above_count (q : HBase) (fd : FieldDef) : HV.Above m0 (.count q fd) :=
  ⟨(fun s e => by cases e), (fun s e => by cases e), (fun s e => by cases e), (fun s e => by cases e)⟩

theorem on_same {q : HBase} {l r : FieldDef} {x : Mem × HBase} (h : q.on m l r = .ok x) : x.2 = q := by
  simp only [HBase.on] at h
  split at h
  · cases h; rfl
  · cases h

theorem above_updateFrom (pol : Policy) (past : m0.Past m) (q : HBase) (p : TableParam) (vs : List FieldValue) :
    HV.Above m0 (.update (q.update pol m p vs).2) := by
  simp only [HBase.update]
  have l1 : m0.conds.length ≤ (q.conditions m).1.conds.length := by
    simp only [HBase.conditions, Store.make, Store.alloc, List.length_append]
    exact Nat.le_add_right_of_le past.conds
  refine above_update ?_ ?_
  · refine hi_addFirst pol.conds ?_ (hi_newGroup l1 _ _) rfl _
    simp only [updateH, newGroupH_len]
    omega
  · refine hi_append pol.vals ?_ ?_ _
    · simp only [HUpdate.addWhere, updateH, HBase.conditions, Store.make, Store.alloc, List.length_append]
      exact Nat.le_add_right_of_le past.vals
    · exact past.vals

theorem above_deleteFrom (pol : Policy) (past : m0.Past m) (q : HBase) (p : TableParam) : HV.Above m0 (.delete (q.delete pol m p).2) := by
  simp only [HBase.delete]
  have l1 : m0.conds.length ≤ (q.conditions m).1.conds.length := by
    simp only [HBase.conditions, Store.make, Store.alloc, List.length_append]
    exact Nat.le_add_right_of_le past.conds
  refine above_delete (hi_addFirst pol.conds ?_ (hi_newGroup l1 _ _) rfl _)
  simp only [deleteH, newGroupH_len]
  omega

theorem above_base1 {q : HBase} (h1 : Hi m0.conds.length q.where_.s) (h2 : Hi m0.joins.length q.joins) : HV.Above m0 (.base q) :=
  (above_base h1 h2).1

theorem above_base2 {q : HBase} (h1 : Hi m0.conds.length q.where_.s) (h2 : Hi m0.joins.length q.joins) : HV.Above m0 (.single q) :=
  (above_base h1 h2).2.1

theorem above_base3 {q : HBase} (h1 : Hi m0.conds.length q.where_.s) (h2 : Hi m0.joins.length q.joins) : HV.Above m0 (.joinB q) :=
  (above_base h1 h2).2.2.1

theorem above_base4 {q : HBase} (h1 : Hi m0.conds.length q.where_.s) (h2 : Hi m0.joins.length q.joins) : HV.Above m0 (.joinS q) :=
  (above_base h1 h2).2.2.2

theorem above_many1 {q : HMany} (h1 : Hi m0.conds.length q.base.where_.s) (h2 : Hi m0.joins.length q.base.joins)
    (h3 : Hi m0.sorts.length q.order) : HV.Above m0 (.many q) := (above_many h1 h2 h3).1

theorem above_many2 {q : HMany} (h1 : Hi m0.conds.length q.base.where_.s) (h2 : Hi m0.joins.length q.base.joins)
    (h3 : Hi m0.sorts.length q.order) : HV.Above m0 (.joinM q) := (above_many h1 h2 h3).2

/-- A call on values whose lists are new makes such a value. -/
theorem above_call (pol : Policy) (past : m0.Past m) (ab : ∀ (i : Nat) (h : HV), hs[i]? = some h → h.Above m0) (c : Call)
    (hna : c.noApply = true) (x : Mem × HV) (h : c.heap pol m hs = some x) : x.2.Above m0 := by
  cases c <;> simp only [Call.heap] at h
  case leaf c => split at h <;> cases h; exact above_cond (fun _ _ _ e => by cases e)
  case newGroup j args =>
    obtain ⟨cs, _, rfl⟩ := Option.map_eq_some_iff.1 h
    exact above_cond (hi_group (hi_newGroup past.conds _ _))
  case andF r args =>
    split at h
    · rename_i c cs hr ha
      cases h
      exact above_cond (hi_andH _ past.conds (ab r _ hr).cond (above_args ab _ _ ha))
    · cases h
  case orF r args =>
    split at h
    · rename_i c cs hr ha
      cases h
      exact above_cond (hi_orH _ past.conds (ab r _ hr).cond (above_args ab _ _ ha))
    · cases h
  case and r args =>
    split at h
    · rename_i c cs hr ha
      cases h
      exact above_cond (hi_and _ past.conds (ab r _ hr).cond (above_args ab _ _ ha))
    · cases h
  case or r args =>
    split at h
    · rename_i c cs hr ha
      obtain ⟨y, e, rfl⟩ := Option.map_eq_some_iff.1 h
      exact above_cond (hi_or _ past.conds (ab r _ hr).cond (above_args ab _ _ ha) (ok_of_toOption e))
    · cases h
  case negate r n =>
    split at h <;> cases h
    rename_i c hr
    exact above_cond ((ab r _ hr).cond.neg n)
  case join r j =>
    split at h <;> cases h
    rename_i c hr
    exact above_cond ((ab r _ hr).cond.join j)
  case withBrackets r =>
    split at h <;> cases h
    rename_i b s br hr
    exact above_cond (fun _ _ _ e => by cases e; exact (ab r _ hr).conds s rfl)
  case applySpec r spec => cases hna
  case applyTable r t => cases hna
  case selectFrom p =>
    obtain ⟨y, e, rfl⟩ := Option.map_eq_some_iff.1 h
    have e := ok_of_toOption e
    simp only [selectFromH] at e
    obtain ⟨t, _, e⟩ := Res.bind_eq_ok.1 e
    cases e
    exact above_base1 (hi_newGroup past.conds _ _) (hi_make past.joins _)
  case fields r fs =>
    split at h
    · rename_i q hr; cases h; exact above_base1 ((ab r _ hr).conds _ rfl) ((ab r _ hr).joins _ rfl)
    · rename_i q hr; cases h; exact above_base2 (hi_make past.conds _) (hi_make past.joins _)
    · rename_i q hr; cases h; exact above_many1 ((ab r _ hr).conds _ rfl) ((ab r _ hr).joins _ rfl) ((ab r _ hr).sorts _ rfl)
    · cases h
  case where_ r args =>
    split at h
    · rename_i q cs hr ha; cases h
      exact above_base1 (hi_addConditions _ past.conds ((ab r _ hr).conds _ rfl) (above_args ab _ _ ha) _) ((ab r _ hr).joins _ rfl)
    · rename_i q cs hr ha; cases h
      exact above_base2 (hi_addConditions _ past.conds ((ab r _ hr).conds _ rfl) (above_args ab _ _ ha) _) ((ab r _ hr).joins _ rfl)
    · rename_i q cs hr ha; cases h
      exact above_many1 (hi_addConditions _ past.conds ((ab r _ hr).conds _ rfl) (above_args ab _ _ ha) _) ((ab r _ hr).joins _ rfl)
        ((ab r _ hr).sorts _ rfl)
    · rename_i q cs hr ha; cases h
      exact above_update (hi_addConditions _ past.conds ((ab r _ hr).conds _ rfl) (above_args ab _ _ ha) _) ((ab r _ hr).vals _ rfl)
    · rename_i q cs hr ha; cases h
      exact above_delete (hi_addConditions _ past.conds ((ab r _ hr).conds _ rfl) (above_args ab _ _ ha) _)
    · cases h
  case joinTable r t j =>
    split at h
    · rename_i q hr; cases h; exact above_base3 ((ab r _ hr).conds _ rfl) (hi_append _ past.joins ((ab r _ hr).joins _ rfl) _)
    · rename_i q hr; cases h; exact above_base4 ((ab r _ hr).conds _ rfl) (hi_append _ past.joins ((ab r _ hr).joins _ rfl) _)
    · rename_i q hr; cases h
      exact above_many2 ((ab r _ hr).conds _ rfl) (hi_append _ past.joins ((ab r _ hr).joins _ rfl) _) ((ab r _ hr).sorts _ rfl)
    · cases h
  case on r l x =>
    split at h
    · rename_i q hr
      obtain ⟨y, e, rfl⟩ := Option.map_eq_some_iff.1 h
      have e := on_same (ok_of_toOption e)
      simp only [e]
      exact above_base1 ((ab r _ hr).conds _ rfl) ((ab r _ hr).joins _ rfl)
    · rename_i q hr
      obtain ⟨y, e, rfl⟩ := Option.map_eq_some_iff.1 h
      have e := on_same (ok_of_toOption e)
      simp only [e]
      exact above_base2 ((ab r _ hr).conds _ rfl) ((ab r _ hr).joins _ rfl)
    · rename_i q hr
      obtain ⟨y, e, rfl⟩ := Option.map_eq_some_iff.1 h
      have e := on_same (ok_of_toOption e)
      simp only [e]
      exact above_many1 ((ab r _ hr).conds _ rfl) ((ab r _ hr).joins _ rfl) ((ab r _ hr).sorts _ rfl)
    · cases h
  case single r =>
    split at h <;> cases h
    rename_i q hr
    exact above_base2 ((ab r _ hr).conds _ rfl) ((ab r _ hr).joins _ rfl)
  case many r =>
    split at h <;> cases h
    rename_i q hr
    exact above_many1 ((ab r _ hr).conds _ rfl) ((ab r _ hr).joins _ rfl) (hi_make past.sorts _)
  case embedded r =>
    split at h <;> cases h <;> rename_i q hr <;> exact above_base1 ((ab r _ hr).conds _ rfl) ((ab r _ hr).joins _ rfl)
  case offset r n =>
    split at h <;> cases h
    rename_i q hr
    exact above_many1 ((ab r _ hr).conds _ rfl) ((ab r _ hr).joins _ rfl) ((ab r _ hr).sorts _ rfl)
  case limit r n =>
    split at h <;> cases h
    rename_i q hr
    exact above_many1 ((ab r _ hr).conds _ rfl) ((ab r _ hr).joins _ rfl) ((ab r _ hr).sorts _ rfl)
  case orderBy r os =>
    split at h <;> cases h
    rename_i q hr
    exact above_many1 ((ab r _ hr).conds _ rfl) ((ab r _ hr).joins _ rfl) (hi_append _ past.sorts ((ab r _ hr).sorts _ rfl) _)
  case count r fs =>
    split at h
    · obtain ⟨y, e, rfl⟩ := Option.map_eq_some_iff.1 h; exact above_count _ _
    · obtain ⟨y, e, rfl⟩ := Option.map_eq_some_iff.1 h; exact above_count _ _
    · cases h
  case insertInto p => cases h; exact above_insert (hi_make past.vals _)
  case insertFrom r vs =>
    split at h <;> cases h
    refine above_insert (hi_append _ ?_ (hi_make past.vals _) _)
    simp only [insertIntoH, Store.make, Store.alloc, List.length_append]
    exact Nat.le_add_right_of_le past.vals
  case values r vs =>
    split at h <;> cases h
    rename_i q hr
    exact above_insert (hi_append _ past.vals ((ab r _ hr).vals _ rfl) _)
  case update p => cases h; exact above_update (hi_newGroup past.conds _ _) (hi_make past.vals _)
  case updateFrom r vs => split at h <;> cases h <;> exact above_updateFrom pol past _ _ _
  case set r vs =>
    split at h <;> cases h
    rename_i q hr
    exact above_update ((ab r _ hr).conds _ rfl) (hi_append _ past.vals ((ab r _ hr).vals _ rfl) _)
  case delete p => cases h; exact above_delete (hi_newGroup past.conds _ _)
  case deleteFrom r => split at h <;> cases h <;> exact above_deleteFrom pol past _ _

/-- Arrays the memory had keep what they hold. -/
def Mem.Keeps (m0 m m' : Mem) : Prop :=
  SparM (fun a _ => m0.conds.length ≤ a) (fun a _ => m0.joins.length ≤ a) (fun a _ => m0.sorts.length ≤ a) (fun a _ => m0.vals.length ≤ a) m m'

theorem slice_hi {sl : HV → Option Sl} {n : Nat} (ab : ∀ (i : Nat) (h : HV), hs[i]? = some h → ∀ s, sl h = some s → Hi n s) {a : Act} {s : Sl}
    (h : a.slice hs sl = some s) : Hi n s := by
  simp only [Act.slice] at h
  obtain ⟨v, h1, h2⟩ := Option.bind_eq_some_iff.1 h
  obtain ⟨r, _, h3⟩ := Option.bind_eq_some_iff.1 h1
  exact ab r v h3 s h2

theorem keeps_call (pol : Policy) (past : m0.Past m) (ab : ∀ (i : Nat) (h : HV), hs[i]? = some h → h.Above m0) (c : Call)
    (hna : c.noApply = true) (x : Mem × HV) (h : c.heap pol m hs = some x) : m0.Keeps m x.1 := by
  have k := sparM_call pol c x h
  refine ⟨k.conds.mono fun a i w => ?_, k.joins.mono fun a i w => ?_, k.sorts.mono fun a i w => ?_, k.vals.mono fun a i w => ?_, k.defs⟩
  · rcases w with (⟨s, e, sp⟩ | ⟨e, _⟩) | w
    · have := slice_hi (fun i h e => (ab i h e).conds) e
      rw [← sp.1]; exact this
    · rw [hna] at e; cases e
    · exact Nat.le_trans past.conds w
  · rcases w with (⟨s, e, sp⟩ | ⟨r, v, s, e, hr, hj, rfl, _⟩) | w
    · have := slice_hi (fun i h e => (ab i h e).joins) e
      rw [← sp.1]; exact this
    · cases c <;> simp only [Call.completes, reduceCtorEq, Option.some.injEq] at e
      subst e
      simp only [Call.heap, hr] at h
      cases v <;> simp only [reduceCtorEq] at h <;> simp only [HV.joinList, Option.some.injEq] at hj <;> subst hj <;>
        exact (ab _ _ hr).joins _ rfl
    · exact Nat.le_trans past.joins w
  · rcases w with ⟨s, e, sp⟩ | w
    · have := slice_hi (fun i h e => (ab i h e).sorts) e
      rw [← sp.1]; exact this
    · exact Nat.le_trans past.sorts w
  · rcases w with ⟨s, e, sp⟩ | w
    · have := slice_hi (fun i h e => (ab i h e).vals) e
      rw [← sp.1]; exact this
    · exact Nat.le_trans past.vals w

end

/-- Calls that start from no value leave the arrays there were alone. -/
theorem keeps_run (pol : Policy) (m0 : Mem) : ∀ (cs : List Call) (m : Mem) (hs : List HV) (m' : Mem) (hs' : List HV), m0.Past m →
    (∀ (i : Nat) (h : HV), hs[i]? = some h → h.Above m0) → (∀ c ∈ cs, c.noApply = true) → runHeap pol m hs cs = some (m', hs') → m0.Keeps m m'
  | [], m, hs, m', hs', _, _, _, h => by cases h; exact SparM.refl _
  | c :: cs, m, hs, m', hs', past, ab, hna, h => by
    simp only [runHeap] at h
    cases e : c.heap pol m hs with
    | none => rw [e] at h; cases h
    | some x =>
      rw [e] at h
      have hc := hna c (List.mem_cons_self ..)
      have k := keeps_call pol past ab c hc x e
      refine k.trans (keeps_run pol m0 cs x.1 (hs ++ [x.2]) m' hs' ?_ ?_ (fun d hd => hna d (List.mem_cons_of_mem _ hd)) h)
      · exact ⟨Nat.le_trans past.conds k.conds.len, Nat.le_trans past.joins k.joins.len, Nat.le_trans past.sorts k.sorts.len,
          Nat.le_trans past.vals k.vals.len⟩
      · intro i v hv
        by_cases hi : i < hs.length
        · rw [List.getElem?_append_left hi] at hv; exact ab i v hv
        · rw [List.getElem?_append_right (by omega)] at hv
          have : i - hs.length = 0 := by
            rcases Nat.eq_zero_or_pos (i - hs.length) with z | z
            · exact z
            · rw [List.getElem?_eq_none (by simp only [List.length_singleton]; exact z)] at hv; cases hv
          rw [this] at hv
          cases hv
          exact above_call pol past ab c hc x e

theorem Mem.Keeps.same {m m' : Mem} {h : HV} (k : m.Keeps m m') (sb : StB m.conds) (hb : h.bnd m) : h.Same m m' := by
  refine same_of_apart (hs := []) (c := .delete (.str [])) ⟨k.conds.mono fun a i w => .inr w, k.joins.mono fun a i w => .inr w,
    k.sorts.mono fun a i w => .inr w, k.vals.mono fun a i w => .inr w, k.defs⟩ sb hb ?_
  rintro ⟨a, i, ⟨h1, _⟩ | ⟨h1, _⟩ | ⟨h1, _⟩ | ⟨h1, _⟩⟩
  · rcases h1 with ⟨s, e, _⟩ | ⟨e, _⟩
    · cases e
    · cases e
  · rcases h1 with ⟨s, e, _⟩ | ⟨r, v, s, e, _⟩
    · cases e
    · cases e
  · obtain ⟨s, e, _⟩ := h1; cases e
  · obtain ⟨s, e, _⟩ := h1; cases e

end Query
