import Verif.Proof.HeapBound
import Verif.Proof.HeapStore
import Verif.Spec.Frame
/-!
# What sharing leaves alone: the invariant
-/
namespace Query
open Store

/-! ## Lengths -/

theorem len_append {α : Type} (gr : Grow) (st : Store α) (s : Sl) (xs : List α) (h : InB st s) :
    (st.append gr s xs).2.len = s.len + xs.length := by
  unfold Store.append
  split
  · rfl
  · simp only [Store.alloc, List.length_append, Store.read, List.length_take]
    have := h.2
    omega

theorem len_app (gr : Grow) (st : Store HCond) (g : HGroup) (xs : List HCond) (h : InB st g.s) :
    (g.app gr st xs).2.s.len = g.s.len + xs.length := len_append gr st g.s xs h

theorem le_make {α : Type} (st : Store α) (xs : List α) : Le st (st.make xs).1 := le_alloc st xs _

/-! ## Groups -/

/-- What adding conditions to a nonempty group leaves as it is. -/
def Grown (g : HGroup) (r : Store HCond × HGroup) : Prop := r.2.base = g.base ∧ r.2.br = g.br ∧ r.2.s.len ≠ 0

theorem grown_app (gr : Grow) {st : Store HCond} {g : HGroup} (xs : List HCond) (h : InB st g.s) (h0 : g.s.len ≠ 0) :
    Grown g (g.app gr st xs) := ⟨rfl, rfl, by rw [len_app _ _ _ _ h]; omega⟩

theorem grown_lit {st : Store HCond} {g : HGroup} (x : HCond) (xs : List HCond) : Grown g (g.lit st (x :: xs)) :=
  ⟨rfl, rfl, by simp [HGroup.lit, Store.make, Store.alloc]⟩

theorem grown_litApp (gr : Grow) {st : Store HCond} {g : HGroup} (x : HCond) (xs : List HCond) :
    Grown g ((g.lit st [x]).2.app gr (g.lit st [x]).1 xs) := by
  refine ⟨rfl, rfl, ?_⟩
  rw [len_app _ _ _ _ (inb_make st [x])]
  simp [HGroup.lit, Store.make, Store.alloc]

theorem grown_ite {p : Prop} [Decidable p] {g : HGroup} {a b : Store HCond × HGroup} (h : p → Grown g a) (k : ¬ p → Grown g b) :
    Grown g (if p then a else b) := by
  split
  · exact h (by assumption)
  · exact k (by assumption)

theorem grown_addGroup (gr : Grow) {st : Store HCond} {g : HGroup} (another : HGroup) (h : InB st g.s) (h0 : g.s.len ≠ 0) :
    Grown g (g.addGroup gr st another) := by
  unfold HGroup.addGroup
  dsimp only
  refine grown_ite (fun e => absurd (by simpa using e) h0) fun _ => ?_
  repeat' refine grown_ite (fun _ => ?_) (fun _ => ?_)
  all_goals first
    | exact grown_app gr _ h h0
    | exact grown_litApp gr _ _
    | exact grown_lit _ _

theorem grown_addSingle (gr : Grow) {st : Store HCond} {g : HGroup} (c : HCond) (h : InB st g.s) (h0 : g.s.len ≠ 0) :
    Grown g (g.addSingleCondition gr st c) := by
  unfold HGroup.addSingleCondition
  dsimp only
  split
  · exact grown_addGroup gr _ h h0
  · refine grown_ite (fun e => absurd (by simpa using e) h0) fun _ => ?_
    repeat' refine grown_ite (fun _ => ?_) (fun _ => ?_)
    all_goals first
      | exact grown_app gr _ h h0
      | exact grown_lit _ _

theorem grown_addConditions (gr : Grow) {st : Store HCond} {g : HGroup} (op : Str) (cs : List HCond) (h : InB st g.s)
    (h0 : g.s.len ≠ 0) : Grown g (g.addConditions gr st op cs) := by
  unfold HGroup.addConditions
  dsimp only
  split
  · exact ⟨rfl, rfl, h0⟩
  · refine grown_ite (fun e => absurd e (by simp; omega)) fun _ => ?_
    refine grown_ite (fun _ => grown_addSingle gr _ h h0) fun _ => ?_
    refine grown_ite (fun _ => grown_litApp gr _ _) fun _ => ?_
    refine grown_ite (fun _ => grown_app gr _ (h.mono (sz_make _ _)) h0) fun _ => ?_
    exact grown_litApp gr _ _

theorem fresh_addConditions (gr : Grow) {st : Store HCond} {g : HGroup} (op : Str) (cs : List HCond) (h : InB st g.s)
    (h0 : g.s.len = 0) (hne : cs ≠ []) :
    (g.addConditions gr st op cs).2.base = { g.base with joinType := op } ∧ (g.addConditions gr st op cs).2.br = g.br ∧
      (g.addConditions gr st op cs).2.s.len = cs.length := by
  cases cs with
  | nil => exact absurd rfl hne
  | cons c cs =>
    simp only [HGroup.addConditions, h0, gt_iff_lt, Nat.lt_irrefl, decide_false, Bool.not_false, if_true]
    refine ⟨?_, ?_, ?_⟩
    · trivial
    · rfl
    · simp only [HGroup.app, len_append gr st g.s _ h, h0, Nat.zero_add]

/-- The same for plain groups. -/
def GrownP (g r : Group) : Prop := r.base = g.base ∧ r.brackets = g.brackets ∧ r.conds ≠ []

theorem grownP_ite {p : Prop} [Decidable p] {g a b : Group} (h : p → GrownP g a) (k : ¬ p → GrownP g b) :
    GrownP g (if p then a else b) := by
  split
  · exact h (by assumption)
  · exact k (by assumption)

theorem grownP_addGroup {g : Group} (another : Group) (h0 : g.conds ≠ []) : GrownP g (g.addGroup another) := by
  unfold Group.addGroup
  dsimp only
  refine grownP_ite (fun e => absurd (by simpa using e) h0) fun _ => ?_
  repeat' refine grownP_ite (fun _ => ?_) (fun _ => ?_)
  all_goals exact ⟨rfl, rfl, by simp [h0]⟩

theorem grownP_addSingle {g : Group} (c : Cond) (h0 : g.conds ≠ []) : GrownP g (g.addSingleCondition c) := by
  unfold Group.addSingleCondition
  dsimp only
  split
  · exact grownP_addGroup _ h0
  · refine grownP_ite (fun e => absurd (by simpa using e) h0) fun _ => ?_
    repeat' refine grownP_ite (fun _ => ?_) (fun _ => ?_)
    all_goals exact ⟨rfl, rfl, by simp [h0]⟩

theorem grownP_addConditions {g : Group} (op : Str) (cs : List Cond) (h0 : g.conds ≠ []) : GrownP g (g.addConditions op cs) := by
  unfold Group.addConditions
  dsimp only
  have : g.conds.length > 0 := List.length_pos_iff.2 h0
  split
  · exact ⟨rfl, rfl, h0⟩
  · refine grownP_ite (fun e => absurd e (by simp [h0])) fun _ => ?_
    refine grownP_ite (fun _ => grownP_addSingle _ h0) fun _ => ?_
    repeat' refine grownP_ite (fun _ => ?_) (fun _ => ?_)
    all_goals exact ⟨rfl, rfl, by simp [h0]⟩

theorem like_addConditions (gr : Grow) {st : Store HCond} {g : HGroup} {k : Group} (op : Str) {cs : List HCond} {ds : List Cond}
    (h : InB st g.s) (hl : cs.length = 0 ↔ ds.length = 0) (l : LikeG g k) :
    LikeG (g.addConditions gr st op cs).2 (k.addConditions op ds) := by
  by_cases hc : cs = []
  · subst hc
    obtain rfl : ds = [] := List.length_eq_zero_iff.1 (hl.1 rfl)
    exact l
  · by_cases h0 : g.s.len = 0
    · obtain ⟨a, b, c⟩ := fresh_addConditions gr op cs h h0 hc
      have hk := l.2.2.1 h0
      have hd : ds ≠ [] := fun e => hc (List.length_eq_zero_iff.1 (hl.2 (by simp [e])))
      match ds, hd with
      | d :: ds, hd =>
        refine ⟨?_, ?_, ?_⟩
        · rw [a, l.1]; simp [Group.addConditions, hk]
        · rw [b, l.2.1]; simp [Group.addConditions, hk]
        · rw [c, hl]; simp [Group.addConditions, hk]
    · obtain ⟨a, b, c⟩ := grown_addConditions gr op cs h h0
      obtain ⟨a', b', c'⟩ := grownP_addConditions op ds (fun e => h0 (l.2.2.2 e))
      exact ⟨by rw [a, a', l.1], by rw [b, b', l.2.1], by simp [c, c']⟩

theorem LikeG.toC {g : HGroup} {k : Group} (l : LikeG g k) : LikeC g.toCond k.toCond := by
  obtain ⟨b, s, br⟩ := g
  obtain ⟨b', cs, br'⟩ := k
  obtain ⟨rfl, rfl, h⟩ := l
  exact ⟨cs, rfl, h⟩

theorem LikeC.join {c : HCond} {d : Cond} (l : LikeC c d) (j : Str) : LikeC (c.join j) (d.join j) := by
  cases c with
  | leaf c' =>
    obtain ⟨rfl, h⟩ := l
    cases c' <;> first | exact ⟨rfl, rfl⟩ | cases h
  | group b s br => obtain ⟨cs, rfl, h⟩ := l; exact ⟨cs, rfl, h⟩

theorem LikeC.negate {c : HCond} {d : Cond} (l : LikeC c d) (n : Bool) : LikeC (c.setNegate n) (d.setNegate n) := by
  cases c with
  | leaf c' =>
    obtain ⟨rfl, h⟩ := l
    cases c' <;> first | exact ⟨rfl, rfl⟩ | cases h
  | group b s br => obtain ⟨cs, rfl, h⟩ := l; exact ⟨cs, rfl, h⟩

theorem like_newGroup (st : Store HCond) (j : Str) {cs : List HCond} {ds : List Cond} (hl : cs.length = ds.length) :
    LikeG (newGroupH st j cs).2 (newGroup j ds) := by
  refine ⟨rfl, rfl, ?_⟩
  simp only [newGroupH, newGroup, Store.make, Store.alloc, List.length_map, setToAll, List.map_eq_nil_iff, hl, List.length_eq_zero_iff]

theorem like_groupOf (gr : Grow) (st : Store HCond) (j : Str) (c : HCond) (d : Cond) {cs : List HCond} {ds : List Cond}
    (hl : cs.length = 0 ↔ ds.length = 0) : LikeC (groupOf gr st j c cs).2 ((newGroup j [d]).addConditions j ds).toCond :=
  (like_addConditions gr j (inb_make _ _) hl (like_newGroup st j (cs := [c]) (ds := [d]) rfl)).toC

theorem like_andH (gr : Grow) {st : Store HCond} {c : HCond} {d : Cond} {cs : List HCond} {ds : List Cond} (hb : c.bnd st)
    (hl : cs.length = 0 ↔ ds.length = 0) (l : LikeC c d) : LikeC (andH gr st c cs).2 (andC d ds) := by
  unfold andH andC
  simp only [hl]
  split
  · exact l.join lAND
  · cases c with
    | leaf c' =>
      obtain ⟨rfl, h⟩ := l
      simp only [HCond.asGroup, h]
      exact like_groupOf gr st lAND _ _ hl
    | group b s br =>
      obtain ⟨xs, rfl, h⟩ := l
      exact (like_addConditions gr lAND (g := ⟨b, s, br⟩) (k := ⟨b, xs, br⟩) hb hl ⟨rfl, rfl, h⟩).toC

theorem like_orH (gr : Grow) {st : Store HCond} {c : HCond} {d : Cond} {cs : List HCond} {ds : List Cond} (hb : c.bnd st)
    (hl : cs.length = 0 ↔ ds.length = 0) (l : LikeC c d) : LikeC (orH gr st c cs).2 (orC d ds) := by
  unfold orH orC
  simp only [hl]
  split
  · exact l.join lOR
  · cases c with
    | leaf c' =>
      obtain ⟨rfl, h⟩ := l
      simp only [HCond.asGroup, h]
      exact (like_groupOf gr st lOR _ _ hl).join lOR
    | group b s br =>
      obtain ⟨xs, rfl, h⟩ := l
      exact (like_addConditions gr lOR (g := ⟨b, s, br⟩) (k := ⟨b, xs, br⟩) hb hl ⟨rfl, rfl, h⟩).toC.join lOR

theorem like_and (gr : Grow) {st : Store HCond} {c : HCond} {d : Cond} {cs : List HCond} {ds : List Cond} (hb : c.bnd st)
    (hl : cs.length = 0 ↔ ds.length = 0) (l : LikeC c d) : LikeC (c.and gr st cs).2 (d.and ds) := by
  cases c with
  | leaf c' =>
    obtain ⟨rfl, h⟩ := l
    cases c' with
    | fieldc k b fv =>
      cases k <;> simp only [HCond.and, Cond.and] <;>
        first | exact like_groupOf gr st lAND _ _ hl | exact like_andH gr hb hl ⟨rfl, h⟩
    | null b fd => exact like_groupOf gr st lAND _ _ hl
    | custom b x => exact like_andH gr hb hl ⟨rfl, h⟩
    | group b xs br => cases h
  | group b s br =>
    obtain ⟨xs, rfl, h⟩ := l
    exact (like_addConditions gr lAND (g := ⟨b, s, br⟩) (k := ⟨b, xs, br⟩) hb hl ⟨rfl, rfl, h⟩).toC

/-- `Or` panics in both or gives agreeing values. -/
theorem like_or (gr : Grow) {st : Store HCond} {c : HCond} {d : Cond} {cs : List HCond} {ds : List Cond} (hb : c.bnd st)
    (hl : cs.length = 0 ↔ ds.length = 0) (l : LikeC c d) :
    (∃ x y, c.or gr st cs = .ok x ∧ d.or ds = .ok y ∧ LikeC x.2 y) ∨
      (c.or gr st cs = .panic .nilDeref ∧ d.or ds = .panic .nilDeref) := by
  cases c with
  | leaf c' =>
    obtain ⟨rfl, h⟩ := l
    cases c' with
    | fieldc k b fv =>
      cases k <;> simp only [HCond.or, Cond.or] <;>
        first
        | exact .inl ⟨_, _, rfl, rfl, like_groupOf gr st lOR _ _ hl⟩
        | exact .inl ⟨_, _, rfl, rfl, like_orH gr hb hl ⟨rfl, h⟩⟩
    | null b fd => exact .inr ⟨rfl, rfl⟩
    | custom b x => exact .inl ⟨_, _, rfl, rfl, like_orH gr hb hl ⟨rfl, h⟩⟩
    | group b xs br => cases h
  | group b s br =>
    obtain ⟨xs, rfl, h⟩ := l
    exact .inl ⟨_, _, rfl, rfl, (like_addConditions gr lOR (g := ⟨b, s, br⟩) (k := ⟨b, xs, br⟩) hb hl ⟨rfl, rfl, h⟩).toC⟩

theorem applyFieldSpec_group (b : CondBase) (cs : List Cond) (br : Bool) (spec : FieldDef) :
    ∃ ds, (Cond.group b cs br).applyFieldSpec spec = .group b ds br ∧ (ds = [] ↔ cs = []) := by
  cases cs <;> simp [Cond.applyFieldSpec, Cond.applyFieldSpecL]

theorem applyFieldTable_group (b : CondBase) (cs : List Cond) (br : Bool) (t : Str) :
    ∃ ds, (Cond.group b cs br).applyFieldTable t = .group b ds br ∧ (ds = [] ↔ cs = []) := by
  cases cs <;> simp [Cond.applyFieldTable, Cond.applyFieldTableL]

theorem like_applySpec {st : Store HCond} {c : HCond} {d : Cond} (l : LikeC c d) (spec : FieldDef) (n : Nat)
    {x : Store HCond × HCond} (h : applySpecH n st spec c = some x) : LikeC x.2 (d.applyFieldSpec spec) := by
  cases c with
  | leaf c' =>
    obtain ⟨rfl, h'⟩ := l
    have e : x.2 = .leaf (c'.applyFieldSpec spec) := by
      cases n <;> simp only [applySpecH, Option.some.injEq] at h <;> subst h <;> rfl
    rw [e]
    exact ⟨rfl, asGroup_applySpec _ _ h'⟩
  | group b s br =>
    obtain ⟨cs, rfl, h'⟩ := l
    obtain ⟨ds, e, hd⟩ := applyFieldSpec_group b cs br spec
    have e2 : x.2 = .group b s br := by
      cases n with
      | zero => simp [applySpecH] at h
      | succ n =>
        simp only [applySpecH, Option.map_eq_some_iff] at h
        obtain ⟨a, _, rfl⟩ := h
        rfl
    rw [e, e2]
    exact ⟨ds, rfl, h'.trans hd.symm⟩

theorem like_applyTable {st : Store HCond} {c : HCond} {d : Cond} (l : LikeC c d) (t : Str) (n : Nat)
    {x : Store HCond × HCond} (h : applyTableH n st t c = some x) : LikeC x.2 (d.applyFieldTable t) := by
  cases c with
  | leaf c' =>
    obtain ⟨rfl, h'⟩ := l
    have e : x.2 = .leaf (c'.applyFieldTable t) := by
      cases n <;> simp only [applyTableH, Option.some.injEq] at h <;> subst h <;> rfl
    rw [e]
    exact ⟨rfl, asGroup_applyTable _ _ h'⟩
  | group b s br =>
    obtain ⟨cs, rfl, h'⟩ := l
    obtain ⟨ds, e, hd⟩ := applyFieldTable_group b cs br t
    have e2 : x.2 = .group b s br := by
      cases n with
      | zero => simp [applyTableH] at h
      | succ n =>
        simp only [applyTableH, Option.map_eq_some_iff] at h
        obtain ⟨a, _, rfl⟩ := h
        rfl
    rw [e, e2]
    exact ⟨ds, rfl, h'.trans hd.symm⟩

/-! ## Builders -/

theorem LikeB.mono {m m' : Mem} {h : HBase} {q : BaseSelect} (l : LikeB m h q) (k : Le m.defs m'.defs) : LikeB m' h q :=
  ⟨l.op, l.tbl, l.joins, l.fields.mono k, l.cond⟩

theorem LikeM.mono {m m' : Mem} {h : HMany} {q : SelectMany} (l : LikeM m h q) (k : Le m.defs m'.defs) : LikeM m' h q :=
  ⟨l.base.mono k, l.offset, l.limit, l.order, l.spec⟩

theorem LikeV.mono {m m' : Mem} {h : HV} {p : PV} (l : LikeV m h p) (k : Le m.defs m'.defs) : LikeV m' h p := by
  cases h <;> cases p <;> first
    | exact l.elim
    | exact LikeB.mono l k
    | exact LikeM.mono l k
    | exact ⟨LikeB.mono l.1 k, l.2⟩
    | exact ⟨LikeM.mono l.1 k, l.2⟩
    | exact l

theorem like_addWhere (pol : Policy) {m : Mem} {h : HBase} {q : BaseSelect} {cs : List HCond} {ds : List Cond} (hb : BaseB m h)
    (hl : cs.length = 0 ↔ ds.length = 0) (l : LikeB m h q) : LikeB (h.addWhere pol m cs).1 (h.addWhere pol m cs).2 (q.addWhere ds) :=
  ⟨l.op, l.tbl, l.joins, l.fields, like_addConditions pol.conds lAND hb.cond hl l.cond⟩

theorem like_setFields {m : Mem} {h : HBase} {q : BaseSelect} (fs : List FieldDef) (l : LikeB m h q) :
    LikeB (h.setFields m fs).1 (h.setFields m fs).2 (q.setFields fs) :=
  ⟨l.op, l.tbl, l.joins, rep_make m.defs fs, l.cond⟩

theorem like_joinIdent (pol : Policy) {m : Mem} {h : HBase} {q : BaseSelect} (t : TableIdent) (j : Int) (hb : BaseB m h)
    (l : LikeB m h q) : LikeB (h.joinIdent pol m t j).1 (h.joinIdent pol m t j).2 (q.joinIdent t j) ∧ (q.joinIdent t j).joins ≠ [] := by
  refine ⟨⟨l.op, l.tbl, ?_, l.fields, l.cond⟩, by simp [BaseSelect.joinIdent]⟩
  simp only [HBase.joinIdent, BaseSelect.joinIdent, len_append pol.joins m.joins h.joins _ hb.joins, l.joins, List.length_append,
    List.length_cons, List.length_nil]

theorem like_on {m : Mem} {h : HBase} {q : BaseSelect} (a b : FieldDef) (hb : BaseB m h) (l : LikeB m h q) (hq : q.joins ≠ []) :
    ∃ x y, h.on m a b = .ok x ∧ q.on a b = .ok y ∧ x.1.defs = m.defs ∧ LikeB x.1 x.2 y := by
  have hn : h.joins.len ≠ 0 := by rw [l.joins]; simpa using hq
  have hlen : (m.joins.read h.joins).length = h.joins.len := by
    simp only [Store.read, List.length_take]
    have := hb.joins.2
    omega
  obtain ⟨j, hj⟩ : ∃ j, (m.joins.read h.joins)[h.joins.len - 1]? = some j :=
    ⟨_, List.getElem?_eq_getElem (by omega)⟩
  obtain ⟨j', rest, e⟩ : ∃ j' rest, q.joins.reverse = j' :: rest := by
    cases e : q.joins.reverse with
    | nil => exact absurd (by simpa using e) hq
    | cons j' rest => exact ⟨j', rest, rfl⟩
  refine ⟨_, _, by simp only [HBase.on, hj]; rfl, by simp only [BaseSelect.on, e]; rfl, rfl, l.op, l.tbl, ?_, l.fields, l.cond⟩
  have : q.joins.length = rest.length + 1 := by rw [← List.length_reverse, e]; rfl
  simp only [l.joins, this, List.length_reverse, List.length_cons]

theorem like_conds {m : Mem} {h : HBase} {q : BaseSelect} (hb : BaseB m h) (l : LikeB m h q) :
    (m.conds.read h.where_.s).length = 0 ↔ q.where_.conditions.length = 0 := by
  have hlen : (m.conds.read h.where_.s).length = h.where_.s.len := by
    simp only [Store.read, List.length_take]
    have := hb.cond.2
    omega
  rw [hlen, l.cond.2.2]
  exact List.length_eq_zero_iff.symm

theorem like_conditions {m : Mem} (q : HBase) (c : Mem × Sl) (e : c = q.conditions m) (r : Store HCond) (hr : Le c.1.conds r) :
    r.read c.2 = m.conds.read q.where_.s := by
  subst e
  have := rep_make m.conds (m.conds.read q.where_.s)
  exact (read_le hr _ this.2.1).trans this.2.2

theorem like_update (pol : Policy) {m : Mem} {h : HBase} {q : BaseSelect} (p : TableParam) (vs : List FieldValue) (hb : BaseB m h)
    (l : LikeB m h q) :
    LikeV (h.update pol m p vs).1 (.update (h.update pol m p vs).2)
      (.update (((Query.update p).addWhere q.where_.conditions).set vs)) ∧ (h.update pol m p vs).1.defs = m.defs := by
  refine ⟨⟨rfl, rfl, ?_, ?_⟩, rfl⟩
  · refine like_addConditions pol.conds lAND (inb_make _ _) ?_ (like_newGroup _ lAND rfl)
    rw [like_conditions h _ rfl (updateH (h.conditions m).1 p).1.conds (le_make _ _)]
    exact like_conds hb l
  · simp only [HBase.update, HUpdate.set, HUpdate.addWhere, updateH, UpdateB.set, UpdateB.addWhere, Query.update]
    rw [len_append pol.vals _ _ _ (inb_make _ _)]
    simp [Store.make, Store.alloc]

theorem like_delete (pol : Policy) {m : Mem} {h : HBase} {q : BaseSelect} (p : TableParam) (hb : BaseB m h) (l : LikeB m h q) :
    LikeV (h.delete pol m p).1 (.delete (h.delete pol m p).2) (.delete ((Query.delete p).addWhere q.where_.conditions)) ∧
      (h.delete pol m p).1.defs = m.defs := by
  refine ⟨⟨rfl, rfl, ?_⟩, rfl⟩
  refine like_addConditions pol.conds lAND (inb_make _ _) ?_ (like_newGroup _ lAND rfl)
  rw [like_conditions h _ rfl (deleteH (h.conditions m).1 p).1.conds (le_make _ _)]
  exact like_conds hb l

/-! ## One call -/

/-- All values agree, one by one. -/
def LikeL (m : Mem) (hs : List HV) (ps : List PV) : Prop :=
  hs.length = ps.length ∧ ∀ (i : Nat) (h : HV) (p : PV), hs[i]? = some h → ps[i]? = some p → LikeV m h p

/-- The outcomes of a call in memory and on plain values agree. -/
def SameOutcome (m : Mem) (apply : Bool) : Option (Mem × HV) → Option PV → Prop
  | some x, some p => Le m.defs x.1.defs ∧ LikeV x.1 x.2 p
  | none, none => True
  | none, some _ => apply = true
  | some _, none => False

theorem like_look {m : Mem} {hs : List HV} {ps : List PV} (l : LikeL m hs ps) (i : Nat) :
    (∃ h p, hs[i]? = some h ∧ ps[i]? = some p ∧ LikeV m h p) ∨ (hs[i]? = none ∧ ps[i]? = none) := by
  by_cases hi : i < hs.length
  · have hi' : i < ps.length := by rw [← l.1]; exact hi
    exact .inl ⟨_, _, List.getElem?_eq_getElem hi, List.getElem?_eq_getElem hi',
      l.2 i _ _ (List.getElem?_eq_getElem hi) (List.getElem?_eq_getElem hi')⟩
  · exact .inr ⟨List.getElem?_eq_none (by omega), List.getElem?_eq_none (by rw [← l.1]; omega)⟩

theorem like_getConds {m : Mem} {hs : List HV} {ps : List PV} (l : LikeL m hs ps) : ∀ args : List Nat,
    (∃ cs ds, getCondsH hs args = some cs ∧ getConds ps args = some ds ∧ cs.length = ds.length) ∨
      (getCondsH hs args = none ∧ getConds ps args = none)
  | [] => .inl ⟨[], [], rfl, rfl, rfl⟩
  | i :: is => by
    have ih := like_getConds l is
    have lk := like_look l i
    simp only [getCondsH, getConds]
    rcases lk with ⟨h, p, e, e', lv⟩ | ⟨e, e'⟩
    · rw [e, e']
      rcases ih with ⟨cs, ds, f, f', hl⟩ | ⟨f, f'⟩
      · rw [f, f']
        cases h <;> cases p <;> first
          | exact lv.elim
          | exact .inl ⟨_, _, rfl, rfl, by simp [hl]⟩
          | exact .inr ⟨rfl, rfl⟩
      · rw [f, f']
        cases h <;> cases p <;> first
          | exact lv.elim
          | exact .inr ⟨rfl, rfl⟩
    · rw [e, e']; exact .inr ⟨rfl, rfl⟩

theorem countedField_count (q : BaseSelect) (fs : List Str) :
    (∃ fd, countedField fs = .ok fd ∧ Query.count q fs = .ok ⟨q, fd⟩) ∨
      ((countedField fs).toOption = none ∧ (Query.count q fs).toOption = none) := by
  cases fs with
  | nil =>
    simp only [countedField, Query.count]
    cases field c!"*" with
    | ok fd => exact .inl ⟨fd, rfl, rfl⟩
    | err e => exact .inr ⟨rfl, rfl⟩
    | panic e => exact .inr ⟨rfl, rfl⟩
  | cons f fs =>
    simp only [countedField, Query.count]
    cases field f with
    | ok fd => exact .inl ⟨fd, rfl, rfl⟩
    | err e => exact .inr ⟨rfl, rfl⟩
    | panic e => exact .inr ⟨rfl, rfl⟩

theorem agree_count {m : Mem} {h : HBase} {q : BaseSelect} (l : LikeB m h q) (fs : List Str) :
    SameOutcome m false ((countedField fs).toOption.map fun fd => (m, HV.count h fd)) ((Query.count q fs).toOption.map PV.count) := by
  rcases countedField_count q fs with ⟨fd, e, e'⟩ | ⟨e, e'⟩
  · rw [e, e']; exact ⟨.refl _, l, rfl⟩
  · rw [e, e']; exact trivial

theorem agree_call (pol : Policy) {m : Mem} {hs : List HV} {ps : List PV}
    (hb : ∀ (i : Nat) (h : HV), hs[i]? = some h → h.bnd m) (l : LikeL m hs ps) (c : Call) :
    SameOutcome m (!c.noApply) (c.heap pol m hs) (c.pure ps) := by
  cases c with
  | leaf c =>
    simp only [Call.heap, Call.pure]
    cases h : c.asGroup with
    | none => exact ⟨.refl _, rfl, h⟩
    | some g => exact trivial
  | newGroup j args =>
    simp only [Call.heap, Call.pure]
    rcases like_getConds l args with ⟨cs, ds, f, f', hl⟩ | ⟨f, f'⟩
    · rw [f, f']; exact ⟨.refl _, (like_newGroup m.conds j hl).toC⟩
    · rw [f, f']; exact trivial
  | andF r args =>
    simp only [Call.heap, Call.pure]
    rcases like_look l r with ⟨h, p, e, e', lv⟩ | ⟨e, e'⟩
    · rw [e, e']
      have b := hb r h e
      rcases like_getConds l args with ⟨cs, ds, f, f', hl⟩ | ⟨f, f'⟩
      · rw [f, f']
        cases h <;> cases p <;> first | exact lv.elim | exact trivial | skip
        exact ⟨.refl _, like_andH pol.conds b (by rw [hl]) lv⟩
      · rw [f, f']
        cases h <;> cases p <;> first | exact lv.elim | exact trivial
    · rw [e, e']; exact trivial
  | orF r args =>
    simp only [Call.heap, Call.pure]
    rcases like_look l r with ⟨h, p, e, e', lv⟩ | ⟨e, e'⟩
    · rw [e, e']
      have b := hb r h e
      rcases like_getConds l args with ⟨cs, ds, f, f', hl⟩ | ⟨f, f'⟩
      · rw [f, f']
        cases h <;> cases p <;> first | exact lv.elim | exact trivial | skip
        exact ⟨.refl _, like_orH pol.conds b (by rw [hl]) lv⟩
      · rw [f, f']
        cases h <;> cases p <;> first | exact lv.elim | exact trivial
    · rw [e, e']; exact trivial
  | and r args =>
    simp only [Call.heap, Call.pure]
    rcases like_look l r with ⟨h, p, e, e', lv⟩ | ⟨e, e'⟩
    · rw [e, e']
      have b := hb r h e
      rcases like_getConds l args with ⟨cs, ds, f, f', hl⟩ | ⟨f, f'⟩
      · rw [f, f']
        cases h <;> cases p <;> first | exact lv.elim | exact trivial | skip
        exact ⟨.refl _, like_and pol.conds b (by rw [hl]) lv⟩
      · rw [f, f']
        cases h <;> cases p <;> first | exact lv.elim | exact trivial
    · rw [e, e']; exact trivial
  | or r args =>
    simp only [Call.heap, Call.pure]
    rcases like_look l r with ⟨h, p, e, e', lv⟩ | ⟨e, e'⟩
    · rw [e, e']
      have b := hb r h e
      rcases like_getConds l args with ⟨cs, ds, f, f', hl⟩ | ⟨f, f'⟩
      · rw [f, f']
        cases h <;> cases p <;> first | exact lv.elim | exact trivial | skip
        rename_i hc d
        rcases like_or pol.conds (st := m.conds) (cs := cs) (ds := ds) b (by rw [hl]) lv with ⟨x, y, g, g', k⟩ | ⟨g, g'⟩
        · simp only [g, g', Res.toOption, Option.map]; exact ⟨.refl _, k⟩
        · simp only [g, g', Res.toOption, Option.map]; exact trivial
      · rw [f, f']
        cases h <;> cases p <;> first | exact lv.elim | exact trivial
    · rw [e, e']; exact trivial
  | negate r n =>
    simp only [Call.heap, Call.pure]
    rcases like_look l r with ⟨h, p, e, e', lv⟩ | ⟨e, e'⟩
    · rw [e, e']
      cases h <;> cases p <;> first | exact lv.elim | exact trivial | skip
      exact ⟨.refl _, LikeC.negate lv n⟩
    · rw [e, e']; exact trivial
  | join r j =>
    simp only [Call.heap, Call.pure]
    rcases like_look l r with ⟨h, p, e, e', lv⟩ | ⟨e, e'⟩
    · rw [e, e']
      cases h <;> cases p <;> first | exact lv.elim | exact trivial | skip
      exact ⟨.refl _, LikeC.join lv j⟩
    · rw [e, e']; exact trivial
  | withBrackets r =>
    simp only [Call.heap, Call.pure]
    rcases like_look l r with ⟨h, p, e, e', lv⟩ | ⟨e, e'⟩
    · rw [e, e']
      cases h <;> cases p <;> first | exact lv.elim | exact trivial | skip
      rename_i hc d
      cases hc with
      | leaf c' =>
        obtain ⟨rfl, h⟩ := lv
        cases c' <;> first | exact trivial | cases h
      | group b s br =>
        obtain ⟨cs, rfl, h⟩ := lv
        exact ⟨.refl _, cs, rfl, h⟩
    · rw [e, e']; exact trivial
  | applySpec r spec =>
    simp only [Call.heap, Call.pure]
    rcases like_look l r with ⟨h, p, e, e', lv⟩ | ⟨e, e'⟩
    · rw [e, e']
      cases h <;> cases p <;> first | exact lv.elim | exact trivial | skip
      rename_i hc d
      dsimp only
      cases g : applySpecH m.depth m.conds spec hc with
      | none => exact rfl
      | some x => exact ⟨.refl _, like_applySpec lv spec _ g⟩
    · rw [e, e']; exact trivial
  | applyTable r t =>
    simp only [Call.heap, Call.pure]
    rcases like_look l r with ⟨h, p, e, e', lv⟩ | ⟨e, e'⟩
    · rw [e, e']
      cases h <;> cases p <;> first | exact lv.elim | exact trivial | skip
      rename_i hc d
      dsimp only
      cases g : applyTableH m.depth m.conds t hc with
      | none => exact rfl
      | some x => exact ⟨.refl _, like_applyTable lv t _ g⟩
    · rw [e, e']; exact trivial
  | selectFrom p =>
    simp only [Call.heap, Call.pure, selectFromH, Query.selectFrom]
    cases tableP p with
    | ok t => exact ⟨le_make _ _, rfl, rfl, rfl, rep_make _ _, like_newGroup m.conds lAND rfl⟩
    | err e => exact trivial
    | panic e => exact trivial
  | fields r fs =>
    simp only [Call.heap, Call.pure]
    rcases like_look l r with ⟨h, p, e, e', lv⟩ | ⟨e, e'⟩
    · rw [e, e']
      cases h <;> cases p <;> first | exact lv.elim | exact trivial | skip
      · exact ⟨le_make _ _, like_setFields fs lv⟩
      · refine ⟨(le_make _ _).trans (le_make _ _), ?_⟩
        exact like_setFields fs (q := zeroBaseSelect) ⟨rfl, rfl, rfl, rep_make _ _, rfl, rfl, by simp [zeroBaseH, zeroBaseSelect, Store.make, Store.alloc, zeroWhere]⟩
      · exact ⟨le_make _ _, like_setFields fs lv.base, lv.offset, lv.limit, lv.order, lv.spec⟩
    · rw [e, e']; exact trivial
  | where_ r args =>
    simp only [Call.heap, Call.pure]
    rcases like_look l r with ⟨h, p, e, e', lv⟩ | ⟨e, e'⟩
    · rw [e, e']
      have b := hb r h e
      rcases like_getConds l args with ⟨cs, ds, f, f', hl⟩ | ⟨f, f'⟩
      · rw [f, f']
        cases h <;> cases p <;> first | exact lv.elim | exact trivial | skip
        · exact ⟨.refl _, like_addWhere pol b (by rw [hl]) lv⟩
        · exact ⟨.refl _, like_addWhere pol b (by rw [hl]) lv⟩
        · exact ⟨.refl _, like_addWhere pol b.1 (by rw [hl]) lv.base, lv.offset, lv.limit, lv.order, lv.spec⟩
        · exact ⟨.refl _, lv.1, lv.2.1, like_addConditions pol.conds lAND b.1 (by rw [hl]) lv.2.2.1, lv.2.2.2⟩
        · exact ⟨.refl _, lv.1, lv.2.1, like_addConditions pol.conds lAND b (by rw [hl]) lv.2.2⟩
      · rw [f, f']
        cases h <;> cases p <;> first | exact lv.elim | exact trivial
    · rw [e, e']; exact trivial
  | joinTable r t j =>
    simp only [Call.heap, Call.pure]
    rcases like_look l r with ⟨h, p, e, e', lv⟩ | ⟨e, e'⟩
    · rw [e, e']
      have b := hb r h e
      cases h <;> cases p <;> first | exact lv.elim | exact trivial | skip
      · exact ⟨.refl _, like_joinIdent pol t j b lv⟩
      · exact ⟨.refl _, like_joinIdent pol t j b lv⟩
      · have k := like_joinIdent pol t j b.1 lv.base
        exact ⟨.refl _, ⟨k.1, lv.offset, lv.limit, lv.order, lv.spec⟩, k.2⟩
    · rw [e, e']; exact trivial
  | on r a x =>
    simp only [Call.heap, Call.pure]
    rcases like_look l r with ⟨h, p, e, e', lv⟩ | ⟨e, e'⟩
    · rw [e, e']
      have b := hb r h e
      cases h <;> cases p <;> first | exact lv.elim | exact trivial | skip
      · obtain ⟨u, v, g, g', hd, k⟩ := like_on a x b lv.1 lv.2
        simp only [g, g', Res.toOption, Option.map]; exact ⟨hd ▸ .refl _, k⟩
      · obtain ⟨u, v, g, g', hd, k⟩ := like_on a x b lv.1 lv.2
        simp only [SelectSingle.on, g, g', Res.bind_ok, Res.toOption, Option.map]; exact ⟨hd ▸ .refl _, k⟩
      · obtain ⟨u, v, g, g', hd, k⟩ := like_on a x b.1 lv.1.base lv.2
        simp only [SelectMany.on, g, g', Res.bind_ok, Res.toOption, Option.map]
        exact ⟨hd ▸ .refl _, k, lv.1.offset, lv.1.limit, lv.1.order, lv.1.spec⟩
    · rw [e, e']; exact trivial
  | single r =>
    simp only [Call.heap, Call.pure]
    rcases like_look l r with ⟨h, p, e, e', lv⟩ | ⟨e, e'⟩
    · rw [e, e']
      cases h <;> cases p <;> first | exact lv.elim | exact trivial | skip
      exact ⟨.refl _, lv⟩
    · rw [e, e']; exact trivial
  | embedded r =>
    simp only [Call.heap, Call.pure]
    rcases like_look l r with ⟨h, p, e, e', lv⟩ | ⟨e, e'⟩
    · rw [e, e']
      cases h <;> cases p <;> first | exact lv.elim | exact trivial | skip
      · exact ⟨.refl _, lv⟩
      · exact ⟨.refl _, lv.base⟩
    · rw [e, e']; exact trivial
  | many r =>
    simp only [Call.heap, Call.pure]
    rcases like_look l r with ⟨h, p, e, e', lv⟩ | ⟨e, e'⟩
    · rw [e, e']
      cases h <;> cases p <;> first | exact lv.elim | exact trivial | skip
      exact ⟨.refl _, LikeB.mono lv (.refl _), rfl, rfl, rfl, rfl⟩
    · rw [e, e']; exact trivial
  | offset r n =>
    simp only [Call.heap, Call.pure]
    rcases like_look l r with ⟨h, p, e, e', lv⟩ | ⟨e, e'⟩
    · rw [e, e']
      cases h <;> cases p <;> first | exact lv.elim | exact trivial | skip
      exact ⟨.refl _, lv.base, rfl, lv.limit, lv.order, lv.spec⟩
    · rw [e, e']; exact trivial
  | limit r n =>
    simp only [Call.heap, Call.pure]
    rcases like_look l r with ⟨h, p, e, e', lv⟩ | ⟨e, e'⟩
    · rw [e, e']
      cases h <;> cases p <;> first | exact lv.elim | exact trivial | skip
      exact ⟨.refl _, lv.base, lv.offset, rfl, lv.order, lv.spec⟩
    · rw [e, e']; exact trivial
  | orderBy r os =>
    simp only [Call.heap, Call.pure]
    rcases like_look l r with ⟨h, p, e, e', lv⟩ | ⟨e, e'⟩
    · rw [e, e']
      have b := hb r h e
      cases h <;> cases p <;> first | exact lv.elim | exact trivial | skip
      refine ⟨.refl _, LikeB.mono lv.base (.refl _), lv.offset, lv.limit, ?_, lv.spec⟩
      simp only [HMany.addOrder, SelectMany.addOrder, len_append pol.sorts m.sorts _ _ b.2, lv.order, List.length_append]
    · rw [e, e']; exact trivial
  | count r fs =>
    simp only [Call.heap, Call.pure]
    rcases like_look l r with ⟨h, p, e, e', lv⟩ | ⟨e, e'⟩
    · rw [e, e']
      cases h <;> cases p <;> first | exact lv.elim | exact trivial | skip
      · exact agree_count lv fs
      · exact agree_count lv.base fs
    · rw [e, e']; exact trivial
  | insertInto p =>
    simp only [Call.heap, Call.pure]
    exact ⟨.refl _, rfl, rfl, rfl⟩
  | insertFrom r vs =>
    simp only [Call.heap, Call.pure]
    rcases like_look l r with ⟨h, p, e, e', lv⟩ | ⟨e, e'⟩
    · rw [e, e']
      cases h <;> cases p <;> first | exact lv.elim | exact trivial | skip
      refine ⟨.refl _, rfl, ?_, ?_⟩
      · simp only [HInsert.addValues, insertIntoH, BaseSelect.insertInto, InsertB.addValues, Query.insertInto, lv.tbl]
      · simp only [HInsert.addValues, insertIntoH, BaseSelect.insertInto, InsertB.addValues, Query.insertInto]
        rw [len_append pol.vals _ _ _ (inb_make _ _)]
        simp [Store.make, Store.alloc]
    · rw [e, e']; exact trivial
  | values r vs =>
    simp only [Call.heap, Call.pure]
    rcases like_look l r with ⟨h, p, e, e', lv⟩ | ⟨e, e'⟩
    · rw [e, e']
      have b := hb r h e
      cases h <;> cases p <;> first | exact lv.elim | exact trivial | skip
      refine ⟨.refl _, lv.1, lv.2.1, ?_⟩
      simp only [HInsert.addValues, InsertB.addValues]
      rw [len_append pol.vals _ _ _ b, lv.2.2, List.length_append]
    · rw [e, e']; exact trivial
  | update p =>
    simp only [Call.heap, Call.pure]
    exact ⟨.refl _, rfl, rfl, like_newGroup m.conds lAND rfl, rfl⟩
  | updateFrom r vs =>
    simp only [Call.heap, Call.pure]
    rcases like_look l r with ⟨h, p, e, e', lv⟩ | ⟨e, e'⟩
    · rw [e, e']
      have b := hb r h e
      cases h <;> cases p <;> first | exact lv.elim | exact trivial | skip
      · rename_i h q
        have k := like_update pol (.ident q.baseTable) vs b lv
        simp only [LikeB.tbl lv]
        exact ⟨k.2 ▸ .refl _, k.1⟩
      · rename_i h q
        have k := like_update pol (.ident q.base.baseTable) vs b lv
        simp only [LikeB.tbl lv]
        exact ⟨k.2 ▸ .refl _, k.1⟩
      · rename_i h q
        have k := like_update pol (.name q.base.baseTable.name) vs b.1 lv.base
        simp only [LikeB.tbl lv.base]
        exact ⟨k.2 ▸ .refl _, k.1⟩
    · rw [e, e']; exact trivial
  | set r vs =>
    simp only [Call.heap, Call.pure]
    rcases like_look l r with ⟨h, p, e, e', lv⟩ | ⟨e, e'⟩
    · rw [e, e']
      have b := hb r h e
      cases h <;> cases p <;> first | exact lv.elim | exact trivial | skip
      refine ⟨.refl _, lv.1, lv.2.1, lv.2.2.1, ?_⟩
      simp only [HUpdate.set, UpdateB.set]
      rw [len_append pol.vals _ _ _ b.2, lv.2.2.2, List.length_append]
    · rw [e, e']; exact trivial
  | delete p =>
    simp only [Call.heap, Call.pure]
    exact ⟨.refl _, rfl, rfl, like_newGroup m.conds lAND rfl⟩
  | deleteFrom r =>
    simp only [Call.heap, Call.pure]
    rcases like_look l r with ⟨h, p, e, e', lv⟩ | ⟨e, e'⟩
    · rw [e, e']
      have b := hb r h e
      cases h <;> cases p <;> first | exact lv.elim | exact trivial | skip
      · rename_i h q
        have k := like_delete pol (.ident q.baseTable) b lv
        simp only [LikeB.tbl lv]
        exact ⟨k.2 ▸ .refl _, k.1⟩
      · rename_i h q
        have k := like_delete pol (.ident q.base.baseTable) b lv
        simp only [LikeB.tbl lv]
        exact ⟨k.2 ▸ .refl _, k.1⟩
      · rename_i h q
        have k := like_delete pol (.name q.base.baseTable.name) b.1 lv.base
        simp only [LikeB.tbl lv.base]
        exact ⟨k.2 ▸ .refl _, k.1⟩
    · rw [e, e']; exact trivial

/-! ## Series of calls -/

theorem LikeL.push {m m' : Mem} {hs : List HV} {ps : List PV} {h : HV} {p : PV} (l : LikeL m hs ps) (k : Le m.defs m'.defs)
    (lv : LikeV m' h p) : LikeL m' (hs ++ [h]) (ps ++ [p]) := by
  refine ⟨by simp [l.1], fun i h' p' hi hp => ?_⟩
  rw [List.getElem?_append] at hi hp
  rw [l.1] at hi
  split at hi
  · rename_i hlt
    rw [if_pos hlt] at hp
    exact (l.2 i h' p' hi hp).mono k
  · rename_i hlt
    rw [if_neg hlt] at hp
    have : i - ps.length = 0 := by
      by_cases e : i - ps.length = 0
      · exact e
      · rw [List.getElem?_eq_none (by simp; omega)] at hi; cases hi
    rw [this] at hi hp
    cases hi
    cases hp
    exact lv

theorem bnd_push {m m' : Mem} {hs : List HV} {x : HV} (hb : ∀ (i : Nat) (h : HV), hs[i]? = some h → h.bnd m) (k : SzM m m')
    (hx : x.bnd m') (i : Nat) (h : HV) (hi : (hs ++ [x])[i]? = some h) : h.bnd m' := by
  rw [List.getElem?_append] at hi
  split at hi
  · exact (hb i h hi).mono k
  · rename_i hl
    have : i - hs.length = 0 := by
      by_cases e : i - hs.length = 0
      · exact e
      · rw [List.getElem?_eq_none (by simp; omega)] at hi; cases hi
    rw [this] at hi
    cases hi
    exact hx

theorem agree_run (pol : Policy) : ∀ (cs : List Call) (m : Mem) (hs : List HV) (ps : List PV), StB m.conds →
    (∀ (i : Nat) (h : HV), hs[i]? = some h → h.bnd m) → LikeL m hs ps →
      (∀ x, runHeap pol m hs cs = some x → ∃ qs, runPure ps cs = some qs ∧ LikeL x.1 x.2 qs) ∧
        ((∀ c ∈ cs, c.noApply = true) → ∀ qs, runPure ps cs = some qs → ∃ x, runHeap pol m hs cs = some x)
  | [], m, hs, ps, _, _, l => ⟨fun x h => by cases h; exact ⟨ps, rfl, l⟩, fun _ qs _ => ⟨(m, hs), rfl⟩⟩
  | c :: cs, m, hs, ps, sb, hb, l => by
    have a := agree_call pol hb l c
    cases hc : c.heap pol m hs with
    | none =>
      cases pc : c.pure ps with
      | none =>
        refine ⟨fun x h => ?_, fun _ qs h => ?_⟩
        · simp only [runHeap, hc] at h; cases h
        · simp only [runPure, pc] at h; cases h
      | some p =>
        rw [hc, pc] at a
        refine ⟨fun x h => ?_, fun hn _ _ => ?_⟩
        · simp only [runHeap, hc] at h; cases h
        · have := hn c (by simp)
          simp only [SameOutcome, this, Bool.not_true] at a
          cases a
    | some y =>
      cases pc : c.pure ps with
      | none => rw [hc, pc] at a; exact a.elim
      | some p =>
        rw [hc, pc] at a
        have k := step_call pol sb hb c y hc
        obtain ⟨i1, i2⟩ := agree_run pol cs y.1 (hs ++ [y.2]) (ps ++ [p]) k.1.2 (bnd_push hb k.1.1 k.2) (l.push a.1 a.2)
        refine ⟨fun x h => ?_, fun hn qs h => ?_⟩
        · simp only [runHeap, hc] at h
          simp only [runPure, pc]
          exact i1 x h
        · simp only [runPure, pc] at h
          simp only [runHeap, hc]
          exact i2 (fun c hc => hn c (by simp [hc])) qs h

theorem agree_run0 (pol : Policy) (cs : List Call) :
    (∀ x, runHeap pol Mem.empty [] cs = some x → ∃ qs, runPure [] cs = some qs ∧ LikeL x.1 x.2 qs) ∧
      ((∀ c ∈ cs, c.noApply = true) → ∀ qs, runPure [] cs = some qs → ∃ x, runHeap pol Mem.empty [] cs = some x) :=
  agree_run pol cs Mem.empty [] [] (fun a c hc => by simp [Mem.empty, Store.cells] at hc) (fun i h hi => by simp at hi)
    ⟨rfl, fun i h p hi => by simp at hi⟩

end Query
