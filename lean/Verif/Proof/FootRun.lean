import Verif.Proof.FootApply
import Verif.Proof.HeapSafe
import Verif.Proof.HeapHistory
/-!
# Histories in which every value is used once

Values that were used are no longer looked at; for the others the invariant of histories holds, and no array of conditions occurs
twice in them.
-/
namespace Query
open Store

/-! ## Sums -/

theorem sum_zero2 : ∀ (l : List Nat), (l.map fun _ => 0).sum = 0
  | [] => rfl
  | _ :: l => by simp only [List.map_cons, List.sum_cons, sum_zero2 l]

theorem sum_zero1 (f : Nat → Nat) (i : Nat) : ∀ n, i < n →
    ((List.range n).map fun j => if j = i then 0 else f j).sum + f i = ((List.range n).map f).sum := by
  intro n
  induction n with
  | zero => intro h; omega
  | succ n ih =>
    intro h
    simp only [List.range_succ, List.map_append, List.sum_append, List.map_cons, List.map_nil, List.sum_cons, List.sum_nil]
    by_cases hi : i < n
    · have := ih hi
      rw [if_neg (by omega)]
      omega
    · have e : i = n := by omega
      subst e
      have : ((List.range i).map fun j => if j = i then 0 else f j) = (List.range i).map f := by
        apply List.map_congr_left
        intro j hj
        have := List.mem_range.1 hj
        rw [if_neg (by omega)]
      rw [this]
      simp

theorem sum_zeroL (f : Nat → Nat) (n : Nat) : ∀ (D : List Nat), D.Nodup → (∀ i ∈ D, i < n) →
    ((List.range n).map fun j => if j ∈ D then 0 else f j).sum + (D.map f).sum = ((List.range n).map f).sum
  | [], _, _ => by simp
  | i :: D, nd, hl => by
    have hn := List.nodup_cons.1 nd
    have ih := sum_zeroL f n D hn.2 fun k hk => hl k (List.mem_cons_of_mem _ hk)
    have z := sum_zero1 (fun j => if j ∈ D then 0 else f j) i n (hl i (List.mem_cons_self ..))
    have e : (fun j => if j = i then 0 else if j ∈ D then 0 else f j) = fun j => if j ∈ i :: D then 0 else f j := by
      funext j
      by_cases h1 : j = i
      · simp [h1]
      · simp [h1]
    simp only [e, if_neg hn.1] at z
    simp only [List.map_cons, List.sum_cons]
    omega

theorem one_le_sum (f : Nat → Nat) (n i : Nat) (hi : i < n) : f i ≤ ((List.range n).map f).sum := by
  have := sum_zero1 f i n hi; omega

theorem two_le_sum (f : Nat → Nat) (n i k : Nat) (hi : i < n) (hk : k < n) (h : i ≠ k) : f i + f k ≤ ((List.range n).map f).sum := by
  have h1 := sum_zero1 f k n hk
  have h2 := one_le_sum (fun j => if j = k then 0 else f j) n i hi
  simp only [if_neg h] at h2
  omega

/-! ## Forgetting values -/

/-- Stands in for a value that was used. -/
def blankC : Cond := .null ⟨[], false⟩ ⟨[], [], []⟩

/-- A condition without list. -/
def IsLeaf (h : HV) (p : PV) : Prop := ∃ c : Cond, h = .cond (.leaf c) ∧ p = .cond c ∧ c.asGroup = none

def blankH (D : List Nat) (hs : List HV) : List HV := hs.mapIdx fun i h => if i ∈ D then .cond (.leaf blankC) else h
def blankP (D : List Nat) (ps : List PV) : List PV := ps.mapIdx fun i p => if i ∈ D then .cond blankC else p

theorem get_blankH (D : List Nat) (hs : List HV) (i : Nat) :
    (blankH D hs)[i]? = (hs[i]?).map fun h => if i ∈ D then .cond (.leaf blankC) else h := by
  simp [blankH, List.getElem?_mapIdx]

theorem get_blankP (D : List Nat) (ps : List PV) (i : Nat) :
    (blankP D ps)[i]? = (ps[i]?).map fun p => if i ∈ D then .cond blankC else p := by
  simp [blankP, List.getElem?_mapIdx]

theorem length_blankH (D : List Nat) (hs : List HV) : (blankH D hs).length = hs.length := by simp [blankH]
theorem length_blankP (D : List Nat) (ps : List PV) : (blankP D ps).length = ps.length := by simp [blankP]

theorem isLeaf_blank : IsLeaf (.cond (.leaf blankC)) (.cond blankC) := ⟨blankC, rfl, rfl, rfl⟩

variable {m : Mem} {hs hs' : List HV} {ps ps' : List PV} {used : List Nat}

/-- Values may be forgotten and numbered anew. -/
theorem Inv.renumber (inv : Inv false used m hs ps) (f : Nat → Nat) (hl : hs'.length = ps'.length)
    (H : ∀ (i : Nat) (h : HV) (p : PV), hs'[i]? = some h → ps'[i]? = some p →
      IsLeaf h p ∨ (f i ∉ used ∧ hs[f i]? = some h ∧ ps[f i]? = some p))
    (inj : ∀ (i k : Nat) (h h' : HV) (p p' : PV), hs'[i]? = some h → ps'[i]? = some p → hs'[k]? = some h' → ps'[k]? = some p' →
      ¬ IsLeaf h p → ¬ IsLeaf h' p' → f i = f k → i = k) : Inv false [] m hs' ps' := by
  have getp : ∀ (i : Nat) (h : HV), hs'[i]? = some h → ∃ p, ps'[i]? = some p := by
    intro i h e
    have : i < ps'.length := by rw [← hl]; exact (List.getElem?_eq_some_iff.1 e).1
    exact ⟨_, List.getElem?_eq_getElem this⟩
  refine ⟨hl, ?_, ?_, ?_, ?_, ?_, ?_⟩
  · intro i h p e1 e2
    rcases H i h p e1 e2 with ⟨c, rfl, rfl, _⟩ | ⟨_, k1, k2⟩
    · rfl
    · exact inv.kind _ _ _ k1 k2
  · intro i h p e1 e2 _
    rcases H i h p e1 e2 with ⟨c, rfl, rfl, hn⟩ | ⟨hu, k1, k2⟩
    · simp only [RepV]; exact rep_leaf_iff.2 ⟨rfl, hn⟩
    · exact inv.rep _ _ _ k1 k2 fun _ => hu
  · intro i h e1 _
    obtain ⟨p, e2⟩ := getp i h e1
    rcases H i h p e1 e2 with ⟨c, rfl, rfl, hn⟩ | ⟨hu, k1, k2⟩
    · exact ⟨fun _ h => (by cases h), fun _ h => (by cases h), fun _ h => (by cases h), fun _ h => (by cases h)⟩
    · exact inv.ext _ _ k1 (.inr hu)
  · intro _ i k h h1 hne _ _ e1 e3
    obtain ⟨p, e2⟩ := getp i h e1
    obtain ⟨p1, e4⟩ := getp k h1 e3
    by_cases n1 : IsLeaf h p
    · obtain ⟨c, rfl, rfl, hn⟩ := n1; exact Disj.empty _
    · by_cases n2 : IsLeaf h1 p1
      · obtain ⟨c, rfl, rfl, hn⟩ := n2; exact (Disj.empty _).symm
      · obtain ⟨u1, a1, a2⟩ := (H i h p e1 e2).resolve_left n1
        obtain ⟨u2, b1, b2⟩ := (H k h1 p1 e3 e4).resolve_left n2
        exact inv.disj rfl _ _ h h1 (fun e => hne (inj i k h h1 p p1 e1 e2 e3 e4 n1 n2 e)) u1 u2 a1 b1
  · intro i k h h1 e1 e3 j1 _ j2 s hs1 s' hs2
    obtain ⟨p, e2⟩ := getp i h e1
    obtain ⟨p1, e4⟩ := getp k h1 e3
    rcases H i h p e1 e2 with ⟨c, rfl, rfl, hn⟩ | ⟨u1, a1, a2⟩
    · cases j1
    · rcases H k h1 p1 e3 e4 with ⟨c, rfl, rfl, hn⟩ | ⟨u2, b1, b2⟩
      · cases hs2
      · exact inv.below _ _ h h1 a1 b1 j1 u1 j2 s hs1 s' hs2
  · intro i k h h1 hne e1 e3 j1 j2 _ _ s hs1 s' hs2
    obtain ⟨p, e2⟩ := getp i h e1
    obtain ⟨p1, e4⟩ := getp k h1 e3
    by_cases n1 : IsLeaf h p
    · obtain ⟨c, rfl, rfl, hn⟩ := n1; cases j1
    · by_cases n2 : IsLeaf h1 p1
      · obtain ⟨c, rfl, rfl, hn⟩ := n2; cases j2
      · obtain ⟨u1, a1, a2⟩ := (H i h p e1 e2).resolve_left n1
        obtain ⟨u2, b1, b2⟩ := (H k h1 p1 e3 e4).resolve_left n2
        exact inv.apart _ _ h h1 (fun e => hne (inj i k h h1 p p1 e1 e2 e3 e4 n1 n2 e)) a1 b1 j1 j2 u1 u2 s hs1 s' hs2

theorem Ext.contents {st st' : Store HCond} {s : Sl} (h : Ext false st s) (sh : Shape st st') : Ext false st' s :=
  ⟨by rw [sh.size]; exact h.arr, by rw [sh.len]; exact h.len, h.full, by rw [sh.len]; exact h.last⟩

/-- Other contents of the arrays of conditions. -/
theorem Inv.contents {st' : Store HCond} (inv : Inv false [] m hs ps) (sh : Shape m.conds st') (hl : hs'.length = ps'.length)
    (H : ∀ (i : Nat) (h' : HV) (p' : PV), hs'[i]? = some h' → ps'[i]? = some p' → RepV { m with conds := st' } h' p' ∧
      ∃ h, hs[i]? = some h ∧ h'.own = h.own ∧ h'.jsl = h.jsl ∧ h'.isJoiner = h.isJoiner) :
    Inv false [] { m with conds := st' } hs' ps' := by
  have get : ∀ (i : Nat) (h' : HV), hs'[i]? = some h' → ∃ h, hs[i]? = some h ∧ h'.own = h.own ∧ h'.jsl = h.jsl ∧ h'.isJoiner = h.isJoiner := by
    intro i h e
    have : i < ps'.length := by rw [← hl]; exact (List.getElem?_eq_some_iff.1 e).1
    exact (H i h _ e (List.getElem?_eq_getElem this)).2
  refine ⟨hl, ?_, ?_, ?_, ?_, ?_, ?_⟩
  · intro i h p e1 e2
    exact (H i h p e1 e2).1.kind
  · intro i h p e1 e2 _
    exact (H i h p e1 e2).1
  · intro i h e1 _
    obtain ⟨h0, a1, a2, a3, a4⟩ := get i h e1
    have o := inv.ext i h0 a1 (.inr (by simp))
    rw [a2]
    exact ⟨fun s hs => (o.c s hs).contents sh, o.j, o.s, o.v⟩
  · intro ht i k h h1 hne _ _ e1 e3
    obtain ⟨h0, a1, a2, a3, a4⟩ := get i h e1
    obtain ⟨h2, b1, b2, b3, b4⟩ := get k h1 e3
    rw [a2, b2]
    exact inv.disj ht i k h0 h2 hne (by simp) (by simp) a1 b1
  · intro i k h h1 e1 e3 j1 _ j2 s hs1 s' hs2
    obtain ⟨h0, a1, a2, a3, a4⟩ := get i h e1
    obtain ⟨h2, b1, b2, b3, b4⟩ := get k h1 e3
    rw [a2] at hs1; rw [b3] at hs2; rw [a4] at j1; rw [b4] at j2
    exact inv.below i k h0 h2 a1 b1 j1 (by simp) j2 s hs1 s' hs2
  · intro i k h h1 hne e1 e3 j1 j2 _ _ s hs1 s' hs2
    obtain ⟨h0, a1, a2, a3, a4⟩ := get i h e1
    obtain ⟨h2, b1, b2, b3, b4⟩ := get k h1 e3
    rw [a2] at hs1; rw [b2] at hs2; rw [a4] at j1; rw [b4] at j2
    exact inv.apart i k h0 h2 hne a1 b1 j1 j2 (by simp) (by simp) s hs1 s' hs2

/-! ## Values in memory when other arrays change -/

theorem RepV.same {st' : Store HCond} {h : HV} {p : PV} (r : RepV m h p) (sh : Shape m.conds st')
    (k : ∀ a ∈ h.foot m p, st'.cells a = m.conds.cells a) :
    RepV { m with conds := st' } h p ∧ h.foot { m with conds := st' } p = h.foot m p := by
  have gen : ∀ {g : HCond} {G : Cond}, Rep m.conds g G → (∀ a ∈ foot m.conds g G, st'.cells a = m.conds.cells a) →
      Rep st' g G ∧ foot st' g G = foot m.conds g G := fun r k => r.same sh k
  cases h <;> cases p <;> simp only [RepV] at r <;> simp only [HV.foot] at k ⊢
  · exact gen r k
  · obtain ⟨a, b⟩ := gen r.cond k; exact ⟨⟨r.op, r.tbl, r.joins, r.fields, a⟩, b⟩
  · obtain ⟨a, b⟩ := gen r.cond k; exact ⟨⟨r.op, r.tbl, r.joins, r.fields, a⟩, b⟩
  · obtain ⟨a, b⟩ := gen r.base.cond k
    exact ⟨⟨⟨r.base.op, r.base.tbl, r.base.joins, r.base.fields, a⟩, r.offset, r.limit, r.order, r.spec⟩, b⟩
  · obtain ⟨a, b⟩ := gen r.1.cond k; exact ⟨⟨⟨r.1.op, r.1.tbl, r.1.joins, r.1.fields, a⟩, r.2⟩, b⟩
  · exact ⟨r, trivial⟩
  · obtain ⟨a, b⟩ := gen r.2.2.1 k; exact ⟨⟨r.1, r.2.1, a, r.2.2.2⟩, b⟩
  · obtain ⟨a, b⟩ := gen r.2.2 k; exact ⟨⟨r.1, r.2.1, a⟩, b⟩
  · obtain ⟨a, b⟩ := gen r.cond k; exact ⟨⟨r.op, r.tbl, r.joins, r.fields, a⟩, b⟩
  · obtain ⟨a, b⟩ := gen r.cond k; exact ⟨⟨r.op, r.tbl, r.joins, r.fields, a⟩, b⟩
  · obtain ⟨a, b⟩ := gen r.base.cond k
    exact ⟨⟨⟨r.base.op, r.base.tbl, r.base.joins, r.base.fields, a⟩, r.offset, r.limit, r.order, r.spec⟩, b⟩

theorem RepV.foot_le {m' : Mem} {h : HV} {p : PV} (r : RepV m h p) (l : Le m.conds m'.conds) : h.foot m' p = h.foot m p := by
  have gen : ∀ {g : HCond} {G : Cond}, Rep m.conds g G → foot m'.conds g G = foot m.conds g G := fun r => r.foot_le l
  cases h <;> cases p <;> simp only [RepV] at r <;> simp only [HV.foot]
  · exact gen r
  · exact gen r.cond
  · exact gen r.cond
  · exact gen r.base.cond
  · exact gen r.1.cond
  · exact gen r.2.2.1
  · exact gen r.2.2
  · exact gen r.cond
  · exact gen r.cond
  · exact gen r.base.cond

theorem RepV.foot_lt {h : HV} {p : PV} (r : RepV m h p) : ∀ a ∈ h.foot m p, a < m.conds.length := by
  have gen : ∀ {g : HCond} {G : Cond}, Rep m.conds g G → ∀ a ∈ foot m.conds g G, a < m.conds.length := fun r => Rep.foot_lt _ _ r
  intro a ha
  cases h <;> cases p <;> simp only [RepV] at r <;> simp only [HV.foot] at ha
  · exact gen r a ha
  · exact gen r.cond a ha
  · exact gen r.cond a ha
  · exact gen r.base.cond a ha
  · exact gen r.1.cond a ha
  · cases ha
  · exact gen r.2.2.1 a ha
  · exact gen r.2.2 a ha
  · exact gen r.cond a ha
  · exact gen r.cond a ha
  · exact gen r.base.cond a ha

/-! ## Calls look at their operands only -/

theorem getConds_congr {ps ps' : List PV} : ∀ (args : List Nat), (∀ i ∈ args, ps[i]? = ps'[i]?) → getConds ps args = getConds ps' args
  | [], _ => rfl
  | i :: is, h => by
    simp only [getConds, h i (List.mem_cons_self ..), getConds_congr is fun k hk => h k (List.mem_cons_of_mem _ hk)]

theorem getCondsH_congr {hs hs' : List HV} : ∀ (args : List Nat), (∀ i ∈ args, hs[i]? = hs'[i]?) → getCondsH hs args = getCondsH hs' args
  | [], _ => rfl
  | i :: is, h => by
    simp only [getCondsH, h i (List.mem_cons_self ..), getCondsH_congr is fun k hk => h k (List.mem_cons_of_mem _ hk)]

theorem pure_congr (c : Call) (h : ∀ i ∈ c.operands, ps[i]? = ps'[i]?) : c.pure ps = c.pure ps' := by
  cases c <;> simp only [Call.operands, List.mem_cons, List.not_mem_nil, or_false, forall_eq, forall_eq_or_imp] at h <;>
    simp only [Call.pure] <;>
    first
      | rfl
      | rw [h]
      | rw [getConds_congr _ h]
      | rw [h.1, getConds_congr _ h.2]

theorem heap_congr (pol : Policy) (c : Call) (h : ∀ i ∈ c.operands, hs[i]? = hs'[i]?) : c.heap pol m hs = c.heap pol m hs' := by
  cases c <;> simp only [Call.operands, List.mem_cons, List.not_mem_nil, or_false, forall_eq, forall_eq_or_imp] at h <;>
    simp only [Call.heap] <;>
    first
      | rfl
      | rw [h]
      | rw [getCondsH_congr _ h]
      | rw [h.1, getCondsH_congr _ h.2]

theorem getConds_lt : ∀ (args : List Nat) (cs : List Cond), getConds ps args = some cs → ∀ i ∈ args, i < ps.length
  | [], _, _, i, hi => by cases hi
  | k :: is, cs, e, i, hi => by
    simp only [getConds] at e
    split at e
    · rename_i e1 e2
      rcases List.mem_cons.1 hi with rfl | hi
      · exact (List.getElem?_eq_some_iff.1 e1).1
      · exact getConds_lt is _ e2 i hi
    · cases e

theorem operands_lt (c : Call) {p : PV} (hc : c.pure ps = some p) : ∀ i ∈ c.operands, i < ps.length := by
  intro i hi
  cases c <;> simp only [Call.operands, List.not_mem_nil, List.mem_cons, or_false] at hi <;> simp only [Call.pure] at hc
  case newGroup j args =>
    obtain ⟨cs, e1, _⟩ := getConds_none_map hc
    exact getConds_lt args cs e1 i hi
  case andF | orF | and | or =>
    split at hc
    · rename_i e1 e2
      rcases hi with rfl | hi
      · exact (List.getElem?_eq_some_iff.1 e1).1
      · exact getConds_lt _ _ e2 i hi
    · cases hc
  case where_ =>
    split at hc
    case h_6 => cases hc
    all_goals
      rename_i e1 e2
      rcases hi with rfl | hi
      · exact (List.getElem?_eq_some_iff.1 e1).1
      · exact getConds_lt _ _ e2 i hi
  all_goals
    subst hi
    by_cases hlt : i < ps.length
    · exact hlt
    · rw [List.getElem?_eq_none (by omega)] at hc
      cases hc

theorem extends_operand {c : Call} {r : Nat} (h : c.extends = some r) : r ∈ c.operands := by
  cases c <;> simp only [Call.extends, Option.some.injEq, reduceCtorEq] at h <;> subst h <;> simp [Call.operands]

/-! ## The invariant -/

/-- What holds of the values not yet used (`L` says which are conditions on fields and may be used again). -/
structure Alive (L : Nat → Bool) (pre : List Call) (m : Mem) (hs : List HV) (ps : List PV) (hsM : List HV) (psM : List PV) : Prop where
  len : hsM.length = pre.length
  lenH : hs.length = pre.length
  lenP : ps.length = pre.length
  inv : Inv false [] m hsM psM
  once : ∀ a, ((List.range pre.length).map fun i => (footAt m hsM psM i).count a).sum ≤ 1
  live : ∀ i, (L i = false → i ∉ pre.flatMap Call.operands) → hsM[i]? = hs[i]? ∧ psM[i]? = ps[i]?
  leaf : ∀ i, i < pre.length → L i = true → ∃ h p, hs[i]? = some h ∧ ps[i]? = some p ∧ IsLeaf h p

theorem footAt_leaf {i : Nat} {h : HV} {p : PV} (e1 : hs[i]? = some h) (e2 : ps[i]? = some p) (hl : IsLeaf h p) : footAt m hs ps i = [] := by
  obtain ⟨c, rfl, rfl, _⟩ := hl
  rw [footAt_of e1 e2]; simp [HV.foot, foot]

theorem count_ops (L : Nat → Bool) (F : Nat → List Nat) (a : Nat) : ∀ (ops : List Nat), (∀ i ∈ ops, L i = true → F i = []) →
    (ops.flatMap F).count a = ((ops.filter fun i => !L i).map fun i => (F i).count a).sum
  | [], _ => by simp
  | i :: ops, h => by
    have ih := count_ops L F a ops fun k hk => h k (List.mem_cons_of_mem _ hk)
    simp only [List.flatMap_cons, List.count_append, ih]
    cases hi : L i with
    | true => simp [hi, h i (List.mem_cons_self ..) hi]
    | false => simp [hi]

section
variable {L : Nat → Bool} {pre : List Call} {hsM : List HV} {psM : List PV} {p : PV}

theorem Alive.psLen (A : Alive L pre m hs ps hsM psM) : psM.length = pre.length := by rw [← A.inv.len]; exact A.len

theorem Alive.get (A : Alive L pre m hs ps hsM psM) {i : Nat} (hi : i < pre.length) : ∃ h q, hsM[i]? = some h ∧ psM[i]? = some q :=
  ⟨_, _, List.getElem?_eq_getElem (by rw [A.len]; exact hi), List.getElem?_eq_getElem (by rw [A.psLen]; exact hi)⟩

theorem Alive.rep (A : Alive L pre m hs ps hsM psM) {i : Nat} {h : HV} {q : PV} (e1 : hsM[i]? = some h) (e2 : psM[i]? = some q) : RepV m h q :=
  A.inv.rep i h q e1 e2 fun _ => by simp

theorem Alive.foot_new (A : Alive L pre m hs ps hsM psM) (a : Nat) (ha : m.conds.length ≤ a) (i : Nat) : (footAt m hsM psM i).count a = 0 := by
  unfold footAt
  split
  · rename_i h q e1 e2
    refine List.count_eq_zero.2 fun hm => ?_
    have := (A.rep e1 e2).foot_lt a hm
    omega
  · simp

/-- The values after a call. -/
theorem Alive.next (A : Alive L pre m hs ps hsM psM) (c : Call) (x : Mem × HV)
    (hD : (c.operands.filter fun i => !L i).Nodup) (hfresh : ∀ i ∈ c.operands, L i = false → i ∉ pre.flatMap Call.operands)
    (hlt : ∀ i ∈ c.operands, i < pre.length)
    (hL : L pre.length = true → IsLeaf x.2 p)
    (inv' : Inv false [] x.1 (blankH (c.operands.filter fun i => !L i) hsM ++ [x.2]) (blankP (c.operands.filter fun i => !L i) psM ++ [p]))
    (hf : ∀ (i : Nat) (h : HV) (q : PV), i ∉ (c.operands.filter fun i => !L i) → hsM[i]? = some h → psM[i]? = some q →
      h.foot x.1 q = h.foot m q)
    (hb : Bnd m.conds.length x.1.conds.length (c.operands.flatMap (footAt m hsM psM)) (x.2.foot x.1 p)) :
    Alive L (pre ++ [c]) x.1 (hs ++ [x.2]) (ps ++ [p])
      (blankH (c.operands.filter fun i => !L i) hsM ++ [x.2]) (blankP (c.operands.filter fun i => !L i) psM ++ [p]) := by
  have lb : (blankH (c.operands.filter fun i => !L i) hsM).length = pre.length := by rw [length_blankH]; exact A.len
  have lp : (blankP (c.operands.filter fun i => !L i) psM).length = pre.length := by rw [length_blankP]; exact A.psLen
  refine ⟨by simp [lb], by simp [A.lenH], by simp [A.lenP], inv', ?_, ?_, ?_⟩
  · intro a
    have hn : footAt x.1 (blankH (c.operands.filter fun i => !L i) hsM ++ [x.2]) (blankP (c.operands.filter fun i => !L i) psM ++ [p]) pre.length
        = x.2.foot x.1 p := by
      refine footAt_of ?_ ?_
      · rw [List.getElem?_append_right (by omega), lb]; simp
      · rw [List.getElem?_append_right (by omega), lp]; simp
    have ho : ∀ i, i < pre.length →
        (footAt x.1 (blankH (c.operands.filter fun i => !L i) hsM ++ [x.2]) (blankP (c.operands.filter fun i => !L i) psM ++ [p]) i).count a
        = if i ∈ (c.operands.filter fun i => !L i) then 0 else (footAt m hsM psM i).count a := by
      intro i hi
      obtain ⟨h0, q0, g1, g2⟩ := A.get hi
      by_cases hd : i ∈ (c.operands.filter fun i => !L i)
      · rw [if_pos hd, footAt_leaf ?_ ?_ isLeaf_blank]
        · simp
        · rw [List.getElem?_append_left (by omega), get_blankH, g1]; simp [hd]
        · rw [List.getElem?_append_left (by omega), get_blankP, g2]; simp [hd]
      · rw [if_neg hd, footAt_of (h := h0) (p := q0), footAt_of g1 g2, hf i _ _ hd g1 g2]
        · rw [List.getElem?_append_left (by omega), get_blankH, g1]; simp [hd]
        · rw [List.getElem?_append_left (by omega), get_blankP, g2]; simp [hd]
    have z := sum_zeroL (fun i => (footAt m hsM psM i).count a) pre.length _ hD
      (fun i hi => hlt i (List.mem_filter.1 hi).1)
    have cnt := count_ops L (footAt m hsM psM) a c.operands (fun i hi hl => by
      obtain ⟨h, q, e1, e2, e3⟩ := A.leaf i (hlt i hi) hl
      obtain ⟨k1, k2⟩ := A.live i (fun e => by rw [hl] at e; cases e)
      exact footAt_leaf (k1.trans e1) (k2.trans e2) e3)
    have hb := hb a
    rw [cnt] at hb
    have hsum : ((List.range (pre ++ [c]).length).map fun i =>
        (footAt x.1 (blankH (c.operands.filter fun i => !L i) hsM ++ [x.2]) (blankP (c.operands.filter fun i => !L i) psM ++ [p]) i).count a).sum
        = ((List.range pre.length).map fun i => if i ∈ (c.operands.filter fun i => !L i) then 0 else (footAt m hsM psM i).count a).sum
          + (x.2.foot x.1 p).count a := by
      simp only [List.length_append, List.length_cons, List.length_nil, Nat.zero_add, List.range_succ, List.map_append, List.sum_append,
        List.map_cons, List.map_nil, List.sum_cons, List.sum_nil, hn, Nat.add_zero]
      congr 2
      apply List.map_congr_left
      intro i hi
      exact ho i (List.mem_range.1 hi)
    rw [hsum]
    have o := A.once a
    split at hb
    · rename_i hr
      have zero : ((List.range pre.length).map fun i => (footAt m hsM psM i).count a).sum = 0 := by
        have : ((List.range pre.length).map fun i => (footAt m hsM psM i).count a) = (List.range pre.length).map fun _ => 0 :=
          List.map_congr_left fun i _ => A.foot_new a hr.1 i
        rw [this]; exact sum_zero2 _
      omega
    · omega
  · intro i hi
    simp only [List.flatMap_append, List.flatMap_cons, List.flatMap_nil, List.append_nil, List.mem_append, not_or] at hi
    have l1 : (blankH (c.operands.filter fun i => !L i) hsM).length = hs.length := by rw [lb, A.lenH]
    have l2 : (blankP (c.operands.filter fun i => !L i) psM).length = ps.length := by rw [lp, A.lenP]
    by_cases hlt' : i < pre.length
    · have hd : i ∉ (c.operands.filter fun i => !L i) := by
        intro hm
        have := List.mem_filter.1 hm
        exact (hi (by simpa using this.2)).2 this.1
      obtain ⟨k1, k2⟩ := A.live i fun e => (hi e).1
      rw [List.getElem?_append_left (by omega), List.getElem?_append_left (by omega : i < hs.length), get_blankH, k1,
        List.getElem?_append_left (by omega), List.getElem?_append_left (by rw [A.lenP]; omega : i < ps.length), get_blankP, k2]
      constructor
      · cases hs[i]? <;> simp [hd]
      · cases ps[i]? <;> simp [hd]
    · rw [List.getElem?_append_right (by omega), List.getElem?_append_right (by rw [A.lenH]; omega),
        List.getElem?_append_right (by omega), List.getElem?_append_right (by rw [A.lenP]; omega), l1, l2]
      exact ⟨rfl, rfl⟩
  · intro i hi hl
    by_cases hlt' : i < pre.length
    · obtain ⟨h, q, e1, e2, e3⟩ := A.leaf i hlt' hl
      refine ⟨h, q, ?_, ?_, e3⟩
      · rw [List.getElem?_append_left (by rw [A.lenH]; exact hlt')]; exact e1
      · rw [List.getElem?_append_left (by rw [A.lenP]; exact hlt')]; exact e2
    · have e : i = pre.length := by simp at hi; omega
      subst e
      refine ⟨x.2, p, ?_, ?_, hL hl⟩
      · rw [List.getElem?_append_right (by rw [A.lenH]; exact Nat.le_refl _), A.lenH]; simp
      · rw [List.getElem?_append_right (by rw [A.lenP]; exact Nat.le_refl _), A.lenP]; simp

theorem Inv.sinv {used : List Nat} (inv : Inv false used m hs ps) : SInv used m hs ps := ⟨inv.len, inv.kind, inv.rep, inv.below, inv.apart⟩

/-- Calls that append and copy only. -/
theorem Alive.plain (A : Alive L pre m hs ps hsM psM) (pol : Policy) (c : Call) (hna : c.noApply = true)
    (hD : (c.operands.filter fun i => !L i).Nodup) (hfresh : ∀ i ∈ c.operands, L i = false → i ∉ pre.flatMap Call.operands)
    (hL : L pre.length = true → ∃ c0, c = .leaf c0) (hc : c.pure ps = some p) :
    ∃ x, c.heap pol m hs = some x ∧ ∃ hsM' psM', Alive L (pre ++ [c]) x.1 (hs ++ [x.2]) (ps ++ [p]) hsM' psM' := by
  have hlt : ∀ i ∈ c.operands, i < pre.length := by rw [← A.lenP]; exact operands_lt c hc
  have lv : ∀ i ∈ c.operands, hsM[i]? = hs[i]? ∧ psM[i]? = ps[i]? := fun i hi => A.live i (hfresh i hi)
  have hcM : c.pure psM = some p := by rw [pure_congr c fun i hi => (lv i hi).2]; exact hc
  obtain ⟨x, hx, iv⟩ := step A.inv (polOK_any pol) c hna (fun _ _ _ => by simp) (fun _ _ => by simp) hcM
  obtain ⟨x', hx', _, k4⟩ := step2 A.inv.sinv pol c hna
    ⟨fun r h _ e _ s hs => (A.inv.ext r h e (.inr (by simp))).c s hs, fun r h _ e _ s hs => (A.inv.ext r h e (.inr (by simp))).j s hs,
      fun r h _ e _ s hs => (A.inv.ext r h e (.inr (by simp))).s s hs, fun r h _ e _ s hs => (A.inv.ext r h e (.inr (by simp))).v s hs⟩
    (fun _ _ => by simp) hcM
  have ex : x' = x := by rw [hx] at hx'; exact (Option.some.inj hx').symm
  subst ex
  refine ⟨x', by rw [heap_congr pol c fun i hi => ((lv i hi).1).symm]; exact hx, _, _, A.next c x' hD hfresh hlt ?_ ?_ ?_ ?_⟩
  · intro hl
    obtain ⟨c0, rfl⟩ := hL hl
    simp only [Call.pure] at hcM
    simp only [Call.heap] at hx
    split at hcM
    · cases hcM
    · rename_i hn
      simp only [hn, Bool.false_eq_true, if_false, Option.some.injEq] at hcM hx
      subst hcM; subst hx
      exact ⟨c0, rfl, rfl, by simpa using hn⟩
  · refine iv.renumber id ?_ ?_ (fun i k h h' p p' _ _ _ _ _ _ e => e)
    · simp [length_blankH, length_blankP, A.inv.len]
    · intro i h q e1 e2
      rcases get_push e1 with ⟨hi, e1⟩ | ⟨hi, rfl⟩
      · rw [length_blankH, A.len] at hi
        rw [List.getElem?_append_left (by rw [length_blankP, A.psLen]; exact hi)] at e2
        rw [get_blankH] at e1
        rw [get_blankP] at e2
        obtain ⟨h1, q1, g1, g2⟩ := A.get hi
        rw [g1] at e1; rw [g2] at e2
        by_cases hd : i ∈ (c.operands.filter fun i => !L i)
        · simp only [hd, if_true, Option.map_some, Option.some.injEq] at e1 e2
          subst e1; subst e2
          exact .inl isLeaf_blank
        · simp only [hd, if_false, Option.map_some, Option.some.injEq] at e1 e2
          by_cases hxs : i ∈ after false c []
          · have hxs : c.extends = some i := by
              simp only [after, List.append_nil, Bool.false_eq_true, if_false, Option.mem_toList] at hxs
              exact hxs
            have hop := extends_operand hxs
            have hl : L i = true := by
              cases hl : L i with
              | true => rfl
              | false => exact absurd (List.mem_filter.2 ⟨hop, by simp [hl]⟩) hd
            obtain ⟨h0, q0, a1, a2, a3⟩ := A.leaf i hi hl
            obtain ⟨k1, k2⟩ := lv i hop
            rw [← k1, g1] at a1; rw [← k2, g2] at a2
            rw [← e1, ← e2]
            simp only [Option.some.injEq] at a1 a2
            rw [a1, a2]
            exact .inl a3
          · refine .inr ⟨hxs, ?_, ?_⟩
            · rw [id, List.getElem?_append_left (by rw [A.len]; exact hi), g1, e1]
            · rw [id, List.getElem?_append_left (by rw [A.psLen]; exact hi), g2, e2]
      · rw [length_blankH, A.len] at hi
        subst hi
        rw [List.getElem?_append_right (by rw [length_blankP, A.psLen]; exact Nat.le_refl _), length_blankP, A.psLen] at e2
        simp at e2; subst e2
        refine .inr ⟨?_, ?_, ?_⟩
        · intro hm
          simp only [after, List.append_nil, Bool.false_eq_true, if_false, Option.mem_toList] at hm
          have := hlt _ (extends_operand hm)
          simp at this
        · rw [id, List.getElem?_append_right (by rw [A.len]; exact Nat.le_refl _), A.len]; simp
        · rw [id, List.getElem?_append_right (by rw [A.psLen]; exact Nat.le_refl _), A.psLen]; simp
  · intro i h q _ e1 e2
    exact (A.rep e1 e2).foot_le k4.lc
  · exact call_foot A.inv pol c hna hx hcM

theorem get_blanked {D : List Nat} {v h : HV} {w q : PV} {i : Nat} (hl : hs.length = ps.length)
    (e1 : (blankH D hs ++ [v])[i]? = some h) (e2 : (blankP D ps ++ [w])[i]? = some q) :
    (i < hs.length ∧ i ∈ D ∧ IsLeaf h q) ∨ (i < hs.length ∧ i ∉ D ∧ hs[i]? = some h ∧ ps[i]? = some q) ∨ (i = hs.length ∧ h = v ∧ q = w) := by
  rcases get_push e1 with ⟨hi, e1⟩ | ⟨hi, rfl⟩
  · rw [length_blankH] at hi
    rw [List.getElem?_append_left (by rw [length_blankP, ← hl]; exact hi), get_blankP, List.getElem?_eq_getElem (by rw [← hl]; exact hi)] at e2
    rw [get_blankH, List.getElem?_eq_getElem hi] at e1
    by_cases hd : i ∈ D
    · simp only [hd, if_true, Option.map_some, Option.some.injEq] at e1 e2
      subst e1; subst e2
      exact .inl ⟨hi, hd, isLeaf_blank⟩
    · simp only [hd, if_false, Option.map_some, Option.some.injEq] at e1 e2
      exact .inr (.inl ⟨hi, hd, by rw [List.getElem?_eq_getElem hi, e1], by rw [List.getElem?_eq_getElem (by rw [← hl]; exact hi), e2]⟩)
  · rw [length_blankH] at hi
    subst hi
    rw [List.getElem?_append_right (by rw [length_blankP, hl]; exact Nat.le_refl _), length_blankP, hl] at e2
    simp at e2
    exact .inr (.inr ⟨rfl, rfl, e2.symm⟩)

/-- Calls that write into the arrays of a value. -/
theorem Alive.applied (A : Alive L pre m hs ps hsM psM) (c : Call) (r : Nat) (hop : c.operands = [r])
    (hfresh : L r = false → r ∉ pre.flatMap Call.operands) (hL0 : L pre.length = false)
    {h : HCond} {c0 c' : Cond} {x : Store HCond × HCond} (e1 : hsM[r]? = some (.cond h)) (e2 : psM[r]? = some (.cond c0))
    (ap : Applied m.conds h c0 x c') :
    ∃ hsM' psM', Alive L (pre ++ [c]) { m with conds := x.1 } (hs ++ [.cond x.2]) (ps ++ [.cond c']) hsM' psM' := by
  have hr : r < pre.length := by rw [← A.len]; exact (List.getElem?_eq_some_iff.1 e1).1
  have memD : ∀ i, i ∈ (c.operands.filter fun i => !L i) ↔ i = r ∧ L r = false := by
    intro i
    simp only [hop, List.mem_filter, List.mem_cons, List.not_mem_nil, or_false, Bool.not_eq_true']
    exact ⟨fun ⟨a, b⟩ => ⟨a, a ▸ b⟩, fun ⟨a, b⟩ => ⟨a, a ▸ b⟩⟩
  have isl : L r = true → IsLeaf (.cond h) (.cond c0) := by
    intro hl
    obtain ⟨h1, q1, a1, a2, a3⟩ := A.leaf r hr hl
    obtain ⟨k1, k2⟩ := A.live r (fun e => by rw [hl] at e; cases e)
    rw [← k1, e1] at a1; rw [← k2, e2] at a2
    simp only [Option.some.injEq] at a1 a2
    rw [a1, a2]; exact a3
  have apart : ∀ (i : Nat) (h1 : HV) (q1 : PV), i ∉ (c.operands.filter fun i => !L i) → hsM[i]? = some h1 → psM[i]? = some q1 →
      ∀ a ∈ h1.foot m q1, x.1.cells a = m.conds.cells a := by
    intro i h1 q1 hi g1 g2 a ha
    refine ap.frame a fun hb => ?_
    by_cases hir : i = r
    · have hl : L r = true := by
        cases hl : L r with
        | true => rfl
        | false => exact absurd ((memD i).2 ⟨hir, hl⟩) hi
      obtain ⟨c1, b1, b2, _⟩ := isl hl
      cases b1; cases b2
      simp [foot] at hb
    · have hi' : i < pre.length := by rw [← A.len]; exact (List.getElem?_eq_some_iff.1 g1).1
      have o := A.once a
      have t := two_le_sum (fun i => (footAt m hsM psM i).count a) pre.length i r hi' hr hir
      simp only [footAt_of g1 g2, footAt_of e1 e2] at t
      have hb : a ∈ HV.foot m (.cond h) (.cond c0) := hb
      have t1 := List.count_pos_iff.2 ha
      have t2 := List.count_pos_iff.2 hb
      omega
  have hl : (blankH (c.operands.filter fun i => !L i) hsM ++ [HV.cond x.2]).length
      = (blankP (c.operands.filter fun i => !L i) psM ++ [PV.cond c']).length := by
    simp [length_blankH, length_blankP, A.inv.len]
  have inv1 : Inv false [] m (blankH (c.operands.filter fun i => !L i) hsM ++ [.cond h])
      (blankP (c.operands.filter fun i => !L i) psM ++ [.cond c0]) := by
    refine A.inv.renumber (fun i => if i = pre.length then r else i) (by simpa using hl) ?_ ?_
    · intro i h1 q1 g1 g2
      rcases get_blanked A.inv.len g1 g2 with ⟨_, _, l⟩ | ⟨hi, _, k1, k2⟩ | ⟨hi, rfl, rfl⟩
      · exact .inl l
      · rw [A.len] at hi
        refine .inr ⟨by simp, ?_, ?_⟩
        · rw [if_neg (by omega)]; exact k1
        · rw [if_neg (by omega)]; exact k2
      · rw [A.len] at hi
        refine .inr ⟨by simp, ?_, ?_⟩
        · rw [if_pos hi]; exact e1
        · rw [if_pos hi]; exact e2
    · intro i k h1 h2 q1 q2 g1 g2 g3 g4 n1 n2 e
      have key : ∀ (i : Nat) (h1 : HV) (q1 : PV), ¬ IsLeaf h1 q1 → i < hsM.length → i ∉ (c.operands.filter fun i => !L i) →
          ¬ IsLeaf (.cond h) (.cond c0) → i ≠ r := by
        intro i h1 q1 n1 _ hi n2 e
        cases hl : L r with
        | true => exact n2 (isl hl)
        | false => exact hi ((memD i).2 ⟨e, hl⟩)
      rcases get_blanked A.inv.len g1 g2 with ⟨_, _, l⟩ | ⟨hi, hd, k1, k2⟩ | ⟨hi, rfl, rfl⟩
      · exact absurd l n1
      · rcases get_blanked A.inv.len g3 g4 with ⟨_, _, l⟩ | ⟨hk, hd', k3, k4⟩ | ⟨hk, rfl, rfl⟩
        · exact absurd l n2
        · rw [A.len] at hi hk
          simp only [if_neg (show ¬ i = pre.length by omega), if_neg (show ¬ k = pre.length by omega)] at e
          exact e
        · have := key i h1 q1 n1 hi hd n2
          rw [A.len] at hi hk
          simp only [if_neg (show ¬ i = pre.length by omega), if_pos hk] at e
          exact absurd e this
      · rcases get_blanked A.inv.len g3 g4 with ⟨_, _, l⟩ | ⟨hk, hd', k3, k4⟩ | ⟨hk, rfl, rfl⟩
        · exact absurd l n2
        · have := key k h2 q2 n2 hk hd' n1
          rw [A.len] at hi hk
          simp only [if_neg (show ¬ k = pre.length by omega), if_pos hi] at e
          exact absurd e.symm this
        · omega
  have inv2 : Inv false [] { m with conds := x.1 } (blankH (c.operands.filter fun i => !L i) hsM ++ [.cond x.2])
      (blankP (c.operands.filter fun i => !L i) psM ++ [.cond c']) := by
    refine inv1.contents ap.shape hl ?_
    intro i h1 q1 g1 g2
    have prev : i < hsM.length → (blankH (c.operands.filter fun i => !L i) hsM ++ [HV.cond h])[i]? = some h1 := by
      intro hi
      rw [List.getElem?_append_left (by rw [length_blankH]; exact hi)] at g1 ⊢
      exact g1
    rcases get_blanked A.inv.len g1 g2 with ⟨hi, _, ⟨c1, rfl, rfl, hn⟩⟩ | ⟨hi, hd, k1, k2⟩ | ⟨hi, rfl, rfl⟩
    · exact ⟨rep_leaf_iff.2 ⟨rfl, hn⟩, _, prev hi, rfl, rfl, rfl⟩
    · exact ⟨((A.rep k1 k2).same ap.shape (apart i h1 q1 hd k1 k2)).1, _, prev hi, rfl, rfl, rfl⟩
    · refine ⟨ap.rep, .cond h, ?_, ?_, rfl, rfl⟩
      · subst hi
        rw [List.getElem?_append_right (by rw [length_blankH]; exact Nat.le_refl _), length_blankH]; simp
      · simp only [HV.own, ap.sl]
  refine ⟨_, _, A.next (p := .cond c') c ({ m with conds := x.1 }, .cond x.2) ?_ ?_ ?_ ?_ inv2 ?_ ?_⟩
  · rw [hop]; cases hl : L r <;> simp [hl]
  · rw [hop]; intro i hi; simp at hi; subst hi; exact hfresh
  · rw [hop]; intro i hi; simp at hi; subst hi; exact hr
  · rw [hL0]; intro h; cases h
  · intro i h1 q1 hd k1 k2
    exact ((A.rep k1 k2).same ap.shape (apart i h1 q1 hd k1 k2)).2
  · refine Bnd.of_le fun a => ?_
    simp only [hop, List.flatMap_cons, List.flatMap_nil, List.append_nil, footAt_of e1 e2, HV.foot, ap.foot]
    exact Nat.le_refl _

/-- One call of a history. -/
theorem Alive.call (A : Alive L pre m hs ps hsM psM) (pol : Policy) (c : Call)
    (hD : (c.operands.filter fun i => !L i).Nodup) (hfresh : ∀ i ∈ c.operands, L i = false → i ∉ pre.flatMap Call.operands)
    (hL : L pre.length = true → ∃ c0, c = .leaf c0) (hc : c.pure ps = some p) :
    ∃ x, c.heap pol m hs = some x ∧ ∃ hsM' psM', Alive L (pre ++ [c]) x.1 (hs ++ [x.2]) (ps ++ [p]) hsM' psM' := by
  by_cases hna : c.noApply = true
  · exact A.plain pol c hna hD hfresh hL hc
  · have hL0 : L pre.length = false := by
      cases hl : L pre.length with
      | false => rfl
      | true => obtain ⟨c0, rfl⟩ := hL hl; exact absurd rfl hna
    have nd : ∀ {r : Nat} {h : HCond} {c0 : Cond}, hsM[r]? = some (.cond h) → psM[r]? = some (.cond c0) → (foot m.conds h c0).Nodup := by
      intro r h c0 e1 e2
      refine List.nodup_iff_count.2 fun a => ?_
      have hr : r < pre.length := by rw [← A.len]; exact (List.getElem?_eq_some_iff.1 e1).1
      have t := one_le_sum (fun i => (footAt m hsM psM i).count a) pre.length r hr
      simp only [footAt_of e1 e2, HV.foot] at t
      exact Nat.le_trans t (A.once a)
    have find : ∀ {r : Nat} {c0 : Cond}, (L r = false → r ∉ pre.flatMap Call.operands) → ps[r]? = some (.cond c0) →
        ∃ h, hs[r]? = some (.cond h) ∧ hsM[r]? = some (.cond h) ∧ psM[r]? = some (.cond c0) ∧ Rep m.conds h c0 := by
      intro r c0 hf e
      obtain ⟨k1, k2⟩ := A.live r hf
      have hr : r < pre.length := by rw [← A.lenP]; exact (List.getElem?_eq_some_iff.1 e).1
      obtain ⟨h1, q1, g1, g2⟩ := A.get hr
      have q : q1 = .cond c0 := by rw [k2, e] at g2; exact (Option.some.inj g2).symm
      subst q
      have rep := A.rep g1 g2
      cases h1 <;> simp only [RepV] at rep
      exact ⟨_, by rw [← k1]; exact g1, g1, g2, rep⟩
    cases c <;> simp only [Call.noApply, not_true_eq_false] at hna
    case applySpec r spec =>
      have hf := hfresh r (by simp [Call.operands])
      simp only [Call.pure] at hc
      split at hc
      · rename_i c0 e
        obtain ⟨h, a1, a2, a3, rep⟩ := find hf e
        obtain ⟨x, ex, ap⟩ := applied_spec spec m.depth c0 (height_depth rep (nd a2 a3)) m.conds h rep (nd a2 a3)
        cases hc
        exact ⟨({ m with conds := x.1 }, .cond x.2), by simp only [Call.heap, a1, ex, Option.map_some], A.applied _ r rfl hf hL0 a2 a3 ap⟩
      · cases hc
    case applyTable r t =>
      have hf := hfresh r (by simp [Call.operands])
      simp only [Call.pure] at hc
      split at hc
      · rename_i c0 e
        obtain ⟨h, a1, a2, a3, rep⟩ := find hf e
        obtain ⟨x, ex, ap⟩ := applied_table t m.depth c0 (height_depth rep (nd a2 a3)) m.conds h rep (nd a2 a3)
        cases hc
        exact ⟨({ m with conds := x.1 }, .cond x.2), by simp only [Call.heap, a1, ex, Option.map_some], A.applied _ r rfl hf hL0 a2 a3 ap⟩
      · cases hc

/-- A whole history. -/
theorem Alive.run (pol : Policy) (whole : List Call) (once : UsedOnce whole) : ∀ (rest pre : List Call) (m : Mem) (hs : List HV)
    (ps ps' : List PV) (hsM : List HV) (psM : List PV), pre ++ rest = whole → Alive (madeAsLeaf whole) pre m hs ps hsM psM →
    runPure ps rest = some ps' → ∃ m' hs' hsM' psM', runHeap pol m hs rest = some (m', hs') ∧
      Alive (madeAsLeaf whole) whole m' hs' ps' hsM' psM'
  | [], pre, m, hs, ps, ps', hsM, psM, e, A, hr => by
    simp only [runPure, Option.some.injEq] at hr
    rw [List.append_nil] at e
    subst e; subst hr
    exact ⟨m, hs, hsM, psM, rfl, A⟩
  | c :: rest, pre, m, hs, ps, ps', hsM, psM, e, A, hr => by
    simp only [runPure] at hr
    cases hc : c.pure ps with
    | none => rw [hc] at hr; cases hr
    | some p =>
      rw [hc] at hr
      have o := once
      simp only [UsedOnce, usedIn] at o
      have o : (((pre ++ c :: rest).flatMap Call.operands).filter fun i => !madeAsLeaf whole i).Nodup := by rw [e]; exact o
      simp only [List.flatMap_append, List.flatMap_cons, List.filter_append] at o
      obtain ⟨_, o2, o3⟩ := List.nodup_append.1 o
      obtain ⟨o4, _, _⟩ := List.nodup_append.1 o2
      obtain ⟨x, hx, hsM', psM', A'⟩ := A.call pol c o4
        (fun i hi hl hm => o3 i (List.mem_filter.2 ⟨hm, by simp [hl]⟩) i
          (List.mem_append_left _ (List.mem_filter.2 ⟨hi, by simp [hl]⟩)) rfl)
        (fun hl => by
          have g : whole[pre.length]? = some c := by rw [← e]; simp
          simp only [madeAsLeaf, g] at hl
          split at hl
          · rename_i c0 e0; exact ⟨c0, Option.some.inj e0⟩
          · cases hl) hc
      obtain ⟨m', hs', hsM2, psM2, r1, r2⟩ := Alive.run pol whole once rest (pre ++ [c]) x.1 (hs ++ [x.2]) (ps ++ [p]) ps' hsM' psM'
        (by rw [← e]; simp) A' hr
      exact ⟨m', hs', hsM2, psM2, by simp only [runHeap, hx]; exact r1, r2⟩

end

theorem alive_empty (L : Nat → Bool) : Alive L [] Mem.empty [] [] [] [] :=
  ⟨rfl, rfl, rfl, inv_empty, fun _ => by simp, fun _ _ => ⟨rfl, rfl⟩, fun _ h => by simp at h⟩

/-- A history that uses every value once, and the values that are not used up. -/
theorem once_history (pol : Policy) (cs : List Call) (ps : List PV) (once : UsedOnce cs) (h : runPure [] cs = some ps) :
    ∃ m hs, runHeap pol Mem.empty [] cs = some (m, hs) ∧ hs.length = ps.length ∧
      ∀ (r : Nat) (x : HV) (p : PV), r ∉ usedIn cs → hs[r]? = some x → ps[r]? = some p → RepV m x p := by
  obtain ⟨m, hs, hsM, psM, h1, A⟩ := Alive.run pol cs once cs [] Mem.empty [] [] ps [] [] rfl (alive_empty _) h
  refine ⟨m, hs, h1, by rw [A.lenH, A.lenP], fun r x p hr e1 e2 => ?_⟩
  obtain ⟨k1, k2⟩ := A.live r fun hl hm => hr (List.mem_filter.2 ⟨hm, by simp [hl]⟩)
  exact A.rep (k1.trans e1) (k2.trans e2)

theorem once_reads (pol : Policy) (gr : Grow) (cs : List Call) (ps : List PV) (once : UsedOnce cs) (h : runPure [] cs = some ps)
    (r : Nat) (p : PV) (hu : r ∉ usedIn cs) (hr : ps[r]? = some p) (l : Look) : ReadsAs pol gr cs r l (p.look l) := by
  obtain ⟨m, hs, h1, h2, h3⟩ := once_history pol cs ps once h
  obtain ⟨x, hx⟩ : ∃ x, hs[r]? = some x := by
    have : r < hs.length := by rw [h2]; exact (List.getElem?_eq_some_iff.1 hr).1
    exact ⟨_, List.getElem?_eq_getElem this⟩
  refine ⟨m, hs, x, h1, hx, p.depth, fun d hd par => ?_⟩
  have sv : Serves m d x p := .inl ⟨h3 r x p hu hx hr, hd⟩
  exact (look_serves gr d ⟨m, par⟩ x p sv l).imp fun a b q => q.2.1

end Query
