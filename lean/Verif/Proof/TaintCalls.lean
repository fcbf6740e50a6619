import Verif.Proof.Taint
/-!
# Every call makes the right value of values that stay as they were
-/
namespace Query
open Store

section
variable {m : Mem} {hs : List HV} {ps : List PV}

/-- The values with these numbers stand for the plain values. -/
def StandAt (m : Mem) (hs : List HV) (ps : List PV) (js : List Nat) : Prop :=
  ∀ j ∈ js, ∀ p, ps[j]? = some p → ∃ h, hs[j]? = some h ∧ RepV m h p

theorem StandAt.conds : ∀ (args : List Nat) (cs : List Cond), StandAt m hs ps args → getConds ps args = some cs →
    ∃ hcs, getCondsH hs args = some hcs ∧ RepL m.conds hcs cs ∧ ∀ x ∈ hcs, ∃ j ∈ args, hs[j]? = some (.cond x)
  | [], cs, _, h => by
    simp only [getConds, Option.some.injEq] at h; subst h
    exact ⟨[], rfl, by simp [RepL], fun x hx => by cases hx⟩
  | i :: is, cs, sa, h => by
    simp only [getConds] at h
    split at h
    · rename_i c cs' e1 e2
      simp only [Option.some.injEq] at h; subst h
      obtain ⟨hcs, k1, k2, k3⟩ := StandAt.conds is cs' (fun j hj => sa j (List.mem_cons_of_mem _ hj)) e2
      obtain ⟨h, e3, rv⟩ := sa i (List.mem_cons_self ..) _ e1
      cases h <;> simp only [RepV] at rv
      rename_i x
      refine ⟨x :: hcs, by simp only [getCondsH, e3, k1], by simp only [RepL]; exact ⟨rv, k2⟩, fun y hy => ?_⟩
      rcases List.mem_cons.1 hy with rfl | hy
      · exact ⟨i, List.mem_cons_self .., e3⟩
      · obtain ⟨j, hj, e⟩ := k3 y hy
        exact ⟨j, List.mem_cons_of_mem _ hj, e⟩
    · cases h

/-- Of the values with these numbers, all that is read stays as it was. -/
def KeptAt (m m' : Mem) (hs : List HV) (js : List Nat) : Prop := ∀ j ∈ js, ∀ h, hs[j]? = some h → h.Same m m'

theorem KeptAt.conds {m' : Mem} {r : Nat} {args : List Nat} {h : HV} {d : HCond} {hcs : List HCond} (k : KeptAt m m' hs (r :: args))
    (e : hs[r]? = some h) (ed : h.root = some d) (ea : ∀ x ∈ hcs, ∃ j ∈ args, hs[j]? = some (.cond x)) :
    ∀ x ∈ d :: hcs, x.same m.conds m'.conds := by
  intro x hx
  rcases List.mem_cons.1 hx with rfl | hx
  · exact (k r (List.mem_cons_self ..) h e).conds _ ed
  · obtain ⟨j, hj, ej⟩ := ea x hx
    exact (k j (List.mem_cons_of_mem _ hj) _ ej).conds _ rfl

theorem applies_spec (spec : FieldDef) : Applies (·.applyFieldSpec spec) := by
  have l : ∀ cs : List Cond, Cond.applyFieldSpecL cs spec = cs.map (·.applyFieldSpec spec) := by
    intro cs
    induction cs with
    | nil => simp only [Cond.applyFieldSpecL, List.map_nil]
    | cons c cs ih => simp only [Cond.applyFieldSpecL, List.map_cons, ih]
  refine ⟨fun c h => ?_, fun b cs br => by simp only [Cond.applyFieldSpec, l]⟩
  cases c <;> first | (simp only [Cond.applyFieldSpec]; rfl) | cases h

theorem applies_table (t : Str) : Applies (·.applyFieldTable t) := by
  have l : ∀ cs : List Cond, Cond.applyFieldTableL cs t = cs.map (·.applyFieldTable t) := by
    intro cs
    induction cs with
    | nil => simp only [Cond.applyFieldTableL, List.map_nil]
    | cons c cs ih => simp only [Cond.applyFieldTableL, List.map_cons, ih]
  refine ⟨fun c h => ?_, fun b cs br => by simp only [Cond.applyFieldTable, l]⟩
  cases c <;> first | (simp only [Cond.applyFieldTable]; rfl) | cases h

theorem count_is {q : BaseSelect} {fs : List Str} {y : CountB} (e : Query.count q fs = .ok y) :
    y.base = q ∧ countedField fs = .ok y.countField := by
  unfold Query.count at e
  unfold countedField
  cases fs with
  | nil =>
    simp only at e ⊢
    cases hfd : field c!"*" with
    | ok fd => rw [hfd] at e; simp only [Res.bind_ok, Res.ok.injEq] at e; subst e; exact ⟨rfl, rfl⟩
    | err _ => rw [hfd] at e; cases e
    | panic _ => rw [hfd] at e; cases e
  | cons f _ =>
    simp only at e ⊢
    cases hfd : field f with
    | ok fd => rw [hfd] at e; simp only [Res.bind_ok, Res.ok.injEq] at e; subst e; exact ⟨rfl, rfl⟩
    | err _ => rw [hfd] at e; cases e
    | panic _ => rw [hfd] at e; cases e

/-- The value a call makes stands for the plain value, if the values it uses do and are not spoilt by the call. -/
theorem made_stands (pol : Policy) (sb : StB m.conds) (c : Call) {x : Mem × HV} (hx : c.heap pol m hs = some x)
    (hi : ∀ s, InB m.conds s → InB x.1.conds s) {p : PV} (hc : c.pure ps = some p) (sa : StandAt m hs ps c.operands)
    (ke : c.completes = none → c.applied = none → KeptAt m x.1 hs c.operands) : RepV x.1 x.2 p := by
  have hp := polOK_false pol
  have mv : Moves m.conds x.1.conds := ⟨sb, hi⟩
  cases c with
  | leaf c =>
    simp only [Call.pure] at hc
    split at hc
    · cases hc
    · rename_i hn
      simp only [Option.some.injEq] at hc; subst hc
      simp only [Call.heap, hn] at hx
      cases hx
      simp only [RepV]
      exact rep_leaf_iff.2 ⟨rfl, by cases h : c.asGroup <;> simp [h] at hn ⊢⟩
  | newGroup j args =>
    simp only [Call.pure] at hc
    obtain ⟨cs, e1, rfl⟩ := getConds_none_map hc
    obtain ⟨hcs, k1, k2, _⟩ := sa.conds args cs e1
    simp only [Call.heap, k1, Option.map_some] at hx
    cases hx
    exact (sim_newGroup (tight := false) j k2).2
  | andF r args =>
    simp only [Call.pure] at hc
    split at hc
    · rename_i c cs e1 e2
      simp only [Option.some.injEq] at hc; subst hc
      obtain ⟨hcs, k1, k2, k3⟩ := StandAt.conds args cs (fun j hj => sa j (List.mem_cons_of_mem _ hj)) e2
      obtain ⟨h, e3, rv⟩ := sa r (List.mem_cons_self ..) _ e1
      cases h <;> simp only [RepV] at rv
      simp only [Call.heap, e3, k1] at hx
      cases hx
      exact fair_and pol.conds rv k2 mv ((ke rfl rfl).conds e3 rfl k3)
    · cases hc
  | orF r args =>
    simp only [Call.pure] at hc
    split at hc
    · rename_i c cs e1 e2
      simp only [Option.some.injEq] at hc; subst hc
      obtain ⟨hcs, k1, k2, k3⟩ := StandAt.conds args cs (fun j hj => sa j (List.mem_cons_of_mem _ hj)) e2
      obtain ⟨h, e3, rv⟩ := sa r (List.mem_cons_self ..) _ e1
      cases h <;> simp only [RepV] at rv
      simp only [Call.heap, e3, k1] at hx
      cases hx
      exact fair_or pol.conds rv k2 mv ((ke rfl rfl).conds e3 rfl k3)
    · cases hc
  | and r args =>
    simp only [Call.pure] at hc
    split at hc
    · rename_i c cs e1 e2
      simp only [Option.some.injEq] at hc; subst hc
      obtain ⟨hcs, k1, k2, k3⟩ := StandAt.conds args cs (fun j hj => sa j (List.mem_cons_of_mem _ hj)) e2
      obtain ⟨h, e3, rv⟩ := sa r (List.mem_cons_self ..) _ e1
      cases h <;> simp only [RepV] at rv
      simp only [Call.heap, e3, k1] at hx
      cases hx
      exact fair_andM pol.conds rv k2 mv ((ke rfl rfl).conds e3 rfl k3)
    · cases hc
  | or r args =>
    simp only [Call.pure] at hc
    split at hc
    · rename_i c cs e1 e2
      obtain ⟨c', ec, rfl⟩ := toOption_map hc
      obtain ⟨hcs, k1, k2, k3⟩ := StandAt.conds args cs (fun j hj => sa j (List.mem_cons_of_mem _ hj)) e2
      obtain ⟨h, e3, rv⟩ := sa r (List.mem_cons_self ..) _ e1
      cases h <;> simp only [RepV] at rv
      obtain ⟨y, ey, k⟩ := fair_orM pol.conds rv k2 ec
      simp only [Call.heap, e3, k1, ey, Res.toOption, Option.map_some] at hx
      cases hx
      exact k mv ((ke rfl rfl).conds e3 rfl k3)
    · cases hc
  | negate r n =>
    simp only [Call.pure] at hc
    split at hc
    · rename_i c e1
      simp only [Option.some.injEq] at hc; subst hc
      obtain ⟨h, e3, rv⟩ := sa r (List.mem_cons_self ..) _ e1
      cases h <;> simp only [RepV] at rv
      simp only [Call.heap, e3] at hx
      cases hx
      exact rv.negate n
    · cases hc
  | join r j =>
    simp only [Call.pure] at hc
    split at hc
    · rename_i c e1
      simp only [Option.some.injEq] at hc; subst hc
      obtain ⟨h, e3, rv⟩ := sa r (List.mem_cons_self ..) _ e1
      cases h <;> simp only [RepV] at rv
      simp only [Call.heap, e3] at hx
      cases hx
      exact rv.join j
    · cases hc
  | withBrackets r =>
    simp only [Call.pure] at hc
    split at hc
    · rename_i b cs br e1
      simp only [Option.some.injEq] at hc; subst hc
      obtain ⟨h, e3, rv⟩ := sa r (List.mem_cons_self ..) _ e1
      cases h <;> simp only [RepV] at rv
      rename_i h
      cases h with
      | leaf c => simp [Rep, Cond.asGroup] at rv
      | group b' s br' =>
        simp only [Call.heap, e3] at hx
        cases hx
        have rg : RepG m.conds ⟨b', s, br'⟩ ⟨b, cs, br⟩ := rv
        exact rg.brackets
    · cases hc
  | applySpec r spec =>
    simp only [Call.pure] at hc
    split at hc
    · rename_i c e1
      simp only [Option.some.injEq] at hc; subst hc
      obtain ⟨h, e3, rv⟩ := sa r (List.mem_cons_self ..) _ e1
      cases h <;> simp only [RepV] at rv
      rename_i d
      simp only [Call.heap, e3] at hx
      obtain ⟨y, ey, e4⟩ := Option.map_eq_some_iff.1 hx
      cases e4
      rw [applySpecH_all] at ey
      obtain ⟨a1, _, a3⟩ := applyAll_up (spec_twice spec) _ _ _ _ ey
      simp only [RepV, a1]
      exact rep_up (applies_spec spec) hi c d a3 rv
    · cases hc
  | applyTable r t =>
    simp only [Call.pure] at hc
    split at hc
    · rename_i c e1
      simp only [Option.some.injEq] at hc; subst hc
      obtain ⟨h, e3, rv⟩ := sa r (List.mem_cons_self ..) _ e1
      cases h <;> simp only [RepV] at rv
      rename_i d
      simp only [Call.heap, e3] at hx
      obtain ⟨y, ey, e4⟩ := Option.map_eq_some_iff.1 hx
      cases e4
      rw [applyTableH_all] at ey
      obtain ⟨a1, _, a3⟩ := applyAll_up (fun c => table_twice t t c) _ _ _ _ ey
      simp only [RepV, a1]
      exact rep_up (applies_table t) hi c d a3 rv
    · cases hc
  | selectFrom t =>
    simp only [Call.pure] at hc
    obtain ⟨q, eq', rfl⟩ := toOption_map hc
    unfold Query.selectFrom at eq'
    cases ht : tableP t with
    | err _ => rw [ht] at eq'; cases eq'
    | panic _ => rw [ht] at eq'; cases eq'
    | ok ti =>
      rw [ht] at eq'
      simp only [Res.bind_ok, Res.ok.injEq] at eq'
      subst eq'
      simp only [Call.heap, selectFromH, ht, Res.bind_ok, Res.toOption, Option.map_some] at hx
      cases hx
      exact (rep_newBase (tight := false) m ti).2
  | fields r fs =>
    simp only [Call.pure] at hc
    split at hc
    · rename_i q e1
      simp only [Option.some.injEq] at hc; subst hc
      obtain ⟨h, e3, rv⟩ := sa r (List.mem_cons_self ..) _ e1
      cases h <;> simp only [RepV] at rv
      simp only [Call.heap, e3] at hx
      cases hx
      exact (rep_fields rv fs).2
    · rename_i q e1
      simp only [Option.some.injEq] at hc; subst hc
      obtain ⟨h, e3, rv⟩ := sa r (List.mem_cons_self ..) _ e1
      cases h <;> simp only [RepV] at rv
      simp only [Call.heap, e3] at hx
      cases hx
      exact (rep_fields (rep_zero (tight := false) m).2 fs).2
    · rename_i q e1
      simp only [Option.some.injEq] at hc; subst hc
      obtain ⟨h, e3, rv⟩ := sa r (List.mem_cons_self ..) _ e1
      cases h <;> simp only [RepV] at rv
      simp only [Call.heap, e3] at hx
      cases hx
      exact ⟨(rep_fields rv.base fs).2, rv.offset, rv.limit, rv.order, rv.spec⟩
    · cases hc
  | where_ r args =>
    simp only [Call.pure] at hc
    split at hc
    · rename_i q cs e1 e2
      simp only [Option.some.injEq] at hc; subst hc
      obtain ⟨hcs, k1, k2, k3⟩ := StandAt.conds args cs (fun j hj => sa j (List.mem_cons_of_mem _ hj)) e2
      obtain ⟨h, e3, rv⟩ := sa r (List.mem_cons_self ..) _ e1
      cases h <;> simp only [RepV] at rv
      simp only [Call.heap, e3, k1] at hx
      cases hx
      have k := fair_addConditions pol.conds rv.cond k2 lAND (List.mem_cons_self ..) (fun h hh => List.mem_cons_of_mem _ hh) mv
        ((ke rfl rfl).conds e3 rfl k3)
      exact ⟨rv.op, rv.tbl, rv.joins, rv.fields, k⟩
    · rename_i q cs e1 e2
      simp only [Option.some.injEq] at hc; subst hc
      obtain ⟨hcs, k1, k2, k3⟩ := StandAt.conds args cs (fun j hj => sa j (List.mem_cons_of_mem _ hj)) e2
      obtain ⟨h, e3, rv⟩ := sa r (List.mem_cons_self ..) _ e1
      cases h <;> simp only [RepV] at rv
      simp only [Call.heap, e3, k1] at hx
      cases hx
      have k := fair_addConditions pol.conds rv.cond k2 lAND (List.mem_cons_self ..) (fun h hh => List.mem_cons_of_mem _ hh) mv
        ((ke rfl rfl).conds e3 rfl k3)
      exact ⟨rv.op, rv.tbl, rv.joins, rv.fields, k⟩
    · rename_i q cs e1 e2
      simp only [Option.some.injEq] at hc; subst hc
      obtain ⟨hcs, k1, k2, k3⟩ := StandAt.conds args cs (fun j hj => sa j (List.mem_cons_of_mem _ hj)) e2
      obtain ⟨h, e3, rv⟩ := sa r (List.mem_cons_self ..) _ e1
      cases h <;> simp only [RepV] at rv
      simp only [Call.heap, e3, k1] at hx
      cases hx
      have k := fair_addConditions pol.conds rv.base.cond k2 lAND (List.mem_cons_self ..) (fun h hh => List.mem_cons_of_mem _ hh) mv
        ((ke rfl rfl).conds e3 rfl k3)
      exact ⟨⟨rv.base.op, rv.base.tbl, rv.base.joins, rv.base.fields, k⟩, rv.offset, rv.limit, rv.order, rv.spec⟩
    · rename_i q cs e1 e2
      simp only [Option.some.injEq] at hc; subst hc
      obtain ⟨hcs, k1, k2, k3⟩ := StandAt.conds args cs (fun j hj => sa j (List.mem_cons_of_mem _ hj)) e2
      obtain ⟨h, e3, rv⟩ := sa r (List.mem_cons_self ..) _ e1
      cases h <;> simp only [RepV] at rv
      simp only [Call.heap, e3, k1] at hx
      cases hx
      have k := fair_addConditions pol.conds rv.2.2.1 k2 lAND (List.mem_cons_self ..) (fun h hh => List.mem_cons_of_mem _ hh) mv
        ((ke rfl rfl).conds e3 rfl k3)
      exact ⟨rv.1, rv.2.1, k, rv.2.2.2⟩
    · rename_i q cs e1 e2
      simp only [Option.some.injEq] at hc; subst hc
      obtain ⟨hcs, k1, k2, k3⟩ := StandAt.conds args cs (fun j hj => sa j (List.mem_cons_of_mem _ hj)) e2
      obtain ⟨h, e3, rv⟩ := sa r (List.mem_cons_self ..) _ e1
      cases h <;> simp only [RepV] at rv
      simp only [Call.heap, e3, k1] at hx
      cases hx
      have k := fair_addConditions pol.conds rv.2.2 k2 lAND (List.mem_cons_self ..) (fun h hh => List.mem_cons_of_mem _ hh) mv
        ((ke rfl rfl).conds e3 rfl k3)
      exact ⟨rv.1, rv.2.1, k⟩
    · cases hc
  | joinTable r t j =>
    simp only [Call.pure] at hc
    split at hc
    · rename_i q e1
      simp only [Option.some.injEq] at hc; subst hc
      obtain ⟨h, e3, rv⟩ := sa r (List.mem_cons_self ..) _ e1
      cases h <;> simp only [RepV] at rv
      rename_i h
      simp only [Call.heap, e3] at hx
      cases hx
      exact ⟨rv.op, rv.tbl, rep_append pol.joins m.joins h.joins [⟨t, j, zeroJC⟩] _ rv.joins.1 rv.joins, rv.fields, rv.cond⟩
    · rename_i q e1
      simp only [Option.some.injEq] at hc; subst hc
      obtain ⟨h, e3, rv⟩ := sa r (List.mem_cons_self ..) _ e1
      cases h <;> simp only [RepV] at rv
      rename_i h
      simp only [Call.heap, e3] at hx
      cases hx
      exact ⟨rv.op, rv.tbl, rep_append pol.joins m.joins h.joins [⟨t, j, zeroJC⟩] _ rv.joins.1 rv.joins, rv.fields, rv.cond⟩
    · rename_i q e1
      simp only [Option.some.injEq] at hc; subst hc
      obtain ⟨h, e3, rv⟩ := sa r (List.mem_cons_self ..) _ e1
      cases h <;> simp only [RepV] at rv
      rename_i h
      simp only [Call.heap, e3] at hx
      cases hx
      exact ⟨⟨rv.base.op, rv.base.tbl, rep_append pol.joins m.joins h.base.joins [⟨t, j, zeroJC⟩] _ rv.base.joins.1 rv.base.joins,
        rv.base.fields, rv.base.cond⟩, rv.offset, rv.limit, rv.order, rv.spec⟩
    · cases hc
  | on r l x =>
    simp only [Call.pure] at hc
    split at hc
    · rename_i q e1
      obtain ⟨q', eq', rfl⟩ := toOption_map hc
      obtain ⟨h, e3, rv⟩ := sa r (List.mem_cons_self ..) _ e1
      cases h <;> simp only [RepV] at rv
      obtain ⟨y, ey, rb⟩ := rep_on rv l x eq'
      simp only [Call.heap, e3, ey, Res.toOption, Option.map_some] at hx
      cases hx
      exact rb
    · rename_i q e1
      obtain ⟨q', eq', rfl⟩ := toOption_map hc
      obtain ⟨h, e3, rv⟩ := sa r (List.mem_cons_self ..) _ e1
      cases h <;> simp only [RepV] at rv
      unfold SelectSingle.on at eq'
      cases hq : q.base.on l x with
      | err _ => rw [hq] at eq'; cases eq'
      | panic _ => rw [hq] at eq'; cases eq'
      | ok b =>
        rw [hq] at eq'
        simp only [Res.bind_ok, Res.ok.injEq] at eq'; subst eq'
        obtain ⟨y, ey, rb⟩ := rep_on rv l x hq
        simp only [Call.heap, e3, ey, Res.toOption, Option.map_some] at hx
        cases hx
        exact rb
    · rename_i q e1
      obtain ⟨q', eq', rfl⟩ := toOption_map hc
      obtain ⟨h, e3, rv⟩ := sa r (List.mem_cons_self ..) _ e1
      cases h <;> simp only [RepV] at rv
      unfold SelectMany.on at eq'
      cases hq : q.base.on l x with
      | err _ => rw [hq] at eq'; cases eq'
      | panic _ => rw [hq] at eq'; cases eq'
      | ok b =>
        rw [hq] at eq'
        simp only [Res.bind_ok, Res.ok.injEq] at eq'; subst eq'
        obtain ⟨y, ey, rb⟩ := rep_on rv.base l x hq
        simp only [Call.heap, e3, ey, Res.toOption, Option.map_some] at hx
        cases hx
        exact ⟨rb, rv.offset, rv.limit, rv.order, rv.spec⟩
    · cases hc
  | single r =>
    simp only [Call.pure] at hc
    split at hc
    · rename_i q e1
      simp only [Option.some.injEq] at hc; subst hc
      obtain ⟨h, e3, rv⟩ := sa r (List.mem_cons_self ..) _ e1
      cases h <;> simp only [RepV] at rv
      simp only [Call.heap, e3] at hx
      cases hx
      exact rv
    · cases hc
  | embedded r =>
    simp only [Call.pure] at hc
    split at hc
    · rename_i q e1
      simp only [Option.some.injEq] at hc; subst hc
      obtain ⟨h, e3, rv⟩ := sa r (List.mem_cons_self ..) _ e1
      cases h <;> simp only [RepV] at rv
      simp only [Call.heap, e3] at hx
      cases hx
      exact rv
    · rename_i q e1
      simp only [Option.some.injEq] at hc; subst hc
      obtain ⟨h, e3, rv⟩ := sa r (List.mem_cons_self ..) _ e1
      cases h <;> simp only [RepV] at rv
      simp only [Call.heap, e3] at hx
      cases hx
      exact rv.base
    · cases hc
  | many r =>
    simp only [Call.pure] at hc
    split at hc
    · rename_i q e1
      simp only [Option.some.injEq] at hc; subst hc
      obtain ⟨h, e3, rv⟩ := sa r (List.mem_cons_self ..) _ e1
      cases h <;> simp only [RepV] at rv
      simp only [Call.heap, e3] at hx
      cases hx
      exact ⟨⟨rv.op, rv.tbl, rv.joins, rv.fields, rv.cond⟩, rfl, rfl, rep_make m.sorts [], rfl⟩
    · cases hc
  | offset r n =>
    simp only [Call.pure] at hc
    split at hc
    · rename_i q e1
      simp only [Option.some.injEq] at hc; subst hc
      obtain ⟨h, e3, rv⟩ := sa r (List.mem_cons_self ..) _ e1
      cases h <;> simp only [RepV] at rv
      simp only [Call.heap, e3] at hx
      cases hx
      exact ⟨rv.base, rfl, rv.limit, rv.order, rv.spec⟩
    · cases hc
  | limit r n =>
    simp only [Call.pure] at hc
    split at hc
    · rename_i q e1
      simp only [Option.some.injEq] at hc; subst hc
      obtain ⟨h, e3, rv⟩ := sa r (List.mem_cons_self ..) _ e1
      cases h <;> simp only [RepV] at rv
      simp only [Call.heap, e3] at hx
      cases hx
      exact ⟨rv.base, rv.offset, rfl, rv.order, rv.spec⟩
    · cases hc
  | orderBy r os =>
    simp only [Call.pure] at hc
    split at hc
    · rename_i q e1
      simp only [Option.some.injEq] at hc; subst hc
      obtain ⟨h, e3, rv⟩ := sa r (List.mem_cons_self ..) _ e1
      cases h <;> simp only [RepV] at rv
      rename_i h
      simp only [Call.heap, e3] at hx
      cases hx
      exact ⟨⟨rv.base.op, rv.base.tbl, rv.base.joins, rv.base.fields, rv.base.cond⟩, rv.offset, rv.limit,
        rep_append pol.sorts m.sorts h.order os _ rv.order.1 rv.order, rv.spec⟩
    · cases hc
  | count r fs =>
    simp only [Call.pure] at hc
    split at hc
    · rename_i q e1
      obtain ⟨y, ey, rfl⟩ := toOption_map hc
      obtain ⟨h, e3, rv⟩ := sa r (List.mem_cons_self ..) _ e1
      cases h <;> simp only [RepV] at rv
      obtain ⟨b1, b2⟩ := count_is ey
      simp only [Call.heap, e3, b2, Res.toOption, Option.map_some] at hx
      cases hx
      simp only [RepV, b1]; exact ⟨rv, trivial⟩
    · rename_i q e1
      obtain ⟨y, ey, rfl⟩ := toOption_map hc
      obtain ⟨h, e3, rv⟩ := sa r (List.mem_cons_self ..) _ e1
      cases h <;> simp only [RepV] at rv
      obtain ⟨b1, b2⟩ := count_is ey
      simp only [Call.heap, e3, b2, Res.toOption, Option.map_some] at hx
      cases hx
      simp only [RepV, b1]; exact ⟨rv.base, trivial⟩
    · cases hc
  | insertInto t =>
    simp only [Call.pure, Option.some.injEq] at hc; subst hc
    simp only [Call.heap] at hx
    cases hx
    exact ⟨rfl, rfl, rep_make m.vals []⟩
  | insertFrom r vs =>
    simp only [Call.pure] at hc
    split at hc
    · rename_i q e1
      simp only [Option.some.injEq] at hc; subst hc
      obtain ⟨h, e3, rv⟩ := sa r (List.mem_cons_self ..) _ e1
      cases h <;> simp only [RepV] at rv
      simp only [Call.heap, e3] at hx
      cases hx
      have tv := tr_make (tight := false) m.vals []
      have ra := rep_append pol.vals (m.vals.make []).1 (m.vals.make []).2 vs _ (tv.ext (m.vals.make []).2 (by simp)).arr
        (rep_make m.vals [])
      exact ⟨rfl, congrArg (fun t => paramTableName (.ident t)) rv.tbl, ra⟩
    · cases hc
  | values r vs =>
    simp only [Call.pure] at hc
    split at hc
    · rename_i q e1
      simp only [Option.some.injEq] at hc; subst hc
      obtain ⟨h, e3, rv⟩ := sa r (List.mem_cons_self ..) _ e1
      cases h <;> simp only [RepV] at rv
      rename_i h
      simp only [Call.heap, e3] at hx
      cases hx
      exact ⟨rv.1, rv.2.1, rep_append pol.vals m.vals h.setValues vs _ rv.2.2.1 rv.2.2⟩
    · cases hc
  | update t =>
    simp only [Call.pure, Option.some.injEq] at hc; subst hc
    simp only [Call.heap] at hx
    cases hx
    obtain ⟨t1, r1⟩ := sim_newGroup (tight := false) (st := m.conds) lAND (hs := []) (cs := []) (by simp [RepL])
    exact ⟨rfl, rfl, r1, rep_make m.vals []⟩
  | updateFrom r vs =>
    simp only [Call.pure] at hc
    split at hc
    · rename_i q e1
      simp only [Option.some.injEq] at hc; subst hc
      obtain ⟨h, e3, rv⟩ := sa r (List.mem_cons_self ..) _ e1
      cases h <;> simp only [RepV] at rv
      rename_i h
      have ru := (rep_update hp rv (.ident h.baseTable) vs).2
      rw [rv.tbl] at ru
      simp only [Call.heap, e3, rv.tbl] at hx
      cases hx
      exact ru
    · rename_i q e1
      simp only [Option.some.injEq] at hc; subst hc
      obtain ⟨h, e3, rv⟩ := sa r (List.mem_cons_self ..) _ e1
      cases h <;> simp only [RepV] at rv
      rename_i h
      have ru := (rep_update hp rv (.ident h.baseTable) vs).2
      rw [rv.tbl] at ru
      simp only [Call.heap, e3, rv.tbl] at hx
      cases hx
      exact ru
    · rename_i q e1
      simp only [Option.some.injEq] at hc; subst hc
      obtain ⟨h, e3, rv⟩ := sa r (List.mem_cons_self ..) _ e1
      cases h <;> simp only [RepV] at rv
      rename_i h
      have ru := (rep_update hp rv.base (.name h.base.baseTable.name) vs).2
      rw [rv.base.tbl] at ru
      simp only [Call.heap, e3, rv.base.tbl] at hx
      cases hx
      exact ru
    · cases hc
  | set r vs =>
    simp only [Call.pure] at hc
    split at hc
    · rename_i q e1
      simp only [Option.some.injEq] at hc; subst hc
      obtain ⟨h, e3, rv⟩ := sa r (List.mem_cons_self ..) _ e1
      cases h <;> simp only [RepV] at rv
      rename_i h
      simp only [Call.heap, e3] at hx
      cases hx
      exact ⟨rv.1, rv.2.1, rv.2.2.1, rep_append pol.vals m.vals h.setValues vs _ rv.2.2.2.1 rv.2.2.2⟩
    · cases hc
  | delete t =>
    simp only [Call.pure, Option.some.injEq] at hc; subst hc
    simp only [Call.heap] at hx
    cases hx
    obtain ⟨t1, r1⟩ := sim_newGroup (tight := false) (st := m.conds) lAND (hs := []) (cs := []) (by simp [RepL])
    exact ⟨rfl, rfl, r1⟩
  | deleteFrom r =>
    simp only [Call.pure] at hc
    split at hc
    · rename_i q e1
      simp only [Option.some.injEq] at hc; subst hc
      obtain ⟨h, e3, rv⟩ := sa r (List.mem_cons_self ..) _ e1
      cases h <;> simp only [RepV] at rv
      rename_i h
      have ru := (rep_delete hp rv (.ident h.baseTable)).2
      rw [rv.tbl] at ru
      simp only [Call.heap, e3, rv.tbl] at hx
      cases hx
      exact ru
    · rename_i q e1
      simp only [Option.some.injEq] at hc; subst hc
      obtain ⟨h, e3, rv⟩ := sa r (List.mem_cons_self ..) _ e1
      cases h <;> simp only [RepV] at rv
      rename_i h
      have ru := (rep_delete hp rv (.ident h.baseTable)).2
      rw [rv.tbl] at ru
      simp only [Call.heap, e3, rv.tbl] at hx
      cases hx
      exact ru
    · rename_i q e1
      simp only [Option.some.injEq] at hc; subst hc
      obtain ⟨h, e3, rv⟩ := sa r (List.mem_cons_self ..) _ e1
      cases h <;> simp only [RepV] at rv
      rename_i h
      have ru := (rep_delete hp rv.base (.name h.base.baseTable.name)).2
      rw [rv.base.tbl] at ru
      simp only [Call.heap, e3, rv.base.tbl] at hx
      cases hx
      exact ru
    · cases hc

/-- A value all of whose lists stay as they were stands for the same plain value. -/
theorem repV_same {m' : Mem} (sb : StB m.conds) (hi : ∀ s, InB m.conds s → InB m'.conds s) (h : HV) (hb : h.bnd m) (hb' : h.bnd m')
    (k : h.Same m m') (p : PV) (r : RepV m h p) : RepV m' h p := by
  have mv : Moves m.conds m'.conds := ⟨sb, hi⟩
  have base : ∀ (q : HBase) (b : BaseSelect), BaseB m q → BaseB m' q → q.where_.toCond.same m.conds m'.conds →
      m'.joins.read q.joins = m.joins.read q.joins → RepB m q b → RepB m' q b := by
    intro q b h1 h2 h3 h4 r
    exact ⟨r.op, r.tbl, ⟨h2.joins.1, h2.joins.2, h4.trans r.joins.2.2⟩,
      ⟨h2.fields.1, h2.fields.2, (k.defs _ h1.fields).trans r.fields.2.2⟩, mv.rep r.cond h3⟩
  cases h <;> cases p <;> simp only [RepV] at r ⊢ <;> simp only [HV.bnd] at hb hb'
  · exact mv.rep r (k.conds _ rfl)
  · exact base _ _ hb hb' (k.conds _ rfl) (k.joins _ rfl) r
  · exact base _ _ hb hb' (k.conds _ rfl) (k.joins _ rfl) r
  · exact ⟨base _ _ hb.1 hb'.1 (k.conds _ rfl) (k.joins _ rfl) r.base, r.offset, r.limit,
      ⟨hb'.2.1, hb'.2.2, (k.sorts _ rfl).trans r.order.2.2⟩, r.spec⟩
  · exact ⟨base _ _ hb hb' (k.conds _ rfl) (k.joins _ rfl) r.1, r.2⟩
  · exact ⟨r.1, r.2.1, hb'.1, hb'.2, (k.vals _ rfl).trans r.2.2.2.2⟩
  · exact ⟨r.1, r.2.1, mv.rep r.2.2.1 (k.conds _ rfl), hb'.2.1, hb'.2.2, (k.vals _ rfl).trans r.2.2.2.2.2⟩
  · exact ⟨r.1, r.2.1, mv.rep r.2.2 (k.conds _ rfl)⟩
  · exact base _ _ hb hb' (k.conds _ rfl) (k.joins _ rfl) r
  · exact base _ _ hb hb' (k.conds _ rfl) (k.joins _ rfl) r
  · exact ⟨base _ _ hb.1 hb'.1 (k.conds _ rfl) (k.joins _ rfl) r.base, r.offset, r.limit,
      ⟨hb'.2.1, hb'.2.2, (k.sorts _ rfl).trans r.order.2.2⟩, r.spec⟩

end
end Query
