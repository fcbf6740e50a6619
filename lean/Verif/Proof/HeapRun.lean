import Verif.Proof.HeapCalls
/-!
# Every history in memory does what it does on values
-/
namespace Query
open Store

variable {tight : Bool} {used : List Nat} {m : Mem} {hs : List HV} {ps : List PV} {pol : Policy} {p : PV}

theorem after_eq (c : Call) (r : Option Nat) (h1 : c.completes = none) (h2 : c.extends = r) :
    after tight c used = if tight = true then used else r.toList ++ used := by
  simp only [after, h1, h2]; split <;> rfl

theorem getConds_none_map {α : Type} {x : Option α} {f : α → PV} {p : PV} (h : x.map f = some p) : ∃ a, x = some a ∧ f a = p := by
  cases x with
  | none => cases h
  | some a => exact ⟨a, rfl, by simpa using h⟩

theorem toOption_map {α : Type} {x : Res α} {f : α → PV} {p : PV} (h : x.toOption.map f = some p) : ∃ a, x = .ok a ∧ f a = p := by
  cases x with
  | ok a => exact ⟨a, rfl, by simpa [Res.toOption] using h⟩
  | err _ => cases h
  | panic _ => cases h

/-- The operand of a call among the values. -/
theorem Inv.own (inv : Inv tight used m hs ps) {r : Nat} {h : HV} (e : hs[r]? = some h) (hr : tight = false → r ∉ used) :
    OwnExt tight m h.own := by
  refine inv.ext r h e ?_
  cases tight with
  | true => exact .inl rfl
  | false => exact .inr (hr rfl)

theorem step (inv : Inv tight used m hs ps) (hp : PolOK tight pol) (c : Call)
    (hna : c.noApply = true) (hf : ∀ r, c.extends = some r → tight = false → r ∉ used)
    (hf2 : ∀ r, c.completes = some r → r ∉ used) (hc : c.pure ps = some p) :
    ∃ x, c.heap pol m hs = some x ∧ Inv tight (after tight c used) x.1 (hs ++ [x.2]) (ps ++ [p]) := by
  cases c with
  | leaf c =>
    simp only [Call.pure] at hc
    split at hc
    · cases hc
    · rename_i hn
      simp only [Option.some.injEq] at hc; subst hc
      refine ⟨(m, .cond (.leaf c)), by simp only [Call.heap, hn]; rfl, ?_⟩
      rw [after_eq _ none rfl rfl]
      refine inv.push .none (TrM.nothing _) ?_ (fun _ s h => by cases h) (fun e => by cases e)
      simp only [RepV]
      exact rep_leaf_iff.2 ⟨rfl, by cases h : c.asGroup <;> simp [h] at hn ⊢⟩
  | newGroup j args =>
    simp only [Call.pure] at hc
    obtain ⟨cs, e1, rfl⟩ := getConds_none_map hc
    obtain ⟨hcs, k1, k2⟩ := inv.conds args cs e1
    obtain ⟨t, rn⟩ := sim_newGroup (tight := tight) j k2
    refine ⟨_, by simp only [Call.heap, k1, Option.map_some]; rfl, ?_⟩
    rw [after_eq _ none rfl rfl]
    exact inv.push .none ⟨t, Tr.none _ _, Tr.none _ _, Tr.none _ _, Le.refl _⟩ rn (fun _ s h => by cases h)
      (fun e => by cases e)
  | andF r args =>
    simp only [Call.pure] at hc
    split at hc
    · rename_i c cs e1 e2
      simp only [Option.some.injEq] at hc; subst hc
      obtain ⟨hcs, k1, k2⟩ := inv.conds args cs e2
      obtain ⟨h, e3, rv, hj⟩ := inv.fetch e1 rfl
      cases h <;> simp only [RepV] at rv
      have oe := inv.own e3 (hf r rfl)
      have k := sim_and hp.conds oe.c rv k2
      refine ⟨_, by simp only [Call.heap, e3, k1]; rfl, ?_⟩
      rw [after_eq _ (some r) rfl rfl]
      exact inv.push (.some r _ e3 hj (hf r rfl)) (TrM.conds oe k.tr rfl rfl rfl) k.rep (fun _ s h => by cases h) (fun e => by cases e)
    · cases hc
  | orF r args =>
    simp only [Call.pure] at hc
    split at hc
    · rename_i c cs e1 e2
      simp only [Option.some.injEq] at hc; subst hc
      obtain ⟨hcs, k1, k2⟩ := inv.conds args cs e2
      obtain ⟨h, e3, rv, hj⟩ := inv.fetch e1 rfl
      cases h <;> simp only [RepV] at rv
      have oe := inv.own e3 (hf r rfl)
      have k := sim_or hp.conds oe.c rv k2
      refine ⟨_, by simp only [Call.heap, e3, k1]; rfl, ?_⟩
      rw [after_eq _ (some r) rfl rfl]
      exact inv.push (.some r _ e3 hj (hf r rfl)) (TrM.conds oe k.tr rfl rfl rfl) k.rep (fun _ s h => by cases h) (fun e => by cases e)
    · cases hc
  | and r args =>
    simp only [Call.pure] at hc
    split at hc
    · rename_i c cs e1 e2
      simp only [Option.some.injEq] at hc; subst hc
      obtain ⟨hcs, k1, k2⟩ := inv.conds args cs e2
      obtain ⟨h, e3, rv, hj⟩ := inv.fetch e1 rfl
      cases h <;> simp only [RepV] at rv
      have oe := inv.own e3 (hf r rfl)
      have k := sim_andM hp.conds oe.c rv k2
      refine ⟨_, by simp only [Call.heap, e3, k1]; rfl, ?_⟩
      rw [after_eq _ (some r) rfl rfl]
      exact inv.push (.some r _ e3 hj (hf r rfl)) (TrM.conds oe k.tr rfl rfl rfl) k.rep (fun _ s h => by cases h) (fun e => by cases e)
    · cases hc
  | or r args =>
    simp only [Call.pure] at hc
    split at hc
    · rename_i c cs e1 e2
      obtain ⟨c', ec, rfl⟩ := toOption_map hc
      obtain ⟨hcs, k1, k2⟩ := inv.conds args cs e2
      obtain ⟨h, e3, rv, hj⟩ := inv.fetch e1 rfl
      cases h <;> simp only [RepV] at rv
      have oe := inv.own e3 (hf r rfl)
      obtain ⟨x, ex, k⟩ := sim_orM hp.conds oe.c rv k2 ec
      refine ⟨_, by simp only [Call.heap, e3, k1, ex, Res.toOption, Option.map_some]; rfl, ?_⟩
      rw [after_eq _ (some r) rfl rfl]
      exact inv.push (.some r _ e3 hj (hf r rfl)) (TrM.conds oe k.tr rfl rfl rfl) k.rep (fun _ s h => by cases h) (fun e => by cases e)
    · cases hc
  | negate r n =>
    simp only [Call.pure] at hc
    split at hc
    · rename_i c e1
      simp only [Option.some.injEq] at hc; subst hc
      obtain ⟨h, e3, rv, hj⟩ := inv.fetch e1 rfl
      cases h <;> simp only [RepV] at rv
      have oe := inv.own e3 (hf r rfl)
      refine ⟨_, by simp only [Call.heap, e3]; rfl, ?_⟩
      rw [after_eq _ (some r) rfl rfl]
      exact inv.push (.some r _ e3 hj (hf r rfl)) (TrM.same oe (by simp only [HV.own, sl_negate])) (rv.negate n)
        (fun _ s h => by cases h) (fun e => by cases e)
    · cases hc
  | join r j =>
    simp only [Call.pure] at hc
    split at hc
    · rename_i c e1
      simp only [Option.some.injEq] at hc; subst hc
      obtain ⟨h, e3, rv, hj⟩ := inv.fetch e1 rfl
      cases h <;> simp only [RepV] at rv
      have oe := inv.own e3 (hf r rfl)
      refine ⟨_, by simp only [Call.heap, e3]; rfl, ?_⟩
      rw [after_eq _ (some r) rfl rfl]
      exact inv.push (.some r _ e3 hj (hf r rfl)) (TrM.same oe (by simp only [HV.own, sl_join])) (rv.join j)
        (fun _ s h => by cases h) (fun e => by cases e)
    · cases hc
  | withBrackets r =>
    simp only [Call.pure] at hc
    split at hc
    · rename_i b cs br e1
      simp only [Option.some.injEq] at hc; subst hc
      obtain ⟨h, e3, rv, hj⟩ := inv.fetch e1 rfl
      cases h <;> simp only [RepV] at rv
      rename_i h
      cases h with
      | leaf c => simp [Rep, Cond.asGroup] at rv
      | group b' s br' =>
        have oe := inv.own e3 (hf r rfl)
        refine ⟨_, by simp only [Call.heap, e3]; rfl, ?_⟩
        rw [after_eq _ (some r) rfl rfl]
        have rg : RepG m.conds ⟨b', s, br'⟩ ⟨b, cs, br⟩ := rv
        exact inv.push (.some r _ e3 hj (hf r rfl)) (TrM.same oe rfl) rg.brackets
          (fun _ s h => by cases h) (fun e => by cases e)
    · cases hc
  | applySpec r spec => cases hna
  | applyTable r t => cases hna
  | selectFrom t =>
    simp only [Call.pure] at hc
    obtain ⟨q, eq', rfl⟩ := toOption_map hc
    unfold Query.selectFrom at eq'
    cases ht : tableP t with
    | err _ => rw [ht] at eq'; cases eq'
    | panic _ => rw [ht] at eq'; cases eq'
    | ok ti =>
      rw [ht] at eq'
      simp only [Res.bind_ok, Res.ok.injEq] at eq'
      subst eq'
      obtain ⟨tr, rb⟩ := rep_newBase (tight := tight) m ti
      refine ⟨_, by simp only [Call.heap, selectFromH, ht, Res.bind_ok, Res.toOption, Option.map_some]; rfl, ?_⟩
      rw [after_eq _ none rfl rfl]
      refine inv.push .none tr rb (fun _ s h => ?_) (fun e => by cases e)
      simp only [HV.jsl, List.mem_singleton] at h; subst h
      exact .inr (by simp [Store.make, Store.alloc])
  | fields r fs =>
    simp only [Call.pure] at hc
    split at hc
    · rename_i q e1
      simp only [Option.some.injEq] at hc; subst hc
      obtain ⟨h, e3, rv, hj⟩ := inv.fetch e1 rfl
      cases h <;> simp only [RepV] at rv
      rename_i h
      have oe := inv.own e3 (hf r rfl)
      obtain ⟨ld, rb⟩ := rep_fields rv fs
      refine ⟨_, by simp only [Call.heap, e3]; rfl, ?_⟩
      rw [after_eq _ (some r) rfl rfl]
      exact inv.push (.some r _ e3 hj (hf r rfl)) ⟨Tr.same oe.c, Tr.same oe.j, Tr.same oe.s, Tr.same oe.v, ld⟩ rb
        (fun _ s h => .inl ⟨r, _, e3, rfl, h⟩) (fun e => by cases e)
    · rename_i q e1
      simp only [Option.some.injEq] at hc; subst hc
      obtain ⟨h, e3, rv, hj⟩ := inv.fetch e1 rfl
      cases h <;> simp only [RepV] at rv
      rename_i h
      have oe := inv.own e3 (hf r rfl)
      obtain ⟨tr, rz⟩ := rep_zero (tight := tight) m
      obtain ⟨ld, rb⟩ := rep_fields rz fs
      refine ⟨_, by simp only [Call.heap, e3]; rfl, ?_⟩
      rw [after_eq _ (some r) rfl rfl]
      refine inv.push (.some r _ e3 hj (hf r rfl)) ⟨tr.c.weak _, tr.j.weak _, tr.s.weak _, tr.v.weak _, tr.d.trans ld⟩ rb
        (fun _ s h => ?_) (fun e => by cases e)
      simp only [HV.jsl, List.mem_singleton] at h; subst h
      exact .inr (by simp [HBase.setFields, zeroBaseH, Store.make, Store.alloc])
    · rename_i q e1
      simp only [Option.some.injEq] at hc; subst hc
      obtain ⟨h, e3, rv, hj⟩ := inv.fetch e1 rfl
      cases h <;> simp only [RepV] at rv
      rename_i h
      have oe := inv.own e3 (hf r rfl)
      obtain ⟨ld, rb⟩ := rep_fields rv.base fs
      refine ⟨_, by simp only [Call.heap, e3]; rfl, ?_⟩
      rw [after_eq _ (some r) rfl rfl]
      exact inv.push (.some r _ e3 hj (hf r rfl)) ⟨Tr.same oe.c, Tr.same oe.j, Tr.same oe.s, Tr.same oe.v, ld⟩
        ⟨rb, rv.offset, rv.limit, rv.order, rv.spec⟩
        (fun _ s h => .inl ⟨r, _, e3, rfl, h⟩) (fun e => by cases e)
    · cases hc
  | where_ r args =>
    simp only [Call.pure] at hc
    split at hc
    · rename_i q cs e1 e2
      simp only [Option.some.injEq] at hc; subst hc
      obtain ⟨hcs, k1, k2⟩ := inv.conds args cs e2
      obtain ⟨h, e3, rv, hj⟩ := inv.fetch e1 rfl
      cases h <;> simp only [RepV] at rv
      have oe := inv.own e3 (hf r rfl)
      obtain ⟨tr, rb⟩ := rep_where hp rv (oe.c _ (by simp [HV.own])) k2
      refine ⟨_, by simp only [Call.heap, e3, k1]; rfl, ?_⟩
      rw [after_eq _ (some r) rfl rfl]
      exact inv.push (.some r _ e3 hj (hf r rfl)) (TrM.conds oe tr rfl rfl rfl) rb
        (fun _ s h => .inl ⟨r, _, e3, rfl, h⟩) (fun e => by cases e)
    · rename_i q cs e1 e2
      simp only [Option.some.injEq] at hc; subst hc
      obtain ⟨hcs, k1, k2⟩ := inv.conds args cs e2
      obtain ⟨h, e3, rv, hj⟩ := inv.fetch e1 rfl
      cases h <;> simp only [RepV] at rv
      have oe := inv.own e3 (hf r rfl)
      obtain ⟨tr, rb⟩ := rep_where hp rv (oe.c _ (by simp [HV.own])) k2
      refine ⟨_, by simp only [Call.heap, e3, k1]; rfl, ?_⟩
      rw [after_eq _ (some r) rfl rfl]
      exact inv.push (.some r _ e3 hj (hf r rfl)) (TrM.conds oe tr rfl rfl rfl) rb
        (fun _ s h => .inl ⟨r, _, e3, rfl, h⟩) (fun e => by cases e)
    · rename_i q cs e1 e2
      simp only [Option.some.injEq] at hc; subst hc
      obtain ⟨hcs, k1, k2⟩ := inv.conds args cs e2
      obtain ⟨h, e3, rv, hj⟩ := inv.fetch e1 rfl
      cases h <;> simp only [RepV] at rv
      have oe := inv.own e3 (hf r rfl)
      obtain ⟨tr, rb⟩ := rep_where hp rv.base (oe.c _ (by simp [HV.own])) k2
      refine ⟨_, by simp only [Call.heap, e3, k1]; rfl, ?_⟩
      rw [after_eq _ (some r) rfl rfl]
      exact inv.push (.some r _ e3 hj (hf r rfl)) (TrM.conds oe tr rfl rfl rfl)
        ⟨rb, rv.offset, rv.limit, rv.order, rv.spec⟩
        (fun _ s h => .inl ⟨r, _, e3, rfl, h⟩) (fun e => by cases e)
    · rename_i q cs e1 e2
      simp only [Option.some.injEq] at hc; subst hc
      obtain ⟨hcs, k1, k2⟩ := inv.conds args cs e2
      obtain ⟨h, e3, rv, hj⟩ := inv.fetch e1 rfl
      cases h <;> simp only [RepV] at rv
      have oe := inv.own e3 (hf r rfl)
      have k := sim_addConditions hp.conds (oe.c _ (by simp [HV.own])) rv.2.2.1 k2 lAND
      refine ⟨_, by simp only [Call.heap, e3, k1]; rfl, ?_⟩
      rw [after_eq _ (some r) rfl rfl]
      exact inv.push (.some r _ e3 hj (hf r rfl)) (TrM.conds oe k.tr rfl rfl rfl) ⟨rv.1, rv.2.1, k.rep, rv.2.2.2⟩
        (fun _ s h => by cases h) (fun e => by cases e)
    · rename_i q cs e1 e2
      simp only [Option.some.injEq] at hc; subst hc
      obtain ⟨hcs, k1, k2⟩ := inv.conds args cs e2
      obtain ⟨h, e3, rv, hj⟩ := inv.fetch e1 rfl
      cases h <;> simp only [RepV] at rv
      have oe := inv.own e3 (hf r rfl)
      have k := sim_addConditions hp.conds (oe.c _ (by simp [HV.own])) rv.2.2 k2 lAND
      refine ⟨_, by simp only [Call.heap, e3, k1]; rfl, ?_⟩
      rw [after_eq _ (some r) rfl rfl]
      exact inv.push (.some r _ e3 hj (hf r rfl)) (TrM.conds oe k.tr rfl rfl rfl) ⟨rv.1, rv.2.1, k.rep⟩
        (fun _ s h => by cases h) (fun e => by cases e)
    · cases hc
  | joinTable r t j =>
    simp only [Call.pure] at hc
    split at hc
    · rename_i q e1
      simp only [Option.some.injEq] at hc; subst hc
      obtain ⟨h, e3, rv, hj⟩ := inv.fetch e1 rfl
      cases h <;> simp only [RepV] at rv
      rename_i h
      have oe := inv.own e3 (hf r rfl)
      have ej : Ext tight m.joins h.joins := oe.j _ (by simp [HV.own])
      obtain ⟨tr, rb⟩ := rep_join hp rv ej t j
      have lg := join_longer hp ej t j
      refine ⟨_, by simp only [Call.heap, e3]; rfl, ?_⟩
      rw [after_eq _ (some r) rfl rfl]
      refine inv.push (.some r _ e3 hj (hf r rfl)) ⟨Tr.same oe.c, tr, Tr.same oe.s, Tr.same oe.v, Le.refl _⟩ rb
        (fun e => by cases e) (fun _ s h' => ?_)
      simp only [HV.own, List.mem_singleton] at h'; subst h'
      exact lg.imp id fun ⟨a, b⟩ => ⟨a, h.joins, by simp [HV.own], b⟩
    · rename_i q e1
      simp only [Option.some.injEq] at hc; subst hc
      obtain ⟨h, e3, rv, hj⟩ := inv.fetch e1 rfl
      cases h <;> simp only [RepV] at rv
      rename_i h
      have oe := inv.own e3 (hf r rfl)
      have ej : Ext tight m.joins h.joins := oe.j _ (by simp [HV.own])
      obtain ⟨tr, rb⟩ := rep_join hp rv ej t j
      have lg := join_longer hp ej t j
      refine ⟨_, by simp only [Call.heap, e3]; rfl, ?_⟩
      rw [after_eq _ (some r) rfl rfl]
      refine inv.push (.some r _ e3 hj (hf r rfl)) ⟨Tr.same oe.c, tr, Tr.same oe.s, Tr.same oe.v, Le.refl _⟩ rb
        (fun e => by cases e) (fun _ s h' => ?_)
      simp only [HV.own, List.mem_singleton] at h'; subst h'
      exact lg.imp id fun ⟨a, b⟩ => ⟨a, h.joins, by simp [HV.own], b⟩
    · rename_i q e1
      simp only [Option.some.injEq] at hc; subst hc
      obtain ⟨h, e3, rv, hj⟩ := inv.fetch e1 rfl
      cases h <;> simp only [RepV] at rv
      rename_i h
      have oe := inv.own e3 (hf r rfl)
      have ej : Ext tight m.joins h.base.joins := oe.j _ (by simp [HV.own])
      obtain ⟨tr, rb⟩ := rep_join hp rv.base ej t j
      have lg := join_longer hp ej t j
      refine ⟨_, by simp only [Call.heap, e3]; rfl, ?_⟩
      rw [after_eq _ (some r) rfl rfl]
      refine inv.push (.some r _ e3 hj (hf r rfl)) ⟨Tr.same oe.c, tr, Tr.same oe.s, Tr.same oe.v, Le.refl _⟩
        ⟨rb, rv.offset, rv.limit, rv.order, rv.spec⟩ (fun e => by cases e) (fun _ s h' => ?_)
      simp only [HV.own, List.mem_singleton] at h'; subst h'
      exact lg.imp id fun ⟨a, b⟩ => ⟨a, h.base.joins, by simp [HV.own], b⟩
    · cases hc
  | on r l x =>
    have hru := hf2 r rfl
    have ea : after tight (.on r l x) used = r :: used := by simp only [after, Call.completes, Call.extends]; split <;> rfl
    rw [ea]
    simp only [Call.pure] at hc
    split at hc
    · rename_i q e1
      obtain ⟨q', eq', rfl⟩ := toOption_map hc
      obtain ⟨h, e3, rv, hj⟩ := inv.fetchJ e1 hru
      cases h <;> simp only [RepV] at rv
      obtain ⟨y, ey, rb⟩ := rep_on rv l x eq'
      refine ⟨_, by simp only [Call.heap, e3, ey, Res.toOption, Option.map_some]; rfl, ?_⟩
      exact inv.complete e3 rfl hru rfl rfl rfl rfl rb
    · rename_i q e1
      obtain ⟨q', eq', rfl⟩ := toOption_map hc
      obtain ⟨h, e3, rv, hj⟩ := inv.fetchJ e1 hru
      cases h <;> simp only [RepV] at rv
      unfold SelectSingle.on at eq'
      cases hq : q.base.on l x with
      | err _ => rw [hq] at eq'; cases eq'
      | panic _ => rw [hq] at eq'; cases eq'
      | ok b =>
        rw [hq] at eq'
        simp only [Res.bind_ok, Res.ok.injEq] at eq'; subst eq'
        obtain ⟨y, ey, rb⟩ := rep_on rv l x hq
        refine ⟨_, by simp only [Call.heap, e3, ey, Res.toOption, Option.map_some]; rfl, ?_⟩
        exact inv.complete e3 rfl hru rfl rfl rfl rfl rb
    · rename_i q e1
      obtain ⟨q', eq', rfl⟩ := toOption_map hc
      obtain ⟨h, e3, rv, hj⟩ := inv.fetchJ e1 hru
      cases h <;> simp only [RepV] at rv
      unfold SelectMany.on at eq'
      cases hq : q.base.on l x with
      | err _ => rw [hq] at eq'; cases eq'
      | panic _ => rw [hq] at eq'; cases eq'
      | ok b =>
        rw [hq] at eq'
        simp only [Res.bind_ok, Res.ok.injEq] at eq'; subst eq'
        obtain ⟨y, ey, rb⟩ := rep_on rv.base l x hq
        refine ⟨_, by simp only [Call.heap, e3, ey, Res.toOption, Option.map_some]; rfl, ?_⟩
        exact inv.complete e3 rfl hru rfl rfl rfl rfl ⟨rb, rv.offset, rv.limit, rv.order, rv.spec⟩
    · cases hc
  | single r =>
    simp only [Call.pure] at hc
    split at hc
    · rename_i q e1
      simp only [Option.some.injEq] at hc; subst hc
      obtain ⟨h, e3, rv, hj⟩ := inv.fetch e1 rfl
      cases h <;> simp only [RepV] at rv
      have oe := inv.own e3 (hf r rfl)
      refine ⟨_, by simp only [Call.heap, e3]; rfl, ?_⟩
      rw [after_eq _ (some r) rfl rfl]
      exact inv.push (.some r _ e3 hj (hf r rfl)) (TrM.same oe rfl) rv
        (fun _ s h => .inl ⟨r, _, e3, rfl, h⟩) (fun e => by cases e)
    · cases hc
  | embedded r =>
    simp only [Call.pure] at hc
    split at hc
    · rename_i q e1
      simp only [Option.some.injEq] at hc; subst hc
      obtain ⟨h, e3, rv, hj⟩ := inv.fetch e1 rfl
      cases h <;> simp only [RepV] at rv
      have oe := inv.own e3 (hf r rfl)
      refine ⟨_, by simp only [Call.heap, e3]; rfl, ?_⟩
      rw [after_eq _ (some r) rfl rfl]
      exact inv.push (.some r _ e3 hj (hf r rfl)) (TrM.same oe rfl) rv
        (fun _ s h => .inl ⟨r, _, e3, rfl, h⟩) (fun e => by cases e)
    · rename_i q e1
      simp only [Option.some.injEq] at hc; subst hc
      obtain ⟨h, e3, rv, hj⟩ := inv.fetch e1 rfl
      cases h <;> simp only [RepV] at rv
      have oe := inv.own e3 (hf r rfl)
      refine ⟨_, by simp only [Call.heap, e3]; rfl, ?_⟩
      rw [after_eq _ (some r) rfl rfl]
      exact inv.push (.some r _ e3 hj (hf r rfl)) ⟨Tr.same oe.c, Tr.same oe.j, Tr.none _ _, Tr.same oe.v, Le.refl _⟩ rv.base
        (fun _ s h => .inl ⟨r, _, e3, rfl, h⟩) (fun e => by cases e)
    · cases hc
  | many r =>
    simp only [Call.pure] at hc
    split at hc
    · rename_i q e1
      simp only [Option.some.injEq] at hc; subst hc
      obtain ⟨h, e3, rv, hj⟩ := inv.fetch e1 rfl
      cases h <;> simp only [RepV] at rv
      have oe := inv.own e3 (hf r rfl)
      refine ⟨_, by simp only [Call.heap, e3]; rfl, ?_⟩
      rw [after_eq _ (some r) rfl rfl]
      have ts := tr_make (tight := tight) m.sorts []
      exact inv.push (.some r _ e3 hj (hf r rfl)) ⟨Tr.same oe.c, Tr.same oe.j, ts.weak _, Tr.same oe.v, Le.refl _⟩
        ⟨⟨rv.op, rv.tbl, rv.joins, rv.fields, rv.cond⟩, rfl, rfl, rep_make m.sorts [], rfl⟩
        (fun _ s h => .inl ⟨r, _, e3, rfl, h⟩) (fun e => by cases e)
    · cases hc
  | offset r n =>
    simp only [Call.pure] at hc
    split at hc
    · rename_i q e1
      simp only [Option.some.injEq] at hc; subst hc
      obtain ⟨h, e3, rv, hj⟩ := inv.fetch e1 rfl
      cases h <;> simp only [RepV] at rv
      have oe := inv.own e3 (hf r rfl)
      refine ⟨_, by simp only [Call.heap, e3]; rfl, ?_⟩
      rw [after_eq _ (some r) rfl rfl]
      exact inv.push (.some r _ e3 hj (hf r rfl)) (TrM.same oe rfl) ⟨rv.base, rfl, rv.limit, rv.order, rv.spec⟩
        (fun _ s h => .inl ⟨r, _, e3, rfl, h⟩) (fun e => by cases e)
    · cases hc
  | limit r n =>
    simp only [Call.pure] at hc
    split at hc
    · rename_i q e1
      simp only [Option.some.injEq] at hc; subst hc
      obtain ⟨h, e3, rv, hj⟩ := inv.fetch e1 rfl
      cases h <;> simp only [RepV] at rv
      have oe := inv.own e3 (hf r rfl)
      refine ⟨_, by simp only [Call.heap, e3]; rfl, ?_⟩
      rw [after_eq _ (some r) rfl rfl]
      exact inv.push (.some r _ e3 hj (hf r rfl)) (TrM.same oe rfl) ⟨rv.base, rv.offset, rfl, rv.order, rv.spec⟩
        (fun _ s h => .inl ⟨r, _, e3, rfl, h⟩) (fun e => by cases e)
    · cases hc
  | orderBy r os =>
    simp only [Call.pure] at hc
    split at hc
    · rename_i q e1
      simp only [Option.some.injEq] at hc; subst hc
      obtain ⟨h, e3, rv, hj⟩ := inv.fetch e1 rfl
      cases h <;> simp only [RepV] at rv
      rename_i h
      have oe := inv.own e3 (hf r rfl)
      have eo : Ext tight m.sorts h.order := oe.s _ (by simp [HV.own])
      refine ⟨_, by simp only [Call.heap, e3]; rfl, ?_⟩
      rw [after_eq _ (some r) rfl rfl]
      have ts := tr_append pol.sorts hp.sorts m.sorts h.order os eo
      have rs := rep_append pol.sorts m.sorts h.order os _ eo.arr rv.order
      exact inv.push (.some r _ e3 hj (hf r rfl)) ⟨Tr.same oe.c, Tr.same oe.j, ts, Tr.same oe.v, Le.refl _⟩
        ⟨⟨rv.base.op, rv.base.tbl, rv.base.joins, rv.base.fields, rv.base.cond⟩, rv.offset, rv.limit, rs, rv.spec⟩
        (fun _ s h => .inl ⟨r, _, e3, rfl, h⟩) (fun e => by cases e)
    · cases hc
  | count r fs =>
    have hcount : ∀ (q : BaseSelect) (y : CountB), Query.count q fs = .ok y →
        y.base = q ∧ countedField fs = .ok y.countField := by
      intro q y e
      unfold Query.count at e
      unfold countedField
      cases fs with
      | nil =>
        simp only at e ⊢
        cases hfd : field c!"*" with
        | ok fd => rw [hfd] at e; simp only [Res.bind_ok, Res.ok.injEq] at e; subst e; exact ⟨rfl, rfl⟩
        | err _ => rw [hfd] at e; cases e
        | panic _ => rw [hfd] at e; cases e
      | cons f _ =>
        simp only at e ⊢
        cases hfd : field f with
        | ok fd => rw [hfd] at e; simp only [Res.bind_ok, Res.ok.injEq] at e; subst e; exact ⟨rfl, rfl⟩
        | err _ => rw [hfd] at e; cases e
        | panic _ => rw [hfd] at e; cases e
    simp only [Call.pure] at hc
    split at hc
    · rename_i q e1
      obtain ⟨y, ey, rfl⟩ := toOption_map hc
      obtain ⟨h, e3, rv, hj⟩ := inv.fetch e1 rfl
      cases h <;> simp only [RepV] at rv
      obtain ⟨b1, b2⟩ := hcount q y ey
      refine ⟨_, by simp only [Call.heap, e3, b2, Res.toOption, Option.map_some]; rfl, ?_⟩
      rw [after_eq _ none rfl rfl]
      refine inv.push .none (TrM.nothing _) ?_ (fun _ s h => .inl ⟨r, _, e3, rfl, h⟩) (fun e => by cases e)
      simp only [RepV, b1]; exact ⟨rv, trivial⟩
    · rename_i q e1
      obtain ⟨y, ey, rfl⟩ := toOption_map hc
      obtain ⟨h, e3, rv, hj⟩ := inv.fetch e1 rfl
      cases h <;> simp only [RepV] at rv
      obtain ⟨b1, b2⟩ := hcount q.base y ey
      refine ⟨_, by simp only [Call.heap, e3, b2, Res.toOption, Option.map_some]; rfl, ?_⟩
      rw [after_eq _ none rfl rfl]
      refine inv.push .none (TrM.nothing _) ?_ (fun _ s h => .inl ⟨r, _, e3, rfl, h⟩) (fun e => by cases e)
      simp only [RepV, b1]; exact ⟨rv.base, trivial⟩
    · cases hc
  | insertInto t =>
    simp only [Call.pure, Option.some.injEq] at hc; subst hc
    refine ⟨_, rfl, ?_⟩
    rw [after_eq _ none rfl rfl]
    have tv := tr_make (tight := tight) m.vals []
    exact inv.push .none ⟨Tr.none _ _, Tr.none _ _, Tr.none _ _, tv, Le.refl _⟩ ⟨rfl, rfl, rep_make m.vals []⟩
      (fun _ s h => by cases h) (fun e => by cases e)
  | insertFrom r vs =>
    simp only [Call.pure] at hc
    split at hc
    · rename_i q e1
      simp only [Option.some.injEq] at hc; subst hc
      obtain ⟨h, e3, rv, hj⟩ := inv.fetch e1 rfl
      cases h <;> simp only [RepV] at rv
      refine ⟨_, by simp only [Call.heap, e3]; rfl, ?_⟩
      rw [after_eq _ none rfl rfl]
      have tv := tr_make (tight := tight) m.vals []
      have ta := tr_append pol.vals hp.vals (m.vals.make []).1 (m.vals.make []).2 vs (tv.ext _ (by simp))
      have ra := rep_append pol.vals (m.vals.make []).1 (m.vals.make []).2 vs _ (tv.ext (m.vals.make []).2 (by simp)).arr
        (rep_make m.vals [])
      exact inv.push .none ⟨Tr.none _ _, Tr.none _ _, Tr.none _ _, tv.trans ta, Le.refl _⟩
        ⟨rfl, congrArg (fun t => paramTableName (.ident t)) rv.tbl, ra⟩
        (fun _ s h => by cases h) (fun e => by cases e)
    · cases hc
  | values r vs =>
    simp only [Call.pure] at hc
    split at hc
    · rename_i q e1
      simp only [Option.some.injEq] at hc; subst hc
      obtain ⟨h, e3, rv, hj⟩ := inv.fetch e1 rfl
      cases h <;> simp only [RepV] at rv
      rename_i h
      have oe := inv.own e3 (hf r rfl)
      have eo : Ext tight m.vals h.setValues := oe.v _ (by simp [HV.own])
      refine ⟨_, by simp only [Call.heap, e3]; rfl, ?_⟩
      rw [after_eq _ (some r) rfl rfl]
      have ts := tr_append pol.vals hp.vals m.vals h.setValues vs eo
      have rs := rep_append pol.vals m.vals h.setValues vs _ eo.arr rv.2.2
      exact inv.push (.some r _ e3 hj (hf r rfl)) ⟨Tr.same oe.c, Tr.same oe.j, Tr.same oe.s, ts, Le.refl _⟩
        ⟨rv.1, rv.2.1, rs⟩ (fun _ s h => by cases h) (fun e => by cases e)
    · cases hc
  | update t =>
    simp only [Call.pure, Option.some.injEq] at hc; subst hc
    refine ⟨_, rfl, ?_⟩
    rw [after_eq _ none rfl rfl]
    have tv := tr_make (tight := tight) m.vals []
    obtain ⟨t1, r1⟩ := sim_newGroup (tight := tight) (st := m.conds) lAND (hs := []) (cs := []) (by simp [RepL])
    exact inv.push .none ⟨t1, Tr.none _ _, Tr.none _ _, tv, Le.refl _⟩ ⟨rfl, rfl, r1, rep_make m.vals []⟩
      (fun _ s h => by cases h) (fun e => by cases e)
  | updateFrom r vs =>
    simp only [Call.pure] at hc
    split at hc
    · rename_i q e1
      simp only [Option.some.injEq] at hc; subst hc
      obtain ⟨h, e3, rv, hj⟩ := inv.fetch e1 rfl
      cases h <;> simp only [RepV] at rv
      rename_i h
      obtain ⟨tr, ru⟩ := rep_update hp rv (.ident h.baseTable) vs
      rw [rv.tbl] at ru tr
      refine ⟨_, by simp only [Call.heap, e3, rv.tbl]; rfl, ?_⟩
      rw [after_eq _ none rfl rfl]
      exact inv.push .none tr ru (fun _ s h => by cases h) (fun e => by cases e)
    · rename_i q e1
      simp only [Option.some.injEq] at hc; subst hc
      obtain ⟨h, e3, rv, hj⟩ := inv.fetch e1 rfl
      cases h <;> simp only [RepV] at rv
      rename_i h
      obtain ⟨tr, ru⟩ := rep_update hp rv (.ident h.baseTable) vs
      rw [rv.tbl] at ru tr
      refine ⟨_, by simp only [Call.heap, e3, rv.tbl]; rfl, ?_⟩
      rw [after_eq _ none rfl rfl]
      exact inv.push .none tr ru (fun _ s h => by cases h) (fun e => by cases e)
    · rename_i q e1
      simp only [Option.some.injEq] at hc; subst hc
      obtain ⟨h, e3, rv, hj⟩ := inv.fetch e1 rfl
      cases h <;> simp only [RepV] at rv
      rename_i h
      obtain ⟨tr, ru⟩ := rep_update hp rv.base (.name h.base.baseTable.name) vs
      rw [rv.base.tbl] at ru tr
      refine ⟨_, by simp only [Call.heap, e3, rv.base.tbl]; rfl, ?_⟩
      rw [after_eq _ none rfl rfl]
      exact inv.push .none tr ru (fun _ s h => by cases h) (fun e => by cases e)
    · cases hc
  | set r vs =>
    simp only [Call.pure] at hc
    split at hc
    · rename_i q e1
      simp only [Option.some.injEq] at hc; subst hc
      obtain ⟨h, e3, rv, hj⟩ := inv.fetch e1 rfl
      cases h <;> simp only [RepV] at rv
      rename_i h
      have oe := inv.own e3 (hf r rfl)
      have eo : Ext tight m.vals h.setValues := oe.v _ (by simp [HV.own])
      refine ⟨_, by simp only [Call.heap, e3]; rfl, ?_⟩
      rw [after_eq _ (some r) rfl rfl]
      have ts := tr_append pol.vals hp.vals m.vals h.setValues vs eo
      have rs := rep_append pol.vals m.vals h.setValues vs _ eo.arr rv.2.2.2
      exact inv.push (.some r _ e3 hj (hf r rfl)) ⟨Tr.same oe.c, Tr.same oe.j, Tr.same oe.s, ts, Le.refl _⟩
        ⟨rv.1, rv.2.1, rv.2.2.1, rs⟩ (fun _ s h => by cases h) (fun e => by cases e)
    · cases hc
  | delete t =>
    simp only [Call.pure, Option.some.injEq] at hc; subst hc
    refine ⟨_, rfl, ?_⟩
    rw [after_eq _ none rfl rfl]
    obtain ⟨t1, r1⟩ := sim_newGroup (tight := tight) (st := m.conds) lAND (hs := []) (cs := []) (by simp [RepL])
    exact inv.push .none ⟨t1, Tr.none _ _, Tr.none _ _, Tr.none _ _, Le.refl _⟩ ⟨rfl, rfl, r1⟩
      (fun _ s h => by cases h) (fun e => by cases e)
  | deleteFrom r =>
    simp only [Call.pure] at hc
    split at hc
    · rename_i q e1
      simp only [Option.some.injEq] at hc; subst hc
      obtain ⟨h, e3, rv, hj⟩ := inv.fetch e1 rfl
      cases h <;> simp only [RepV] at rv
      rename_i h
      obtain ⟨tr, ru⟩ := rep_delete hp rv (.ident h.baseTable)
      rw [rv.tbl] at ru tr
      refine ⟨_, by simp only [Call.heap, e3, rv.tbl]; rfl, ?_⟩
      rw [after_eq _ none rfl rfl]
      exact inv.push .none tr ru (fun _ s h => by cases h) (fun e => by cases e)
    · rename_i q e1
      simp only [Option.some.injEq] at hc; subst hc
      obtain ⟨h, e3, rv, hj⟩ := inv.fetch e1 rfl
      cases h <;> simp only [RepV] at rv
      rename_i h
      obtain ⟨tr, ru⟩ := rep_delete hp rv (.ident h.baseTable)
      rw [rv.tbl] at ru tr
      refine ⟨_, by simp only [Call.heap, e3, rv.tbl]; rfl, ?_⟩
      rw [after_eq _ none rfl rfl]
      exact inv.push .none tr ru (fun _ s h => by cases h) (fun e => by cases e)
    · rename_i q e1
      simp only [Option.some.injEq] at hc; subst hc
      obtain ⟨h, e3, rv, hj⟩ := inv.fetch e1 rfl
      cases h <;> simp only [RepV] at rv
      rename_i h
      obtain ⟨tr, ru⟩ := rep_delete hp rv.base (.name h.base.baseTable.name)
      rw [rv.base.tbl] at ru tr
      refine ⟨_, by simp only [Call.heap, e3, rv.base.tbl]; rfl, ?_⟩
      rw [after_eq _ none rfl rfl]
      exact inv.push .none tr ru (fun _ s h => by cases h) (fun e => by cases e)
    · cases hc

/-- Whole histories. -/
theorem run_sim (hp : PolOK tight pol) : ∀ (cs : List Call) (used : List Nat) (m : Mem) (hs : List HV) (ps ps' : List PV),
    Inv tight used m hs ps → (∀ c ∈ cs, c.noApply = true) → (tight = false → (cs.filterMap Call.extends).Nodup) →
    (cs.filterMap Call.completes).Nodup → (tight = false → ∀ r ∈ cs.filterMap Call.extends, r ∉ used) →
    (∀ r ∈ cs.filterMap Call.completes, r ∉ used) → runPure ps cs = some ps' →
    ∃ m' hs' used', runHeap pol m hs cs = some (m', hs') ∧ Inv tight used' m' hs' ps' ∧
      (∀ r ∈ used', r ∈ used ∨ r ∈ cs.filterMap Call.extends)
  | [], used, m, hs, ps, ps', inv, _, _, _, _, _, h => by
    simp only [runPure, Option.some.injEq] at h; subst h
    exact ⟨m, hs, used, rfl, inv, fun r hr => .inl hr⟩
  | c :: cs, used, m, hs, ps, ps', inv, hna, hl, hj, hf, hf2, h => by
    simp only [runPure] at h
    cases hc : c.pure ps with
    | none => rw [hc] at h; cases h
    | some p =>
      rw [hc] at h; simp only at h
      obtain ⟨x, e1, inv'⟩ := step inv hp c (hna c (by simp))
        (fun r hr ht => hf ht r (by simp [hr])) (fun r hr => hf2 r (by simp [hr])) hc
      have hce : ∀ (d : Call) r, d.completes = some r → d.extends = some r := by
        intro d r; cases d <;> simp [Call.completes, Call.extends]
      have haft : ∀ r ∈ after tight c used, r ∈ used ∨ c.extends = some r := by
        intro r hr
        simp only [after] at hr
        split at hr
        · rcases List.mem_append.1 hr with h1 | h1
          · exact .inr (hce c r (by simpa using h1))
          · exact .inl h1
        · cases he : c.extends with
          | none => rw [he] at hr; exact .inl (by simpa using hr)
          | some y => rw [he] at hr; simp at hr; exact hr.elim (fun e => .inr (by rw [e])) .inl
      have hsubE : ∀ r, r ∈ cs.filterMap Call.extends → r ∈ (c :: cs).filterMap Call.extends := by
        intro r hr
        simp only [List.mem_filterMap] at hr ⊢
        obtain ⟨a, ha, hb⟩ := hr
        exact ⟨a, List.mem_cons_of_mem _ ha, hb⟩
      have hsubC : ∀ r, r ∈ cs.filterMap Call.completes → r ∈ (c :: cs).filterMap Call.completes := by
        intro r hr
        simp only [List.mem_filterMap] at hr ⊢
        obtain ⟨a, ha, hb⟩ := hr
        exact ⟨a, List.mem_cons_of_mem _ ha, hb⟩
      have ndE : tight = false → (cs.filterMap Call.extends).Nodup ∧ ∀ r, c.extends = some r → r ∉ cs.filterMap Call.extends := by
        intro ht
        have := hl ht
        rw [List.filterMap_cons] at this
        split at this
        · rename_i e; exact ⟨this, fun r hr => by rw [e] at hr; cases hr⟩
        · rename_i y e
          rw [List.nodup_cons] at this
          exact ⟨this.2, fun r hr => by rw [e] at hr; cases hr; exact this.1⟩
      have ndC : (cs.filterMap Call.completes).Nodup ∧ ∀ r, c.completes = some r → r ∉ cs.filterMap Call.completes := by
        rw [List.filterMap_cons] at hj
        split at hj
        · rename_i e; exact ⟨hj, fun r hr => by rw [e] at hr; cases hr⟩
        · rename_i y e
          rw [List.nodup_cons] at hj
          exact ⟨hj.2, fun r hr => by rw [e] at hr; cases hr; exact hj.1⟩
      have fE : tight = false → ∀ r ∈ cs.filterMap Call.extends, r ∉ after tight c used := by
        intro ht r hr hm
        rcases haft r hm with h1 | h1
        · exact hf ht r (hsubE r hr) h1
        · exact (ndE ht).2 r h1 hr
      have fC : ∀ r ∈ cs.filterMap Call.completes, r ∉ after tight c used := by
        intro r hr hm
        cases ht : tight with
        | false =>
          have : r ∈ cs.filterMap Call.extends := by
            simp only [List.mem_filterMap] at hr ⊢
            obtain ⟨a, ha, hb⟩ := hr
            exact ⟨a, ha, hce a r hb⟩
          exact fE ht r this hm
        | true =>
          simp only [after, ht, if_true] at hm
          rcases List.mem_append.1 hm with h1 | h1
          · exact ndC.2 r (by simpa using h1) hr
          · exact hf2 r (hsubC r hr) h1
      obtain ⟨m', hs', used', k1, k2, k3⟩ := run_sim hp cs (after tight c used) x.1 (hs ++ [x.2]) (ps ++ [p]) ps' inv'
        (fun d hd => hna d (by simp [hd])) (fun ht => (ndE ht).1) ndC.1 fE fC h
      refine ⟨m', hs', used', by simp only [runHeap, e1]; exact k1, k2, fun r hr => ?_⟩
      rcases k3 r hr with h1 | h1
      · rcases haft r h1 with h2 | h2
        · exact .inl h2
        · exact .inr (by simp [h2])
      · exact .inr (hsubE r h1)

theorem inv_empty : Inv tight [] Mem.empty [] [] :=
  ⟨rfl, fun _ _ _ h => by simp at h, fun _ _ _ h => by simp at h, fun _ _ h => by simp at h,
    fun _ _ _ _ _ _ _ _ h => by simp at h, fun _ _ _ _ h => by simp at h, fun _ _ _ _ _ h => by simp at h⟩

end Query
