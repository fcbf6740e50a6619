import Verif.Proof.AnyCond
import Verif.Props.Logic
/-!
# C70, C71: nil conditions and pointers to groups
-/
namespace Query

/-- A leaf as a condition of `Model/AnyCond.lean`. -/
def leafX : Cond → CondX
  | .fieldc k b fv => .fieldc k b fv
  | .null b fd => .null b fd
  | .custom b x => .custom b x
  | .group b _ br => .group b [] br

/-! ## C70: a nil condition is never dropped -/

/-- **C70**, reading: a condition with a nil anywhere in it has no text and no values; every method panics. -/
theorem C70_reading (c : CondX) (h : c.hasNil = true) (n : Nat) :
    Panics (c.render n) ∧ Panics c.renderSQL ∧ Panics c.values :=
  ⟨render_nil c h n, renderSQL_nil c h, values_nil c h⟩

example : (CondX.group (newBase lAND false) [leafX (la 1), .ptr (newBase lOR false) [.nil] true] false).hasNil = true := rfl

/-- **C70**, combining: for every expression of `Not`, `And`, `Or`, their methods, `NewGroup`, `JoinType.Join`, `ApplyFieldSpec`,
`ApplyFieldTable` and pointers to groups, of any depth, with a nil condition anywhere in it, evaluating and rendering panics: the condition is not left out. -/
theorem C70_expression (t : TermX) (h : t.hasNil = true) (n : Nat) :
    Panics (t.eval.bind fun c => c.render n) ∧ Panics (t.eval.bind CondX.renderSQL) ∧ Panics (t.eval.bind CondX.values) := by
  have hk := kept_eval t
  cases ht : t.eval with
  | ok c => rw [ht] at hk; exact C70_reading c (hk h) n
  | panic p => exact ⟨⟨p, rfl⟩, ⟨p, rfl⟩, ⟨p, rfl⟩⟩
  | err e => rw [ht] at hk; exact hk.elim

/-- The nil is reached only when the text is asked for: combining succeeded. -/
example : (TermX.andF (.leaf (leafX (la 1))) [.orM (.newG c!"AND" []) [.leaf .nil, .leaf (leafX (lb 2))]]).hasNil = true ∧
    ∃ c, (TermX.andF (.leaf (leafX (la 1))) [.orM (.newG c!"AND" []) [.leaf .nil, .leaf (leafX (lb 2))]]).eval = .ok c :=
  ⟨rfl, _, rfl⟩

/-- **C70**, statements: whatever the series of `Where` calls, if one argument has a nil condition anywhere in it, no statement
is built: DELETE, UPDATE and SELECT panic, unless DELETE or UPDATE return their error for a missing table name or missing
fields.  In particular no DELETE or UPDATE is built that has lost a condition. -/
theorem C70_statement (ws : List (List TermX)) (h : ws.any TermX.hasNilL = true) (d : DeleteX) (u : UpdateX) (s : SelectX) :
    (Panics ((d.wheres ws).bind DeleteX.build) ∨ d.tableName = [] ∧ (d.wheres ws).bind DeleteX.build = .err .noTable) ∧
    (Panics ((u.wheres ws).bind UpdateX.build) ∨ u.setValues = [] ∧ (u.wheres ws).bind UpdateX.build = .err .noSetFields ∨
      u.tableName = [] ∧ (u.wheres ws).bind UpdateX.build = .err .noTable) ∧
    Panics ((s.wheres ws).bind SelectX.build) := by
  have hne : ∀ g : GroupX, g.hasNil = true → g.conds.length ≠ 0 := by
    intro g hg e
    simp only [GroupX.hasNil, List.length_eq_zero_iff.1 e] at hg
    cases hg
  refine ⟨?_, ?_, ?_⟩
  · have hk := kept_deleteWhere d ws
    cases hq : d.wheres ws with
    | panic p => exact .inl ⟨p, rfl⟩
    | err e => rw [hq] at hk; exact hk.elim
    | ok q =>
      rw [hq] at hk
      have hn : q.where_.hasNil = true := hk (by simp [h])
      rw [Res.bind_ok, DeleteX.build, if_neg (hne _ hn), kept_deleteFixed d q ws hq]
      by_cases ht : d.tableName.length = 0
      · exact .inr ⟨List.length_eq_zero_iff.1 ht, by rw [if_pos ht]⟩
      · obtain ⟨p, hp⟩ := render_nil q.where_.toCond hn 0
        exact .inl ⟨p, by rw [if_neg ht, hp, Res.bind_panic]⟩
  · have hk := kept_updateWhere u ws
    cases hq : u.wheres ws with
    | panic p => exact .inl ⟨p, rfl⟩
    | err e => rw [hq] at hk; exact hk.elim
    | ok q =>
      rw [hq] at hk
      have hn : q.where_.hasNil = true := hk (by simp [h])
      obtain ⟨e1, e2⟩ := kept_updateFixed u q ws hq
      rw [Res.bind_ok, UpdateX.build, if_neg (hne _ hn), e1, e2]
      by_cases hs : u.setValues.length = 0
      · exact .inr (.inl ⟨List.length_eq_zero_iff.1 hs, by rw [if_pos hs]⟩)
      by_cases ht : u.tableName.length = 0
      · exact .inr (.inr ⟨List.length_eq_zero_iff.1 ht, by rw [if_neg hs, if_pos ht]⟩)
      rw [if_neg hs, if_neg ht]
      have hl := noErr_updateLoop u.setValues 0
      cases hr : UpdateB.loop u.setValues 0 with
      | err e => exact (hl e hr).elim
      | panic p => exact .inl ⟨p, rfl⟩
      | ok r =>
        obtain ⟨p, hp⟩ := render_nil q.where_.toCond hn r.2.length
        exact .inl ⟨p, by rw [Res.bind_ok, hp, Res.bind_panic]⟩
  · have hk := kept_selectWhere s ws
    cases hq : s.wheres ws with
    | panic p => exact ⟨p, rfl⟩
    | err e => rw [hq] at hk; exact hk.elim
    | ok q =>
      rw [hq] at hk
      have hn : q.where_.hasNil = true := hk (by simp [h])
      obtain ⟨p, hp⟩ := render_nil q.where_.toCond hn 0
      exact ⟨p, by rw [Res.bind_ok, SelectX.build, if_pos (Nat.pos_of_ne_zero (hne _ hn)), hp, Res.bind_panic]⟩

example : ((DeleteX.mk c!"t" emptyX).wheres [[.leaf (leafX (la 1))], [.leaf .nil]]).bind DeleteX.build = .panic .nilDeref := rfl

/-- `Where(nil)` on a new builder succeeds; building panics. -/
example : (∃ q, (DeleteX.mk c!"t" emptyX).wheres [[.leaf .nil]] = .ok q) ∧
    ((DeleteX.mk c!"t" emptyX).wheres [[.leaf .nil]]).bind DeleteX.build = .panic .nilDeref := ⟨⟨_, rfl⟩, rfl⟩

/-- **C70**, no false alarm: combining conditions without nil never panics, except for the method `Or` of IS NULL (C14). -/
theorem C70_no_nil (c : CondX) (cs : List CondX) (g : GroupX) (j : Str) (hc : c.hasNil = false) (hs : CondX.hasNilL cs = false)
    (hg : CondX.hasNilL g.conds = false) :
    (∃ d, notX c = .ok d) ∧ (∃ d, andX c cs = .ok d) ∧ (∃ d, orX c cs = .ok d) ∧ (∃ d, c.and cs = .ok d) ∧
    ((∀ b fd, c ≠ .null b fd) → ∃ d, c.or cs = .ok d) ∧ (∃ g, newGroupX j cs = .ok g) ∧ (∃ h, g.groupAND cs = .ok h) ∧
    (∃ h, g.groupOR cs = .ok h) := by
  have some_of : ∀ c : CondX, c.hasNil = false → ∃ d, c.core = some d := fun c h =>
    Option.isSome_iff_exists.1 ((core_isSome c).trans (by rw [h]; rfl))
  have someL : ∀ cs : List CondX, CondX.hasNilL cs = false → ∃ d, CondX.coreL cs = some d := fun c h =>
    Option.isSome_iff_exists.1 ((coreL_isSome c).trans (by rw [h]; rfl))
  obtain ⟨d, hd⟩ := some_of c hc
  obtain ⟨ds, hds⟩ := someL cs hs
  obtain ⟨es, hes⟩ := someL g.conds hg
  have hgc : g.core = some ⟨g.base, es, g.brackets⟩ := by simp only [GroupX.core, hes, Option.map_some]
  have okof : ∀ {r : Res CondX} {d : Cond}, GivesX r d → ∃ c, r = .ok c := fun h => ⟨_, h.choose_spec.1⟩
  have okG : ∀ {r : Res GroupX} {d : Group}, GivesGX r d → ∃ c, r = .ok c := fun h => ⟨_, h.choose_spec.1⟩
  have hwrap : ∀ op j, ∃ x, ((newGroupX j [c]).bind fun g => (g.addConditions op cs).bind fun g => Res.ok g.toCond) = .ok x := by
    intro op j
    obtain ⟨g, hg, hgc⟩ := core_newGroup j (coreL_one hd)
    rw [hg, Res.bind_ok]
    exact okof (core_addConditions op hgc hds).toCond
  refine ⟨okof (core_setNegate hd true), ?_, ?_, okof (core_andM hd hds), ?_, okG (core_newGroup j hds),
    okG (core_addConditions lAND hgc hds), okG (core_addConditions lOR hgc hds)⟩
  · by_cases hp : ∃ b xs br, c = .ptr b xs br
    · obtain ⟨b, xs, br, rfl⟩ := hp
      unfold andX
      split
      · exact okof (core_join hd lAND)
      · exact hwrap lAND lAND
    · exact okof (core_and hd (fun b xs br e => hp ⟨b, xs, br, e⟩) hds)
  · by_cases hp : ∃ b xs br, c = .ptr b xs br
    · obtain ⟨b, xs, br, rfl⟩ := hp
      unfold orX
      split
      · exact okof (core_join hd lOR)
      · obtain ⟨x, hx⟩ := core_newGroup lOR (coreL_one hd)
        obtain ⟨y, hy⟩ := core_addConditions lOR hx.2 hds
        exact ⟨_, by simp only [groupOfX, CondX.asGroup, hx.1, Res.bind_ok, GroupX.groupOR, hy.1]; rfl⟩
    · exact okof (core_or hd (fun b xs br e => hp ⟨b, xs, br, e⟩) hds)
  · intro hn
    cases core_orM hd hds with
    | inl h => exact okof h.choose_spec.2
    | inr h =>
      have := h.2
      cases c with
      | null b fd => exact absurd rfl (hn b fd)
      | nil => cases hd
      | fieldc k b fv => cases k <;> first | exact okof (core_or hd (by intros; simp) hds) | exact hwrap lOR lOR
      | custom b x => exact okof (core_or hd (by intros; simp) hds)
      | group b xs br =>
        simp only [CondX.core, Option.map_eq_some_iff] at hd
        obtain ⟨es, hd, rfl⟩ := hd
        exact okof (core_addConditions lOR (g := ⟨b, xs, br⟩) (h := ⟨b, es, br⟩)
          (by simp only [GroupX.core, hd, Option.map_some]) hds).toCond
      | ptr b xs br =>
        simp only [CondX.core, Option.map_eq_some_iff] at hd
        obtain ⟨es, hd, rfl⟩ := hd
        exact okof (core_addConditions lOR (g := ⟨b, xs, br⟩) (h := ⟨b, es, br⟩)
          (by simp only [GroupX.core, hd, Option.map_some]) hds).toCond

example : (leafX (la 1)).hasNil = false ∧ CondX.hasNilL [leafX (lb 2), .ptr (newBase lAND false) [leafX (lc 3)] false] = false :=
  ⟨rfl, rfl⟩

/-- **C70**, changing fields: `ApplyFieldSpec` and `ApplyFieldTable` panic exactly on conditions with a nil in them. -/
theorem C70_apply (c : CondX) (spec : FieldDef) (t : Str) :
    (if c.hasNil then c.applyFieldSpec spec = .panic .nilDeref else ∃ d, c.applyFieldSpec spec = .ok d ∧ d.hasNil = false) ∧
    (if c.hasNil then c.applyFieldTable t = .panic .nilDeref else ∃ d, c.applyFieldTable t = .ok d ∧ d.hasNil = false) := by
  have no : ∀ {d : CondX} {e : Cond}, d.core = some e → d.hasNil = false := fun {d e} h => by
    have := core_isSome d
    rw [h] at this
    simpa using this
  cases hc : c.hasNil with
  | true => exact ⟨applySpec_nil spec c hc, applyTable_nil t c hc⟩
  | false =>
    obtain ⟨d, hd⟩ := Option.isSome_iff_exists.1 ((core_isSome c).trans (by rw [hc]; rfl))
    obtain ⟨x, hx, hx'⟩ := core_applySpec spec c d hd
    obtain ⟨y, hy, hy'⟩ := core_applyTable t c d hd
    exact ⟨⟨x, hx, no hx'⟩, ⟨y, hy, no hy'⟩⟩

example : (CondX.group (newBase lAND false) [leafX (la 1), .ptr (newBase lOR false) [.nil] true] false).applyFieldTable c!"t" =
    .panic .nilDeref := rfl

/-! Which panic it is. -/

/-- The call panics only because a condition is nil. -/
def OnlyNil {α : Type} (r : Res α) : Prop := ∀ p, r = .panic p → p = .nilDeref

theorem onlyNil_ok {α : Type} (a : α) : OnlyNil (.ok a) := fun _ h => by cases h

theorem onlyNil_nil {α : Type} : OnlyNil (α := α) (.panic .nilDeref) := fun _ h => by cases h; rfl

theorem onlyNil_bind {α β : Type} {r : Res α} {f : α → Res β} (h : OnlyNil r) (hf : ∀ a, OnlyNil (f a)) : OnlyNil (r.bind f) := by
  intro p hp
  cases r with
  | ok a => exact hf a p hp
  | err e => cases hp
  | panic q => cases hp; exact h _ rfl

theorem onlyNil_join (c : CondX) (j : Str) : OnlyNil (c.join j) := by
  cases c <;> first | exact onlyNil_nil | exact onlyNil_ok _

theorem onlyNil_setNegate (c : CondX) (n : Bool) : OnlyNil (c.setNegate n) := by
  cases c <;> first | exact onlyNil_nil | exact onlyNil_ok _

theorem onlyNil_joinType (c : CondX) : OnlyNil c.joinType := by
  cases c <;> first | exact onlyNil_nil | exact onlyNil_ok _

theorem onlyNil_mapL {α β : Type} {f : α → Res β} (hf : ∀ a, OnlyNil (f a)) : ∀ l : List α, OnlyNil (Res.mapL f l)
  | [] => onlyNil_ok _
  | a :: l => by
    rw [Res.mapL]
    exact onlyNil_bind (hf a) fun _ => onlyNil_bind (onlyNil_mapL hf l) fun _ => onlyNil_ok _

theorem onlyNil_newGroup (j : Str) (cs : List CondX) : OnlyNil (newGroupX j cs) :=
  onlyNil_bind (onlyNil_mapL (fun c => onlyNil_join c j) cs) fun _ => onlyNil_ok _

theorem onlyNil_allJoined (j : Str) : ∀ cs : List CondX, OnlyNil (GroupX.allJoined j cs)
  | [] => onlyNil_ok _
  | c :: cs => onlyNil_bind (onlyNil_joinType c) fun t => by
    by_cases h : t = j
    · rw [if_pos h]; exact onlyNil_allJoined j cs
    · rw [if_neg h]; exact onlyNil_ok _

theorem onlyNil_oneJoined (j : Str) : ∀ cs : List CondX, OnlyNil (GroupX.oneJoined j cs)
  | [] => onlyNil_ok _
  | c :: cs => onlyNil_bind (onlyNil_joinType c) fun t => by
    by_cases h : t = j
    · rw [if_pos h]; exact onlyNil_ok _
    · rw [if_neg h]; exact onlyNil_oneJoined j cs

theorem onlyNil_ite {α : Type} {P : Prop} [Decidable P] {a b : Res α} (ha : OnlyNil a) (hb : OnlyNil b) : OnlyNil (if P then a else b) := by
  by_cases h : P
  · rw [if_pos h]; exact ha
  · rw [if_neg h]; exact hb

theorem onlyNil_addGroup (g a : GroupX) : OnlyNil (g.addGroup a) := by
  unfold GroupX.addGroup
  simp only [bind, pure]
  refine onlyNil_bind (onlyNil_allJoined _ _) fun _ => onlyNil_bind (onlyNil_allJoined _ _) fun _ =>
    onlyNil_bind (onlyNil_oneJoined _ _) fun _ => onlyNil_bind (onlyNil_oneJoined _ _) fun _ =>
    onlyNil_bind (onlyNil_allJoined _ _) fun _ => onlyNil_bind (onlyNil_oneJoined _ _) fun _ =>
    onlyNil_bind (onlyNil_allJoined _ _) fun _ => onlyNil_bind (onlyNil_oneJoined _ _) fun _ => ?_
  repeat' apply onlyNil_ite
  all_goals first | exact onlyNil_ok _ | exact onlyNil_bind (onlyNil_join _ _) fun _ => onlyNil_ok _

theorem onlyNil_addSingle (g : GroupX) (c : CondX) : OnlyNil (g.addSingleCondition c) := by
  unfold GroupX.addSingleCondition
  simp only [bind, pure]
  refine onlyNil_bind (onlyNil_allJoined _ _) fun _ => onlyNil_bind (onlyNil_allJoined _ _) fun _ =>
    onlyNil_bind (onlyNil_joinType _) fun _ => ?_
  cases c.asGroup with
  | some a => exact onlyNil_addGroup _ _
  | none =>
    refine onlyNil_ite (onlyNil_ok _) (onlyNil_bind (onlyNil_join _ _) fun _ => ?_)
    repeat' apply onlyNil_ite
    all_goals exact onlyNil_ok _

theorem onlyNil_addConditions (g : GroupX) (op : Str) (cs : List CondX) : OnlyNil (g.addConditions op cs) := by
  unfold GroupX.addConditions
  simp only [bind, pure]
  refine onlyNil_bind (onlyNil_oneJoined _ _) fun _ => onlyNil_bind (onlyNil_oneJoined _ _) fun _ => ?_
  cases cs with
  | nil => exact onlyNil_ok _
  | cons c more =>
    refine onlyNil_ite (onlyNil_ok _) (onlyNil_ite (onlyNil_bind (onlyNil_join _ _) fun _ => onlyNil_addSingle _ _)
      (onlyNil_ite (onlyNil_ok _) (onlyNil_ite ?_ ?_)))
    · exact onlyNil_bind (onlyNil_newGroup _ _) fun _ => onlyNil_bind (onlyNil_join _ _) fun _ => onlyNil_ok _
    · exact onlyNil_bind (onlyNil_newGroup _ _) fun _ => onlyNil_ok _

theorem onlyNil_groupOf (j : Str) (c : CondX) : OnlyNil (groupOfX j c) := by
  unfold groupOfX
  cases c.asGroup with
  | some g => exact onlyNil_ok _
  | none => exact onlyNil_newGroup _ _

theorem onlyNil_and (c : CondX) (cs : List CondX) : OnlyNil (andX c cs) :=
  onlyNil_ite (onlyNil_join _ _) (onlyNil_bind (onlyNil_groupOf _ _) fun _ => onlyNil_bind (onlyNil_addConditions _ _ _) fun _ => onlyNil_ok _)

theorem onlyNil_or (c : CondX) (cs : List CondX) : OnlyNil (orX c cs) :=
  onlyNil_ite (onlyNil_join _ _) (onlyNil_bind (onlyNil_groupOf _ _) fun _ => onlyNil_bind (onlyNil_addConditions _ _ _) fun _ => onlyNil_join _ _)

theorem onlyNil_wrapped (j op : Str) (c : CondX) (cs : List CondX) :
    OnlyNil ((newGroupX j [c]).bind fun g => (g.addConditions op cs).bind fun g => Res.ok g.toCond) :=
  onlyNil_bind (onlyNil_newGroup _ _) fun _ => onlyNil_bind (onlyNil_addConditions _ _ _) fun _ => onlyNil_ok _

/-- **C70**, which panic: no call that combines conditions panics for another reason than a nil condition, except `JoinType.Join` of
no conditions. -/
theorem C70_combining_why (c : CondX) (cs : List CondX) (g : GroupX) (j : Str) :
    OnlyNil (notX c) ∧ OnlyNil (andX c cs) ∧ OnlyNil (orX c cs) ∧ OnlyNil (c.and cs) ∧ OnlyNil (c.or cs) ∧
    OnlyNil (newGroupX j cs) ∧ OnlyNil (g.groupAND cs) ∧ OnlyNil (g.groupOR cs) ∧
    (if cs = [] then joinAllX j cs = .panic .index else OnlyNil (joinAllX j cs)) := by
  refine ⟨onlyNil_setNegate _ _, onlyNil_and _ _, onlyNil_or _ _, ?_, ?_, onlyNil_newGroup _ _, onlyNil_addConditions _ _ _,
    onlyNil_addConditions _ _ _, ?_⟩
  · cases c with
    | nil => exact onlyNil_nil
    | fieldc k b fv => cases k <;> first | exact onlyNil_and _ _ | exact onlyNil_wrapped lAND lAND (.fieldc _ b fv) cs
    | null b fd => exact onlyNil_wrapped lAND lAND (.null b fd) cs
    | custom b x => exact onlyNil_and _ _
    | group b xs br => exact onlyNil_bind (onlyNil_addConditions _ _ _) fun _ => onlyNil_ok _
    | ptr b xs br => exact onlyNil_bind (onlyNil_addConditions _ _ _) fun _ => onlyNil_ok _
  · cases c with
    | nil => exact onlyNil_nil
    | fieldc k b fv => cases k <;> first | exact onlyNil_or _ _ | exact onlyNil_wrapped lOR lOR (.fieldc _ b fv) cs
    | null b fd => exact onlyNil_nil
    | custom b x => exact onlyNil_or _ _
    | group b xs br => exact onlyNil_bind (onlyNil_addConditions _ _ _) fun _ => onlyNil_ok _
    | ptr b xs br => exact onlyNil_bind (onlyNil_addConditions _ _ _) fun _ => onlyNil_ok _
  · match cs with
    | [] => rfl
    | [c] => rw [if_neg (by simp)]; exact onlyNil_join _ _
    | c :: d :: cs => rw [if_neg (by simp)]; exact onlyNil_bind (onlyNil_newGroup _ _) fun _ => onlyNil_ok _

mutual
/-- All values of the condition can be read. -/
def CondX.readable : CondX → Bool
  | .fieldc k _ fv => (fieldcValues k fv).isOk && fv.values.isOk
  | .group _ cs _ => CondX.readableL cs
  | .ptr _ cs _ => CondX.readableL cs
  | _ => true
/-- All values of the conditions can be read. -/
def CondX.readableL : List CondX → Bool
  | [] => true
  | c :: cs => c.readable && CondX.readableL cs
end

theorem isOk_iff {α : Type} {r : Res α} : r.isOk = true → ∃ a, r = .ok a := by
  cases r with
  | ok a => exact fun _ => ⟨a, rfl⟩
  | err e => exact fun h => by cases h
  | panic p => exact fun h => by cases h

mutual
theorem onlyNil_values : ∀ c : CondX, c.readable = true → OnlyNil c.values
  | .nil, _ => onlyNil_nil
  | .fieldc k b fv, h => by
    simp only [CondX.readable, Bool.and_eq_true] at h
    obtain ⟨a, ha⟩ := isOk_iff h.1
    rw [CondX.values, ha]
    exact onlyNil_ok _
  | .null _ _, _ => onlyNil_ok _
  | .custom _ _, _ => onlyNil_ok _
  | .group _ cs _, h => by rw [CondX.values]; exact onlyNil_valuesL cs h
  | .ptr _ cs _, h => by rw [CondX.values]; exact onlyNil_valuesL cs h
theorem onlyNil_valuesL : ∀ cs : List CondX, CondX.readableL cs = true → OnlyNil (CondX.valuesL cs)
  | [], _ => onlyNil_ok _
  | c :: cs, h => by
    simp only [CondX.readableL, Bool.and_eq_true] at h
    rw [CondX.valuesL]
    exact onlyNil_bind (onlyNil_values c h.1) fun _ => onlyNil_bind (onlyNil_valuesL cs h.2) fun _ => onlyNil_ok _
end

theorem onlyNil_token (c : CondX) (f : Bool) : OnlyNil (c.joinToken f) := by
  cases c <;> first | exact onlyNil_nil | exact onlyNil_ok _

mutual
theorem onlyNil_render : ∀ (c : CondX) (n : Nat), c.readable = true → OnlyNil (c.render n)
  | .nil, _, _ => onlyNil_nil
  | .fieldc k b fv, n, h => by
    simp only [CondX.readable, Bool.and_eq_true] at h
    obtain ⟨a, ha⟩ := isOk_iff h.2
    rw [CondX.render]
    cases k <;> first | exact onlyNil_ok _ | (rw [fieldcRender, ha]; exact onlyNil_ok _)
  | .null _ _, _, _ => onlyNil_ok _
  | .custom _ _, _, _ => onlyNil_ok _
  | .group _ cs _, n, h => by
    rw [CondX.render]
    exact onlyNil_ite (onlyNil_ok _) (onlyNil_bind (onlyNil_renderL cs true n h) fun _ => onlyNil_ok _)
  | .ptr _ cs _, n, h => by
    rw [CondX.render]
    exact onlyNil_ite (onlyNil_ok _) (onlyNil_bind (onlyNil_renderL cs true n h) fun _ => onlyNil_ok _)
theorem onlyNil_renderL : ∀ (cs : List CondX) (f : Bool) (n : Nat), CondX.readableL cs = true → OnlyNil (CondX.renderL cs f n)
  | [], _, _, _ => onlyNil_ok _
  | c :: cs, f, n, h => by
    simp only [CondX.readableL, Bool.and_eq_true] at h
    rw [CondX.renderL]
    exact onlyNil_bind (onlyNil_token c f) fun _ => onlyNil_bind (onlyNil_render c n h.1) fun _ =>
      onlyNil_bind (onlyNil_values c h.1) fun _ => onlyNil_bind (onlyNil_renderL cs false _ h.2) fun _ => onlyNil_ok _
end

mutual
theorem onlyNil_renderSQL : ∀ (c : CondX), c.readable = true → OnlyNil c.renderSQL
  | .nil, _ => onlyNil_nil
  | .fieldc k b fv, h => by
    simp only [CondX.readable, Bool.and_eq_true] at h
    obtain ⟨a, ha⟩ := isOk_iff h.2
    rw [CondX.renderSQL]
    cases k <;> first | exact onlyNil_ok _ | (rw [fieldcRenderSQL, ha]; exact onlyNil_ok _)
  | .null _ _, _ => onlyNil_ok _
  | .custom _ _, _ => onlyNil_ok _
  | .group _ cs _, h => by
    rw [CondX.renderSQL]
    exact onlyNil_ite (onlyNil_ok _) (onlyNil_bind (onlyNil_renderSQLL cs true h) fun _ => onlyNil_ok _)
  | .ptr _ cs _, h => by
    rw [CondX.renderSQL]
    exact onlyNil_ite (onlyNil_ok _) (onlyNil_bind (onlyNil_renderSQLL cs true h) fun _ => onlyNil_ok _)
theorem onlyNil_renderSQLL : ∀ (cs : List CondX) (f : Bool), CondX.readableL cs = true → OnlyNil (CondX.renderSQLL cs f)
  | [], _, _ => onlyNil_ok _
  | c :: cs, f, h => by
    simp only [CondX.readableL, Bool.and_eq_true] at h
    rw [CondX.renderSQLL]
    exact onlyNil_bind (onlyNil_token c f) fun _ => onlyNil_bind (onlyNil_renderSQL c h.1) fun _ =>
      onlyNil_bind (onlyNil_renderSQLL cs false h.2) fun _ => onlyNil_ok _
end

/-- **C70**, which panic: reading a condition with a nil in it, whose values can all be read, is a nil dereference. -/
theorem C70_reading_why (c : CondX) (h : c.hasNil = true) (hr : c.readable = true) (n : Nat) :
    c.render n = .panic .nilDeref ∧ c.renderSQL = .panic .nilDeref ∧ c.values = .panic .nilDeref := by
  obtain ⟨⟨p, hp⟩, ⟨q, hq⟩, ⟨r, hv⟩⟩ := C70_reading c h n
  cases onlyNil_render c n hr p hp
  cases onlyNil_renderSQL c hr q hq
  cases onlyNil_values c hr r hv
  exact ⟨hp, hq, hv⟩

example : let c := CondX.group (newBase lAND false) [leafX (la 1), .ptr (newBase lOR false) [leafX (lb 2), .nil] true] false
    c.hasNil = true ∧ c.readable = true := ⟨rfl, rfl⟩

/-! ## C71: pointers to groups -/

/-- **C71**, reading: a condition with pointers to groups has the texts and values of the condition with the groups
themselves. -/
theorem C71_reading (c : CondX) (d : Cond) (h : c.core = some d) (n : Nat) :
    c.render n = d.render n ∧ c.renderSQL = d.renderSQL ∧ c.values = d.values :=
  ⟨core_render c d h n, core_renderSQL c d h, core_values c d h⟩

example : (GroupX.addr ⟨newBase lAND false, [leafX (la 1)], true⟩).core = some (.group (newBase lAND false) [la 1] true) := rfl

/-- **C71**, combining: pointers behave as the groups they point to, at any depth, as receiver and as arguments of the methods
`And` and `Or`, in `Not`, `NewGroup`, `JoinType.Join` and `Where`, and as the additional arguments of the functions `And` and
`Or`.

Missing for the full claim: a pointer as the first argument of the functions `And` and `Or` with additional arguments, see
`C71_first_false` and `C71_first`. -/
theorem C71_combining_partial (c : CondX) (d : Cond) (cs : List CondX) (ds : List Cond) (g : GroupX) (k : Group) (j : Str)
    (hc : c.core = some d) (hs : CondX.coreL cs = some ds) (hg : g.core = some k) :
    GivesX (notX c) (notC d) ∧ GivesX (c.and cs) (d.and ds) ∧
    ((∃ e, d.or ds = .ok e ∧ GivesX (c.or cs) e) ∨ d.or ds = .panic .nilDeref ∧ c.or cs = .panic .nilDeref) ∧
    GivesGX (newGroupX j cs) (newGroup j ds) ∧ GivesGX (g.groupAND cs) (k.groupAND ds) ∧ GivesGX (g.groupOR cs) (k.groupOR ds) ∧
    (cs ≠ [] → ∃ e, joinAll j (ds.map some) = .ok e ∧ GivesX (joinAllX j cs) e) ∧
    ((cs = [] ∨ ∀ b xs br, c ≠ .ptr b xs br) → GivesX (andX c cs) (andC d ds) ∧ GivesX (orX c cs) (orC d ds)) := by
  refine ⟨core_setNegate hc true, core_andM hc hs, core_orM hc hs, core_newGroup j hs, core_addConditions lAND hg hs,
    core_addConditions lOR hg hs, fun h => core_joinAll j hs h, ?_⟩
  rintro (rfl | hp)
  · cases hs
    exact ⟨core_join hc lAND, core_join hc lOR⟩
  · exact ⟨core_and hc hp hs, core_or hc hp hs⟩

/-- **C71**, changing fields: `ApplyFieldSpec` and `ApplyFieldTable` of a condition with pointers return what they return for the
condition with the groups themselves. -/
theorem C71_apply (c : CondX) (d : Cond) (h : c.core = some d) (spec : FieldDef) (t : Str) :
    GivesX (c.applyFieldSpec spec) (d.applyFieldSpec spec) ∧ GivesX (c.applyFieldTable t) (d.applyFieldTable t) :=
  ⟨core_applySpec spec c d h, core_applyTable t c d h⟩

example : (CondX.ptr (newBase lAND false) [leafX (la 1), .ptr (newBase lOR false) [leafX (lb 2)] true] false).applyFieldTable c!"t" =
    .ok (.group (newBase lAND false) [leafX ((la 1).applyFieldTable c!"t"), .group (newBase lOR false) [leafX ((lb 2).applyFieldTable c!"t")] true] false) := rfl

/-- **C71**, statements: DELETE, UPDATE and SELECT with pointers are those with the groups themselves. -/
theorem C71_statement (g : GroupX) (k : Group) (cs : List CondX) (ds : List Cond) (hg : g.core = some k)
    (hs : CondX.coreL cs = some ds) (t : Str) (op : Int) (fs : List FieldValue) (b : BaseSelect) :
    ((DeleteX.mk t g).addWhere cs).bind DeleteX.build = ((DeleteB.mk op t k).addWhere ds).build ∧
    ((UpdateX.mk t g fs).addWhere cs).bind UpdateX.build = ((UpdateB.mk op t k fs).addWhere ds).build ∧
    ((SelectX.mk b g).addWhere cs).bind SelectX.build = (({ b with where_ := ⟨k⟩ } : BaseSelect).addWhere ds).build := by
  obtain ⟨r, hr, hrc⟩ := core_addConditions lAND hg hs
  have hl := CondX.coreL_length (core_group hrc).1
  have hrd := core_render _ _ (core_toCond hrc)
  have hv := core_values _ _ (core_toCond hrc)
  refine ⟨?_, ?_, ?_⟩
  · simp only [DeleteX.addWhere, GroupX.groupAND, hr, Res.bind_ok, DeleteX.build, DeleteB.build, DeleteB.addWhere,
      Group.groupAND, Group.render, Group.values, hl, hrd, hv]
    rfl
  · simp only [UpdateX.addWhere, GroupX.groupAND, hr, Res.bind_ok, UpdateX.build, UpdateB.build, UpdateB.addWhere,
      Group.groupAND, Group.render, Group.values, hl, hrd, hv, UpdateB.fieldsAndValues]
    congr 1; congr 1; congr 1
    cases UpdateB.loop fs 0 <;> rfl
  · simp only [SelectX.addWhere, GroupX.groupAND, hr, Res.bind_ok, SelectX.build, BaseSelect.build, BaseSelect.addWhere,
      WhereClause.groupAND, WhereClause.conditions, WhereClause.render, WhereClause.values, Group.groupAND, Group.render,
      Group.values, hl, hrd, hv]
    rfl

example : ((DeleteX.mk c!"t" emptyX).addWhere [GroupX.addr ⟨newBase lAND false, [leafX (la 1), leafX (lb 2)], true⟩]).bind
    DeleteX.build = .ok (c!"DELETE FROM t WHERE (a=$1 AND b=$2)", [.other 1, .other 2]) := rfl

/-- **C71, what happens** with a pointer as first argument of the functions `And` and `Or`: the group becomes one member of a new
group, as if `NewGroup(AND, g)` or `NewGroup(OR, g)` had been given. -/
theorem C71_first (g : GroupX) (k : Group) (cs : List CondX) (ds : List Cond) (hg : g.core = some k)
    (hs : CondX.coreL cs = some ds) (hne : cs ≠ []) :
    GivesX (andX g.addr cs) (andC (newGroup lAND [k.toCond]).toCond ds) ∧
    GivesX (orX g.addr cs) (orC (newGroup lOR [k.toCond]).toCond ds) := by
  have hl : cs.length ≠ 0 := fun e => hne (List.length_eq_zero_iff.1 e)
  have hl' : ds.length ≠ 0 := by rw [← CondX.coreL_length hs]; exact hl
  constructor
  · obtain ⟨x, hx, hxc⟩ := core_newGroup lAND (coreL_one (core_addr hg))
    rw [andX, if_neg hl, andC, if_neg hl']
    simp only [groupOfX, GroupX.addr, CondX.asGroup, Group.toCond, Cond.asGroup]
    rw [GroupX.addr] at hx
    rw [hx, Res.bind_ok]
    exact (core_addConditions lAND hxc hs).toCond
  · obtain ⟨x, hx, hxc⟩ := core_newGroup lOR (coreL_one (core_addr hg))
    obtain ⟨y, hy, hyc⟩ := core_addConditions lOR hxc hs
    rw [orX, if_neg hl, orC, if_neg hl']
    simp only [groupOfX, GroupX.addr, CondX.asGroup, Group.toCond, Cond.asGroup]
    rw [GroupX.addr] at hx
    simp only [hx, Res.bind_ok, GroupX.groupOR, hy]
    exact core_join (core_toCond hyc) lOR

/-- The result is no pointer. -/
def NoPtr (r : Res CondX) : Prop := ∀ c, r = .ok c → ∀ b cs br, c ≠ .ptr b cs br

theorem noPtr_toCond (r : Res GroupX) : NoPtr (r.bind fun g => .ok g.toCond) := by
  intro c h b cs br e
  obtain ⟨g, _, hg⟩ := Res.bind_eq_ok.1 h
  subst e
  cases hg

theorem noPtr_join (c : CondX) (j : Str) : NoPtr (c.join j) := fun _ h => join_not_ptr h

theorem noPtr_bind {α : Type} (r : Res α) (f : α → Res CondX) (h : ∀ a, NoPtr (f a)) : NoPtr (r.bind f) := by
  intro c hc
  obtain ⟨a, _, ha⟩ := Res.bind_eq_ok.1 hc
  exact h a c ha

theorem noPtr_and (c : CondX) (cs : List CondX) : NoPtr (andX c cs) := by
  unfold andX
  split
  · exact noPtr_join c lAND
  · exact noPtr_bind _ _ fun g => noPtr_toCond _

theorem noPtr_or (c : CondX) (cs : List CondX) : NoPtr (orX c cs) := by
  unfold orX
  split
  · exact noPtr_join c lOR
  · exact noPtr_bind _ _ fun g => noPtr_bind _ _ fun g => noPtr_join _ lOR

theorem noPtr_andM (c : CondX) (cs : List CondX) : NoPtr (c.and cs) := by
  cases c with
  | nil => intro _ h; cases h
  | fieldc k b fv =>
    cases k
    case like => exact noPtr_bind (newGroupX lAND [.fieldc .like b fv]) (fun g => (g.groupAND cs).bind fun g => .ok g.toCond) fun g => noPtr_toCond _
    case ilike => exact noPtr_bind (newGroupX lAND [.fieldc .ilike b fv]) (fun g => (g.groupAND cs).bind fun g => .ok g.toCond) fun g => noPtr_toCond _
    all_goals exact noPtr_and _ cs
  | null b fd => exact noPtr_bind (newGroupX lAND [.null b fd]) (fun g => (g.groupAND cs).bind fun g => .ok g.toCond) fun g => noPtr_toCond _
  | custom b x => exact noPtr_and _ cs
  | group b xs br => exact noPtr_toCond _
  | ptr b xs br => exact noPtr_toCond _

theorem noPtr_orM (c : CondX) (cs : List CondX) : NoPtr (c.or cs) := by
  cases c with
  | nil => intro _ h; cases h
  | fieldc k b fv =>
    cases k
    case like => exact noPtr_bind (newGroupX lOR [.fieldc .like b fv]) (fun g => (g.groupOR cs).bind fun g => .ok g.toCond) fun g => noPtr_toCond _
    case ilike => exact noPtr_bind (newGroupX lOR [.fieldc .ilike b fv]) (fun g => (g.groupOR cs).bind fun g => .ok g.toCond) fun g => noPtr_toCond _
    all_goals exact noPtr_or _ cs
  | null b fd => intro _ h; cases h
  | custom b x => exact noPtr_or _ cs
  | group b xs br => exact noPtr_toCond _
  | ptr b xs br => exact noPtr_toCond _

/-- Whether the value of an expression is a pointer. -/
theorem eval_pointed (t : TermX) (c : CondX) (d : Cond) (h : t.eval = .ok c) (hc : c.core = some d) :
    t.pointed d = true ↔ ∃ b cs br, c = .ptr b cs br := by
  have no : NoPtr t.eval → t.pointed d = false → (t.pointed d = true ↔ ∃ b cs br, c = .ptr b cs br) := by
    intro hn hp
    rw [hp]
    refine ⟨(fun k => by cases k), ?_⟩
    rintro ⟨b, cs, br, rfl⟩
    exact absurd rfl (hn _ h b cs br)
  cases t with
  | leaf x =>
    simp only [TermX.eval, Res.ok.injEq] at h
    subst h
    cases x <;> simp [TermX.pointed]
  | addr t =>
    simp only [TermX.eval] at h
    obtain ⟨x, _, hx⟩ := Res.bind_eq_ok.1 h
    cases x <;> simp only [CondX.asGroup, Res.ok.injEq] at hx <;> subst hx <;>
      simp only [CondX.core, GroupX.addr, Option.map_eq_some_iff, Option.some.injEq, reduceCtorEq] at hc <;>
      first
      | (obtain ⟨ds, _, rfl⟩ := hc; simp [TermX.pointed, Cond.asGroup, GroupX.addr])
      | (subst hc; simp [TermX.pointed, Cond.asGroup])
  | notF t =>
    refine no (noPtr_bind _ _ fun c => ?_) rfl
    intro x hx b cs br e
    subst e
    cases c <;> cases hx
  | andF t ts => exact no (noPtr_bind _ _ fun c => noPtr_bind _ _ fun cs => noPtr_and c cs) rfl
  | orF t ts => exact no (noPtr_bind _ _ fun c => noPtr_bind _ _ fun cs => noPtr_or c cs) rfl
  | andM t ts => exact no (noPtr_bind _ _ fun c => noPtr_bind _ _ fun cs => noPtr_andM c cs) rfl
  | orM t ts => exact no (noPtr_bind _ _ fun c => noPtr_bind _ _ fun cs => noPtr_orM c cs) rfl
  | newG j ts => exact no (noPtr_bind _ _ fun c => noPtr_toCond _) rfl
  | joinJ j ts =>
    refine no (noPtr_bind _ _ fun cs => ?_) rfl
    match cs with
    | [] => intro _ h; cases h
    | [c] => exact noPtr_join c j
    | c :: c2 :: cs => exact noPtr_toCond _
  | spec t fd =>
    refine no (noPtr_bind _ _ fun c => ?_) rfl
    intro x hx b cs br e
    subst e
    cases c <;> simp only [CondX.applyFieldSpec] at hx <;> first | cases hx | skip
    all_goals (obtain ⟨_, _, hx⟩ := Res.bind_eq_ok.1 hx; cases hx)
  | table t name =>
    refine no (noPtr_bind _ _ fun c => ?_) rfl
    intro x hx b cs br e
    subst e
    cases c <;> simp only [CondX.applyFieldTable] at hx <;> first | cases hx | skip
    all_goals (obtain ⟨_, _, hx⟩ := Res.bind_eq_ok.1 hx; cases hx)

/-- The same for lists. -/
def SameXL : Res (List CondX) → Res (List Cond) → Prop
  | r, .ok ds => ∃ cs, r = .ok cs ∧ CondX.coreL cs = some ds
  | r, .panic p => r = .panic p
  | _, .err _ => False

theorem SameX.step {r : Res CondX} {p : Res Cond} {f : CondX → Res CondX} {g : Cond → Res Cond} (h : SameX r p)
    (hf : ∀ c d, r = .ok c → c.core = some d → SameX (f c) (g d)) : SameX (r.bind f) (p.bind g) := by
  cases p with
  | ok d => obtain ⟨c, hr, hc⟩ := h; rw [hr]; exact hf c d hr hc
  | panic q => cases h; rfl
  | err e => exact h.elim

theorem SameXL.step {r : Res (List CondX)} {p : Res (List Cond)} {f : List CondX → Res CondX} {g : List Cond → Res Cond} (h : SameXL r p)
    (hf : ∀ c d, r = .ok c → CondX.coreL c = some d → SameX (f c) (g d)) : SameX (r.bind f) (p.bind g) := by
  cases p with
  | ok d => obtain ⟨c, hr, hc⟩ := h; rw [hr]; exact hf c d hr hc
  | panic q => cases h; rfl
  | err e => exact h.elim

theorem first_same {c : CondX} {d : Cond} {cs : List CondX} {ds : List Cond} {t : TermX} (ht : t.eval = .ok c) (hc : c.core = some d)
    (hs : CondX.coreL cs = some ds) :
    GivesX (andX c cs) (andC (if t.pointed d && ds.length != 0 then (newGroup lAND [d]).toCond else d) ds) ∧
    GivesX (orX c cs) (orC (if t.pointed d && ds.length != 0 then (newGroup lOR [d]).toCond else d) ds) := by
  have hl := CondX.coreL_length hs
  have hp := eval_pointed t c d ht hc
  by_cases hd : ds = []
  · subst hd
    cases cs with
    | nil => simpa [andX, orX, andC, orC] using ⟨core_join hc lAND, core_join hc lOR⟩
    | cons x xs => cases hl
  · have hcs : cs ≠ [] := by
      intro e; subst e; exact hd (List.length_eq_zero_iff.1 hl.symm)
    have h0 : ds.length ≠ 0 := fun e => hd (List.length_eq_zero_iff.1 e)
    by_cases hq : ∃ b xs br, c = .ptr b xs br
    · rw [hp.mpr hq]
      obtain ⟨b, xs, br, rfl⟩ := hq
      simp only [CondX.core, Option.map_eq_some_iff] at hc
      obtain ⟨es, he, rfl⟩ := hc
      have := C71_first ⟨b, xs, br⟩ ⟨b, es, br⟩ cs ds (by simp only [GroupX.core, he, Option.map_some]) hs hcs
      simpa [h0, GroupX.addr, Group.toCond] using this
    · have : t.pointed d = false := by
        cases h : t.pointed d with
        | false => rfl
        | true => exact absurd (hp.mp h) hq
      rw [this]
      have nq : ∀ b xs br, c ≠ .ptr b xs br := fun b xs br e => hq ⟨b, xs, br, e⟩
      exact ⟨core_and hc nq hs, core_or hc nq hs⟩

mutual
theorem eval_plain : (t : TermX) → t.hasNil = false → SameX t.eval t.plain
  | .leaf c, h => by
    simp only [TermX.hasNil] at h
    obtain ⟨d, hd⟩ := Option.isSome_iff_exists.1 ((core_isSome c).trans (by rw [h]; rfl))
    simp only [TermX.eval, TermX.plain, hd]
    exact ⟨c, rfl, hd⟩
  | .notF t, h => by
    simp only [TermX.eval, TermX.plain]
    exact (eval_plain t h).step fun c d _ hc => core_setNegate hc true
  | .andF t ts, h => by
    simp only [TermX.hasNil, Bool.or_eq_false_iff] at h
    simp only [TermX.eval, TermX.plain]
    exact (eval_plain t h.1).step fun c d ht hc => (evalL_plain ts h.2).step fun cs ds _ hs => (first_same ht hc hs).1
  | .orF t ts, h => by
    simp only [TermX.hasNil, Bool.or_eq_false_iff] at h
    simp only [TermX.eval, TermX.plain]
    exact (eval_plain t h.1).step fun c d ht hc => (evalL_plain ts h.2).step fun cs ds _ hs => (first_same ht hc hs).2
  | .andM t ts, h => by
    simp only [TermX.hasNil, Bool.or_eq_false_iff] at h
    simp only [TermX.eval, TermX.plain]
    exact (eval_plain t h.1).step fun c d ht hc => (evalL_plain ts h.2).step fun cs ds _ hs => core_andM hc hs
  | .orM t ts, h => by
    simp only [TermX.hasNil, Bool.or_eq_false_iff] at h
    simp only [TermX.eval, TermX.plain]
    refine (eval_plain t h.1).step fun c d ht hc => (evalL_plain ts h.2).step fun cs ds _ hs => ?_
    rcases core_orM hc hs with ⟨e, h1, h2⟩ | ⟨h1, h2⟩
    · rw [h1]; exact h2
    · rw [h1, h2]; rfl
  | .newG j ts, h => by
    simp only [TermX.hasNil] at h
    simp only [TermX.eval, TermX.plain]
    exact (evalL_plain ts h).step fun cs ds _ hs => (core_newGroup j hs).toCond
  | .joinJ j ts, h => by
    simp only [TermX.hasNil] at h
    simp only [TermX.eval, TermX.plain]
    refine (evalL_plain ts h).step fun cs ds _ hs => ?_
    by_cases he : cs = []
    · subst he
      simp only [CondX.coreL, Option.some.injEq] at hs
      subst hs
      rfl
    · obtain ⟨d, h1, h2⟩ := core_joinAll j hs he
      rw [h1]
      exact h2
  | .addr t, h => by
    simp only [TermX.hasNil] at h
    have ih := eval_plain t h
    simp only [TermX.eval, TermX.plain]
    have : t.plain = t.plain.bind fun d => .ok d := by cases t.plain <;> rfl
    rw [this]
    refine ih.step fun c d _ hc => ?_
    cases c with
    | group b cs br =>
      simp only [CondX.core, Option.map_eq_some_iff] at hc
      obtain ⟨es, he, rfl⟩ := hc
      exact ⟨_, rfl, by simp only [GroupX.addr, CondX.core, he, Option.map_some]⟩
    | nil => cases hc
    | fieldc k b fv => exact ⟨_, rfl, hc⟩
    | null b fd => exact ⟨_, rfl, hc⟩
    | custom b x => exact ⟨_, rfl, hc⟩
    | ptr b cs br => exact ⟨_, rfl, hc⟩
  | .spec t fd, h => by
    simp only [TermX.hasNil] at h
    simp only [TermX.eval, TermX.plain]
    exact (eval_plain t h).step fun c d _ hc => core_applySpec fd c d hc
  | .table t name, h => by
    simp only [TermX.hasNil] at h
    simp only [TermX.eval, TermX.plain]
    exact (eval_plain t h).step fun c d _ hc => core_applyTable name c d hc
theorem evalL_plain : (ts : List TermX) → TermX.hasNilL ts = false → SameXL (TermX.evalL ts) (TermX.plainL ts)
  | [], _ => ⟨[], rfl, rfl⟩
  | t :: ts, h => by
    simp only [TermX.hasNilL, Bool.or_eq_false_iff] at h
    have h1 := eval_plain t h.1
    have h2 := evalL_plain ts h.2
    simp only [TermX.evalL, TermX.plainL]
    cases hp : t.plain with
    | err e => rw [hp] at h1; exact h1.elim
    | panic p => rw [hp] at h1; rw [show t.eval = .panic p from h1]; rfl
    | ok d =>
      rw [hp] at h1
      obtain ⟨c, hc, hd⟩ := h1
      rw [hc]
      simp only [Res.bind_ok]
      cases hq : TermX.plainL ts with
      | err e => rw [hq] at h2; exact h2.elim
      | panic p => rw [hq] at h2; rw [show TermX.evalL ts = .panic p from h2]; rfl
      | ok ds =>
        rw [hq] at h2
        obtain ⟨cs, hcs, hds⟩ := h2
        rw [hcs]
        exact ⟨c :: cs, rfl, by simp only [CondX.coreL, hd, hds, Option.bind_some, Option.map_some]⟩
end

/-- **C71, exactly**, for every expression without nil, of any depth, with pointers anywhere: its value, texts and parameters are those of
the expression with the groups themselves, but for a pointer as first argument of the functions `And` and `Or` with further arguments,
which counts as a group of one member; and the one panics when the other does. -/
theorem C71_exact (t : TermX) (h : t.hasNil = false) : SameX t.eval t.plain ∧ ∀ n,
    (t.eval.bind fun c => c.render n) = (t.plain.bind fun d => d.render n) ∧
    (t.eval.bind CondX.renderSQL) = (t.plain.bind Cond.renderSQL) ∧ (t.eval.bind CondX.values) = (t.plain.bind Cond.values) := by
  have hs := eval_plain t h
  refine ⟨hs, fun n => ?_⟩
  cases hp : t.plain with
  | err e => rw [hp] at hs; exact hs.elim
  | panic p => rw [hp] at hs; rw [show t.eval = .panic p from hs]; exact ⟨rfl, rfl, rfl⟩
  | ok d =>
    rw [hp] at hs
    obtain ⟨c, hc, hd⟩ := hs
    rw [hc]
    exact C71_reading c d hd n

/-- `Or(&And(Not(&g), a), b)` for a group g, and `And(&g, a)`. -/
example : let g : TermX := .orF (.leaf (leafX (la 1))) [.leaf (leafX (lb 2))]
    let t : TermX := .andF (.addr g) [.orM (.addr (.andF (.notF (.addr g)) [.leaf (leafX (lc 3))])) [.leaf (leafX (la 4))]]
    t.hasNil = false ∧ (t.plain.bind fun d => d.render 0) = .ok c!"a=$1 OR b=$2 AND NOT (NOT (NOT (a=$3 OR b=$4) AND c=$5) OR a=$6)" := by
  exact ⟨rfl, by decide +kernel⟩

/-- **C71, exactly, statements**: any series of `Where` calls with expressions without nil, with pointers anywhere, on DELETE, UPDATE and
SELECT: the statement built, the error or the panic is that with the groups themselves, as in `C71_exact`. -/
theorem C71_statement_exact (ws : List (List TermX)) (h : ws.any TermX.hasNilL = false) (g : GroupX) (k : Group) (hg : g.core = some k)
    (t : Str) (op : Int) (fs : List FieldValue) (b : BaseSelect) :
    ((DeleteX.mk t g).wheres ws).bind DeleteX.build = (TermX.wheresPlain k ws).bind (fun k => (DeleteB.mk op t k).build) ∧
    ((UpdateX.mk t g fs).wheres ws).bind UpdateX.build = (TermX.wheresPlain k ws).bind (fun k => (UpdateB.mk op t k fs).build) ∧
    ((SelectX.mk b g).wheres ws).bind SelectX.build =
      (TermX.wheresPlain k ws).bind (fun k => ({ b with where_ := ⟨k⟩ } : BaseSelect).build) := by
  induction ws generalizing g k with
  | nil =>
    have := C71_statement g k [] [] hg rfl t op fs b
    have e1 : (DeleteX.mk t g).addWhere [] = .ok ⟨t, g⟩ := by
      simp only [DeleteX.addWhere, GroupX.groupAND, GroupX.addConditions, core_hasOne hg]
      rfl
    have e2 : (UpdateX.mk t g fs).addWhere [] = .ok ⟨t, g, fs⟩ := by
      simp only [UpdateX.addWhere, GroupX.groupAND, GroupX.addConditions, core_hasOne hg]
      rfl
    have e3 : (SelectX.mk b g).addWhere [] = .ok ⟨b, g⟩ := by
      simp only [SelectX.addWhere, GroupX.groupAND, GroupX.addConditions, core_hasOne hg]
      rfl
    rw [e1, e2, e3] at this
    exact this
  | cons ts ws ih =>
    simp only [List.any_cons, Bool.or_eq_false_iff] at h
    have hs := evalL_plain ts h.1
    simp only [DeleteX.wheres, UpdateX.wheres, SelectX.wheres, TermX.wheresPlain]
    cases hp : TermX.plainL ts with
    | err e => rw [hp] at hs; exact hs.elim
    | panic p => rw [hp] at hs; rw [show TermX.evalL ts = .panic p from hs]; exact ⟨rfl, rfl, rfl⟩
    | ok ds =>
      rw [hp] at hs
      obtain ⟨cs, hcs, hds⟩ := hs
      obtain ⟨r, hr, hrc⟩ := core_addConditions lAND hg hds
      have := ih h.2 r (k.groupAND ds) hrc
      rw [hcs]
      simpa only [Res.bind_ok, DeleteX.addWhere, UpdateX.addWhere, SelectX.addWhere, GroupX.groupAND, hr] using this

example : let g : TermX := .orF (.leaf (leafX (la 1))) [.leaf (leafX (lb 2))]
    ((DeleteX.mk c!"t" emptyX).wheres [[.leaf (leafX (lc 3))], [.addr g, .leaf (leafX (la 4))]]).bind DeleteX.build =
      .ok (c!"DELETE FROM t WHERE (c=$1) AND (a=$2 OR b=$3 AND a=$4)", [.other 3, .other 1, .other 2, .other 4]) := rfl

/-- **C71**, statements on new builders: what `Delete`, `Update` and `SelectFrom` make, with conditions of any kind but nil added by any
number of `Where` calls, is the statement with the groups themselves. -/
theorem C71_new (ws : List (List TermX)) (h : ws.any TermX.hasNilL = false) (p : TableParam) (fs : List FieldValue) :
    ((DeleteX.mk (delete p).tableName emptyX).wheres ws).bind DeleteX.build =
      (TermX.wheresPlain (delete p).where_ ws).bind (fun k => ({ delete p with where_ := k }).build) ∧
    ((UpdateX.mk (update p).tableName emptyX fs).wheres ws).bind UpdateX.build =
      (TermX.wheresPlain (update p).where_ ws).bind (fun k => ({ (update p).set fs with where_ := k }).build) ∧
    ∀ q, selectFrom p = .ok q → ((SelectX.mk q emptyX).wheres ws).bind SelectX.build =
      (TermX.wheresPlain q.where_.group ws).bind (fun k => ({ q with where_ := ⟨k⟩ } : BaseSelect).build) := by
  have k := fun t op b => C71_statement_exact ws h emptyX (newGroup lAND []) rfl t op fs b
  refine ⟨(k _ _ zeroBaseSelect).1, (k _ _ zeroBaseSelect).2.1, fun q hq => ?_⟩
  obtain ⟨t, _, e⟩ := Res.bind_eq_ok.1 hq
  cases e
  exact (k [] 0 _).2.2

example : (TermX.wheresPlain (delete (.str c!"t")).where_ [[.leaf (leafX (lc 3))], [.addr (.orF (.leaf (leafX (la 1))) [.leaf (leafX (lb 2))])]]).bind
    (fun k => ({ delete (.str c!"t") with where_ := k }).build) =
      .ok (c!"DELETE FROM t WHERE c=$1 AND (a=$2 OR b=$3)", [.other 3, .other 1, .other 2]) := rfl

/-- **C71 is false** for a pointer as first argument of the function `And`: with `g := a OR b`, `And(g, c)` is
`(a OR b) AND c`, but `And(&g, c)` is `a OR b AND c`, which is true on a row where c does not hold. -/
theorem C71_first_false :
    let g : GroupX := ⟨newBase lAND false, [leafX (la 1), leafX ((lb 2).join lOR)], false⟩
    (andX g.toCond [leafX (lc 3)]).bind (fun c => c.render 0) = .ok c!"(a=$1 OR b=$2) AND c=$3" ∧
    (andX g.addr [leafX (lc 3)]).bind (fun c => c.render 0) = .ok c!"a=$1 OR b=$2 AND c=$3" ∧
    ∃ d, GivesX (andX g.addr [leafX (lc 3)]) d ∧ TextMeans (lc 3) (exRow [c!"a"]) .f ∧ TextMeans d (exRow [c!"a"]) .t := by
  refine ⟨rfl, rfl, _, ⟨_, rfl, rfl⟩, means_of exC rfl, ?_⟩
  refine means_of (c := ([[orC (la 1) [lb 2]], [lc 3]].foldl Group.groupAND newWhere.group).toCond) ?_ rfl
  exact pair_readable exOr exC (Or.inl rfl)

end Query
