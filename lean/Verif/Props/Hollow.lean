import Verif.Props.Write
import Verif.Props.Select
/-!
# C15, C21, exactly

When the text after WHERE is empty, and when `Fields` of a single-row select keeps the query.
-/
namespace Query

mutual
/-- Nothing is printed of the condition: an empty group, or a group neither negated nor bracketed whose members print nothing and,
after the first, have no join word. -/
def Cond.Hollow : Cond → Prop
  | .fieldc _ _ _ => False
  | .null _ _ => False
  | .custom _ _ => False
  | .group b cs br => cs = [] ∨ (b.negate = false ∧ br = false ∧ Cond.HollowL cs true)
/-- Nothing is printed of the members. -/
def Cond.HollowL : List Cond → Bool → Prop
  | [], _ => True
  | c :: cs, first => (first = true ∨ c.base.joinType = []) ∧ c.Hollow ∧ Cond.HollowL cs false
end

/-- A user's own condition prints something. -/
def CustomPrints : Cond → Prop
  | .custom b x => ∀ n, x.text x.fd b.negate n ≠ []
  | _ => True

theorem wrapGroup_eq_nil (b : CondBase) (n : Nat) (br : Bool) (sql : Str) :
    wrapGroup b n br sql = [] ↔ b.negate = false ∧ br = false ∧ sql = [] := by
  unfold wrapGroup
  simp only
  cases b.negate <;> cases br <;> simp

theorem joinToken_eq_nil (c : Cond) (first : Bool) : joinToken c first = [] ↔ first = true ∨ c.base.joinType = [] := by
  unfold joinToken CondBase.renderJoin
  cases first
  · simp only [Bool.not_false, if_true]
    cases c.base.joinType <;> simp
  · simp

mutual
theorem renderP_hollow (c : Cond) (n : Nat) (h : c.Every CustomPrints) : c.renderP n = [] ↔ c.Hollow := by
  cases c with
  | fieldc k b fv => simp only [Cond.Hollow, iff_false]; exact fieldcRenderP_ne k b fv n
  | null b fd => simp only [Cond.Hollow, iff_false, Cond.renderP, renderNull]; split <;> simp [joinWith]
  | custom b x => simp only [Cond.Hollow, iff_false]; exact h n
  | group b cs br =>
    simp only [Cond.renderP, Cond.Hollow]
    split
    · rename_i e
      have : cs = [] := List.length_eq_zero_iff.mp e
      simp [this]
    · rename_i e
      have hn : cs ≠ [] := fun k => e (by rw [k]; rfl)
      rw [wrapGroup_eq_nil, renderPL_hollow cs true n h.2]
      simp [hn]
theorem renderPL_hollow (cs : List Cond) (first : Bool) (n : Nat) (h : Cond.EveryL CustomPrints cs) :
    Cond.renderPL cs first n = [] ↔ Cond.HollowL cs first := by
  cases cs with
  | nil => simp [Cond.renderPL, Cond.HollowL]
  | cons c cs =>
    simp only [Cond.renderPL, Cond.HollowL, List.append_eq_nil_iff, joinToken_eq_nil, renderP_hollow c n h.1,
      renderPL_hollow cs false _ h.2]
    constructor
    · exact fun ⟨⟨a, b⟩, c⟩ => ⟨a, b, c⟩
    · exact fun ⟨a, b, c⟩ => ⟨⟨a, b⟩, c⟩
end

/-- **C15, exactly**: when a delete or update builder returns SQL, nothing follows the word WHERE just if its condition is made of
empty groups only, in the sense of `Cond.Hollow`. -/
theorem C15_exact (d : DeleteB) (u : UpdateB) :
    (∀ sql params, d.build = .ok (sql, params) → d.where_.toCond.Every CustomPrints →
      ∃ w, sql = c!"DELETE FROM " ++ d.tableName ++ c!" WHERE " ++ w ∧ (w = [] ↔ d.where_.toCond.Hollow)) ∧
    (∀ sql params, u.build = .ok (sql, params) → u.where_.toCond.Every CustomPrints →
      ∃ setText w, sql = c!"UPDATE " ++ u.tableName ++ c!" SET " ++ setText ++ c!" WHERE " ++ w ∧
        (w = [] ↔ u.where_.toCond.Hollow)) := by
  constructor
  · intro sql params h hc
    obtain ⟨w, hr, hs, -⟩ := (C15_sql_has_where_partial d u).1 sql params h
    refine ⟨w, hs, ?_⟩
    unfold DeleteB.build at h
    split at h
    · simp at h
    split at h
    · simp at h
    simp only [Res.bind_eq_ok, Res.ok.injEq, Prod.mk.injEq] at h
    obtain ⟨_, _, vs, hv, _, _⟩ := h
    have := Cond.render_pure _ _ hv 0
    simp only [Group.render] at hr
    rw [hr] at this
    simp only [Res.ok.injEq] at this
    rw [this]
    exact renderP_hollow _ 0 hc
  · intro sql params h hc
    obtain ⟨w, st, n, hr, hs, -⟩ := (C15_sql_has_where_partial d u).2 sql params h
    refine ⟨st, w, hs, ?_⟩
    unfold UpdateB.build at h
    split at h
    · simp at h
    split at h
    · simp at h
    split at h
    · simp at h
    simp only [Res.bind_eq_ok, Res.ok.injEq, Prod.mk.injEq] at h
    obtain ⟨_, _, _, _, vs, hv, _, _⟩ := h
    have := Cond.render_pure _ _ hv n
    simp only [Group.render] at hr
    rw [hr] at this
    simp only [Res.ok.injEq] at this
    rw [this]
    exact renderP_hollow _ n hc

/-- A tower of groups around an empty group. -/
example : (Group.toCond (Group.addConditions (newGroup lAND []) lAND [(newGroup lOR [(newGroup lAND []).toCond]).toCond])).Hollow := by
  refine .inr ⟨rfl, rfl, .inl rfl, .inr ⟨rfl, rfl, .inl rfl, .inl rfl, trivial⟩, trivial⟩

/-- The length of parts joined by single characters. -/
theorem joinWith_space_length (x : Str) (xs : List Str) :
    (joinWith c!" " (x :: xs)).length = x.length + (xs.map (fun y => y.length + 1)).sum := by
  induction xs generalizing x with
  | nil => simp [joinWith]
  | cons y ys ih =>
    simp only [joinWith, List.length_append, ih, List.map_cons, List.sum_cons]
    have : (c!" " : Str).length = 1 := rfl
    omega

/-- **C21, exactly**, for `Fields` of a single-row select: text and parameters are those of the select with these fields just if the
select has no table name and alias, no joins and no conditions. -/
theorem C21_fields_exact (q : SelectSingle) (fs : List FieldDef) (sql : Str) (params : List Val)
    (hb : (SelectSingle.mk (q.base.setFields fs)).build = .ok (sql, params)) :
    (q.setFields fs).build = .ok (sql, params) ↔
      q.base.baseTable.name = [] ∧ q.base.baseTable.alias = [] ∧ q.base.joins = [] ∧ q.base.where_.conditions = [] := by
  have hf : q.base.baseTable.renderFrom = [] ↔ q.base.baseTable.name = [] ∧ q.base.baseTable.alias = [] := by
    unfold TableIdent.renderFrom
    split
    · rename_i h
      have := List.length_pos_iff.mp h.1
      simp [this]
    · rename_i h
      constructor
      · intro e
        refine ⟨e, ?_⟩
        cases ha : q.base.baseTable.alias with
        | nil => rfl
        | cons a l => rw [ha, e] at h; simp at h
      · exact fun e => e.1
  rw [C21_fields_false, ← and_assoc, ← hf]
  simp only [SelectSingle.build, Res.bind_eq_ok, Res.ok.injEq, Prod.mk.injEq] at hb
  obtain ⟨⟨s0, p0⟩, h1, h2, h3⟩ := hb
  simp only at h2 h3
  subst h3
  have e0 : (c!"SELECT " ++ (Fields.mk fs).fieldList ++ c!" FROM  LIMIT 1" : Str) =
      joinWith c!" " [c!"SELECT", (Fields.mk fs).fieldList, c!"FROM", []] ++ c!" LIMIT 1" := by
    simp [joinWith]
  simp only [Res.ok.injEq, Prod.mk.injEq, e0, ← h2, List.append_cancel_right_eq]
  have hw : (q.base.setFields fs).where_ = q.base.where_ := rfl
  have hh : (q.base.setFields fs).headTokens =
      [c!"SELECT", (Fields.mk fs).fieldList, c!"FROM", q.base.baseTable.renderFrom] ++ q.base.joins.map TableJoiner.renderFrom := rfl
  unfold BaseSelect.build at h1
  rw [hw, hh] at h1
  constructor
  · rintro ⟨hs, hp⟩
    split at h1
    · simp only [Res.bind_eq_ok, Res.ok.injEq, Prod.mk.injEq] at h1
      obtain ⟨w, _, vs, _, e, _⟩ := h1
      rw [← e] at hs
      have := congrArg List.length hs
      simp only [List.cons_append, List.nil_append, joinWith_space_length, List.map_cons, List.map_nil, List.sum_cons,
        List.sum_nil, List.map_append, List.sum_append, List.length_nil] at this
      omega
    · rename_i hc
      simp only [Res.ok.injEq, Prod.mk.injEq] at h1
      rw [← h1.1] at hs
      have := congrArg List.length hs
      have hn : q.base.where_.conditions = [] := List.length_eq_zero_iff.mp (by omega)
      cases hj : q.base.joins with
      | nil =>
        rw [hj] at this
        simp only [List.cons_append, List.nil_append, joinWith_space_length, List.map_cons, List.map_nil, List.sum_cons,
          List.sum_nil, List.length_nil] at this
        exact ⟨List.length_eq_zero_iff.mp (by omega), rfl, hn⟩
      | cons j js =>
        rw [hj] at this
        simp only [List.cons_append, List.nil_append, joinWith_space_length, List.map_cons, List.map_nil, List.sum_cons,
          List.sum_nil, List.length_nil] at this
        omega
  · rintro ⟨hr, hj, hn⟩
    rw [hn, hr, hj] at h1
    simp only [List.length_nil, Nat.lt_irrefl, gt_iff_lt, if_false, Res.ok.injEq, Prod.mk.injEq] at h1
    exact ⟨h1.1, h1.2⟩

/-- A select from a table loses it. -/
example : ((⟨⟨0, ⟨c!"users", []⟩, [], ⟨[]⟩, zeroWhere⟩⟩ : SelectSingle).setFields [⟨c!"id", c!"users", []⟩]).build ≠
    (SelectSingle.mk (BaseSelect.setFields ⟨0, ⟨c!"users", []⟩, [], ⟨[]⟩, zeroWhere⟩ [⟨c!"id", c!"users", []⟩])).build := by
  intro h
  have := (C21_fields_exact ⟨⟨0, ⟨c!"users", []⟩, [], ⟨[]⟩, zeroWhere⟩⟩ [⟨c!"id", c!"users", []⟩] _ _ rfl).mp h
  exact absurd this.1 (by decide)

end Query
