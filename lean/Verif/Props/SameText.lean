import Verif.Spec.SameText
import Verif.Props.Reads
import Verif.Props.Text
import Verif.Proof.Program
/-!
# C83: the text tells the query
-/
namespace Query

/-- The offset a statement asks for. -/
private def offOf (ps : List Val) : Option Rows → Nat
  | some (.param i) => (match bound 0 ps i with | .uint n => n | _ => 0)
  | _ => 0

/-- The limit a statement asks for. -/
private def limOf (ps : List Val) : Option Rows → RowLimit
  | some (.param i) => (match bound 0 ps i with | .uint n => .rows n | _ => .all)
  | some (.lit _) => .one
  | none => .all

private def offBlank : Option Rows → Nat
  | some (.param _) => 1
  | _ => 0

private def limBlank : Option Rows → RowLimit
  | some (.param _) => .rows 1
  | some (.lit _) => .one
  | none => .all

/-- The expression read is that of the condition. -/
private def LogicIs (ps : List Val) : Option Cond → Option BExp → Prop
  | none, none => True
  | some c, some e => CondRead c ps e
  | _, _ => False

/-- What a statement asks for, with its parameters. -/
private def Stmt.told (ps : List Val) : Stmt → Told
  | .select s => .select s.items s.table s.joins s.cond.isSome ((s.cond.map (BExp.leaves (bound 0 ps))).getD []) s.order
      (offOf ps s.offset) (limOf ps s.limit)
  | .insert t cs ns => .insert t (cs.zip (ns.map (bound 0 ps)))
  | .update t sets e => .update t (sets.map fun p => (p.1, bound 0 ps p.2)) (e.leaves (bound 0 ps))
  | .delete t e => .delete t (e.leaves (bound 0 ps))

/-- The same without the parameters. -/
private def Stmt.blank : Stmt → Told
  | .select s => .select s.items s.table s.joins s.cond.isSome
      (((s.cond.map (BExp.leaves fun _ => .nil)).getD []).map Leaf.blank) s.order
      (offBlank s.offset) (limBlank s.limit)
  | .insert t cs ns => .insert t ((cs.zip ns).map fun p => (p.1, .nil))
  | .update t sets e => .update t (sets.map fun p => (p.1, .nil)) ((e.leaves fun _ => .nil).map Leaf.blank)
  | .delete t e => .delete t ((e.leaves fun _ => .nil).map Leaf.blank)

private def Stmt.exp : Stmt → Option BExp
  | .select s => s.cond
  | .insert _ _ _ => none
  | .update _ _ e => some e
  | .delete _ e => some e

private theorem blank_leaves (e : BExp) (f g : Nat → Val) : (e.leaves f).map Leaf.blank = (e.leaves g).map Leaf.blank := by
  induction e with
  | atom a => cases a <;> simp [BExp.leaves, Atom.leaf, Leaf.blank]
  | not e ih => exact ih
  | and a b iha ihb => simp [BExp.leaves, iha, ihb]
  | or a b iha ihb => simp [BExp.leaves, iha, ihb]

/-- What is known of a builder from its statement. -/
private structure Known (b : Builder) (s : Str) (ps : List Val) (st : Stmt) : Prop where
  read : readStmt s = some st
  told : st.told ps = b.told
  blank : st.blank = b.told.blank
  logic : LogicIs ps b.cond st.exp

private theorem where_known {q : BaseSelect} {ps : List Val} {w : Option BExp} (h : WhereRead q ps w) :
    w.isSome = (!q.where_.conditions.isEmpty) ∧
    (w.map (BExp.leaves (bound 0 ps))).getD [] = q.where_.group.toCond.leaves ∧
    ((w.map (BExp.leaves fun _ => .nil)).getD []).map Leaf.blank = q.where_.group.toCond.leaves.map Leaf.blank ∧
    LogicIs ps (if q.where_.conditions = [] then none else some q.where_.group.toCond) w := by
  unfold WhereRead at h
  by_cases hc : q.where_.conditions = []
  · rw [if_pos hc] at h
    subst h
    have hl : q.where_.group.toCond.leaves = [] := by
      have : q.where_.group.conds = [] := hc
      simp [Group.toCond, Cond.leaves, this, Cond.leavesL]
    refine ⟨by simp [hc], by simp [hl], by simp [hl], ?_⟩
    rw [if_pos hc]
    trivial
  · rw [if_neg hc] at h
    obtain ⟨e, rfl, hr⟩ := h
    refine ⟨?_, by simpa using hr.leaves, ?_, ?_⟩
    · cases hq : q.where_.conditions with
      | nil => exact absurd hq hc
      | cons a l => rfl
    · rw [← hr.leaves]
      exact blank_leaves e _ _
    · rw [if_neg hc]
      exact hr

private theorem rows_known {ps : List Val} {n : Nat} {r : Option Rows} (h : RowsRead ps n r) :
    offOf ps r = n ∧ offBlank r = min n 1 := by
  unfold RowsRead at h
  by_cases hn : n = 0
  · rw [if_pos hn] at h
    subst h hn
    exact ⟨rfl, rfl⟩
  · rw [if_neg hn] at h
    obtain ⟨i, rfl, hb⟩ := h
    simp only [offOf, offBlank, hb, true_and]
    omega

private theorem limit_known {ps : List Val} {l : Int} {r : Option Rows} (h : RowsRead ps l.toNat r) :
    limOf ps r = (if l > 0 then .rows l.toNat else .all) ∧
    limBlank r = (if l > 0 then RowLimit.rows l.toNat else .all).blank := by
  unfold RowsRead at h
  by_cases hn : l > 0
  · rw [if_neg (by omega)] at h
    obtain ⟨i, rfl, hb⟩ := h
    simp [limOf, limBlank, RowLimit.blank, hb, hn]
  · rw [if_pos (by omega)] at h
    subst h
    simp [limOf, limBlank, RowLimit.blank, hn]

private theorem sets_known {vs : List FieldValue} (h : ∀ fv ∈ vs, PlainIdent fv.fd.fieldName ∧ OneParam fv) :
    vs.map FieldValue.values = (vs.map FieldValue.only).map fun v => .ok [v] := by
  rw [List.map_map]
  refine List.map_congr_left fun fv hv => ?_
  obtain ⟨v, e⟩ := (h fv hv).2
  simp [FieldValue.only, e]

private theorem cond_known {c : Cond} {ps : List Val} {e : BExp} (h : CondRead c ps e) :
    e.leaves (bound 0 ps) = c.leaves ∧ (e.leaves fun _ => .nil).map Leaf.blank = c.leaves.map Leaf.blank :=
  ⟨h.leaves, by rw [← h.leaves]; exact blank_leaves e _ _⟩

private theorem plain_known (b : Builder) (h : b.Plain) : ∃ s ps st, b.build = .ok (s, ps) ∧ Known b s ps st := by
  cases b with
  | select q =>
    obtain ⟨s, ps, w, h1, h2, h3⟩ := C22_base_partial q h
    obtain ⟨k1, k2, k3, k4⟩ := where_known h3
    exact ⟨s, ps, _, h1, h2, by simp [Stmt.told, Builder.told, k1, k2, offOf, limOf],
      by simp [Stmt.blank, Builder.told, Told.blank, RowLimit.blank, k1, k3, offBlank, limBlank], k4⟩
  | one q =>
    obtain ⟨s, ps, w, h1, h2, h3⟩ := C22_single_partial q h
    obtain ⟨k1, k2, k3, k4⟩ := where_known h3
    exact ⟨s, ps, _, h1, h2, by simp [Stmt.told, Builder.told, k1, k2, offOf, limOf],
      by simp [Stmt.blank, Builder.told, Told.blank, RowLimit.blank, k1, k3, offBlank, limBlank], k4⟩
  | many q =>
    obtain ⟨s, ps, w, off, lim, h1, h2, h3, h4, h5⟩ := C22_many_partial q h.1 h.2
    obtain ⟨k1, k2, k3, k4⟩ := where_known h3
    obtain ⟨o1, o2⟩ := rows_known h4
    obtain ⟨l1, l2⟩ := limit_known h5
    refine ⟨s, ps, _, h1, h2, ?_, ?_, k4⟩
    · simp only [Stmt.told, Builder.told, k1, k2, o1, l1]
    · simp only [Stmt.blank, Builder.told, Told.blank, k1, k3, o2, l2]
  | count q =>
    obtain ⟨s, ps, w, h1, h2, h3⟩ := C22_count_partial q h.1 h.2
    obtain ⟨k1, k2, k3, k4⟩ := where_known h3
    exact ⟨s, ps, _, h1, h2, by simp [Stmt.told, Builder.told, k1, k2, offOf, limOf],
      by simp [Stmt.blank, Builder.told, Told.blank, RowLimit.blank, k1, k3, offBlank, limBlank], k4⟩
  | insert q =>
    obtain ⟨ht, hn, hv⟩ := h
    obtain ⟨s, ns, h1, h2, h3⟩ := C44_insert_partial q _ hn ht (fun fv h => (hv fv h).1) (sets_known hv)
    have hl : ns.length = q.setValues.length := by simpa using congrArg List.length h3
    refine ⟨s, _, _, h1, h2, ?_, ?_, trivial⟩
    · simp only [Stmt.told, Builder.told, h3]
      congr 1
      rw [List.zip_map', ]
    · simp only [Stmt.blank, Builder.told, Told.blank]
      congr 1
      rw [List.map_map]
      apply List.ext_getElem <;> simp [hl]
  | update q =>
    obtain ⟨ht, ⟨hn, hv⟩, hc⟩ := h
    obtain ⟨s, ps, sets, e, h1, h2, h3, h4, h5⟩ := C45_update_partial q _ hn ht (fun fv h => (hv fv h).1) (sets_known hv) hc
    obtain ⟨k1, k2⟩ := cond_known h5
    refine ⟨s, ps, _, h1, h2, ?_, ?_, h5⟩
    · simp only [Stmt.told, Builder.told, k1]
      congr 1
      have : (sets.map (·.1)).zip (sets.map fun p => bound 0 ps p.2) =
          (q.setValues.map fun fv => fv.fd.fieldName).zip (q.setValues.map FieldValue.only) := by rw [h3, h4]
      simpa [List.zip_map'] using this
    · simp only [Stmt.blank, Builder.told, Told.blank, k2]
      congr 1
      have := congrArg (List.map fun n => (n, Val.nil)) h3
      rw [List.map_map, List.map_map] at this
      rw [List.map_map]
      exact this
  | delete q =>
    obtain ⟨ht, hc⟩ := h
    obtain ⟨s, ps, e, h1, h2, h3⟩ := C46_delete_partial q ht hc
    obtain ⟨k1, k2⟩ := cond_known h3
    exact ⟨s, ps, _, h1, h2, by simp [Stmt.told, Builder.told, k1], by simp [Stmt.blank, Builder.told, Told.blank, k2], h3⟩

/-- The values told, in the order of the parameters. -/
private theorem base_params {q : BaseSelect} (h : PlainSelect q) {s : Str} {ps : List Val} (hb : q.build = .ok (s, ps)) :
    ps = q.where_.group.toCond.leaves.flatMap (·.vals) := by
  unfold BaseSelect.build at hb
  rcases h.cond with hc | hc
  · rw [if_neg (by simp [hc])] at hb
    cases hb
    have : q.where_.group.conds = [] := hc
    simp [Group.toCond, Cond.leaves, this, Cond.leavesL]
  · have hne : q.where_.conditions ≠ [] := (readable_group.mp hc).1
    rw [if_pos (List.length_pos_iff.mpr hne)] at hb
    have hv : q.where_.values = .ok (q.where_.group.toCond.leaves.flatMap (·.vals)) := by
      rw [← leaves_vals _ hc]
      exact readable_valuesP hc
    simp only [Res.bind_eq_ok, hv] at hb
    obtain ⟨w, _, vs, h1, h2⟩ := hb
    cases h1
    cases h2
    rfl

private theorem blank_vals (ts : List Leaf) :
    ((ts.map Leaf.blank).flatMap (·.vals)).length = (ts.flatMap (·.vals)).length := by
  induction ts with
  | nil => rfl
  | cons t ts ih => simpa [Leaf.blank] using ih

private theorem Told.blank_count (t : Told) : t.blank.values.length = t.values.length := by
  cases t with
  | select i t j f ts o off lim =>
    have := blank_vals ts
    by_cases ho : off = 0
    · cases lim <;> simp_all [Told.blank, Told.values, RowLimit.blank, RowLimit.values]
    · have h1 : ¬ min off 1 = 0 := by omega
      cases lim <;> simp_all [Told.blank, Told.values, RowLimit.blank, RowLimit.values]
  | insert t sets => simp [Told.blank, Told.values]
  | update t sets ts => simp only [Told.blank, Told.values, List.length_append, blank_vals]; simp
  | delete t ts => simp only [Told.blank, Told.values, blank_vals]

private theorem sets_values {vs : List FieldValue} :
    (vs.map fun fv => (fv.fd.fieldName, fv.only)).map (·.2) = vs.map FieldValue.only := by
  rw [List.map_map]
  rfl

private theorem plain_params (b : Builder) (h : b.Plain) {s : Str} {ps : List Val} (hb : b.build = .ok (s, ps)) :
    ps = b.told.values := by
  cases b with
  | select q => simpa [Builder.told, Told.values, RowLimit.values] using base_params h hb
  | one q =>
    simp only [Builder.build, SelectSingle.build, Res.bind_eq_ok] at hb
    obtain ⟨r, h1, h2⟩ := hb
    cases h2
    simpa [Builder.told, Told.values, RowLimit.values] using base_params h (s := r.1) (ps := r.2) h1
  | many q =>
    simp only [Builder.build, SelectMany.build, Res.bind_eq_ok] at hb
    obtain ⟨r, h1, h2⟩ := hb
    have := base_params h.1 (s := r.1) (ps := r.2) h1
    cases h2
    simp only [Builder.told, Told.values, ← this]
    by_cases ho : q.offset = 0
    · by_cases hl : q.limit > 0 <;> simp [ho, hl, RowLimit.values]
    · have : q.offset > 0 := by omega
      by_cases hl : q.limit > 0 <;> simp [ho, hl, this, RowLimit.values]
  | count q =>
    have hq : ∃ t, q.base.build = .ok (t, ps) := by
      simp only [Builder.build, CountB.build] at hb
      unfold BaseSelect.build
      split at hb
      · rename_i hc
        simp only [Res.bind_eq_ok] at hb
        obtain ⟨w, h1, vs, h2, h3⟩ := hb
        cases h3
        rw [if_pos hc]
        simp only [h1, h2, Res.bind_ok]
        exact ⟨_, rfl⟩
      · rename_i hc
        cases hb
        rw [if_neg hc]
        exact ⟨_, rfl⟩
    obtain ⟨t, ht⟩ := hq
    simpa [Builder.told, Told.values, RowLimit.values] using base_params h.1 ht
  | insert q =>
    obtain ⟨ht, hn, hv⟩ := h
    obtain ⟨s', ns, h1, h2, h3⟩ := C44_insert_partial q _ hn ht (fun fv h => (hv fv h).1) (sets_known hv)
    rw [show (Builder.insert q).build = q.build from rfl, h1] at hb
    cases hb
    simp only [Builder.told, Told.values, sets_values]
  | update q =>
    obtain ⟨ht, ⟨hn, hv⟩, hc⟩ := h
    obtain ⟨w, hw, hu, _⟩ := C04_update_partial q _ _ (readable_group.mp hc).1 hn ht.1 (sets_known hv) (readable_valuesP hc)
    rw [show (Builder.update q).build = q.build from rfl, hu] at hb
    cases hb
    simp only [Builder.told, Told.values, sets_values, ← leaves_vals _ hc]
  | delete q =>
    obtain ⟨ht, hc⟩ := h
    have hv : q.where_.values = .ok _ := readable_valuesP hc
    have n1 : ¬ q.where_.conds.length = 0 := by simpa using (readable_group.mp hc).1
    have n2 : ¬ q.tableName.length = 0 := by simpa using ht.1
    simp only [Builder.build, DeleteB.build, n1, n2, if_false, hv, Res.bind_eq_ok] at hb
    obtain ⟨w, _, vs, h1, h2⟩ := hb
    cases h1
    cases h2
    simp only [Builder.told, Told.values, ← leaves_vals _ hc]

/-- **C83, what holds.**  Two builders over plain names, of any kinds, whose statements have the same text ask for the same: the same
statement of the same tables, columns, joins, keys and tests in the same order with equally many values, the same boolean
expression over the tests, and pages alike.  If the parameters are equal too, so are all values in their places.

Missing for the full claim: names that are no plain names, see `C83_false`. -/
theorem C83_same_text_partial (b b' : Builder) (h : b.Plain) (h' : b'.Plain) (s : Str) (ps ps' : List Val)
    (hb : b.build = .ok (s, ps)) (hb' : b'.build = .ok (s, ps')) :
    b.told.blank = b'.told.blank ∧ SameLogic b.cond b'.cond ps ps' ∧ ps.length = ps'.length ∧
      (ps = ps' ↔ b.told = b'.told) := by
  obtain ⟨s1, p1, st, h1, k⟩ := plain_known b h
  obtain ⟨s2, p2, st', h2, k'⟩ := plain_known b' h'
  rw [hb] at h1
  rw [hb'] at h2
  cases h1
  cases h2
  have hst : st = st' := by
    have := k.read.symm.trans k'.read
    simpa using this
  subst hst
  have hbl : b.told.blank = b'.told.blank := k.blank.symm.trans k'.blank
  refine ⟨hbl, ?_, ?_, ?_, ?_⟩
  · have l1 := k.logic
    have l2 := k'.logic
    revert l1 l2
    cases b.cond <;> cases b'.cond <;> cases st.exp <;> simp [LogicIs, SameLogic]
    exact fun x y => ⟨_, x, y⟩
  · rw [plain_params b h hb, plain_params b' h' hb', ← Told.blank_count, hbl, Told.blank_count]
  · rintro rfl
    exact k.told.symm.trans k'.told
  · intro e
    rw [plain_params b h hb, plain_params b' h' hb', e]

/-- Two selects of many rows with the same text: the values differ, and the rest does not. -/
example : (Builder.many exampleMany).Plain ∧ (Builder.many { exampleMany with offset := 7 }).Plain ∧
    sqlOf (Builder.many exampleMany).build = sqlOf (Builder.many { exampleMany with offset := 7 }).build ∧
    (Builder.many exampleMany).told.values.length = 5 := by
  refine ⟨⟨example_plain, ?_⟩, ⟨example_plain, ?_⟩, by decide, rfl⟩ <;>
  · intro o ho
    simp only [exampleMany, List.mem_cons, List.not_mem_nil, or_false] at ho
    subst ho
    exact ⟨by unfold KeyDef; rw [if_pos (.inl rfl)]; exact ⟨⟨by decide, by decide, by decide⟩, by decide⟩, by decide⟩

/-- **C83 is false** for names that are no plain names: the field `b` of a table called `a, t` and the two fields `a` and `t.b` give one
text. -/
theorem C83_false : ∃ f, tableNameField c!"a, t" c!"b" = .ok f ∧
    ∃ q q' : BaseSelect, q.fields.specs = [f] ∧ q'.fields.specs = [⟨c!"a", [], []⟩, ⟨c!"b", c!"t", []⟩] ∧
      q.build = .ok (c!"SELECT a, t.b FROM x", []) ∧ q'.build = .ok (c!"SELECT a, t.b FROM x", []) ∧
      (Builder.select q).told.blank ≠ (Builder.select q').told.blank :=
  ⟨⟨c!"b", c!"a, t", []⟩, by decide, ⟨0, ⟨c!"x", []⟩, [], ⟨[⟨c!"b", c!"a, t", []⟩]⟩, newWhere⟩,
    ⟨0, ⟨c!"x", []⟩, [], ⟨[⟨c!"a", [], []⟩, ⟨c!"b", c!"t", []⟩]⟩, newWhere⟩, rfl, rfl, rfl, rfl, by
      intro h
      injection h with h
      exact absurd h (by decide)⟩

end Query
