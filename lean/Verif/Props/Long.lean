import Verif.Proof.Long

/-!
# C91: the text is as long as what was written
-/

namespace Query

/-- **C91**, conditions: whatever calls made it, the text of a condition that is SQL is no longer than the room of its tests and 11 characters
for every group. -/
theorem C91_condition (c : Cond) (h : c.Readable) (k d : Nat) (hd : 0 < d) (s : Str) (vs : List Val) (hs : c.render k = .ok s)
    (hv : c.values = .ok vs) (hn : k + vs.length < 10 ^ d) : s.length ≤ roomOf d c.leaves + 11 * c.groups := by
  have hp := Cond.values_pure c vs hv
  have := text_long d hd c k h s hs (by rw [hp]; exact hn)
  omega

theorem call_readable (e : CondExp) (h : e.OK) (c : Cond) (hc : e.call = .ok c) : c.Readable := by
  have hg := CondExp.gets ⟨fun _ _ _ => .t, fun _ _ => .t, fun _ _ => .t, fun _ => true⟩ e h
  cases hm : e.made ⟨fun _ _ _ => .t, fun _ _ => .t, fun _ _ => .t, fun _ => true⟩ with
  | none =>
    rw [hm] at hg
    have hg : e.call = .panic .nilDeref := hg
    rw [hc] at hg; cases hg
  | some m =>
    rw [hm] at hg
    obtain ⟨d, h1, h2⟩ := hg
    rw [hc] at h1
    injection h1 with h1
    exact h1 ▸ h2.fine.1

/-- **C91**, calls: the text of any nesting of And, Or, Not, NewGroup, Join and WithBrackets grows with the tests and the calls, each taking
a fixed room: nothing is written twice. -/
theorem C91_calls (e : CondExp) (h : e.OK) (c : Cond) (hc : e.call = .ok c) (k d : Nat) (hd : 0 < d)
    (hn : k + (e.tests.flatMap Test.params).length < 10 ^ d) :
    ∃ s, c.render k = .ok s ∧
      s.length ≤ (e.tests.map fun t => t.col.text.length + 17 + d + (d + 2) * t.params.length).sum + 33 * e.combines := by
  obtain ⟨s, x, h1, h2, _⟩ := C77_params e h c hc k
  have hb := C91_condition c (call_readable e h c hc) k d hd s _ h1 h2 hn
  have hg := CondExp.call_groups e c hc
  rw [CondExp.call_leaves e h c hc, roomOf, List.map_map] at hb
  refine ⟨s, h1, ?_⟩
  have e1 : (Leaf.room d ∘ Test.leaf) = fun t : Test => t.col.text.length + 17 + d + (d + 2) * t.params.length := rfl
  rw [e1] at hb
  omega

theorem clause_groups : ∀ (calls : List (Bool × List CondExp)) (w r : WhereClause), clauseCalls w calls = .ok r →
    r.group.toCond.groups ≤ w.group.toCond.groups + (calls.map fun c => 3 * CondExp.combinesL c.2 + 2).sum
  | [], w, r, h => by
    simp only [clauseCalls, Res.ok.injEq] at h
    simp [h]
  | (o, es) :: cs, w, r, h => by
    simp only [clauseCalls, Res.bind_eq_ok] at h
    obtain ⟨ds, h1, h2⟩ := h
    have i1 := clause_groups cs _ r h2
    have i2 := CondExp.callL_groups es ds h1
    have i3 : (if o then w.groupOR ds else w.groupAND ds).group.toCond.groups ≤ w.group.toCond.groups + Cond.groupsL ds + 2 := by
      cases o <;> exact groups_addConditions _ _ _
    simp only [List.map_cons, List.sum_cons]
    omega

/-- **C91**, WHERE: after any chain of Where calls the clause is no longer than the tests and the calls make it; without conditions it is
empty. -/
theorem C91_where (calls : List (Bool × List CondExp)) (h : ∀ c ∈ calls, CondExp.OKL c.2) (w : WhereClause)
    (hw : clauseCalls newWhere calls = .ok w) (k d : Nat) (hd : 0 < d)
    (hn : k + ((calls.flatMap fun c => CondExp.testsL c.2).flatMap Test.params).length < 10 ^ d) :
    ∃ s, w.render k = .ok s ∧
      s.length ≤ ((calls.flatMap fun c => CondExp.testsL c.2).map fun t => t.col.text.length + 17 + d + (d + 2) * t.params.length).sum +
        (calls.map fun c => 33 * CondExp.combinesL c.2 + 22).sum + 11 := by
  let row : Row := ⟨fun _ _ _ => .t, fun _ _ => .t, fun _ _ => .t, fun _ => true⟩
  have hc := clause_calls row calls newWhere none h ⟨rfl, rfl, rfl⟩
  cases hm : clauseMade row calls with
  | none =>
    rw [hm] at hc
    have hc : clauseCalls newWhere calls = .panic .nilDeref := hc
    rw [hw] at hc; cases hc
  | some ms =>
    rw [hm] at hc
    obtain ⟨w', h1, h2⟩ := hc
    rw [hw] at h1
    injection h1 with h1
    subst h1
    cases hf : ms.foldl clauseStep none with
    | none =>
      rw [hf] at h2
      refine ⟨[], ?_, by simp⟩
      have : w.group.conds = [] := h2.1
      simp [WhereClause.render, Group.render, Group.toCond, Cond.render, this]
    | some g =>
      rw [hf] at h2
      have hr : w.group.toCond.Readable := h2.1.1
      have hl : w.group.toCond.leaves = (calls.flatMap fun c => CondExp.testsL c.2).map Test.leaf := by
        rw [clause_leaves calls newWhere w h hw]; rfl
      have hv := cond_params hr hl
      obtain ⟨hs, _⟩ := render_reads w.group.toCond k hr
      refine ⟨_, hs, ?_⟩
      have hb := C91_condition _ hr k d hd _ _ hs hv hn
      have hg := clause_groups calls newWhere w hw
      rw [hl, roomOf, List.map_map] at hb
      have e1 : (Leaf.room d ∘ Test.leaf) = fun t : Test => t.col.text.length + 17 + d + (d + 2) * t.params.length := rfl
      rw [e1] at hb
      have e2 : 11 * (calls.map fun c => 3 * CondExp.combinesL c.2 + 2).sum = (calls.map fun c => 33 * CondExp.combinesL c.2 + 22).sum := by
        clear hg hb hl hv hs hw hn hf hm h
        induction calls with
        | nil => rfl
        | cons a l ih => simp only [List.map_cons, List.sum_cons, Nat.mul_add, ih]; omega
      have e3 : newWhere.group.toCond.groups = 1 := rfl
      omega

/-- **C91**, statements: the text of a select is its head, and the clause if there is one. -/
theorem C91_select (q : BaseSelect) (sql : Str) (ps : List Val) (hb : q.build = .ok (sql, ps)) (s : Str) (hs : q.where_.render 0 = .ok s) :
    sql.length ≤ (joinWith c!" " q.headTokens).length + s.length + 7 := by
  unfold BaseSelect.build at hb
  split at hb
  · simp only [hs, Res.bind_ok, Res.bind_eq_ok, Res.ok.injEq, Prod.mk.injEq] at hb
    obtain ⟨_, _, h1, _⟩ := hb
    rw [← h1, joinWith_append_sep c!" " q.headTokens [kwWhere, s] (by simp [BaseSelect.headTokens]) (by simp)]
    simp only [joinWith, List.length_append, kwWhere, List.length_cons, List.length_nil]
    omega
  · simp only [Res.ok.injEq, Prod.mk.injEq] at hb
    rw [← hb.1]
    omega

/-- **C91**, DELETE: after any chain of Where calls, by the table, the tests and the calls. -/
theorem C91_delete (t : Str) (calls : List (Bool × List CondExp)) (h : ∀ c ∈ calls, CondExp.OKL c.2) (w : WhereClause)
    (hw : clauseCalls newWhere calls = .ok w) (d : Nat) (hd : 0 < d)
    (hn : ((calls.flatMap fun c => CondExp.testsL c.2).flatMap Test.params).length < 10 ^ d) (sql : Str) (ps : List Val)
    (hb : (DeleteB.mk doDelete t w.group).build = .ok (sql, ps)) :
    sql.length ≤ t.length + ((calls.flatMap fun c => CondExp.testsL c.2).map fun t =>
      t.col.text.length + 17 + d + (d + 2) * t.params.length).sum + (calls.map fun c => 33 * CondExp.combinesL c.2 + 22).sum + 30 := by
  obtain ⟨s, h1, h2⟩ := C91_where calls h w hw 0 d hd (by simpa using hn)
  have h1 : w.group.render 0 = .ok s := h1
  unfold DeleteB.build at hb
  split at hb
  · cases hb
  · split at hb
    · cases hb
    · simp only [h1, Res.bind_ok, Res.bind_eq_ok, Res.ok.injEq, Prod.mk.injEq] at hb
      obtain ⟨_, _, h3, _⟩ := hb
      rw [← h3]
      simp only [joinWith, List.length_append, kwDelete, kwFrom, kwWhere, List.length_cons, List.length_nil]
      omega

/-- An Or around an And around a Not: the hypotheses, the text, and the bound. -/
example : let e : CondExp := .fn true (.fn false (.not (exHas c!"a")) [exHas c!"b"]) [.method false (exHas c!"c") [exHas c!"d"]]
    e.OK ∧ e.combines = 3 ∧ (e.tests.flatMap Test.params).length < 10 ^ 1 ∧
    (e.call.bind fun c => c.render 0) = .ok c!"(a NOT LIKE $1 AND b LIKE $2) OR (c LIKE $3 AND d LIKE $4)" := by
  have oa : (exHas c!"a").OK := exHas_ok (by decide)
  have ob : (exHas c!"b").OK := exHas_ok (by decide)
  have oc : (exHas c!"c").OK := exHas_ok (by decide)
  have od : (exHas c!"d").OK := exHas_ok (by decide)
  exact ⟨⟨⟨oa, ob, trivial⟩, ⟨oc, od, trivial⟩, trivial⟩, rfl, by decide, rfl⟩

/-- The room of a group is not too large: a negated group in brackets after AND takes all of it but for what its tests leave. -/
example : ∃ c : Cond, c.groups = 1 ∧ c.render 0 = .ok c!"NOT (a NOT ILIKE $1)" ∧ roomOf 1 c.leaves + 11 * c.groups = 33 :=
  ⟨.group ⟨lAND, true⟩ [.fieldc .ilike ⟨lAND, true⟩ ⟨⟨c!"a", [], []⟩, .str c!"z"⟩] true, rfl, rfl, rfl⟩

/-- A clause of three calls. -/
example : clauseCalls newWhere exClause ≠ .panic .nilDeref ∧ (exClause.map fun c => 33 * CondExp.combinesL c.2 + 22).sum = 99 := by
  refine ⟨fun h => ?_, rfl⟩
  cases h

/-- The DELETE with this clause. -/
example : ∃ w, clauseCalls newWhere exClause = .ok w ∧ ((DeleteB.mk doDelete c!"t" w.group).build.bind fun r => .ok r.1) =
    .ok c!"DELETE FROM t WHERE (a LIKE $1 OR b LIKE $2) AND (c LIKE $3 OR d LIKE $4)" := ⟨_, rfl, rfl⟩

/-- **C91**, question marks: the text with question marks is no longer than the one with numbers, whatever the values and the names. -/
theorem C91_question_marks (c : Cond) (h : c.Every LibraryNode) (n : Nat) (s : Str) (hs : c.render n = .ok s) :
    ∃ t, c.renderSQL = .ok t ∧ t.length ≤ s.length := marks_long c n h s hs

example : exampleCond.Every LibraryNode ∧ exampleCond.render 0 = .ok c!"NOT (a=$1 OR t.b IN ($2,$3) AND c IS NULL)" ∧
    exampleCond.renderSQL = .ok c!"NOT (a=? OR t.b IN (?,?) AND c IS NULL)" :=
  ⟨⟨trivial, trivial, trivial, trivial, trivial⟩, by decide, by decide⟩

end Query
