import Verif.Spec.Written
import Verif.Props.KindProgram
import Verif.Props.Moved
/-!
# C86: what was written is read

Statements that a program makes through its selects, run one after another.
-/
namespace Query

/-! ## Conditions look at their columns only -/

/-- Two rows say the same of a column. -/
structure SameAt (row row' : Row) (w : Str) : Prop where
  cmp : ∀ op v, row.cmp op w v = row'.cmp op w v
  like : ∀ v, row.like w v = row'.like w v
  ilike : ∀ v, row.ilike w v = row'.ilike w v
  isNull : row.isNull w = row'.isNull w

theorem says_local {row row' : Row} {t : Test} (h : SameAt row row' t.col.text) : t.says row = t.says row' := by
  cases t with
  | cmp op c v w => exact h.cmp _ _
  | isIn c v ws =>
    have e : (fun w => row.cmp c!"=" c.text w) = fun w => row'.cmp c!"=" c.text w := funext fun w => h.cmp _ _
    show anyOf (ws.map fun w => row.cmp c!"=" c.text w) = anyOf (ws.map fun w => row'.cmp c!"=" c.text w)
    rw [e]
  | has c s => exact h.like _
  | ihas c s => exact h.ilike _
  | null c =>
    show Tri.ofBool (row.isNull c.text) = Tri.ofBool (row'.isNull c.text)
    rw [show row.isNull c.text = row'.isNull c.text from h.isNull]

namespace CondExp

mutual
theorem made_local {row row' : Row} : ∀ e : CondExp, (∀ t ∈ e.tests, SameAt row row' t.col.text) → e.made row = e.made row'
  | .test t, h => by
    unfold made
    rw [says_local (h t (by simp [tests]))]
  | .not e, h => by unfold made; rw [made_local e h]
  | .unnot e, h => by unfold made; rw [made_local e h]
  | .fn _ e es, h => by
    unfold made
    rw [made_local e fun t ht => h t (by simp [tests, ht]), madeL_local es fun t ht => h t (by simp [tests, ht])]
  | .method _ e es, h => by
    unfold made
    rw [made_local e fun t ht => h t (by simp [tests, ht]), madeL_local es fun t ht => h t (by simp [tests, ht])]
  | .group _ es, h => by unfold made; rw [madeL_local es h]
  | .joinAll _ es, h => by unfold made; rw [madeL_local es h]
  | .join _ e, h => by unfold made; rw [made_local e h]
  | .brackets e, h => by unfold made; rw [made_local e h]
theorem madeL_local {row row' : Row} : ∀ es : List CondExp, (∀ t ∈ testsL es, SameAt row row' t.col.text) → madeL row es = madeL row' es
  | [], _ => rfl
  | e :: es, h => by
    unfold madeL
    rw [made_local e fun t ht => h t (by simp [testsL, ht]), madeL_local es fun t ht => h t (by simp [testsL, ht])]
end

end CondExp

/-- The text of Where calls says the same of rows that say the same of the columns of the tests. -/
theorem wheresText_local {row row' : Row} {w : List (List CondExp)} (h : ∀ t ∈ CondExp.testsL w.flatten, SameAt row row' t.col.text) :
    wheresText w row = wheresText w row' := by
  have : wheresMade row w = wheresMade row' w := by
    unfold wheresMade
    induction w with
    | nil => rfl
    | cons es w ih =>
      simp only [List.map_cons, clauseMade]
      rw [CondExp.madeL_local es fun t ht => h t ?_, ih fun t ht => h t ?_]
      · rw [testsL_flatMap] at ht ⊢
        simp only [List.flatten_cons, List.flatMap_append, List.mem_append]
        exact .inr ht
      · rw [testsL_flatMap] at ht ⊢
        simp only [List.flatten_cons, List.flatMap_append, List.mem_append]
        exact .inl ht
  unfold wheresText
  rw [this]

theorem sameAt_get {eng : Engine} {env env' : Env} {w : Str} (h : env.get (colRef w) = env'.get (colRef w)) :
    SameAt (eng.row env) (eng.row env') w := by
  constructor
  · intro op v; simp only [Engine.row, h]
  · intro v; simp only [Engine.row, h]
  · intro v; simp only [Engine.row, h]
  · simp only [Engine.row, h]

/-- A column known in the table alone is that of the row of the table, whatever is joined to it. -/
theorem get_own {name qual : Str} {cols : List Str} {r : Rec} {rest : Env} {c : ColRef} (h : Scope.has [(name, cols)] c = true)
    (hq : qual = name ∨ c.table = none) : Env.get (⟨qual, cols, r⟩ :: rest) c = r c.name := by
  unfold Scope.has at h
  unfold Env.get
  cases e : c.table with
  | none =>
    rw [e] at h
    have hc : cols.contains c.name = true := by
      by_cases hc : cols.contains c.name = true
      · exact hc
      · rw [List.filter_cons_of_neg (by simpa using hc)] at h
        cases h
    simp only [List.find?_cons, hc, Option.bind_some]
  | some t =>
    rw [e] at h
    simp only [List.any_cons, List.any_nil, Bool.or_false, Bool.and_eq_true, beq_iff_eq] at h
    rcases hq with rfl | hq
    · have : (qual == t) = true := by simp [h.1]
      simp only [List.find?_cons, this, Option.bind_some]
    · rw [e] at hq; cases hq

/-- A row of the table, or one of the tables joined to it. -/
def OwnRow (db : Db) (t : TabRef) (env : Env) : Prop := ∃ r ∈ (db t.name).rows, ∃ rest, env = ⟨t.qual, (db t.name).cols, r⟩ :: rest

theorem own_join (eng : Engine) (db : Db) (t : TabRef) : ∀ (js : List JoinRef) (null : Env) (ls : List Env), ownRows js →
    (∀ env ∈ ls, OwnRow db t env) → ∀ env ∈ joinRows eng db js null ls, OwnRow db t env
  | [], _, _, _, h => h
  | j :: js, null, ls, hj, h => by
    refine own_join eng db t js _ _ (fun k hk => hj k (.tail _ hk)) ?_
    have hr : ¬ (j.kind = c!"RIGHT" ∨ j.kind = c!"FULL") := by
      have := hj j (.head _)
      exact fun H => H.elim this.1 this.2
    intro env he
    unfold JoinRef.rows at he
    simp only [if_neg hr, List.append_nil, List.mem_flatMap] at he
    obtain ⟨l, hl, he⟩ := he
    have ext : ∀ r, OwnRow db t (l ++ [r]) := by
      intro s
      obtain ⟨r, h1, rest, h2⟩ := h l hl
      exact ⟨r, h1, rest ++ [s], by rw [h2]; rfl⟩
    split at he
    · simp only [List.mem_singleton] at he
      exact he ▸ ext _
    · obtain ⟨h1, _⟩ := List.mem_filter.mp he
      obtain ⟨s, _, rfl⟩ := List.mem_map.mp h1
      exact ext s

theorem own_from (eng : Engine) (db : Db) (t : TabRef) (js : List JoinRef) (hj : ownRows js) :
    ∀ env ∈ fromRows eng db t js, OwnRow db t env := by
  refine own_join eng db t js _ _ hj ?_
  intro env he
  simp only [TabRef.srcs, List.map_map, List.mem_map, Function.comp] at he
  obtain ⟨r, hr, rfl⟩ := he
  exact ⟨r, hr, [], rfl⟩

/-! ## DELETE -/

theorem testsOf_said {p : KindProg} (h : p.OK) : testsOf p.said.flat.clauses = p.tests := by
  rw [← eff_clauses, nselect_clauses (eff_ok h), testsOf_clauses, eff_wheres_eq, flatMap_testsL, KindProg.tests, testsL_flatMap]

theorem kind_tests_ok {p : KindProg} (h : p.OK) : ∀ t ∈ p.tests, t.OK := by
  have hw := eff_wheres_eq p ▸ nselect_wheres (eff_ok h)
  intro t ht
  rw [KindProg.tests, testsL_flatMap, ← flatMap_testsL] at ht
  obtain ⟨es, he, ht⟩ := List.mem_flatMap.mp ht
  exact CondExp.testsL_ok es (hw es he) t ht

theorem test_col_ok {t : Test} (h : t.OK) : t.col.OK := by
  cases t with
  | cmp op c v w => exact h.1
  | isIn c v ws => exact h.1
  | has c s => exact h
  | ihas c s => exact h
  | null c => exact h

/-- What a select says of a row is what a statement on its table says of it. -/
theorem says_own {eng : Engine} {p : KindProg} (h : p.OK) (hb : p.Bare) {cols : List Str} (hk : ∀ t ∈ p.tests, Scope.has [(p.table.name, cols)] t.col = true)
    (r : Rec) (rest : Env) :
    wheresText p.wheres (eng.row (⟨p.table.qual, cols, r⟩ :: rest)) = wheresText p.wheres (eng.row [⟨p.table.name, cols, r⟩]) := by
  refine wheresText_local fun t ht => sameAt_get ?_
  have hc := colRef_text (test_col_ok (kind_tests_ok h t ht))
  rw [hc, get_own (hk t ht) (.inl rfl)]
  refine get_own (hk t ht) ?_
  rcases hb with hb | hb
  · exact .inl (by simp [TabRef.qual, hb])
  · exact .inr (hb t ht)

theorem sort_none (eng : Engine) (ks : List (ColRef × Str)) : sortRows eng ks [] = [] := rfl

theorem filter_split {α : Type} (f : α → Bool) (l : List α) : (l.filter fun x => !f x).length + (l.filter f).length = l.length := by
  induction l with
  | nil => rfl
  | cons a l ih => cases h : f a <;> simp [List.filter_cons, h] <;> omega

theorem filter_mono {α : Type} {f g : α → Bool} {l : List α} (h : ∀ x ∈ l, f x = true → g x = true) :
    (l.filter f).length ≤ (l.filter g).length := by
  induction l with
  | nil => exact Nat.le_refl _
  | cons a l ih =>
    have ih := ih fun x hx => h x (.tail _ hx)
    have ha := h a (.head _)
    cases hf : f a <;> cases hg : g a <;> simp_all [List.filter_cons] <;> omega

/-- A select over one table can be counted if a statement on the table knows its columns. -/
theorem known_bare {db : Db} {p : KindProg} (h : p.OK) (hb : p.Bare) (hj : p.said.flat.joins = [])
    (hk : ∀ t ∈ p.tests, Scope.has [(p.table.name, (db p.table.name).cols)] t.col = true) :
    (fromOK db p.table p.said.flat.joins && knownIn (p.said.flat.scope db) p.said.flat.clauses) = true := by
  rw [Bool.and_eq_true]
  refine ⟨by rw [hj]; simp [fromOK, fromScope], ?_⟩
  unfold knownIn
  rw [testsOf_said h, List.all_eq_true]
  intro t ht
  unfold SelectProg.scope
  rw [hj]
  have := hk t ht
  show Scope.has [(p.table.qual, (db p.table.name).cols)] t.col = true
  rcases hb with hb | hb
  · simpa [TabRef.qual, hb] using this
  · unfold Scope.has at this ⊢
    rw [hb t ht] at this ⊢
    simp only at this ⊢
    by_cases hc : (db p.table.name).cols.contains t.col.name = true
    · rw [List.filter_cons_of_pos (by simpa using hc)]; rfl
    · rw [List.filter_cons_of_neg (by simpa using hc)] at this
      cases this

/-- The rows a select over one table counts are those a statement on the table touches. -/
theorem rows_bare {eng : Engine} {db : Db} {p : KindProg} (h : p.OK) (hb : p.Bare)
    (hk : ∀ t ∈ p.tests, Scope.has [(p.table.name, (db p.table.name).cols)] t.col = true) :
    ((fromRows eng db p.table []).filter fun env => wheresText p.wheres (eng.row env) == .t).length =
      ((db p.table.name).rows.filter fun r => wheresText p.wheres (eng.row ((db p.table.name).env p.table.name r)) == .t).length := by
  have e : (fromRows eng db p.table []) = (db p.table.name).rows.map fun r => [⟨p.table.qual, (db p.table.name).cols, r⟩] := by
    simp [fromRows, joinRows, TabRef.srcs]
  rw [e, List.filter_map, List.length_map]
  have e2 : ((fun env => wheresText p.wheres (eng.row env) == Tri.t) ∘ fun r => ([⟨p.table.qual, (db p.table.name).cols, r⟩] : Env)) =
      fun r => wheresText p.wheres (eng.row ((db p.table.name).env p.table.name r)) == Tri.t := by
    funext r
    simp only [Function.comp]
    rw [says_own h hb hk r []]
    rfl
  rw [e2]

/-- The DELETE of a select, as a program. -/
def KindProg.gone (p : KindProg) : NDeleteProg := ⟨p.table.name, p.wheres⟩

theorem gone_clauses (p : KindProg) : testsOf p.gone.flat.clauses = p.tests := by
  have e : p.gone.flat.clauses = testClauses (p.wheres.flatMap CondExp.testsL) := testClauses_flatten p.wheres
  rw [e, testsOf_clauses, flatMap_testsL, KindProg.tests, testsL_flatMap]

/-- What `Delete()` of a select does. -/
theorem delete_of_select (p : KindProg) (h : p.OK) (hw : p.wheres.flatten ≠ []) (hs : wheresSound p.wheres = true) {b : SelB} (hr : p.run = .ok b) :
    ∃ sql params, b.delete.build = .ok (sql, params) ∧
      ∀ eng db, runStmt eng db sql params = p.gone.flat.effectBy (wheresText p.wheres) eng db := by
  have hok := eff_wheres_eq p ▸ nselect_wheres (eff_ok h)
  have e := C81_delete p h []
  rw [hr, List.append_nil] at e
  simp only [Res.bind_ok, NDeleteProg.runAll] at e
  have H := fun eng db => C78_delete_exact eng db p.gone ⟨h.table.1, hok, hw⟩
  have hs' : wheresSound p.gone.wheres = true := hs
  simp only [if_pos hs'] at H
  have e : p.gone.run = .ok b.delete := e.symm
  simp only [e, Res.ok.injEq] at H
  obtain ⟨q, sql, x, h1, h2, _⟩ := H ⟨fun _ _ _ => .t, fun _ _ => .t, fun _ _ => .t, fun _ _ => true⟩ fun _ => ⟨[], fun _ => none, []⟩
  refine ⟨sql, _, h1 ▸ h2, fun eng db => ?_⟩
  obtain ⟨q', sql', x', h1', h2', _, _, h3'⟩ := H eng db
  rw [← h1', h1, h2] at h2'
  cases h2'
  exact h3'

/-- **C86**, DELETE: run the `Delete()` of a select of any kind, made by any program, with any conditions; if the database does it, the
same select finds no row then and counts none; the table has lost only rows, as many as the select counted if it is over one table; and
no other table has changed. -/
theorem C86_delete (eng : Engine) (db : Db) (p : KindProg) (h : p.OK) (hb : p.Bare) (hj : ownRows p.said.flat.joins)
    (hw : p.wheres.flatten ≠ []) (hs : wheresSound p.wheres = true) :
    ∃ b c sd pd ss ps sc pc, p.run = .ok b ∧ b.delete.build = .ok (sd, pd) ∧ b.build = .ok (ss, ps) ∧ b.count = .ok c ∧
      c.build = .ok (sc, pc) ∧
      ∀ db', runStmt eng db sd pd = some db' →
        (∀ rows, runQuery eng db' ss ps = some rows → rows = []) ∧
        (∀ rows, runQuery eng db' sc pc = some rows → rows = counted 0) ∧
        (db' p.table.name).rows.Sublist (db p.table.name).rows ∧
        (p.said.flat.joins = [] → ∃ n, runQuery eng db sc pc = some (counted n) ∧ runQuery eng db' sc pc = some (counted 0) ∧
          (db' p.table.name).rows.length + n = (db p.table.name).rows.length) ∧
        ∀ u, u ≠ p.table.name → db' u = db u := by
  have R := fun db => C81_rows_exact eng db p h
  have Q := fun db => C81_count_exact eng db p h
  simp only [if_pos hs] at R Q
  obtain ⟨b, ss, ps, h1, h2, _⟩ := R db
  obtain ⟨b', c, sc, pc, h1', h3, h4, _⟩ := Q db
  rw [h1] at h1'
  cases h1'
  obtain ⟨sd, pd, h5, h6⟩ := delete_of_select p h hw hs h1
  refine ⟨b, c, sd, pd, ss, ps, sc, pc, h1, h5, h2, h3, h4, ?_⟩
  have R : ∀ db, runQuery eng db ss ps = if p.eff.flat.known db then some (p.rowsBy (wheresText p.wheres) eng db) else none := by
    intro db
    obtain ⟨b', ss', ps', e1, e2, _, e3⟩ := R db
    rw [h1] at e1; cases e1
    rw [h2] at e2; cases e2
    exact e3
  have Q : ∀ db, runQuery eng db sc pc =
      if fromOK db p.table p.said.flat.joins && knownIn (p.said.flat.scope db) p.said.flat.clauses then
        some (counted ((fromRows eng db p.table p.said.flat.joins).filter fun env => wheresText p.wheres (eng.row env) == .t).length)
      else none := by
    intro db
    obtain ⟨b', c', sc', pc', e1, e2, e3, _, e4⟩ := Q db
    rw [h1] at e1; cases e1
    rw [h3] at e2; cases e2
    rw [h4] at e3; cases e3
    exact e4
  intro db' hd
  rw [h6] at hd
  unfold DeleteProg.effectBy at hd
  simp only at hd
  split at hd
  · rename_i hk
    have hk : ∀ t ∈ p.tests, Scope.has [(p.table.name, (db p.table.name).cols)] t.col = true := by
      unfold knownIn at hk
      rw [gone_clauses, List.all_eq_true] at hk
      exact hk
    cases hd
    have ht : (db.set p.table.name ((db p.table.name).withRows ((db p.table.name).rows.filter fun r =>
        !(wheresText p.wheres (eng.row ((db p.table.name).env p.table.name r)) == .t)))) p.table.name =
        (db p.table.name).withRows ((db p.table.name).rows.filter fun r =>
        !(wheresText p.wheres (eng.row ((db p.table.name).env p.table.name r)) == .t)) := if_pos rfl
    have hnone : ∀ env ∈ fromRows eng (db.set p.table.name ((db p.table.name).withRows ((db p.table.name).rows.filter fun r =>
        !(wheresText p.wheres (eng.row ((db p.table.name).env p.table.name r)) == .t)))) p.table p.said.flat.joins,
        ¬ (wheresText p.wheres (eng.row env) == .t) = true := by
      intro env he
      obtain ⟨r, hr, rest, e⟩ := own_from eng _ p.table _ hj env he
      rw [ht] at hr e
      rw [e]
      show ¬ (wheresText p.wheres (eng.row (⟨p.table.qual, (db p.table.name).cols, r⟩ :: rest)) == .t) = true
      rw [says_own h hb hk]
      have := (List.mem_filter.mp hr).2
      intro H
      rw [show wheresText p.wheres (eng.row ((db p.table.name).env p.table.name r)) = _ from rfl] at this
      simp only [Tab.env, H] at this
      cases this
    have hempty := List.filter_eq_nil_iff.mpr hnone
    refine ⟨?_, ?_, ?_, ?_, ?_⟩
    · intro rows hrows
      rw [show p.gone.flat.table = p.table.name from rfl] at hrows
      rw [R] at hrows
      split at hrows
      · cases hrows
        have e : p.eff.flat.rowsBy (wheresText p.wheres) eng (db.set p.table.name ((db p.table.name).withRows
            ((db p.table.name).rows.filter fun r => !(wheresText p.wheres (eng.row ((db p.table.name).env p.table.name r)) == .t)))) = [] := by
          unfold SelectProg.rowsBy
          rw [eff_joins, show p.eff.flat.table = p.table from rfl]
          simp only [hempty]
          rw [sort_none, List.drop_nil, List.take_nil]
          split <;> rfl
        unfold KindProg.rowsBy
        split <;> simp [e]
      · cases hrows
    · intro rows hrows
      rw [show p.gone.flat.table = p.table.name from rfl] at hrows
      rw [Q] at hrows
      split at hrows
      · cases hrows
        simp only [hempty, List.length_nil]
      · cases hrows
    · rw [show p.gone.flat.table = p.table.name from rfl, ht]
      exact List.filter_sublist
    · intro hj0
      have hkn : ∀ db₁ : Db, (db₁ p.table.name).cols = (db p.table.name).cols →
          (fromOK db₁ p.table p.said.flat.joins && knownIn (p.said.flat.scope db₁) p.said.flat.clauses) = true :=
        fun db₁ hc => known_bare h hb hj0 (by rw [hc]; exact hk)
      refine ⟨_, by rw [Q, hkn db rfl]; rfl, ?_, ?_⟩
      · rw [Q, hkn _ (by rw [show p.gone.flat.table = p.table.name from rfl, ht]; rfl)]
        simp only [show p.gone.flat.table = p.table.name from rfl, hempty, List.length_nil, if_true]
      · rw [show p.gone.flat.table = p.table.name from rfl, ht, hj0, rows_bare h hb hk]
        simp only [Tab.withRows]
        exact filter_split _ _
    · intro u hu
      exact if_neg hu
  · cases hd

/-! ## Counting over one table -/

/-- What `Count()` of a select over one table gives in every database that knows its columns. -/
theorem count_of_select (p : KindProg) (h : p.OK) (hb : p.Bare) (hj : p.said.flat.joins = []) (hs : wheresSound p.wheres = true)
    {b : SelB} (hr : p.run = .ok b) :
    ∃ c sql params, b.count = .ok c ∧ c.build = .ok (sql, params) ∧
      ∀ eng (db : Db), (∀ t ∈ p.tests, Scope.has [(p.table.name, (db p.table.name).cols)] t.col = true) →
        runQuery eng db sql params = some (counted ((db p.table.name).rows.filter fun r =>
          wheresText p.wheres (eng.row ((db p.table.name).env p.table.name r)) == .t).length) := by
  have Q := fun eng db => C81_count_exact eng db p h
  simp only [if_pos hs] at Q
  obtain ⟨b', c, sql, params, h1, h2, h3, _⟩ := Q ⟨fun _ _ _ => .t, fun _ _ => .t, fun _ _ => .t, fun _ _ => true⟩ fun _ => ⟨[], fun _ => none, []⟩
  rw [hr] at h1; cases h1
  refine ⟨c, sql, params, h2, h3, fun eng db hk => ?_⟩
  obtain ⟨b', c', sql', params', e1, e2, e3, _, e4⟩ := Q eng db
  rw [hr] at e1; cases e1
  rw [h2] at e2; cases e2
  rw [h3] at e3; cases e3
  rw [e4, known_bare h hb hj hk, if_pos rfl, hj, rows_bare h hb hk]
  rfl

/-! ## Asking for values -/

theorem holding_ok {sets : List SetTo} (h : ∀ s ∈ sets, s.OK) : CondExp.OKL (holding sets) := by
  rw [okL_iff]
  intro e he
  obtain ⟨s, hs, rfl⟩ := List.mem_map.mp he
  exact ⟨⟨(h s hs).name, fun t ht => by cases ht⟩, (h s hs).value⟩

theorem readBack_ok {k : SelKind} {t : Str} {sets : List SetTo} (ht : Ident t) (h : ∀ s ∈ sets, s.OK) : (readBack k t sets).OK := by
  refine ⟨⟨ht, fun a ha => by cases ha⟩, ?_, ?_⟩
  · intro c hc
    rw [List.mem_singleton.mp hc]
    exact holding_ok h
  · exact ⟨fun H => (by cases H.2), trivial⟩

theorem readBack_wheres (k : SelKind) (t : Str) (sets : List SetTo) : (readBack k t sets).wheres = [holding sets] := rfl

theorem readBack_joins (k : SelKind) (t : Str) (sets : List SetTo) : (readBack k t sets).said.flat.joins = [] := rfl

theorem readBack_tests (k : SelKind) (t : Str) (sets : List SetTo) :
    (readBack k t sets).tests = sets.map fun s => .cmp .eq ⟨none, s.name⟩ s.value s.param := by
  rw [KindProg.tests, readBack_wheres, testsL_flatMap]
  simp only [List.flatten_cons, List.flatten_nil, List.append_nil, holding]
  induction sets with
  | nil => rfl
  | cons s sets ih => rw [List.map_cons, List.map_cons, List.flatMap_cons, ih]; rfl

theorem readBack_text {k : SelKind} {t : Str} {sets : List SetTo} (h : ∀ s ∈ sets, s.OK) :
    wheresSound (readBack k t sets).wheres = true ∧
    wheresText (readBack k t sets).wheres = fun row => allOf (sets.map fun s => row.cmp c!"=" s.name s.param) := by
  rw [readBack_wheres]
  obtain ⟨h1, h2⟩ := wheres_clear [holding sets] (by
    intro es he
    rw [List.mem_singleton.mp he]
    exact holding_ok h) (literals_clear someRow [holding sets] none (by simp) (by
    intro e he
    simp only [List.flatten_cons, List.flatten_nil, List.append_nil] at he
    obtain ⟨s, _, rfl⟩ := List.mem_map.mp he
    rfl))
  refine ⟨h1, h2.trans ?_⟩
  funext row
  unfold wheresMean
  rw [meansL_map]
  simp only [List.flatten_cons, List.flatten_nil, List.append_nil, holding, List.map_map]
  rfl

theorem allOf_all_t {l : List Tri} (h : ∀ x ∈ l, x = .t) : allOf l = .t := by
  induction l with
  | nil => rfl
  | cons a l ih =>
    simp only [allOf, List.foldr_cons] at ih ⊢
    rw [h a (.head _), ih fun x hx => h x (.tail _ hx)]
    rfl

theorem has_bare {t n : Str} {cols : List Str} (h : n ∈ cols) : Scope.has [(t, cols)] ⟨none, n⟩ = true := by
  show ((List.filter (fun s : Str × List Str => s.2.contains n) [(t, cols)]).length == 1) = true
  rw [List.filter_cons_of_pos (by simpa using h)]
  rfl

/-- A row with the values in its columns is found by asking for them. -/
theorem found_holding {eng : Engine} {tab : Tab} {t : Str} {sets : List SetTo} (h : ∀ s ∈ sets, s.OK) (he : selfEqual eng sets)
    (hc : ∀ s ∈ sets, s.name ∈ tab.cols) {r : Rec} (hr : ∀ s ∈ sets, r s.name = cellOf s.param) :
    allOf (sets.map fun s => (eng.row (tab.env t r)).cmp c!"=" s.name s.param) = .t := by
  refine allOf_all_t fun x hx => ?_
  obtain ⟨s, hs, rfl⟩ := List.mem_map.mp hx
  have h1 : colRef s.name = ⟨none, s.name⟩ := colRef_text (c := ⟨none, s.name⟩) ⟨(h s hs).name, fun t ht => by cases ht⟩
  have h2 : (tab.env t r).get ⟨none, s.name⟩ = r s.name := get_own (has_bare (t := t) (hc s hs)) (.inl rfl)
  have h3 : cellOf s.param = some s.param := by
    have := (he s hs).1
    cases e : s.param <;> first
      | rfl
      | exact absurd e this
  simp only [Engine.row, h1, h2, hr s hs, h3]
  exact (he s hs).2

theorem assign_sets {sets : List SetTo} (hn : (sets.map (·.name)).Nodup) (r : Rec) :
    (∀ s ∈ sets, assign (sets.map fun s => (s.name, cellOf s.param)) r s.name = cellOf s.param) ∧
    ∀ u, u ∉ sets.map (·.name) → assign (sets.map fun s => (s.name, cellOf s.param)) r u = r u := by
  have e : (sets.map fun s => (s.name, cellOf s.param)).map (·.1) = sets.map (·.name) := by rw [List.map_map]; rfl
  refine ⟨fun s hs => ?_, fun u hu => ?_⟩
  · exact assign_at s.name (cellOf s.param) _ r (by rw [e]; exact hn) (List.mem_map.mpr ⟨s, hs, rfl⟩)
  · exact assign_skip u _ r (by rw [e]; exact hu)

/-! ## INSERT -/

/-- **C86**, INSERT: if the database does it, the table has one row more, at the end, with the values in their columns and defaults in
the others; asking for the values, with a select of any kind, counts one row more than before; no other table has changed. -/
theorem C86_insert (eng : Engine) (db : Db) (i : InsertProg) (h : i.OK) (k : SelKind) :
    ∃ q si pi b c sc pc, i.run = .ok q ∧ q.build = .ok (si, pi) ∧ (readBack k i.table i.sets).run = .ok b ∧ b.count = .ok c ∧
      c.build = .ok (sc, pc) ∧
      ∀ db', runStmt eng db si pi = some db' →
        (∃ r, (db' i.table).rows = (db i.table).rows ++ [r] ∧ (∀ s ∈ i.sets, r s.name = cellOf s.param) ∧
          ∀ u, u ∉ i.sets.map (·.name) → r u = (db i.table).dflt u) ∧
        (selfEqual eng i.sets → ∃ n, runQuery eng db sc pc = some (counted n) ∧ runQuery eng db' sc pc = some (counted (n + 1))) ∧
        ∀ u, u ≠ i.table → db' u = db u := by
  obtain ⟨q, si, _, h1, h2, _, _, h3⟩ := C67_insert eng db i h
  have hok : (readBack k i.table i.sets).OK := readBack_ok h.table h.sets
  obtain ⟨hsnd, htext⟩ := readBack_text (k := k) (t := i.table) h.sets
  have hrun := C81_rows_exact eng db _ hok
  rw [if_pos hsnd] at hrun
  obtain ⟨b, _, _, h4, _⟩ := hrun
  obtain ⟨c, sc, pc, h5, h6, h7⟩ := count_of_select _ hok (.inl rfl) (readBack_joins _ _ _) hsnd h4
  refine ⟨q, si, _, b, c, sc, pc, h1, h2, h4, h5, h6, ?_⟩
  intro db' hd
  rw [h3] at hd
  unfold InsertProg.effect at hd
  simp only at hd
  split at hd
  · rename_i hk
    cases hd
    obtain ⟨a1, a2⟩ := assign_sets hk.1 (db i.table).dflt
    have ht : ∀ tab, (db.set i.table tab) i.table = tab := fun tab => if_pos rfl
    refine ⟨⟨_, by rw [ht]; rfl, a1, a2⟩, ?_, fun u hu => if_neg hu⟩
    intro he
    have hk' : ∀ cols, (∀ s ∈ i.sets, s.name ∈ cols) → ∀ t ∈ (readBack k i.table i.sets).tests, Scope.has [(i.table, cols)] t.col = true := by
      intro cols hc t ht
      rw [readBack_tests] at ht
      obtain ⟨s, hs, rfl⟩ := List.mem_map.mp ht
      exact has_bare (hc s hs)
    refine ⟨_, h7 eng db (hk' _ hk.2), ?_⟩
    rw [h7 eng _ (hk' _ (by
      show ∀ s ∈ i.sets, s.name ∈ ((db.set i.table _) i.table).cols
      rw [ht]
      exact hk.2))]
    show some (counted (((db.set i.table _) i.table).rows.filter fun r =>
      wheresText (readBack k i.table i.sets).wheres (eng.row (((db.set i.table _) i.table).env i.table r)) == .t).length) = _
    rw [ht, htext]
    simp only [Tab.withRows, List.filter_append]
    have hf := found_holding (t := i.table) h.sets he hk.2 a1
    congr 2
    rw [List.length_append]
    congr 1
    rw [List.filter_cons_of_pos]
    · rfl
    · show (allOf (i.sets.map fun s => (eng.row ((db i.table).env i.table _)).cmp c!"=" s.name s.param) == Tri.t) = true
      rw [hf]
      rfl
  · cases hd

/-! ## UPDATE -/

/-- The UPDATE of a select, as a program. -/
def KindProg.changed (p : KindProg) (sets : List SetTo) : NUpdateProg := ⟨p.table.name, p.wheres.map NUCall.addWhere ++ [.set sets]⟩

theorem changed_wheres (p : KindProg) (sets : List SetTo) : (p.changed sets).wheres = p.wheres := by
  unfold KindProg.changed NUpdateProg.wheres
  rw [List.filterMap_append, List.filterMap_map]
  simp only [NUCall.where?, List.filterMap_cons, List.filterMap_nil, List.append_nil]
  exact List.filterMap_some

theorem changed_sets (p : KindProg) (sets : List SetTo) : (p.changed sets).flat.sets = sets := by
  unfold KindProg.changed NUpdateProg.flat UpdateProg.sets
  rw [List.map_append, List.filterMap_append]
  have : ((p.wheres.map NUCall.addWhere).map NUCall.flat).filterMap UCall.set? = [] := by
    rw [List.filterMap_eq_nil_iff]
    intro c hc
    simp only [List.mem_map] at hc
    obtain ⟨_, ⟨es, _, rfl⟩, rfl⟩ := hc
    rfl
  rw [this]
  simp [NUCall.flat, UCall.set?]

theorem changed_tests (p : KindProg) (sets : List SetTo) : testsOf (p.changed sets).flat.clauses = p.tests := by
  rw [nupdate_clauses, testsOf_clauses, changed_wheres, flatMap_testsL, KindProg.tests, testsL_flatMap]

/-- What `Update(values…)` of a select does. -/
theorem update_of_select (p : KindProg) (h : p.OK) (sets : List SetTo) (hset : ∀ s ∈ sets, s.OK) (hn : sets ≠ [])
    (hw : p.wheres.flatten ≠ []) (hs : wheresSound p.wheres = true) {b : SelB} (hr : p.run = .ok b) :
    ∃ vs sql params, Res.mapL SetTo.call sets = .ok vs ∧ (b.update vs).build = .ok (sql, params) ∧
      ∀ eng db, runStmt eng db sql params = (p.changed sets).flat.effectBy (wheresText p.wheres) eng db := by
  have hok := eff_wheres_eq p ▸ nselect_wheres (eff_ok h)
  have e := C81_update p h sets hset [] (by simp)
  rw [hr] at e
  simp only [Res.bind_ok, NUCall.runAll] at e
  have hOK : (p.changed sets).OK := by
    refine ⟨h.table.1, ?_, ?_, ?_⟩
    · intro c hc
      rcases List.mem_append.mp hc with hc | hc
      · obtain ⟨es, he, rfl⟩ := List.mem_map.mp hc
        exact hok es he
      · rw [List.mem_singleton.mp hc]
        exact hset
    · rw [changed_sets]; exact hn
    · rw [changed_wheres]; exact hw
  have H := fun eng db => C78_update_exact eng db (p.changed sets) hOK
  rw [changed_wheres] at H
  simp only [if_pos hs] at H
  have e : ((Res.mapL SetTo.call sets).bind fun vs => Res.ok (b.update vs)) = (p.changed sets).run := e
  cases hm : Res.mapL SetTo.call sets with
  | ok vs =>
    rw [hm] at e
    simp only [Res.bind_ok] at e
    simp only [← e, Res.ok.injEq] at H
    obtain ⟨q, sql, ss, x, h1, h2, _⟩ := H ⟨fun _ _ _ => .t, fun _ _ => .t, fun _ _ => .t, fun _ _ => true⟩ fun _ => ⟨[], fun _ => none, []⟩
    refine ⟨vs, sql, _, rfl, h1 ▸ h2, fun eng db => ?_⟩
    obtain ⟨q', sql', ss', x', h1', h2', _, _, _, h3'⟩ := H eng db
    rw [← h1', h1, h2] at h2'
    cases h2'
    exact h3'
  | err x =>
    rw [hm] at e
    obtain ⟨q, _, _, _, h1, _⟩ := H ⟨fun _ _ _ => .t, fun _ _ => .t, fun _ _ => .t, fun _ _ => true⟩ fun _ => ⟨[], fun _ => none, []⟩
    rw [← e] at h1
    cases h1
  | panic x =>
    rw [hm] at e
    obtain ⟨q, _, _, _, h1, _⟩ := H ⟨fun _ _ _ => .t, fun _ _ => .t, fun _ _ => .t, fun _ _ => true⟩ fun _ => ⟨[], fun _ => none, []⟩
    rw [← e] at h1
    cases h1

/-- **C86**, UPDATE: run the `Update(values…)` of a select of any kind, with any conditions; if the database does it, the table has as many
rows as before, and as many of them at least as the select counted are found by asking for the values with a select of any kind; columns not
given keep their values, and no other table has changed. -/
theorem C86_update (eng : Engine) (db : Db) (p : KindProg) (h : p.OK) (hb : p.Bare) (hj : p.said.flat.joins = [])
    (sets : List SetTo) (hset : ∀ s ∈ sets, s.OK) (hn : sets ≠ []) (hw : p.wheres.flatten ≠ []) (hs : wheresSound p.wheres = true)
    (k : SelKind) :
    ∃ b vs c su pu sc pc b' c' sc' pc', p.run = .ok b ∧ Res.mapL SetTo.call sets = .ok vs ∧ (b.update vs).build = .ok (su, pu) ∧
      b.count = .ok c ∧ c.build = .ok (sc, pc) ∧
      (readBack k p.table.name sets).run = .ok b' ∧ b'.count = .ok c' ∧ c'.build = .ok (sc', pc') ∧
      ∀ db', runStmt eng db su pu = some db' →
        (db' p.table.name).rows.length = (db p.table.name).rows.length ∧
        (∀ u, u ∉ sets.map (·.name) → (db' p.table.name).rows.map (· u) = (db p.table.name).rows.map (· u)) ∧
        (selfEqual eng sets → ∃ n m, runQuery eng db sc pc = some (counted n) ∧ runQuery eng db' sc' pc' = some (counted m) ∧ n ≤ m) ∧
        ∀ u, u ≠ p.table.name → db' u = db u := by
  have hrun := C81_rows_exact eng db p h
  rw [if_pos hs] at hrun
  obtain ⟨b, _, _, h1, _⟩ := hrun
  obtain ⟨vs, su, pu, h2, h3, h4⟩ := update_of_select p h sets hset hn hw hs h1
  obtain ⟨c, sc, pc, h5, h6, h7⟩ := count_of_select p h hb hj hs h1
  have hok : (readBack k p.table.name sets).OK := readBack_ok h.table.1 hset
  obtain ⟨hsnd, htext⟩ := readBack_text (k := k) (t := p.table.name) hset
  have hrun := C81_rows_exact eng db _ hok
  rw [if_pos hsnd] at hrun
  obtain ⟨b', _, _, h8, _⟩ := hrun
  obtain ⟨c', sc', pc', h9, h10, h11⟩ := count_of_select _ hok (.inl rfl) (readBack_joins _ _ _) hsnd h8
  refine ⟨b, vs, c, su, pu, sc, pc, b', c', sc', pc', h1, h2, h3, h5, h6, h8, h9, h10, ?_⟩
  intro db' hd
  rw [h4] at hd
  unfold UpdateProg.effectBy at hd
  rw [changed_sets] at hd
  simp only at hd
  split at hd
  · rename_i hk
    rw [show (p.changed sets).flat.table = p.table.name from rfl] at hk hd
    cases hd
    have ht : ∀ tab, (db.set p.table.name tab) p.table.name = tab := fun tab => if_pos rfl
    have a := assign_sets hk.1
    have hkn : ∀ t ∈ p.tests, Scope.has [(p.table.name, (db p.table.name).cols)] t.col = true := by
      have := hk.2.2
      unfold knownIn at this
      rw [changed_tests, List.all_eq_true] at this
      exact this
    refine ⟨by rw [ht]; simp [Tab.withRows], ?_, ?_, fun u hu => if_neg hu⟩
    · intro u hu
      rw [ht]
      simp only [Tab.withRows, List.map_map]
      refine List.map_congr_left fun r _ => ?_
      simp only [Function.comp]
      split
      · exact (a r).2 u hu
      · rfl
    · intro he
      have hk' : ∀ cols, (∀ s ∈ sets, s.name ∈ cols) → ∀ t ∈ (readBack k p.table.name sets).tests, Scope.has [(p.table.name, cols)] t.col = true := by
        intro cols hc t ht
        rw [readBack_tests] at ht
        obtain ⟨s, hs, rfl⟩ := List.mem_map.mp ht
        exact has_bare (hc s hs)
      refine ⟨_, _, h7 eng db hkn, h11 eng _ (hk' _ (by
        show ∀ s ∈ sets, s.name ∈ ((db.set p.table.name _) p.table.name).cols
        rw [ht]
        exact hk.2.1)), ?_⟩
      show _ ≤ (((db.set p.table.name _) p.table.name).rows.filter fun r =>
        wheresText (readBack k p.table.name sets).wheres (eng.row (((db.set p.table.name _) p.table.name).env p.table.name r)) == .t).length
      rw [ht, htext]
      simp only [Tab.withRows, List.filter_map, List.length_map]
      refine filter_mono fun r _ hr => ?_
      simp only [Function.comp, hr, if_true]
      have hf := found_holding (tab := db p.table.name) (t := p.table.name) hset he hk.2.1 (r := assign (sets.map fun s => (s.name, cellOf s.param)) r) (a r).1
      show (allOf (sets.map fun s => (eng.row ((db p.table.name).env p.table.name _)).cmp c!"=" s.name s.param) == Tri.t) = true
      rw [hf]
      rfl
  · cases hd

/-! ## Once more -/

/-- **C86**, the `Delete()` of a select run once more changes nothing. -/
theorem C86_delete_again (eng : Engine) (db : Db) (p : KindProg) (h : p.OK) (hw : p.wheres.flatten ≠ []) (hs : wheresSound p.wheres = true) :
    ∃ b sql params, p.run = .ok b ∧ b.delete.build = .ok (sql, params) ∧
      ∀ db', runStmt eng db sql params = some db' → runStmt eng db' sql params = some db' := by
  have hrun := C81_rows_exact eng db p h
  rw [if_pos hs] at hrun
  obtain ⟨b, _, _, h1, _⟩ := hrun
  obtain ⟨sql, params, h2, h3⟩ := delete_of_select p h hw hs h1
  refine ⟨b, sql, params, h1, h2, ?_⟩
  intro db' hd
  rw [h3] at hd ⊢
  unfold DeleteProg.effectBy at hd ⊢
  simp only at hd ⊢
  split at hd
  · rename_i hk
    cases hd
    have ht : ∀ (d : Db) tab, (d.set p.gone.flat.table tab) p.gone.flat.table = tab := fun _ _ => if_pos rfl
    rw [ht]
    rw [if_pos (by exact hk)]
    congr 1
    funext u
    by_cases hu : u = p.gone.flat.table
    · subst hu
      rw [ht, ht]
      simp only [Tab.withRows, Tab.env, List.filter_filter, Bool.and_self]
    · simp only [Db.set, if_neg hu]
  · cases hd

/-- Setting twice what is chosen is setting once, if what is set stays chosen. -/
theorem set_again {P : Rec → Bool} {f : Rec → Rec} {r : Rec} (h : P r = true → P (f r) = true) (hf : f (f r) = f r) :
    (if P (if P r then f r else r) then f (if P r then f r else r) else (if P r then f r else r)) = if P r then f r else r := by
  by_cases hp : P r = true
  · simp only [hp, h hp, if_true, hf]
  · simp only [Bool.not_eq_true] at hp
    simp [hp]

/-- The same for the rows of a table. -/
theorem tab_set_again (T : Tab) (q : Str) (W : Env → Tri) {f : Rec → Rec} (h : ∀ r, W (T.env q r) = .t → W (T.env q (f r)) = .t)
    (hf : ∀ r, f (f r) = f r) :
    (T.withRows (T.rows.map fun r => if (W (T.env q r) == .t) = true then f r else r)).withRows
      ((T.withRows (T.rows.map fun r => if (W (T.env q r) == .t) = true then f r else r)).rows.map fun r =>
        if (W ((T.withRows (T.rows.map fun r => if (W (T.env q r) == .t) = true then f r else r)).env q r) == .t) = true then f r else r) =
      T.withRows (T.rows.map fun r => if (W (T.env q r) == .t) = true then f r else r) := by
  have e : ∀ rows r, (T.withRows rows).env q r = T.env q r := fun _ _ => rfl
  simp only [e]
  show Tab.mk _ _ _ = Tab.mk _ _ _
  congr 1
  show List.map _ (List.map _ _) = _
  rw [List.map_map]
  refine List.map_congr_left fun r _ => ?_
  refine set_again (P := fun r => W (T.env q r) == .t) (fun hp => ?_) (hf r)
  have := h r (by simpa using hp)
  simp [this]

/-- **C86**, the `Update(values…)` of a select run once more changes nothing, if no column of its conditions is among those set. -/
theorem C86_update_again (eng : Engine) (db : Db) (p : KindProg) (h : p.OK) (sets : List SetTo) (hset : ∀ s ∈ sets, s.OK) (hn : sets ≠ [])
    (hw : p.wheres.flatten ≠ []) (hs : wheresSound p.wheres = true) (hd : ∀ t ∈ p.tests, t.col.name ∉ sets.map (·.name)) :
    ∃ b vs sql params, p.run = .ok b ∧ Res.mapL SetTo.call sets = .ok vs ∧ (b.update vs).build = .ok (sql, params) ∧
      ∀ db', runStmt eng db sql params = some db' → runStmt eng db' sql params = some db' := by
  have hrun := C81_rows_exact eng db p h
  rw [if_pos hs] at hrun
  obtain ⟨b, _, _, h1, _⟩ := hrun
  obtain ⟨vs, sql, params, h2, h3, h4⟩ := update_of_select p h sets hset hn hw hs h1
  refine ⟨b, vs, sql, params, h1, h2, h3, ?_⟩
  intro db' hr
  rw [h4] at hr ⊢
  unfold UpdateProg.effectBy at hr ⊢
  rw [changed_sets] at hr ⊢
  rw [show (p.changed sets).flat.table = p.table.name from rfl] at hr ⊢
  simp only at hr ⊢
  split at hr
  · rename_i hk
    cases hr
    have ht : ∀ (d : Db) tab, (d.set p.table.name tab) p.table.name = tab := fun _ _ => if_pos rfl
    have hkn : ∀ t ∈ p.tests, Scope.has [(p.table.name, (db p.table.name).cols)] t.col = true := by
      have := hk.2.2
      unfold knownIn at this
      rw [changed_tests, List.all_eq_true] at this
      exact this
    rw [ht]
    rw [if_pos (by exact hk)]
    congr 1
    funext u
    by_cases hu : u = p.table.name
    · subst hu
      rw [ht, ht]
      refine tab_set_again (db p.table.name) p.table.name (fun e => wheresText p.wheres (eng.row e)) ?_ ?_
      · intro r hc
        refine Eq.trans ?_ hc
        show wheresText p.wheres (eng.row [⟨p.table.name, (db p.table.name).cols, assign (sets.map fun s => (s.name, cellOf s.param)) r⟩]) =
          wheresText p.wheres (eng.row [⟨p.table.name, (db p.table.name).cols, r⟩])
        refine wheresText_local fun t htt => sameAt_get ?_
        rw [colRef_text (test_col_ok (kind_tests_ok h t htt)), get_own (hkn t htt) (.inl rfl), get_own (hkn t htt) (.inl rfl)]
        exact (assign_sets hk.1 r).2 _ (hd t htt)
      · intro r
        funext v
        by_cases hv : v ∈ sets.map (·.name)
        · obtain ⟨s, hsm, rfl⟩ := List.mem_map.mp hv
          rw [(assign_sets hk.1 _).1 s hsm, (assign_sets hk.1 _).1 s hsm]
        · rw [(assign_sets hk.1 _).2 v hv]
    · simp only [Db.set, if_neg hu]
  · cases hr

/-- The program of C81's example meets the hypotheses: its delete removes three rows, then it finds none and counts none; its update to
`a = 9` changes three rows, then `a = 9` counts three. -/
example :
    let sets : List SetTo := [⟨c!"a", .other 9, .other 9⟩]
    exKindProg.OK ∧ exKindProg.Bare ∧ ownRows exKindProg.said.flat.joins ∧ exKindProg.said.flat.joins = [] ∧
    exKindProg.wheres.flatten ≠ [] ∧ wheresSound exKindProg.wheres = true ∧ selfEqual exEng sets ∧
    ((runStmt exEng exDb c!"DELETE FROM t WHERE a=$1 OR id=$2" [.other 7, .other 3]).bind fun db' =>
      runBuilt exEng db' (exKindProg.run.bind SelB.build)) = some [] ∧
    ((runStmt exEng exDb c!"UPDATE t SET a=$1 WHERE a=$2 OR id=$3" [.other 9, .other 7, .other 3]).bind fun db' =>
      runBuilt exEng db' (((readBack .many c!"t" sets).run.bind SelB.count).bind CountB.build)) = some (counted 3) := by
  refine ⟨exKindProg_ok, .inl rfl, ?_, rfl, ?_, rfl, ?_, rfl, rfl⟩
  · intro j hj
    cases hj
  · intro h
    cases h
  · intro s hs
    simp only [List.mem_cons, List.not_mem_nil, or_false] at hs
    subst hs
    exact ⟨by simp, rfl⟩

/-- What `InsertInto("t").Values(id = 4, a = 7)` wrote is found by `SelectFrom("t").Where(id = 4, a = 7)`. -/
example :
    let i : InsertProg := ⟨c!"t", [[⟨c!"id", .other 4, .other 4⟩, ⟨c!"a", .other 7, .other 7⟩]]⟩
    i.run.bind InsertB.build = .ok (c!"INSERT INTO t(id, a) VALUES ($1, $2)", [.other 4, .other 7]) ∧
    runBuilt exEng exDb (((readBack .base c!"t" i.sets).run.bind SelB.count).bind CountB.build) = some (counted 0) ∧
    ((runStmt exEng exDb c!"INSERT INTO t(id, a) VALUES ($1, $2)" [.other 4, .other 7]).bind fun db' =>
      runBuilt exEng db' (((readBack .base c!"t" i.sets).run.bind SelB.count).bind CountB.build)) = some (counted 1) :=
  ⟨rfl, rfl, rfl⟩

/-- **C86** says nothing of RIGHT and FULL joins (`ownRows`), and could not: `SelectFrom("t").RightJoin("u").On("t.a", "u.tid").Where(IsNull("id"))` finds a row before its
delete has run, and the same row after. -/
theorem C86_right_join_stays :
    let p : KindProg := ⟨.many, ⟨c!"t", none⟩, [.call (.other (.join .right ⟨c!"u", none⟩ (exCol c!"t" c!"a") (exCol c!"u" c!"tid"))),
      .call (.addWhere [.test (.null (exCol [] c!"id"))])]⟩
    p.OK ∧ p.Bare ∧ p.wheres.flatten ≠ [] ∧ wheresSound p.wheres = true ∧
    (p.run.bind fun b => b.delete.build) = .ok (c!"DELETE FROM t WHERE id IS NULL", []) ∧
    (runBuilt exEng exDb (p.run.bind SelB.build)).map List.length = some 1 ∧
    ((runStmt exEng exDb c!"DELETE FROM t WHERE id IS NULL" []).bind fun db' =>
      runBuilt exEng db' (p.run.bind SelB.build)).map List.length = some 1 := by
  refine ⟨⟨⟨exIdent (by decide), fun a ha => by cases ha⟩, ?_, by simp [KCall.noFields, KCall.next, NSCall.isSetting]⟩, .inl rfl, ?_, rfl, rfl, rfl, rfl⟩
  · intro c hc
    simp only [List.mem_cons, List.not_mem_nil, or_false] at hc
    rcases hc with rfl | rfl
    · exact ⟨⟨⟨exIdent (by decide), fun a ha => by cases ha⟩, ⟨exIdent (by decide), fun t ht => by cases ht; exact exIdent (by decide)⟩,
        ⟨exIdent (by decide), fun t ht => by cases ht; exact exIdent (by decide)⟩, (by intro h; cases h), (by intro h; cases h)⟩, rfl⟩
    · exact ⟨exCol_ok (by decide), trivial⟩
  · intro h
    cases h

end Query
