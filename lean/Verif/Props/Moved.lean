import Verif.Spec.Moved
import Verif.Props.NestedProgram
/-!
# C85: calls in another order

Chains of calls that differ in what may change places (`Spec/Moved.lean`) find the same rows, count the same and have the same
effect on every database.
-/
namespace Query

theorem tri_and_left_comm (a b c : Tri) : Tri.and a (Tri.and b c) = Tri.and b (Tri.and a c) := by cases a <;> cases b <;> cases c <;> rfl

theorem allOf_perm {l l' : List Tri} (h : l.Perm l') : allOf l = allOf l' := by
  induction h with
  | nil => rfl
  | cons a _ ih => simp only [allOf, List.foldr_cons] at ih ⊢; rw [ih]
  | swap a b l => simp only [allOf, List.foldr_cons]; exact tri_and_left_comm _ _ _
  | trans _ _ h1 h2 => exact h1.trans h2

theorem meansL_map (row : Row) : ∀ es : List CondExp, CondExp.meansL row es = es.map (CondExp.means row)
  | [] => rfl
  | e :: es => by simp [CondExp.meansL, meansL_map row es]

theorem testsL_flatMap : ∀ es : List CondExp, CondExp.testsL es = es.flatMap CondExp.tests
  | [] => rfl
  | e :: es => by simp [CondExp.testsL, testsL_flatMap es]

theorem wheresMean_perm {w w' : List (List CondExp)} (h : w.flatten.Perm w'.flatten) : wheresMean w = wheresMean w' := by
  funext row
  unfold wheresMean
  rw [meansL_map, meansL_map]
  exact allOf_perm (h.map _)

theorem flatMap_testsL (w : List (List CondExp)) : w.flatMap CondExp.testsL = w.flatten.flatMap CondExp.tests := by
  induction w with
  | nil => rfl
  | cons es w ih => simp [ih, testsL_flatMap]

theorem knownIn_perm (sc : Scope) {w w' : List (List CondExp)} (h : w.flatten.Perm w'.flatten) :
    knownIn sc (testClauses (w.flatMap CondExp.testsL)) = knownIn sc (testClauses (w'.flatMap CondExp.testsL)) := by
  have : (w.flatMap CondExp.testsL).Perm (w'.flatMap CondExp.testsL) := by
    rw [flatMap_testsL, flatMap_testsL]
    exact h.flatMap_right _
  unfold knownIn
  rw [testsOf_clauses, testsOf_clauses, Bool.eq_iff_iff]
  simp only [List.all_eq_true]
  exact ⟨fun H t ht => H t (this.mem_iff.mpr ht), fun H t ht => H t (this.mem_iff.mp ht)⟩

/-! ## SELECT -/

/-- Two lists of calls ask for the same things. -/
structure AskS (l l' : List NSCall) : Prop where
  fields : (l.map NSCall.flat).filterMap SCall.fields? = (l'.map NSCall.flat).filterMap SCall.fields?
  joins : (l.map NSCall.flat).filterMap SCall.join? = (l'.map NSCall.flat).filterMap SCall.join?
  keys : (l.map NSCall.flat).filterMap SCall.keys? = (l'.map NSCall.flat).filterMap SCall.keys?
  offset : (l.map NSCall.flat).filterMap SCall.offset? = (l'.map NSCall.flat).filterMap SCall.offset?
  limit : (l.map NSCall.flat).filterMap SCall.limit? = (l'.map NSCall.flat).filterMap SCall.limit?
  wheres : (l.filterMap NSCall.where?).flatten.Perm (l'.filterMap NSCall.where?).flatten

theorem AskS.refl (l : List NSCall) : AskS l l := ⟨rfl, rfl, rfl, rfl, rfl, .refl _⟩

theorem AskS.trans {l m n : List NSCall} (h : AskS l m) (k : AskS m n) : AskS l n :=
  ⟨h.fields.trans k.fields, h.joins.trans k.joins, h.keys.trans k.keys, h.offset.trans k.offset, h.limit.trans k.limit,
    h.wheres.trans k.wheres⟩

theorem AskS.inside {m n : List NSCall} (pre post : List NSCall) (h : AskS m n) : AskS (pre ++ (m ++ post)) (pre ++ (n ++ post)) := by
  constructor
  · simp [h.fields]
  · simp [h.joins]
  · simp [h.keys]
  · simp [h.offset]
  · simp [h.limit]
  · simp only [List.filterMap_append, List.flatten_append]
    exact (h.wheres.append_right _).append_left _

theorem asks_moved {l l' : List NSCall} (h : MovedS l l') : AskS l l' := by
  induction h with
  | refl => exact .refl _
  | @kinds pre post a b _ hk ih =>
    refine ih.trans ?_
    refine AskS.inside (m := [.other a, .other b]) (n := [.other b, .other a]) pre post ?_
    cases a <;> cases b <;> first
      | exact ⟨rfl, rfl, rfl, rfl, rfl, .refl _⟩
      | cases hk
  | @down pre post es a _ ih =>
    refine ih.trans ?_
    refine AskS.inside (m := [.other a, .addWhere es]) (n := [.addWhere es, .other a]) pre post ?_
    cases a <;> exact ⟨rfl, rfl, rfl, rfl, rfl, .refl _⟩
  | @up pre post es a _ ih =>
    refine ih.trans ?_
    refine AskS.inside (m := [.addWhere es, .other a]) (n := [.other a, .addWhere es]) pre post ?_
    cases a <;> exact ⟨rfl, rfl, rfl, rfl, rfl, .refl _⟩
  | @wheres pre post es es' _ ih =>
    refine ih.trans ?_
    refine AskS.inside (m := [.addWhere es, .addWhere es']) (n := [.addWhere es', .addWhere es]) pre post ?_
    refine ⟨rfl, rfl, rfl, rfl, rfl, ?_⟩
    simp only [List.filterMap_cons, NSCall.where?, List.filterMap_nil, List.flatten_cons, List.flatten_nil, List.append_nil]
    exact List.perm_append_comm
  | @split pre post es es' _ ih =>
    refine ih.trans ?_
    refine AskS.inside (m := [.addWhere (es ++ es')]) (n := [.addWhere es, .addWhere es']) pre post ?_
    refine ⟨rfl, rfl, rfl, rfl, rfl, ?_⟩
    simp only [List.filterMap_cons, NSCall.where?, List.filterMap_nil, List.flatten_cons, List.flatten_nil, List.append_nil]
    exact .refl _
  | @merge pre post es es' _ ih =>
    refine ih.trans ?_
    refine AskS.inside (m := [.addWhere es, .addWhere es']) (n := [.addWhere (es ++ es')]) pre post ?_
    refine ⟨rfl, rfl, rfl, rfl, rfl, ?_⟩
    simp only [List.filterMap_cons, NSCall.where?, List.filterMap_nil, List.flatten_cons, List.flatten_nil, List.append_nil]
    exact .refl _
  | @within pre post es es' _ hp ih =>
    refine ih.trans ?_
    refine AskS.inside (m := [.addWhere es]) (n := [.addWhere es']) pre post ?_
    refine ⟨rfl, rfl, rfl, rfl, rfl, ?_⟩
    simp only [List.filterMap_cons, NSCall.where?, List.filterMap_nil, List.flatten_cons, List.flatten_nil, List.append_nil]
    exact hp

/-- **C85**, the rows: two chains of calls of a SELECT, one the other in another order, in both of which every And, Or, Not and Where
does what its name says, build and find the same rows on every database.

Missing for the full claim: chains with the other calls, for which it is false (`C85_false`). -/
theorem C85_rows_partial (eng : Engine) (db : Db) (t : TabRef) (l l' : List NSCall) (h : MovedS l l')
    (hl : (NSelectProg.mk t l).OK) (hl' : (NSelectProg.mk t l').OK)
    (hc : wheresClear someRow (NSelectProg.mk t l).wheres = true) (hc' : wheresClear someRow (NSelectProg.mk t l').wheres = true) :
    ∃ q sql params q' sql' params', (NSelectProg.mk t l).run = .ok q ∧ q.build = .ok (sql, params) ∧
      (NSelectProg.mk t l').run = .ok q' ∧ q'.build = .ok (sql', params') ∧
      runQuery eng db sql params = runQuery eng db sql' params' := by
  obtain ⟨q, sql, params, h1, h2, h3⟩ := C78_rows_partial eng db _ hl hc
  obtain ⟨q', sql', params', h1', h2', h3'⟩ := C78_rows_partial eng db _ hl' hc'
  refine ⟨q, sql, params, q', sql', params', h1, h2, h1', h2', ?_⟩
  have A := asks_moved h
  have ej : (NSelectProg.mk t l).flat.joins = (NSelectProg.mk t l').flat.joins := A.joins
  have ei : (NSelectProg.mk t l).flat.items = (NSelectProg.mk t l').flat.items := by
    unfold SelectProg.items NSelectProg.flat; simp only [A.fields]
  have ek : (NSelectProg.mk t l).flat.keys = (NSelectProg.mk t l').flat.keys := by
    unfold SelectProg.keys NSelectProg.flat; simp only [A.keys]
  have eo : (NSelectProg.mk t l).flat.offset = (NSelectProg.mk t l').flat.offset := by
    unfold SelectProg.offset NSelectProg.flat; simp only [A.offset]
  have el : (NSelectProg.mk t l).flat.limit = (NSelectProg.mk t l').flat.limit := by
    unfold SelectProg.limit NSelectProg.flat; simp only [A.limit]
  have es : (NSelectProg.mk t l).flat.scope db = (NSelectProg.mk t l').flat.scope db := by
    unfold SelectProg.scope; rw [ej]; rfl
  have em : wheresMean (NSelectProg.mk t l).wheres = wheresMean (NSelectProg.mk t l').wheres := wheresMean_perm A.wheres
  have en := knownIn_perm ((NSelectProg.mk t l').flat.scope db) (w := (NSelectProg.mk t l).wheres) (w' := (NSelectProg.mk t l').wheres) A.wheres
  rw [h3, h3']
  unfold SelectProg.known SelectProg.rowsBy
  rw [nselect_clauses hl, nselect_clauses hl', ej, ei, ek, eo, el, es, em, en]
  rfl

/-- **C85**, counting: `Count()` on the two builders counts the same number on every database. -/
theorem C85_count_partial (eng : Engine) (db : Db) (t : TabRef) (l l' : List NSCall) (h : MovedS l l')
    (hl : (NSelectProg.mk t l).OK) (hl' : (NSelectProg.mk t l').OK)
    (hc : wheresClear someRow (NSelectProg.mk t l).wheres = true) (hc' : wheresClear someRow (NSelectProg.mk t l').wheres = true) :
    ∃ q c sql params q' c' sql' params', (NSelectProg.mk t l).run = .ok q ∧ count q.base [] = .ok c ∧ c.build = .ok (sql, params) ∧
      (NSelectProg.mk t l').run = .ok q' ∧ count q'.base [] = .ok c' ∧ c'.build = .ok (sql', params') ∧
      runQuery eng db sql params = runQuery eng db sql' params' := by
  obtain ⟨q, c, sql, params, h1, h2, h3, _, h4⟩ := C78_count_partial eng db _ hl hc
  obtain ⟨q', c', sql', params', h1', h2', h3', _, h4'⟩ := C78_count_partial eng db _ hl' hc'
  refine ⟨q, c, sql, params, q', c', sql', params', h1, h2, h3, h1', h2', h3', ?_⟩
  have A := asks_moved h
  have ej : (NSelectProg.mk t l).flat.joins = (NSelectProg.mk t l').flat.joins := A.joins
  have es : (NSelectProg.mk t l).flat.scope db = (NSelectProg.mk t l').flat.scope db := by
    unfold SelectProg.scope; rw [ej]; rfl
  have em : wheresMean (NSelectProg.mk t l).wheres = wheresMean (NSelectProg.mk t l').wheres := wheresMean_perm A.wheres
  have en := knownIn_perm ((NSelectProg.mk t l').flat.scope db) (w := (NSelectProg.mk t l).wheres) (w' := (NSelectProg.mk t l').wheres) A.wheres
  rw [h4, h4', nselect_clauses hl, nselect_clauses hl', ej, es, em, en]

/-! ## INSERT, UPDATE, DELETE -/

theorem assign_skip (u : Str) : ∀ (l : List (Str × Cell)) (r : Rec), u ∉ l.map (·.1) → assign l r u = r u
  | [], _, _ => rfl
  | (c, v) :: l, r, h => by
    simp only [List.map_cons, List.mem_cons, not_or] at h
    show assign l _ u = _
    rw [assign_skip u l _ h.2]
    exact if_neg h.1

theorem assign_at (u : Str) (v : Cell) : ∀ (l : List (Str × Cell)) (r : Rec), (l.map (·.1)).Nodup → (u, v) ∈ l → assign l r u = v
  | [], _, _, h => by cases h
  | (c, w) :: l, r, hn, h => by
    simp only [List.map_cons, List.nodup_cons] at hn
    show assign l _ u = _
    rcases List.mem_cons.mp h with e | h
    · cases e
      rw [assign_skip _ l _ hn.1]
      exact if_pos rfl
    · exact assign_at u v l _ hn.2 h

/-- Columns set once each may be set in any order. -/
theorem assign_perm {l l' : List (Str × Cell)} (h : l.Perm l') (hn : (l.map (·.1)).Nodup) (r : Rec) : assign l r = assign l' r := by
  funext u
  have hn' : (l'.map (·.1)).Nodup := (h.map (·.1)).nodup_iff.mp hn
  by_cases hu : u ∈ l.map (·.1)
  · obtain ⟨⟨c, v⟩, hm, e⟩ := List.mem_map.mp hu
    subst e
    rw [assign_at c v l r hn hm, assign_at c v l' r hn' (h.mem_iff.mp hm)]
  · rw [assign_skip u l r hu, assign_skip u l' r (fun H => hu ((h.map (·.1)).mem_iff.mpr H))]

theorem sets_iff {s s' : List SetTo} (h : s.Perm s') (cols : List Str) :
    ((s.map (·.name)).Nodup ∧ ∀ a ∈ s, a.name ∈ cols) ↔ ((s'.map (·.name)).Nodup ∧ ∀ a ∈ s', a.name ∈ cols) :=
  and_congr (h.map (·.name)).nodup_iff ⟨fun H a ha => H a (h.mem_iff.mpr ha), fun H a ha => H a (h.mem_iff.mp ha)⟩

theorem sets_assign {s s' : List SetTo} (h : s.Perm s') (hn : (s.map (·.name)).Nodup) (r : Rec) :
    assign (s.map fun s => (s.name, cellOf s.param)) r = assign (s'.map fun s => (s.name, cellOf s.param)) r :=
  assign_perm (h.map _) (by rw [List.map_map]; exact hn) r

/-- **C85**, INSERT: the same columns and values, in whatever order and over however many `Values` calls, insert the same row in every
database; a column named twice fails in either order. -/
theorem C85_insert (eng : Engine) (db : Db) (p p' : InsertProg) (h : p.OK) (ht : p'.table = p.table) (hp : p.sets.Perm p'.sets) :
    ∃ q sql params q' sql' params', p.run = .ok q ∧ q.build = .ok (sql, params) ∧ p'.run = .ok q' ∧ q'.build = .ok (sql', params') ∧
      params.Perm params' ∧ runStmt eng db sql params = runStmt eng db sql' params' := by
  have h' : p'.OK :=
    ⟨ht ▸ h.table, fun s hs => h.sets s (hp.mem_iff.mpr hs), fun e => h.some (by rw [e] at hp; exact hp.eq_nil)⟩
  obtain ⟨q, sql, ns, h1, h2, _, _, h3⟩ := C67_insert eng db p h
  obtain ⟨q', sql', ns', h1', h2', _, _, h3'⟩ := C67_insert eng db p' h'
  refine ⟨q, sql, _, q', sql', _, h1, h2, h1', h2', hp.map _, ?_⟩
  rw [h3, h3']
  unfold InsertProg.effect
  rw [ht]
  have hi := sets_iff hp (db p.table).cols
  by_cases hs : (p.sets.map (·.name)).Nodup ∧ ∀ s ∈ p.sets, s.name ∈ (db p.table).cols
  · simp only [if_pos hs, if_pos (hi.mp hs), sets_assign hp hs.1]
  · simp only [if_neg hs, if_neg (fun H => hs (hi.mpr H))]

/-- Two lists of calls of an UPDATE ask for the same things. -/
structure AskU (l l' : List NUCall) : Prop where
  sets : ((l.map NUCall.flat).filterMap UCall.set?).flatten.Perm ((l'.map NUCall.flat).filterMap UCall.set?).flatten
  wheres : (l.filterMap NUCall.where?).flatten.Perm (l'.filterMap NUCall.where?).flatten

theorem AskU.trans {l m n : List NUCall} (h : AskU l m) (k : AskU m n) : AskU l n := ⟨h.sets.trans k.sets, h.wheres.trans k.wheres⟩

theorem AskU.inside {m n : List NUCall} (pre post : List NUCall) (h : AskU m n) : AskU (pre ++ (m ++ post)) (pre ++ (n ++ post)) := by
  constructor
  · simp only [List.map_append, List.filterMap_append, List.flatten_append]
    exact (h.sets.append_right _).append_left _
  · simp only [List.filterMap_append, List.flatten_append]
    exact (h.wheres.append_right _).append_left _

theorem asku_moved {l l' : List NUCall} (h : MovedU l l') : AskU l l' := by
  induction h with
  | refl => exact ⟨.refl _, .refl _⟩
  | @swap pre post a b _ ih =>
    refine ih.trans ?_
    refine AskU.inside (m := [a, b]) (n := [b, a]) pre post ?_
    cases a <;> cases b <;> constructor <;>
      simp only [List.map_cons, List.map_nil, NUCall.flat, UCall.set?, List.filterMap_cons, NUCall.where?, List.filterMap_nil, List.flatten_cons, List.flatten_nil, List.append_nil] <;>
      first
        | exact List.perm_append_comm
        | exact .refl _
  | @split pre post es es' _ ih =>
    refine ih.trans (AskU.inside (m := [.addWhere (es ++ es')]) (n := [.addWhere es, .addWhere es']) pre post ⟨.refl _, ?_⟩)
    simp only [List.filterMap_cons, NUCall.where?, List.filterMap_nil, List.flatten_cons, List.flatten_nil, List.append_nil]
    exact .refl _
  | @merge pre post es es' _ ih =>
    refine ih.trans (AskU.inside (m := [.addWhere es, .addWhere es']) (n := [.addWhere (es ++ es')]) pre post ⟨.refl _, ?_⟩)
    simp only [List.filterMap_cons, NUCall.where?, List.filterMap_nil, List.flatten_cons, List.flatten_nil, List.append_nil]
    exact .refl _
  | @within pre post es es' _ hp ih =>
    refine ih.trans (AskU.inside (m := [.addWhere es]) (n := [.addWhere es']) pre post ⟨.refl _, ?_⟩)
    simp only [List.filterMap_cons, NUCall.where?, List.filterMap_nil, List.flatten_cons, List.flatten_nil, List.append_nil]
    exact hp
  | @splitSet pre post s s' _ ih =>
    refine ih.trans (AskU.inside (m := [.set (s ++ s')]) (n := [.set s, .set s']) pre post ⟨?_, .refl _⟩)
    simp only [List.map_cons, List.map_nil, NUCall.flat, UCall.set?, List.filterMap_cons, List.filterMap_nil, List.flatten_cons, List.flatten_nil, List.append_nil]
    exact .refl _
  | @mergeSet pre post s s' _ ih =>
    refine ih.trans (AskU.inside (m := [.set s, .set s']) (n := [.set (s ++ s')]) pre post ⟨?_, .refl _⟩)
    simp only [List.map_cons, List.map_nil, NUCall.flat, UCall.set?, List.filterMap_cons, List.filterMap_nil, List.flatten_cons, List.flatten_nil, List.append_nil]
    exact .refl _
  | @withinSet pre post s s' _ hp ih =>
    refine ih.trans (AskU.inside (m := [.set s]) (n := [.set s']) pre post ⟨?_, .refl _⟩)
    simp only [List.map_cons, List.map_nil, NUCall.flat, UCall.set?, List.filterMap_cons, List.filterMap_nil, List.flatten_cons, List.flatten_nil, List.append_nil]
    exact hp

/-- **C85**, UPDATE: two chains of calls, one the other in another order, have the same effect on every database.
Missing: as in `C85_rows_partial`. -/
theorem C85_update_partial (eng : Engine) (db : Db) (t : Str) (l l' : List NUCall) (h : MovedU l l')
    (hl : (NUpdateProg.mk t l).OK) (hl' : (NUpdateProg.mk t l').OK)
    (hc : wheresClear someRow (NUpdateProg.mk t l).wheres = true) (hc' : wheresClear someRow (NUpdateProg.mk t l').wheres = true) :
    ∃ q sql params q' sql' params', (NUpdateProg.mk t l).run = .ok q ∧ q.build = .ok (sql, params) ∧
      (NUpdateProg.mk t l').run = .ok q' ∧ q'.build = .ok (sql', params') ∧
      runStmt eng db sql params = runStmt eng db sql' params' := by
  obtain ⟨q, sql, ss, e, h1, h2, _, _, _, h3⟩ := C78_update_partial eng db _ hl hc
  obtain ⟨q', sql', ss', e', h1', h2', _, _, _, h3'⟩ := C78_update_partial eng db _ hl' hc'
  refine ⟨q, sql, _, q', sql', _, h1, h2, h1', h2', ?_⟩
  have A := asku_moved h
  have hp : (NUpdateProg.mk t l).flat.sets.Perm (NUpdateProg.mk t l').flat.sets := A.sets
  have em : wheresMean (NUpdateProg.mk t l).wheres = wheresMean (NUpdateProg.mk t l').wheres := wheresMean_perm A.wheres
  have en := knownIn_perm [(t, (db t).cols)] (w := (NUpdateProg.mk t l).wheres) (w' := (NUpdateProg.mk t l').wheres) A.wheres
  rw [h3, h3']
  unfold UpdateProg.effectBy
  rw [nupdate_clauses, nupdate_clauses, em]
  have hi := sets_iff hp (db t).cols
  by_cases hs : ((NUpdateProg.mk t l).flat.sets.map (·.name)).Nodup ∧ ∀ s ∈ (NUpdateProg.mk t l).flat.sets, s.name ∈ (db t).cols
  · have hs' := hi.mp hs
    simp only [sets_assign hp hs.1]
    by_cases hk : knownIn [(t, (db t).cols)] (testClauses ((NUpdateProg.mk t l').wheres.flatMap CondExp.testsL)) = true
    · rw [if_pos ⟨hs.1, hs.2, en.trans hk⟩, if_pos ⟨hs'.1, hs'.2, hk⟩]; rfl
    · rw [if_neg (fun H => hk (en.symm.trans H.2.2)), if_neg (fun H => hk H.2.2)]
  · rw [if_neg (fun H => hs ⟨H.1, H.2.1⟩), if_neg (fun H => hs (hi.mpr ⟨H.1, H.2.1⟩))]

/-- **C85**, DELETE: the same conditions, in whatever order and over however many Where calls, remove the same rows of every database.
Missing: as in `C85_rows_partial`. -/
theorem C85_delete_partial (eng : Engine) (db : Db) (t : Str) (w w' : List (List CondExp)) (h : w.flatten.Perm w'.flatten)
    (hl : (NDeleteProg.mk t w).OK) (hl' : (NDeleteProg.mk t w').OK)
    (hc : wheresClear someRow w = true) (hc' : wheresClear someRow w' = true) :
    ∃ q sql params q' sql' params', (NDeleteProg.mk t w).run = .ok q ∧ q.build = .ok (sql, params) ∧
      (NDeleteProg.mk t w').run = .ok q' ∧ q'.build = .ok (sql', params') ∧
      runStmt eng db sql params = runStmt eng db sql' params' := by
  obtain ⟨q, sql, e, h1, h2, _, _, h3⟩ := C78_delete_partial eng db _ hl hc
  obtain ⟨q', sql', e', h1', h2', _, _, h3'⟩ := C78_delete_partial eng db _ hl' hc'
  refine ⟨q, sql, _, q', sql', _, h1, h2, h1', h2', ?_⟩
  have e1 : ∀ w, (NDeleteProg.mk t w).flat.clauses = testClauses (w.flatMap CondExp.testsL) := testClauses_flatten
  rw [h3, h3']
  unfold DeleteProg.effectBy
  rw [e1, e1]
  show (if knownIn [(t, (db t).cols)] _ = true then some (Db.set db t _) else _) = if knownIn [(t, (db t).cols)] _ = true then some (Db.set db t _) else _
  rw [knownIn_perm _ h, wheresMean_perm (w := (NDeleteProg.mk t w).wheres) (w' := (NDeleteProg.mk t w').wheres) h]
  rfl

/-! ## Tests and their negations -/

/-- A test, or its negation. -/
def CondExp.literal : CondExp → Bool
  | .test _ => true
  | .not (.test _) => true
  | _ => false

/-- All conditions of the Where calls are tests and negations of tests. -/
def literals (w : List (List CondExp)) : Prop := ∀ e ∈ w.flatten, e.literal = true

theorem literal_made (row : Row) {e : CondExp} (h : e.literal = true) :
    ∃ k x n, e.made row = some (.test k x n false) ∧ e.clear row = true := by
  cases e with
  | test t => exact ⟨t.kind, t.says row, false, rfl, rfl⟩
  | not e =>
    cases e with
    | test t => exact ⟨t.kind, t.says row, true, rfl, rfl⟩
    | _ => cases h
  | _ => cases h

theorem literals_made (row : Row) : ∀ {es : List CondExp}, (∀ e ∈ es, e.literal = true) →
    ∃ ms, CondExp.madeL row es = some ms ∧ CondExp.clearL row es = true ∧ ∀ m ∈ ms, ∃ k x n, m = Made.test k x n false
  | [], _ => ⟨[], rfl, rfl, by simp⟩
  | e :: es, h => by
    obtain ⟨k, x, n, h1, h2⟩ := literal_made row (h e (.head _))
    obtain ⟨ms, h3, h4, h5⟩ := literals_made row (es := es) fun e he => h e (.tail _ he)
    refine ⟨Made.test k x n false :: ms, by simp [CondExp.madeL, h1, h3], by simp [CondExp.clearL, h2, h4], ?_⟩
    intro m hm
    rcases List.mem_cons.mp hm with rfl | hm
    · exact ⟨k, x, n, rfl⟩
    · exact h5 m hm

theorem noOrIn_append {p q : List (Bool × Tri)} (hp : noOrIn p = true) (hq : ∀ x ∈ q, x.1 = false) : noOrIn (p ++ q) = true := by
  unfold noOrIn at *
  simp only [List.all_eq_true, Bool.not_eq_true'] at *
  cases p with
  | nil => exact fun x hx => hq x (List.mem_of_mem_drop hx)
  | cons a p =>
    intro x hx
    simp only [List.cons_append, List.drop_succ_cons, List.drop_zero, List.mem_append] at hx hp
    exact hx.elim (hp x) (hq x)

theorem row_literals : ∀ {ms : List Made}, (∀ m ∈ ms, ∃ k x n, m = Made.test k x n false) →
    (Made.row ms).first = false ∧ (Made.row ms).noOr = true ∧ ∀ x ∈ (Made.row ms).facs, x.1 = false
  | [], _ => ⟨rfl, rfl, by simp [Made.row]⟩
  | [m], h => by
    obtain ⟨k, x, n, rfl⟩ := h m (.head _)
    refine ⟨rfl, rfl, ?_⟩
    simp [Made.row, Members.one, Made.facs]
  | m :: m' :: ms, h => by
    obtain ⟨k, x, n, e⟩ := h m (.head _)
    obtain ⟨h1, h2, h3⟩ := row_literals (ms := m' :: ms) fun m hm => h m (.tail _ hm)
    subst e
    refine ⟨rfl, ?_, ?_⟩
    · simp [Made.row, Members.then, Members.one, h1, h2]
    · intro y hy
      simp only [Made.row, Members.then, Members.one, Made.facs, List.singleton_append, List.mem_cons] at hy
      rcases hy with rfl | hy
      · rfl
      · exact h3 y hy

/-- A group of conditions joined by AND alone. -/
structure AllAnd (g : MadeGroup) : Prop where
  neg : g.neg = false
  noOr : g.mem.noOr = true
  facs : noOrIn g.mem.facs = true

theorem literals_step {s : Option MadeGroup} (hs : ∀ g ∈ s, AllAnd g) {ms : List Made}
    (h : ∀ m ∈ ms, ∃ k x n, m = Made.test k x n false) :
    clauseTakes s false ms = true ∧ ∀ g ∈ clauseStep s (false, ms), AllAnd g := by
  have hall : ∀ m ∈ ms, noOrIn m.facs = true ∧ m.word = false := by
    intro m hm
    obtain ⟨k, x, n, rfl⟩ := h m hm
    exact ⟨rfl, rfl⟩
  obtain ⟨r1, r2, r3⟩ := row_literals h
  have r4 : noOrIn (Made.row ms).facs = true := by
    have := noOrIn_append (p := []) rfl r3
    simpa using this
  cases ms with
  | nil => cases s <;> exact ⟨rfl, hs⟩
  | cons m ms =>
    cases s with
    | none =>
      refine ⟨?_, ?_⟩
      · simp only [clauseTakes, firstTakes, Bool.false_eq_true, if_false, Bool.or_eq_true, Bool.and_eq_true, List.all_eq_true, Bool.not_eq_true']
        exact .inr ⟨fun m hm => (hall m hm).1, fun m hm => (hall m (List.mem_of_mem_drop hm)).2⟩
      · intro g hg
        simp only [clauseStep, Option.mem_def, Option.some.injEq] at hg
        subst hg
        exact ⟨rfl, r2, r4⟩
    | some g =>
      have A := hs g rfl
      cases ms with
      | nil =>
        obtain ⟨k, x, n, rfl⟩ := h m (.head _)
        refine ⟨?_, ?_⟩
        · simp [clauseTakes, MadeGroup.takesAnd, A.neg, A.facs]
        · intro g' hg
          simp only [clauseStep, Option.mem_def, Option.some.injEq] at hg
          subst hg
          refine ⟨A.neg, ?_, ?_⟩
          · simp [MadeGroup.addAnd, A.noOr, Members.then, Made.row, Members.one, Made.word]
          · simp only [MadeGroup.addAnd, A.noOr, if_true, Members.then]
            exact noOrIn_append A.facs r3
      | cons m' ms =>
        refine ⟨?_, ?_⟩
        · have : g.takesAnd (m :: m' :: ms) = (!g.neg && (m :: m' :: ms).all fun m => noOrIn m.facs && (g.mem.noOr || !m.word)) := by
            simp [MadeGroup.takesAnd]
          simp only [clauseTakes, Bool.false_eq_true, if_false]
          rw [this, A.neg, A.noOr]
          simp only [Bool.not_false, Bool.true_or, Bool.and_true, Bool.true_and, List.all_eq_true]
          exact fun m hm => (hall m hm).1
        · intro g' hg
          simp only [clauseStep, Option.mem_def, Option.some.injEq] at hg
          subst hg
          have e : g.addAnd (m :: m' :: ms) = (g.box g.word).then ((Made.newGroup false (m :: m' :: ms)).box false) := by
            simp [MadeGroup.addAnd, A.noOr]
          refine ⟨A.neg, ?_, ?_⟩ <;> simp only [e]
          · rfl
          · rfl

theorem literals_clear (row : Row) : ∀ (w : List (List CondExp)) (s : Option MadeGroup), (∀ g ∈ s, AllAnd g) → literals w →
    clauseClear row s (w.map fun es => (false, es)) = true
  | [], _, _, _ => rfl
  | es :: w, s, hs, h => by
    obtain ⟨ms, h1, h2, h3⟩ := literals_made row (es := es) fun e he => h e (by simp [he])
    obtain ⟨h4, h5⟩ := literals_step hs h3
    have := literals_clear row w _ h5 fun e he => h e (by
      simp only [List.flatten_cons, List.mem_append]
      exact .inr he)
    simp only [List.map_cons, clauseClear, h1, h2, h4, this, Bool.true_and]

theorem literals_perm {w w' : List (List CondExp)} (h : w.flatten.Perm w'.flatten) (hl : literals w) : literals w' :=
  fun e he => hl e (h.mem_iff.mpr he)

theorem okL_iff : ∀ es : List CondExp, CondExp.OKL es ↔ ∀ e ∈ es, e.OK
  | [] => by simp [CondExp.OKL]
  | e :: es => by simp [CondExp.OKL, okL_iff es]

theorem ok_perm {w w' : List (List CondExp)} (h : w.flatten.Perm w'.flatten) (hl : ∀ es ∈ w, CondExp.OKL es) : ∀ es ∈ w', CondExp.OKL es := by
  intro es he
  rw [okL_iff]
  intro e hm
  have : e ∈ w.flatten := h.mem_iff.mpr (List.mem_flatten.mpr ⟨es, he, hm⟩)
  obtain ⟨es', h1, h2⟩ := List.mem_flatten.mp this
  exact (okL_iff es').mp (hl es' h1) e h2

theorem okL_append (es es' : List CondExp) : CondExp.OKL (es ++ es') ↔ CondExp.OKL es ∧ CondExp.OKL es' := by
  simp only [okL_iff, List.mem_append]
  exact ⟨fun H => ⟨fun e he => H e (.inl he), fun e he => H e (.inr he)⟩, fun H e he => he.elim (H.1 e) (H.2 e)⟩

theorem okL_perm {es es' : List CondExp} (h : es.Perm es') (hl : CondExp.OKL es) : CondExp.OKL es' := by
  rw [okL_iff] at *
  exact fun e he => hl e (h.mem_iff.mpr he)

theorem all_inside {α : Type} {P : α → Prop} {m n pre post : List α} (h : (∀ c ∈ m, P c) → ∀ c ∈ n, P c)
    (H : ∀ c ∈ pre ++ (m ++ post), P c) : ∀ c ∈ pre ++ (n ++ post), P c := by
  simp only [List.mem_append] at *
  intro c hc
  rcases hc with hc | hc | hc
  · exact H c (.inl hc)
  · exact h (fun c hc => H c (.inr (.inl hc))) c hc
  · exact H c (.inr (.inr hc))

/-- Moving the calls does not change what they are made of. -/
theorem moved_ok {l l' : List NSCall} (h : MovedS l l') : (∀ c ∈ l, c.OK) → ∀ c ∈ l', c.OK := by
  induction h with
  | refl => exact id
  | @kinds pre post a b _ _ ih =>
    intro H
    refine all_inside (α := NSCall) (m := [.other a, .other b]) (n := [.other b, .other a]) ?_ (ih H)
    simp only [List.forall_mem_cons]; exact fun h => ⟨h.2.1, h.1, h.2.2⟩
  | @down pre post es a _ ih =>
    intro H
    refine all_inside (α := NSCall) (m := [.other a, .addWhere es]) (n := [.addWhere es, .other a]) ?_ (ih H)
    simp only [List.forall_mem_cons]; exact fun h => ⟨h.2.1, h.1, h.2.2⟩
  | @up pre post es a _ ih =>
    intro H
    refine all_inside (α := NSCall) (m := [.addWhere es, .other a]) (n := [.other a, .addWhere es]) ?_ (ih H)
    simp only [List.forall_mem_cons]; exact fun h => ⟨h.2.1, h.1, h.2.2⟩
  | @wheres pre post es es' _ ih =>
    intro H
    refine all_inside (α := NSCall) (m := [.addWhere es, .addWhere es']) (n := [.addWhere es', .addWhere es]) ?_ (ih H)
    simp only [List.forall_mem_cons]; exact fun h => ⟨h.2.1, h.1, h.2.2⟩
  | @split pre post es es' _ ih =>
    intro H
    refine all_inside (α := NSCall) (m := [.addWhere (es ++ es')]) (n := [.addWhere es, .addWhere es']) ?_ (ih H)
    simp only [List.forall_mem_cons]
    exact fun h => ⟨((okL_append _ _).mp h.1).1, ((okL_append _ _).mp h.1).2, h.2⟩
  | @merge pre post es es' _ ih =>
    intro H
    refine all_inside (α := NSCall) (m := [.addWhere es, .addWhere es']) (n := [.addWhere (es ++ es')]) ?_ (ih H)
    simp only [List.forall_mem_cons]
    exact fun h => ⟨(okL_append _ _).mpr ⟨h.1, h.2.1⟩, h.2.2⟩
  | @within pre post es es' _ hp ih =>
    intro H
    refine all_inside (α := NSCall) (m := [.addWhere es]) (n := [.addWhere es']) ?_ (ih H)
    simp only [List.forall_mem_cons]
    exact fun h => ⟨okL_perm hp h.1, h.2⟩

theorem setsOK_append (s s' : List SetTo) : (∀ a ∈ s ++ s', a.OK) ↔ (∀ a ∈ s, a.OK) ∧ ∀ a ∈ s', a.OK := by
  simp only [List.mem_append]
  exact ⟨fun H => ⟨fun e he => H e (.inl he), fun e he => H e (.inr he)⟩, fun H e he => he.elim (H.1 e) (H.2 e)⟩

theorem movedU_ok {l l' : List NUCall} (h : MovedU l l') : (∀ c ∈ l, c.OK) → ∀ c ∈ l', c.OK := by
  induction h with
  | refl => exact id
  | @swap pre post a b _ ih =>
    intro H
    refine all_inside (α := NUCall) (m := [a, b]) (n := [b, a]) ?_ (ih H)
    simp only [List.forall_mem_cons]; exact fun h => ⟨h.2.1, h.1, h.2.2⟩
  | @split pre post es es' _ ih =>
    intro H
    refine all_inside (α := NUCall) (m := [.addWhere (es ++ es')]) (n := [.addWhere es, .addWhere es']) ?_ (ih H)
    simp only [List.forall_mem_cons]
    exact fun h => ⟨((okL_append _ _).mp h.1).1, ((okL_append _ _).mp h.1).2, h.2⟩
  | @merge pre post es es' _ ih =>
    intro H
    refine all_inside (α := NUCall) (m := [.addWhere es, .addWhere es']) (n := [.addWhere (es ++ es')]) ?_ (ih H)
    simp only [List.forall_mem_cons]
    exact fun h => ⟨(okL_append _ _).mpr ⟨h.1, h.2.1⟩, h.2.2⟩
  | @within pre post es es' _ hp ih =>
    intro H
    refine all_inside (α := NUCall) (m := [.addWhere es]) (n := [.addWhere es']) ?_ (ih H)
    simp only [List.forall_mem_cons]
    exact fun h => ⟨okL_perm hp h.1, h.2⟩
  | @splitSet pre post s s' _ ih =>
    intro H
    refine all_inside (α := NUCall) (m := [.set (s ++ s')]) (n := [.set s, .set s']) ?_ (ih H)
    simp only [List.forall_mem_cons]
    exact fun h => ⟨((setsOK_append s s').mp h.1).1, ((setsOK_append s s').mp h.1).2, h.2⟩
  | @mergeSet pre post s s' _ ih =>
    intro H
    refine all_inside (α := NUCall) (m := [.set s, .set s']) (n := [.set (s ++ s')]) ?_ (ih H)
    simp only [List.forall_mem_cons]
    exact fun h => ⟨(setsOK_append s s').mpr ⟨h.1, h.2.1⟩, h.2.2⟩
  | @withinSet pre post s s' _ hp ih =>
    intro H
    refine all_inside (α := NUCall) (m := [.set s]) (n := [.set s']) ?_ (ih H)
    simp only [List.forall_mem_cons]
    exact fun h => ⟨fun a ha => h.1 a (hp.mem_iff.mpr ha), h.2⟩

theorem moved_update_ok {t : Str} {l l' : List NUCall} (h : MovedU l l') (hl : (NUpdateProg.mk t l).OK) : (NUpdateProg.mk t l').OK := by
  have A := asku_moved h
  refine ⟨hl.table, movedU_ok h hl.calls, ?_, ?_⟩
  · intro e
    refine hl.some ?_
    have hp : (NUpdateProg.mk t l).flat.sets.Perm (NUpdateProg.mk t l').flat.sets := A.sets
    rw [e] at hp
    exact hp.eq_nil
  · intro e
    refine hl.where_ ?_
    have hp : (NUpdateProg.mk t l).wheres.flatten.Perm (NUpdateProg.mk t l').wheres.flatten := A.wheres
    rw [e] at hp
    exact hp.eq_nil

/-- **C85**, the rows, with tests and negations of tests: moved in any way, the calls find the same rows on every database.
Missing: groups of conditions; with them as in `C85_rows_partial`. -/
theorem C85_tests_partial (eng : Engine) (db : Db) (t : TabRef) (l l' : List NSCall) (h : MovedS l l')
    (hl : (NSelectProg.mk t l).OK) (hc : literals (NSelectProg.mk t l).wheres) :
    ∃ q sql params q' sql' params', (NSelectProg.mk t l).run = .ok q ∧ q.build = .ok (sql, params) ∧
      (NSelectProg.mk t l').run = .ok q' ∧ q'.build = .ok (sql', params') ∧
      runQuery eng db sql params = runQuery eng db sql' params' :=
  C85_rows_partial eng db t l l' h hl ⟨hl.table, moved_ok h hl.calls⟩ (literals_clear _ _ _ (by simp) hc)
    (literals_clear _ _ _ (by simp) (literals_perm (asks_moved h).wheres hc))

/-- **C85**, counting, with tests and negations of tests. -/
theorem C85_tests_count_partial (eng : Engine) (db : Db) (t : TabRef) (l l' : List NSCall) (h : MovedS l l')
    (hl : (NSelectProg.mk t l).OK) (hc : literals (NSelectProg.mk t l).wheres) :
    ∃ q c sql params q' c' sql' params', (NSelectProg.mk t l).run = .ok q ∧ count q.base [] = .ok c ∧ c.build = .ok (sql, params) ∧
      (NSelectProg.mk t l').run = .ok q' ∧ count q'.base [] = .ok c' ∧ c'.build = .ok (sql', params') ∧
      runQuery eng db sql params = runQuery eng db sql' params' :=
  C85_count_partial eng db t l l' h hl ⟨hl.table, moved_ok h hl.calls⟩ (literals_clear _ _ _ (by simp) hc)
    (literals_clear _ _ _ (by simp) (literals_perm (asks_moved h).wheres hc))

/-- **C85**, UPDATE, with tests and negations of tests. -/
theorem C85_tests_update_partial (eng : Engine) (db : Db) (t : Str) (l l' : List NUCall) (h : MovedU l l')
    (hl : (NUpdateProg.mk t l).OK) (hc : literals (NUpdateProg.mk t l).wheres) :
    ∃ q sql params q' sql' params', (NUpdateProg.mk t l).run = .ok q ∧ q.build = .ok (sql, params) ∧
      (NUpdateProg.mk t l').run = .ok q' ∧ q'.build = .ok (sql', params') ∧
      runStmt eng db sql params = runStmt eng db sql' params' :=
  C85_update_partial eng db t l l' h hl (moved_update_ok h hl) (literals_clear _ _ _ (by simp) hc)
    (literals_clear _ _ _ (by simp) (literals_perm (asku_moved h).wheres hc))

/-- **C85**, DELETE, with tests and negations of tests. -/
theorem C85_tests_delete_partial (eng : Engine) (db : Db) (t : Str) (w w' : List (List CondExp)) (h : w.flatten.Perm w'.flatten)
    (hl : (NDeleteProg.mk t w).OK) (hc : literals w) :
    ∃ q sql params q' sql' params', (NDeleteProg.mk t w).run = .ok q ∧ q.build = .ok (sql, params) ∧
      (NDeleteProg.mk t w').run = .ok q' ∧ q'.build = .ok (sql', params') ∧
      runStmt eng db sql params = runStmt eng db sql' params' :=
  C85_delete_partial eng db t w w' h hl
    ⟨hl.table, ok_perm h hl.wheres, fun e => hl.where_ (by
      have e : w'.flatten = [] := e
      rw [e] at h
      exact h.eq_nil)⟩
    (literals_clear _ _ _ (by simp) hc) (literals_clear _ _ _ (by simp) (literals_perm h hc))

/-! ## Panics -/

theorem madeL_isSome (row : Row) (es : List CondExp) : (CondExp.madeL row es).isSome = es.all fun e => (e.made row).isSome := by
  induction es with
  | nil => rfl
  | cons e es ih =>
    simp only [CondExp.madeL, List.all_cons, ← ih]
    cases e.made row <;> cases CondExp.madeL row es <;> rfl

theorem wheresSound_eq (w : List (List CondExp)) : wheresSound w = w.flatten.all fun e => (e.made someRow).isSome := by
  unfold wheresSound wheresMade
  induction w with
  | nil => rfl
  | cons es w ih =>
    simp only [List.map_cons, clauseMade, List.flatten_cons, List.all_append, ← ih, ← madeL_isSome]
    cases CondExp.madeL someRow es <;> cases clauseMade someRow (w.map fun es => (false, es)) <;> rfl

/-- Whether a call panics does not depend on the order. -/
theorem wheresSound_perm {w w' : List (List CondExp)} (h : w.flatten.Perm w'.flatten) : wheresSound w = wheresSound w' := by
  rw [wheresSound_eq, wheresSound_eq, Bool.eq_iff_iff]
  simp only [List.all_eq_true]
  exact ⟨fun H t ht => H t (h.mem_iff.mpr ht), fun H t ht => H t (h.mem_iff.mp ht)⟩

/-! ## All conditions -/

theorem moved_same {db : Db} {t : TabRef} {l l' : List NSCall} (h : MovedS l l') (hl : (NSelectProg.mk t l).OK) :
    (NSelectProg.mk t l').flat.known db = (NSelectProg.mk t l).flat.known db ∧
    ∀ S eng, (NSelectProg.mk t l').flat.rowsBy S eng db = (NSelectProg.mk t l).flat.rowsBy S eng db := by
  have hl' : (NSelectProg.mk t l').OK := ⟨hl.table, moved_ok h hl.calls⟩
  have A := asks_moved h
  have ej : (NSelectProg.mk t l).flat.joins = (NSelectProg.mk t l').flat.joins := A.joins
  have ei : (NSelectProg.mk t l).flat.items = (NSelectProg.mk t l').flat.items := by
    unfold SelectProg.items NSelectProg.flat; simp only [A.fields]
  have ek : (NSelectProg.mk t l).flat.keys = (NSelectProg.mk t l').flat.keys := by
    unfold SelectProg.keys NSelectProg.flat; simp only [A.keys]
  have eo : (NSelectProg.mk t l).flat.offset = (NSelectProg.mk t l').flat.offset := by
    unfold SelectProg.offset NSelectProg.flat; simp only [A.offset]
  have el : (NSelectProg.mk t l).flat.limit = (NSelectProg.mk t l').flat.limit := by
    unfold SelectProg.limit NSelectProg.flat; simp only [A.limit]
  have es : (NSelectProg.mk t l).flat.scope db = (NSelectProg.mk t l').flat.scope db := by
    unfold SelectProg.scope; rw [ej]; rfl
  have en := knownIn_perm ((NSelectProg.mk t l').flat.scope db) (w := (NSelectProg.mk t l).wheres) (w' := (NSelectProg.mk t l').wheres) A.wheres
  refine ⟨?_, fun S eng => ?_⟩
  · unfold SelectProg.known
    rw [nselect_clauses hl, nselect_clauses hl', ej, ei, ek, es, en]
    rfl
  · unfold SelectProg.rowsBy
    rw [ej, ei, ek, eo, el]
    rfl

/-- **C85**, the rows, for all conditions: calls moved in any way find what the calls in their first order would find with the text
of the moved Where calls for a condition, so nothing but that text can make a difference; no call panics but in a condition. -/
theorem C85_rows_exact (eng : Engine) (db : Db) (t : TabRef) (l l' : List NSCall) (h : MovedS l l') (hl : (NSelectProg.mk t l).OK) :
    (wheresSound (NSelectProg.mk t l').wheres = wheresSound (NSelectProg.mk t l).wheres) ∧
    if wheresSound (NSelectProg.mk t l).wheres then
      ∃ q sql params, (NSelectProg.mk t l').run = .ok q ∧ q.build = .ok (sql, params) ∧
        runQuery eng db sql params = if (NSelectProg.mk t l).flat.known db then
          some ((NSelectProg.mk t l).flat.rowsBy (wheresText (NSelectProg.mk t l').wheres) eng db) else none
    else (NSelectProg.mk t l').run = .panic .nilDeref := by
  have hs : wheresSound (NSelectProg.mk t l').wheres = wheresSound (NSelectProg.mk t l).wheres := (wheresSound_perm (asks_moved h).wheres).symm
  refine ⟨hs, ?_⟩
  have := C78_rows_exact eng db (NSelectProg.mk t l') ⟨hl.table, moved_ok h hl.calls⟩
  obtain ⟨h1, h2⟩ := moved_same (db := db) h hl
  rw [hs, h1, h2] at this
  exact this

/-- **C85**, UPDATE, for all conditions: the effect of the moved calls is that of the calls in their first order with the text of the
moved Where calls for a condition. -/
theorem C85_update_exact (eng : Engine) (db : Db) (t : Str) (l l' : List NUCall) (h : MovedU l l') (hl : (NUpdateProg.mk t l).OK) :
    if wheresSound (NUpdateProg.mk t l).wheres then
      ∃ q sql params, (NUpdateProg.mk t l').run = .ok q ∧ q.build = .ok (sql, params) ∧
        runStmt eng db sql params = (NUpdateProg.mk t l).flat.effectBy (wheresText (NUpdateProg.mk t l').wheres) eng db
    else (NUpdateProg.mk t l').run = .panic .nilDeref := by
  have A := asku_moved h
  have hs : wheresSound (NUpdateProg.mk t l').wheres = wheresSound (NUpdateProg.mk t l).wheres := (wheresSound_perm A.wheres).symm
  have H := C78_update_exact eng db (NUpdateProg.mk t l') (moved_update_ok h hl)
  rw [hs] at H
  split at H
  · rename_i hw
    rw [if_pos hw]
    obtain ⟨q, sql, ss, e, h1, h2, _, _, _, h3⟩ := H
    refine ⟨q, sql, _, h1, h2, ?_⟩
    have hp : (NUpdateProg.mk t l).flat.sets.Perm (NUpdateProg.mk t l').flat.sets := A.sets
    have en := knownIn_perm [(t, (db t).cols)] (w := (NUpdateProg.mk t l).wheres) (w' := (NUpdateProg.mk t l').wheres) A.wheres
    rw [h3]
    symm
    unfold UpdateProg.effectBy
    rw [nupdate_clauses, nupdate_clauses]
    have hi := sets_iff hp (db t).cols
    by_cases hs : ((NUpdateProg.mk t l).flat.sets.map (·.name)).Nodup ∧ ∀ s ∈ (NUpdateProg.mk t l).flat.sets, s.name ∈ (db t).cols
    · have hs' := hi.mp hs
      simp only [sets_assign hp hs.1]
      by_cases hk : knownIn [(t, (db t).cols)] (testClauses ((NUpdateProg.mk t l').wheres.flatMap CondExp.testsL)) = true
      · rw [if_pos ⟨hs.1, hs.2, en.trans hk⟩, if_pos ⟨hs'.1, hs'.2, hk⟩]; rfl
      · rw [if_neg (fun H => hk (en.symm.trans H.2.2)), if_neg (fun H => hk H.2.2)]
    · rw [if_neg (fun H => hs ⟨H.1, H.2.1⟩), if_neg (fun H => hs (hi.mpr ⟨H.1, H.2.1⟩))]
  · rename_i hw
    rw [if_neg hw]
    exact H

/-- **C85**, DELETE, for all conditions. -/
theorem C85_delete_exact (eng : Engine) (db : Db) (t : Str) (w w' : List (List CondExp)) (h : w.flatten.Perm w'.flatten)
    (hl : (NDeleteProg.mk t w).OK) :
    if wheresSound w then
      ∃ q sql params, (NDeleteProg.mk t w').run = .ok q ∧ q.build = .ok (sql, params) ∧
        runStmt eng db sql params = (NDeleteProg.mk t w).flat.effectBy (wheresText w') eng db
    else (NDeleteProg.mk t w').run = .panic .nilDeref := by
  have hl' : (NDeleteProg.mk t w').OK := ⟨hl.table, ok_perm h hl.wheres, fun e => hl.where_ (by
    have e : w'.flatten = [] := e
    rw [e] at h
    exact h.eq_nil)⟩
  have hs : wheresSound w' = wheresSound w := (wheresSound_perm h).symm
  have H := C78_delete_exact eng db (NDeleteProg.mk t w') hl'
  rw [show wheresSound (NDeleteProg.mk t w').wheres = wheresSound w from hs] at H
  split at H
  · rename_i hw
    rw [if_pos hw]
    obtain ⟨q, sql, e, h1, h2, _, _, h3⟩ := H
    refine ⟨q, sql, _, h1, h2, ?_⟩
    have e1 : ∀ w, (NDeleteProg.mk t w).flat.clauses = testClauses (w.flatMap CondExp.testsL) := testClauses_flatten
    rw [h3]
    unfold DeleteProg.effectBy
    rw [e1, e1]
    show (if knownIn [(t, (db t).cols)] _ = true then some (Db.set db t _) else _) = if knownIn [(t, (db t).cols)] _ = true then some (Db.set db t _) else _
    rw [knownIn_perm _ h]
    rfl
  · rename_i hw
    rw [if_neg hw]
    exact H

/-! ## Examples and the exception -/

/-- `SelectManyFrom("t").Where(NOT id = 2, a = 7).Limit(5).Fields("id")`. -/
def exMovedA : List NSCall :=
  [.addWhere [.not (exIs c!"id" 2), exIs c!"a" 7], .other (.limit 5), .other (.fields [(exCol [] c!"id", none)])]

/-- `SelectManyFrom("t").Fields("id").Where(a = 7).Limit(5).Where(NOT id = 2)`. -/
def exMovedB : List NSCall :=
  [.other (.fields [(exCol [] c!"id", none)]), .addWhere [exIs c!"a" 7], .other (.limit 5), .addWhere [.not (exIs c!"id" 2)]]

example : (NSelectProg.mk ⟨c!"t", none⟩ exMovedA).OK ∧ literals (NSelectProg.mk ⟨c!"t", none⟩ exMovedA).wheres ∧ MovedS exMovedA exMovedB ∧
    (NSelectProg.mk ⟨c!"t", none⟩ exMovedA).run.bind SelectMany.build =
      .ok (c!"SELECT id FROM t WHERE NOT id=$1 AND a=$2 LIMIT $3", [.other 2, .other 7, .uint 5]) ∧
    (NSelectProg.mk ⟨c!"t", none⟩ exMovedB).run.bind SelectMany.build =
      .ok (c!"SELECT id FROM t WHERE a=$1 AND NOT id=$2 LIMIT $3", [.other 7, .other 2, .uint 5]) := by
  refine ⟨⟨⟨exIdent (by decide), fun a ha => by cases ha⟩, ?_⟩, ?_, ?_, rfl, rfl⟩
  · intro c hc
    simp only [exMovedA, List.mem_cons, List.not_mem_nil, or_false] at hc
    rcases hc with rfl | rfl | rfl
    · exact ⟨exIs_ok (by decide) 2, exIs_ok (by decide) 7, trivial⟩
    · exact ⟨trivial, rfl⟩
    · refine ⟨?_, rfl⟩
      intro p hp
      simp only [List.mem_singleton] at hp
      subst hp
      exact ⟨⟨.inl (exIdent (by decide)), fun t ht => by cases ht⟩, fun a ha => by cases ha⟩
  · intro e he
    simp only [exMovedA, NSelectProg.wheres, List.filterMap_cons, NSCall.where?, List.filterMap_nil, List.flatten_cons, List.flatten_nil,
      List.append_nil, List.mem_cons, List.not_mem_nil, or_false] at he
    rcases he with rfl | rfl <;> rfl
  · have h0 := MovedS.refl exMovedA
    have h1 := MovedS.within (pre := []) h0 (List.Perm.swap (exIs c!"a" 7) (.not (exIs c!"id" 2)) [])
    have h2 := MovedS.split (pre := []) (es := [exIs c!"a" 7]) (es' := [.not (exIs c!"id" 2)]) h1
    have h3 := MovedS.up (pre := [.addWhere [exIs c!"a" 7]]) h2
    have h4 := MovedS.up (pre := [.addWhere [exIs c!"a" 7], .other (.limit 5)]) (post := []) h3
    have h5 := MovedS.kinds (pre := [.addWhere [exIs c!"a" 7]]) h4 rfl
    exact MovedS.up (pre := []) h5

/-- **C85 is false** in general: `Delete("t").Where(id = 3).Where(Or(a = 7, id = 3))` removes one row, and with the two calls in the
other order all three. -/
theorem C85_false :
    let w : List (List CondExp) := [[exIs c!"id" 3], [.fn true (exIs c!"a" 7) [exIs c!"id" 3]]]
    let w' : List (List CondExp) := [[.fn true (exIs c!"a" 7) [exIs c!"id" 3]], [exIs c!"id" 3]]
    w.flatten.Perm w'.flatten ∧ (NDeleteProg.mk c!"t" w).OK ∧ (NDeleteProg.mk c!"t" w').OK ∧
    (NDeleteProg.mk c!"t" w).run.bind DeleteB.build =
      .ok (c!"DELETE FROM t WHERE id=$1 AND (a=$2 OR id=$3)", [.other 3, .other 7, .other 3]) ∧
    (NDeleteProg.mk c!"t" w').run.bind DeleteB.build =
      .ok (c!"DELETE FROM t WHERE a=$1 OR id=$2 AND id=$3", [.other 7, .other 3, .other 3]) ∧
    (runStmt exEng exDb c!"DELETE FROM t WHERE id=$1 AND (a=$2 OR id=$3)" [.other 3, .other 7, .other 3]).map (fun db => (db c!"t").rows.length) =
      some 2 ∧
    (runStmt exEng exDb c!"DELETE FROM t WHERE a=$1 OR id=$2 AND id=$3" [.other 7, .other 3, .other 3]).map (fun db => (db c!"t").rows.length) =
      some 0 := by
  have e : ∀ w : List (List CondExp), w.flatten ≠ [] →
      (∀ es ∈ w, es = [exIs c!"id" 3] ∨ es = [.fn true (exIs c!"a" 7) [exIs c!"id" 3]]) → (NDeleteProg.mk c!"t" w).OK := by
    intro w hn h
    have hi : Ident c!"t" := exIdent (by decide)
    refine ⟨hi, ?_, hn⟩
    intro es he
    rcases h es he with rfl | rfl
    · exact ⟨exIs_ok (by decide) 3, trivial⟩
    · exact ⟨⟨exIs_ok (by decide) 7, exIs_ok (by decide) 3, trivial⟩, trivial⟩
  refine ⟨.swap _ _ _, e _ (by simp) (by simp), e _ (by simp) (by simp), rfl, rfl, rfl, rfl⟩

end Query
