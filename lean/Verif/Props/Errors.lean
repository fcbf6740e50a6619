import Verif.Model.Errors
import Verif.Spec.Errors
import Verif.Props.Ident
import Verif.Props.Write
import Verif.Props.Values
/-!
# C68, C69: what failing calls return and what panics carry
-/
namespace Query

theorem good_errf {m : Str} (h : m ≠ []) : GoodErr (errf m) := ⟨rfl, m, h, rfl⟩

/-! ## C68: errors -/

theorem two_of_count {c : Char} {s : Str} (h : s.count c > 1) : ∃ a b d, s = a ++ c :: b ++ c :: d := by
  have hm : c ∈ s := List.count_pos_iff.mp (by omega)
  obtain ⟨a, r, rfl, ha⟩ := List.eq_append_cons_of_mem hm
  have hr : c ∈ r := by
    apply List.count_pos_iff.mp
    rw [List.count_append, List.count_eq_zero.mpr ha, List.count_cons_self] at h
    omega
  obtain ⟨b, d, rfl⟩ := List.append_of_mem hr
  exact ⟨a, b, d, by simp⟩

/-- C68, `Validate`: nil exactly for the names `Validate` accepts (C27); else an error of this package whose text names a
fault the name has. -/
theorem C68_validate (fn : Str) :
    (validateE fn = none ↔ validate fn = .ok ()) ∧
    ∀ e, validateE fn = some e → GoodErr e ∧ NameFault e.text fn := by
  unfold validateE validate
  by_cases h1 : hasChar '\'' fn = true
  · simp only [if_pos h1, reduceCtorEq, iff_self, true_and, Option.some.injEq]
    rintro e rfl
    exact ⟨good_errf (by decide), .quote (by simpa [hasChar] using h1)⟩
  rw [if_neg h1, if_neg h1]
  by_cases h2 : hasChar '"' fn = true
  · simp only [if_pos h2, reduceCtorEq, iff_self, true_and, Option.some.injEq]
    rintro e rfl
    exact ⟨good_errf (by decide), .doubleQuote (by simpa [hasChar] using h2)⟩
  rw [if_neg h2, if_neg h2]
  by_cases h3 : hasChar ' ' fn = true
  · simp only [if_pos h3, reduceCtorEq, iff_self, true_and, Option.some.injEq]
    rintro e rfl
    exact ⟨good_errf (by decide), .space (by simpa [hasChar] using h3)⟩
  rw [if_neg h3, if_neg h3]
  by_cases h4 : countChar '.' fn > 1
  · simp only [if_pos h4, reduceCtorEq, iff_self, true_and, Option.some.injEq]
    rintro e rfl
    obtain ⟨a, b, d, rfl⟩ := two_of_count h4
    exact ⟨good_errf (by decide), .dots⟩
  rw [if_neg h4, if_neg h4]
  by_cases h5 : fn.length = 0
  · simp only [if_pos h5, reduceCtorEq, iff_self, true_and, Option.some.injEq]
    rintro e rfl
    obtain rfl := List.length_eq_zero_iff.mp h5
    exact ⟨good_errf (by decide), .empty⟩
  rw [if_neg h5, if_neg h5]
  by_cases h6 : hasSuffixChar '.' fn = true
  · simp only [if_pos h6, reduceCtorEq, iff_self, true_and, Option.some.injEq]
    rintro e rfl
    have h6' : fn.getLast? = some '.' := by simpa [hasSuffixChar] using h6
    obtain ⟨a, rfl⟩ := List.getLast?_eq_some_iff.mp h6'
    exact ⟨good_errf (by decide), .dotEnd⟩
  rw [if_neg h6, if_neg h6]
  by_cases h7 : hasPrefixChar '.' fn = true
  · simp only [if_pos h7, reduceCtorEq, iff_self, true_and, Option.some.injEq]
    rintro e rfl
    match fn, h7 with
    | ch :: a, h7 =>
      have : ch = '.' := by simpa [hasPrefixChar] using h7
      subst this
      exact ⟨good_errf (by decide), .dotStart⟩
    | [], h7 => simp [hasPrefixChar] at h7
  rw [if_neg h7, if_neg h7]
  simp

example : validateE c!"a.b.c" = some (errf c!"too many dots inside field name") ∧ validateE c!"a.b" = none := ⟨rfl, rfl⟩

/-- C68, `FieldOrError`: a pointer or an error, never both or neither; the error quotes the specification. -/
theorem C68_field (s : Str) : ∃ r, fieldOrErrorE s = .ok r ∧ Answer r ∧ (∀ f, r.1 = some f ↔ fieldOrError s = .ok f) ∧
    ∀ e, r.2 = some e → e.text = c!"query: unexpected field specification: " ++ s := by
  unfold fieldOrErrorE
  cases h : fieldOrError s with
  | ok f => exact ⟨_, rfl, .done f, by simp, by simp⟩
  | err x =>
    refine ⟨_, rfl, .failed (good_errf (by simp)), by simp, ?_⟩
    rintro e he
    obtain rfl := Option.some.inj he
    simp [errf, ErrVal.text]
  | panic p => exact absurd h (fieldOrError_no_panic s p)

/-- C68, `TableOrError`: a pointer or an error, never both or neither; the error quotes the specification. -/
theorem C68_table (s : Str) : ∃ r, tableOrErrorE s = .ok r ∧ Answer r ∧ (∀ t, r.1 = some t ↔ tableOrError s = .ok t) ∧
    ∀ e, r.2 = some e → e.text = c!"query: unexpected table ident: `" ++ s ++ c!"`" := by
  unfold tableOrErrorE
  cases h : tableOrError s with
  | ok f => exact ⟨_, rfl, .done f, by simp, by simp⟩
  | err x =>
    refine ⟨_, rfl, .failed (good_errf (by simp)), by simp, ?_⟩
    rintro e he
    obtain rfl := Option.some.inj he
    simp [errf, ErrVal.text]
  | panic p => exact absurd h (tableOrError_no_panic s p)

example : (fieldOrErrorE c!"life is life") = .ok (none, some (errf c!"unexpected field specification: life is life")) := rfl

/-- C68, `ValuesMap.FieldValues`: whatever the order of the map, a slice or an error, never both; the error names an
invalid key and its fault, one per line. -/
theorem C68_map (es : List (Str × Val)) (r : Option (List FieldValue) × Option ErrVal) (h : mapFieldValuesE es = .ok r) :
    Answer r ∧ (∀ fs, r.1 = some fs ↔ mapFieldValues es = .ok fs) ∧
    ∀ e, r.2 = some e → ∃ k v why, (k, v) ∈ es ∧ NameFault why k ∧
      e.text = c!"query: invalid field name `" ++ k ++ c!"`\n" ++ why := by
  induction es generalizing r with
  | nil =>
    obtain rfl := Res.ok.inj h
    refine ⟨.done _, ?_, by simp⟩
    intro fs
    simp [mapFieldValues, Res.mapL]
  | cons p es ih =>
    obtain ⟨k, v⟩ := p
    simp only [mapFieldValuesE] at h
    cases hv : validateE k with
    | some e =>
      simp only [hv] at h
      obtain rfl := Res.ok.inj h
      have hn : ∀ u, validate k ≠ .ok u := fun u hk => by
        have := (C68_validate k).1.mpr hk
        rw [hv] at this
        simp at this
      obtain ⟨hg, hf⟩ := (C68_validate k).2 e hv
      refine ⟨.failed ⟨rfl, ?_⟩, ?_, ?_⟩
      · exact ⟨c!"invalid field name `" ++ k ++ c!"`" ++ c!"\n" ++ e.text, by simp, by simp [errf, ErrVal.text]⟩
      · intro fs
        simp only [reduceCtorEq, false_iff, mapFieldValues, Res.mapL, mapEntry]
        cases hk : validate k with
        | ok u => exact absurd hk (hn u)
        | err x => simp
        | panic x => simp
      · intro e' he
        obtain rfl := Option.some.inj he
        exact ⟨k, v, e.text, by simp, hf, by simp [errf, ErrVal.text]⟩
    | none =>
      simp only [hv] at h
      have hk := (C68_validate k).1.mp hv
      obtain ⟨fv, h1, h⟩ := Res.bind_eq_ok.mp h
      obtain ⟨r', h2, h⟩ := Res.bind_eq_ok.mp h
      obtain ⟨ha, hs, he⟩ := ih r' h2
      have hstep : ∀ fs, mapFieldValues ((k, v) :: es) = .ok fs ↔
          ∃ gs, mapFieldValues es = .ok gs ∧ fs = fv :: gs := by
        intro fs
        simp only [mapFieldValues, Res.mapL, mapEntry, hk, h1, Res.bind_ok, Res.bind_eq_ok, Res.ok.injEq]
        constructor
        · rintro ⟨gs, h1, h2⟩; exact ⟨gs, h1, h2.symm⟩
        · rintro ⟨gs, h1, h2⟩; exact ⟨gs, h1, h2.symm⟩
      cases ha with
      | done gs =>
        obtain rfl := Res.ok.inj h
        refine ⟨.done _, ?_, by simp⟩
        intro fs
        rw [hstep]
        have hg := (hs gs).mp rfl
        constructor
        · intro e
          exact ⟨gs, hg, (Option.some.inj e).symm⟩
        · rintro ⟨gs', e1, rfl⟩
          rw [hg] at e1
          rw [Res.ok.inj e1]
      | @failed e hg =>
        obtain rfl := Res.ok.inj h
        refine ⟨.failed hg, ?_, ?_⟩
        · intro fs
          rw [hstep]
          constructor
          · simp
          · rintro ⟨gs, e1, _⟩
            have := (hs gs).mpr e1
            simp at this
        · intro e' hee
          obtain ⟨k', v', why, hm, h3, h4⟩ := he e' hee
          exact ⟨k', v', why, by simp [hm], h3, h4⟩

example : (mapFieldValuesE [(c!"id", .nil), (c!"field name", .nil)]) =
    .ok (none, some (.join (errf c!"invalid field name `field name`") (errf c!"field name contains space character"))) :=
  rfl

/-- C68, INSERT: a text, or an error with no text and no parameters; an error exactly without values or table name, and it
says which. -/
theorem C68_insert (q : InsertB) (r : Str × List Val × Option ErrVal) (h : q.buildE = .ok r) :
    BuildAnswer r ∧ (r.2.2 = none ↔ q.setValues ≠ [] ∧ q.tableName ≠ []) ∧
    (r.2.2 = none → q.build = .ok (r.1, r.2.1)) ∧
    ∀ e, r.2.2 = some e → (e.text = c!"query: no fields to insert" ∧ q.setValues = []) ∨
      (e.text = c!"query: table name empty" ∧ q.tableName = []) := by
  unfold InsertB.buildE at h
  by_cases h1 : q.setValues.length = 0
  · rw [if_pos h1] at h
    obtain rfl := Res.ok.inj h
    have h1 := List.length_eq_zero_iff.mp h1
    exact ⟨.failed (good_errf (by decide)), by simp [h1], by simp, by rintro e ⟨⟩; exact Or.inl ⟨rfl, h1⟩⟩
  rw [if_neg h1] at h
  by_cases h2 : q.tableName.length = 0
  · rw [if_pos h2] at h
    obtain rfl := Res.ok.inj h
    have h2 := List.length_eq_zero_iff.mp h2
    exact ⟨.failed (good_errf (by decide)), by simp [h2], by simp, by rintro e ⟨⟩; exact Or.inr ⟨rfl, h2⟩⟩
  rw [if_neg h2] at h
  obtain ⟨⟨s, vs⟩, hb, h⟩ := Res.bind_eq_ok.mp h
  obtain rfl := Res.ok.inj h
  refine ⟨.done _ _ ?_, ?_, fun _ => hb, by simp⟩
  · unfold InsertB.build at hb
    rw [if_neg h1, if_neg h2] at hb
    obtain ⟨_, _, hb⟩ := Res.bind_eq_ok.mp hb
    simp only [Res.ok.injEq, Prod.mk.injEq] at hb
    rw [← hb.1]
    simp [joinWith, kwInsert]
  · simp only [true_iff]
    exact ⟨fun e => h1 (by simp [e]), fun e => h2 (by simp [e])⟩

/-- C68, UPDATE: a text, or an error with no text and no parameters; an error exactly without conditions, values or table
name, and it says which. -/
theorem C68_update (q : UpdateB) (r : Str × List Val × Option ErrVal) (h : q.buildE = .ok r) :
    BuildAnswer r ∧ (r.2.2 = none ↔ q.where_.conds ≠ [] ∧ q.setValues ≠ [] ∧ q.tableName ≠ []) ∧
    (r.2.2 = none → q.build = .ok (r.1, r.2.1)) ∧
    ∀ e, r.2.2 = some e →
      (e.text = c!"query: empty conditions, will not update every record" ∧ q.where_.conds = []) ∨
      (e.text = c!"query: no fields to update set" ∧ q.setValues = []) ∨
      (e.text = c!"query: no table name set" ∧ q.tableName = []) := by
  unfold UpdateB.buildE at h
  by_cases h0 : q.where_.conds.length = 0
  · rw [if_pos h0] at h
    obtain rfl := Res.ok.inj h
    have h0 := List.length_eq_zero_iff.mp h0
    exact ⟨.failed (good_errf (by decide)), by simp [h0], by simp, by rintro e ⟨⟩; exact Or.inl ⟨rfl, h0⟩⟩
  rw [if_neg h0] at h
  by_cases h1 : q.setValues.length = 0
  · rw [if_pos h1] at h
    obtain rfl := Res.ok.inj h
    have h1 := List.length_eq_zero_iff.mp h1
    exact ⟨.failed (good_errf (by decide)), by simp [h1], by simp, by rintro e ⟨⟩; exact Or.inr (Or.inl ⟨rfl, h1⟩)⟩
  rw [if_neg h1] at h
  by_cases h2 : q.tableName.length = 0
  · rw [if_pos h2] at h
    obtain rfl := Res.ok.inj h
    have h2 := List.length_eq_zero_iff.mp h2
    exact ⟨.failed (good_errf (by decide)), by simp [h2], by simp, by rintro e ⟨⟩; exact Or.inr (Or.inr ⟨rfl, h2⟩)⟩
  rw [if_neg h2] at h
  obtain ⟨⟨s, vs⟩, hb, h⟩ := Res.bind_eq_ok.mp h
  obtain rfl := Res.ok.inj h
  refine ⟨.done _ _ ?_, ?_, fun _ => hb, by simp⟩
  · unfold UpdateB.build at hb
    rw [if_neg h0, if_neg h1, if_neg h2] at hb
    obtain ⟨_, _, hb⟩ := Res.bind_eq_ok.mp hb
    obtain ⟨_, _, hb⟩ := Res.bind_eq_ok.mp hb
    obtain ⟨_, _, hb⟩ := Res.bind_eq_ok.mp hb
    simp only [Res.ok.injEq, Prod.mk.injEq] at hb
    rw [← hb.1]
    simp [joinWith, kwUpdate]
  · simp only [true_iff]
    exact ⟨fun e => h0 (by simp [e]), fun e => h1 (by simp [e]), fun e => h2 (by simp [e])⟩

/-- C68, DELETE: a text, or an error with no text and no parameters; an error exactly without conditions or table name,
and it says which. -/
theorem C68_delete (q : DeleteB) (r : Str × List Val × Option ErrVal) (h : q.buildE = .ok r) :
    BuildAnswer r ∧ (r.2.2 = none ↔ q.where_.conds ≠ [] ∧ q.tableName ≠ []) ∧
    (r.2.2 = none → q.build = .ok (r.1, r.2.1)) ∧
    ∀ e, r.2.2 = some e →
      (e.text = c!"query: empty conditions, will not delete every record" ∧ q.where_.conds = []) ∨
      (e.text = c!"query: no table name set" ∧ q.tableName = []) := by
  unfold DeleteB.buildE at h
  by_cases h0 : q.where_.conds.length = 0
  · rw [if_pos h0] at h
    obtain rfl := Res.ok.inj h
    have h0 := List.length_eq_zero_iff.mp h0
    exact ⟨.failed (good_errf (by decide)), by simp [h0], by simp, by rintro e ⟨⟩; exact Or.inl ⟨rfl, h0⟩⟩
  rw [if_neg h0] at h
  by_cases h2 : q.tableName.length = 0
  · rw [if_pos h2] at h
    obtain rfl := Res.ok.inj h
    have h2 := List.length_eq_zero_iff.mp h2
    exact ⟨.failed (good_errf (by decide)), by simp [h2], by simp, by rintro e ⟨⟩; exact Or.inr ⟨rfl, h2⟩⟩
  rw [if_neg h2] at h
  obtain ⟨⟨s, vs⟩, hb, h⟩ := Res.bind_eq_ok.mp h
  obtain rfl := Res.ok.inj h
  refine ⟨.done _ _ ?_, ?_, fun _ => hb, by simp⟩
  · unfold DeleteB.build at hb
    rw [if_neg h0, if_neg h2] at hb
    obtain ⟨_, _, hb⟩ := Res.bind_eq_ok.mp hb
    obtain ⟨_, _, hb⟩ := Res.bind_eq_ok.mp hb
    simp only [Res.ok.injEq, Prod.mk.injEq] at hb
    rw [← hb.1]
    simp [joinWith, kwDelete]
  · simp only [true_iff]
    exact ⟨fun e => h0 (by simp [e]), fun e => h2 (by simp [e])⟩

/-- **C16**, on an error the SQL is empty and there are no parameters, whatever the builder. -/
theorem C16_error_empty (i : InsertB) (u : UpdateB) (d : DeleteB) (r : Str × List Val × Option ErrVal)
    (h : i.buildE = .ok r ∨ u.buildE = .ok r ∨ d.buildE = .ok r) (he : r.2.2 ≠ none) : r.1 = [] ∧ r.2.1 = [] := by
  have : BuildAnswer r := by
    rcases h with h | h | h
    · exact (C68_insert i r h).1
    · exact (C68_update u r h).1
    · exact (C68_delete d r h).1
  cases this with
  | done => simp at he
  | failed => exact ⟨rfl, rfl⟩

example : ((delete (.str c!"t")).buildE) = .ok ([], [], some (errf c!"empty conditions, will not delete every record")) := rfl
example : (insertInto (.str c!"t")).buildE = .ok ([], [], some (errf c!"no fields to insert")) := rfl

theorem joinWith_pair_ne (a b : Str) (l : List Str) : joinWith c!" " (a :: b :: l) ≠ [] := by
  simp [joinWith]

theorem baseBuild_text_ne (q : BaseSelect) (x : Str × List Val) (h : q.build = .ok x) : x.1 ≠ [] := by
  unfold BaseSelect.build at h
  split at h
  · obtain ⟨_, _, h⟩ := Res.bind_eq_ok.mp h
    obtain ⟨_, _, h⟩ := Res.bind_eq_ok.mp h
    obtain rfl := Res.ok.inj h
    exact joinWith_pair_ne _ _ _
  · obtain rfl := Res.ok.inj h
    exact joinWith_pair_ne _ _ _

/-- C68, SELECT and COUNT: a text and no error, with the text and parameters of the other model of the build. -/
theorem C68_select (b : BaseSelect) (s : SelectSingle) (m : SelectMany) (c : CountB) (r : Str × List Val × Option ErrVal) :
    ((b.buildE = .ok r ∨ s.buildE = .ok r ∨ m.buildE = .ok r ∨ c.buildE = .ok r) → BuildAnswer r ∧ r.2.2 = none) ∧
      (b.buildE = .ok r → b.build = .ok (r.1, r.2.1)) ∧ (s.buildE = .ok r → s.build = .ok (r.1, r.2.1)) ∧
      (m.buildE = .ok r → m.build = .ok (r.1, r.2.1)) ∧ (c.buildE = .ok r → c.build = .ok (r.1, r.2.1)) := by
  refine ⟨?_, fun h => ?_, fun h => ?_, fun h => ?_, fun h => ?_⟩
  rotate_left
  iterate 4
    · obtain ⟨x, hx, h⟩ := Res.bind_eq_ok.mp h
      obtain rfl := Res.ok.inj h
      exact hx
  rintro (h | h | h | h)
  · obtain ⟨x, hx, h⟩ := Res.bind_eq_ok.mp h
    obtain rfl := Res.ok.inj h
    exact ⟨.done _ _ (baseBuild_text_ne _ _ hx), rfl⟩
  · obtain ⟨x, hx, h⟩ := Res.bind_eq_ok.mp h
    obtain rfl := Res.ok.inj h
    obtain ⟨y, hy, hx⟩ := Res.bind_eq_ok.mp hx
    obtain rfl := Res.ok.inj hx
    exact ⟨.done _ _ (by simp), rfl⟩
  · obtain ⟨x, hx, h⟩ := Res.bind_eq_ok.mp h
    obtain rfl := Res.ok.inj h
    obtain ⟨y, hy, hx⟩ := Res.bind_eq_ok.mp hx
    obtain rfl := Res.ok.inj hx
    have := baseBuild_text_ne _ _ hy
    refine ⟨.done _ _ ?_, rfl⟩
    dsimp only
    repeat' split
    all_goals simp [this]
  · obtain ⟨x, hx, h⟩ := Res.bind_eq_ok.mp h
    obtain rfl := Res.ok.inj h
    refine ⟨.done _ _ ?_, rfl⟩
    unfold CountB.build at hx
    dsimp only at hx
    split at hx
    · obtain ⟨_, _, hx⟩ := Res.bind_eq_ok.mp hx
      obtain ⟨_, _, hx⟩ := Res.bind_eq_ok.mp hx
      obtain rfl := Res.ok.inj hx
      exact joinWith_pair_ne _ _ _
    · obtain rfl := Res.ok.inj hx
      exact joinWith_pair_ne _ _ _

/-! ## C69: panics -/

/-- C69, `Field`: it panics exactly where `fieldPanic` says so, with an error of this package quoting the specification. -/
theorem C69_field_partial (s : Str) :
    ((∃ p, field s = .panic p) ↔ fieldPanic s ≠ none) ∧
    ∀ v, fieldPanic s = some v → ∃ e, v = .error e ∧ GoodErr e ∧
      e.text = c!"query: unexpected field specification: " ++ s := by
  obtain ⟨r, hr, ha, hs, he⟩ := C68_field s
  unfold fieldPanic field
  rw [hr]
  cases ha with
  | done f =>
    rw [(hs f).mp rfl]
    simp [Res.must]
  | @failed e hg =>
    have : ∃ p, (fieldOrError s).must = .panic p := by
      cases h : fieldOrError s with
      | ok f => simpa using (hs f).mpr h
      | err x => exact ⟨_, rfl⟩
      | panic p => exact ⟨_, rfl⟩
    refine ⟨by simp [this], ?_⟩
    intro v hv
    obtain rfl := Option.some.inj hv
    exact ⟨e, rfl, hg, he e rfl⟩

/-- C69, `Table`: it panics exactly where `tablePanic` says so, with an error of this package quoting the specification. -/
theorem C69_table_partial (s : Str) :
    ((∃ p, table s = .panic p) ↔ tablePanic s ≠ none) ∧
    ∀ v, tablePanic s = some v → ∃ e, v = .error e ∧ GoodErr e ∧
      e.text = c!"query: unexpected table ident: `" ++ s ++ c!"`" := by
  obtain ⟨r, hr, ha, hs, he⟩ := C68_table s
  unfold tablePanic table
  rw [hr]
  cases ha with
  | done f =>
    rw [(hs f).mp rfl]
    simp [Res.must]
  | @failed e hg =>
    have : ∃ p, (tableOrError s).must = .panic p := by
      cases h : tableOrError s with
      | ok f => simpa using (hs f).mpr h
      | err x => exact ⟨_, rfl⟩
      | panic p => exact ⟨_, rfl⟩
    refine ⟨by simp [this], ?_⟩
    intro v hv
    obtain rfl := Option.some.inj hv
    exact ⟨e, rfl, hg, he e rfl⟩

theorem sort_panics_iff (fn dir : Str) :
    (∃ p, ((validate fn).must.bind fun _ => (field fn).bind fun f => (.ok ⟨f, dir⟩ : Res FieldSorting)) = .panic p) ↔
      sortPanic fn ≠ none := by
  unfold sortPanic
  cases hv : validateE fn with
  | some e =>
    have : ∃ p, (validate fn).must = .panic p := by
      cases h : validate fn with
      | ok u =>
        have := (C68_validate fn).1.mpr h
        rw [hv] at this
        simp at this
      | err x => exact ⟨_, rfl⟩
      | panic p => exact ⟨_, rfl⟩
    obtain ⟨p, hp⟩ := this
    rw [hp]
    simp
  | none =>
    rw [(C68_validate fn).1.mp hv]
    simp only [Res.must, Res.bind_ok]
    rw [← (C69_field_partial fn).1]
    cases field fn <;> simp

/-- C69, `ASC`, `DESC`, `OrderBy`: they panic exactly where the model says so; the value is an error of this package
except for invalid names, where it is a string containing the text of one; a wrong direction is reported with the name. -/
theorem C69_sort_partial (fn : Str) (dirs : List Str) :
    ((∃ p, asc fn = .panic p) ↔ sortPanic fn ≠ none) ∧ ((∃ p, desc fn = .panic p) ↔ sortPanic fn ≠ none) ∧
    ((∃ p, orderBy fn dirs = .panic p) ↔ orderByPanic fn dirs ≠ none) ∧
    (∀ v, sortPanic fn = some v ∨ orderByPanic fn dirs = some v →
      (∃ e, v = .error e ∧ GoodErr e) ∨
      (∃ why, v = .text (c!"invalid field name: " ++ why) ∧ NameFault why fn)) ∧
    ∀ d, dirs.head? = some d → d ≠ c!"ASC" → d ≠ c!"DESC" →
      ∃ e more, orderByPanic fn dirs = some (.error e) ∧ e.text = c!"query: unexpected order: " ++ fn ++ more := by
  have hsort : ∀ v, sortPanic fn = some v → (∃ e, v = .error e ∧ GoodErr e) ∨
      (∃ why, v = .text (c!"invalid field name: " ++ why) ∧ NameFault why fn) := by
    intro v h
    unfold sortPanic at h
    cases hv : validateE fn with
    | some e =>
      rw [hv] at h
      obtain rfl := Option.some.inj h
      exact Or.inr ⟨_, rfl, ((C68_validate fn).2 e hv).2⟩
    | none =>
      rw [hv] at h
      obtain ⟨e, h1, h2, _⟩ := (C69_field_partial fn).2 v h
      exact Or.inl ⟨e, h1, h2⟩
  refine ⟨sort_panics_iff fn _, sort_panics_iff fn _, ?_, ?_, ?_⟩
  · match dirs with
    | [] => exact sort_panics_iff fn _
    | d :: ds =>
      unfold orderBy orderByPanic
      by_cases h1 : d = ascending
      · simp only [h1, true_or, if_true]
        exact sort_panics_iff fn _
      · by_cases h2 : d = descending
        · simp only [h2, or_true, if_true]
          rw [if_neg (by decide)]
          exact sort_panics_iff fn _
        · simp [h1, h2]
  · rintro v (h | h)
    · exact hsort v h
    · match dirs with
      | [] => exact hsort v h
      | d :: ds =>
        simp only [orderByPanic] at h
        split at h
        · exact hsort v h
        · obtain rfl := Option.some.inj h
          exact Or.inl ⟨_, rfl, good_errf (by simp)⟩
  · intro d hd h1 h2
    match dirs, hd with
    | d' :: ds, hd =>
      obtain rfl := Option.some.inj hd
      refine ⟨errf (c!"unexpected order: " ++ fn ++ c!": [" ++ joinWith c!" " (d' :: ds) ++ c!"]"),
        c!": [" ++ joinWith c!" " (d' :: ds) ++ c!"]", ?_, ?_⟩
      · simp only [orderByPanic]
        exact if_neg (fun h => h.elim h1 h2)
      · simp [errf, ErrVal.text]

/-- C69, `NewFields`: it panics exactly where the model says so; the value is an error of this package unless an argument
has another type than the three admitted ones. -/
theorem C69_newFields_partial (args : List FieldArg) :
    ((∃ p, newFields args = .panic p) ↔ newFieldsPanic args ≠ none) ∧
    ∀ v, newFieldsPanic args = some v → (∀ a ∈ args, a ≠ none) → ∃ e, v = .error e ∧ GoodErr e := by
  have step : ∀ (s : Str) (rest : List FieldArg) (f : Res FieldDef), f = field s →
      ((∃ p, Res.mapL newFieldsArg rest = .panic p) ↔ newFieldsPanic rest ≠ none) →
      ((∃ p, (f.bind fun x => (Res.mapL newFieldsArg rest).bind fun xs => .ok (x :: xs)) = .panic p) ↔
        (fieldPanic s).or (newFieldsPanic rest) ≠ none) := by
    intro s rest f hf ih
    subst hf
    have h1 := (C69_field_partial s).1
    cases h : field s with
    | ok x =>
      have h2 : fieldPanic s = none := by
        cases hp : fieldPanic s with
        | none => rfl
        | some v =>
          have := h1.mpr (by simp [hp])
          simp [h] at this
      rw [h2, Option.none_or, ← ih]
      cases Res.mapL newFieldsArg rest <;> simp
    | err x => exact absurd h (by unfold field; cases fieldOrError s <;> simp [Res.must])
    | panic p =>
      have := h1.mp ⟨p, h⟩
      cases hp : fieldPanic s with
      | none => exact absurd hp this
      | some v => simp
  have hm : (∃ p, Res.mapL newFieldsArg args = .panic p) ↔ newFieldsPanic args ≠ none := by
    induction args with
    | nil => simp [Res.mapL, newFieldsPanic]
    | cons a rest ih =>
      match a with
      | none => simp [Res.mapL, newFieldsPanic, newFieldsArg]
      | some (.defn f) =>
        simp only [Res.mapL, newFieldsPanic, newFieldsArg, Res.bind_ok]
        rw [← ih]
        cases Res.mapL newFieldsArg rest <;> simp
      | some (.name s) => exact step s rest _ rfl ih
      | some (.str s) => exact step s rest _ rfl ih
  constructor
  · rw [← hm]
    unfold newFields
    cases Res.mapL newFieldsArg args <;> simp
  · intro v hv hall
    clear hm
    induction args with
    | nil => simp [newFieldsPanic] at hv
    | cons a rest ih =>
      have hrest : ∀ a ∈ rest, a ≠ none := fun b hb => hall b (List.mem_cons_of_mem _ hb)
      have hstr : ∀ s, (fieldPanic s).or (newFieldsPanic rest) = some v → ∃ e, v = .error e ∧ GoodErr e := by
        intro s h
        cases hp : fieldPanic s with
        | none =>
          rw [hp, Option.none_or] at h
          exact ih h hrest
        | some w =>
          rw [hp] at h
          obtain rfl := Option.some.inj h
          obtain ⟨e, h1, h2, _⟩ := (C69_field_partial s).2 w hp
          exact ⟨e, h1, h2⟩
      match a with
      | none => exact absurd rfl (hall none (List.mem_cons_self ..))
      | some (.defn f) => exact ih hv hrest
      | some (.name s) => exact hstr s hv
      | some (.str s) => exact hstr s hv

example : (∃ p, field c!"a b c" = .panic p) ∧
    fieldPanic c!"a b c" = some (.error (errf c!"unexpected field specification: a b c")) := ⟨⟨_, rfl⟩, rfl⟩
example : orderByPanic c!"id" [c!"UP", c!"DOWN"] = some (.error (errf c!"unexpected order: id: [UP DOWN]")) := rfl

theorem mapL_panics {f : Val → Res Val} {g : Val → Option PanicVal} (h : ∀ e, (∃ p, f e = .panic p) ↔ g e ≠ none)
    (h' : ∀ e x, f e ≠ .err x) (es : List Val) : (∃ p, Res.mapL f es = .panic p) ↔ es.findSome? g ≠ none := by
  induction es with
  | nil => simp [Res.mapL]
  | cons e es ih =>
    have he := h e
    simp only [Res.mapL, List.findSome?_cons]
    cases hf : f e with
    | err x => exact absurd hf (h' e x)
    | panic p =>
      rw [hf] at he
      cases hg : g e with
      | none => exact absurd hg (he.mp ⟨p, rfl⟩)
      | some v => simp
    | ok v =>
      rw [hf] at he
      have hg : g e = none := Classical.byContradiction fun k => by
        obtain ⟨_, hp⟩ := he.mpr k
        cases hp
      rw [hg]
      simp only [Res.bind_ok]
      rw [← ih]
      cases Res.mapL f es <;> simp

/-- C69, `Values`, exactly: it panics where `valuesPanic` says so, whatever is printed of elements and errors.  The panic is an error of this
package, quoting the element, just if the first element that panics is a valuer whose `Value()` fails, in a slice of a type other than
`[]driver.Valuer`; else it is a runtime error for a nil element. -/
theorem C69_values_exact (shown told : Val → Str) (fv : FieldValue) :
    ((∃ p, fv.values = .panic p) ↔ valuesPanic shown told fv ≠ none) ∧
    ∀ v, valuesPanic shown told fv = some v → (v.isQuery = false → v = .runtime) ∧
      (v.isQuery = true ↔ ∃ pre e post w, fv.value = .reflSlice (pre ++ e :: post) ∧ (∀ x ∈ pre, ∃ u, x.callValue = some (u, false)) ∧
        e.callValue = some (w, true)) ∧
      (v.isQuery = true → ∃ er, v = .error er ∧ GoodErr er ∧ ∃ es, fv.value = .reflSlice es ∧ ∃ e ∈ es,
        er.text = c!"query: translate value " ++ shown e ++ c!": " ++ told e) := by
  have run : ∀ {α : Type} (k : Val → Option α) (es : List Val) (v : PanicVal),
      (es.findSome? fun e => nilPanic (k e)) = some v → v = .runtime := by
    intro α k es v h
    obtain ⟨e, _, he⟩ := List.exists_of_findSome?_eq_some h
    cases hk : k e with
    | none => rw [hk] at he; cases he; rfl
    | some x => rw [hk] at he; cases he
  have only : ∀ v, v = PanicVal.runtime → (∀ es, fv.value ≠ .reflSlice es) → (v.isQuery = false → v = .runtime) ∧
      (v.isQuery = true ↔ ∃ pre e post w, fv.value = .reflSlice (pre ++ e :: post) ∧ (∀ x ∈ pre, ∃ u, x.callValue = some (u, false)) ∧
        e.callValue = some (w, true)) ∧
      (v.isQuery = true → ∃ er, v = .error er ∧ GoodErr er ∧ ∃ es, fv.value = .reflSlice es ∧ ∃ e ∈ es,
        er.text = c!"query: translate value " ++ shown e ++ c!": " ++ told e) := by
    rintro v rfl hn
    refine ⟨fun _ => rfl, ⟨(fun h => by cases h), ?_⟩, (fun h => by cases h)⟩
    rintro ⟨pre, e, post, w, h, _⟩
    exact absurd h (hn _)
  unfold valuesPanic FieldValue.values
  cases hv : fv.value
  case valuers es =>
    refine ⟨mapL_panics ?_ ?_ es, ?_⟩
    · intro e
      unfold valuerElem
      cases e.callValue <;> simp [nilPanic]
    · intro e x
      unfold valuerElem
      cases e.callValue <;> simp
    · intro v h
      rw [← hv]
      exact only v (run Val.callValue es v h) (fun es' he => by rw [hv] at he; cases he)
  case providers es =>
    refine ⟨mapL_panics ?_ ?_ es, ?_⟩
    · intro e
      unfold providerElem
      cases e.callDatabaseValue <;> simp [nilPanic]
    · intro e x
      unfold providerElem
      cases e.callDatabaseValue <;> simp
    · intro v h
      rw [← hv]
      exact only v (run Val.callDatabaseValue es v h) (fun es' he => by rw [hv] at he; cases he)
  case reflSlice es =>
    refine ⟨mapL_panics ?_ ?_ es, ?_⟩
    · intro e
      unfold reflElem
      rcases e.callValue with _ | ⟨w, _ | _⟩ <;> simp
    · intro e x
      unfold reflElem
      rcases e.callValue with _ | ⟨w, _ | _⟩ <;> simp
    · intro v h
      clear run only hv
      induction es with
      | nil => cases h
      | cons e es ih =>
        simp only [List.findSome?_cons] at h
        rcases hc : e.callValue with _ | ⟨w, _ | _⟩
        · simp only [hc, Option.some.injEq] at h
          subst h
          refine ⟨fun _ => rfl, ⟨(fun h => by cases h), ?_⟩, (fun h => by cases h)⟩
          rintro ⟨pre, x, post, w, h, hp, hx⟩
          simp only [Val.reflSlice.injEq] at h
          cases pre with
          | nil => cases h; rw [hc] at hx; cases hx
          | cons y pre =>
            cases h
            obtain ⟨u, hu⟩ := hp e (by simp)
            rw [hc] at hu
            cases hu
        · simp only [hc] at h
          obtain ⟨i1, i2, i3⟩ := ih h
          refine ⟨i1, i2.trans ⟨?_, ?_⟩, fun hq => ?_⟩
          · rintro ⟨pre, x, post, u, h, hp, hx⟩
            simp only [Val.reflSlice.injEq] at h
            refine ⟨e :: pre, x, post, u, by rw [h]; rfl, ?_, hx⟩
            intro y hy
            rcases List.mem_cons.mp hy with rfl | hy
            · exact ⟨w, hc⟩
            · exact hp y hy
          · rintro ⟨pre, x, post, u, h, hp, hx⟩
            simp only [Val.reflSlice.injEq] at h
            cases pre with
            | nil => cases h; rw [hc] at hx; cases hx
            | cons y pre =>
              cases h
              exact ⟨pre, x, post, u, rfl, fun z hz => hp z (by simp [hz]), hx⟩
          · obtain ⟨er, h1, h2, es', h3, x, hx, h4⟩ := i3 hq
            cases h3
            exact ⟨er, h1, h2, _, rfl, x, by simp [hx], h4⟩
        · simp only [hc, Option.some.injEq] at h
          subst h
          refine ⟨(fun h => by cases h), ⟨fun _ => ⟨[], e, es, w, rfl, by simp, hc⟩, fun _ => rfl⟩, fun _ => ?_⟩
          exact ⟨_, rfl, good_errf (by simp), _, rfl, e, by simp, by simp [errf, ErrVal.text]⟩
  all_goals exact ⟨by simp, by simp⟩

example : valuesPanic (fun _ => c!"2(main.ID)") (fun _ => c!"no such id")
      ⟨⟨c!"f", [], []⟩, .reflSlice [.valuer (.other 1) false, .valuer (.other 2) true, .nil]⟩ =
    some (.error (errf c!"translate value 2(main.ID): no such id")) ∧
    valuesPanic (fun _ => c!"2(main.ID)") (fun _ => c!"no such id") ⟨⟨c!"f", [], []⟩, .valuers [.valuer (.other 1) true, .nil]⟩ =
      some .runtime := ⟨rfl, rfl⟩

/-- C69 is false: `ASC` of an invalid name and `NewFields` of a number panic with strings, which no `errors.Is` accepts. -/
theorem C69_false :
    (∃ fn v, (∃ p, asc fn = .panic p) ∧ sortPanic fn = some v ∧ v.isQuery = false) ∧
    (∃ args v, (∃ p, newFields args = .panic p) ∧ newFieldsPanic args = some v ∧ v.isQuery = false) :=
  ⟨⟨c!"a b", _, ⟨_, rfl⟩, rfl, rfl⟩, ⟨[none], _, ⟨_, rfl⟩, rfl, rfl⟩⟩

end Query
