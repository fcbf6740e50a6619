import Verif.Proof.Words
import Verif.Model.Select
/-!
# Names and identifiers (C24–C28)
-/
namespace Query

/-! ## C24 -/

/-- What a field specification says: the words of the text are a qualified name, or a qualified name, `AS` and an
alias. -/
def Specifies (s : Str) (fd : FieldDef) : Prop :=
  (∃ w, Words s [w] ∧ Qualified w fd.tableName fd.fieldName ∧ fd.alias = []) ∨
  (∃ w as, Words s [w, as, fd.alias] ∧ IsAs as ∧ Qualified w fd.tableName fd.fieldName)

/-- No word of the text is odd about dots: at most one, neither first nor last. -/
def DotsFine (s : Str) : Prop :=
  ∀ ws, Words s ws → ∀ w ∈ ws, w.count '.' ≤ 1 ∧ w.head? ≠ some '.' ∧ w.getLast? ≠ some '.'

theorem qualified_iff (w : Str) :
    (∃ t n, Qualified w t n) ↔ w ≠ [] ∧ w.count '.' ≤ 1 ∧ w.head? ≠ some '.' ∧ w.getLast? ≠ some '.' := by
  constructor
  · rintro ⟨t, n, hn, hnd, ⟨rfl, rfl⟩ | ⟨ht, htd, rfl⟩⟩
    · refine ⟨hn, by simp [List.count_eq_zero.mpr hnd], ?_, ?_⟩
      · intro h; exact hnd (List.mem_of_mem_head? h)
      · intro h; exact hnd (List.mem_of_getLast? h)
    · refine ⟨by simp, ?_, ?_, ?_⟩
      · simp [List.count_eq_zero.mpr hnd, List.count_eq_zero.mpr htd]
      · cases t with
        | nil => exact absurd rfl ht
        | cons c t => intro h; simp at h; exact htd (by simp [h])
      · intro h
        rw [List.getLast?_append, List.getLast?_cons] at h
        cases hl : n.getLast? with
        | none => exact hn (List.getLast?_eq_none_iff.mp hl)
        | some c =>
          simp [hl] at h
          subst h
          exact hnd (List.mem_of_getLast? hl)
  · rintro ⟨hne, hc, hh, hl⟩
    by_cases hd : '.' ∈ w
    · obtain ⟨a, b, rfl, ha⟩ := split_first hd
      refine ⟨a, b, ?_, ?_, .inr ⟨?_, ha, rfl⟩⟩
      · rintro rfl; simp at hl
      · simp [List.count_eq_zero.mpr ha] at hc
        exact List.count_eq_zero.mp hc
      · rintro rfl; simp at hh
    · exact ⟨[], w, hne, hd, .inl ⟨rfl, rfl⟩⟩

/-- Exactly what `FieldOrError` accepts, for every text: the documented forms, and in addition names with more dots (what
follows the second dot is dropped) and empty parts before or after the dot. -/
theorem C24_exact (s : Str) (fd : FieldDef) :
    fieldOrError s = .ok fd ↔
    ∃ w, ((Words s [w] ∧ fd.alias = []) ∨ (∃ as, Words s [w, as, fd.alias] ∧ IsAs as)) ∧
      (('.' ∉ w ∧ fd.tableName = [] ∧ fd.fieldName = w) ∨
       ('.' ∉ fd.tableName ∧ '.' ∉ fd.fieldName ∧ (w = fd.tableName ++ '.' :: fd.fieldName ∨
        ∃ rest, w = fd.tableName ++ '.' :: (fd.fieldName ++ '.' :: rest)))) := by
  simp only [← fields_iff]
  unfold fieldOrError
  match h : fields s with
  | [] => simp
  | [t0] =>
    refine (field_word t0 [] fd).trans ?_
    constructor
    · rintro ⟨h1, h2⟩; exact ⟨t0, .inl ⟨rfl, h1⟩, h2⟩
    · rintro ⟨w, ⟨h1, h2⟩ | ⟨as, h1, _⟩, h3⟩
      · simp at h1; subst h1; exact ⟨h2, h3⟩
      · simp at h1
  | [t0, t1] => simp
  | [t0, t1, t2] =>
    simp only []
    by_cases hu : toUpper t1 = kwAs
    · rw [if_pos hu]
      refine (field_word t0 t2 fd).trans ?_
      constructor
      · rintro ⟨h1, h2⟩
        exact ⟨t0, .inr ⟨t1, by rw [h1], (toUpper_as t1).mp hu⟩, h2⟩
      · rintro ⟨w, ⟨h1, h2⟩ | ⟨as, h1, _⟩, h3⟩
        · simp at h1
        · simp at h1
          obtain ⟨rfl, rfl, h1⟩ := h1
          exact ⟨h1.symm, h3⟩
    · rw [if_neg hu]
      simp only [reduceCtorEq, false_iff]
      rintro ⟨w, ⟨h1, h2⟩ | ⟨as, h1, h4⟩, h3⟩
      · simp at h1
      · simp at h1
        obtain ⟨rfl, rfl, h1⟩ := h1
        exact hu ((toUpper_as t1).mpr h4)
  | a :: b :: c :: d :: r => simp

/-- C24, for texts whose words are not odd about dots: `FieldOrError` accepts exactly the four documented forms and
returns the named parts, everything else is an error. -/
theorem C24_forms_partial (s : Str) (hs : DotsFine s) :
    (∀ fd, fieldOrError s = .ok fd ↔ Specifies s fd) ∧
    ((∃ e, fieldOrError s = .err e) ↔ ¬ ∃ fd, Specifies s fd) := by
  have hiff : ∀ fd, fieldOrError s = .ok fd ↔ Specifies s fd := by
    intro fd
    rw [C24_exact]
    constructor
    · rintro ⟨w, hw, hq⟩
      have hmem : w ≠ [] ∧ w.count '.' ≤ 1 ∧ w.head? ≠ some '.' ∧ w.getLast? ≠ some '.' := by
        rcases hw with ⟨h1, _⟩ | ⟨as, h1, _⟩
        · exact ⟨(words_mem h1 w (by simp)).1, hs _ h1 w (by simp)⟩
        · exact ⟨(words_mem h1 w (by simp)).1, hs _ h1 w (by simp)⟩
      have hQ : Qualified w fd.tableName fd.fieldName := by
        rcases hq with ⟨h1, h2, h3⟩ | ⟨h1, h2, h3⟩
        · exact ⟨by rw [h3]; exact hmem.1, by rw [h3]; exact h1, .inl ⟨h2, h3.symm⟩⟩
        · rcases h3 with h3 | ⟨rest, h3⟩
          · refine ⟨?_, h2, .inr ⟨?_, h1, h3⟩⟩
            · intro h
              rw [h] at h3
              have := hmem.2.2.2
              rw [h3] at this
              simp at this
            · intro h
              have := hmem.2.2.1
              rw [h3, h] at this
              simp at this
          · have := hmem.2.1
            rw [h3] at this
            simp only [List.count_append, List.count_cons_self] at this
            omega
      rcases hw with ⟨h1, h2⟩ | ⟨as, h1, h2⟩
      · exact .inl ⟨w, h1, hQ, h2⟩
      · exact .inr ⟨w, as, h1, h2, hQ⟩
    · have hQ : ∀ w, Qualified w fd.tableName fd.fieldName →
          (('.' ∉ w ∧ fd.tableName = [] ∧ fd.fieldName = w) ∨
           ('.' ∉ fd.tableName ∧ '.' ∉ fd.fieldName ∧ (w = fd.tableName ++ '.' :: fd.fieldName ∨
            ∃ rest, w = fd.tableName ++ '.' :: (fd.fieldName ++ '.' :: rest)))) := by
        rintro w ⟨h1, h2, ⟨h3, h4⟩ | ⟨h3, h4, h5⟩⟩
        · exact .inl ⟨h4 ▸ h2, h3, h4.symm⟩
        · exact .inr ⟨h4, h2, .inl h5⟩
      rintro (⟨w, h1, h2, h3⟩ | ⟨w, as, h1, h2, h3⟩)
      · exact ⟨w, .inl ⟨h1, h3⟩, hQ w h2⟩
      · exact ⟨w, .inr ⟨as, h1, h2⟩, hQ w h3⟩
  refine ⟨hiff, ?_⟩
  constructor
  · rintro ⟨e, he⟩ ⟨fd, hfd⟩
    rw [(hiff fd).mpr hfd] at he
    simp at he
  · intro h
    cases hr : fieldOrError s with
    | ok fd => exact absurd ⟨fd, (hiff fd).mp hr⟩ h
    | err e => exact ⟨e, rfl⟩
    | panic p => exact absurd hr (fieldOrError_no_panic s p)

/-- C24: `Field` panics exactly where `FieldOrError` errs, and otherwise returns the same definition. -/
theorem C24_field_panics (s : Str) :
    (∀ fd, field s = .ok fd ↔ fieldOrError s = .ok fd) ∧
    ((∃ p, field s = .panic p) ↔ ∃ e, fieldOrError s = .err e) ∧ (∀ e, field s ≠ .err e) := by
  unfold field
  cases h : fieldOrError s with
  | ok f => simp [Res.must]
  | err e => simp [Res.must]
  | panic p => exact absurd h (fieldOrError_no_panic s p)

/-- C24 fails for names with two dots (the rest is silently dropped) and for names that end or begin with a dot: they are
accepted although they have none of the four forms. -/
theorem C24_forms_false :
    fieldOrError c!"a.b.c" = .ok ⟨c!"b", c!"a", []⟩ ∧ fieldOrError c!"a." = .ok ⟨[], c!"a", []⟩ ∧
    fieldOrError c!".a" = .ok ⟨c!"a", [], []⟩ ∧
    (∀ fd, ¬ Specifies c!"a.b.c" fd) ∧ (∀ fd, ¬ Specifies c!"a." fd) ∧ (∀ fd, ¬ Specifies c!".a" fd) := by
  have key : ∀ (s w : Str), fields s = [w] → (¬ ∃ t n, Qualified w t n) → ∀ fd, ¬ Specifies s fd := by
    intro s w hw hq fd h
    rcases h with ⟨w', h1, h2, _⟩ | ⟨w', as, h1, _, h2⟩
    · have := fields_of_words h1
      rw [hw] at this
      simp at this
      exact hq ⟨_, _, this ▸ h2⟩
    · have := fields_of_words h1
      rw [hw] at this
      simp at this
  refine ⟨by decide, by decide, by decide, ?_, ?_, ?_⟩
  · exact key _ c!"a.b.c" (by decide) (by rw [qualified_iff]; decide)
  · exact key _ c!"a." (by decide) (by rw [qualified_iff]; decide)
  · exact key _ c!".a" (by decide) (by rw [qualified_iff]; decide)

theorem dotsFine_of_fields (s : Str) (h : ∀ w ∈ fields s, w.count '.' ≤ 1 ∧ w.head? ≠ some '.' ∧ w.getLast? ≠ some '.') :
    DotsFine s := by
  intro ws hws
  rw [← fields_of_words hws]
  exact h

/-- A specification with table, alias, mixed case `aS` and odd white space. -/
example : DotsFine c!"\tt1.id  aS\nkey " ∧ fieldOrError c!"\tt1.id  aS\nkey " = .ok ⟨c!"id", c!"t1", c!"key"⟩ :=
  ⟨dotsFine_of_fields _ (by decide), by decide⟩

/-- A text of no form. -/
example : DotsFine c!"a b" ∧ fieldOrError c!"a b" = .err .badField := ⟨dotsFine_of_fields _ (by decide), by decide⟩

/-! ## C25 -/

/-- Plain names: not empty (where needed), no dots, no white space. -/
structure FieldDef.Plain (f : FieldDef) : Prop where
  name_ne : f.fieldName ≠ []
  name_dot : '.' ∉ f.fieldName
  name_space : NoSpace f.fieldName
  table_dot : '.' ∉ f.tableName
  table_space : NoSpace f.tableName
  alias_space : NoSpace f.alias

/-- The alias that has an effect: not empty and different from the name. -/
def FieldDef.effectiveAlias (f : FieldDef) : Str := if f.alias = f.fieldName then [] else f.alias

theorem renderSpec_shape (f : FieldDef) :
    f.renderSpec = (if f.tableName = [] then f.fieldName else f.tableName ++ '.' :: f.fieldName) ++
      (if f.alias ≠ [] ∧ (f.alias ≠ f.fieldName ∨ f.tableName ≠ []) then ' ' :: 'A' :: 'S' :: ' ' :: f.alias else []) := by
  obtain ⟨n, t, a⟩ := f
  simp only [FieldDef.renderSpec, kwAs]
  cases t with
  | nil =>
    cases a with
    | nil => simp [joinWith]
    | cons c a =>
      by_cases h : (c :: a) = n
      · simp [h, joinWith]
      · simp [h, joinWith]
  | cons d t =>
    cases a with
    | nil => simp [joinWith]
    | cons c a =>
      by_cases h : (c :: a) = n
      · subst h; simp [joinWith]
      · simp [h, joinWith]

theorem noSpace_append {a b : Str} (ha : NoSpace a) (hb : NoSpace b) : NoSpace (a ++ b) := by
  intro c hc
  simp only [List.mem_append] at hc
  exact hc.elim (ha c) (hb c)

theorem noSpace_dot {a b : Str} (ha : NoSpace a) (hb : NoSpace b) : NoSpace (a ++ '.' :: b) := by
  intro c hc
  simp only [List.mem_append, List.mem_cons] at hc
  rcases hc with h | rfl | h
  · exact ha c h
  · decide
  · exact hb c h

/-- C25: printing and parsing gives back field, table and effective alias, and a definition that renders the same. -/
theorem C25_round_trip (f : FieldDef) (hf : f.Plain) :
    ∃ g, field f.renderSpec = .ok g ∧ g.fieldName = f.fieldName ∧ g.tableName = f.tableName ∧
      g.effectiveAlias = f.effectiveAlias ∧ g.renderSpec = f.renderSpec ∧ g.renderField = f.renderField ∧
      g.renderTableSpec = f.renderTableSpec := by
  obtain ⟨n, t, a⟩ := f
  have h1 : n ≠ [] := hf.name_ne
  have h2 : '.' ∉ n := hf.name_dot
  have h3 : NoSpace n := hf.name_space
  have h4 : '.' ∉ t := hf.table_dot
  have h5 : NoSpace t := hf.table_space
  have h6 : NoSpace a := hf.alias_space
  clear hf
  have hw : Qualified (if t = [] then n else t ++ '.' :: n) t n := by
    refine ⟨h1, h2, ?_⟩
    by_cases ht : t = []
    · simp [ht]
    · simp [ht, h4]
  have hwne : (if t = [] then n else t ++ '.' :: n) ≠ [] := by by_cases ht : t = [] <;> simp [ht, h1]
  have hwsp : NoSpace (if t = [] then n else t ++ '.' :: n) := by
    by_cases ht : t = []
    · simpa [ht] using h3
    · simpa [ht] using noSpace_dot h5 h3
  have hlegal : ∀ w, Qualified w t n →
      (('.' ∉ w ∧ t = [] ∧ n = w) ∨ ('.' ∉ t ∧ '.' ∉ n ∧ (w = t ++ '.' :: n ∨ ∃ rest, w = t ++ '.' :: (n ++ '.' :: rest)))) := by
    rintro w ⟨_, _, ⟨e1, e2⟩ | ⟨_, _, e5⟩⟩
    · exact .inl ⟨e2 ▸ h2, e1, e2.symm⟩
    · exact .inr ⟨h4, h2, .inl e5⟩
  by_cases ha : a ≠ [] ∧ (a ≠ n ∨ t ≠ [])
  · refine ⟨⟨n, t, a⟩, ?_, rfl, rfl, rfl, rfl, rfl, rfl⟩
    rw [(C24_field_panics _).1, C24_exact]
    refine ⟨_, .inr ⟨c!"AS", ?_, by simp [IsAs]⟩, hlegal _ hw⟩
    rw [renderSpec_shape]
    simp only []
    rw [if_pos ha]
    exact words_cons hwne hwsp (words_cons (w := c!"AS") (by simp) (by unfold NoSpace; decide) (words_one ha.1 h6))
  · have ha' : a = [] ∨ (a = n ∧ t = []) := by
      by_cases e : a = []
      · exact .inl e
      · right
        simp only [ne_eq, e, not_false_eq_true, true_and, not_or, Decidable.not_not] at ha
        exact ha
    have hspec : (⟨n, t, a⟩ : FieldDef).renderSpec = (if t = [] then n else t ++ '.' :: n) := by
      rw [renderSpec_shape]
      simp only []
      rw [if_neg ha, List.append_nil]
    refine ⟨⟨n, t, []⟩, ?_, rfl, rfl, ?_, ?_, ?_, rfl⟩
    · rw [(C24_field_panics _).1, C24_exact, hspec]
      exact ⟨_, .inl ⟨words_one hwne hwsp, rfl⟩, hlegal _ hw⟩
    · rcases ha' with rfl | ⟨rfl, rfl⟩
      · rfl
      · simp [FieldDef.effectiveAlias]
    · rw [hspec, renderSpec_shape]
      simp
    · rcases ha' with rfl | ⟨rfl, rfl⟩
      · rfl
      · simp [FieldDef.renderField]

/-- C25: `As` and `Of` change only the alias and only the table; the printed specification is that of the new parts. -/
theorem C25_as_of (f : FieldDef) (x : Str) :
    (f.as x).fieldName = f.fieldName ∧ (f.as x).tableName = f.tableName ∧ (f.as x).alias = x ∧
    (f.of x).fieldName = f.fieldName ∧ (f.of x).alias = f.alias ∧ (f.of x).tableName = x ∧
    (∀ y, (f.as x).as y = f.as y) ∧ (∀ y, (f.of x).of y = f.of y) ∧ (∀ y, (f.as x).of y = (f.of y).as x) :=
  ⟨rfl, rfl, rfl, rfl, rfl, rfl, fun _ => rfl, fun _ => rfl, fun _ => rfl⟩

/-- An aliased field of a table, printed and parsed. -/
example : (⟨c!"id", c!"users", c!"uid"⟩ : FieldDef).Plain ∧
    (⟨c!"id", c!"users", c!"uid"⟩ : FieldDef).renderSpec = c!"users.id AS uid" ∧
    field c!"users.id AS uid" = .ok ⟨c!"id", c!"users", c!"uid"⟩ := by
  refine ⟨⟨?_, ?_, ?_, ?_, ?_, ?_⟩, by decide, by decide⟩ <;> first | decide | (unfold NoSpace; decide)

/-! ## C26 -/

/-- What a table specification says: a name, a name and an alias, or a name, `AS` and an alias. -/
def SpecifiesTable (s : Str) (t : TableIdent) : Prop :=
  ∃ alias : Str, (Words s [t.name] ∧ alias = [] ∨ Words s [t.name, alias] ∨
      ∃ as, Words s [t.name, as, alias] ∧ IsAs as) ∧
    t.alias = if alias = t.name then [] else alias

/-- Exactly what `TableOrError` accepts: the documented forms, except that a name followed by itself is refused. -/
theorem C26_exact (s : Str) (t : TableIdent) :
    tableOrError s = .ok t ↔ SpecifiesTable s t ∧ ¬ Words s [t.name, t.name] := by
  obtain ⟨nm, al⟩ := t
  unfold SpecifiesTable
  have hne : ∀ ws, fields s = ws → ∀ w ∈ ws, w ≠ [] := fun ws h w hw => (words_mem ((fields_iff _ _).mp h) w hw).1
  simp only [← fields_iff]
  unfold tableOrError
  match h : fields s with
  | [] => simp
  | [t0] =>
    have h0 := hne _ h t0 (by simp)
    simp only [Res.ok.injEq, TableIdent.mk.injEq, List.cons.injEq, and_true, reduceCtorEq, and_false, false_and,
      exists_false, or_false, not_false_eq_true]
    constructor
    · rintro ⟨rfl, rfl⟩
      exact ⟨[], ⟨rfl, rfl⟩, by simp⟩
    · rintro ⟨a, ⟨rfl, rfl⟩, h2⟩
      simp only [List.nil_eq, h0, if_false] at h2
      exact ⟨rfl, h2.symm⟩
  | [t0, t1] =>
    have h1 := hne _ h t1 (by simp)
    have hlen : t1.length > 0 := List.length_pos_iff.mpr h1
    simp only [List.cons.injEq, and_true, reduceCtorEq, and_false, false_and, false_or,
      exists_false, or_false]
    by_cases he : t1 = t0
    · rw [if_neg (by simp [he])]
      subst he
      simp only [reduceCtorEq, false_iff]
      rintro ⟨⟨a, ⟨rfl, rfl⟩, _⟩, h⟩
      exact h ⟨rfl, rfl⟩
    · rw [if_pos ⟨hlen, he⟩]
      simp only [Res.ok.injEq, TableIdent.mk.injEq]
      constructor
      · rintro ⟨rfl, rfl⟩
        exact ⟨⟨t1, ⟨rfl, rfl⟩, by simp [he]⟩, fun e => he e.2⟩
      · rintro ⟨⟨a, ⟨rfl, rfl⟩, h2⟩, _⟩
        simp only [he, if_false] at h2
        exact ⟨rfl, h2.symm⟩
  | [t0, t1, t2] =>
    have h2 := hne _ h t2 (by simp)
    have hlen : t2.length > 0 := List.length_pos_iff.mpr h2
    simp only [List.cons.injEq, and_true, reduceCtorEq, and_false, false_and, false_or,
      not_false_eq_true]
    by_cases hu : toUpper t1 = kwAs
    · by_cases he : t2 = t0
      · rw [if_neg (by simp [he]), if_pos ⟨hu, hlen, he⟩]
        subst he
        simp only [Res.ok.injEq, TableIdent.mk.injEq]
        constructor
        · rintro ⟨rfl, rfl⟩
          exact ⟨t2, ⟨t1, ⟨rfl, rfl, rfl⟩, (toUpper_as t1).mp hu⟩, by simp⟩
        · rintro ⟨a, ⟨b, ⟨rfl, rfl, rfl⟩, _⟩, h3⟩
          simp at h3
          exact ⟨rfl, h3.symm⟩
      · rw [if_pos ⟨hu, hlen, he⟩]
        simp only [Res.ok.injEq, TableIdent.mk.injEq]
        constructor
        · rintro ⟨rfl, rfl⟩
          exact ⟨t2, ⟨t1, ⟨rfl, rfl, rfl⟩, (toUpper_as t1).mp hu⟩, by simp [he]⟩
        · rintro ⟨a, ⟨b, ⟨rfl, rfl, rfl⟩, _⟩, h3⟩
          simp only [he, if_false] at h3
          exact ⟨rfl, h3.symm⟩
    · rw [if_neg (by simp [hu]), if_neg (by simp [hu])]
      simp only [reduceCtorEq, false_iff]
      rintro ⟨a, ⟨b, ⟨rfl, rfl, rfl⟩, h3⟩, _⟩
      exact hu ((toUpper_as t1).mpr h3)
  | a :: b :: c :: d :: r => simp

theorem tableOrError_no_panic (s : Str) (p : GoPanic) : tableOrError s ≠ .panic p := by
  unfold tableOrError
  split <;> (try split) <;> (try split) <;> simp

/-- C26, for texts that are not a name followed by itself: `TableOrError` accepts exactly the documented forms and drops
an alias equal to the name; everything else is an error. -/
theorem C26_forms_partial (s : Str) (hs : ∀ n, ¬ Words s [n, n]) :
    (∀ t, tableOrError s = .ok t ↔ SpecifiesTable s t) ∧
    ((∃ e, tableOrError s = .err e) ↔ ¬ ∃ t, SpecifiesTable s t) := by
  have h : ∀ t, tableOrError s = .ok t ↔ SpecifiesTable s t := by
    intro t
    rw [C26_exact]
    exact ⟨fun h => h.1, fun h => ⟨h, hs _⟩⟩
  refine ⟨h, ?_⟩
  constructor
  · rintro ⟨e, he⟩ ⟨t, ht⟩
    rw [(h t).mpr ht] at he
    simp at he
  · intro hn
    cases hr : tableOrError s with
    | ok t => exact absurd ⟨t, (h t).mp hr⟩ hn
    | err e => exact ⟨e, rfl⟩
    | panic p => exact absurd hr (tableOrError_no_panic s p)

/-- C26 fails for a name followed by itself: the documentation (table_ident.go:26-30) says the alias is dropped, the code
returns an error. -/
theorem C26_forms_false :
    SpecifiesTable c!"t t" ⟨c!"t", []⟩ ∧ tableOrError c!"t t" = .err .badTable ∧
    tableOrError c!"t AS t" = .ok ⟨c!"t", []⟩ :=
  ⟨⟨c!"t", .inr (.inl ((fields_iff _ _).mp (by decide))), by decide⟩, by decide, by decide⟩

/-- C26: for plain names `Table(t.RenderFrom())` gives the identifier back. -/
theorem C26_round_trip (t : TableIdent) (hn : t.name ≠ []) (hns : NoSpace t.name) (has : NoSpace t.alias)
    (ha : t.alias ≠ t.name) : table t.renderFrom = .ok t := by
  have h : tableOrError t.renderFrom = .ok t := by
    obtain ⟨n, a⟩ := t
    rw [C26_exact]
    unfold TableIdent.renderFrom SpecifiesTable
    simp only at *
    by_cases he : a = []
    · rw [if_neg (by simp [he])]
      subst he
      refine ⟨⟨[], .inl ⟨words_one hn hns, rfl⟩, by simp⟩, ?_⟩
      intro h
      have e1 := fields_of_words h
      rw [fields_of_words (words_one hn hns)] at e1
      simp at e1
    · rw [if_pos ⟨List.length_pos_iff.mpr he, ha⟩]
      have hw : Words (n ++ c!" AS " ++ a) [n, c!"AS", a] := by
        have := words_cons hn hns (words_cons (w := c!"AS") (by simp) (by unfold NoSpace; decide) (words_one he has))
        simpa using this
      refine ⟨⟨a, .inr (.inr ⟨_, hw, by simp [IsAs]⟩), by simp [ha]⟩, ?_⟩
      intro h
      have e1 := fields_of_words h
      rw [fields_of_words hw] at e1
      simp at e1
  simp [table, h, Res.must]

/-- A table identifier obtained through the API: `Table`, `TableOrError` on a text, then any number of `As`. -/
inductive TableIdent.Api : TableIdent → Prop
  | parse {s t} : tableOrError s = .ok t → Api t
  | as {t} (a) : Api t → Api (t.as a)

/-- C26: the alias of an identifier obtained through the API is empty or differs from the name, the name is never empty and
has no white space, and printing it names the alias exactly when there is one. -/
theorem C26_alias_differs (t : TableIdent) (h : t.Api) :
    (t.alias = [] ∨ t.alias ≠ t.name) ∧ t.name ≠ [] ∧ NoSpace t.name ∧
    t.renderFrom = t.name ++ (if t.alias = [] then [] else c!" AS " ++ t.alias) := by
  have h1 : (t.alias = [] ∨ t.alias ≠ t.name) ∧ t.name ≠ [] ∧ NoSpace t.name := by
    induction h with
    | @parse s t h =>
      obtain ⟨⟨a, hw, ha⟩, _⟩ := (C26_exact s t).mp h
      refine ⟨?_, ?_⟩
      · rw [ha]
        by_cases e : a = t.name
        · simp [e]
        · simp [e]
      · rcases hw with ⟨hw, _⟩ | hw | ⟨as, hw, _⟩ <;> exact words_mem hw _ (by simp)
    | @as t a _ ih =>
      refine ⟨?_, ih.2⟩
      unfold TableIdent.as
      simp only []
      by_cases e : a = t.name
      · simp [e]
      · simp [e]
  refine ⟨h1.1, h1.2.1, h1.2.2, ?_⟩
  unfold TableIdent.renderFrom
  by_cases he : t.alias = []
  · simp [he]
  · rw [if_pos ⟨List.length_pos_iff.mpr he, h1.1.resolve_left he⟩]
    simp [he]

/-- `As` on an identifier sets the alias (dropping the name itself) and keeps the name; the last call counts. -/
theorem C26_as (t : TableIdent) (a b : Str) :
    (t.as a).name = t.name ∧ (t.as a).as b = t.as b ∧ (t.as t.name).alias = [] ∧ (a ≠ t.name → (t.as a).alias = a) := by
  refine ⟨rfl, rfl, by simp [TableIdent.as], fun h => by simp [TableIdent.as, h]⟩

/-- The short form with an alias, then `As` with the table's own name. -/
example : tableOrError c!" users\tu " = .ok ⟨c!"users", c!"u"⟩ ∧
    ((⟨c!"users", c!"u"⟩ : TableIdent).as c!"users") = ⟨c!"users", []⟩ ∧
    ((⟨c!"users", c!"u"⟩ : TableIdent).as c!"users").Api :=
  ⟨by decide, by decide, .as _ (.parse (s := c!" users\tu ") (by decide))⟩

/-- A round trip. -/
example : (⟨c!"users", c!"u"⟩ : TableIdent).renderFrom = c!"users AS u" ∧
    table c!"users AS u" = .ok ⟨c!"users", c!"u"⟩ := by decide

/-! ## C27 -/

/-- C27: `Validate` accepts exactly a name, or table and name separated by a dot, without quotes, double quotes and
spaces. -/
theorem C27_validate (s : Str) :
    validate s = .ok () ↔ (∃ t n, Qualified s t n) ∧ '\'' ∉ s ∧ '"' ∉ s ∧ ' ' ∉ s := by
  rw [qualified_iff]
  unfold validate
  simp only [hasChar, countChar, hasSuffixChar, hasPrefixChar]
  by_cases h1 : '\'' ∈ s
  · simp [h1]
  by_cases h2 : '"' ∈ s
  · simp [h1, h2]
  by_cases h3 : ' ' ∈ s
  · simp [h1, h2, h3]
  by_cases h4 : s.count '.' > 1
  · simp [h1, h2, h3, h4]
    intro _ h
    omega
  by_cases h5 : s = []
  · simp [h5]
  by_cases h6 : s.getLast? = some '.'
  · simp [h1, h2, h3, h4, h5, h6]
  by_cases h7 : s.head? = some '.'
  · simp [h1, h2, h3, h4, h5, h6, h7]
  simp [h1, h2, h3, h4, h5, h6, h7]
  omega

theorem fieldOrError_qualified {s t n : Str} (h : Qualified s t n) (hs : NoSpace s) : fieldOrError s = .ok ⟨n, t, []⟩ := by
  rw [C24_exact]
  obtain ⟨h1, h2, h3⟩ := h
  refine ⟨s, .inl ⟨words_one ?_ hs, rfl⟩, ?_⟩
  · rcases h3 with ⟨_, rfl⟩ | ⟨_, _, rfl⟩
    · exact h1
    · simp
  · rcases h3 with ⟨e1, rfl⟩ | ⟨_, e2, e3⟩
    · exact .inl ⟨h2, e1, rfl⟩
    · exact .inr ⟨e2, h2, .inl e3⟩

/-- C27, for names without any white space: a name `Validate` accepts is taken by `Field`, `ASC`, `DESC`, `OrderBy` and
every condition constructor, and all of them name exactly that field. -/
theorem C27_safe_partial (s : Str) (hv : validate s = .ok ()) (hs : NoSpace s) :
    ∃ fd : FieldDef, fd.renderSpec = s ∧ field s = .ok fd ∧ asc s = .ok ⟨fd, c!"ASC"⟩ ∧ desc s = .ok ⟨fd, c!"DESC"⟩ ∧
      orderBy s [] = .ok ⟨fd, c!"ASC"⟩ ∧ orderBy s [c!"ASC"] = .ok ⟨fd, c!"ASC"⟩ ∧
      orderBy s [c!"DESC"] = .ok ⟨fd, c!"DESC"⟩ ∧
      (∀ k v, mkField k s v = .ok (.fieldc k ⟨c!"AND", false⟩ ⟨fd, v⟩)) ∧
      isNull s = .ok (.null ⟨c!"AND", false⟩ fd) := by
  obtain ⟨⟨t, n, hq⟩, _⟩ := (C27_validate s).mp hv
  have hf : field s = .ok ⟨n, t, []⟩ := by
    rw [field, fieldOrError_qualified hq hs]
    rfl
  refine ⟨⟨n, t, []⟩, ?_, hf, ?_, ?_, ?_, ?_, ?_, ?_, ?_⟩
  · rw [renderSpec_shape]
    obtain ⟨h1, h2, ⟨rfl, rfl⟩ | ⟨h3, h4, rfl⟩⟩ := hq
    · simp
    · simp [h3]
  · simp [asc, hv, hf, Res.must, ascending]
  · simp [desc, hv, hf, Res.must, descending]
  · simp [orderBy, asc, hv, hf, Res.must, ascending]
  · simp [orderBy, asc, hv, hf, Res.must, ascending]
  · simp [orderBy, desc, hv, hf, Res.must, ascending, descending]
  · intro k v
    simp [mkField, newFieldValue, hf, newBase, lAND]
  · simp [isNull, hf, newBase, lAND]

/-- C27 fails for a name with a tab: `Validate` accepts it, `Field`, `ASC` and `EqualTo` panic. -/
theorem C27_safe_false :
    validate c!"a\tb" = .ok () ∧ field c!"a\tb" = .panic (.fromErr .badField) ∧
    asc c!"a\tb" = .panic (.fromErr .badField) ∧ equalTo c!"a\tb" (.other 0) = .panic (.fromErr .badField) :=
  ⟨by decide, by decide, by decide, rfl⟩

example : validate c!"users.id" = .ok () ∧ NoSpace c!"users.id" ∧ asc c!"users.id" = .ok ⟨⟨c!"id", c!"users", []⟩, c!"ASC"⟩ :=
  ⟨by decide, by unfold NoSpace; decide, by decide⟩
example : validate c!"a.b.c" = .err .nameDots ∧ validate c!"it's" = .err .nameQuote := by decide

/-! ## C28 -/

/-- The first occurrences of a list, in order: an element is kept iff it did not occur before. -/
def FirstOcc : List Str → List Str → List Str → Prop
  | _, [], out => out = []
  | seen, x :: xs, out =>
    (x ∈ seen ∧ FirstOcc seen xs out) ∨ (x ∉ seen ∧ ∃ out', out = x :: out' ∧ FirstOcc (seen ++ [x]) xs out')

theorem uniqGo_spec (xs answer : List Str) : ∃ out, uniqGo answer xs = answer ++ out ∧ FirstOcc answer xs out := by
  induction xs generalizing answer with
  | nil => exact ⟨[], by simp [uniqGo], rfl⟩
  | cons x xs ih =>
    by_cases h : x ∈ answer
    · obtain ⟨out, h1, h2⟩ := ih answer
      exact ⟨out, by simp [uniqGo, h, h1], .inl ⟨h, h2⟩⟩
    · obtain ⟨out, h1, h2⟩ := ih (answer ++ [x])
      exact ⟨x :: out, by simp [uniqGo, h, h1], .inr ⟨h, out, rfl, h2⟩⟩

/-- C28: the result has no duplicates, contains exactly the input's names, is a subsequence of the input, consists of the
first occurrences, and is the input itself when that has no duplicates. -/
theorem C28_uniq (xs : List Str) :
    (uniqFieldNames xs).Nodup ∧ (∀ x, x ∈ uniqFieldNames xs ↔ x ∈ xs) ∧ (uniqFieldNames xs).Sublist xs ∧
    FirstOcc [] xs (uniqFieldNames xs) ∧ (xs.Nodup → uniqFieldNames xs = xs) ∧
    uniqFieldNames (uniqFieldNames xs) = uniqFieldNames xs := by
  have key : ∀ (xs seen out : List Str), FirstOcc seen xs out →
      (∀ x ∈ out, x ∉ seen) ∧ out.Nodup ∧ (∀ x, (x ∈ out ∨ x ∈ seen) ↔ (x ∈ xs ∨ x ∈ seen)) ∧ out.Sublist xs := by
    intro xs
    induction xs with
    | nil =>
      intro seen out h
      simp only [FirstOcc] at h
      subst h
      simp
    | cons x xs ih =>
      intro seen out h
      rcases h with ⟨hx, h⟩ | ⟨hx, out', rfl, h⟩
      · obtain ⟨h1, h2, h3, h4⟩ := ih _ _ h
        refine ⟨h1, h2, ?_, h4.cons _⟩
        intro y
        rw [h3 y]
        simp only [List.mem_cons]
        constructor
        · rintro (h | h)
          · exact .inl (.inr h)
          · exact .inr h
        · rintro ((rfl | h) | h)
          · exact .inr hx
          · exact .inl h
          · exact .inr h
      · obtain ⟨h1, h2, h3, h4⟩ := ih _ _ h
        refine ⟨?_, ?_, ?_, h4.cons_cons _⟩
        · intro y hy
          simp only [List.mem_cons] at hy
          rcases hy with rfl | hy
          · exact hx
          · intro hs
            exact h1 y hy (by simp [hs])
        · rw [List.nodup_cons]
          exact ⟨fun hm => h1 x hm (by simp), h2⟩
        · intro y
          have := h3 y
          simp only [List.mem_append, List.mem_cons, List.not_mem_nil, or_false] at this ⊢
          constructor
          · rintro ((h | h) | h)
            · exact .inl (.inl h)
            · rcases this.mp (.inl h) with h | h | h
              · exact .inl (.inr h)
              · exact .inr h
              · exact .inl (.inl h)
            · exact .inr h
          · rintro ((h | h) | h)
            · exact .inl (.inl h)
            · rcases this.mpr (.inl h) with h | h | h
              · exact .inl (.inr h)
              · exact .inr h
              · exact .inl (.inl h)
            · exact .inr h
  have hid : ∀ (xs seen out : List Str), FirstOcc seen xs out → xs.Nodup → (∀ x ∈ xs, x ∉ seen) → out = xs := by
    intro xs
    induction xs with
    | nil => intro seen out h _ _; exact h
    | cons x xs ih =>
      intro seen out h hn hs
      rw [List.nodup_cons] at hn
      rcases h with ⟨hx, _⟩ | ⟨_, out', rfl, h⟩
      · exact absurd hx (hs x (by simp))
      · rw [ih _ _ h hn.2 (by
          intro y hy hm
          simp only [List.mem_append, List.mem_cons, List.not_mem_nil, or_false] at hm
          rcases hm with hm | rfl
          · exact hs y (by simp [hy]) hm
          · exact hn.1 hy)]
  have hfo : ∀ xs, FirstOcc [] xs (uniqFieldNames xs) := by
    intro xs
    obtain ⟨out, h1, h2⟩ := uniqGo_spec xs []
    rw [uniqFieldNames, h1]
    simpa using h2
  obtain ⟨_, h2, h3, h4⟩ := key _ _ _ (hfo xs)
  refine ⟨h2, fun x => by simpa using h3 x, h4, hfo xs, fun hn => hid _ _ _ (hfo xs) hn (by simp), ?_⟩
  exact hid _ _ _ (hfo _) h2 (by simp)

example : uniqFieldNames [c!"b", c!"a", c!"b", c!"c", c!"a"] = [c!"b", c!"a", c!"c"] := by decide

end Query
