import Verif.Spec.Convert
import Verif.Proof.Scan
import Verif.Props.Ident
import Verif.Model.Write
/-!
# C29, C37, C38, C42, C43: values, orderings, enumerations, table sources
-/
namespace Query

/-! ## C29 -/

theorem mapL_ok {α β : Type} (f : α → Res β) (g : α → β) (xs : List α) (h : ∀ x ∈ xs, f x = .ok (g x)) :
    Res.mapL f xs = .ok (xs.map g) := by
  induction xs with
  | nil => rfl
  | cons x xs ih => simp [Res.mapL, h x (by simp), ih (fun y hy => h y (by simp [hy]))]

theorem mapEntry_valid {e : Str × Val} (hv : validate e.1 = .ok ()) (hs : NoSpace e.1) :
    ∃ fd : FieldDef, fd.renderSpec = e.1 ∧ mapEntry e = .ok ⟨fd, e.2⟩ := by
  obtain ⟨fd, h1, h2, _⟩ := C27_safe_partial e.1 hv hs
  exact ⟨fd, h1, by simp [mapEntry, hv, newFieldValue, h2]⟩

/-- C29, first part, for keys without odd white space: if all keys are valid names there is one field value per entry, in
the order the map is visited, whose field prints as the key and whose value is the entry's. -/
theorem C29_valid_partial (es : List (Str × Val)) (hs : ∀ e ∈ es, NoSpace e.1) (hv : ∀ e ∈ es, validate e.1 = .ok ()) :
    ∃ fvs, mapFieldValues es = .ok fvs ∧ fvs.map (fun fv => (fv.fd.renderSpec, fv.value)) = es := by
  induction es with
  | nil => exact ⟨[], rfl, rfl⟩
  | cons e es ih =>
    obtain ⟨fvs, h1, h2⟩ := ih (fun x hx => hs x (by simp [hx])) (fun x hx => hv x (by simp [hx]))
    obtain ⟨fd, h3, h4⟩ := mapEntry_valid (hv e (by simp)) (hs e (by simp))
    simp only [mapFieldValues] at h1
    refine ⟨⟨fd, e.2⟩ :: fvs, by simp [mapFieldValues, Res.mapL, h4, h1], ?_⟩
    simp [h2, h3]

/-- C29, second part, for keys without odd white space: if some key is not a valid name the result is an error, wherever
the entry comes in the iteration. -/
theorem C29_invalid_partial (es : List (Str × Val)) (hs : ∀ e ∈ es, validate e.1 = .ok () → NoSpace e.1)
    (hv : ∃ e ∈ es, validate e.1 ≠ .ok ()) : mapFieldValues es = .err .badMapKey := by
  have hnp : ∀ s p, validate s ≠ .panic p := by
    intro s p
    unfold validate
    repeat' split
    all_goals simp
  induction es with
  | nil => simp at hv
  | cons e es ih =>
    simp only [mapFieldValues, Res.mapL]
    cases he : validate e.1 with
    | ok u =>
      obtain ⟨fd, _, h4⟩ := mapEntry_valid (e := e) he (hs e (by simp) he)
      have : ∃ e ∈ es, validate e.1 ≠ .ok () := by
        obtain ⟨x, hx, hxv⟩ := hv
        simp only [List.mem_cons] at hx
        rcases hx with rfl | hx
        · exact absurd he hxv
        · exact ⟨x, hx, hxv⟩
      have := ih (fun x hx => hs x (by simp [hx])) this
      simp only [mapFieldValues] at this
      simp [h4, this]
    | err x => simp [mapEntry, he]
    | panic p => exact absurd he (hnp _ _)

/-- C29, third part: two iteration orders of the same map give the same values up to order. -/
theorem C29_order (es es' : List (Str × Val)) (h : es.Perm es') (fvs fvs' : List FieldValue)
    (h1 : mapFieldValues es = .ok fvs) (h2 : mapFieldValues es' = .ok fvs') : fvs.Perm fvs' := by
  have split2 : ∀ (x : Str × Val) (l : List (Str × Val)) r, Res.mapL mapEntry (x :: l) = .ok r →
      ∃ a r', mapEntry x = .ok a ∧ Res.mapL mapEntry l = .ok r' ∧ r = a :: r' := by
    intro x l r hr
    simp only [Res.mapL] at hr
    obtain ⟨a, ha, hr⟩ := Res.bind_eq_ok.mp hr
    obtain ⟨r', hr', hr⟩ := Res.bind_eq_ok.mp hr
    simp at hr
    exact ⟨a, r', ha, hr', hr.symm⟩
  have hok : ∀ {es es' : List (Str × Val)}, es.Perm es' → ∀ fvs, Res.mapL mapEntry es = .ok fvs →
      ∃ fvs', Res.mapL mapEntry es' = .ok fvs' ∧ fvs.Perm fvs' := by
    intro es es' h
    induction h with
    | nil => intro fvs h; exact ⟨fvs, h, .refl _⟩
    | @cons x l l' _ ih =>
      intro fvs h
      obtain ⟨a, r, ha, hr, rfl⟩ := split2 _ _ _ h
      obtain ⟨r', hr', hp⟩ := ih r hr
      exact ⟨a :: r', by simp [Res.mapL, ha, hr'], hp.cons a⟩
    | @swap x y l =>
      intro fvs h
      obtain ⟨a, r, ha, hr, rfl⟩ := split2 _ _ _ h
      obtain ⟨b, r, hb, hr', rfl⟩ := split2 _ _ _ hr
      clear hr
      exact ⟨b :: a :: r, by simp [Res.mapL, ha, hb, hr'], .swap _ _ _⟩
    | trans _ _ ih1 ih2 =>
      intro fvs h
      obtain ⟨r, hr, hp⟩ := ih1 fvs h
      obtain ⟨r', hr', hp'⟩ := ih2 r hr
      exact ⟨r', hr', hp.trans hp'⟩
  obtain ⟨r, hr, hp⟩ := hok h fvs h1
  simp only [mapFieldValues] at h2
  rw [hr] at h2
  simp at h2
  exact h2 ▸ hp

/-- C29 fails for keys with white space other than the space character: the call panics instead of returning an error, and
with two bad keys the outcome (panic or error) depends on the iteration order. -/
theorem C29_false :
    mapFieldValues [(c!"a\tb", .nil)] = .panic (.fromErr .badField) ∧
    mapFieldValues [(c!"a\tb", .nil), (c!"c d", .nil)] = .panic (.fromErr .badField) ∧
    mapFieldValues [(c!"c d", .nil), (c!"a\tb", .nil)] = .err .badMapKey := ⟨rfl, rfl, rfl⟩

example : mapFieldValues [(c!"id", .other 1), (c!"t.name", .str c!"x")] =
    .ok [⟨⟨c!"id", [], []⟩, .other 1⟩, ⟨⟨c!"name", c!"t", []⟩, .str c!"x"⟩] := rfl
example : mapFieldValues [(c!"id", .other 1), (c!"it's", .nil)] = .err .badMapKey := rfl

/-! ## C37 -/

/-- The directions that may be asked for, and the default. -/
def directionOf : List Str → Option Str
  | [] => some c!"ASC"
  | d :: _ => if d = c!"ASC" ∨ d = c!"DESC" then some d else none

/-- C37: the ordering produced has the requested direction and the field the text specifies; it is produced exactly when
the name is valid, specifies a field and the direction is known, otherwise the call panics. -/
theorem C37_exact (s : Str) (dirs : List Str) :
    (∀ o, orderBy s dirs = .ok o ↔
      ∃ d fd, directionOf dirs = some d ∧ validate s = .ok () ∧ fieldOrError s = .ok fd ∧ o = ⟨fd, d⟩) ∧
    ((∃ p, orderBy s dirs = .panic p) ↔
      directionOf dirs = none ∨ validate s ≠ .ok () ∨ ∃ e, fieldOrError s = .err e) := by
  have hnp : ∀ s p, validate s ≠ .panic p := by
    intro s p
    unfold validate
    repeat' split
    all_goals simp
  have key : ∀ d, ((∀ o, ((validate s).must.bind fun _ => (field s).bind fun f => .ok (⟨f, d⟩ : FieldSorting)) = .ok o ↔
        ∃ fd, validate s = .ok () ∧ fieldOrError s = .ok fd ∧ o = ⟨fd, d⟩) ∧
      ((∃ p, ((validate s).must.bind fun _ => (field s).bind fun f => .ok (⟨f, d⟩ : FieldSorting)) = .panic p) ↔
        validate s ≠ .ok () ∨ ∃ e, fieldOrError s = .err e)) := by
    intro d
    cases hv : validate s with
    | panic p => exact absurd hv (hnp s p)
    | err e => simp [Res.must]
    | ok u =>
      cases hf : fieldOrError s with
      | panic p => exact absurd hf (fieldOrError_no_panic s p)
      | err e => simp [Res.must, field, hf]
      | ok fd =>
        simp [Res.must, field, hf]
        intro o
        exact eq_comm
  cases dirs with
  | nil =>
    simp only [orderBy, asc, ascending, directionOf, Option.some.injEq, reduceCtorEq, false_or]
    refine ⟨fun o => ?_, (key _).2⟩
    rw [(key _).1 o]
    simp
  | cons d ds =>
    by_cases h1 : d = ascending
    · have e1 : orderBy s (d :: ds) = asc s := by simp only [orderBy]; rw [if_pos h1]
      have e2 : directionOf (d :: ds) = some c!"ASC" := by subst h1; rfl
      simp only [e1, e2, Option.some.injEq, reduceCtorEq, false_or, asc, ascending]
      refine ⟨fun o => ?_, (key _).2⟩
      rw [(key _).1 o]
      simp
    · by_cases h2 : d = descending
      · have e1 : orderBy s (d :: ds) = desc s := by simp only [orderBy]; rw [if_neg h1, if_pos h2]
        have e2 : directionOf (d :: ds) = some c!"DESC" := by subst h2; rfl
        simp only [e1, e2, Option.some.injEq, reduceCtorEq, false_or, desc, descending]
        refine ⟨fun o => ?_, (key _).2⟩
        rw [(key _).1 o]
        simp
      · have e1 : orderBy s (d :: ds) = .panic .badDirection := by simp only [orderBy]; rw [if_neg h1, if_neg h2]
        have e2 : directionOf (d :: ds) = none := by
          simp only [directionOf]
          exact if_neg (fun h => h.elim h1 h2)
        simp [e1, e2]

/-- C37, for names without odd white space: `ASC`, `DESC` and `OrderBy` give the key `<name> <direction>` with the
requested direction and panic exactly on an invalid name or an unknown direction. -/
theorem C37_direction_partial (s : Str) (hs : NoSpace s) :
    (∀ d, (∃ o, orderBy s d = .ok o ∧ ∃ dir, directionOf d = some dir ∧ o.render = s ++ c!" " ++ dir) ↔
      validate s = .ok () ∧ (directionOf d).isSome) ∧
    (∀ d, (∃ p, orderBy s d = .panic p) ↔ validate s ≠ .ok () ∨ directionOf d = none) ∧
    asc s = orderBy s [c!"ASC"] ∧ desc s = orderBy s [c!"DESC"] ∧ orderBy s [] = asc s := by
  have hfield : validate s = .ok () → ∃ fd, fieldOrError s = .ok fd ∧ fd.renderField = s := by
    intro hv
    obtain ⟨⟨t, n, hq⟩, _⟩ := (C27_validate s).mp hv
    refine ⟨⟨n, t, []⟩, fieldOrError_qualified hq hs, ?_⟩
    obtain ⟨h1, h2, ⟨rfl, rfl⟩ | ⟨h3, h4, rfl⟩⟩ := hq
    · simp [FieldDef.renderField]
    · simp [FieldDef.renderField, List.length_pos_iff.mpr h3]
  refine ⟨?_, ?_, ?_, ?_, rfl⟩
  · intro d
    constructor
    · rintro ⟨o, ho, dir, hd, _⟩
      obtain ⟨d', fd, _, h2, _⟩ := ((C37_exact s d).1 o).mp ho
      exact ⟨h2, by simp [hd]⟩
    · rintro ⟨hv, hd⟩
      obtain ⟨fd, hf, hr⟩ := hfield hv
      obtain ⟨dir, hdir⟩ := Option.isSome_iff_exists.mp hd
      exact ⟨⟨fd, dir⟩, ((C37_exact s d).1 _).mpr ⟨dir, fd, hdir, hv, hf, rfl⟩, dir, hdir, by
        simp [FieldSorting.render, hr]⟩
  · intro d
    rw [(C37_exact s d).2]
    constructor
    · rintro (h | h | ⟨e, he⟩)
      · exact .inr h
      · exact .inl h
      · by_cases hv : validate s = .ok ()
        · obtain ⟨fd, hf, _⟩ := hfield hv
          rw [hf] at he
          simp at he
        · exact .inl hv
    · rintro (h | h)
      · exact .inr (.inl h)
      · exact .inl h
  · simp [orderBy, ascending]
  · simp [orderBy, ascending, descending]

/-- C37 fails for a name with a tab: it passes `Validate`, the direction is known, and the call panics. -/
theorem C37_direction_false :
    validate c!"a\tb" = .ok () ∧ orderBy c!"a\tb" [c!"DESC"] = .panic (.fromErr .badField) := by decide

example : orderBy c!"users.id" [c!"DESC"] = .ok ⟨⟨c!"id", c!"users", []⟩, c!"DESC"⟩ ∧ NoSpace c!"users.id" :=
  ⟨by decide, by unfold NoSpace; decide⟩
example : orderBy c!"id" [c!"desc"] = .panic .badDirection ∧ orderBy c!"a.b.c" [] = .panic (.fromErr .nameDots) := by decide

/-! ## C38 -/

theorem each_mapL {α β : Type} (f : α → Res β) (R : α → β → Prop) (h : ∀ a b, f a = .ok b ↔ R a b) (xs : List α)
    (ys : List β) : Res.mapL f xs = .ok ys ↔ Each R xs ys := by
  induction xs generalizing ys with
  | nil =>
    simp only [Res.mapL, Res.ok.injEq]
    constructor
    · rintro rfl; exact .nil
    · intro h; cases h; rfl
  | cons x xs ih =>
    simp only [Res.mapL]
    rw [Res.bind_eq_ok]
    constructor
    · rintro ⟨b, hb, hr⟩
      obtain ⟨bs, hbs, hr⟩ := Res.bind_eq_ok.mp hr
      simp at hr
      subst hr
      exact .cons ((h _ _).mp hb) ((ih _).mp hbs)
    · intro he
      cases he with
      | @cons _ b _ bs h1 h2 => exact ⟨b, (h _ _).mpr h1, by simp [(ih _).mpr h2]⟩

theorem valuerElem_iff (e v : Val) : valuerElem e = .ok v ↔ GivesValue e v := by
  constructor
  · intro h
    cases e <;> simp [valuerElem, Val.callValue] at h <;> subst h <;> constructor
  · intro h; cases h <;> rfl

theorem providerElem_iff (e v : Val) : providerElem e = .ok v ↔ GivesDatabaseValue e v := by
  constructor
  · intro h
    cases e <;> simp [providerElem, Val.callDatabaseValue] at h <;> subst h <;> constructor
  · intro h; cases h <;> rfl

theorem reflElem_iff (e v : Val) : reflElem e = .ok v ↔ GivesValueOk e v := by
  constructor
  · intro h
    cases e with
    | valuer v f => cases f <;> simp [reflElem, Val.callValue] at h; subst h; constructor
    | both v f d => cases f <;> simp [reflElem, Val.callValue] at h; subst h; constructor
    | _ => simp [reflElem, Val.callValue] at h
  · intro h; cases h <;> rfl

/-- C38: the parameters of a field value are exactly those of the documented conversion. -/
theorem C38_values (fv : FieldValue) (vs : List Val) : fv.values = .ok vs ↔ Converts fv.value vs := by
  obtain ⟨fd, x⟩ := fv
  have hnv : ∀ {x : Val}, x.callValue = none → ∀ w, ¬ GivesValue x w := by
    intro x hx w hw
    cases hw <;> simp [Val.callValue] at hx
  have hnd : ∀ {x : Val}, x.callDatabaseValue = none → ∀ w, ¬ GivesDatabaseValue x w := by
    intro x hx w hw
    cases hw <;> simp [Val.callDatabaseValue] at hx
  cases x with
  | valuer v f =>
    simp only [FieldValue.values, Res.ok.injEq]
    constructor
    · rintro rfl; exact .value .valuer
    · intro h
      cases h with
      | value h => cases h; rfl
      | database h1 h2 => cases h2
      | ordinary h => exact absurd h (by simp [Val.Ordinary])
  | both v f d =>
    simp only [FieldValue.values, Res.ok.injEq]
    constructor
    · rintro rfl; exact .value .both
    · intro h
      cases h with
      | value h => cases h; rfl
      | database h1 h2 => exact absurd .both (h1 _)
      | ordinary h => exact absurd h (by simp [Val.Ordinary])
  | provider d =>
    simp only [FieldValue.values, Res.ok.injEq]
    constructor
    · rintro rfl; exact .database (hnv rfl) .provider
    · intro h
      cases h with
      | value h => cases h
      | database h1 h2 => cases h2; rfl
      | ordinary h => exact absurd h (by simp [Val.Ordinary])
  | valuers es =>
    simp only [FieldValue.values]
    rw [each_mapL _ _ valuerElem_iff]
    constructor
    · exact .valuers
    · intro h
      cases h with
      | value h => cases h
      | database h1 h2 => cases h2
      | valuers h => exact h
      | ordinary h => exact absurd h (by simp [Val.Ordinary])
  | providers es =>
    simp only [FieldValue.values]
    rw [each_mapL _ _ providerElem_iff]
    constructor
    · exact .providers
    · intro h
      cases h with
      | value h => cases h
      | database h1 h2 => cases h2
      | providers h => exact h
      | ordinary h => exact absurd h (by simp [Val.Ordinary])
  | reflSlice es =>
    simp only [FieldValue.values]
    rw [each_mapL _ _ reflElem_iff]
    constructor
    · exact .reflSlice
    · intro h
      cases h with
      | value h => cases h
      | database h1 h2 => cases h2
      | reflSlice h => exact h
      | ordinary h => exact absurd h (by simp [Val.Ordinary])
  | strs ss =>
    simp only [FieldValue.values, Res.ok.injEq]
    constructor
    · rintro rfl; exact .strs
    · intro h
      cases h with
      | value h => cases h
      | database h1 h2 => cases h2
      | strs => rfl
      | ordinary h => exact absurd h (by simp [Val.Ordinary])
  | _ =>
    simp only [FieldValue.values, Res.ok.injEq]
    constructor
    · rintro rfl; exact .ordinary trivial
    · intro h
      cases h with
      | value h => cases h
      | database h1 h2 => cases h2
      | ordinary h => rfl

/-- C38: the conversion fails (by panic, never by error) only inside slices, on a nil element or, for slices handled by
reflection, on an element whose `Value()` fails. -/
theorem C38_panics (fv : FieldValue) :
    (∀ e, fv.values ≠ .err e) ∧
    ((∃ p, fv.values = .panic p) ↔
      (∃ es, fv.value = .valuers es ∧ ∃ e ∈ es, ∀ v, ¬ GivesValue e v) ∨
      (∃ es, fv.value = .providers es ∧ ∃ e ∈ es, ∀ v, ¬ GivesDatabaseValue e v) ∨
      (∃ es, fv.value = .reflSlice es ∧ ∃ e ∈ es, ∀ v, ¬ GivesValueOk e v)) := by
  have hm : ∀ (f : Val → Res Val) (R : Val → Val → Prop), (∀ a b, f a = .ok b ↔ R a b) → (∀ a e, f a ≠ .err e) →
      ∀ es, (∀ e, Res.mapL f es ≠ .err e) ∧ ((∃ p, Res.mapL f es = .panic p) ↔ ∃ e ∈ es, ∀ v, ¬ R e v) := by
    intro f R hR he es
    induction es with
    | nil => simp [Res.mapL]
    | cons x xs ih =>
      cases hx : f x with
      | err e => exact absurd hx (he x e)
      | panic p =>
        refine ⟨by simp [Res.mapL, hx], ?_⟩
        simp only [Res.mapL, hx, Res.bind_panic, Res.panic.injEq, exists_eq', true_iff]
        exact ⟨x, by simp, fun v hv => by rw [(hR x v).mpr hv] at hx; simp at hx⟩
      | ok v =>
        have hnot : ¬ ∀ v, ¬ R x v := fun h => h v ((hR x v).mp hx)
        cases hxs : Res.mapL f xs with
        | err e => exact absurd hxs (ih.1 e)
        | panic p =>
          refine ⟨by simp [Res.mapL, hx, hxs], ?_⟩
          obtain ⟨e, hem, hev⟩ := ih.2.mp ⟨p, hxs⟩
          simp only [Res.mapL, hx, hxs, Res.bind_ok, Res.bind_panic, Res.panic.injEq, exists_eq', true_iff]
          exact ⟨e, by simp [hem], hev⟩
        | ok vs =>
          refine ⟨by simp [Res.mapL, hx, hxs], ?_⟩
          simp only [Res.mapL, hx, hxs, Res.bind_ok, reduceCtorEq, exists_false, false_iff]
          rintro ⟨e, hem, hev⟩
          simp only [List.mem_cons] at hem
          rcases hem with rfl | hem
          · exact hnot hev
          · obtain ⟨p, hp⟩ := ih.2.mpr ⟨e, hem, hev⟩
            rw [hxs] at hp
            simp at hp
  have h1 := hm valuerElem GivesValue valuerElem_iff (by intro a e; cases a <;> simp [valuerElem, Val.callValue])
  have h2 := hm providerElem GivesDatabaseValue providerElem_iff
    (by intro a e; cases a <;> simp [providerElem, Val.callDatabaseValue])
  have h3 := hm reflElem GivesValueOk reflElem_iff (by
    intro a e
    cases a with
    | valuer v f => cases f <;> simp [reflElem, Val.callValue]
    | both v f d => cases f <;> simp [reflElem, Val.callValue]
    | _ => simp [reflElem, Val.callValue])
  obtain ⟨fd, x⟩ := fv
  cases x with
  | valuers es => simpa [FieldValue.values] using h1 es
  | providers es => simpa [FieldValue.values] using h2 es
  | reflSlice es => simpa [FieldValue.values] using h3 es
  | _ => simp [FieldValue.values]

/-- C38: `FieldName.Value` first takes the `DatabaseValue()` of a provider, as its own documentation says, and the rest of
the conversion applies to that; other values are converted as by `NewFieldValue`. -/
theorem C38_fieldName_value (fn : Str) (fd : FieldDef) (hf : field fn = .ok fd) (x : Val) :
    ∃ fv, fieldNameValue fn x = .ok fv ∧ fv.fd = fd ∧
      (∀ d, GivesDatabaseValue x d → ∀ vs, fv.values = .ok vs ↔ Converts d vs) ∧
      ((∀ d, ¬ GivesDatabaseValue x d) → ∀ vs, fv.values = .ok vs ↔ Converts x vs) := by
  cases hd : x.callDatabaseValue with
  | some d =>
    refine ⟨⟨fd, d⟩, by simp [fieldNameValue, hd, newFieldValue, hf], rfl, ?_, ?_⟩
    · intro d' hd' vs
      have : d' = d := by cases hd' <;> simpa [Val.callDatabaseValue] using hd
      subst this
      exact C38_values _ _
    · intro hn
      exfalso
      cases x <;> simp [Val.callDatabaseValue] at hd <;> subst hd
      · exact hn _ .provider
      · exact hn _ .both
  | none =>
    refine ⟨⟨fd, x⟩, by simp [fieldNameValue, hd, newFieldValue, hf], rfl, ?_, fun _ vs => C38_values _ _⟩
    intro d' hd'
    exfalso
    cases hd' <;> simp [Val.callDatabaseValue] at hd

/-- C38: `FieldDefinition.Value` takes the value as it is, unlike `FieldName.Value`: the conversion is that of the value itself. -/
theorem C38_definition_value (f : FieldDef) (x : Val) (fv : FieldValue) (h : f.value x = .ok fv) (vs : List Val) :
    fv.values = .ok vs ↔ Converts x vs := by
  obtain ⟨g, hg, e⟩ := Res.bind_eq_ok.1 h
  obtain ⟨fd, _, e'⟩ := Res.bind_eq_ok.1 hg
  cases e'
  cases e
  exact C38_values _ _

example : ((⟨c!"f", c!"t", []⟩ : FieldDef).value (.both (.other 1) false (.other 2))).bind FieldValue.values = .ok [.other 1] := rfl

/-- A type with both methods: `Values` prefers `Value()`, `FieldName.Value` prefers `DatabaseValue()`. -/
example : (⟨⟨c!"f", [], []⟩, .both (.other 1) false (.other 2)⟩ : FieldValue).values = .ok [.other 1] ∧
    (fieldNameValue c!"f" (.both (.other 1) false (.other 2))).bind FieldValue.values = .ok [.other 2] := ⟨rfl, rfl⟩
example : (⟨⟨c!"f", [], []⟩, .reflSlice [.valuer (.other 1) false, .valuer (.other 2) true]⟩ : FieldValue).values =
    .panic .valuerErr := rfl

/-! ## C42 -/

theorem itoa_inj {m n : Nat} (h : itoa m = itoa n) : m = n := by
  have := itoa_value m
  rw [h, itoa_value] at this
  exact this.symm

theorem itoaInt_inj {a b : Int} (h : itoaInt a = itoaInt b) : a = b := by
  have hm : ∀ n, '-' ∉ itoa n := by
    intro n hn
    have := Nat.isDigit_of_mem_toDigits (b := 10) (n := n) (by decide) (by decide) hn
    revert this
    decide
  cases a with
  | ofNat m =>
    cases b with
    | ofNat n => exact congrArg Int.ofNat (itoa_inj h)
    | negSucc n =>
      simp only [itoaInt] at h
      exact absurd (by rw [h]; simp) (hm m)
  | negSucc m =>
    cases b with
    | ofNat n =>
      simp only [itoaInt] at h
      exact absurd (by rw [← h]; simp) (hm n)
    | negSucc n =>
      simp only [itoaInt, List.cons.injEq, true_and] at h
      have := itoa_inj h
      simp at this
      rw [this]

/-- C42: operations print their keyword, unknown ones their number, and no two print alike. -/
theorem C42_operation :
    operationString doSelect = c!"SELECT" ∧ operationString doInsert = c!"INSERT" ∧
    operationString doUpdate = c!"UPDATE" ∧ operationString doDelete = c!"DELETE" ∧
    (∀ n, n ∉ [doSelect, doInsert, doUpdate, doDelete] → operationString n = c!"unknown(" ++ itoaInt n ++ c!")") ∧
    (∀ m n, operationString m = operationString n → m = n) := by
  refine ⟨rfl, rfl, rfl, rfl, ?_, ?_⟩
  · intro n hn
    simp only [doSelect, doInsert, doUpdate, doDelete, List.mem_cons, List.not_mem_nil, or_false, not_or] at hn
    simp [operationString, hn]
  · intro m n h
    unfold operationString at h
    by_cases m0 : m = 0 <;> by_cases m1 : m = 1 <;> by_cases m2 : m = 2 <;> by_cases m3 : m = 3 <;>
    by_cases n0 : n = 0 <;> by_cases n1 : n = 1 <;> by_cases n2 : n = 2 <;> by_cases n3 : n = 3 <;>
    first
      | omega
      | (simp [m0, m1, m2, m3, n0, n1, n2, n3, kwSelect, kwInsert, kwUpdate, kwDelete] at h; done)
      | (simp only [m0, m1, m2, m3, n0, n1, n2, n3, if_false, List.append_cancel_left_eq, List.append_cancel_right_eq] at h
         exact itoaInt_inj h)

/-- C42: join types print their keyword, unknown ones their number, and no two print alike. -/
theorem C42_joinType :
    joinTypeString innerJoin = c!"INNER JOIN" ∧ joinTypeString leftJoin = c!"LEFT JOIN" ∧
    joinTypeString rightJoin = c!"RIGHT JOIN" ∧ joinTypeString fullJoin = c!"FULL JOIN" ∧
    (∀ n, n ∉ [innerJoin, leftJoin, rightJoin, fullJoin] → joinTypeString n = c!"unknown JOIN(" ++ itoaInt n ++ c!")") ∧
    (∀ m n, joinTypeString m = joinTypeString n → m = n) := by
  refine ⟨rfl, rfl, rfl, rfl, ?_, ?_⟩
  · intro n hn
    simp only [innerJoin, leftJoin, rightJoin, fullJoin, List.mem_cons, List.not_mem_nil, or_false, not_or] at hn
    simp [joinTypeString, hn]
  · intro m n h
    unfold joinTypeString at h
    by_cases m0 : m = 0 <;> by_cases m1 : m = 1 <;> by_cases m2 : m = 2 <;> by_cases m3 : m = 3 <;>
    by_cases n0 : n = 0 <;> by_cases n1 : n = 1 <;> by_cases n2 : n = 2 <;> by_cases n3 : n = 3 <;>
    first
      | omega
      | (simp [m0, m1, m2, m3, n0, n1, n2, n3] at h; done)
      | (simp only [m0, m1, m2, m3, n0, n1, n2, n3, if_false, List.append_cancel_left_eq, List.append_cancel_right_eq] at h
         exact itoaInt_inj h)

example : operationString 7 = c!"unknown(7)" ∧ operationString (-12) = c!"unknown(-12)" ∧
    joinTypeString 10 = c!"unknown JOIN(10)" := by decide

/-! ## C43 -/

theorem tableP_plain (n : Str) (hn : n ≠ []) (hs : NoSpace n) :
    tableP (.str n) = .ok ⟨n, []⟩ ∧ tableP (.name n) = .ok ⟨n, []⟩ ∧ tableP (.ident ⟨n, []⟩) = .ok ⟨n, []⟩ := by
  have h : tableOrError n = .ok ⟨n, []⟩ := by
    unfold tableOrError
    rw [fields_of_words (words_one hn hs)]
  simp [tableP, tableOrErrorP, h, Res.must]

/-- The three ways of naming a plain table. -/
def plainSources (n : Str) : List TableParam := [.str n, .name n, .ident ⟨n, []⟩]

/-- C43: for a plain table name every builder is the same whether the table is given as string, `TableName` or
`TableIdent`, and it is a fresh builder on that table. -/
theorem C43_sources (n : Str) (hn : n ≠ []) (hs : NoSpace n) (p : TableParam) (hp : p ∈ plainSources n) :
    selectFrom p = .ok ⟨doSelect, ⟨n, []⟩, [], ⟨[]⟩, newWhere⟩ ∧
    selectManyFrom p = .ok (selectManyFromBase ⟨doSelect, ⟨n, []⟩, [], ⟨[]⟩, newWhere⟩) ∧
    selectSingleFrom p = .ok (selectSingleFromBase ⟨doSelect, ⟨n, []⟩, [], ⟨[]⟩, newWhere⟩) ∧
    insertInto p = ⟨doInsert, n, []⟩ ∧ update p = ⟨doUpdate, n, newGroup lAND [], []⟩ ∧
    delete p = ⟨doDelete, n, newGroup lAND []⟩ := by
  obtain ⟨h1, h2, h3⟩ := tableP_plain n hn hs
  have hT : tableP p = .ok ⟨n, []⟩ ∧ paramTableName p = n := by
    simp only [plainSources, List.mem_cons, List.not_mem_nil, or_false] at hp
    rcases hp with rfl | rfl | rfl
    · exact ⟨h1, rfl⟩
    · exact ⟨h2, rfl⟩
    · exact ⟨h3, rfl⟩
  simp [selectFrom, selectManyFrom, selectSingleFrom, hT.1, insertInto, update, delete, hT.2, selectManyFromBase,
    selectSingleFromBase, doSelect]

/-- A plain name; and why plainness is needed: a string with an alias is parsed by SELECT but taken literally by INSERT. -/
example : c!"users" ≠ [] ∧ NoSpace c!"users" := ⟨by decide, by unfold NoSpace; decide⟩
example : (insertInto (.str c!"users u")).tableName = c!"users u" ∧
    tableP (.str c!"users u") = .ok ⟨c!"users", c!"u"⟩ := by decide

end Query
