import Verif.Props.Select
import Verif.Spec.KindProgram
import Verif.Spec.Promote
import Verif.Model.Access
/-!
# C82: what a builder reports stands in its statement

`FieldList()`, `FieldDefinitions()`, `RenderFrom()`, `TableName()`, `SetValues()` and `Values()` are methods of their own; the
statements are put together by `BuildQueryAndParams`.
-/
namespace Query

/-- The WHERE clause of a statement, in front of which the text is numbered from one: nothing without conditions. -/
inductive WherePart (w : WhereClause) : Str → Prop
  | none (h : w.conditions = []) : WherePart w []
  | some {s : Str} (h : w.conditions ≠ []) (hs : w.render 0 = .ok s) : WherePart w (c!" WHERE " ++ s)

/-- What the kind of a select adds to its text, after `n` parameters. -/
def kindTail (n : Nat) : SelB → Str
  | .base _ => []
  | .single _ => c!" LIMIT 1"
  | .many m => (if m.order = [] then [] else c!" ORDER BY " ++
      joinWith c!", " (m.order.map fun o => o.fd.renderField ++ c!" " ++ o.direction)) ++
      spaced (limitTexts n (limitItems m.offset m.limit))

/-- What the kind of a select adds to its parameters. -/
def kindPage : SelB → List Val
  | .many m => (limitItems m.offset m.limit).map fun p => .uint p.2
  | _ => []

/-- The text before WHERE is the list of fields and the tables. -/
theorem head_text (q : BaseSelect) :
    joinWith c!" " q.headTokens = c!"SELECT " ++ q.fields.fieldList ++ c!" FROM " ++ q.renderFrom := by
  unfold BaseSelect.headTokens BaseSelect.renderFrom
  have h1 := joinWith_append_sep c!" " [operationString doSelect, q.fields.fieldList, kwFrom]
    (q.baseTable.renderFrom :: q.joins.map TableJoiner.renderFrom) (by simp) (by simp)
  simp only [List.cons_append, List.nil_append] at h1 ⊢
  rw [h1]
  simp [joinWith, operationString, doSelect, kwSelect, kwFrom]

theorem base_reports (q : BaseSelect) (sql : Str) (params : List Val) (h : q.build = .ok (sql, params)) :
    ∃ w, WherePart q.where_ w ∧ q.values = .ok params ∧
      sql = c!"SELECT " ++ q.fields.fieldList ++ c!" FROM " ++ q.renderFrom ++ w := by
  have hv := ((C41_base_partial q sql params).mp h).2
  rcases base_build_shape q sql params h with ⟨hc, hs, hp⟩ | ⟨hc, w, hr, _, hs⟩
  · exact ⟨[], .none hc, hv, by rw [hs, head_text]; simp⟩
  · exact ⟨_, .some hc hr, hv, by rw [hs, head_text]; simp⟩

/-- **C82.** The statement of a select of any kind is SELECT with its `FieldList()`, FROM with its `RenderFrom()`, the WHERE clause
and what its kind adds, and nothing else; its parameters are its `Values()` and the page.  `FieldList()` writes the
`FieldDefinitions()`, `RenderFrom()` begins with the `TableName()`. -/
theorem C82_select (q : SelB) (sql : Str) (params : List Val) (h : q.build = .ok (sql, params)) :
    ∃ w vs, WherePart q.inner.where_ w ∧ q.values = .ok vs ∧ params = vs ++ kindPage q ∧
      sql = c!"SELECT " ++ q.fieldList ++ c!" FROM " ++ q.renderFrom ++ w ++ kindTail vs.length q ∧
      q.fieldList = (if q.fieldDefinitions = [] then c!"*" else joinWith c!", " (q.fieldDefinitions.map FieldDef.renderSpec)) ∧
      ∃ r, q.renderFrom = q.tableName ++ r := by
  have hl : ∀ f : Fields, f.fieldList =
      (if f.fieldDefinitions = [] then c!"*" else joinWith c!", " (f.fieldDefinitions.map FieldDef.renderSpec)) := by
    rintro ⟨fs⟩
    cases fs <;> simp [Fields.fieldList, Fields.fieldDefinitions]
  have hr : ∀ b : BaseSelect, ∃ r, b.renderFrom = b.tableName ++ r := by
    intro b
    have ht : ∃ r, b.baseTable.renderFrom = b.tableName ++ r := by
      unfold TableIdent.renderFrom BaseSelect.tableName
      split
      · exact ⟨c!" AS " ++ b.baseTable.alias, by simp⟩
      · exact ⟨[], by simp⟩
    obtain ⟨r, hr⟩ := ht
    unfold BaseSelect.renderFrom
    cases b.joins with
    | nil => exact ⟨r, by simp [joinWith, hr]⟩
    | cons j js => exact ⟨_, by simp only [List.map_cons, joinWith, hr, List.append_assoc]; rfl⟩
  cases q with
  | base b =>
    obtain ⟨w, h1, h2, h3⟩ := base_reports b sql params h
    exact ⟨w, params, h1, h2, by simp [kindPage], by rw [h3]; simp [kindTail, SelB.fieldList, SelB.renderFrom], hl _, hr b⟩
  | single s =>
    obtain ⟨⟨s0, p0⟩, hb, he⟩ := Res.bind_eq_ok.1 h
    cases he
    obtain ⟨w, h1, h2, h3⟩ := base_reports s.base s0 p0 hb
    exact ⟨w, p0, h1, h2, by simp [kindPage],
      by rw [h3]; simp [kindTail, SelB.fieldList, SelB.renderFrom, SelectSingle.fieldList, SelectSingle.renderFrom], hl _, hr _⟩
  | many m =>
    obtain ⟨s0, p0, hb, hs, hp⟩ := C20_many_tail m sql params h
    obtain ⟨w, h1, h2, h3⟩ := base_reports m.base s0 p0 hb
    exact ⟨w, p0, h1, h2, hp,
      by rw [hs, h3]; simp [kindTail, SelB.fieldList, SelB.renderFrom, SelectMany.fieldList, SelectMany.renderFrom], hl _, hr _⟩

example : ∃ sql params, (SelB.many exampleMany).build = .ok (sql, params) ∧
    (SelB.many exampleMany).fieldList = c!"x.id, u.name AS n" ∧
    (SelB.many exampleMany).renderFrom = c!"t AS x LEFT JOIN u ON x.id=u.tid" := by
  refine ⟨_, _, rfl, by decide, by decide⟩

/-- **C82** for counts: FROM is the `RenderFrom()` of the count and of the select it counts, whatever the kind of the select. -/
theorem C82_count (q : SelB) (names : List Str) (c : CountB) (hc : q.countOf names = .ok c) :
    c.renderFrom = q.renderFrom ∧
    ∀ sql params, c.build = .ok (sql, params) →
      ∃ w, WherePart q.inner.where_ w ∧ q.values = .ok params ∧
        sql = c!"SELECT COUNT(" ++ c.countField.renderField ++ c!") FROM " ++ c.renderFrom ++ w := by
  have hb : c.base = q.inner := by
    have key : ∀ b : BaseSelect, Query.count b names = .ok c → c.base = b := by
      intro b h
      unfold Query.count at h
      split at h <;>
      · obtain ⟨fd, _, e⟩ := Res.bind_eq_ok.1 h
        cases e
        rfl
    cases q <;> exact key _ hc
  have hv : q.values = q.inner.values := by cases q <;> rfl
  have hf : q.renderFrom = q.inner.renderFrom := by cases q <;> rfl
  refine ⟨by rw [hf, ← hb]; rfl, fun sql params h => ?_⟩
  rw [hv, ← hb]
  unfold CountB.build at h
  by_cases hl : c.base.where_.conditions.length > 0
  · rw [if_pos hl] at h
    obtain ⟨w, h1, h⟩ := Res.bind_eq_ok.1 h
    obtain ⟨vs, h2, h⟩ := Res.bind_eq_ok.1 h
    cases h
    refine ⟨_, .some (List.length_pos_iff.mp hl) h1, by unfold BaseSelect.values; rw [if_pos hl, h2], ?_⟩
    simp [joinWith, operationString, doSelect, kwSelect, kwFrom, kwCount, kwWhere, CountB.renderFrom]
  · rw [if_neg hl] at h
    cases h
    refine ⟨[], .none (List.length_eq_zero_iff.mp (by omega)), by unfold BaseSelect.values; rw [if_neg hl], ?_⟩
    simp [joinWith, operationString, doSelect, kwSelect, kwFrom, kwCount, CountB.renderFrom]

example : ∃ c, (SelB.many exampleMany).countOf [] = .ok c ∧ c.build.isOk = true := ⟨_, rfl, by decide⟩

theorem insert_loop_columns : ∀ (fvs : List FieldValue) (ps : List Val) (cols phs : List Str) (r : List Val × List Str × List Str),
    InsertB.loop fvs ps cols phs = .ok r → r.2.1 = cols ++ fvs.map fun v => v.fd.fieldName
  | [], ps, cols, phs, r, h => by cases h; simp
  | fv :: rest, ps, cols, phs, r, h => by
    obtain ⟨vs, _, h⟩ := Res.bind_eq_ok.1 h
    rw [insert_loop_columns rest _ _ _ r h]
    simp

/-- **C82** for writes: the table of the statement is the `RenderFrom()` and the `TableName()` of the builder, the columns of an
INSERT are those of its `SetValues()`. -/
theorem C82_write (i : InsertB) (u : UpdateB) (d : DeleteB) (sql : Str) (params : List Val) :
    i.renderFrom = i.getTable ∧ u.renderFrom = u.getTable ∧ d.renderFrom = d.getTable ∧
    (i.build = .ok (sql, params) → ∃ r, sql = c!"INSERT INTO " ++ i.renderFrom ++ c!"(" ++
      joinWith c!", " (i.getValues.map fun v => v.fd.getName) ++ c!") VALUES (" ++ r ++ c!")") ∧
    (u.build = .ok (sql, params) → ∃ r w, sql = c!"UPDATE " ++ u.renderFrom ++ c!" SET " ++ r ++ c!" WHERE " ++ w) ∧
    (d.build = .ok (sql, params) → ∃ w, sql = c!"DELETE FROM " ++ d.renderFrom ++ c!" WHERE " ++ w ∧
      d.where_.render 0 = .ok w ∧ d.where_.values = .ok params) := by
  refine ⟨rfl, rfl, rfl, fun h => ?_, fun h => ?_, fun h => ?_⟩
  · unfold InsertB.build at h
    split at h
    · cases h
    split at h
    · cases h
    obtain ⟨r, hr, h⟩ := Res.bind_eq_ok.1 h
    have := insert_loop_columns _ _ _ _ _ hr
    cases h
    refine ⟨joinWith c!", " r.2.2, ?_⟩
    simp [this, joinWith, kwInsert, kwInto, kwValues, InsertB.renderFrom, tableNameRenderFrom, InsertB.getValues, FieldDef.getName]
  · unfold UpdateB.build at h
    split at h
    · cases h
    split at h
    · cases h
    split at h
    · cases h
    obtain ⟨r, _, h⟩ := Res.bind_eq_ok.1 h
    obtain ⟨w, _, h⟩ := Res.bind_eq_ok.1 h
    obtain ⟨vs, _, h⟩ := Res.bind_eq_ok.1 h
    cases h
    refine ⟨r.1, w, ?_⟩
    simp [joinWith, kwUpdate, kwSet, kwWhere, UpdateB.renderFrom, tableNameRenderFrom]
  · unfold DeleteB.build at h
    split at h
    · cases h
    split at h
    · cases h
    obtain ⟨w, hw, h⟩ := Res.bind_eq_ok.1 h
    obtain ⟨vs, hv, h⟩ := Res.bind_eq_ok.1 h
    cases h
    refine ⟨w, ?_, hw, hv⟩
    simp [joinWith, kwDelete, kwFrom, kwWhere, DeleteB.renderFrom, tableNameRenderFrom]

/-- The fields named in the last call of `Fields`, if any. -/
def lastFields (cs : List KCall) : Option (List (ColRef × Option Str)) :=
  (cs.filterMap fun
    | .call (.other (.fields l)) => some l
    | _ => none).getLast?

theorem fields_conv (q : SelB) (c : Conv) : (q.conv c).fieldDefinitions = q.fieldDefinitions := by
  cases q <;> cases c <;> rfl

theorem on_fields {q q' : BaseSelect} {l r : FieldDef} (h : q.on l r = .ok q') : q'.fieldDefinitions = q.fieldDefinitions := by
  unfold BaseSelect.on at h
  split at h
  · cases h
  · cases h; rfl

/-- A call but `Fields` keeps the fields; `Fields` sets them, on a select of any kind. -/
theorem fields_run (q q' : SelB) (c : KCall) (h : KCall.run q c = .ok q') :
    (match c with
      | .call (.other (.fields l)) =>
        Res.mapL (fun p : ColRef × Option Str => field (asText p.1.text p.2)) l = .ok q'.fieldDefinitions
      | _ => q'.fieldDefinitions = q.fieldDefinitions) := by
  rcases c with c | _ | _
  · cases q with
    | base b =>
      rcases c with es | c
      · obtain ⟨_, _, h⟩ := Res.bind_eq_ok.1 h
        cases h; rfl
      · cases c with
        | fields l => obtain ⟨fs, hf, h⟩ := Res.bind_eq_ok.1 h; cases h; exact hf
        | join k t l r =>
          obtain ⟨_, _, h⟩ := Res.bind_eq_ok.1 h
          obtain ⟨_, _, h⟩ := Res.bind_eq_ok.1 h
          obtain ⟨_, _, h⟩ := Res.bind_eq_ok.1 h
          obtain ⟨b', hb, h⟩ := Res.bind_eq_ok.1 h
          cases h
          have := on_fields hb
          exact this
        | addWhere cs => obtain ⟨_, _, h⟩ := Res.bind_eq_ok.1 h; cases h; rfl
        | orderBy ks => obtain ⟨_, _, h⟩ := Res.bind_eq_ok.1 h; cases h; rfl
        | offset n => cases h; rfl
        | limit n => cases h; rfl
    | single b =>
      rcases c with es | c
      · obtain ⟨_, _, h⟩ := Res.bind_eq_ok.1 h
        cases h; rfl
      · cases c with
        | fields l => obtain ⟨fs, hf, h⟩ := Res.bind_eq_ok.1 h; cases h; exact hf
        | join k t l r =>
          obtain ⟨x, hx, h⟩ := Res.bind_eq_ok.1 h
          obtain ⟨_, _, hx⟩ := Res.bind_eq_ok.1 hx
          cases hx
          obtain ⟨_, _, h⟩ := Res.bind_eq_ok.1 h
          obtain ⟨_, _, h⟩ := Res.bind_eq_ok.1 h
          obtain ⟨b', hb, h⟩ := Res.bind_eq_ok.1 h
          obtain ⟨b'', hb2, hb'⟩ := Res.bind_eq_ok.1 hb
          cases hb'
          cases h
          have := on_fields hb2
          exact this
        | addWhere cs => obtain ⟨_, _, h⟩ := Res.bind_eq_ok.1 h; cases h; rfl
        | orderBy ks => obtain ⟨_, _, h⟩ := Res.bind_eq_ok.1 h; cases h; rfl
        | offset n => cases h; rfl
        | limit n => cases h; rfl
    | many b =>
      obtain ⟨m, hm, h⟩ := Res.bind_eq_ok.1 h
      cases h
      rcases c with es | c
      · obtain ⟨_, _, h⟩ := Res.bind_eq_ok.1 hm
        cases h; rfl
      · cases c with
        | fields l => obtain ⟨fs, hf, h⟩ := Res.bind_eq_ok.1 hm; cases h; exact hf
        | join k t l r =>
          obtain ⟨x, hx, h⟩ := Res.bind_eq_ok.1 hm
          obtain ⟨_, _, hx⟩ := Res.bind_eq_ok.1 hx
          cases hx
          obtain ⟨_, _, h⟩ := Res.bind_eq_ok.1 h
          obtain ⟨_, _, h⟩ := Res.bind_eq_ok.1 h
          obtain ⟨b'', hb, hb'⟩ := Res.bind_eq_ok.1 h
          cases hb'
          have := on_fields hb
          exact this
        | addWhere cs => obtain ⟨_, _, h⟩ := Res.bind_eq_ok.1 hm; cases h; rfl
        | orderBy ks => obtain ⟨_, _, h⟩ := Res.bind_eq_ok.1 hm; cases h; rfl
        | offset n => cases hm; rfl
        | limit n => cases hm; rfl
  · cases h; exact fields_conv q .single
  · cases h; exact fields_conv q .many

/-- **C82** for programs over selects of any kind: `FieldDefinitions()` are the fields of the last call of `Fields`, whatever calls came
in between and after, changes of kind included; none before such a call. -/
theorem C82_fields (p : KindProg) (q : SelB) (h : p.run = .ok q) :
    match lastFields p.calls with
    | none => q.fieldDefinitions = []
    | some l => Res.mapL (fun p : ColRef × Option Str => field (asText p.1.text p.2)) l = .ok q.fieldDefinitions := by
  obtain ⟨q0, h0, h⟩ := Res.bind_eq_ok.1 h
  have hz : q0.fieldDefinitions = [] := by
    unfold KindProg.first at h0
    split at h0
    · obtain ⟨b, hb, e⟩ := Res.bind_eq_ok.1 h0
      obtain ⟨_, _, hb⟩ := Res.bind_eq_ok.1 hb
      cases hb; cases e; rfl
    · obtain ⟨b, hb, e⟩ := Res.bind_eq_ok.1 h0
      obtain ⟨_, hb', hb⟩ := Res.bind_eq_ok.1 hb
      obtain ⟨_, _, hb'⟩ := Res.bind_eq_ok.1 hb'
      cases hb'; cases hb; cases e; rfl
    · obtain ⟨b, hb, e⟩ := Res.bind_eq_ok.1 h0
      obtain ⟨_, hb', hb⟩ := Res.bind_eq_ok.1 hb
      obtain ⟨_, _, hb'⟩ := Res.bind_eq_ok.1 hb'
      cases hb'; cases hb; cases e; rfl
  have key : ∀ (cs : List KCall) (q0 : SelB), KCall.runAll q0 cs = .ok q →
      match lastFields cs with
      | none => q.fieldDefinitions = q0.fieldDefinitions
      | some l => Res.mapL (fun p : ColRef × Option Str => field (asText p.1.text p.2)) l = .ok q.fieldDefinitions := by
    intro cs
    induction cs with
    | nil => intro q0 h; cases h; rfl
    | cons c cs ih =>
      intro q0 h
      obtain ⟨q1, h1, h⟩ := Res.bind_eq_ok.1 h
      have ih := ih q1 h
      have h1 := fields_run q0 q1 c h1
      by_cases hc : ∃ l, c = .call (.other (.fields l))
      · obtain ⟨l, rfl⟩ := hc
        have he : lastFields (.call (.other (.fields l)) :: cs) = some ((lastFields cs).getD l) := by
          unfold lastFields
          simp [List.getLast?_cons]
        rw [he]
        cases hl : lastFields cs with
        | none => rw [hl] at ih; simp only at ih h1; rw [ih]; exact h1
        | some l' => rw [hl] at ih; exact ih
      · have he : lastFields (c :: cs) = lastFields cs := by
          unfold lastFields
          rcases c with (_ | c) | _ | _ <;> try rfl
          cases c <;> first | rfl | exact absurd ⟨_, rfl⟩ hc
        have hq : q1.fieldDefinitions = q0.fieldDefinitions := by
          rcases c with (_ | c) | _ | _ <;> try exact h1
          cases c <;> first | exact h1 | exact absurd ⟨_, rfl⟩ hc
        rw [he, ← hq]
        exact ih
  have := key p.calls q0 h
  rw [hz] at this
  exact this

example : ∃ q, KindProg.run ⟨.many, ⟨c!"t", none⟩, [.call (.other (.fields [(⟨none, c!"a"⟩, none)])), .single,
      .call (.other (.fields [(⟨none, c!"b"⟩, some c!"x")])), .call (.other (.limit 3))]⟩ = .ok q ∧
    q.fieldDefinitions = [⟨c!"b", [], c!"x"⟩] := ⟨_, rfl, rfl⟩

end Query
