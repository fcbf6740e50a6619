import Verif.Proof.Retable
import Verif.Props.Laws
/-!
# C89: A condition can be given its table afterwards
-/
namespace Query
open Retable

/-- **C89**: whatever the nesting, and wherever `ApplyFieldTable` and `ApplyFieldSpec` are called in it, the condition is the one written
with these columns in the first place, panics included; and that should say of a row what the condition should.  What is missing: a field
specification with an alias (`C89_alias_false`). -/
theorem C89_calls_partial (a : ApExp) (h : a.OK) : a.plain.OK ∧ a.call = a.plain.call ∧ ∀ row, a.plain.means row = a.means row :=
  ⟨(plain_call a h).1, (plain_call a h).2, plain_means a h⟩

theorem says_applied {a : ApExp} (h : a.OK) {c : Cond} (hc : a.call = .ok c) {F : FieldDef → FieldDef} {f : ColRef → ColRef} (hF : Fits F f)
    (row : Row) (x : Tri) : TextMeans (c.refd F) row x ↔ TextMeans c (row.recol f) x := by
  obtain ⟨h1, h2⟩ := plain_call a h
  obtain ⟨h3, h4⟩ := recol_call hF a.plain h1
  have e1 := C77_exact (row.recol f) a.plain h1
  have e2 := C77_exact row (a.plain.recol f) h3
  have es : (a.plain.recol f).says row = a.plain.says (row.recol f) := by
    unfold CondExp.says
    rw [made_recol f row _ h1]
  rw [es] at e2
  rw [← h2, hc] at h4
  rw [← h2, hc] at e1
  rw [h4, Res.bind_ok] at e2
  cases hs : a.plain.says (row.recol f) with
  | none => rw [hs] at e1; cases e1
  | some y =>
    rw [hs] at e1 e2
    obtain ⟨c1, k1, k2⟩ := e1
    obtain ⟨c2, k3, k4⟩ := e2
    cases k1; cases k3
    rw [k2, k4]

/-- **C89**, what the text says: given table `t`, the text of any condition says of the columns of `t` what it said of the columns it had;
given a column, it says of that column what it said of the columns of that name.  This holds for every nesting, also where the text does
not say what the names of the calls do. -/
theorem C89_text_partial (a : ApExp) (h : a.OK) (c : Cond) (hc : a.call = .ok c) (row : Row) (x : Tri) :
    (∀ t, Ident t → (TextMeans (c.applyFieldTable t) row x ↔ TextMeans c (row.recol (ColRef.inTable t)) x)) ∧
    (∀ (d : ColRef) fd, d.OK → field d.text = .ok fd → (TextMeans (c.applyFieldSpec fd) row x ↔ TextMeans c (row.recol d.spec) x)) := by
  refine ⟨fun t ht => ?_, fun d fd hd hf => ?_⟩
  · rw [applyTable_refd]
    exact says_applied h hc (fits_table ht) row x
  · rw [field_col hd] at hf
    cases hf
    rw [applySpec_refd]
    exact says_applied h hc (fits_spec hd) row x

theorem apcall_run (q : SelB) (c : ApCall) (h : c.OK) : c.run q = c.plain.run q := by
  cases c with
  | other c => cases q <;> rfl
  | addWhere es =>
    have e := (plainL_call es h).2
    cases q with
    | base q => simp only [ApCall.run, ApCall.plain, KCall.run, KCall.runBase, e]
    | single q => simp only [ApCall.run, ApCall.plain, KCall.run, KCall.runSingle, e]
    | many q =>
      simp only [ApCall.run, ApCall.plain, KCall.run, NSCall.run, e]
      cases CondExp.callL (ApExp.plainL es) <;> rfl

theorem apcall_runAll (cs : List ApCall) : ∀ (q : SelB), (∀ c ∈ cs, c.OK) → ApCall.runAll q cs = KCall.runAll q (cs.map ApCall.plain) := by
  induction cs with
  | nil => intro q _; rfl
  | cons c cs ih =>
    intro q h
    simp only [ApCall.runAll, List.map_cons, KCall.runAll, apcall_run q c (h c (List.mem_cons_self ..))]
    cases c.plain.run q with
    | ok q => exact ih q fun d hd => h d (List.mem_cons_of_mem _ hd)
    | err _ => rfl
    | panic _ => rfl

/-- **C89**, programs: the select made is the very one the program written with the columns at once makes, so all that holds of such programs
(C78, C81, C85–C88) holds of these. -/
theorem C89_runs_partial (p : ApProg) (h : p.OK) : p.plain.OK ∧ p.run = p.plain.run := by
  refine ⟨⟨h.table, fun c hc => ?_, h.fields⟩, ?_⟩
  · obtain ⟨d, hd, rfl⟩ := List.mem_map.mp hc
    have := h.calls d hd
    cases d with
    | addWhere es => exact (plainL_call es this).1
    | other c => exact this
  · unfold ApProg.run KindProg.run
    show KindProg.first _ >>= _ = _
    have : (KindProg.mk p.start p.table []).first = p.plain.first := rfl
    rw [this]
    cases p.plain.first with
    | ok q => exact apcall_runAll p.calls q h.calls
    | err _ => rfl
    | panic _ => rfl

theorem meansL_app (row : Row) (es fs : List CondExp) :
    CondExp.meansL row (es ++ fs) = CondExp.meansL row es ++ CondExp.meansL row fs := by
  induction es with
  | nil => rfl
  | cons e es ih => simp only [List.cons_append, CondExp.meansL, ih]

theorem apmeans (p : ApProg) (h : ∀ c ∈ p.calls, c.OK) (row : Row) : wheresMean p.plain.wheres row = p.means row := by
  unfold wheresMean ApProg.means
  congr 1
  show CondExp.meansL row ((KCall.said (p.calls.map ApCall.plain)).filterMap NSCall.where?).flatten = _
  generalize p.calls = cs at h
  induction cs with
  | nil => rfl
  | cons c cs ih =>
    have ih := ih fun d hd => h d (List.mem_cons_of_mem _ hd)
    have hc := h c (List.mem_cons_self ..)
    rw [List.flatMap_cons, ← ih]
    cases c with
    | addWhere es =>
      show CondExp.meansL row (ApExp.plainL es ++ _) = _
      rw [meansL_app, plainL_means es hc]
      rfl
    | other c =>
      cases c with
      | single => rfl
      | many => rfl
      | call c =>
        cases c with
        | addWhere es =>
          show CondExp.meansL row (es ++ _) = _
          rw [meansL_app]
          rfl
        | other c => rfl

/-- **C89**, the rows: a program reads the rows on which its conditions hold, each looking at the columns of the table or the column it was
given.  What is missing beyond `C89_alias_false`: as in C81, the calls of the conditions do what their names say, and ordering and page come
after the last change of kind. -/
theorem C89_rows_partial (eng : Engine) (db : Db) (p : ApProg) (h : p.OK) (hk : KindProg.Kept p.start (p.calls.map ApCall.plain))
    (hc : wheresClear someRow p.plain.wheres = true) :
    ∃ b sql params, p.run = .ok b ∧ b.build = .ok (sql, params) ∧
      runQuery eng db sql params =
        if p.plain.said.flat.known db then some (p.plain.askedBy (fun row => p.means row) eng db) else none := by
  obtain ⟨h1, h2⟩ := C89_runs_partial p h
  have := C81_rows_partial eng db p.plain h1 hk hc
  rw [← h2, show wheresMean p.plain.wheres = fun row => p.means row from funext (apmeans p h.calls)] at this
  exact this

/-- `id = 1` -/
def exIdIs : Test := .cmp .eq ⟨none, c!"id"⟩ (.other 1) (.other 1)

/-- `SelectManyFrom("t AS x").Where(And(id = 1, Not(id IS NULL).ApplyFieldSpec(Field("x.id"))), Or(id = 1, a contains "b").ApplyFieldTable("x"))`. -/
def exApplied : ApProg := ⟨.many, ⟨c!"t", some c!"x"⟩,
  [.addWhere [.fn false (.test exIdIs) [.spec ⟨some c!"x", c!"id"⟩ (.not (.test (.null ⟨none, c!"id"⟩)))]],
   .addWhere [.table c!"x" (.fn true (.test exIdIs) [.test (.has ⟨some c!"u", c!"a"⟩ c!"b")])]]⟩

theorem exApplied_ok : exApplied.OK ∧ KindProg.Kept exApplied.start (exApplied.calls.map ApCall.plain) ∧
    wheresClear someRow exApplied.plain.wheres = true ∧
    exApplied.run.bind SelB.build = .ok (c!"SELECT * FROM t AS x WHERE id=$1 AND x.id IS NOT NULL AND (x.id=$2 OR x.a LIKE $3)",
      [.other 1, .other 1, .str c!"%b%"]) := by
  have hi : ∀ {n : Str}, Ident n → ColRef.OK ⟨none, n⟩ := fun h => ⟨h, fun t ht => by cases ht⟩
  have hid : Ident c!"id" := exIdent (by decide)
  have hx : Ident c!"x" := exIdent (by decide)
  have ht : exIdIs.OK := ⟨hi hid, (C38_values ⟨⟨[], [], []⟩, .other 1⟩ _).mp rfl⟩
  refine ⟨⟨⟨exIdent (by decide), ?_⟩, ?_, ?_⟩, ?_, rfl, rfl⟩
  · intro a ha
    cases ha
    exact ⟨hx, by decide⟩
  · intro c hc
    simp only [exApplied, List.mem_cons, List.not_mem_nil, or_false] at hc
    rcases hc with rfl | rfl
    · exact ⟨⟨ht, ⟨⟨hid, fun t h => by cases h; exact hx⟩, hi hid⟩, trivial⟩, trivial⟩
    · exact ⟨⟨hx, ht, ⟨exIdent (by decide), fun t h => by cases h; exact exIdent (by decide)⟩, trivial⟩, trivial⟩
  · simp [exApplied, KCall.noFields, NSCall.isFields, ApCall.plain]
  · simp [exApplied, KindProg.Kept, NSCall.isSetting, ApCall.plain]

/-- **C89 is false** for a field specification with an alias: `EqualTo("id", 1).ApplyFieldSpec(Field("t.id AS k"))` makes no statement, where
without the alias it finds a row. -/
theorem C89_alias_false :
    let run := fun s : Str => (equalTo c!"id" (.other 1)).bind fun c => (field s).bind fun fd =>
      (selectManyFrom (.str c!"t")).bind fun q => (q.addWhere [c.applyFieldSpec fd]).build
    run c!"t.id" = .ok (c!"SELECT * FROM t WHERE t.id=$1", [.other 1]) ∧
    run c!"t.id AS k" = .ok (c!"SELECT * FROM t WHERE t.id AS k=$1", [.other 1]) ∧
    (runBuilt exEng exDb (run c!"t.id")).map List.length = some 1 ∧ runBuilt exEng exDb (run c!"t.id AS k") = none := ⟨rfl, rfl, rfl, rfl⟩

end Query
