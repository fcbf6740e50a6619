import Verif.Spec.NestedProgram
import Verif.Props.Nested
import Verif.Props.Program
/-!
# C78: programs with nested conditions

From the calls of a program whose Where calls take any nested conditions to the statement, its parameters and its effect.
-/
namespace Query

theorem bexp_leaves_ne (env : Nat → Val) : ∀ e : BExp, e.leaves env ≠ []
  | .atom a => by cases a <;> simp [BExp.leaves]
  | .not e => by simpa [BExp.leaves] using bexp_leaves_ne env e
  | .and a b => by
    have := bexp_leaves_ne env a
    simp [BExp.leaves, this]
  | .or a b => by
    have := bexp_leaves_ne env a
    simp [BExp.leaves, this]

theorem readable_leaves_ne {c : Cond} (h : c.Readable) : c.leaves ≠ [] := by
  obtain ⟨s, vs, e, _, _, _, _, h1, _⟩ := C08_reads c 0 h
  rw [← h1]
  exact bexp_leaves_ne _ e

namespace CondExp

mutual
theorem tests_ok : ∀ e : CondExp, e.OK → ∀ t ∈ e.tests, t.OK
  | .test t, h => by
    intro u hu
    simp only [tests, List.mem_singleton] at hu
    exact hu ▸ h
  | .not e, h => tests_ok e h
  | .unnot e, h => tests_ok e h
  | .fn _ e es, h => by
    intro t ht
    simp only [tests, List.mem_append] at ht
    exact ht.elim (tests_ok e h.1 t) (testsL_ok es h.2 t)
  | .method _ e es, h => by
    intro t ht
    simp only [tests, List.mem_append] at ht
    exact ht.elim (tests_ok e h.1 t) (testsL_ok es h.2 t)
  | .group _ es, h => testsL_ok es h.2
  | .joinAll _ es, h => testsL_ok es h.2
  | .join _ e, h => tests_ok e h
  | .brackets e, h => tests_ok e h
theorem testsL_ok : ∀ es : List CondExp, OKL es → ∀ t ∈ testsL es, t.OK
  | [], _ => by simp [testsL]
  | e :: es, h => by
    intro t ht
    simp only [testsL, List.mem_append] at ht
    exact ht.elim (tests_ok e h.1 t) (testsL_ok es h.2 t)
end

end CondExp

theorem testClauses_ok {ts : List Test} (h : ∀ t ∈ ts, t.OK) : ∀ c ∈ testClauses ts, c.OK := by
  intro c hc
  obtain ⟨t, ht, rfl⟩ := List.mem_map.mp hc
  exact ⟨fun l hl => by simp [Clause.lits] at hl; subst hl; exact h t ht, fun hn => absurd rfl hn⟩

theorem testsOf_clauses (ts : List Test) : testsOf (testClauses ts) = ts := by
  simp [testsOf, testClauses, Clause.lits, List.flatMap_map]

theorem testClauses_flatten (l : List (List CondExp)) :
    (l.map fun es => testClauses (CondExp.testsL es)).flatten = testClauses (l.flatMap CondExp.testsL) := by
  induction l with
  | nil => rfl
  | cons es l ih =>
    rw [List.map_cons, List.flatten_cons, ih, List.flatMap_cons]
    simp [testClauses]

/-- The where clause the calls make, or the panic. -/
theorem wheres_run (wheres : List (List CondExp)) (h : ∀ es ∈ wheres, CondExp.OKL es) :
    if wheresSound wheres then
      ∃ w, clauseCalls newWhere (wheres.map fun es => (false, es)) = .ok w ∧
        WhereIs (testClauses (wheres.flatMap CondExp.testsL)) (wheresText wheres) w.group ∧
        (testClauses (wheres.flatMap CondExp.testsL) = [] → ∀ row, wheresText wheres row = .t)
    else clauseCalls newWhere (wheres.map fun es => (false, es)) = .panic .nilDeref := by
  have hk : ∀ c ∈ wheres.map fun es => (false, es), CondExp.OKL c.2 := by
    intro c hc
    obtain ⟨es, he, rfl⟩ := List.mem_map.mp hc
    exact h es he
  have cc := fun row => clause_calls row _ newWhere none hk ⟨rfl, rfl, rfl⟩
  have cw := fun row => C77_where row _ hk
  cases hm : clauseMade someRow (wheres.map fun es => (false, es)) with
  | none =>
    rw [if_neg (by simp [wheresSound, wheresMade, hm])]
    have := cc someRow
    rw [hm] at this
    exact this
  | some ms =>
    rw [if_pos (by simp [wheresSound, wheresMade, hm])]
    have h1 := cc someRow
    rw [hm] at h1
    obtain ⟨w, h1, h2⟩ := h1
    have hl : w.group.toCond.leaves = (wheres.flatMap CondExp.testsL).map Test.leaf := by
      rw [clause_leaves _ newWhere w hk h1]
      simp only [List.flatMap_map]
      rfl
    have conds_nil : w.group.conds = [] → wheres.flatMap CondExp.testsL = [] := by
      intro e
      have : w.group.toCond.leaves = [] := by
        simp only [Group.toCond, Cond.leaves, e, Cond.leavesL]
      rw [hl] at this
      simpa using this
    have read : wheres.flatMap CondExp.testsL ≠ [] → w.group.toCond.Readable := by
      intro hn
      cases hs : ms.foldl clauseStep none with
      | none => rw [hs] at h2; exact absurd (conds_nil h2.1) hn
      | some g => rw [hs] at h2; exact h2.1.1
    have none' : wheres.flatMap CondExp.testsL = [] → w.group.conds = [] := by
      intro hn
      cases hs : ms.foldl clauseStep none with
      | none => rw [hs] at h2; exact h2.1
      | some g =>
        rw [hs] at h2
        exact absurd (by rw [hl, hn]; rfl) (readable_leaves_ne h2.1.1)
    have ne : testClauses (wheres.flatMap CondExp.testsL) = [] ↔ wheres.flatMap CondExp.testsL = [] := by simp [testClauses]
    have says : ∀ row, match ((wheresMade row wheres).bind clauseSays) with
        | none => w.group.conds = []
        | some y => w.group.conds ≠ [] ∧ TextMeans w.group.toCond row y := by
      intro row
      have h3 := cw row
      unfold wheresMade
      cases hr : clauseMade row (wheres.map fun es => (false, es)) with
      | none =>
        rw [hr] at h3
        rw [h1] at h3
        cases h3
      | some rs =>
        rw [hr] at h3
        obtain ⟨w', e, h4⟩ := h3
        rw [h1] at e
        injection e with e
        subst e
        simp only [Option.bind_some]
        have h5 := cc row
        rw [hr] at h5
        obtain ⟨w', e, h5⟩ := h5
        rw [h1] at e
        injection e with e
        subst e
        unfold clauseSays at h4 ⊢
        cases hs : rs.foldl clauseStep none with
        | none => rw [hs] at h4; exact h4
        | some g =>
          rw [hs] at h4 h5
          exact ⟨(readable_group.mp h5.1.1).1, (h4.2 _).mpr rfl⟩
    refine ⟨w, h1, ⟨fun hn => none' (ne.mp hn), fun hn => read fun e => hn (ne.mpr e), ?_, ?_⟩, ?_⟩
    · intro hn row
      have h3 := says row
      unfold wheresText
      cases hr : (wheresMade row wheres).bind clauseSays with
      | none =>
        rw [hr] at h3
        exact absurd (ne.mpr (conds_nil h3)) hn
      | some y => rw [hr] at h3; exact h3.2
    · rw [hl, testsOf_clauses]
    · intro hn row
      have h3 := says row
      unfold wheresText
      cases hr : (wheresMade row wheres).bind clauseSays with
      | none => rfl
      | some y => rw [hr] at h3; exact absurd (none' (ne.mp hn)) h3.1

/-! ## SELECT -/

/-- With another WHERE clause. -/
def SelectMany.withClause (q : SelectMany) (w : WhereClause) : SelectMany := { q with base := { q.base with where_ := w } }

theorem scall_withClause (c : SCall) (hc : c.where? = none) (q q' : SelectMany) (w : WhereClause) (h : c.run q = .ok q') :
    c.run (q.withClause w) = .ok (q'.withClause w) := by
  cases c with
  | fields l =>
    simp only [SCall.run, Res.bind_eq_ok] at h ⊢
    obtain ⟨fs, h1, h2⟩ := h
    injection h2 with h2
    exact ⟨fs, h1, by rw [← h2]; rfl⟩
  | join k t l r =>
    simp only [SCall.run, Res.bind_eq_ok] at h ⊢
    obtain ⟨q1, h1, l', h2, r', h3, h4⟩ := h
    refine ⟨q1.withClause w, ?_, l', h2, r', h3, ?_⟩
    · simp only [SelectMany.join, Res.bind_eq_ok] at h1 ⊢
      obtain ⟨t', e1, e2⟩ := h1
      injection e2 with e2
      exact ⟨t', e1, by rw [← e2]; rfl⟩
    · simp only [SelectMany.on, BaseSelect.on] at h4 ⊢
      have hj : (q1.withClause w).base.joins = q1.base.joins := rfl
      rw [hj]
      cases hq : q1.base.joins.reverse with
      | nil => rw [hq] at h4; cases h4
      | cons j js =>
        rw [hq] at h4
        simp only [Res.bind_ok, Res.ok.injEq] at h4 ⊢
        rw [← h4]; rfl
  | addWhere cs => cases hc
  | orderBy ks =>
    simp only [SCall.run, Res.bind_eq_ok] at h ⊢
    obtain ⟨fs, h1, h2⟩ := h
    injection h2 with h2
    exact ⟨fs, h1, by rw [← h2]; rfl⟩
  | offset n =>
    simp only [SCall.run] at h ⊢
    injection h with h
    rw [← h]; rfl
  | limit n =>
    simp only [SCall.run] at h ⊢
    injection h with h
    rw [← h]; rfl

theorem flat_ok {c : NSCall} (h : c.OK) : c.flat.OK := by
  cases c with
  | addWhere es => exact testClauses_ok (CondExp.testsL_ok es h)
  | other c => exact h.1

theorem nselect_calls (calls : List NSCall) (h : ∀ c ∈ calls, c.OK) : ∀ (q : SelectMany) (w : WhereClause),
    ∃ q', runCalls q (calls.map NSCall.flat) = .ok q' ∧ NSCall.runAll (q.withClause w) calls =
      (clauseCalls w ((calls.filterMap NSCall.where?).map fun es => (false, es))).bind fun w' => .ok (q'.withClause w') := by
  induction calls with
  | nil => intro q w; exact ⟨q, rfl, rfl⟩
  | cons c calls ih =>
    intro q w
    have ih := ih fun d hd => h d (by simp [hd])
    have hc := h c (by simp)
    obtain ⟨q1, h1, _⟩ := calls_run ⟨[], none⟩ [c.flat] (by
      intro d hd
      simp only [List.mem_singleton] at hd
      subst hd
      exact flat_ok hc) q
    have h1 : c.flat.run q = .ok q1 := by
      simp only [runCalls, Res.bind_eq_ok] at h1
      obtain ⟨q2, e1, e2⟩ := h1
      injection e2 with e2
      rw [e1, e2]
    cases c with
    | addWhere es =>
      simp only [List.map_cons, List.filterMap_cons, NSCall.where?, runCalls, NSCall.runAll, clauseCalls, h1, Res.bind_ok, NSCall.run]
      cases hcs : CondExp.callL es with
      | ok ds =>
        simp only [Res.bind_ok]
        obtain ⟨q2, e1, e2⟩ := ih q1 (w.groupAND ds)
        refine ⟨q2, e1, ?_⟩
        rw [show ((q.withClause w).addWhere ds) = q1.withClause (w.groupAND ds) from ?_]
        · exact e2
        · simp only [NSCall.flat, SCall.run, Res.bind_eq_ok, Res.ok.injEq] at h1
          obtain ⟨ds', _, e⟩ := h1
          rw [← e]
          rfl
      | err e =>
        obtain ⟨q2, e1, _⟩ := ih q1 w
        exact ⟨q2, e1, rfl⟩
      | panic p =>
        obtain ⟨q2, e1, _⟩ := ih q1 w
        exact ⟨q2, e1, rfl⟩
    | other c =>
      have h1 : c.run q = .ok q1 := h1
      obtain ⟨q2, e1, e2⟩ := ih q1 w
      simp only [List.map_cons, List.filterMap_cons, NSCall.where?, runCalls, NSCall.runAll, NSCall.flat, h1, Res.bind_ok, NSCall.run,
        scall_withClause c hc.2 q q1 w h1]
      exact ⟨q2, e1, e2⟩

theorem nselect_wheres {p : NSelectProg} (h : p.OK) : ∀ es ∈ p.wheres, CondExp.OKL es := by
  intro es he
  obtain ⟨c, hc, e⟩ := List.mem_filterMap.mp he
  have := h.calls c hc
  cases c with
  | addWhere es' => simp only [NSCall.where?, Option.some.injEq] at e; exact e ▸ this
  | other c => cases e

theorem nselect_clauses {p : NSelectProg} (h : p.OK) : p.flat.clauses = testClauses (p.wheres.flatMap CondExp.testsL) := by
  rw [← testClauses_flatten]
  unfold SelectProg.clauses SelectProg.wheres NSelectProg.flat NSelectProg.wheres
  congr 1
  have hc := h.calls
  simp only
  generalize p.calls = calls at hc ⊢
  induction calls with
  | nil => rfl
  | cons c cs ih =>
    have ih := ih fun d hd => hc d (by simp [hd])
    have hc := hc c (by simp)
    cases c with
    | addWhere es => simp only [List.map_cons, List.filterMap_cons, NSCall.flat, SCall.where?, NSCall.where?, ih]
    | other c => simp only [List.map_cons, List.filterMap_cons, NSCall.flat, hc.2, NSCall.where?, ih]

/-- The builder of a program with nested conditions, or the panic. -/
theorem nselect_run (p : NSelectProg) (h : p.OK) :
    if wheresSound p.wheres then
      ∃ q, p.run = .ok q ∧ Ran p.flat (wheresText p.wheres) q ∧ (p.flat.clauses = [] → ∀ row, wheresText p.wheres row = .t)
    else p.run = .panic .nilDeref := by
  have hn : p.flat.Names := ⟨h.table, fun c hc => by
    obtain ⟨d, hd, rfl⟩ := List.mem_map.mp hc
    exact flat_ok (h.calls d hd)⟩
  obtain ⟨q0, hq0, hr0⟩ := prog_run p.flat hn
  have hs : selectManyFrom (.str p.table.text) = .ok ⟨⟨0, p.table.ident, [], ⟨[]⟩, newWhere⟩, 0, noLimit, [], false⟩ := by
    have := table_text h.table
    simp only [table] at this
    simp [selectManyFrom, selectFrom, tableP, tableOrErrorP, this]
  obtain ⟨q', h1, h2⟩ := nselect_calls p.calls h.calls ⟨⟨0, p.table.ident, [], ⟨[]⟩, newWhere⟩, 0, noLimit, [], false⟩ newWhere
  have hrun : p.run = (clauseCalls newWhere (p.wheres.map fun es => (false, es))).bind fun w' => .ok (q'.withClause w') := by
    unfold NSelectProg.run
    rw [hs]
    exact h2
  have heq : q0 = q' := by
    have : p.flat.run = .ok q' := by
      unfold SelectProg.run
      rw [show p.flat.table = p.table from rfl, hs]
      exact h1
    rw [hq0] at this
    exact Res.ok.inj this
  subst heq
  have hw := wheres_run p.wheres (nselect_wheres h)
  split
  · rename_i hso
    rw [if_pos hso] at hw
    obtain ⟨w, e1, e2, e3⟩ := hw
    rw [← nselect_clauses h] at e2 e3
    refine ⟨q0.withClause w, by rw [hrun, e1]; rfl, ⟨e2, hr0.items, hr0.table, hr0.joins, ?_, hr0.order, hr0.keys, hr0.offset, hr0.limit⟩, e3⟩
    refine ⟨hr0.plain.fields, hr0.plain.table, hr0.plain.joins, ?_⟩
    by_cases hcl : p.flat.clauses = []
    · exact .inl (e2.none hcl)
    · exact .inr (e2.read hcl)
  · rename_i hso
    rw [if_neg hso] at hw
    rw [hrun, hw]
    rfl

/-! ## Rows do not matter for the shape -/

/-- The same group but for the truth values, or none. -/
def AlikeG : Option MadeGroup → Option MadeGroup → Prop
  | none, none => True
  | some g, some h => g.Like h
  | _, _ => False

theorem alikeL_words (b : Bool) : ∀ ms ns : List Made, AlikeL ms ns → (ms.all fun m => m.word == b) = (ns.all fun m => m.word == b)
  | [], [], _ => rfl
  | _ :: ms, _ :: ns, h => by simp only [List.all_cons, (alike_facs h.1).2.1, alikeL_words b ms ns h.2]
  | [], _ :: _, h => h.elim
  | _ :: _, [], h => h.elim

theorem alike_firstTakes (o : Bool) (ms ns : List Made) (h : AlikeL ms ns) : firstTakes o ms = firstTakes o ns := by
  have d : ∀ b, ((ms.drop 1).all fun m => m.word == b) = ((ns.drop 1).all fun m => m.word == b) := fun b =>
    match ms, ns, h with
    | [], [], _ => rfl
    | _ :: ms, _ :: ns, h => alikeL_words b ms ns h.2
  have t := d true
  have f := d false
  simp only [beq_true, beq_false] at t f
  unfold firstTakes
  rw [alikeL_length ms ns h, alikeL_noOr ms ns h, f]
  congr 2

theorem alike_clauseStep {s t : Option MadeGroup} (h : AlikeG s t) (o : Bool) {ms ns : List Made} (l : AlikeL ms ns) :
    AlikeG (clauseStep s (o, ms)) (clauseStep t (o, ns)) := by
  match ms, ns, l with
  | [], [], _ => simpa [clauseStep] using h
  | m :: ms, n :: ns, l =>
    match s, t, h with
    | none, none, _ => exact ⟨alike_row _ _ l, rfl, rfl, rfl⟩
    | some g, some k, h =>
      cases o with
      | false => exact ⟨alike_addAnd h _ _ l, h.neg, h.word, h.br⟩
      | true => exact ⟨alike_addOr h _ _ l, h.neg, h.word, h.br⟩

theorem alike_clauseTakes {s t : Option MadeGroup} (h : AlikeG s t) (o : Bool) {ms ns : List Made} (l : AlikeL ms ns) :
    clauseTakes s o ms = clauseTakes t o ns := by
  match ms, ns, l with
  | [], [], _ => simp [clauseTakes]
  | m :: ms, n :: ns, l =>
    match s, t, h with
    | none, none, _ => exact alike_firstTakes o _ _ l
    | some g, some k, h =>
      cases o with
      | false => exact alike_takesAnd h _ _ l
      | true => exact alike_takesOr h _ _ l

theorem clauseClear_alike (r r' : Row) : ∀ (calls : List (Bool × List CondExp)) (s t : Option MadeGroup), AlikeG s t →
    clauseClear r s calls = clauseClear r' t calls
  | [], _, _, _ => rfl
  | (o, es) :: cs, s, t, h => by
    have l := CondExp.madeL_like r r' es
    unfold clauseClear
    rw [CondExp.clearL_row r r' es]
    cases h1 : CondExp.madeL r es with
    | none =>
      cases h2 : CondExp.madeL r' es with
      | none => rfl
      | some ns => rw [h1, h2] at l; exact l.elim
    | some ms =>
      cases h2 : CondExp.madeL r' es with
      | none => rw [h1, h2] at l; exact l.elim
      | some ns =>
        rw [h1, h2] at l
        have l : AlikeL ms ns := l
        simp only [alike_clauseTakes h o l, clauseClear_alike r r' cs _ _ (alike_clauseStep h o l)]

/-- Whether calls do what their names say does not depend on the row. -/
theorem wheresClear_row (r r' : Row) (wheres : List (List CondExp)) : wheresClear r wheres = wheresClear r' wheres :=
  clauseClear_alike r r' _ none none trivial

theorem meansL_append (row : Row) (es fs : List CondExp) :
    CondExp.meansL row (es ++ fs) = CondExp.meansL row es ++ CondExp.meansL row fs := by
  induction es with
  | nil => rfl
  | cons e es ih => simp [CondExp.meansL, ih]

theorem clauseMeans_some (row : Row) : ∀ (wheres : List (List CondExp)) (x : Tri),
    (wheres.map fun es => (false, es)).foldl (clauseMeansStep row) (some x) = some (x.and (allOf (CondExp.meansL row wheres.flatten)))
  | [], x => by simp [CondExp.meansL, allOf]
  | [] :: ws, x => by simpa [clauseMeansStep] using clauseMeans_some row ws x
  | (e :: es) :: ws, x => by
    simp only [List.map_cons, List.foldl_cons, clauseMeansStep, Bool.false_eq_true, if_false, List.flatten_cons, meansL_append, allOf_append,
      ← Tri.and_assoc]
    exact clauseMeans_some row ws _

theorem clauseMeans_none (row : Row) : ∀ wheres : List (List CondExp),
    (clauseMeans row (wheres.map fun es => (false, es))).getD .t = allOf (CondExp.meansL row wheres.flatten)
  | [] => rfl
  | [] :: ws => by simpa [clauseMeans, clauseMeansStep] using clauseMeans_none row ws
  | (e :: es) :: ws => by
    simp only [clauseMeans, List.map_cons, List.foldl_cons, clauseMeansStep, Bool.false_eq_true, if_false, List.flatten_cons, meansL_append,
      allOf_append, clauseMeans_some, Option.getD_some]

/-- Where every call does what its name says, the text says what it should, and no call panics. -/
theorem wheres_clear (wheres : List (List CondExp)) (h : ∀ es ∈ wheres, CondExp.OKL es) (hc : wheresClear someRow wheres = true) :
    wheresSound wheres = true ∧ wheresText wheres = wheresMean wheres := by
  have hk : ∀ c ∈ wheres.map fun es => (false, es), CondExp.OKL c.2 := by
    intro c hc
    obtain ⟨es, he, rfl⟩ := List.mem_map.mp hc
    exact h es he
  have all := fun row => clauseClear_is row _ none none hk ((wheresClear_row row someRow wheres).trans hc) trivial
  constructor
  · obtain ⟨ms, h1, _⟩ := all someRow
    unfold wheresSound wheresMade
    rw [h1]
    rfl
  · funext row
    obtain ⟨ms, h1, h2⟩ := all row
    unfold wheresText wheresMade wheresMean
    rw [h1]
    have : clauseSays ms = clauseMeans row (wheres.map fun es => (false, es)) := h2
    rw [Option.bind_some, this, clauseMeans_none]

/-! ## SELECT -/

theorem nflat_clauses {p : NSelectProg} (h : p.OK) : ∀ c ∈ p.flat.clauses, c.OK :=
  prog_clauses ⟨h.table, fun c hc => by
    obtain ⟨d, hd, rfl⟩ := List.mem_map.mp hc
    exact flat_ok (h.calls d hd)⟩

/-- **C78**, SELECT, for all nested conditions: the calls succeed and the text reads as the statement the program describes, with what
the rules of C77 make of the Where calls as its condition; or a call panics. -/
theorem C78_select_exact (p : NSelectProg) (h : p.OK) :
    if wheresSound p.wheres then
      ∃ q sql s, p.run = .ok q ∧ q.build = .ok (sql, p.flat.params) ∧ readStmt sql = some (.select s) ∧
        s.items = p.flat.items ∧ s.table = p.table ∧ s.joins = p.flat.joins ∧ s.order = p.flat.keys ∧
        CondIs p.flat.clauses (wheresText p.wheres) p.flat.params s.cond ∧
        RowsRead p.flat.params p.flat.offset s.offset ∧ RowsRead p.flat.params p.flat.limit.toNat s.limit
    else p.run = .panic .nilDeref := by
  have hr := nselect_run p h
  split
  · rename_i hs
    rw [if_pos hs] at hr
    obtain ⟨q, h1, hr, _⟩ := hr
    obtain ⟨sql, s, h2⟩ := select_ran hr
    exact ⟨q, sql, s, h1, h2⟩
  · rename_i hs
    rw [if_neg hs] at hr
    exact hr

/-- **C78**, SELECT: where every And, Or, Not and Where does what its name says (`wheresClear`), no call panics and the condition is
the conjunction of the expressions.

Missing for the full claim: the other expressions, for which it is false (`C78_false`; `C78_select_exact` says what the text asks for). -/
theorem C78_select_partial (p : NSelectProg) (h : p.OK) (hc : wheresClear someRow p.wheres = true) :
    ∃ q sql s, p.run = .ok q ∧ q.build = .ok (sql, p.flat.params) ∧ readStmt sql = some (.select s) ∧
      s.items = p.flat.items ∧ s.table = p.table ∧ s.joins = p.flat.joins ∧ s.order = p.flat.keys ∧
      CondIs p.flat.clauses (wheresMean p.wheres) p.flat.params s.cond ∧
      RowsRead p.flat.params p.flat.offset s.offset ∧ RowsRead p.flat.params p.flat.limit.toNat s.limit := by
  obtain ⟨h1, h2⟩ := wheres_clear p.wheres (nselect_wheres h) hc
  have := C78_select_exact p h
  rwa [if_pos h1, h2] at this

/-- **C78**, the rows, for all nested conditions. -/
theorem C78_rows_exact (eng : Engine) (db : Db) (p : NSelectProg) (h : p.OK) :
    if wheresSound p.wheres then
      ∃ q sql params, p.run = .ok q ∧ q.build = .ok (sql, params) ∧
        runQuery eng db sql params = if p.flat.known db then some (p.flat.rowsBy (wheresText p.wheres) eng db) else none
    else p.run = .panic .nilDeref := by
  have hr := nselect_run p h
  split
  · rename_i hs
    rw [if_pos hs] at hr
    obtain ⟨q, h1, hr, h0⟩ := hr
    obtain ⟨sql, params, h2⟩ := rows_ran eng db (nflat_clauses h) h0 hr
    exact ⟨q, sql, params, h1, h2⟩
  · rename_i hs
    rw [if_neg hs] at hr
    exact hr

/-- **C78**, the rows: where every call does what its name says, the rows are those on which all expressions hold.
Missing: as in `C78_select_partial`. -/
theorem C78_rows_partial (eng : Engine) (db : Db) (p : NSelectProg) (h : p.OK) (hc : wheresClear someRow p.wheres = true) :
    ∃ q sql params, p.run = .ok q ∧ q.build = .ok (sql, params) ∧
      runQuery eng db sql params = if p.flat.known db then some (p.flat.rowsBy (wheresMean p.wheres) eng db) else none := by
  obtain ⟨h1, h2⟩ := wheres_clear p.wheres (nselect_wheres h) hc
  have := C78_rows_exact eng db p h
  rwa [if_pos h1, h2] at this

/-- **C78**, counting, for all nested conditions: `Count()` on the builder of a program. -/
theorem C78_count_exact (eng : Engine) (db : Db) (p : NSelectProg) (h : p.OK) :
    if wheresSound p.wheres then
      ∃ q c sql params, p.run = .ok q ∧ count q.base [] = .ok c ∧ c.build = .ok (sql, params) ∧ params = paramsOf p.flat.clauses ∧
        runQuery eng db sql params =
          if fromOK db p.table p.flat.joins && knownIn (p.flat.scope db) p.flat.clauses then
            some [[(c!"count", some (.uint ((fromRows eng db p.table p.flat.joins).filter fun env =>
              wheresText p.wheres (eng.row env) == .t).length))]]
          else none
    else p.run = .panic .nilDeref := by
  have hr := nselect_run p h
  split
  · rename_i hs
    rw [if_pos hs] at hr
    obtain ⟨q, h1, hr, h0⟩ := hr
    obtain ⟨c, sql, params, h2⟩ := count_ran eng db (nflat_clauses h) h0 hr
    exact ⟨q, c, sql, params, h1, h2⟩
  · rename_i hs
    rw [if_neg hs] at hr
    exact hr

/-- **C78**, counting: where every call does what its name says, the number of rows on which all expressions hold.
Missing: as in `C78_select_partial`. -/
theorem C78_count_partial (eng : Engine) (db : Db) (p : NSelectProg) (h : p.OK) (hc : wheresClear someRow p.wheres = true) :
    ∃ q c sql params, p.run = .ok q ∧ count q.base [] = .ok c ∧ c.build = .ok (sql, params) ∧ params = paramsOf p.flat.clauses ∧
      runQuery eng db sql params =
        if fromOK db p.table p.flat.joins && knownIn (p.flat.scope db) p.flat.clauses then
          some [[(c!"count", some (.uint ((fromRows eng db p.table p.flat.joins).filter fun env =>
            wheresMean p.wheres (eng.row env) == .t).length))]]
        else none := by
  obtain ⟨h1, h2⟩ := wheres_clear p.wheres (nselect_wheres h) hc
  have := C78_count_exact eng db p h
  rwa [if_pos h1, h2] at this

/-! ## UPDATE, DELETE -/

namespace CondExp

mutual
theorem tests_ne : ∀ e : CondExp, e.OK → e.tests ≠ []
  | .test t, _ => by simp [tests]
  | .not e, h => tests_ne e h
  | .unnot e, h => tests_ne e h
  | .fn _ e es, h => by simp [tests, tests_ne e h.1]
  | .method _ e es, h => by simp [tests, tests_ne e h.1]
  | .group _ es, h => testsL_ne es h.2 h.1
  | .joinAll _ es, h => testsL_ne es h.2 h.1
  | .join _ e, h => tests_ne e h
  | .brackets e, h => tests_ne e h
theorem testsL_ne : ∀ es : List CondExp, OKL es → es ≠ [] → testsL es ≠ []
  | [], _, hn => absurd rfl hn
  | e :: es, h, _ => by simp [testsL, tests_ne e h.1]
end

end CondExp

theorem wheres_tests_ne {wheres : List (List CondExp)} (h : ∀ es ∈ wheres, CondExp.OKL es) (hn : wheres.flatten ≠ []) :
    testClauses (wheres.flatMap CondExp.testsL) ≠ [] := by
  intro e
  apply hn
  have e : wheres.flatMap CondExp.testsL = [] := by simpa [testClauses] using e
  rw [List.flatMap_eq_nil_iff] at e
  rw [List.flatten_eq_nil_iff]
  intro es hes
  exact Classical.byContradiction fun hne => CondExp.testsL_ne es (h es hes) hne (e es hes)

theorem nupdate_calls (calls : List NUCall) (h : ∀ c ∈ calls, c.OK) : ∀ q : UpdateB,
    NUCall.runAll q calls = (clauseCalls ⟨q.where_⟩ ((calls.filterMap NUCall.where?).map fun es => (false, es))).bind fun w =>
      .ok ⟨q.op, q.tableName, w.group, q.setValues ++ ((calls.map NUCall.flat).filterMap UCall.set?).flatten.map SetTo.fv⟩ := by
  induction calls with
  | nil => intro q; simp [NUCall.runAll, clauseCalls]
  | cons c calls ih =>
    intro q
    have ih := ih fun d hd => h d (by simp [hd])
    have hc := h c (by simp)
    cases c with
    | set l =>
      simp only [List.map_cons, List.filterMap_cons, NUCall.where?, NUCall.flat, UCall.set?, NUCall.runAll, NUCall.run,
        sets_call hc, Res.bind_ok, ih, UpdateB.set, List.flatten_cons, List.map_append, List.append_assoc]
    | addWhere es =>
      simp only [List.map_cons, List.filterMap_cons, NUCall.where?, NUCall.flat, UCall.set?, NUCall.runAll, NUCall.run, clauseCalls]
      cases CondExp.callL es with
      | ok ds => simp only [Res.bind_ok, ih, UpdateB.addWhere]; rfl
      | err e => rfl
      | panic e => rfl

theorem nupdate_wheres {p : NUpdateProg} (h : p.OK) : ∀ es ∈ p.wheres, CondExp.OKL es := by
  intro es he
  obtain ⟨c, hc, e⟩ := List.mem_filterMap.mp he
  have := h.calls c hc
  cases c with
  | addWhere es' => simp only [NUCall.where?, Option.some.injEq] at e; exact e ▸ this
  | set l => cases e

theorem nupdate_clauses (p : NUpdateProg) : p.flat.clauses = testClauses (p.wheres.flatMap CondExp.testsL) := by
  rw [← testClauses_flatten]
  unfold UpdateProg.clauses UpdateProg.wheres NUpdateProg.flat NUpdateProg.wheres
  congr 1
  simp only
  induction p.calls with
  | nil => rfl
  | cons c cs ih => cases c <;> simp only [List.map_cons, List.filterMap_cons, NUCall.flat, UCall.where?, NUCall.where?, ih]

theorem nupdate_names {p : NUpdateProg} (h : p.OK) : p.flat.Names := by
  refine ⟨h.table, ?_, h.some, ?_, ?_⟩
  · intro s hs
    obtain ⟨l, h1, h2⟩ := List.mem_flatten.mp hs
    obtain ⟨c, h3, h4⟩ := List.mem_filterMap.mp h1
    obtain ⟨d, h5, rfl⟩ := List.mem_map.mp h3
    have := h.calls d h5
    cases d with
    | addWhere es => cases h4
    | set l' =>
      simp only [NUCall.flat, UCall.set?, Option.some.injEq] at h4
      subst h4
      exact this s h2
  · rw [nupdate_clauses]
    refine testClauses_ok fun t ht => ?_
    obtain ⟨es, he, ht⟩ := List.mem_flatMap.mp ht
    exact CondExp.testsL_ok es (nupdate_wheres h es he) t ht
  · rw [nupdate_clauses]
    exact wheres_tests_ne (nupdate_wheres h) h.where_

/-- **C78**, UPDATE, for all nested conditions. -/
theorem C78_update_exact (eng : Engine) (db : Db) (p : NUpdateProg) (h : p.OK) :
    if wheresSound p.wheres then
      ∃ q sql sets e, p.run = .ok q ∧ q.build = .ok (sql, p.flat.params) ∧ readStmt sql = some (.update p.table sets e) ∧
        (sets.map fun s => (s.1, bound 0 p.flat.params s.2)) = p.flat.sets.map (fun s => (s.name, s.param)) ∧
        CondIs p.flat.clauses (wheresText p.wheres) p.flat.params (some e) ∧
        runStmt eng db sql p.flat.params = p.flat.effectBy (wheresText p.wheres) eng db
    else p.run = .panic .nilDeref := by
  have hw := wheres_run p.wheres (nupdate_wheres h)
  have hrun : p.run = (clauseCalls newWhere (p.wheres.map fun es => (false, es))).bind fun w =>
      .ok ⟨doUpdate, p.table, w.group, p.flat.sets.map SetTo.fv⟩ := by
    unfold NUpdateProg.run
    rw [nupdate_calls _ h.calls]
    rfl
  split
  · rename_i hs
    rw [if_pos hs, ← nupdate_clauses] at hw
    obtain ⟨w, h1, h2, _⟩ := hw
    obtain ⟨sql, sets, e, h3⟩ := update_ran eng db p.flat (nupdate_names h) h2
    exact ⟨_, sql, sets, e, by rw [hrun, h1]; rfl, h3⟩
  · rename_i hs
    rw [if_neg hs] at hw
    rw [hrun, hw]
    rfl

/-- **C78**, UPDATE: where every call does what its name says, the rows on which all expressions hold are changed.
Missing: as in `C78_select_partial`. -/
theorem C78_update_partial (eng : Engine) (db : Db) (p : NUpdateProg) (h : p.OK) (hc : wheresClear someRow p.wheres = true) :
    ∃ q sql sets e, p.run = .ok q ∧ q.build = .ok (sql, p.flat.params) ∧ readStmt sql = some (.update p.table sets e) ∧
      (sets.map fun s => (s.1, bound 0 p.flat.params s.2)) = p.flat.sets.map (fun s => (s.name, s.param)) ∧
      CondIs p.flat.clauses (wheresMean p.wheres) p.flat.params (some e) ∧
      runStmt eng db sql p.flat.params = p.flat.effectBy (wheresMean p.wheres) eng db := by
  obtain ⟨h1, h2⟩ := wheres_clear p.wheres (nupdate_wheres h) hc
  have := C78_update_exact eng db p h
  rwa [if_pos h1, h2] at this

theorem ndelete_calls : ∀ (calls : List (List CondExp)) (q : DeleteB),
    NDeleteProg.runAll q calls = (clauseCalls ⟨q.where_⟩ (calls.map fun es => (false, es))).bind fun w => .ok ⟨q.op, q.tableName, w.group⟩
  | [], q => rfl
  | es :: calls, q => by
    simp only [NDeleteProg.runAll, List.map_cons, clauseCalls]
    cases CondExp.callL es with
    | ok ds => simp only [Res.bind_ok, ndelete_calls calls, DeleteB.addWhere]; rfl
    | err e => rfl
    | panic e => rfl

theorem ndelete_names {p : NDeleteProg} (h : p.OK) : p.flat.Names := by
  have e : p.flat.clauses = testClauses (p.wheres.flatMap CondExp.testsL) := testClauses_flatten p.wheres
  refine ⟨h.table, ?_, ?_⟩
  · rw [e]
    refine testClauses_ok fun t ht => ?_
    obtain ⟨es, he, ht⟩ := List.mem_flatMap.mp ht
    exact CondExp.testsL_ok es (h.wheres es he) t ht
  · rw [e]
    exact wheres_tests_ne h.wheres h.where_

/-- **C78**, DELETE, for all nested conditions. -/
theorem C78_delete_exact (eng : Engine) (db : Db) (p : NDeleteProg) (h : p.OK) :
    if wheresSound p.wheres then
      ∃ q sql e, p.run = .ok q ∧ q.build = .ok (sql, paramsOf p.flat.clauses) ∧ readStmt sql = some (.delete p.table e) ∧
        CondIs p.flat.clauses (wheresText p.wheres) (paramsOf p.flat.clauses) (some e) ∧
        runStmt eng db sql (paramsOf p.flat.clauses) = p.flat.effectBy (wheresText p.wheres) eng db
    else p.run = .panic .nilDeref := by
  have hw := wheres_run p.wheres h.wheres
  have hrun : p.run = (clauseCalls newWhere (p.wheres.map fun es => (false, es))).bind fun w => .ok ⟨doDelete, p.table, w.group⟩ := by
    unfold NDeleteProg.run
    rw [ndelete_calls]
    rfl
  split
  · rename_i hs
    rw [if_pos hs, ← testClauses_flatten] at hw
    obtain ⟨w, h1, h2, _⟩ := hw
    obtain ⟨sql, e, h3⟩ := delete_ran eng db p.flat (ndelete_names h) h2
    exact ⟨_, sql, e, by rw [hrun, h1]; rfl, h3⟩
  · rename_i hs
    rw [if_neg hs] at hw
    rw [hrun, hw]
    rfl

/-- **C78**, DELETE: where every call does what its name says, the rows on which all expressions hold are removed.
Missing: as in `C78_select_partial`. -/
theorem C78_delete_partial (eng : Engine) (db : Db) (p : NDeleteProg) (h : p.OK) (hc : wheresClear someRow p.wheres = true) :
    ∃ q sql e, p.run = .ok q ∧ q.build = .ok (sql, paramsOf p.flat.clauses) ∧ readStmt sql = some (.delete p.table e) ∧
      CondIs p.flat.clauses (wheresMean p.wheres) (paramsOf p.flat.clauses) (some e) ∧
      runStmt eng db sql (paramsOf p.flat.clauses) = p.flat.effectBy (wheresMean p.wheres) eng db := by
  obtain ⟨h1, h2⟩ := wheres_clear p.wheres h.wheres hc
  have := C78_delete_exact eng db p h
  rwa [if_pos h1, h2] at this

/-! ## Examples and the exception -/

/-- `a = v` as an expression. -/
def exIs (n : Str) (v : Nat) : CondExp := .test (.cmp .eq ⟨none, n⟩ (.other v) (.other v))

theorem exIs_ok {n : Str} (h : n ∈ [c!"t", c!"x", c!"u", c!"id", c!"a", c!"tid", c!"n"]) (v : Nat) : (exIs n v).OK :=
  ⟨⟨exIdent h, fun _ ht => by cases ht⟩, (C38_values ⟨⟨[], [], []⟩, .other v⟩ _).mp rfl⟩

/-- `SelectManyFrom("t").Fields("id").Where(And(Or(a = 7, id = 3), Not(id = 2))).Limit(5).Where(Or(id = 1, id = 2))`. -/
def exNestedProg : NSelectProg :=
  ⟨⟨c!"t", none⟩, [.other (.fields [(exCol [] c!"id", none)]),
    .addWhere [.fn false (.fn true (exIs c!"a" 7) [exIs c!"id" 3]) [.not (exIs c!"id" 2)]], .other (.limit 5),
    .addWhere [.fn true (exIs c!"id" 1) [exIs c!"id" 2]]]⟩

example : exNestedProg.OK ∧ wheresClear someRow exNestedProg.wheres = true ∧
    exNestedProg.run.bind SelectMany.build =
      .ok (c!"SELECT id FROM t WHERE (a=$1 OR id=$2) AND NOT id=$3 AND (id=$4 OR id=$5) LIMIT $6",
        [.other 7, .other 3, .other 2, .other 1, .other 2, .uint 5]) ∧
    runBuilt exEng exDb (exNestedProg.run.bind SelectMany.build) = some [[(c!"id", some (.other 1))]] := by
  refine ⟨⟨⟨exIdent (by decide), fun a ha => by cases ha⟩, ?_⟩, rfl, rfl, rfl⟩
  intro c hc
  simp only [exNestedProg, List.mem_cons, List.not_mem_nil, or_false] at hc
  have ok : ∀ n ∈ [c!"a", c!"id"], ∀ v, (exIs n v).OK := fun n hn v => exIs_ok (by revert n; decide) v
  rcases hc with rfl | rfl | rfl | rfl
  · refine ⟨?_, rfl⟩
    intro p hp
    simp only [List.mem_singleton] at hp
    subst hp
    exact ⟨⟨.inl (exIdent (by decide)), fun t ht => by cases ht⟩, fun a ha => by cases ha⟩
  · exact ⟨⟨⟨ok _ (by decide) 7, ok _ (by decide) 3, trivial⟩, ok _ (by decide) 2, trivial⟩, trivial⟩
  · exact ⟨trivial, rfl⟩
  · exact ⟨⟨ok _ (by decide) 1, ok _ (by decide) 2, trivial⟩, trivial⟩

/-- **C78 is false** in general: `Delete("t").Where(Or(a = 7, id = 3)).Where(id = 3)` should remove the row `id = 3` and removes all three. -/
theorem C78_false :
    let p : NDeleteProg := ⟨c!"t", [[.fn true (exIs c!"a" 7) [exIs c!"id" 3]], [exIs c!"id" 3]]⟩
    p.OK ∧ p.run.bind DeleteB.build = .ok (c!"DELETE FROM t WHERE a=$1 OR id=$2 AND id=$3", [.other 7, .other 3, .other 3]) ∧
    (p.flat.effectBy (wheresMean p.wheres) exEng exDb).map (fun db => (db c!"t").rows.length) = some 2 ∧
    ((p.run.bind DeleteB.build).bind fun r => match runStmt exEng exDb r.1 r.2 with
      | some db => .ok (db c!"t").rows.length
      | none => .err .noTable) = .ok 0 ∧
    (NDeleteProg.mk c!"t" [[.method true (.test (.null ⟨none, c!"a"⟩)) [exIs c!"id" 3]]]).run.bind DeleteB.build = .panic .nilDeref := by
  refine ⟨⟨exIdent (by decide), ?_, by simp⟩, rfl, rfl, rfl, rfl⟩
  intro es he
  simp only [List.mem_cons, List.not_mem_nil, or_false] at he
  rcases he with rfl | rfl
  · exact ⟨⟨exIs_ok (by decide) 7, exIs_ok (by decide) 3, trivial⟩, trivial⟩
  · exact ⟨exIs_ok (by decide) 3, trivial⟩

end Query
