import Verif.Proof.NestedClear
import Verif.Props.Parts
import Verif.Props.Fields
/-!
# C77: nested And, Or and Not

What any nesting of calls says; when it is what it reads as; WHERE clauses built by any chain of calls.
-/
namespace Query

/-! ## The truth value of the text -/

/-- **C77**, for any expression: the text of what the calls build says `says`, and nothing else; a call of Or on an IS NULL test panics. -/
theorem C77_exact (row : Row) (e : CondExp) (h : e.OK) : match e.says row with
    | none => e.call = .panic .nilDeref
    | some y => ∃ c, e.call = .ok c ∧ ∀ x, TextMeans c row x ↔ x = y := by
  have hg := CondExp.gets row e h
  unfold CondExp.says
  cases hm : e.made row with
  | none => rw [hm] at hg; exact hg
  | some m =>
    rw [hm] at hg
    obtain ⟨c, h1, h2⟩ := hg
    refine ⟨c, h1, fun x => ?_⟩
    rw [C08_exact c row x h2.fine.1]
    have : joinTri m.facs = c.textSem row := by rw [← h2.made, madeOn_facs row h2.fine.1]; rfl
    exact this ▸ Iff.rfl

/-- **C77**: if every call of the expression takes its arguments as its name says, the text says what the expression reads as: And is
conjunction, Or is disjunction, Not is negation.  Which expressions are `clear` is computed from join words, brackets and NOTs.  What is
missing: for other expressions the text may say something else (`C77_false`). -/
theorem C77_partial (row : Row) (e : CondExp) (h : e.OK) (hc : e.clear row = true) :
    ∃ c, e.call = .ok c ∧ ∀ x, TextMeans c row x ↔ x = e.means row := by
  obtain ⟨m, h1, h2⟩ := CondExp.clear_is row e h hc
  have hx := C77_exact row e h
  simp only [CondExp.says, h1, Option.map_some] at hx
  obtain ⟨c, h3, h4⟩ := hx
  refine ⟨c, h3, fun x => ?_⟩
  rw [h4 x, h2.sem]

/-- **C77**, on all rows at once: it is enough to look at one row. -/
theorem C77_partial_rows (row : Row) (e : CondExp) (h : e.OK) (hc : e.clear row = true) :
    ∃ c, e.call = .ok c ∧ ∀ r x, TextMeans c r x ↔ x = e.means r := by
  obtain ⟨c, h1, h2⟩ := C77_partial row e h hc
  refine ⟨c, h1, fun r x => ?_⟩
  obtain ⟨d, h3, h4⟩ := C77_partial r e h (by rw [CondExp.clear_row r row e]; exact hc)
  rw [h1] at h3
  obtain rfl : c = d := by injection h3
  exact h4 x

/-! ## The tests and their parameters -/

theorem leaves_join (c : Cond) (j : Str) : (c.join j).leaves = c.leaves := by cases c <;> rfl

theorem leaves_setNegate (c : Cond) (n : Bool) : (c.setNegate n).leaves = c.leaves := by cases c <;> rfl

theorem leaves_flatMap (cs : List Cond) : (cs.flatMap Cond.parts).flatMap Cond.leaves = cs.flatMap Cond.leaves := by
  rw [List.flatMap_assoc]
  congr 1
  funext c
  exact (leaves_parts c).symm

theorem leaves_of_parts {c : Cond} {ps : List Cond} {cs : List Cond} (h : c.parts = ps ++ cs.flatMap Cond.parts) :
    c.leaves = ps.flatMap Cond.leaves ++ cs.flatMap Cond.leaves := by
  rw [leaves_parts c, h, List.flatMap_append, leaves_flatMap]

namespace CondExp

mutual
theorem call_leaves : ∀ e : CondExp, e.OK → ∀ c, e.call = .ok c → c.leaves = e.tests.map Test.leaf
  | .test t, h, c, hc => by
    obtain ⟨d, h1, h2⟩ := test_call t h false
    have h1 : t.call = .ok d := by
      have : (⟨false, t⟩ : Lit).call = t.call := by
        simp only [Lit.call]
        cases t.call <;> rfl
      rw [← this]; exact h1
    have hc : t.call = .ok c := hc
    rw [hc] at h1
    obtain rfl : c = d := by injection h1
    exact h2.leaves
  | .not e, h, c, hc => by
    simp only [call, Res.bind_eq_ok] at hc
    obtain ⟨d, h1, h2⟩ := hc
    injection h2 with h2
    rw [← h2, show notC d = d.setNegate true from rfl, leaves_setNegate]
    exact call_leaves e h d h1
  | .unnot e, h, c, hc => by
    simp only [call, Res.bind_eq_ok] at hc
    obtain ⟨d, h1, h2⟩ := hc
    injection h2 with h2
    rw [← h2, leaves_setNegate]
    exact call_leaves e h d h1
  | .join o e, h, c, hc => by
    simp only [call, Res.bind_eq_ok] at hc
    obtain ⟨d, h1, h2⟩ := hc
    injection h2 with h2
    rw [← h2, leaves_join]
    exact call_leaves e h d h1
  | .brackets e, h, c, hc => by
    simp only [call, Res.bind_eq_ok] at hc
    obtain ⟨d, h1, h2⟩ := hc
    injection h2 with h2
    have hl := call_leaves e h d h1
    rw [← h2]
    simp only [tests]
    rw [← hl]
    cases d <;> rfl
  | .fn o e es, h, c, hc => by
    simp only [call, Res.bind_eq_ok] at hc
    obtain ⟨d, h1, ds, h2, h3⟩ := hc
    injection h3 with h3
    simp only [tests, List.map_append]
    rw [← call_leaves e h.1 d h1, ← callL_leaves es h.2 ds h2, ← h3, leaves_parts d]
    cases o with
    | false => exact leaves_of_parts (C58_operation d ds).1
    | true => exact leaves_of_parts (C58_operation d ds).2
  | .method o e es, h, c, hc => by
    simp only [call, Res.bind_eq_ok] at hc
    obtain ⟨d, h1, ds, h2, h3⟩ := hc
    simp only [tests, List.map_append]
    rw [← call_leaves e h.1 d h1, ← callL_leaves es h.2 ds h2, leaves_parts d]
    cases o with
    | false =>
      simp only [Bool.false_eq_true, if_false] at h3
      injection h3 with h3
      rw [← h3]
      exact leaves_of_parts (C58_method d ds).1
    | true => exact leaves_of_parts ((C58_method d ds).2 c (by simpa using h3))
  | .group o es, h, c, hc => by
    simp only [call, Res.bind_eq_ok] at hc
    obtain ⟨ds, h2, h3⟩ := hc
    injection h3 with h3
    simp only [tests]
    rw [← callL_leaves es h.2 ds h2, ← h3, leaves_parts, C58_newGroup, leaves_flatMap]
  | .joinAll o es, h, c, hc => by
    simp only [call, Res.bind_eq_ok] at hc
    obtain ⟨ds, h2, h3⟩ := hc
    simp only [tests]
    rw [← callL_leaves es h.2 ds h2]
    match ds, h3 with
    | [], h3 => simp [Query.joinAll] at h3
    | [d], h3 =>
      have h3 : Res.ok (d.join (wordOf o)) = .ok c := h3
      injection h3 with h3
      rw [← h3, leaves_join]
      simp
    | d :: d' :: ds, h3 =>
      have h3 : (newGroupI (wordOf o) ((d :: d' :: ds).map some)).bind (fun g => .ok g.toCond) = .ok c := h3
      rw [newGroupI_some, Res.bind_ok] at h3
      injection h3 with h3
      rw [← h3, leaves_parts, C58_newGroup, leaves_flatMap]
theorem callL_leaves : ∀ es : List CondExp, OKL es → ∀ cs, callL es = .ok cs → cs.flatMap Cond.leaves = (testsL es).map Test.leaf
  | [], _, cs, hc => by
    simp only [callL] at hc
    injection hc with hc
    rw [← hc]; rfl
  | e :: es, h, cs, hc => by
    simp only [callL, Res.bind_eq_ok] at hc
    obtain ⟨d, h1, ds, h2, h3⟩ := hc
    injection h3 with h3
    rw [← h3]
    simp only [testsL, List.map_append, List.flatMap_cons]
    rw [call_leaves e h.1 d h1, callL_leaves es h.2 ds h2]
end

end CondExp

theorem cond_params {c : Cond} (hr : c.Readable) {ts : List Test} (hl : c.leaves = ts.map Test.leaf) : c.values = .ok (ts.flatMap Test.params) := by
  rw [readable_valuesP hr, leaves_vals c hr, hl, List.flatMap_map]
  rfl

/-- **C77**, the tests: the text is read as an expression whose tests are those of the calls, from left to right, and the values are their
parameters in that order. -/
theorem C77_params (e : CondExp) (h : e.OK) (c : Cond) (hc : e.call = .ok c) (k : Nat) :
    ∃ s x, c.render k = .ok s ∧ c.values = .ok (e.tests.flatMap Test.params) ∧ Reads s x ∧
      x.leaves (bound k (e.tests.flatMap Test.params)) = e.tests.map fun t => ⟨t.op, t.col.text, t.params⟩ := by
  have hl := CondExp.call_leaves e h c hc
  have hr : c.Readable := by
    have hg := CondExp.gets ⟨fun _ _ _ => .t, fun _ _ => .t, fun _ _ => .t, fun _ => true⟩ e h
    cases hm : e.made ⟨fun _ _ _ => .t, fun _ _ => .t, fun _ _ => .t, fun _ => true⟩ with
    | none =>
      rw [hm] at hg
      have hg : e.call = .panic .nilDeref := hg
      rw [hc] at hg; cases hg
    | some m =>
      rw [hm] at hg
      obtain ⟨d, h1, h2⟩ := hg
      rw [hc] at h1
      injection h1 with h1
      exact h1 ▸ h2.fine.1
  have hv := cond_params hr hl
  obtain ⟨s, vs, x, h1, h2, h3, _, h4, _⟩ := C08_reads c k hr
  rw [hv] at h2
  injection h2 with h2
  refine ⟨s, x, h1, hv, h3, ?_⟩
  rw [h2, h4, hl]
  rfl

/-! ## WHERE clauses -/

/-- A where clause after some calls. -/
def ClauseIs (row : Row) (w : WhereClause) : Option MadeGroup → Prop
  | none => w.group.conds = [] ∧ w.group.base.negate = false ∧ w.group.brackets = false
  | some g => w.group.toCond.Fine ∧ w.group.madeOn row = g ∧ g.neg = false ∧ g.br = false

theorem clause_step (row : Row) {w : WhereClause} {s : Option MadeGroup} (h : ClauseIs row w s) (o : Bool) (ds : List Cond) (hd : ∀ d ∈ ds, d.Fine) :
    ClauseIs row (if o then w.groupOR ds else w.groupAND ds) (clauseStep s (o, ds.map (Cond.madeOn row))) := by
  match ds, hd with
  | [], _ => cases o <;> cases s <;> exact h
  | d :: ds, hd =>
    cases s with
    | none =>
      obtain ⟨h1, h2, h3⟩ := h
      have e : ∀ op, w.group.addConditions op (d :: ds) = { w.group with conds := d :: ds, base := { w.group.base with joinType := op } } := by
        intro op; simp [Group.addConditions, h1]
      have key : ClauseIs row ⟨w.group.addConditions (wordOf o) (d :: ds)⟩ (clauseStep none (o, (d :: ds).map (Cond.madeOn row))) := by
        rw [e]
        refine ⟨fine_group (fine_readL (by simp) hd) (wordOf_word o) (fine_head (by simp) hd), ?_, rfl, rfl⟩
        simp only [Group.madeOn, membersOn_row row (d :: ds) (fun x hx => (hd x hx).1) (by simp), h2, h3, wordOf_or]
      cases o <;> exact key
    | some g =>
      obtain ⟨h1, rfl, h3, h4⟩ := h
      cases o with
      | false =>
        have hg := grown_and row w.group (d :: ds) h1 hd
        exact ⟨hg.fine h1, hg.made, h3, h4⟩
      | true =>
        have hg := grown_or row w.group (d :: ds) h1 hd
        exact ⟨hg.fine h1, hg.made, h3, h4⟩

theorem clause_calls (row : Row) : ∀ (calls : List (Bool × List CondExp)) (w : WhereClause) (s : Option MadeGroup), (∀ c ∈ calls, CondExp.OKL c.2) →
    ClauseIs row w s → match clauseMade row calls with
      | none => clauseCalls w calls = .panic .nilDeref
      | some ms => ∃ r, clauseCalls w calls = .ok r ∧ ClauseIs row r (ms.foldl clauseStep s)
  | [], w, s, _, h => ⟨w, rfl, h⟩
  | (o, es) :: cs, w, s, hk, h => by
    have hg := CondExp.getsL row es (hk (o, es) (by simp))
    simp only [clauseMade, clauseCalls]
    cases hm : CondExp.madeL row es with
    | none =>
      rw [hm] at hg
      have hg : CondExp.callL es = .panic .nilDeref := hg
      rw [hg]; rfl
    | some ms =>
      rw [hm] at hg
      obtain ⟨ds, h1, rfl, h3⟩ := hg
      rw [h1]
      have := clause_calls row cs _ _ (fun c hc => hk c (by simp [hc])) (clause_step row h o ds h3)
      simp only [Option.bind_some, Res.bind_ok]
      cases hr : clauseMade row cs with
      | none => rw [hr] at this; exact this
      | some r => rw [hr] at this; exact this

theorem clause_leaves : ∀ (calls : List (Bool × List CondExp)) (w r : WhereClause), (∀ c ∈ calls, CondExp.OKL c.2) → clauseCalls w calls = .ok r →
    r.group.toCond.leaves = w.group.toCond.leaves ++ (calls.flatMap fun c => CondExp.testsL c.2).map Test.leaf
  | [], w, r, _, h => by
    simp only [clauseCalls] at h
    injection h with h
    simp [h]
  | (o, es) :: cs, w, r, hk, h => by
    simp only [clauseCalls, Res.bind_eq_ok] at h
    obtain ⟨ds, h1, h2⟩ := h
    have hl := CondExp.callL_leaves es (hk (o, es) (by simp)) ds h1
    rw [clause_leaves cs _ r (fun c hc => hk c (by simp [hc])) h2]
    have e : (if o then w.groupOR ds else w.groupAND ds).group.toCond.leaves = w.group.toCond.leaves ++ ds.flatMap Cond.leaves := by
      rw [leaves_parts w.group.toCond]
      cases o with
      | false => exact leaves_of_parts (C58_group w.group ds).1
      | true => exact leaves_of_parts (C58_group w.group ds).2.1
    rw [e, hl]
    simp [List.append_assoc]

/-- **C77**, WHERE clauses: after any chain of `GroupAND` and `GroupOR` calls with any expressions on `NewWhere()`, the clause says `clauseSays`,
its values are the parameters of all tests in order; without conditions it has none. -/
theorem C77_where (row : Row) (calls : List (Bool × List CondExp)) (h : ∀ c ∈ calls, CondExp.OKL c.2) : match clauseMade row calls with
    | none => clauseCalls newWhere calls = .panic .nilDeref
    | some ms => ∃ w, clauseCalls newWhere calls = .ok w ∧ match clauseSays ms with
      | none => w.conditions = []
      | some y => w.values = .ok ((calls.flatMap fun c => CondExp.testsL c.2).flatMap Test.params) ∧
          ∀ x, TextMeans w.group.toCond row x ↔ x = y := by
  have hc := clause_calls row calls newWhere none h ⟨rfl, rfl, rfl⟩
  cases hm : clauseMade row calls with
  | none => rw [hm] at hc; exact hc
  | some ms =>
    rw [hm] at hc
    obtain ⟨w, h1, h2⟩ := hc
    refine ⟨w, h1, ?_⟩
    unfold clauseSays
    cases hf : ms.foldl clauseStep none with
    | none => rw [hf] at h2; exact h2.1
    | some g =>
      rw [hf] at h2
      obtain ⟨h3, h4, h5, h6⟩ := h2
      refine ⟨cond_params h3.1 (by rw [clause_leaves calls newWhere w h h1]; rfl), fun x => ?_⟩
      rw [C08_exact _ row x h3.1]
      have : w.group.toCond.textSem row = joinTri g.mem.facs := by
        have e : (Made.group (w.group.madeOn row)).facs = w.group.toCond.sflat row := madeOn_facs row h3.1
        unfold Cond.textSem
        rw [← e, h4, Made.facs, h5, h6]
        simp only [Bool.false_and, Bool.or_false, Bool.false_eq_true, if_false, joinTri_ssetHead]
        cases g.mem.facs <;> rfl
      rw [this]

theorem first_is {o : Bool} : ∀ {ms : List Made} {xs : List Tri}, AreL ms xs → ms ≠ [] → firstTakes o ms = true →
    joinTri (Made.row ms).facs = if o then anyOf xs else allOf xs := by
  intro ms xs ha hn ht
  match ms, xs, ha with
  | [m], [x], ha =>
    have : joinTri (Made.row [m]).facs = x := ha.1.sem
    rw [this]
    cases o <;> simp [anyOf, allOf]
  | [m], [], ha => exact ha.elim
  | [m], x :: y :: xs, ha => exact ha.2.elim
  | [], _, _ => exact absurd rfl hn
  | m :: n :: ms, xs, ha =>
    simp only [firstTakes] at ht
    cases o with
    | false =>
      have ht : (((m :: n :: ms).all fun m => noOrIn m.facs) && ((n :: ms).all fun m => !m.word)) = true := by simpa using ht
      simp only [Bool.and_eq_true, List.all_eq_true, Bool.not_eq_true'] at ht
      exact (row_and _ _ ha (by simp) ht.1 ht.2).2
    | true =>
      have ht : ((n :: ms).all fun m => m.word) = true := by simpa using ht
      simp only [List.all_eq_true] at ht
      exact row_or _ _ ha (by simp) ht

theorem clauseClear_is (row : Row) : ∀ (calls : List (Bool × List CondExp)) (s : Option MadeGroup) (t : Option Tri),
    (∀ c ∈ calls, CondExp.OKL c.2) → clauseClear row s calls = true →
    (match s, t with
      | none, none => True
      | some g, some x => g.mem.WF ∧ joinTri g.mem.facs = x
      | _, _ => False) →
    ∃ ms, clauseMade row calls = some ms ∧ ((ms.foldl clauseStep s).map fun g => joinTri g.mem.facs) = calls.foldl (clauseMeansStep row) t
  | [], s, t, _, _, h => by
    refine ⟨[], rfl, ?_⟩
    match s, t, h with
    | none, none, _ => rfl
    | some g, some x, h => exact congrArg some h.2
    | none, some _, h => exact h.elim
    | some _, none, h => exact h.elim
  | (o, es) :: cs, s, t, hk, hc, h => by
    simp only [clauseClear, Bool.and_eq_true] at hc
    obtain ⟨ms, h1, h2⟩ := CondExp.clear_isL row es (hk (o, es) (by simp)) hc.1
    have hc2 := hc.2
    rw [h1] at hc2
    simp only [Bool.and_eq_true] at hc2
    have step : (match clauseStep s (o, ms), clauseMeansStep row t (o, es) with
        | none, none => True
        | some g, some x => g.mem.WF ∧ joinTri g.mem.facs = x
        | _, _ => False) := by
      have hlen := CondExp.madeL_length row es ms h1
      match ms, es, hlen with
      | [], [], _ =>
        match s, t, h with
        | none, none, h => exact h
        | some g, some x, h => exact h
        | none, some _, h => exact h.elim
        | some _, none, h => exact h.elim
      | m :: ms, e :: es, _ =>
        match s, t, h with
        | none, none, _ =>
          refine ⟨wf_row _ (by simp) (areL_wf _ _ h2), ?_⟩
          exact first_is h2 (by simp) hc2.1
        | some g, some x, h =>
          have ht := hc2.1
          simp only [clauseTakes] at ht
          cases o with
          | false =>
            exact ⟨wf_addAnd h.1 _ (areL_wf _ _ h2), by
              have := (adds_conj h.1 (m :: ms) _ h2 (by simp) (by simpa using ht)).2
              rw [h.2] at this
              exact this⟩
          | true =>
            exact ⟨wf_addOr h.1 _ (areL_wf _ _ h2), by
              have := (adds_disj h.1 (m :: ms) _ h2 (by simp) (by simpa using ht)).2
              rw [h.2] at this
              exact this⟩
        | none, some _, h => exact h.elim
        | some _, none, h => exact h.elim
      | [], _ :: _, h => simp at h
      | _ :: _, [], h => simp at h
    obtain ⟨rs, h3, h4⟩ := clauseClear_is row cs _ _ (fun c hc => hk c (by simp [hc])) hc2.2 step
    refine ⟨(o, ms) :: rs, by simp [clauseMade, h1, h3], ?_⟩
    simpa using h4

/-- **C77**, WHERE clauses whose calls all do what their names say: the clause says that all conditions of a `GroupAND` hold besides what was
there, or that any condition of a `GroupOR` does.  What is missing: for other calls it says something else (`C77_where_false`). -/
theorem C77_where_partial (row : Row) (calls : List (Bool × List CondExp)) (h : ∀ c ∈ calls, CondExp.OKL c.2)
    (hc : clauseClear row none calls = true) :
    ∃ w, clauseCalls newWhere calls = .ok w ∧ match clauseMeans row calls with
      | none => w.conditions = []
      | some y => w.values = .ok ((calls.flatMap fun c => CondExp.testsL c.2).flatMap Test.params) ∧
          ∀ x, TextMeans w.group.toCond row x ↔ x = y := by
  obtain ⟨ms, h1, h2⟩ := clauseClear_is row calls none none h hc trivial
  have hw := C77_where row calls h
  rw [h1] at hw
  obtain ⟨w, h3, h4⟩ := hw
  refine ⟨w, h3, ?_⟩
  have e : clauseSays ms = clauseMeans row calls := h2
  rw [e] at h4
  exact h4

/-! ## Examples -/

/-- A test for examples. -/
def exHas (w : Str) : CondExp := .test (.has ⟨none, w⟩ c!"z")

theorem exHas_ok {w : Str} (h : w ∈ [c!"a", c!"b", c!"c", c!"d"]) : (exHas w).OK := by
  refine ⟨⟨⟨⟨?_, ?_, ?_⟩, ?_⟩, ?_, ?_⟩, fun t ht => by cases ht⟩ <;> revert w <;> decide

/-- `Not(And(Or(a, b), Not(c)))`. -/
def exNested : CondExp := .not (.fn false (.fn true (exHas c!"a") [exHas c!"b"]) [.not (exHas c!"c")])

theorem exNested_ok : exNested.OK := ⟨⟨exHas_ok (by decide), exHas_ok (by decide), trivial⟩, exHas_ok (by decide), trivial⟩

/-- It is clear, and its text says so. -/
example : exNested.clear (exRow []) = true ∧ (exNested.call.bind fun c => c.render 0) = .ok c!"NOT ((a LIKE $1 OR b LIKE $2) AND c NOT LIKE $3)" ∧
    exNested.means (exRow [c!"a"]) = .f ∧ exNested.means (exRow [c!"a", c!"c"]) = .t ∧ exNested.says (exRow [c!"a"]) = some .f := ⟨rfl, rfl, rfl, rfl, rfl⟩

/-- So are `a.Or(b).And(c.And(d))` and `Or(And(a, b), And(c, Not(d)))`. -/
example :
    let e : CondExp := .method false (.method true (exHas c!"a") [exHas c!"b"]) [.method false (exHas c!"c") [exHas c!"d"]]
    let f : CondExp := .fn true (.fn false (exHas c!"a") [exHas c!"b"]) [.fn false (exHas c!"c") [.not (exHas c!"d")]]
    e.clear (exRow []) = true ∧ (e.call.bind fun c => c.render 0) = .ok c!"(a LIKE $1 OR b LIKE $2) AND c LIKE $3 AND d LIKE $4" ∧
    f.clear (exRow []) = true ∧ (f.call.bind fun c => c.render 0) = .ok c!"(a LIKE $1 AND b LIKE $2) OR (c LIKE $3 AND d NOT LIKE $4)" :=
  ⟨rfl, rfl, rfl, rfl⟩

/-- The expression, on the row, says something else than it reads as. -/
theorem nested_false (e : CondExp) (h : e.OK) (row : Row) {x y : Tri} (hs : e.says row = some x) (hm : e.means row = y) (hne : x ≠ y) :
    ∃ c, e.call = .ok c ∧ TextMeans c row x ∧ ¬ TextMeans c row (e.means row) := by
  have := C77_exact row e h
  rw [hs] at this
  obtain ⟨c, h1, h2⟩ := this
  exact ⟨c, h1, (h2 x).mpr rfl, fun hx => hne ((hm ▸ (h2 _).mp hx).symm)⟩

/-- **C77 is false**: `And(d, And(Or(a, b), c))` is `d OR (a OR b) AND c`; `And(Not(Or(a, b)), c)` is `NOT (NOT (a OR b) AND c)`; `a.Or(b, c)` is
`(a) AND (b AND c)`; `Not(Not(a))` is `NOT a`. -/
theorem C77_false :
    (let e : CondExp := .fn false (exHas c!"d") [.fn false (.fn true (exHas c!"a") [exHas c!"b"]) [exHas c!"c"]];
      e.OK ∧ ∃ c, e.call = .ok c ∧ c.render 0 = .ok c!"d LIKE $1 OR (a LIKE $2 OR b LIKE $3) AND c LIKE $4" ∧ ¬ TextMeans c (exRow [c!"d"]) (e.means (exRow [c!"d"]))) ∧
    (let e : CondExp := .fn false (.not (.fn true (exHas c!"a") [exHas c!"b"])) [exHas c!"c"];
      e.OK ∧ ∃ c, e.call = .ok c ∧ c.render 0 = .ok c!"NOT (NOT (a LIKE $1 OR b LIKE $2) AND c LIKE $3)" ∧ ¬ TextMeans c (exRow []) (e.means (exRow []))) ∧
    (let e : CondExp := .method true (exHas c!"a") [exHas c!"b", exHas c!"c"];
      e.OK ∧ ∃ c, e.call = .ok c ∧ c.render 0 = .ok c!"(a LIKE $1) AND (b LIKE $2 AND c LIKE $3)" ∧ ¬ TextMeans c (exRow [c!"a"]) (e.means (exRow [c!"a"]))) ∧
    (let e : CondExp := .not (.not (exHas c!"a"));
      e.OK ∧ ∃ c, e.call = .ok c ∧ c.render 0 = .ok c!"a NOT LIKE $1" ∧ ¬ TextMeans c (exRow []) (e.means (exRow []))) := by
  have oa : (exHas c!"a").OK := exHas_ok (by decide)
  have ob : (exHas c!"b").OK := exHas_ok (by decide)
  have oc : (exHas c!"c").OK := exHas_ok (by decide)
  have od : (exHas c!"d").OK := exHas_ok (by decide)
  refine ⟨⟨⟨od, ⟨⟨oa, ob, trivial⟩, oc, trivial⟩, trivial⟩, ?_⟩, ⟨⟨⟨oa, ob, trivial⟩, oc, trivial⟩, ?_⟩,
    ⟨⟨oa, ob, oc, trivial⟩, ?_⟩, ⟨oa, ?_⟩⟩
  · obtain ⟨c, h1, _, h3⟩ := nested_false (.fn false (exHas c!"d") [.fn false (.fn true (exHas c!"a") [exHas c!"b"]) [exHas c!"c"]]) ⟨od, ⟨⟨oa, ob, trivial⟩, oc, trivial⟩, trivial⟩ (exRow [c!"d"]) (x := .t) (y := .f) rfl rfl (by decide)
    exact ⟨c, h1, by injection h1 with h1; rw [← h1]; rfl, h3⟩
  · obtain ⟨c, h1, _, h3⟩ := nested_false (.fn false (.not (.fn true (exHas c!"a") [exHas c!"b"])) [exHas c!"c"]) ⟨⟨oa, ob, trivial⟩, oc, trivial⟩ (exRow []) (x := .t) (y := .f) rfl rfl (by decide)
    exact ⟨c, h1, by injection h1 with h1; rw [← h1]; rfl, h3⟩
  · obtain ⟨c, h1, _, h3⟩ := nested_false (.method true (exHas c!"a") [exHas c!"b", exHas c!"c"]) ⟨oa, ob, oc, trivial⟩ (exRow [c!"a"]) (x := .f) (y := .t) rfl rfl (by decide)
    exact ⟨c, h1, by injection h1 with h1; rw [← h1]; rfl, h3⟩
  · obtain ⟨c, h1, _, h3⟩ := nested_false (.not (.not (exHas c!"a"))) oa (exRow []) (x := .t) (y := .f) rfl rfl (by decide)
    exact ⟨c, h1, by injection h1 with h1; rw [← h1]; rfl, h3⟩

/-- Where clauses: `GroupAND(a).GroupOR(b).GroupAND(Or(c, d))`. -/
def exClause : List (Bool × List CondExp) :=
  [(false, [exHas c!"a"]), (true, [exHas c!"b"]), (false, [.fn true (exHas c!"c") [exHas c!"d"]])]

example : (∀ c ∈ exClause, CondExp.OKL c.2) ∧ clauseClear (exRow []) none exClause = true ∧
    ((clauseCalls newWhere exClause).bind fun w => w.render 0) = .ok c!"(a LIKE $1 OR b LIKE $2) AND (c LIKE $3 OR d LIKE $4)" ∧
    clauseMeans (exRow [c!"b", c!"d"]) exClause = some .t ∧ clauseMeans (exRow [c!"b"]) exClause = some .f := by
  refine ⟨?_, rfl, rfl, rfl, rfl⟩
  intro c hc
  simp only [exClause, List.mem_cons, List.not_mem_nil, or_false] at hc
  rcases hc with rfl | rfl | rfl
  · exact ⟨exHas_ok (by decide), trivial⟩
  · exact ⟨exHas_ok (by decide), trivial⟩
  · exact ⟨⟨exHas_ok (by decide), exHas_ok (by decide), trivial⟩, trivial⟩

/-- **C77 is false** for WHERE clauses: `GroupOR(a, b)` on a new clause says `a AND b`, and `GroupAND(a, Or(b, c))` says `a OR b OR c`. -/
theorem C77_where_false :
    (∃ w, clauseCalls newWhere [(true, [exHas c!"a", exHas c!"b"])] = .ok w ∧ w.render 0 = .ok c!"a LIKE $1 AND b LIKE $2" ∧
      TextMeans w.group.toCond (exRow [c!"a"]) .f ∧ clauseMeans (exRow [c!"a"]) [(true, [exHas c!"a", exHas c!"b"])] = some .t) ∧
    (∃ w, clauseCalls newWhere [(false, [exHas c!"a", .fn true (exHas c!"b") [exHas c!"c"]])] = .ok w ∧
      w.render 0 = .ok c!"a LIKE $1 OR b LIKE $2 OR c LIKE $3" ∧ TextMeans w.group.toCond (exRow [c!"a"]) .t ∧
      clauseMeans (exRow [c!"a"]) [(false, [exHas c!"a", .fn true (exHas c!"b") [exHas c!"c"]])] = some .f) := by
  have oa : (exHas c!"a").OK := exHas_ok (by decide)
  have ob : (exHas c!"b").OK := exHas_ok (by decide)
  have oc : (exHas c!"c").OK := exHas_ok (by decide)
  constructor
  · obtain ⟨w, h1, h2⟩ := C77_where (exRow [c!"a"]) [(true, [exHas c!"a", exHas c!"b"])] (by
      intro c hc; simp only [List.mem_cons, List.not_mem_nil, or_false] at hc; subst hc; exact ⟨oa, ob, trivial⟩)
    exact ⟨w, h1, by injection h1 with h1; rw [← h1]; rfl, (h2.2 .f).mpr rfl, rfl⟩
  · obtain ⟨w, h1, h2⟩ := C77_where (exRow [c!"a"]) [(false, [exHas c!"a", .fn true (exHas c!"b") [exHas c!"c"]])] (by
      intro c hc; simp only [List.mem_cons, List.not_mem_nil, or_false] at hc; subst hc; exact ⟨oa, ⟨ob, oc, trivial⟩, trivial⟩)
    exact ⟨w, h1, by injection h1 with h1; rw [← h1]; rfl, (h2.2 .t).mpr rfl, rfl⟩

/-- `Or` as a method on an IS NULL test panics, wherever it is. -/
example : (CondExp.not (.fn false (exHas c!"a") [.method true (.test (.null ⟨none, c!"b"⟩)) [exHas c!"c"]])).says (exRow []) = none := rfl

/-! ## C30 on WHERE clauses -/

/-- **C30**, WHERE clauses: `ApplyFieldSpec` replaces exactly the fields named like the given one in the conditions of the clause, and changes
neither anything else of them nor the clause. -/
theorem C30_where (w : WhereClause) (spec : FieldDef) :
    Cond.leafFieldsL (w.applyFieldSpec spec).conditions =
      (Cond.leafFieldsL w.conditions).map (fun fd => if fd.fieldName = spec.fieldName then spec else fd) ∧
    Cond.blankL (w.applyFieldSpec spec).conditions = Cond.blankL w.conditions ∧
    Cond.valuesL (w.applyFieldSpec spec).conditions = Cond.valuesL w.conditions ∧
    (w.applyFieldSpec spec).group.base = w.group.base ∧ (w.applyFieldSpec spec).group.brackets = w.group.brackets := by
  obtain ⟨h1, h2, h3⟩ := applySpec_changesL spec w.group.conds
  exact ⟨h1, h2, h3, rfl, rfl⟩

example : ((newWhere.groupAND [.null ⟨lAND, false⟩ ⟨c!"id", [], []⟩]).applyFieldSpec ⟨c!"id", c!"t", []⟩).render 0 = .ok c!"t.id IS NULL" := rfl

end Query
