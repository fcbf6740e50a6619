import Verif.Spec.Spelled
import Verif.Props.Laws
/-!
# C88: every condition can be said

Whatever a program means by its conditions can be written so that the library takes it at its word.
-/
namespace Query

namespace CondExp

mutual
theorem spelled_tests : ∀ e : CondExp, e.spelled.tests = e.tests
  | .test _ => rfl
  | .not e => by simp only [spelled, tests, testsL, List.append_nil, spelled_tests e]
  | .unnot e => by simp only [spelled, tests, spelled_tests e]
  | .fn _ e es => by simp only [spelled, tests, testsL, spelled_tests e, spelled_testsL es]
  | .method _ e es => by simp only [spelled, tests, testsL, spelled_tests e, spelled_testsL es]
  | .group _ es => by simp only [spelled, tests, spelled_testsL es]
  | .joinAll _ es => by simp only [spelled, tests, spelled_testsL es]
  | .join _ e => by simp only [spelled, tests, spelled_tests e]
  | .brackets e => by simp only [spelled, tests, spelled_tests e]
theorem spelled_testsL : ∀ es : List CondExp, testsL (spelledL es) = testsL es
  | [] => rfl
  | e :: es => by simp only [spelledL, testsL, spelled_tests e, spelled_testsL es]
end

theorem spelledL_ne : ∀ {es : List CondExp}, es ≠ [] → spelledL es ≠ []
  | [], h => absurd rfl h
  | _ :: _, _ => by simp [spelledL]

mutual
theorem spelled_ok : ∀ e : CondExp, e.OK → e.spelled.OK
  | .test _, h => h
  | .not e, h => ⟨by simp, spelled_ok e h, trivial⟩
  | .unnot e, h => spelled_ok e h
  | .fn _ e es, h => ⟨by simp, spelled_ok e h.1, spelled_okL es h.2⟩
  | .method _ e es, h => ⟨by simp, spelled_ok e h.1, spelled_okL es h.2⟩
  | .group _ es, h => ⟨spelledL_ne h.1, spelled_okL es h.2⟩
  | .joinAll _ es, h => ⟨spelledL_ne h.1, spelled_okL es h.2⟩
  | .join _ e, h => spelled_ok e h
  | .brackets e, h => spelled_ok e h
theorem spelled_okL : ∀ es : List CondExp, OKL es → OKL (spelledL es)
  | [], _ => trivial
  | e :: es, h => ⟨spelled_ok e h.1, spelled_okL es h.2⟩
end

theorem allOf_single (x : Tri) : allOf [x] = x := by cases x <;> rfl

mutual
/-- Spelled out, a condition should say what it should say. -/
theorem spelled_means (row : Row) : ∀ e : CondExp, e.spelled.means row = e.means row
  | .test _ => rfl
  | .not e => by
    simp only [spelled, means, meansL, spelled_means row e]
    rw [if_neg (by decide), allOf_single]
  | .unnot e => by simp only [spelled, means, spelled_means row e]
  | .fn o e es => by
    simp only [spelled, means, meansL, spelled_means row e, spelled_meansL row es]
    cases o <;> rfl
  | .method o e es => by
    simp only [spelled, means, meansL, spelled_means row e, spelled_meansL row es]
    cases o <;> rfl
  | .group o es => by simp only [spelled, means, spelled_meansL row es]
  | .joinAll o es => by simp only [spelled, means, spelled_meansL row es]
  | .join _ e => by simp only [spelled, means, spelled_means row e]
  | .brackets e => by simp only [spelled, means, spelled_means row e]
theorem spelled_meansL (row : Row) : ∀ es : List CondExp, meansL row (spelledL es) = meansL row es
  | [] => rfl
  | e :: es => by simp only [spelledL, meansL, spelled_means row e, spelled_meansL row es]
end

end CondExp

/-- One factor, whatever word is before it. -/
def OneFac (m : Made) : Prop := m.word = false ∧ ∀ w, ∃ x, (m.withWord w).facs = [(w, x)]

theorem oneFac_facs {m : Made} (h : OneFac m) : noOrIn m.facs = true := by
  have e : m.withWord m.word = m := by
    cases m <;> rfl
  obtain ⟨x, hx⟩ := h.2 m.word
  rw [e] at hx
  rw [hx]
  rfl

theorem oneFac_test (k : TestKind) (x : Tri) (n : Bool) : OneFac (.test k x n false) := ⟨rfl, fun _ => ⟨_, rfl⟩⟩

theorem oneFac_box (g : MadeGroup) (hw : g.word = false) (hb : g.br = true) : OneFac (.group g) :=
  ⟨hw, fun w => ⟨(joinTri g.mem.facs).notIf g.neg, by simp [Made.withWord, Made.facs, hb]⟩⟩

namespace CondExp

mutual
theorem spelled_clear (row : Row) : ∀ e : CondExp, e.spelled.clear row = true ∧ ∃ m, e.spelled.made row = some m ∧ OneFac m
  | .test t => ⟨rfl, _, rfl, oneFac_test _ _ _⟩
  | .not e => by
    obtain ⟨h1, m, h2, h3⟩ := spelled_clear row e
    refine ⟨?_, .group { Made.newGroup false [m] with neg := true, br := true }, by simp only [spelled, made, madeL, h2, Option.bind_some, Option.map_some, Made.bracketed, Made.withNeg], oneFac_box _ rfl rfl⟩
    simp only [spelled, clear, clearL, made, madeL, h1, h2, Option.bind_some, Option.map_some, Made.bracketed, List.all_cons, List.all_nil,
      oneFac_facs h3, Made.takesNot, Made.newGroup]
    rfl
  | .unnot e => spelled_clear row e
  | .fn o e es => by
    obtain ⟨h1, m, h2, h3⟩ := spelled_clear row e
    obtain ⟨k1, ms, k2, k3⟩ := spelled_clearL row es
    refine ⟨?_, .group { Made.newGroup o (m :: ms) with br := true }, by simp only [spelled, made, madeL, h2, k2, Option.bind_some, Option.map_some, Made.bracketed], oneFac_box _ rfl rfl⟩
    simp only [spelled, clear, clearL, madeL, h1, h2, k1, k2, Option.bind_some, Option.map_some, Bool.true_and, List.all_cons, oneFac_facs h3]
    rw [Bool.or_eq_true, List.all_eq_true]
    exact .inr fun m hm => oneFac_facs (k3 m hm)
  | .method o e es => by
    obtain ⟨h1, m, h2, h3⟩ := spelled_clear row e
    obtain ⟨k1, ms, k2, k3⟩ := spelled_clearL row es
    refine ⟨?_, .group { Made.newGroup o (m :: ms) with br := true }, by simp only [spelled, made, madeL, h2, k2, Option.bind_some, Option.map_some, Made.bracketed], oneFac_box _ rfl rfl⟩
    simp only [spelled, clear, clearL, madeL, h1, h2, k1, k2, Option.bind_some, Option.map_some, Bool.true_and, List.all_cons, oneFac_facs h3]
    rw [Bool.or_eq_true, List.all_eq_true]
    exact .inr fun m hm => oneFac_facs (k3 m hm)
  | .group o es => by
    obtain ⟨k1, ms, k2, k3⟩ := spelled_clearL row es
    refine ⟨?_, .group { Made.newGroup o ms with br := true }, by simp only [spelled, made, k2, Option.map_some, Made.bracketed], oneFac_box _ rfl rfl⟩
    simp only [spelled, clear, k1, k2, Bool.true_and]
    rw [Bool.or_eq_true, List.all_eq_true]
    exact .inr fun m hm => oneFac_facs (k3 m hm)
  | .joinAll o es => by
    obtain ⟨k1, ms, k2, k3⟩ := spelled_clearL row es
    refine ⟨?_, .group { Made.newGroup o ms with br := true }, by simp only [spelled, made, k2, Option.map_some, Made.bracketed], oneFac_box _ rfl rfl⟩
    simp only [spelled, clear, k1, k2, Bool.true_and]
    rw [Bool.or_eq_true, List.all_eq_true]
    exact .inr fun m hm => oneFac_facs (k3 m hm)
  | .join _ e => spelled_clear row e
  | .brackets e => spelled_clear row e
theorem spelled_clearL (row : Row) : ∀ es : List CondExp, clearL row (spelledL es) = true ∧
    ∃ ms, madeL row (spelledL es) = some ms ∧ ∀ m ∈ ms, OneFac m
  | [] => ⟨rfl, [], rfl, fun _ h => by cases h⟩
  | e :: es => by
    obtain ⟨h1, m, h2, h3⟩ := spelled_clear row e
    obtain ⟨k1, ms, k2, k3⟩ := spelled_clearL row es
    refine ⟨by simp only [spelledL, clearL, h1, k1, Bool.and_true], m :: ms, by simp only [spelledL, madeL, h2, k2, Option.bind_some, Option.map_some], ?_⟩
    intro x hx
    rcases List.mem_cons.mp hx with rfl | hx
    · exact h3
    · exact k3 x hx
end

end CondExp

/-- A group of one factor. -/
def OneGroup (m : Made) : Prop := ∃ x, m = .group ⟨⟨[(false, x)], false, true, true, false⟩, false, false, false⟩

theorem spelledArgs_made (row : Row) : ∀ es : List CondExp, CondExp.clearL row (spelledArgs es) = true ∧
    ∃ ms, CondExp.madeL row (spelledArgs es) = some ms ∧ ∀ m ∈ ms, OneGroup m
  | [] => ⟨rfl, [], rfl, fun _ h => by cases h⟩
  | e :: es => by
    obtain ⟨h1, m, h2, h3⟩ := CondExp.spelled_clear row e
    obtain ⟨k1, ms, k2, k3⟩ := spelledArgs_made row es
    obtain ⟨x, hx⟩ := h3.2 false
    have k1' : CondExp.clearL row (es.map fun e => .group false [e.spelled]) = true := k1
    have k2' : CondExp.madeL row (es.map fun e => .group false [e.spelled]) = some ms := k2
    refine ⟨?_, .group (Made.newGroup false [m]) :: ms, ?_, ?_⟩
    · simp only [spelledArgs, List.map_cons, CondExp.clearL, CondExp.clear, CondExp.madeL, h1, h2, k1', Option.bind_some, Option.map_some,
        List.all_cons, List.all_nil, oneFac_facs h3]
      rfl
    · simp only [spelledArgs, List.map_cons, CondExp.madeL, CondExp.made, h2, k2', Option.bind_some, Option.map_some]
    · intro y hy
      rcases List.mem_cons.mp hy with rfl | hy
      · refine ⟨x, ?_⟩
        have hw : (m.withWord false).word = false := by cases m <;> rfl
        simp only [Made.newGroup, List.map_cons, List.map_nil, Made.row, Members.one, hx, hw]
      · exact k3 y hy

/-- Conditions side by side, all joined by AND. -/
def MemAnd (p : Members) : Prop := p.first = false ∧ p.noOr = true ∧ ∀ f ∈ p.facs, f.1 = false

theorem memAnd_then {p q : Members} (h : MemAnd p) (k : MemAnd q) : MemAnd (p.then q) :=
  ⟨h.1, by simp [Members.then, h.2.1, k.1, k.2.1], fun f hf => (List.mem_append.mp hf).elim (h.2.2 f) (k.2.2 f)⟩

theorem memAnd_noOr {p : Members} (h : MemAnd p) : noOrIn p.facs = true := by
  unfold noOrIn
  rw [List.all_eq_true]
  intro f hf
  simp [h.2.2 f (List.mem_of_mem_drop hf)]

theorem memAnd_one {m : Made} (h : OneGroup m) : MemAnd (Members.one m.word m.facs) := by
  obtain ⟨x, rfl⟩ := h
  exact ⟨rfl, rfl, fun f hf => by simp [Members.one, Made.facs, ssetHead, snegHead] at hf; rw [hf]⟩

theorem memAnd_row : ∀ ms : List Made, (∀ m ∈ ms, OneGroup m) → MemAnd (Made.row ms)
  | [], _ => ⟨rfl, rfl, fun _ h => by cases h⟩
  | [m], h => memAnd_one (h m (by simp))
  | m :: n :: ms, h => memAnd_then (memAnd_one (h m (by simp))) (memAnd_row (n :: ms) fun y hy => h y (List.mem_cons_of_mem _ hy))

/-- A where clause joined by AND throughout. -/
def MadeAnd (g : MadeGroup) : Prop := MemAnd g.mem ∧ g.neg = false ∧ g.word = false

theorem spelled_clause (row : Row) : ∀ (ws : List (List CondExp)) (s : Option MadeGroup), (∀ g, s = some g → MadeAnd g) →
    clauseClear row s (ws.map fun es => (false, spelledArgs es)) = true
  | [], _, _ => rfl
  | es :: ws, s, hs => by
    obtain ⟨h1, ms, h2, h3⟩ := spelledArgs_made row es
    simp only [List.map_cons, clauseClear, h1, h2, Bool.true_and, Bool.and_eq_true]
    have hf : ∀ m ∈ ms, noOrIn m.facs = true ∧ m.word = false := by
      intro m hm
      obtain ⟨x, rfl⟩ := h3 m hm
      exact ⟨rfl, rfl⟩
    constructor
    · cases ms with
      | nil => cases s <;> rfl
      | cons m ms =>
        cases s with
        | none =>
          simp only [clauseTakes, firstTakes, Bool.or_eq_true]
          exact .inr (by
            rw [if_neg (by decide), Bool.and_eq_true, List.all_eq_true, List.all_eq_true]
            exact ⟨fun y hy => (hf y hy).1, fun y hy => by simp [(hf y (List.mem_of_mem_drop hy)).2]⟩)
        | some g =>
          obtain ⟨g1, g2, g3⟩ := hs g rfl
          show MadeGroup.takesAnd g (m :: ms) = true
          cases ms with
          | nil =>
            obtain ⟨x, rfl⟩ := h3 m (by simp)
            simp only [MadeGroup.takesAnd, g2, memAnd_noOr g1]
            simp [noOrIn]
          | cons n ms =>
            have : MadeGroup.takesAnd g (m :: n :: ms) = (!g.neg && (m :: n :: ms).all fun m => noOrIn m.facs && (g.mem.noOr || !m.word)) := by
              obtain ⟨x, rfl⟩ := h3 m (by simp)
              rfl
            rw [this, g2, Bool.and_eq_true, List.all_eq_true]
            exact ⟨rfl, fun y hy => by simp [(hf y hy).1, g1.2.1]⟩
    · refine spelled_clause row ws _ ?_
      intro g hg
      cases ms with
      | nil =>
        cases s with
        | none => cases hg
        | some g' => cases hg; exact hs g rfl
      | cons m ms =>
        cases s with
        | none =>
          cases hg
          exact ⟨memAnd_row _ h3, rfl, rfl⟩
        | some g' =>
          obtain ⟨g1, g2, g3⟩ := hs g' rfl
          cases hg
          refine ⟨?_, g2, g3⟩
          show MemAnd (g'.addAnd (m :: ms))
          obtain ⟨x, rfl⟩ := h3 m (by simp)
          cases ms with
          | nil =>
            simp only [MadeGroup.addAnd, g1.2.1, if_true]
            exact memAnd_then g1 ⟨rfl, rfl, fun f hf => by simp at hf; rw [hf]⟩
          | cons n ms =>
            have : g'.addAnd (Made.group ⟨⟨[(false, x)], false, true, true, false⟩, false, false, false⟩ :: n :: ms) = (g'.box g'.word).then
              ((Made.newGroup false (Made.group ⟨⟨[(false, x)], false, true, true, false⟩, false, false, false⟩ :: n :: ms)).box false) := by
              show (g'.box g'.word).then (if g'.mem.noOr then _ else _) = _
              rw [g1.2.1, if_pos rfl]
            rw [this, g3]
            exact memAnd_then ⟨rfl, rfl, fun f hf => by simp [MadeGroup.box, Members.one] at hf; rw [hf]⟩
              ⟨rfl, rfl, fun f hf => by simp [MadeGroup.box, Members.one] at hf; rw [hf]⟩

/-! ## Programs -/

theorem spelledArgs_tests : ∀ es : List CondExp, CondExp.testsL (spelledArgs es) = CondExp.testsL es
  | [] => rfl
  | e :: es => by
    have ih : CondExp.testsL (es.map fun e => .group false [e.spelled]) = CondExp.testsL es := spelledArgs_tests es
    simp only [spelledArgs, List.map_cons, CondExp.testsL, CondExp.tests, CondExp.spelled_tests, List.append_nil, ih]

theorem spelledArgs_ok : ∀ es : List CondExp, CondExp.OKL es → CondExp.OKL (spelledArgs es)
  | [], _ => trivial
  | e :: es, h => ⟨⟨by simp, CondExp.spelled_ok e h.1, trivial⟩, spelledArgs_ok es h.2⟩

theorem spelledArgs_means (row : Row) : ∀ es : List CondExp, CondExp.meansL row (spelledArgs es) = CondExp.meansL row es
  | [] => rfl
  | e :: es => by
    have ih : CondExp.meansL row (es.map fun e => .group false [e.spelled]) = CondExp.meansL row es := spelledArgs_means row es
    simp only [spelledArgs, List.map_cons, CondExp.meansL, CondExp.means, CondExp.spelled_means, ih]
    rw [if_neg (by decide), CondExp.allOf_single]

theorem kcall_spelled (c : NSCall) : (KCall.call c).spelled = .call c.spelled := by cases c <;> rfl

theorem nscall_spelled_flat (c : NSCall) : c.spelled.flat = c.flat := by
  cases c with
  | addWhere es => simp only [NSCall.spelled, NSCall.flat, spelledArgs_tests]
  | other c => rfl

theorem nscall_spelled_setting (c : NSCall) : c.spelled.isSetting = c.isSetting ∧ c.spelled.isFields = c.isFields := by
  cases c <;> exact ⟨rfl, rfl⟩

theorem spelled_isConv (cs : List KCall) : (cs.map KCall.spelled).any KCall.isConv = cs.any KCall.isConv := by
  induction cs with
  | nil => rfl
  | cons c cs ih =>
    rw [List.map_cons, List.any_cons, List.any_cons, ih]
    cases c with
    | call c => rw [kcall_spelled]; rfl
    | single => rfl
    | many => rfl

theorem spelled_eff : ∀ cs : List KCall, KCall.eff (cs.map KCall.spelled) = (KCall.eff cs).map NSCall.spelled
  | [] => rfl
  | .call c :: cs => by
    rw [List.map_cons, kcall_spelled, KCall.eff, KCall.eff, spelled_isConv, (nscall_spelled_setting c).1]
    by_cases h : (c.isSetting && cs.any KCall.isConv) = true
    · rw [if_pos h, if_pos h, spelled_eff cs]
    · rw [if_neg h, if_neg h, spelled_eff cs, List.map_cons]
  | .single :: cs => spelled_eff cs
  | .many :: cs => spelled_eff cs

theorem spelled_said : ∀ cs : List KCall, KCall.said (cs.map KCall.spelled) = (KCall.said cs).map NSCall.spelled
  | [] => rfl
  | .call c :: cs => by
    have ih := spelled_said cs
    unfold KCall.said at ih ⊢
    rw [List.map_cons, kcall_spelled, List.filterMap_cons, List.filterMap_cons, ih]
    rfl
  | .single :: cs => by
    have ih := spelled_said cs
    unfold KCall.said at ih ⊢
    rw [List.map_cons]
    exact ih
  | .many :: cs => by
    have ih := spelled_said cs
    unfold KCall.said at ih ⊢
    rw [List.map_cons]
    exact ih

theorem spelled_next (k : SelKind) (c : KCall) : KCall.next k c.spelled = KCall.next k c := by
  cases c with
  | call c => rw [kcall_spelled]; simp only [KCall.next, (nscall_spelled_setting c).1]
  | single => rfl
  | many => rfl

theorem spelled_kind (p : KindProg) : p.spelled.kind = p.kind := by
  unfold KindProg.kind KindProg.spelled KCall.ends
  simp only [List.foldl_map, spelled_next]

theorem spelled_flats (l : List NSCall) : (l.map NSCall.spelled).map NSCall.flat = l.map NSCall.flat := by
  rw [List.map_map]
  exact List.map_congr_left fun c _ => nscall_spelled_flat c

theorem spelled_eff_flat (p : KindProg) : p.spelled.eff.flat = p.eff.flat := by
  unfold KindProg.eff NSelectProg.flat
  simp only [KindProg.spelled, spelled_eff, spelled_flats]

theorem spelled_said_flat (p : KindProg) : p.spelled.said.flat = p.said.flat := by
  unfold KindProg.said NSelectProg.flat
  simp only [KindProg.spelled, spelled_said, spelled_flats]

theorem spelled_wheres (p : KindProg) : p.spelled.wheres = p.wheres.map spelledArgs := by
  have : ∀ l : List NSCall, (l.map NSCall.spelled).filterMap NSCall.where? = (l.filterMap NSCall.where?).map spelledArgs := by
    intro l
    induction l with
    | nil => rfl
    | cons c l ih =>
      cases c with
      | addWhere es => simp only [List.map_cons, NSCall.spelled, List.filterMap_cons, NSCall.where?, ih]
      | other c => simp only [List.map_cons, NSCall.spelled, List.filterMap_cons, NSCall.where?, ih]
  show (KCall.said (p.calls.map KCall.spelled)).filterMap NSCall.where? = _
  rw [spelled_said, this]
  rfl

theorem spelled_noFields : ∀ (cs : List KCall) (k : SelKind), KCall.noFields k cs → KCall.noFields k (cs.map KCall.spelled)
  | [], _, _ => trivial
  | c :: cs, k, h => by
    refine ⟨?_, ?_⟩
    · cases c with
      | call c =>
        rw [kcall_spelled]
        have := h.1
        simp only [(nscall_spelled_setting c).2]
        exact this
      | single => trivial
      | many => trivial
    · rw [spelled_next]
      exact spelled_noFields cs _ h.2

theorem spelled_mean (p : KindProg) : wheresMean p.spelled.wheres = wheresMean p.wheres := by
  funext row
  rw [spelled_wheres]
  unfold wheresMean
  have : ∀ ws : List (List CondExp), CondExp.meansL row (ws.map spelledArgs).flatten = CondExp.meansL row ws.flatten := by
    intro ws
    induction ws with
    | nil => rfl
    | cons es ws ih =>
      have ha : ∀ a b, CondExp.meansL row (a ++ b) = CondExp.meansL row a ++ CondExp.meansL row b := by
        intro a b
        rw [meansL_eq, meansL_eq, meansL_eq, List.map_append]
      rw [List.map_cons, List.flatten_cons, List.flatten_cons, ha, ha, ih, spelledArgs_means]
  rw [this]

/-- **C88**, conditions: spelled out, a condition of any kind should say the same, tests the same columns for the same values in the same
order, and every call in it does what its name says. -/
theorem C88_spelled (p : KindProg) (h : p.OK) : p.spelled.OK ∧ wheresClear someRow p.spelled.wheres = true ∧
    wheresSound p.spelled.wheres = true ∧ wheresText p.spelled.wheres = wheresMean p.wheres ∧
    p.spelled.said.flat.clauses = p.said.flat.clauses := by
  have hok : p.spelled.OK := by
    refine ⟨h.table, ?_, spelled_noFields _ _ h.fields⟩
    intro c hc
    obtain ⟨d, hd, rfl⟩ := List.mem_map.mp hc
    have := h.calls d hd
    cases d with
    | call d =>
      cases d with
      | addWhere es => exact spelledArgs_ok es this
      | other d => exact this
    | single => trivial
    | many => trivial
  have hc : wheresClear someRow p.spelled.wheres = true := by
    rw [spelled_wheres]
    unfold wheresClear
    rw [List.map_map]
    exact spelled_clause someRow p.wheres none fun _ h => by cases h
  obtain ⟨h1, h2⟩ := wheres_clear _ (eff_wheres_eq p.spelled ▸ nselect_wheres (eff_ok hok)) hc
  exact ⟨hok, hc, h1, h2.trans (spelled_mean p), by rw [spelled_said_flat]⟩

/-- **C88**, the rows: spelled out, every program reads exactly the rows on which its conditions hold, as they are meant. -/
theorem C88_rows (eng : Engine) (db : Db) (p : KindProg) (h : p.OK) :
    ∃ b sql params, p.spelled.run = .ok b ∧ b.build = .ok (sql, params) ∧ params = p.eff.flat.params ∧
      runQuery eng db sql params = if p.eff.flat.known db then some (p.rowsBy (wheresMean p.wheres) eng db) else none := by
  obtain ⟨h1, _, h2, h3, _⟩ := C88_spelled p h
  have := C81_rows_exact eng db _ h1
  rw [if_pos h2, h3, spelled_eff_flat] at this
  unfold KindProg.rowsBy at this ⊢
  rwa [spelled_kind, spelled_eff_flat] at this

/-- **C88**, `Count()`. -/
theorem C88_count (eng : Engine) (db : Db) (p : KindProg) (h : p.OK) :
    ∃ b c sql params, p.spelled.run = .ok b ∧ b.count = .ok c ∧ c.build = .ok (sql, params) ∧ params = paramsOf p.said.flat.clauses ∧
      runQuery eng db sql params =
        if fromOK db p.table p.said.flat.joins && knownIn (p.said.flat.scope db) p.said.flat.clauses then
          some [[(c!"count", some (.uint ((fromRows eng db p.table p.said.flat.joins).filter fun env =>
            wheresMean p.wheres (eng.row env) == .t).length))]]
        else none := by
  obtain ⟨h1, _, h2, h3, _⟩ := C88_spelled p h
  have := C81_count_exact eng db _ h1
  rwa [if_pos h2, h3, spelled_said_flat] at this

theorem spelled_some (p : KindProg) (h : p.wheres.flatten ≠ []) : p.spelled.wheres.flatten ≠ [] := by
  rw [spelled_wheres]
  intro he
  apply h
  rw [List.flatten_eq_nil_iff] at he ⊢
  intro es hes
  have := he _ (List.mem_map_of_mem hes)
  cases es with
  | nil => rfl
  | cons e es => cases this

/-- **C88**, `Delete()` of a select. -/
theorem C88_delete (eng : Engine) (db : Db) (p : KindProg) (h : p.OK) (hn : p.wheres.flatten ≠ []) :
    ∃ b sql params, p.spelled.run = .ok b ∧ b.delete.build = .ok (sql, params) ∧
      runStmt eng db sql params = (NDeleteProg.flat ⟨p.table.name, p.wheres⟩).effectBy (wheresMean p.wheres) eng db := by
  obtain ⟨h1, hc, _, _, _⟩ := C88_spelled p h
  obtain ⟨d, sql, params, e1, e2, e3⟩ := C81_delete_rows_partial eng db _ h1 [] (fun _ h => by cases h)
    (by rw [List.append_nil]; exact spelled_some p hn) (by rw [List.append_nil]; exact hc)
  obtain ⟨b, hb, hd⟩ := Res.bind_eq_ok.mp e1
  cases hd
  refine ⟨b, sql, params, hb, e2, ?_⟩
  rw [List.append_nil, spelled_mean, spelled_wheres] at e3
  rw [e3]
  unfold NDeleteProg.flat
  simp only [List.map_map, Function.comp_def, spelledArgs_tests]
  rfl

/-- **C88**, `Update(values…)` of a select. -/
theorem C88_update (eng : Engine) (db : Db) (p : KindProg) (h : p.OK) (hn : p.wheres.flatten ≠ []) (sets : List SetTo)
    (hs : ∀ s ∈ sets, s.OK) (hne : sets ≠ []) :
    ∃ b vs sql params, p.spelled.run = .ok b ∧ Res.mapL SetTo.call sets = .ok vs ∧ (b.update vs).build = .ok (sql, params) ∧
      runStmt eng db sql params = (UpdateProg.mk p.table.name
        (.set sets :: p.wheres.map fun es => .addWhere (testClauses (CondExp.testsL es)))).effectBy (wheresMean p.wheres) eng db := by
  obtain ⟨h1, hc, _, _, _⟩ := C88_spelled p h
  obtain ⟨u, sql, params, e1, e2, e3⟩ := C81_update_rows_partial eng db _ h1 sets hs hne (spelled_some p hn) hc
  obtain ⟨b, hb, hd⟩ := Res.bind_eq_ok.mp e1
  obtain ⟨vs, hv, hu⟩ := Res.bind_eq_ok.mp hd
  cases hu
  refine ⟨b, vs, sql, params, hb, hv, e2, ?_⟩
  rw [spelled_mean, spelled_wheres] at e3
  rw [e3]
  simp only [List.map_map, Function.comp_def, spelledArgs_tests]
  rfl

/-- `SelectManyFrom("t").Where(Not(Not(a = 7)), id = 1).Where(Or(id = 3, And(a = 7, id = 1), a = 7))`. -/
def exSpell : KindProg := ⟨.many, ⟨c!"t", none⟩,
  [.call (.addWhere [.not (.not (exIs c!"a" 7)), exIs c!"id" 1]),
   .call (.addWhere [.fn true (exIs c!"id" 3) [.fn false (exIs c!"a" 7) [exIs c!"id" 1], exIs c!"a" 7]])]⟩

/-- A program that is not read as meant, and the same spelled out. -/
example : exSpell.OK ∧ exSpell.wheres.flatten ≠ [] ∧ wheresClear someRow exSpell.wheres = false ∧
    exSpell.run.bind SelB.build =
      .ok (c!"SELECT * FROM t WHERE NOT a=$1 AND id=$2 AND (id=$3) AND (a=$4 AND id=$5 AND a=$6)",
        [.other 7, .other 1, .other 3, .other 7, .other 1, .other 7]) ∧
    exSpell.spelled.run.bind SelB.build =
      .ok (c!"SELECT * FROM t WHERE NOT (NOT (a=$1)) AND id=$2 AND (id=$3 OR (a=$4 AND id=$5) OR a=$6)",
        [.other 7, .other 1, .other 3, .other 7, .other 1, .other 7]) := by
  have hi : Ident c!"t" := exIdent (by decide)
  have h1 := exIs_ok (n := c!"id") (by decide) 1
  have h3 := exIs_ok (n := c!"id") (by decide) 3
  have h7 := exIs_ok (n := c!"a") (by decide) 7
  refine ⟨⟨⟨hi, fun a ha => by cases ha⟩, ?_, by simp [exSpell, KCall.noFields, NSCall.isFields]⟩, by simp [exSpell, KindProg.wheres,
    KindProg.said, NSelectProg.wheres, KCall.said, NSCall.where?], rfl, ?_, ?_⟩
  · intro c hc
    simp only [exSpell, List.mem_cons, List.not_mem_nil, or_false] at hc
    rcases hc with rfl | rfl
    · exact ⟨h7, h1, trivial⟩
    · exact ⟨⟨h3, ⟨h7, h1, trivial⟩, h7, trivial⟩, trivial⟩
  · rfl
  · rfl

end Query
