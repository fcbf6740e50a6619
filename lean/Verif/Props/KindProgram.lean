import Verif.Spec.KindProgram
import Verif.Props.NestedProgram
import Verif.Props.Promote
/-!
# C81: programs over selects of any kind

Programs that begin with any kind of select, change it on the way and end by reading, counting or writing.
-/
namespace Query

/-- The select of many rows seen as one of a kind. -/
def SelectMany.as (q : SelectMany) : SelKind → SelB
  | .base => .base q.base
  | .single => .single ⟨q.base⟩
  | .many => .many q

/-- Without ordering and page. -/
def SelectMany.unset (q : SelectMany) : SelectMany := selectManyFromBase q.base

theorem setting_base {c : NSCall} (hc : c.OK) (hs : c.isSetting = true) (q : SelectMany) :
    ∃ q', c.run q = .ok q' ∧ q'.base = q.base := by
  cases c with
  | addWhere es => cases hs
  | other c =>
    obtain ⟨q1, h1, _⟩ := calls_run ⟨[], none⟩ [c] (by simpa using hc.1) q
    have h1 : c.run q = .ok q1 := by
      simp only [runCalls, Res.bind_eq_ok] at h1
      obtain ⟨q2, e1, e2⟩ := h1
      injection e2 with e2
      rw [e1, e2]
    refine ⟨q1, h1, ?_⟩
    cases c with
    | orderBy ks =>
      simp only [SCall.run, Res.bind_eq_ok, Res.ok.injEq] at h1
      obtain ⟨os, _, rfl⟩ := h1
      rfl
    | offset n => simp only [SCall.run, Res.ok.injEq] at h1; subst h1; rfl
    | limit n => simp only [SCall.run, Res.ok.injEq] at h1; subst h1; rfl
    | fields l => cases hs
    | join k t l r => cases hs
    | addWhere cs => cases hs

theorem inner_unset {c : NSCall} (hs : c.isSetting = false) (q : SelectMany) :
    c.run q.unset = (c.run q).bind (fun q' => .ok q'.unset) ∧ (q = q.unset → ∀ q', c.run q = .ok q' → q' = q'.unset) := by
  have key : c.run q.unset = (c.run q).bind (fun q' => .ok q'.unset) := by
    cases c with
    | addWhere es =>
      simp only [NSCall.run]
      cases CondExp.callL es <;> rfl
    | other c =>
      cases c with
      | fields l =>
        simp only [NSCall.run, SCall.run]
        cases Res.mapL (fun p : ColRef × Option Str => field (asText p.1.text p.2)) l <;> rfl
      | join k t l r =>
        simp only [NSCall.run, SCall.run, SelectMany.join]
        cases table t.text with
        | ok t =>
          simp only [Res.bind_ok]
          cases field l.text with
          | ok l =>
            simp only [Res.bind_ok]
            cases field r.text with
            | ok r =>
              simp only [Res.bind_ok, SelectMany.on]
              show ((q.base.joinIdent t k.type).on l r).bind _ = (((q.base.joinIdent t k.type).on l r).bind _).bind _
              cases (q.base.joinIdent t k.type).on l r <;> rfl
            | err e => rfl
            | panic e => rfl
          | err e => rfl
          | panic e => rfl
        | err e => rfl
        | panic e => rfl
      | addWhere cs =>
        simp only [NSCall.run, SCall.run]
        cases Res.mapL Clause.call cs <;> rfl
      | orderBy ks => cases hs
      | offset n => cases hs
      | limit n => cases hs
  refine ⟨key, fun he q' hq => ?_⟩
  rw [← he, hq] at key
  exact Res.ok.inj key

/-- One call on a select of any kind. -/
theorem call_as {c : NSCall} (hc : c.OK) (k : SelKind) (q : SelectMany) (hu : k ≠ .many → q = q.unset)
    (hf : ¬ (k = .single ∧ c.isFields = true)) :
    KCall.run (q.as k) (.call c) = (c.run q).bind fun q' => .ok (q'.as (KCall.next k (.call c))) := by
  cases k with
  | many =>
    show (c.run q).bind _ = _
    congr 1
    funext q'
    simp only [KCall.next, ite_self]
    rfl
  | base =>
    have hu := hu (by decide)
    show KCall.runBase q.base c = _
    cases c with
    | addWhere es =>
      simp only [KCall.runBase, NSCall.run]
      cases CondExp.callL es <;> rfl
    | other c =>
      cases c with
      | fields l =>
        simp only [KCall.runBase, NSCall.run, SCall.run]
        cases Res.mapL (fun p : ColRef × Option Str => field (asText p.1.text p.2)) l <;> rfl
      | join j t l r =>
        simp only [KCall.runBase, NSCall.run, SCall.run, SelectMany.join]
        cases table t.text with
        | ok t =>
          simp only [Res.bind_ok]
          cases field l.text with
          | ok l =>
            simp only [Res.bind_ok]
            cases field r.text with
            | ok r =>
              simp only [Res.bind_ok, SelectMany.on]
              show ((q.base.joinIdent t j.type).on l r).bind _ = (((q.base.joinIdent t j.type).on l r).bind _).bind _
              cases (q.base.joinIdent t j.type).on l r <;> rfl
            | err e => rfl
            | panic e => rfl
          | err e => rfl
          | panic e => rfl
        | err e => rfl
        | panic e => rfl
      | addWhere cs => exact absurd hc.2 (by simp [SCall.where?])
      | orderBy ks =>
        simp only [KCall.runBase, NSCall.run, SCall.run]
        cases Res.mapL (fun p : ColRef × Bool => if p.2 then desc p.1.text else asc p.1.text) ks with
        | ok os =>
          simp only [Res.bind_ok, Res.ok.injEq]
          rw [hu]
          rfl
        | err e => rfl
        | panic e => rfl
      | offset n => rw [hu]; rfl
      | limit n => rw [hu]; rfl
  | single =>
    have hu := hu (by decide)
    show KCall.runSingle ⟨q.base⟩ c = _
    cases c with
    | addWhere es =>
      simp only [KCall.runSingle, NSCall.run]
      cases CondExp.callL es <;> rfl
    | other c =>
      cases c with
      | fields l => exact absurd ⟨rfl, rfl⟩ hf
      | join j t l r =>
        simp only [KCall.runSingle, NSCall.run, SCall.run, SelectMany.join, SelectSingle.join]
        cases table t.text with
        | ok t =>
          simp only [Res.bind_ok]
          cases field l.text with
          | ok l =>
            simp only [Res.bind_ok]
            cases field r.text with
            | ok r =>
              simp only [Res.bind_ok, SelectMany.on, SelectSingle.on]
              show (((q.base.joinIdent t j.type).on l r).bind _).bind _ = (((q.base.joinIdent t j.type).on l r).bind _).bind _
              cases (q.base.joinIdent t j.type).on l r <;> rfl
            | err e => rfl
            | panic e => rfl
          | err e => rfl
          | panic e => rfl
        | err e => rfl
        | panic e => rfl
      | addWhere cs => exact absurd hc.2 (by simp [SCall.where?])
      | orderBy ks =>
        simp only [KCall.runSingle, NSCall.run, SCall.run]
        cases Res.mapL (fun p : ColRef × Bool => if p.2 then desc p.1.text else asc p.1.text) ks with
        | ok os =>
          simp only [Res.bind_ok, Res.ok.injEq]
          rw [hu]
          rfl
        | err e => rfl
        | panic e => rfl
      | offset n => rw [hu]; rfl
      | limit n => rw [hu]; rfl

/-- The calls on a select of any kind are the calls that count on a select of many rows. -/
theorem calls_as : ∀ (cs : List KCall) (k : SelKind) (q : SelectMany), (∀ c ∈ cs, c.OK) → KCall.noFields k cs →
    (k ≠ .many → q = q.unset) →
    KCall.runAll (q.as k) cs =
      (NSCall.runAll (if cs.any KCall.isConv then q.unset else q) (KCall.eff cs)).bind fun q' => .ok (q'.as (KCall.ends k cs))
  | [], k, q, _, _, _ => rfl
  | .single :: cs, k, q, hc, hf, hu => by
    have ih := calls_as cs .single q.unset (fun d hd => hc d (by simp [hd])) hf.2 (fun _ => rfl)
    have h1 : KCall.runAll (q.as k) (.single :: cs) = KCall.runAll (q.unset.as .single) cs := by cases k <;> rfl
    rw [h1, ih]
    have e : (if cs.any KCall.isConv then q.unset.unset else q.unset) = q.unset := by split <;> rfl
    rw [e]
    rfl
  | .many :: cs, k, q, hc, hf, hu => by
    have ih := calls_as cs .many q.unset (fun d hd => hc d (by simp [hd])) hf.2 (fun _ => rfl)
    have h1 : KCall.runAll (q.as k) (.many :: cs) = KCall.runAll (q.unset.as .many) cs := by cases k <;> rfl
    rw [h1, ih]
    have e : (if cs.any KCall.isConv then q.unset.unset else q.unset) = q.unset := by split <;> rfl
    rw [e]
    rfl
  | .call c :: cs, k, q, hc, hf, hu => by
    have hcs : ∀ d ∈ cs, d.OK := fun d hd => hc d (by simp [hd])
    have hc1 : c.OK := hc (.call c) (by simp)
    have hany : (KCall.call c :: cs).any KCall.isConv = cs.any KCall.isConv := rfl
    simp only [KCall.runAll]
    rw [call_as hc1 k q hu hf.1, hany]
    cases hset : c.isSetting with
    | true =>
      obtain ⟨q1, h1, hb⟩ := setting_base hc1 hset q
      have hk : KCall.next k (.call c) = .many := by simp [KCall.next, hset]
      have ih := calls_as cs .many q1 hcs (by rw [← hk]; exact hf.2) (fun h => absurd rfl h)
      have hun : q1.unset = q.unset := by simp only [SelectMany.unset, hb]
      have hends : KCall.ends k (.call c :: cs) = KCall.ends .many cs := by
        show KCall.ends (KCall.next k (.call c)) cs = _
        rw [hk]
      simp only [h1, Res.bind_ok, hk, ih, KCall.eff, hset, Bool.true_and, hends, hun]
      cases hx : cs.any KCall.isConv with
      | true => simp
      | false => simp [NSCall.runAll, h1]
    | false =>
      obtain ⟨e1, e2⟩ := inner_unset hset q
      have hk : KCall.next k (.call c) = k := by simp [KCall.next, hset]
      have hends : KCall.ends k (.call c :: cs) = KCall.ends k cs := by
        show KCall.ends (KCall.next k (.call c)) cs = _
        rw [hk]
      simp only [KCall.eff, hset, Bool.false_and, Bool.false_eq_true, if_false, NSCall.runAll, hk, hends]
      cases hr : c.run q with
      | ok q1 =>
        have ih := calls_as cs k q1 hcs (by rw [← hk]; exact hf.2) (fun h => e2 (hu h) q1 hr)
        simp only [Res.bind_ok, ih]
        rw [hr] at e1
        cases hx : cs.any KCall.isConv with
        | true => simp [e1]
        | false => simp [hr]
      | err e =>
        rw [hr] at e1
        cases hx : cs.any KCall.isConv with
        | true => simp [e1]
        | false => simp [hr]
      | panic e =>
        rw [hr] at e1
        cases hx : cs.any KCall.isConv with
        | true => simp [e1]
        | false => simp [hr]

theorem eff_mem : ∀ (cs : List KCall) (c : NSCall), c ∈ KCall.eff cs → KCall.call c ∈ cs
  | [], _, h => by cases h
  | .single :: cs, c, h => by simpa using eff_mem cs c h
  | .many :: cs, c, h => by simpa using eff_mem cs c h
  | .call d :: cs, c, h => by
    simp only [KCall.eff] at h
    split at h
    · have := eff_mem cs c h; simp [this]
    · rcases List.mem_cons.mp h with rfl | h
      · simp
      · have := eff_mem cs c h; simp [this]

/-- What a program says other than ordering and page is the same in the calls that count. -/
theorem eff_filter {α} (f : NSCall → Option α) (hf : ∀ c, c.isSetting = true → f c = none) :
    ∀ cs : List KCall, (KCall.eff cs).filterMap f = (KCall.said cs).filterMap f
  | [] => rfl
  | .single :: cs => eff_filter f hf cs
  | .many :: cs => eff_filter f hf cs
  | .call c :: cs => by
    have ih := eff_filter f hf cs
    have e : KCall.said (.call c :: cs) = c :: KCall.said cs := rfl
    rw [e]
    simp only [KCall.eff]
    split
    · rename_i h
      have : f c = none := hf c (by simp at h; exact h.1)
      simp only [List.filterMap_cons, this, ih]
    · simp only [List.filterMap_cons, ih]

theorem setting_says_none {c : NSCall} (h : c.isSetting = true) : c.where? = none ∧ c.flat.where? = none ∧ c.flat.join? = none := by
  cases c with
  | addWhere es => exact absurd h (by simp [NSCall.isSetting])
  | other c => cases c <;> first | exact ⟨rfl, rfl, rfl⟩ | exact absurd h (by simp [NSCall.isSetting])

theorem eff_wheres (cs : List KCall) : (KCall.eff cs).filterMap NSCall.where? = (KCall.said cs).filterMap NSCall.where? :=
  eff_filter _ (fun _ h => (setting_says_none h).1) cs

theorem eff_joins (p : KindProg) : p.eff.flat.joins = p.said.flat.joins := by
  simp only [SelectProg.joins, NSelectProg.flat, List.filterMap_map]
  exact eff_filter _ (fun _ h => (setting_says_none h).2.2) p.calls

theorem eff_clauses (p : KindProg) : p.eff.flat.clauses = p.said.flat.clauses := by
  simp only [SelectProg.clauses, SelectProg.wheres, NSelectProg.flat, List.filterMap_map]
  rw [show KindProg.eff p = ⟨p.table, KCall.eff p.calls⟩ from rfl, show KindProg.said p = ⟨p.table, KCall.said p.calls⟩ from rfl]
  exact congrArg List.flatten (eff_filter _ (fun _ h => (setting_says_none h).2.1) p.calls)

theorem ends_many : ∀ cs : List KCall, cs.any KCall.isConv = false → KCall.ends .many cs = .many
  | [], _ => rfl
  | .single :: cs, h => by simp [KCall.isConv] at h
  | .many :: cs, h => by simp [KCall.isConv] at h
  | .call c :: cs, h => by
    have ih := ends_many cs (by simpa [KCall.isConv] using h)
    show KCall.ends (KCall.next .many (.call c)) cs = _
    simp only [KCall.next, ite_self]
    exact ih

theorem eff_unset : ∀ (cs : List KCall) (k : SelKind), KCall.ends k cs ≠ .many → ∀ c ∈ KCall.eff cs, c.isSetting = false
  | [], _, _ => by simp [KCall.eff]
  | .single :: cs, k, h => eff_unset cs .single h
  | .many :: cs, k, h => eff_unset cs .many h
  | .call c :: cs, k, h => by
    have h : KCall.ends (KCall.next k (.call c)) cs ≠ .many := h
    have ih := eff_unset cs _ h
    simp only [KCall.eff]
    split
    · exact ih
    · rename_i hn
      intro d hd
      rcases List.mem_cons.mp hd with rfl | hd
      · cases hs : d.isSetting with
        | false => rfl
        | true =>
          rw [hs, Bool.true_and, Bool.not_eq_true] at hn
          simp only [KCall.next, hs, if_true] at h
          exact absurd (ends_many cs hn) h
      · exact ih d hd

theorem eff_ok {p : KindProg} (h : p.OK) : p.eff.OK :=
  ⟨h.table, fun c hc => h.calls (.call c) (eff_mem _ c hc)⟩

/-- **C81**, the calls: a program over a select of any kind makes the select that the calls that count make of a select of many rows,
seen as one of the kind the calls end with; or it panics as they do. -/
theorem C81_calls (p : KindProg) (h : p.OK) : p.run = p.eff.run.bind fun q => .ok (q.as p.kind) := by
  have hs : selectFrom (.str p.table.text) = .ok ⟨0, p.table.ident, [], ⟨[]⟩, newWhere⟩ := by
    have := table_text h.table
    simp only [table] at this
    simp [selectFrom, tableP, tableOrErrorP, this]
  have hf : p.first = .ok ((selectManyFromBase ⟨0, p.table.ident, [], ⟨[]⟩, newWhere⟩).as p.start) := by
    unfold KindProg.first
    cases p.start with
    | base => simp only [hs]; rfl
    | single => simp only [selectSingleFrom, hs]; rfl
    | many => simp only [selectManyFrom, hs]; rfl
  unfold KindProg.run
  rw [hf, Res.bind_ok, calls_as p.calls p.start _ h.calls h.fields (fun _ => rfl)]
  have e : (if p.calls.any KCall.isConv then (selectManyFromBase ⟨0, p.table.ident, [], ⟨[]⟩, newWhere⟩).unset
      else selectManyFromBase ⟨0, p.table.ident, [], ⟨[]⟩, newWhere⟩) = selectManyFromBase ⟨0, p.table.ident, [], ⟨[]⟩, newWhere⟩ := by
    split <;> rfl
  rw [e]
  show _ = Res.bind (NSelectProg.run ⟨p.table, KCall.eff p.calls⟩) _
  unfold NSelectProg.run
  simp only [selectManyFrom, hs]
  rfl

/-! ## What the selects hold -/

/-- A WHERE clause as `Where` calls make it. -/
def AndClause (w : WhereClause) : Prop := w.group.base = ⟨lAND, false⟩ ∧ w.group.brackets = false

theorem addGroup_base (g a : Group) (h : g.conds.length > 0) : (g.addGroup a).base = g.base := by
  have h0 : (g.conds.length == 0) = false := by rw [beq_eq_false_iff_ne]; omega
  unfold Group.addGroup
  simp only [h0, Bool.false_eq_true, if_false]
  repeat' split
  all_goals rfl

theorem groupAND_base (g : Group) (cs : List Cond) (h : g.base = ⟨lAND, false⟩) : (g.groupAND cs).base = ⟨lAND, false⟩ := by
  unfold Group.groupAND Group.addConditions
  cases cs with
  | nil => exact h
  | cons c more =>
    simp only
    by_cases hc : g.conds.length > 0
    · have h0 : (g.conds.length == 0) = false := by rw [beq_eq_false_iff_ne]; omega
      have hs : ∀ d, (g.addSingleCondition d).base = g.base := by
        intro d
        unfold Group.addSingleCondition
        simp only
        cases d.asGroup with
        | some a => exact addGroup_base g a hc
        | none =>
          simp only [h0, Bool.false_eq_true, if_false]
          repeat' split
          all_goals rfl
      simp only [hc, decide_true, Bool.not_true, Bool.false_eq_true, if_false]
      repeat' split
      all_goals first | exact h | (rw [hs]; exact h)
    · simp only [hc, decide_false, Bool.not_false, if_true, h]

theorem clauseCalls_and : ∀ (calls : List (List CondExp)) (w w' : WhereClause), AndClause w →
    clauseCalls w (calls.map fun es => (false, es)) = .ok w' → AndClause w'
  | [], w, w', h, e => Res.ok.inj e ▸ h
  | es :: calls, w, w', h, e => by
    simp only [List.map_cons, clauseCalls, Res.bind_eq_ok, Bool.false_eq_true, if_false] at e
    obtain ⟨ds, _, e⟩ := e
    exact clauseCalls_and calls _ w' ⟨groupAND_base _ _ h.1, (addConditions_flags _ _ _).2.trans h.2⟩ e

theorem clauseCalls_append : ∀ (as bs : List (Bool × List CondExp)) (w : WhereClause),
    clauseCalls w (as ++ bs) = (clauseCalls w as).bind fun w' => clauseCalls w' bs
  | [], bs, w => rfl
  | (o, es) :: as, bs, w => by
    simp only [List.cons_append, clauseCalls]
    cases CondExp.callL es with
    | ok ds => simp only [Res.bind_ok]; exact clauseCalls_append as bs _
    | err e => rfl
    | panic e => rfl

/-- The conditions of such a clause, given to a new one. -/
theorem and_rebuilt {w : WhereClause} (h : AndClause w) : (newGroup lAND []).groupAND w.conditions = w.group := by
  obtain ⟨⟨b, cs, br⟩⟩ := w
  obtain ⟨h1, h2⟩ := h
  simp only at h1 h2
  subst h1 h2
  cases cs <;> rfl

/-- The select a program makes: one that has the table of the program, with the WHERE clause its calls make. -/
theorem nselect_where (p : NSelectProg) (h : p.OK) : ∃ q : SelectMany, q.base.baseTable = p.table.ident ∧
    p.run = (clauseCalls newWhere (p.wheres.map fun es => (false, es))).bind fun w => .ok (q.withClause w) := by
  have hs : selectManyFrom (.str p.table.text) = .ok ⟨⟨0, p.table.ident, [], ⟨[]⟩, newWhere⟩, 0, noLimit, [], false⟩ := by
    have := table_text h.table
    simp only [table] at this
    simp [selectManyFrom, selectFrom, tableP, tableOrErrorP, this]
  obtain ⟨q', h1, h2⟩ := nselect_calls p.calls h.calls ⟨⟨0, p.table.ident, [], ⟨[]⟩, newWhere⟩, 0, noLimit, [], false⟩ newWhere
  refine ⟨q', ?_, ?_⟩
  · obtain ⟨q2, e1, e2⟩ := calls_run p.table (p.calls.map NSCall.flat) (by
      intro c hc
      obtain ⟨d, hd, rfl⟩ := List.mem_map.mp hc
      exact flat_ok (h.calls d hd)) ⟨⟨0, p.table.ident, [], ⟨[]⟩, newWhere⟩, 0, noLimit, [], false⟩
    rw [h1] at e1
    rw [Res.ok.inj e1]
    exact e2.table
  · unfold NSelectProg.run
    rw [hs]
    exact h2

/-! ## Writing through a select -/

theorem as_delete (q : SelectMany) (k : SelKind) : (q.as k).delete = q.delete := by
  cases k <;> rfl

theorem as_update (q : SelectMany) (k : SelKind) (vs : List FieldValue) : (q.as k).update vs = q.update vs := by
  cases k <;> rfl

/-- `Delete()` at the end of a program on a select of many rows, and Where calls after it. -/
theorem delete_through (p : NSelectProg) (h : p.OK) (more : List (List CondExp)) :
    (p.run.bind fun q => NDeleteProg.runAll q.delete more) = (p.deleteProg more).run := by
  obtain ⟨q, hb, hr⟩ := nselect_where p h
  unfold NDeleteProg.run
  rw [ndelete_calls]
  show _ = (clauseCalls newWhere ((p.wheres ++ more).map fun es => (false, es))).bind _
  rw [List.map_append, clauseCalls_append, hr]
  cases hw : clauseCalls newWhere (p.wheres.map fun es => (false, es)) with
  | ok w =>
    have ha := clauseCalls_and p.wheres newWhere w ⟨rfl, rfl⟩ hw
    simp only [Res.bind_ok]
    rw [ndelete_calls]
    have e : (q.withClause w).delete = ⟨doDelete, p.table.name, w.group⟩ := by
      show DeleteB.mk doDelete q.base.baseTable.name ((newGroup lAND []).groupAND w.conditions) = _
      rw [and_rebuilt ha, hb]
      rfl
    rw [e]
    rfl
  | err e => rfl
  | panic e => rfl

/-- `Update(…)` at the end of a program on a select of many rows, and calls after it. -/
theorem update_through (p : NSelectProg) (h : p.OK) (sets : List SetTo) (hs : ∀ s ∈ sets, s.OK) (more : List NUCall)
    (hm : ∀ c ∈ more, c.OK) :
    (p.run.bind fun q => (Res.mapL SetTo.call sets).bind fun vs => NUCall.runAll (q.update vs) more) = (p.updateProg sets more).run := by
  obtain ⟨q, hb, hr⟩ := nselect_where p h
  have hcalls : ∀ c ∈ (p.updateProg sets more).calls, c.OK := by
    intro c hc
    rcases List.mem_append.mp hc with hc | hc
    · obtain ⟨es, he, rfl⟩ := List.mem_map.mp hc
      exact nselect_wheres h es he
    · rcases List.mem_cons.mp hc with rfl | hc
      · exact hs
      · exact hm c hc
  unfold NUpdateProg.run
  rw [nupdate_calls _ hcalls]
  have ew : (p.updateProg sets more).calls.filterMap NUCall.where? = p.wheres ++ more.filterMap NUCall.where? := by
    show (p.wheres.map NUCall.addWhere ++ .set sets :: more).filterMap NUCall.where? = _
    rw [List.filterMap_append, List.filterMap_map, List.filterMap_cons]
    congr 1
    exact List.filterMap_some
  have es : (((p.updateProg sets more).calls.map NUCall.flat).filterMap UCall.set?).flatten =
      sets ++ ((more.map NUCall.flat).filterMap UCall.set?).flatten := by
    show (((p.wheres.map NUCall.addWhere ++ .set sets :: more).map NUCall.flat).filterMap UCall.set?).flatten = _
    rw [List.map_append, List.filterMap_append, List.map_cons, List.filterMap_cons]
    have : ((p.wheres.map NUCall.addWhere).map NUCall.flat).filterMap UCall.set? = [] := by
      rw [List.filterMap_eq_nil_iff]
      intro c hc
      simp only [List.mem_map] at hc
      obtain ⟨_, ⟨es, _, rfl⟩, rfl⟩ := hc
      rfl
    rw [this]
    rfl
  rw [ew, es, List.map_append, clauseCalls_append]
  show _ = ((clauseCalls newWhere _).bind _).bind _
  rw [hr]
  cases hw : clauseCalls newWhere (p.wheres.map fun es => (false, es)) with
  | ok w =>
    have ha := clauseCalls_and p.wheres newWhere w ⟨rfl, rfl⟩ hw
    simp only [Res.bind_ok, sets_call hs]
    rw [nupdate_calls _ hm]
    have e : (q.withClause w).update (sets.map SetTo.fv) = ⟨doUpdate, p.table.name, w.group, sets.map SetTo.fv⟩ := by
      show UpdateB.mk doUpdate q.base.baseTable.name ((newGroup lAND []).groupAND w.conditions) ([] ++ sets.map SetTo.fv) = _
      rw [and_rebuilt ha, hb]
      rfl
    rw [e]
    simp only [List.map_append]
    rfl
  | err e => rfl
  | panic e => rfl

theorem eff_wheres_eq (p : KindProg) : p.eff.wheres = p.wheres := eff_wheres p.calls

/-- **C81**, DELETE: `Delete()` of a select of any kind, made by any program, with any Where calls after it, makes the very builder
that `Delete(table)` and all the Where calls make; fields, joins, ordering and page play no part. -/
theorem C81_delete (p : KindProg) (h : p.OK) (more : List (List CondExp)) :
    (p.run.bind fun b => NDeleteProg.runAll b.delete more) = NDeleteProg.run ⟨p.table.name, p.wheres ++ more⟩ := by
  have e := delete_through p.eff (eff_ok h) more
  rw [NSelectProg.deleteProg, eff_wheres_eq] at e
  rw [C81_calls p h]
  refine Eq.trans ?_ e
  cases p.eff.run with
  | ok q => simp only [Res.bind_ok, as_delete]
  | err e => rfl
  | panic e => rfl

/-- **C81**, UPDATE: `Update(values…)` of a select of any kind, with any calls after it, makes the very builder that `Update(table)`,
the Where calls, `Set(values…)` and these calls make. -/
theorem C81_update (p : KindProg) (h : p.OK) (sets : List SetTo) (hs : ∀ s ∈ sets, s.OK) (more : List NUCall) (hm : ∀ c ∈ more, c.OK) :
    (p.run.bind fun b => (Res.mapL SetTo.call sets).bind fun vs => NUCall.runAll (b.update vs) more) =
      NUpdateProg.run ⟨p.table.name, p.wheres.map NUCall.addWhere ++ .set sets :: more⟩ := by
  have e := update_through p.eff (eff_ok h) sets hs more hm
  rw [NSelectProg.updateProg, eff_wheres_eq] at e
  rw [C81_calls p h]
  refine Eq.trans ?_ e
  cases p.eff.run with
  | ok q => simp only [Res.bind_ok, as_update]
  | err e => rfl
  | panic e => rfl

/-- **C81**, INSERT: `InsertInto(values…)` of a select of any kind, with any Values calls after it, makes the very builder that
`InsertInto(table)` and all the Values calls make, if the program makes a select at all. -/
theorem C81_insert (p : KindProg) (h : p.OK) (sets : List SetTo) (more : List (List SetTo)) :
    (p.run.bind fun b => (Res.mapL SetTo.call sets).bind fun vs => InsertProg.runCalls (b.insertInto vs) more) =
      if wheresSound p.wheres then InsertProg.run ⟨p.table.name, sets :: more⟩ else .panic .nilDeref := by
  rw [C81_calls p h]
  obtain ⟨q, hb, hr⟩ := nselect_where p.eff (eff_ok h)
  have hw := wheres_run p.eff.wheres (nselect_wheres (eff_ok h))
  rw [eff_wheres_eq] at hw hr
  split
  · rename_i hs
    rw [if_pos hs] at hw
    obtain ⟨w, h1, _⟩ := hw
    rw [hr, h1]
    simp only [Res.bind_ok, InsertProg.run, InsertProg.runCalls]
    congr 1
    funext vs
    have : ((q.withClause w).as p.kind).insertInto vs = (insertInto (.str p.table.name)).addValues vs := by
      have e : (q.withClause w).base.insertInto vs = (insertInto (.str p.table.name)).addValues vs := by
        show InsertB.addValues ⟨doInsert, q.base.baseTable.name, []⟩ vs = _
        rw [hb]
        rfl
      cases p.kind <;> exact e
    rw [this]
  · rename_i hs
    rw [if_neg hs] at hw
    rw [hr, hw]
    rfl

/-! ## What the writes do -/

/-- **C81**, what a DELETE through a select does, for conditions that are clear: it removes the rows of the table on which the
conditions of the Where calls, before and after `Delete()`, all hold.  Missing: as in `C78_delete_partial`. -/
theorem C81_delete_rows_partial (eng : Engine) (db : Db) (p : KindProg) (h : p.OK) (more : List (List CondExp))
    (hm : ∀ es ∈ more, CondExp.OKL es) (hn : (p.wheres ++ more).flatten ≠ []) (hc : wheresClear someRow (p.wheres ++ more) = true) :
    ∃ d sql params, (p.run.bind fun b => NDeleteProg.runAll b.delete more) = .ok d ∧ d.build = .ok (sql, params) ∧
      runStmt eng db sql params =
        (NDeleteProg.flat ⟨p.table.name, p.wheres ++ more⟩).effectBy (wheresMean (p.wheres ++ more)) eng db := by
  have hw := eff_wheres_eq p ▸ nselect_wheres (eff_ok h)
  obtain ⟨d, sql, e, h1, h2, _, _, h3⟩ := C78_delete_partial eng db ⟨p.table.name, p.wheres ++ more⟩
    ⟨h.table.1, fun es he => (List.mem_append.mp he).elim (hw es) (hm es), hn⟩ hc
  exact ⟨d, sql, _, (C81_delete p h more).trans h1, h2, h3⟩

/-- **C81**, what an UPDATE through a select does, for conditions that are clear.  Missing: as in `C78_update_partial`. -/
theorem C81_update_rows_partial (eng : Engine) (db : Db) (p : KindProg) (h : p.OK) (sets : List SetTo) (hs : ∀ s ∈ sets, s.OK)
    (hn : sets ≠ []) (hw : p.wheres.flatten ≠ []) (hc : wheresClear someRow p.wheres = true) :
    ∃ u sql params, (p.run.bind fun b => (Res.mapL SetTo.call sets).bind fun vs => .ok (b.update vs)) = .ok u ∧
      u.build = .ok (sql, params) ∧
      runStmt eng db sql params = (UpdateProg.mk p.table.name
        (.set sets :: p.wheres.map fun es => .addWhere (testClauses (CondExp.testsL es)))).effectBy (wheresMean p.wheres) eng db := by
  have hok := eff_wheres_eq p ▸ nselect_wheres (eff_ok h)
  have e1 : ((p.wheres.map NUCall.addWhere ++ [NUCall.set sets]).filterMap NUCall.where?) = p.wheres := by
    rw [List.filterMap_append, List.filterMap_map]
    simp only [NUCall.where?, List.filterMap_cons, List.filterMap_nil, List.append_nil]
    exact List.filterMap_some
  have e2 : (UpdateProg.sets ⟨p.table.name, (p.wheres.map NUCall.addWhere ++ [NUCall.set sets]).map NUCall.flat⟩) = sets := by
    unfold UpdateProg.sets
    rw [List.map_append, List.filterMap_append]
    have : ((p.wheres.map NUCall.addWhere).map NUCall.flat).filterMap UCall.set? = [] := by
      rw [List.filterMap_eq_nil_iff]
      intro c hc
      simp only [List.mem_map] at hc
      obtain ⟨_, ⟨es, _, rfl⟩, rfl⟩ := hc
      rfl
    rw [this]
    simp [NUCall.flat, UCall.set?]
  obtain ⟨u, sql, _, e, h1, h2, _, _, _, h3⟩ := C78_update_partial eng db
    ⟨p.table.name, p.wheres.map NUCall.addWhere ++ [.set sets]⟩
    ⟨h.table.1, by
      intro c hc
      rcases List.mem_append.mp hc with hc | hc
      · obtain ⟨es, he, rfl⟩ := List.mem_map.mp hc
        exact hok es he
      · rw [List.mem_singleton.mp hc]
        exact hs, by
      show UpdateProg.sets _ ≠ []
      rw [NUpdateProg.flat, e2]
      exact hn, by
      show (List.filterMap NUCall.where? _).flatten ≠ []
      rw [e1]
      exact hw⟩ (by
      show wheresClear someRow (List.filterMap NUCall.where? _) = true
      rw [e1]
      exact hc)
  refine ⟨u, sql, _, (C81_update p h sets hs [] (by simp)).trans h1, h2, h3.trans ?_⟩
  have e3 : NUpdateProg.wheres ⟨p.table.name, p.wheres.map NUCall.addWhere ++ [.set sets]⟩ = p.wheres := e1
  rw [e3]
  have e4 : UpdateProg.sets ⟨p.table.name, UCall.set sets :: p.wheres.map fun es => .addWhere (testClauses (CondExp.testsL es))⟩ = sets := by
    unfold UpdateProg.sets
    rw [List.filterMap_cons]
    have : (p.wheres.map fun es => UCall.addWhere (testClauses (CondExp.testsL es))).filterMap UCall.set? = [] := by
      rw [List.filterMap_eq_nil_iff]
      intro c hc
      obtain ⟨es, _, rfl⟩ := List.mem_map.mp hc
      rfl
    simp [this, UCall.set?]
  have e5 : UpdateProg.clauses ⟨p.table.name, UCall.set sets :: p.wheres.map fun es => .addWhere (testClauses (CondExp.testsL es))⟩ =
      UpdateProg.clauses (NUpdateProg.flat ⟨p.table.name, p.wheres.map NUCall.addWhere ++ [.set sets]⟩) := by
    simp only [UpdateProg.clauses, UpdateProg.wheres, NUpdateProg.flat, List.map_append, List.filterMap_append, List.map_map,
      List.filterMap_map, List.filterMap_cons, List.map_cons, List.map_nil, List.filterMap_nil, List.append_nil, NUCall.flat,
      UCall.where?, Function.comp_def]
  unfold UpdateProg.effectBy
  rw [e5, e4, NUpdateProg.flat, e2]

/-! ## Reading -/

theorem as_count (q : SelectMany) (k : SelKind) : (q.as k).count = count q.base [] := by
  cases k <;> rfl

/-- **C81**, counting: `Count()` on a select of any kind counts the rows of the joined tables on which the conditions hold; page and
kind play no part. -/
theorem C81_count_exact (eng : Engine) (db : Db) (p : KindProg) (h : p.OK) :
    if wheresSound p.wheres then
      ∃ b c sql params, p.run = .ok b ∧ b.count = .ok c ∧ c.build = .ok (sql, params) ∧ params = paramsOf p.said.flat.clauses ∧
        runQuery eng db sql params =
          if fromOK db p.table p.said.flat.joins && knownIn (p.said.flat.scope db) p.said.flat.clauses then
            some [[(c!"count", some (.uint ((fromRows eng db p.table p.said.flat.joins).filter fun env =>
              wheresText p.wheres (eng.row env) == .t).length))]]
          else none
    else p.run = .panic .nilDeref := by
  have hc := C78_count_exact eng db p.eff (eff_ok h)
  rw [eff_wheres_eq] at hc
  rw [C81_calls p h]
  split
  · rename_i hs
    rw [if_pos hs] at hc
    obtain ⟨q, c, sql, params, h1, h2, h3, h4, h5⟩ := hc
    refine ⟨q.as p.kind, c, sql, params, by rw [h1]; rfl, (as_count q _).trans h2, h3, eff_clauses p ▸ h4, ?_⟩
    unfold SelectProg.scope at h5 ⊢
    rw [eff_joins, eff_clauses] at h5
    exact h5
  · rename_i hs
    rw [if_neg hs] at hc
    rw [hc]
    rfl

theorem flat_keys_none (c : NSCall) (h : c.isSetting = false) :
    c.flat.keys? = none ∧ c.flat.offset? = none ∧ c.flat.limit? = none := by
  cases c with
  | addWhere es => exact ⟨rfl, rfl, rfl⟩
  | other c => cases c <;> first | exact ⟨rfl, rfl, rfl⟩ | exact absurd h (by simp [NSCall.isSetting])

/-- A program without ordering and page has none. -/
theorem flat_unset (p : NSelectProg) (h : ∀ c ∈ p.calls, c.isSetting = false) :
    p.flat.keys = [] ∧ p.flat.offset = 0 ∧ p.flat.limit = -1 := by
  have hn : ∀ {α} (f : SCall → Option α), (∀ c : NSCall, c.isSetting = false → f c.flat = none) → p.flat.calls.filterMap f = [] := by
    intro α f hf
    rw [List.filterMap_eq_nil_iff]
    intro c hc
    obtain ⟨d, hd, rfl⟩ := List.mem_map.mp hc
    exact hf d (h d hd)
  refine ⟨?_, ?_, ?_⟩
  · rw [SelectProg.keys, hn _ fun c hc => (flat_keys_none c hc).1]
    rfl
  · rw [SelectProg.offset, hn _ fun c hc => (flat_keys_none c hc).2.1]
    rfl
  · rw [SelectProg.limit, hn _ fun c hc => (flat_keys_none c hc).2.2]
    rfl

/-- Without ordering and page, a select of one row gives the first of the rows. -/
theorem single_ran (eng : Engine) (db : Db) {p : SelectProg} {S : Row → Tri} {q : SelectMany} (hc : ∀ c ∈ p.clauses, c.OK)
    (h0 : p.clauses = [] → ∀ row, S row = .t) (hr : Ran p S q) (hk : p.keys = []) (ho : p.offset = 0) (hl : p.limit = -1) :
    ∃ sql params, (SelectSingle.mk q.base).build = .ok (sql, params) ∧ params = p.params ∧
      runQuery eng db sql params = if p.known db then some ((p.rowsBy S eng db).take 1) else none := by
  obtain ⟨sql, params, w, h1, h2, h3⟩ := C22_single_partial ⟨q.base⟩ hr.plain
  have hp : params = p.params := by
    have e := h1
    simp only [SelectSingle.build] at e
    obtain ⟨⟨sql0, params0⟩, e1, e⟩ := Res.bind_eq_ok.1 e
    cases e
    rw [prog_values hr e1, SelectProg.params, ho, hl]
    simp
  refine ⟨sql, params, h1, hp, ?_⟩
  have hcw := prog_where hr h3
  simp only [runQuery, h2]
  unfold SelectStmt.run
  have hok : SelectStmt.ok db ⟨q.base.fields.refs, q.base.baseTable.ref, q.base.joins.map TableJoiner.ref, w, [], none,
      some (.lit c!"1")⟩ = p.known db := by
    unfold SelectStmt.ok SelectProg.known SelectProg.scope
    simp only [hr.items, hr.table, hr.joins, hk, condIs_cols hcw hc]
  rw [hok]
  split
  · obtain ⟨n1, n2⟩ := items_noCount p
    have hd : optNum params none = some none := rfl
    have hl1 : optNum params (some (.lit c!"1")) = some (some 1) := rfl
    simp only [hd, hl1, hr.table, hr.joins, condIs_rows hcw h0]
    split
    · rename_i c hc
      exact absurd (hr.items.symm.trans hc) (n2 c)
    · simp only [hr.items, n1, Bool.false_eq_true, if_false, List.map_nil]
      unfold SelectProg.rowsBy
      simp only [hk, ho, hl, List.map_nil, List.drop_zero, show ¬ ((-1 : Int) > 0) by decide, if_false, ← List.map_take]
      rfl
  · rfl

/-- **C81, exactly**, the rows: in every database, running the text of a select of any kind, made by any program, gives the rows of the
calls that count (`KCall.eff`), the first alone for a select of one row; or the program panics. -/
theorem C81_rows_exact (eng : Engine) (db : Db) (p : KindProg) (h : p.OK) :
    if wheresSound p.wheres then
      ∃ b sql params, p.run = .ok b ∧ b.build = .ok (sql, params) ∧ params = p.eff.flat.params ∧
        runQuery eng db sql params = if p.eff.flat.known db then some (p.rowsBy (wheresText p.wheres) eng db) else none
    else p.run = .panic .nilDeref := by
  have hr := nselect_run p.eff (eff_ok h)
  rw [eff_wheres_eq] at hr
  rw [C81_calls p h]
  split
  · rename_i hs
    rw [if_pos hs] at hr
    obtain ⟨q, h1, hr, h0⟩ := hr
    have hu := fun hk => flat_unset p.eff (eff_unset p.calls p.start hk)
    cases hk : p.kind with
    | many =>
      obtain ⟨sql, params, h2, h3⟩ := rows_ran eng db (nflat_clauses (eff_ok h)) h0 hr
      obtain ⟨_, _, h4, _⟩ := select_ran hr
      rw [h2] at h4
      cases h4
      refine ⟨.many q, sql, _, by rw [h1]; rfl, h2, rfl, ?_⟩
      rw [h3, KindProg.rowsBy, hk, if_neg (show ¬ SelKind.many = .single by decide)]
    | base =>
      obtain ⟨sql, params, h2, h3⟩ := rows_ran eng db (nflat_clauses (eff_ok h)) h0 hr
      obtain ⟨u1, u2, u3⟩ := hu (by rw [← KindProg.kind, hk]; decide)
      have hb : q.build = q.base.build := many_build_unset q ⟨by
        have := hr.keys
        rw [u1] at this
        exact List.map_eq_nil_iff.mp this, hr.offset.trans u2, by rw [hr.limit, u3]; decide⟩
      obtain ⟨_, _, h4, _⟩ := select_ran hr
      rw [h2] at h4
      cases h4
      refine ⟨.base q.base, sql, _, by rw [h1]; rfl, hb.symm.trans h2, rfl, ?_⟩
      rw [h3, KindProg.rowsBy, hk, if_neg (show ¬ SelKind.base = .single by decide)]
    | single =>
      obtain ⟨u1, u2, u3⟩ := hu (by rw [← KindProg.kind, hk]; decide)
      obtain ⟨sql, params, h2, hp, h3⟩ := single_ran eng db (nflat_clauses (eff_ok h)) h0 hr u1 u2 u3
      refine ⟨.single ⟨q.base⟩, sql, params, by rw [h1]; rfl, h2, hp, ?_⟩
      rw [h3, KindProg.rowsBy, hk, if_pos (rfl : SelKind.single = .single)]
  · rename_i hs
    rw [if_neg hs] at hr
    rw [hr]
    rfl

theorem kept_eff : ∀ (cs : List KCall) (k : SelKind), KindProg.Kept k cs → KCall.eff cs = KCall.said cs
  | [], _, _ => rfl
  | .single :: cs, _, h => kept_eff cs .single h.2
  | .many :: cs, _, h => kept_eff cs .many h.2
  | .call c :: cs, k, h => by
    have ih := kept_eff cs _ h.2
    have : (c.isSetting && cs.any KCall.isConv) = false := by
      cases hs : c.isSetting with
      | false => rfl
      | true => exact (h.1 hs).2
    show (if (c.isSetting && cs.any KCall.isConv) = true then _ else _) = _
    rw [this, ih]
    rfl

/-- The kind last asked for is single just if the select is one of one row. -/
theorem kept_kind : ∀ (cs : List KCall) (k k' : SelKind), KindProg.Kept k cs → (k = .single ↔ k' = .single) →
    (KCall.ends k cs = .single ↔ cs.foldl (fun k c => match c with
      | .single => .single
      | .many => .many
      | .call _ => k) k' = SelKind.single)
  | [], _, _, _, hk => hk
  | .single :: cs, _, _, h, _ => kept_kind cs .single .single h.2 Iff.rfl
  | .many :: cs, _, _, h, _ => kept_kind cs .many .many h.2 Iff.rfl
  | .call c :: cs, k, k', h, hk => by
    refine kept_kind cs _ k' h.2 ?_
    show (if c.isSetting then SelKind.many else k) = _ ↔ _
    cases hs : c.isSetting with
    | false => exact hk
    | true =>
      have := (h.1 hs).1
      exact ⟨fun e => (by cases e), fun e => absurd (hk.mpr e) this⟩

/-- **C81**, the rows, for programs that set ordering and page after the last change of kind and not on a select of one row, with
clear conditions: running the text gives the rows asked for, all calls taken at their word.  Missing: the other programs, where it is
false (`C81_false`), and what is missing in `C78_rows_partial`; `C81_rows_exact` covers both. -/
theorem C81_rows_partial (eng : Engine) (db : Db) (p : KindProg) (h : p.OK) (hk : KindProg.Kept p.start p.calls)
    (hc : wheresClear someRow p.wheres = true) :
    ∃ b sql params, p.run = .ok b ∧ b.build = .ok (sql, params) ∧
      runQuery eng db sql params = if p.said.flat.known db then some (p.askedBy (wheresMean p.wheres) eng db) else none := by
  have hw := eff_wheres_eq p ▸ nselect_wheres (eff_ok h)
  obtain ⟨h1, h2⟩ := wheres_clear p.wheres hw hc
  have := C81_rows_exact eng db p h
  rw [if_pos h1, h2] at this
  have e : p.eff = p.said := by
    unfold KindProg.eff KindProg.said
    rw [kept_eff p.calls p.start hk]
  have ek : (p.kind = .single) = (p.wanted = .single) := propext (kept_kind p.calls p.start p.start hk Iff.rfl)
  unfold KindProg.rowsBy at this
  simp only [e, ek] at this
  obtain ⟨b, sql, params, k1, k2, _, k3⟩ := this
  exact ⟨b, sql, params, k1, k2, k3⟩

/-! ## Examples and the exception -/

/-- `SelectFrom("t").Fields("id").Where(Or(a = 7, id = 3)).Many().OrderBy(Desc("id")).Limit(2)`. -/
def exKindProg : KindProg :=
  ⟨.base, ⟨c!"t", none⟩, [.call (.other (.fields [(exCol [] c!"id", none)])),
    .call (.addWhere [.fn true (exIs c!"a" 7) [exIs c!"id" 3]]), .many, .call (.other (.orderBy [(exCol [] c!"id", true)])),
    .call (.other (.limit 2))]⟩

theorem exCol_ok {n : Str} (h : n ∈ [c!"t", c!"x", c!"u", c!"id", c!"a", c!"tid", c!"n"]) : (exCol [] n).OK :=
  ⟨exIdent h, fun t ht => by cases ht⟩

theorem exFields_ok {n : Str} (h : n ∈ [c!"t", c!"x", c!"u", c!"id", c!"a", c!"tid", c!"n"]) :
    (NSCall.other (.fields [(exCol [] n, none)])).OK := by
  refine ⟨?_, rfl⟩
  intro p hp
  simp only [List.mem_singleton] at hp
  subst hp
  exact ⟨(exCol_ok h).item, fun a ha => by cases ha⟩

theorem exOrder_ok {n : Str} (h : n ∈ [c!"t", c!"x", c!"u", c!"id", c!"a", c!"tid", c!"n"]) (d : Bool) :
    (NSCall.other (.orderBy [(exCol [] n, d)])).OK := by
  refine ⟨?_, rfl⟩
  intro p hp
  simp only [List.mem_singleton] at hp
  subst hp
  exact exCol_ok h

theorem exKindProg_ok : exKindProg.OK := by
  refine ⟨⟨exIdent (by decide), fun a ha => by cases ha⟩, ?_, by simp [exKindProg, KCall.noFields, KCall.next, NSCall.isSetting]⟩
  intro c hc
  simp only [exKindProg, List.mem_cons, List.not_mem_nil, or_false] at hc
  rcases hc with rfl | rfl | rfl | rfl | rfl
  · exact exFields_ok (by decide)
  · exact ⟨⟨exIs_ok (by decide) 7, exIs_ok (by decide) 3, trivial⟩, trivial⟩
  · exact trivial
  · exact exOrder_ok (by decide) true
  · exact ⟨trivial, rfl⟩

/-- It meets the hypotheses, and this is what it reads, what it counts, what it removes with one more condition, and what it sets. -/
example : exKindProg.OK ∧ KindProg.Kept exKindProg.start exKindProg.calls ∧ wheresClear someRow exKindProg.wheres = true ∧
    exKindProg.run.bind SelB.build =
      .ok (c!"SELECT id FROM t WHERE a=$1 OR id=$2 ORDER BY id DESC LIMIT $3", [.other 7, .other 3, .uint 2]) ∧
    exKindProg.askedBy (wheresMean exKindProg.wheres) exEng exDb = [[(c!"id", some (.other 3))], [(c!"id", some (.other 2))]] ∧
    runBuilt exEng exDb (exKindProg.run.bind SelB.build) = some [[(c!"id", some (.other 3))], [(c!"id", some (.other 2))]] ∧
    runBuilt exEng exDb ((exKindProg.run.bind SelB.count).bind CountB.build) = some [[(c!"count", some (.uint 3))]] ∧
    ((exKindProg.run.bind fun b => NDeleteProg.runAll b.delete []).bind DeleteB.build) =
      .ok (c!"DELETE FROM t WHERE a=$1 OR id=$2", [.other 7, .other 3]) ∧
    ((exKindProg.run.bind fun b => (Res.mapL SetTo.call [⟨c!"a", .other 9, .other 9⟩]).bind fun vs => .ok (b.update vs)).bind
      UpdateB.build) = .ok (c!"UPDATE t SET a=$1 WHERE a=$2 OR id=$3", [.other 9, .other 7, .other 3]) ∧
    ((exKindProg.run.bind fun b => (Res.mapL SetTo.call [⟨c!"a", .other 9, .other 9⟩]).bind fun vs =>
      InsertProg.runCalls (b.insertInto vs) [[⟨c!"id", .other 4, .other 4⟩]]).bind InsertB.build) =
      .ok (c!"INSERT INTO t(a, id) VALUES ($1, $2)", [.other 9, .other 4]) :=
  ⟨exKindProg_ok, by simp [exKindProg, KindProg.Kept, KCall.next, NSCall.isSetting, KCall.isConv], rfl, rfl, rfl, rfl, rfl, rfl, rfl, rfl⟩

/-- A select of one row: `SelectSingleFrom("t").Where(a = 7)`. -/
example :
    let p : KindProg := ⟨.single, ⟨c!"t", none⟩, [.call (.addWhere [exIs c!"a" 7])]⟩
    p.OK ∧ KindProg.Kept p.start p.calls ∧ p.run.bind SelB.build = .ok (c!"SELECT * FROM t WHERE a=$1 LIMIT 1", [.other 7]) ∧
    runBuilt exEng exDb (p.run.bind SelB.build) = some [[(c!"id", some (.other 1)), (c!"a", some (.other 7))]] := by
  refine ⟨⟨⟨exIdent (by decide), fun a ha => by cases ha⟩, ?_, by simp [KCall.noFields, NSCall.isFields]⟩,
    by simp [KindProg.Kept, NSCall.isSetting], rfl, rfl⟩
  intro c hc
  simp only [List.mem_cons, List.not_mem_nil, or_false] at hc
  subst hc
  exact ⟨exIs_ok (by decide) 7, trivial⟩

/-- **C81 is false** in general: an ordering is forgotten by a later `Single()`, so the row `id = 1` is read where `id = 3` was asked
for; and an ordering on a select of one row reads them all. -/
theorem C81_false :
    let p : KindProg := ⟨.many, ⟨c!"t", none⟩, [.call (.other (.fields [(exCol [] c!"id", none)])),
      .call (.other (.orderBy [(exCol [] c!"id", true)])), .single]⟩
    let r : KindProg := ⟨.single, ⟨c!"t", none⟩, [.call (.other (.orderBy [(exCol [] c!"id", true)]))]⟩
    (p.OK ∧ p.askedBy (wheresMean p.wheres) exEng exDb = [[(c!"id", some (.other 3))]] ∧
      runBuilt exEng exDb (p.run.bind SelB.build) = some [[(c!"id", some (.other 1))]]) ∧
    r.OK ∧ (r.askedBy (wheresMean r.wheres) exEng exDb).length = 1 ∧
      (runBuilt exEng exDb (r.run.bind SelB.build)).map List.length = some 3 := by
  have ht : (TabRef.mk c!"t" none).OK := ⟨exIdent (by decide), fun a ha => by cases ha⟩
  refine ⟨⟨⟨ht, ?_, by simp [KCall.noFields, KCall.next, NSCall.isSetting]⟩, rfl, rfl⟩,
    ⟨ht, ?_, by simp [KCall.noFields, NSCall.isFields]⟩, rfl, rfl⟩
  · intro c hc
    simp only [List.mem_cons, List.not_mem_nil, or_false] at hc
    rcases hc with rfl | rfl | rfl
    · exact exFields_ok (by decide)
    · exact exOrder_ok (by decide) true
    · exact trivial
  · intro c hc
    simp only [List.mem_cons, List.not_mem_nil, or_false] at hc
    subst hc
    exact exOrder_ok (by decide) true

end Query
