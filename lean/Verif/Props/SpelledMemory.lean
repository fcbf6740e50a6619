import Verif.Spec.SpelledAny
import Verif.Props.Spelled
import Verif.Props.MemoryMeant
/-!
# C88 for programs of every kind, in shared memory
-/
namespace Query

theorem nselect_spelled_flat (p : NSelectProg) : NSelectProg.flat ⟨p.table, p.calls.map NSCall.spelled⟩ = p.flat := by
  unfold NSelectProg.flat
  simp only [spelled_flats]

theorem spelled_where? (l : List NSCall) : (l.map NSCall.spelled).filterMap NSCall.where? = (l.filterMap NSCall.where?).map spelledArgs := by
  induction l with
  | nil => rfl
  | cons c l ih =>
    cases c with
    | addWhere es => simp only [List.map_cons, NSCall.spelled, List.filterMap_cons, NSCall.where?, ih]
    | other c => simp only [List.map_cons, NSCall.spelled, List.filterMap_cons, NSCall.where?, ih]

theorem spelled_nuwhere? (l : List NUCall) : (l.map NUCall.spelled).filterMap NUCall.where? = (l.filterMap NUCall.where?).map spelledArgs := by
  induction l with
  | nil => rfl
  | cons c l ih =>
    cases c with
    | addWhere es => simp only [List.map_cons, NUCall.spelled, List.filterMap_cons, NUCall.where?, ih]
    | set s => simp only [List.map_cons, NUCall.spelled, List.filterMap_cons, NUCall.where?, ih]

theorem spelled_nuflat (l : List NUCall) : (l.map NUCall.spelled).map NUCall.flat = l.map NUCall.flat := by
  rw [List.map_map]
  refine List.map_congr_left fun c _ => ?_
  cases c with
  | addWhere es => simp only [Function.comp, NUCall.spelled, NUCall.flat, spelledArgs_tests]
  | set s => rfl

theorem wheres_spelled_clear (ws : List (List CondExp)) : wheresClear someRow (ws.map spelledArgs) = true := by
  unfold wheresClear
  rw [List.map_map]
  exact spelled_clause someRow ws none fun _ h => by cases h

theorem wheres_spelled_mean (ws : List (List CondExp)) : wheresMean (ws.map spelledArgs) = wheresMean ws := by
  funext row
  unfold wheresMean
  have : CondExp.meansL row (ws.map spelledArgs).flatten = CondExp.meansL row ws.flatten := by
    induction ws with
    | nil => rfl
    | cons es ws ih =>
      have ha : ∀ a b, CondExp.meansL row (a ++ b) = CondExp.meansL row a ++ CondExp.meansL row b := by
        intro a b
        rw [meansL_eq, meansL_eq, meansL_eq, List.map_append]
      rw [List.map_cons, List.flatten_cons, List.flatten_cons, ha, ha, ih, spelledArgs_means]
  rw [this]

theorem wheres_spelled_some {ws : List (List CondExp)} (h : ws.flatten ≠ []) : (ws.map spelledArgs).flatten ≠ [] := by
  intro he
  apply h
  rw [List.flatten_eq_nil_iff] at he ⊢
  intro es hes
  have := he _ (List.mem_map_of_mem hes)
  cases es with
  | nil => rfl
  | cons e es => cases this

theorem nselect_spelled_ok {p : NSelectProg} (h : p.OK) : NSelectProg.OK ⟨p.table, p.calls.map NSCall.spelled⟩ := by
  refine ⟨h.1, ?_⟩
  intro c hc
  obtain ⟨d, hd, rfl⟩ := List.mem_map.mp hc
  have := h.2 d hd
  cases d with
  | addWhere es => exact spelledArgs_ok es this
  | other d => exact this

theorem nupdate_spelled_ok {t : Str} {l : List NUCall} (h : (NUpdateProg.mk t l).OK) : NUpdateProg.OK ⟨t, l.map NUCall.spelled⟩ := by
  refine ⟨h.table, ?_, ?_, ?_⟩
  · intro c hc
    obtain ⟨d, hd, rfl⟩ := List.mem_map.mp hc
    have := h.calls d hd
    cases d with
    | addWhere es => exact spelledArgs_ok es this
    | set s => exact this
  · have := h.some
    unfold NUpdateProg.flat at this ⊢
    simpa only [spelled_nuflat] using this
  · have := h.where_
    unfold NUpdateProg.wheres at this ⊢
    simp only [spelled_nuwhere?]
    exact wheres_spelled_some this

theorem ndelete_spelled_ok {t : Str} {ws : List (List CondExp)} (h : (NDeleteProg.mk t ws).OK) : NDeleteProg.OK ⟨t, ws.map spelledArgs⟩ := by
  refine ⟨h.1, ?_, wheres_spelled_some h.3⟩
  intro es hes
  obtain ⟨fs, hf, rfl⟩ := List.mem_map.mp hes
  exact spelledArgs_ok fs (h.2 fs hf)

theorem ndelete_spelled_flat (t : Str) (ws : List (List CondExp)) : NDeleteProg.flat ⟨t, ws.map spelledArgs⟩ = NDeleteProg.flat ⟨t, ws⟩ := by
  unfold NDeleteProg.flat
  simp only [List.map_map, Function.comp_def, spelledArgs_tests]

theorem nupdate_spelled_flat (t : Str) (l : List NUCall) : NUpdateProg.flat ⟨t, l.map NUCall.spelled⟩ = NUpdateProg.flat ⟨t, l⟩ := by
  unfold NUpdateProg.flat
  simp only [spelled_nuflat]

theorem spelled_deleteProg (p : KindProg) (more : List (List CondExp)) :
    p.spelled.deleteProg (more.map spelledArgs) = ⟨p.table.name, (p.wheres ++ more).map spelledArgs⟩ := by
  unfold KindProg.deleteProg
  rw [spelled_wheres, List.map_append]
  rfl

theorem spelled_updateProg (p : KindProg) (sets : List SetTo) (more : List NUCall) :
    p.spelled.updateProg sets (more.map NUCall.spelled) = ⟨p.table.name, (p.wheres.map NUCall.addWhere ++ .set sets :: more).map NUCall.spelled⟩ := by
  unfold KindProg.updateProg
  rw [spelled_wheres, List.map_append, List.map_map, List.map_map]
  rfl

theorem spelled_kept : ∀ (cs : List KCall) (k : SelKind), KindProg.Kept k cs → KindProg.Kept k (cs.map KCall.spelled)
  | [], _, _ => trivial
  | c :: cs, k, h => by
    refine ⟨?_, ?_⟩
    · cases c with
      | call c =>
        rw [kcall_spelled]
        have := h.1
        simp only [(nscall_spelled_setting c).1, spelled_isConv]
        exact this
      | single => trivial
      | many => trivial
    · rw [spelled_next]
      exact spelled_kept cs _ h.2

theorem spelled_wanted (p : KindProg) : p.spelled.wanted = p.wanted := by
  unfold KindProg.wanted KindProg.spelled
  simp only [List.foldl_map]
  congr 1
  funext k c
  cases c with
  | call c => rw [kcall_spelled]
  | single => rfl
  | many => rfl

theorem anyprog_spelled (eng : Engine) (db : Db) (p : AnyProg) (h : p.OK) (hs : p.Settled) :
    p.spelled.OK ∧ p.spelled.Clear ∧ p.spelled.Does eng db = p.Does eng db := by
  cases p with
  | select p =>
    refine ⟨nselect_spelled_ok h, ?_, ?_⟩
    · show wheresClear someRow ((p.calls.map NSCall.spelled).filterMap NSCall.where?) = true
      rw [spelled_where?]
      exact wheres_spelled_clear _
    · funext sql params
      show (runQuery eng db sql params = if (NSelectProg.flat ⟨p.table, p.calls.map NSCall.spelled⟩).known db then
        some ((NSelectProg.flat ⟨p.table, p.calls.map NSCall.spelled⟩).rowsBy
          (wheresMean ((p.calls.map NSCall.spelled).filterMap NSCall.where?)) eng db) else none) = _
      rw [nselect_spelled_flat, spelled_where?, wheres_spelled_mean]
      rfl
  | count p =>
    refine ⟨nselect_spelled_ok h, ?_, ?_⟩
    · show wheresClear someRow ((p.calls.map NSCall.spelled).filterMap NSCall.where?) = true
      rw [spelled_where?]
      exact wheres_spelled_clear _
    · funext sql params
      show (runQuery eng db sql params =
        if fromOK db p.table (NSelectProg.flat ⟨p.table, p.calls.map NSCall.spelled⟩).joins &&
            knownIn ((NSelectProg.flat ⟨p.table, p.calls.map NSCall.spelled⟩).scope db) (NSelectProg.flat ⟨p.table, p.calls.map NSCall.spelled⟩).clauses then
          some [[(c!"count", some (.uint ((fromRows eng db p.table (NSelectProg.flat ⟨p.table, p.calls.map NSCall.spelled⟩).joins).filter fun env =>
            wheresMean ((p.calls.map NSCall.spelled).filterMap NSCall.where?) (eng.row env) == .t).length))]]
        else none) = _
      rw [nselect_spelled_flat, spelled_where?, wheres_spelled_mean]
      rfl
  | insert p => exact ⟨h, trivial, rfl⟩
  | update p =>
    refine ⟨nupdate_spelled_ok h, ?_, ?_⟩
    · show wheresClear someRow ((p.calls.map NUCall.spelled).filterMap NUCall.where?) = true
      rw [spelled_nuwhere?]
      exact wheres_spelled_clear _
    · funext sql params
      show (runStmt eng db sql params = (NUpdateProg.flat ⟨p.table, p.calls.map NUCall.spelled⟩).effectBy
        (wheresMean ((p.calls.map NUCall.spelled).filterMap NUCall.where?)) eng db) = _
      rw [nupdate_spelled_flat, spelled_nuwhere?, wheres_spelled_mean]
      rfl
  | delete p =>
    refine ⟨ndelete_spelled_ok h, wheres_spelled_clear _, ?_⟩
    funext sql params
    show (runStmt eng db sql params = (NDeleteProg.flat ⟨p.table, p.wheres.map spelledArgs⟩).effectBy
      (wheresMean (p.wheres.map spelledArgs)) eng db) = _
    rw [ndelete_spelled_flat, wheres_spelled_mean]
    rfl
  | kind p e =>
    obtain ⟨h1, hc, _, _, _⟩ := C88_spelled p h.1
    have hm := spelled_mean p
    cases e with
    | read =>
      refine ⟨⟨h1, trivial⟩, ⟨hc, spelled_kept _ _ hs⟩, ?_⟩
      funext sql params
      show (runQuery eng db sql params = if p.spelled.said.flat.known db then
        some (p.spelled.askedBy (wheresMean p.spelled.wheres) eng db) else none) = _
      unfold KindProg.askedBy
      rw [hm, spelled_said_flat, spelled_wanted]
      rfl
    | count =>
      refine ⟨⟨h1, trivial⟩, hc, ?_⟩
      funext sql params
      show (runQuery eng db sql params =
        if fromOK db p.table p.spelled.said.flat.joins && knownIn (p.spelled.said.flat.scope db) p.spelled.said.flat.clauses then
          some [[(c!"count", some (.uint ((fromRows eng db p.table p.spelled.said.flat.joins).filter fun env =>
            wheresMean p.spelled.wheres (eng.row env) == .t).length))]]
        else none) = _
      rw [hm, spelled_said_flat]
      rfl
    | countCol c more =>
      refine ⟨⟨h1, h.2⟩, hc, ?_⟩
      funext sql params
      show (runQuery eng db sql params =
        if fromOK db p.table p.spelled.said.flat.joins && (p.spelled.said.flat.scope db).has c &&
            knownIn (p.spelled.said.flat.scope db) p.spelled.said.flat.clauses then
          some [[(c!"count", some (.uint (countedBy (wheresMean p.spelled.wheres) c eng (fromRows eng db p.table p.spelled.said.flat.joins))))]]
        else none) = _
      rw [hm, spelled_said_flat]
      rfl
    | delete more =>
      have hd : (NDeleteProg.mk p.table.name (p.wheres ++ more)).OK := h.2
      refine ⟨⟨h1, ?_⟩, ?_, ?_⟩
      · show (p.spelled.deleteProg (more.map spelledArgs)).OK
        rw [spelled_deleteProg]
        exact ndelete_spelled_ok hd
      · show wheresClear someRow (p.spelled.wheres ++ more.map spelledArgs) = true
        rw [spelled_wheres, ← List.map_append]
        exact wheres_spelled_clear _
      · funext sql params
        show (runStmt eng db sql params = (p.spelled.deleteProg (more.map spelledArgs)).flat.effectBy
          (wheresMean (p.spelled.wheres ++ more.map spelledArgs)) eng db) = _
        rw [spelled_deleteProg, spelled_wheres, ← List.map_append, wheres_spelled_mean, ndelete_spelled_flat]
        rfl
    | update sets more =>
      have hu : (NUpdateProg.mk p.table.name (p.wheres.map NUCall.addWhere ++ .set sets :: more)).OK := h.2
      refine ⟨⟨h1, ?_⟩, ?_, ?_⟩
      · show (p.spelled.updateProg sets (more.map NUCall.spelled)).OK
        rw [spelled_updateProg]
        exact nupdate_spelled_ok hu
      · show wheresClear someRow (p.spelled.wheres ++ (more.map NUCall.spelled).filterMap NUCall.where?) = true
        rw [spelled_nuwhere?, spelled_wheres, ← List.map_append]
        exact wheres_spelled_clear _
      · funext sql params
        show (runStmt eng db sql params = (p.spelled.updateProg sets (more.map NUCall.spelled)).flat.effectBy
          (wheresMean (p.spelled.wheres ++ (more.map NUCall.spelled).filterMap NUCall.where?)) eng db) = _
        rw [spelled_updateProg, spelled_nuwhere?, spelled_wheres, ← List.map_append, wheres_spelled_mean, nupdate_spelled_flat]
        rfl
    | insert sets more => exact ⟨⟨h1, h.2⟩, hc, rfl⟩

/-- **C88** for programs of every kind, in shared memory: spelled out, programs one after another, from any memory and any values, all
return, and then the builder of each builds a statement that does on any database what the program, as it was, means. -/
theorem C88_memory (pol : Policy) (gr : Grow) (eng : Engine) (db : Db) (m : Mem) (hs : List HV) (l : List AnyProg)
    (ok : ∀ p ∈ l, p.OK ∧ p.Settled) :
    ∃ m' hs', runHeap pol m hs (AnyProg.traceAll hs.length (l.map AnyProg.spelled)).1 = some (m', hs ++ hs') ∧
      ∀ (i : Nat) (p : AnyProg), l[i]? = some p →
        ∃ r x, (AnyProg.traceAll hs.length (l.map AnyProg.spelled)).2[i]? = some r ∧ (hs ++ hs')[r]? = some x ∧ x.Builds gr m' (p.Does eng db) := by
  obtain ⟨m', hs', h1, h2⟩ := C79_meant pol gr eng db m hs (l.map AnyProg.spelled) (by
    intro p hp
    obtain ⟨q, hq, rfl⟩ := List.mem_map.mp hp
    obtain ⟨a, b, _⟩ := anyprog_spelled eng db q (ok q hq).1 (ok q hq).2
    exact ⟨a, b⟩)
  refine ⟨m', hs', h1, fun i p hp => ?_⟩
  obtain ⟨r, x, e1, e2, e3⟩ := h2 i p.spelled (by rw [List.getElem?_map, hp]; rfl)
  have hm : p ∈ l := List.mem_of_getElem? hp
  rw [(anyprog_spelled eng db p (ok p hm).1 (ok p hm).2).2.2] at e3
  exact ⟨r, x, e1, e2, e3⟩

/-- **C88** in goroutines: once a goroutine has come to the builder of its program, spelled out, that builder builds a statement that does
what the program, as it was, means, whatever the others have done in between. -/
theorem C88_goroutines (pol : Policy) (gr : Grow) (eng : Engine) (db : Db) (progs : Nat → List AnyProg)
    (ok : ∀ t, ∀ p ∈ progs t, p.OK ∧ p.Settled) (sched : List Nat) (t i : Nat) (p : AnyProg) (hp : (progs t)[i]? = some p) :
    ∃ r, (AnyProg.traceAll 0 ((progs t).map AnyProg.spelled)).2[i]? = some r ∧
      (r < ((weave 0 (fun u => (AnyProg.traceAll 0 ((progs u).map AnyProg.spelled)).1) sched).own t).length →
        ∃ m hs x, runHeap pol Mem.empty [] (weave 0 (fun u => (AnyProg.traceAll 0 ((progs u).map AnyProg.spelled)).1) sched).calls = some (m, hs) ∧
          hs[place 0 ((weave 0 (fun u => (AnyProg.traceAll 0 ((progs u).map AnyProg.spelled)).1) sched).own t) r]? = some x ∧
          x.Builds gr m (p.Does eng db)) := by
  have hm : p ∈ progs t := List.mem_of_getElem? hp
  have := C79_goroutines_meant pol gr eng db (fun u => (progs u).map AnyProg.spelled) (by
    intro u q hq
    obtain ⟨q', hq', rfl⟩ := List.mem_map.mp hq
    obtain ⟨a, b, _⟩ := anyprog_spelled eng db q' (ok u q' hq').1 (ok u q' hq').2
    exact ⟨a, b⟩) sched t i p.spelled (by rw [List.getElem?_map, hp]; rfl)
  rwa [(anyprog_spelled eng db p (ok t p hm).1 (ok t p hm).2).2.2] at this

/-- Programs that are not read as meant, of three kinds. -/
example : ∀ p ∈ [AnyProg.kind exSpell (.delete [[.not (.not (exIs c!"id" 3))]]), .delete ⟨c!"t", exSpell.wheres⟩, .kind exSpell .read],
    p.OK ∧ p.Settled ∧ ¬ p.Clear := by
  have hi : Ident c!"t" := exIdent (by decide)
  have h1 := exIs_ok (n := c!"id") (by decide) 1
  have h3 := exIs_ok (n := c!"id") (by decide) 3
  have h7 := exIs_ok (n := c!"a") (by decide) 7
  have hw : ∀ es ∈ exSpell.wheres, CondExp.OKL es := by
    intro es he
    simp only [exSpell, KindProg.wheres, KindProg.said, NSelectProg.wheres, KCall.said, List.filterMap_cons, List.filterMap_nil, NSCall.where?,
      List.mem_cons, List.not_mem_nil, or_false] at he
    rcases he with rfl | rfl
    · exact ⟨h7, h1, trivial⟩
    · exact ⟨⟨h3, ⟨h7, h1, trivial⟩, h7, trivial⟩, trivial⟩
  have hn : exSpell.wheres.flatten ≠ [] := by
    simp [exSpell, KindProg.wheres, KindProg.said, NSelectProg.wheres, KCall.said, NSCall.where?]
  have hok : exSpell.OK := by
    refine ⟨⟨hi, fun a ha => by cases ha⟩, ?_, by simp [exSpell, KCall.noFields, NSCall.isFields]⟩
    intro c hc
    simp only [exSpell, List.mem_cons, List.not_mem_nil, or_false] at hc
    rcases hc with rfl | rfl
    · exact ⟨h7, h1, trivial⟩
    · exact ⟨⟨h3, ⟨h7, h1, trivial⟩, h7, trivial⟩, trivial⟩
  have hc : wheresClear someRow exSpell.wheres = false := rfl
  intro p hp
  simp only [List.mem_cons, List.not_mem_nil, or_false] at hp
  rcases hp with rfl | rfl | rfl
  · refine ⟨⟨hok, hi, ?_, ?_⟩, trivial, ?_⟩
    · intro es he
      rcases List.mem_append.mp he with he | he
      · exact hw es he
      · simp only [List.mem_cons, List.not_mem_nil, or_false] at he
        subst he
        exact ⟨h3, trivial⟩
    · show (exSpell.wheres ++ _).flatten ≠ []
      rw [List.flatten_append]
      simp [hn]
    · have : wheresClear someRow (exSpell.wheres ++ [[.not (.not (exIs c!"id" 3))]]) = false := rfl
      show ¬ wheresClear someRow _ = true
      rw [this]
      decide
  · refine ⟨⟨hi, hw, hn⟩, trivial, ?_⟩
    show ¬ wheresClear someRow _ = true
    rw [hc]
    decide
  · refine ⟨⟨hok, trivial⟩, ?_, ?_⟩
    · simp [AnyProg.Settled, KindProg.Kept, exSpell, NSCall.isSetting]
    · rintro ⟨h, _⟩
      rw [hc] at h
      cases h

end Query
