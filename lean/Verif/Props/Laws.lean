import Verif.Spec.Laws
import Verif.Props.Written
/-!
# C87: conditions that say the same may be exchanged
-/
namespace Query

/-! ## The laws -/

/-- Conjunction or disjunction. -/
def combine (o : Bool) (xs : List Tri) : Tri := if o then anyOf xs else allOf xs

/-- Of two. -/
def combine2 (o : Bool) (x y : Tri) : Tri := if o then x.or y else x.and y

theorem combine_cons (o : Bool) (x : Tri) (xs : List Tri) : combine o (x :: xs) = combine2 o x (combine o xs) := by
  cases o <;> rfl

theorem combine2_comm (o : Bool) (x y : Tri) : combine2 o x y = combine2 o y x := by
  cases o <;> cases x <;> cases y <;> rfl

theorem combine2_assoc (o : Bool) (x y z : Tri) : combine2 o (combine2 o x y) z = combine2 o x (combine2 o y z) := by
  cases o <;> cases x <;> cases y <;> cases z <;> rfl

theorem combine2_self (o : Bool) (x y : Tri) : combine2 o x (combine2 o x y) = combine2 o x y := by
  cases o <;> cases x <;> cases y <;> rfl

theorem combine_one (o : Bool) (x : Tri) : combine o [x] = x := by
  cases o <;> cases x <;> rfl

theorem combine_append (o : Bool) (xs ys : List Tri) : combine o (xs ++ ys) = combine2 o (combine o xs) (combine o ys) := by
  cases o
  · exact allOf_append xs ys
  · exact anyOf_append xs ys

theorem combine_perm {o : Bool} {xs ys : List Tri} (h : xs.Perm ys) : combine o xs = combine o ys := by
  induction h with
  | nil => rfl
  | cons x _ ih => rw [combine_cons, combine_cons, ih]
  | swap x y l => rw [combine_cons, combine_cons, combine_cons, combine_cons, ← combine2_assoc, ← combine2_assoc, combine2_comm o y x]
  | trans _ _ ih1 ih2 => exact ih1.trans ih2

theorem combine_not (o : Bool) : ∀ xs : List Tri, (combine o xs).not = combine (!o) (xs.map Tri.not)
  | [] => by cases o <;> rfl
  | x :: xs => by
    rw [List.map_cons, combine_cons, combine_cons, ← combine_not o xs]
    cases o <;> cases x <;> cases combine _ xs <;> rfl

theorem combine2_distrib (o : Bool) (x y z : Tri) :
    combine2 o x (combine2 (!o) y z) = combine2 (!o) (combine2 o x y) (combine2 o x z) := by
  cases o <;> cases x <;> cases y <;> cases z <;> rfl

theorem combine_distrib (o : Bool) (x : Tri) : ∀ (y : Tri) (ys : List Tri),
    combine2 o x (combine (!o) (y :: ys)) = combine (!o) (combine2 o x y :: ys.map (combine2 o x))
  | y, [] => by rw [List.map_nil, combine_one, combine_one]
  | y, z :: ys => by
    rw [combine_cons, combine2_distrib, combine_distrib o x z ys, ← combine_cons]
    rfl

theorem means_fn (row : Row) (o : Bool) (e : CondExp) (es : List CondExp) :
    (CondExp.fn o e es).means row = combine o (e.means row :: CondExp.meansL row es) := by
  cases o <;> rfl

theorem meansL_eq (row : Row) (es : List CondExp) : CondExp.meansL row es = es.map (CondExp.means row) := (meansL_map row es)

/-- **C87**, the laws: two conditions related by the laws should say the same of every row, and they name the same columns. -/
theorem C87_laws {a b : CondExp} (h : SameCond a b) :
    (∀ row, a.means row = b.means row) ∧ ∀ c, c ∈ a.tests.map Test.col ↔ c ∈ b.tests.map Test.col := by
  induction h with
  | refl a => exact ⟨fun _ => rfl, fun _ => Iff.rfl⟩
  | symm _ ih => exact ⟨fun r => (ih.1 r).symm, fun c => (ih.2 c).symm⟩
  | trans _ _ ih1 ih2 => exact ⟨fun r => (ih1.1 r).trans (ih2.1 r), fun c => (ih1.2 c).trans (ih2.2 c)⟩
  | inNot _ ih => exact ⟨fun r => by simp only [CondExp.means, ih.1 r], fun c => ih.2 c⟩
  | inFirst _ ih =>
    refine ⟨fun r => by rw [means_fn, means_fn, ih.1 r], fun c => ?_⟩
    simp only [CondExp.tests, List.map_append, List.mem_append, ih.2 c]
  | inMore _ ih =>
    refine ⟨fun r => ?_, fun c => ?_⟩
    · rw [means_fn, means_fn]
      simp only [meansL_eq, List.map_append, List.map_cons, ih.1 r]
    · simp only [CondExp.tests, testsL_flatMap, List.flatMap_append, List.flatMap_cons, List.map_append, List.mem_append, ih.2 c]
  | method => exact ⟨fun _ => rfl, fun _ => Iff.rfl⟩
  | @group o _ _ => exact ⟨fun r => by cases o <;> rfl, fun _ => Iff.rfl⟩
  | @joinAll o _ _ => exact ⟨fun r => by cases o <;> rfl, fun _ => Iff.rfl⟩
  | join => exact ⟨fun _ => rfl, fun _ => Iff.rfl⟩
  | brackets => exact ⟨fun _ => rfl, fun _ => Iff.rfl⟩
  | one =>
    refine ⟨fun r => by rw [means_fn]; exact combine_one _ _, fun c => ?_⟩
    simp only [CondExp.tests, CondExp.testsL, List.append_nil]
  | @order o a b es fs hp =>
    refine ⟨fun r => ?_, fun c => ?_⟩
    · rw [means_fn, means_fn, meansL_eq, meansL_eq, ← List.map_cons (f := CondExp.means r), ← List.map_cons (f := CondExp.means r)]
      exact combine_perm (hp.map _)
    · have e : ∀ (a : CondExp) es, (CondExp.fn o a es).tests = (a :: es).flatMap CondExp.tests := fun a es => by
        rw [CondExp.tests, testsL_flatMap, List.flatMap_cons]
      rw [e, e]
      exact ((hp.flatMap_right _).map _).mem_iff
  | @assoc o a es fs =>
    refine ⟨fun r => ?_, fun c => ?_⟩
    · rw [means_fn, means_fn, means_fn, combine_cons, combine_cons, combine_cons, combine2_assoc, ← combine_append]
      simp only [meansL_eq, List.map_append]
    · simp only [CondExp.tests, testsL_flatMap, List.flatMap_append, List.append_assoc]
  | @twice o a es =>
    refine ⟨fun r => ?_, fun c => ?_⟩
    · rw [means_fn, means_fn, CondExp.meansL, combine_cons, combine_cons, combine2_self]
    · simp only [CondExp.tests, CondExp.testsL, List.map_append, List.mem_append]
      exact ⟨fun h => h.elim .inl id, .inr⟩
  | @distrib o a b es =>
    refine ⟨fun r => ?_, fun c => ?_⟩
    · rw [means_fn, means_fn, CondExp.meansL, CondExp.meansL, means_fn, means_fn, combine_cons, combine_one, combine_distrib]
      congr 1
      congr 1
      · rw [CondExp.meansL, CondExp.meansL, combine_cons, combine_one]
      · rw [meansL_eq, meansL_eq, List.map_map, List.map_map]
        refine List.map_congr_left fun e _ => ?_
        simp only [Function.comp]
        rw [means_fn, CondExp.meansL, CondExp.meansL, combine_cons, combine_one]
    · simp only [CondExp.tests, testsL_flatMap, List.flatMap_cons, List.flatMap_nil, List.append_nil, List.map_append, List.mem_append,
        List.flatMap_map, List.mem_map, List.mem_flatMap]
      constructor
      · rintro (h | h | h)
        · exact .inl (.inl h)
        · exact .inl (.inr h)
        · obtain ⟨t, ⟨e, he, ht⟩, hc⟩ := h
          exact .inr ⟨t, ⟨e, he, .inr ht⟩, hc⟩
      · rintro ((h | h) | h)
        · exact .inl h
        · exact .inr (.inl h)
        · obtain ⟨t, ⟨e, he, ht⟩, hc⟩ := h
          rcases ht with ht | ht
          · exact .inl ⟨t, ht, hc⟩
          · exact .inr (.inr ⟨t, ⟨e, he, ht⟩, hc⟩)
  | @deMorgan o a es =>
    refine ⟨fun r => ?_, fun c => ?_⟩
    · rw [CondExp.means, means_fn, means_fn, combine_not, List.map_cons, CondExp.means]
      congr 2
      rw [meansL_eq, meansL_eq, List.map_map, List.map_map]
      rfl
    · simp only [CondExp.tests, testsL_flatMap, List.flatMap_map]
  | notNot => exact ⟨fun r => by simp only [CondExp.means]; cases CondExp.means r _ <;> rfl, fun _ => Iff.rfl⟩
  | @isIn c v x xs =>
    refine ⟨fun r => ?_, fun d => ?_⟩
    · rw [means_fn]
      simp only [CondExp.means, Test.says, meansL_eq, List.map_cons, List.map_map]
      rfl
    · simp only [CondExp.tests, testsL_flatMap, List.flatMap_map, List.map_cons, List.map_nil, List.mem_cons, List.not_mem_nil, or_false,
        List.map_append, List.mem_append, List.mem_map, List.mem_flatMap, Test.col]
      constructor
      · exact fun h => .inl h
      · rintro (h | ⟨t, ⟨y, _, ht⟩, hd⟩)
        · exact h
        · subst ht
          exact hd.symm
  | @isInTwo c v u u' ws ws' h1 h2 =>
    refine ⟨fun r => ?_, fun d => ?_⟩
    · rw [means_fn]
      simp only [CondExp.means, CondExp.meansL, Test.says, List.map_append, anyOf_append]
      rw [combine_cons, combine_one]
      rfl
    · simp [CondExp.tests, CondExp.testsL, Test.col]


/-! ## Programs -/

/-- Two lists of calls ask for the same things, with conditions that should say the same. -/
structure AskC (l l' : List NSCall) : Prop where
  fields : (l.map NSCall.flat).filterMap SCall.fields? = (l'.map NSCall.flat).filterMap SCall.fields?
  joins : (l.map NSCall.flat).filterMap SCall.join? = (l'.map NSCall.flat).filterMap SCall.join?
  keys : (l.map NSCall.flat).filterMap SCall.keys? = (l'.map NSCall.flat).filterMap SCall.keys?
  offset : (l.map NSCall.flat).filterMap SCall.offset? = (l'.map NSCall.flat).filterMap SCall.offset?
  limit : (l.map NSCall.flat).filterMap SCall.limit? = (l'.map NSCall.flat).filterMap SCall.limit?
  mean : ∀ row, wheresMean (l.filterMap NSCall.where?) row = wheresMean (l'.filterMap NSCall.where?) row
  cols : ∀ c, c ∈ ((l.filterMap NSCall.where?).flatMap CondExp.testsL).map Test.col ↔
    c ∈ ((l'.filterMap NSCall.where?).flatMap CondExp.testsL).map Test.col

theorem AskC.refl (l : List NSCall) : AskC l l := ⟨rfl, rfl, rfl, rfl, rfl, fun _ => rfl, fun _ => Iff.rfl⟩

theorem AskC.trans {l m n : List NSCall} (h : AskC l m) (k : AskC m n) : AskC l n :=
  ⟨h.fields.trans k.fields, h.joins.trans k.joins, h.keys.trans k.keys, h.offset.trans k.offset, h.limit.trans k.limit,
    fun r => (h.mean r).trans (k.mean r), fun c => (h.cols c).trans (k.cols c)⟩

theorem wheresMean_append (w w' : List (List CondExp)) (row : Row) :
    wheresMean (w ++ w') row = (wheresMean w row).and (wheresMean w' row) := by
  unfold wheresMean
  rw [List.flatten_append, meansL_eq, List.map_append, allOf_append, meansL_eq, meansL_eq]

theorem AskC.inside {m n : List NSCall} (pre post : List NSCall) (h : AskC m n) : AskC (pre ++ (m ++ post)) (pre ++ (n ++ post)) := by
  constructor
  · simp [h.fields]
  · simp [h.joins]
  · simp [h.keys]
  · simp [h.offset]
  · simp [h.limit]
  · intro row
    simp only [List.filterMap_append, wheresMean_append, h.mean row]
  · intro c
    simp only [List.filterMap_append, List.flatMap_append, List.map_append, List.mem_append, h.cols c]

/-- One Where call for another. -/
theorem AskC.where_ {es fs : List CondExp} (h : ∀ row, allOf (es.map (CondExp.means row)) = allOf (fs.map (CondExp.means row)))
    (hc : ∀ c, c ∈ (es.flatMap CondExp.tests).map Test.col ↔ c ∈ (fs.flatMap CondExp.tests).map Test.col) :
    AskC [.addWhere es] [.addWhere fs] := by
  refine ⟨rfl, rfl, rfl, rfl, rfl, fun row => ?_, fun c => ?_⟩
  · simp only [List.filterMap_cons, NSCall.where?, List.filterMap_nil, wheresMean, List.flatten_cons, List.flatten_nil, List.append_nil,
      meansL_eq, h row]
  · simp only [List.filterMap_cons, NSCall.where?, List.filterMap_nil, List.flatMap_cons, List.flatMap_nil, List.append_nil,
      testsL_flatMap, hc c]

theorem eff_at (post : List KCall) : ∀ pre : List KCall, ∃ m, ∀ es, KCall.eff (pre ++ .call (.addWhere es) :: post) = m ++ .addWhere es :: KCall.eff post
  | [] => ⟨[], fun _ => rfl⟩
  | .call c :: pre => by
    obtain ⟨m, hm⟩ := eff_at post pre
    have ha : ∀ es, (pre ++ KCall.call (.addWhere es) :: post).any KCall.isConv = (pre ++ post).any KCall.isConv := by
      intro es
      simp [KCall.isConv]
    by_cases h : (c.isSetting && (pre ++ post).any KCall.isConv) = true
    · refine ⟨m, fun es => ?_⟩
      rw [List.cons_append, KCall.eff, ha, if_pos h, hm]
    · refine ⟨c :: m, fun es => ?_⟩
      rw [List.cons_append, KCall.eff, ha, if_neg h, hm, List.cons_append]
  | .single :: pre => by
    obtain ⟨m, hm⟩ := eff_at post pre
    exact ⟨m, fun es => by simp only [List.cons_append, KCall.eff]; exact hm es⟩
  | .many :: pre => by
    obtain ⟨m, hm⟩ := eff_at post pre
    exact ⟨m, fun es => by simp only [List.cons_append, KCall.eff]; exact hm es⟩

/-- What a program asks for stays. -/
structure AskK (l l' : List KCall) : Prop where
  eff : AskC (KCall.eff l) (KCall.eff l')
  said : AskC (KCall.said l) (KCall.said l')
  ends : ∀ k, KCall.ends k l = KCall.ends k l'

theorem AskK.trans {l m n : List KCall} (h : AskK l m) (k : AskK m n) : AskK l n :=
  ⟨h.eff.trans k.eff, h.said.trans k.said, fun x => (h.ends x).trans (k.ends x)⟩

theorem AskK.at {es fs : List CondExp} (pre post : List KCall) (h : AskC [.addWhere es] [.addWhere fs]) :
    AskK (pre ++ .call (.addWhere es) :: post) (pre ++ .call (.addWhere fs) :: post) := by
  obtain ⟨m, hm⟩ := eff_at post pre
  have hs : ∀ es, KCall.said (pre ++ .call (.addWhere es) :: post) = KCall.said pre ++ ([.addWhere es] ++ KCall.said post) := by
    intro es
    unfold KCall.said
    rw [List.filterMap_append, List.filterMap_cons]
    rfl
  refine ⟨?_, ?_, fun k => ?_⟩
  · rw [hm, hm]
    exact h.inside m (KCall.eff post)
  · rw [hs, hs]
    exact h.inside _ _
  · unfold KCall.ends
    rw [List.foldl_append, List.foldl_append]
    rfl

theorem exchanged_cond {es fs : List CondExp} {a b : CondExp} (h : SameCond a b) :
    AskC [.addWhere (es ++ a :: fs)] [.addWhere (es ++ b :: fs)] := by
  obtain ⟨h1, h2⟩ := C87_laws h
  refine .where_ (fun row => ?_) fun c => ?_
  · simp only [List.map_append, List.map_cons, h1 row]
  · simp only [List.flatMap_append, List.flatMap_cons, List.map_append, List.mem_append, h2 c]

theorem exchanged_pack {es fs as : List CondExp} {a : CondExp} :
    AskC [.addWhere (es ++ .fn false a as :: fs)] [.addWhere (es ++ (a :: as) ++ fs)] := by
  refine .where_ (fun row => ?_) fun c => ?_
  · simp only [List.map_append, List.map_cons, allOf_append, means_fn, meansL_eq]
    rw [← List.map_cons (f := CondExp.means row), show allOf (combine false ((a :: as).map (CondExp.means row)) :: fs.map (CondExp.means row)) =
      (allOf ((a :: as).map (CondExp.means row))).and (allOf (fs.map (CondExp.means row))) from rfl]
    generalize allOf (es.map (CondExp.means row)) = x
    generalize allOf ((a :: as).map (CondExp.means row)) = y
    generalize allOf (fs.map (CondExp.means row)) = z
    cases x <;> cases y <;> cases z <;> rfl
  · simp only [List.flatMap_append, List.flatMap_cons, CondExp.tests, testsL_flatMap, List.append_assoc]

theorem AskC.symm {l m : List NSCall} (h : AskC l m) : AskC m l :=
  ⟨h.fields.symm, h.joins.symm, h.keys.symm, h.offset.symm, h.limit.symm, fun r => (h.mean r).symm, fun c => (h.cols c).symm⟩

theorem asks_exchanged {l l' : List KCall} (h : Exchanged l l') : AskK l l' := by
  induction h with
  | refl => exact ⟨.refl _, .refl _, fun _ => rfl⟩
  | cond _ hs ih => exact ih.trans (.at _ _ (exchanged_cond hs))
  | unpack _ ih => exact ih.trans (.at _ _ exchanged_pack)
  | pack _ ih => exact ih.trans (.at _ _ exchanged_pack.symm)

theorem knownIn_cols (sc : Scope) {ts us : List Test} (h : ∀ c, c ∈ ts.map Test.col ↔ c ∈ us.map Test.col) :
    knownIn sc (testClauses ts) = knownIn sc (testClauses us) := by
  unfold knownIn
  rw [testsOf_clauses, testsOf_clauses, Bool.eq_iff_iff]
  simp only [List.all_eq_true]
  constructor
  · intro H t ht
    obtain ⟨u, hu, he⟩ := List.mem_map.mp ((h t.col).mpr (List.mem_map_of_mem ht))
    rw [← he]
    exact H u hu
  · intro H t ht
    obtain ⟨u, hu, he⟩ := List.mem_map.mp ((h t.col).mp (List.mem_map_of_mem ht))
    rw [← he]
    exact H u hu

theorem askC_same {db : Db} {t : TabRef} {l l' : List NSCall} (A : AskC l l') (hl : (NSelectProg.mk t l).OK) (hl' : (NSelectProg.mk t l').OK) :
    (NSelectProg.mk t l').flat.known db = (NSelectProg.mk t l).flat.known db ∧
    ∀ S eng, (NSelectProg.mk t l').flat.rowsBy S eng db = (NSelectProg.mk t l).flat.rowsBy S eng db := by
  have ej : (NSelectProg.mk t l).flat.joins = (NSelectProg.mk t l').flat.joins := A.joins
  have ei : (NSelectProg.mk t l).flat.items = (NSelectProg.mk t l').flat.items := by
    unfold SelectProg.items NSelectProg.flat; simp only [A.fields]
  have ek : (NSelectProg.mk t l).flat.keys = (NSelectProg.mk t l').flat.keys := by
    unfold SelectProg.keys NSelectProg.flat; simp only [A.keys]
  have eo : (NSelectProg.mk t l).flat.offset = (NSelectProg.mk t l').flat.offset := by
    unfold SelectProg.offset NSelectProg.flat; simp only [A.offset]
  have el : (NSelectProg.mk t l).flat.limit = (NSelectProg.mk t l').flat.limit := by
    unfold SelectProg.limit NSelectProg.flat; simp only [A.limit]
  have es : (NSelectProg.mk t l).flat.scope db = (NSelectProg.mk t l').flat.scope db := by
    unfold SelectProg.scope; rw [ej]; rfl
  have en := knownIn_cols ((NSelectProg.mk t l').flat.scope db) A.cols
  refine ⟨?_, fun S eng => ?_⟩
  · unfold SelectProg.known
    rw [nselect_clauses hl, nselect_clauses hl', ej, ei, ek, es]
    unfold NSelectProg.wheres
    rw [en]
    rfl
  · unfold SelectProg.rowsBy
    rw [ej, ei, ek, eo, el]
    rfl

/-- **C87**, the rows: a program and the program with conditions exchanged by the laws read the same rows, on every database.

Missing for the full claim: programs in which a call does not do what its name says (`wheresClear`); see `C87_false`. -/
theorem C87_rows_partial (eng : Engine) (db : Db) (s : SelKind) (t : TabRef) (l l' : List KCall) (h : Exchanged l l')
    (hl : (KindProg.mk s t l).OK) (hl' : (KindProg.mk s t l').OK)
    (hc : wheresClear someRow (KindProg.mk s t l).wheres = true) (hc' : wheresClear someRow (KindProg.mk s t l').wheres = true) :
    ∃ b sql params b' sql' params', (KindProg.mk s t l).run = .ok b ∧ b.build = .ok (sql, params) ∧
      (KindProg.mk s t l').run = .ok b' ∧ b'.build = .ok (sql', params') ∧
      runQuery eng db sql params = runQuery eng db sql' params' := by
  have A := asks_exchanged h
  have T : ∀ l, (KindProg.mk s t l).OK → wheresClear someRow (KindProg.mk s t l).wheres = true →
      ∃ b sql params, (KindProg.mk s t l).run = .ok b ∧ b.build = .ok (sql, params) ∧
        runQuery eng db sql params = if (KindProg.mk s t l).eff.flat.known db then
          some ((KindProg.mk s t l).rowsBy (wheresMean (KindProg.mk s t l).wheres) eng db) else none := by
    intro l hl hc
    obtain ⟨h1, h2⟩ := wheres_clear _ (eff_wheres_eq (KindProg.mk s t l) ▸ nselect_wheres (eff_ok hl)) hc
    have := C81_rows_exact eng db _ hl
    rw [if_pos h1, h2] at this
    obtain ⟨b, sql, params, e1, e2, _, e3⟩ := this
    exact ⟨b, sql, params, e1, e2, e3⟩
  obtain ⟨b, sql, params, h1, h2, h3⟩ := T l hl hc
  obtain ⟨b', sql', params', h1', h2', h3'⟩ := T l' hl' hc'
  refine ⟨b, sql, params, b', sql', params', h1, h2, h1', h2', ?_⟩
  obtain ⟨e1, e2⟩ := askC_same (db := db) (t := t) A.eff (eff_ok hl) (eff_ok hl')
  have em : wheresMean (KindProg.mk s t l').wheres = wheresMean (KindProg.mk s t l).wheres := funext fun r => (A.said.mean r).symm
  have ek : (KindProg.mk s t l').kind = (KindProg.mk s t l).kind := (A.ends s).symm
  rw [h3, h3']
  unfold KindProg.rowsBy
  rw [em, ek]
  show _ = if (NSelectProg.mk t (KCall.eff l')).flat.known db = true then some (if _ then List.take 1 ((NSelectProg.mk t (KCall.eff l')).flat.rowsBy _ eng db) else (NSelectProg.mk t (KCall.eff l')).flat.rowsBy _ eng db) else none
  rw [e1, e2]
  rfl

/-- **C87**, `Count()`.  Missing: as in `C87_rows_partial`. -/
theorem C87_count_partial (eng : Engine) (db : Db) (s : SelKind) (t : TabRef) (l l' : List KCall) (h : Exchanged l l')
    (hl : (KindProg.mk s t l).OK) (hl' : (KindProg.mk s t l').OK)
    (hc : wheresClear someRow (KindProg.mk s t l).wheres = true) (hc' : wheresClear someRow (KindProg.mk s t l').wheres = true) :
    ∃ b c sql params b' c' sql' params', (KindProg.mk s t l).run = .ok b ∧ b.count = .ok c ∧ c.build = .ok (sql, params) ∧
      (KindProg.mk s t l').run = .ok b' ∧ b'.count = .ok c' ∧ c'.build = .ok (sql', params') ∧
      runQuery eng db sql params = runQuery eng db sql' params' := by
  have A := asks_exchanged h
  have T : ∀ l, (KindProg.mk s t l).OK → wheresClear someRow (KindProg.mk s t l).wheres = true →
      ∃ b c sql params, (KindProg.mk s t l).run = .ok b ∧ b.count = .ok c ∧ c.build = .ok (sql, params) ∧
        runQuery eng db sql params =
          if fromOK db t (NSelectProg.mk t (KCall.said l)).flat.joins && knownIn ((NSelectProg.mk t (KCall.said l)).flat.scope db) (testClauses (((KCall.said l).filterMap NSCall.where?).flatMap CondExp.testsL)) then
            some [[(c!"count", some (.uint ((fromRows eng db t (NSelectProg.mk t (KCall.said l)).flat.joins).filter fun env =>
              wheresMean ((KCall.said l).filterMap NSCall.where?) (eng.row env) == .t).length))]]
          else none := by
    intro l hl hc
    obtain ⟨h1, h2⟩ := wheres_clear _ (eff_wheres_eq (KindProg.mk s t l) ▸ nselect_wheres (eff_ok hl)) hc
    have := C81_count_exact eng db _ hl
    rw [if_pos h1, h2] at this
    obtain ⟨b, c, sql, params, e1, e2, e3, _, e4⟩ := this
    refine ⟨b, c, sql, params, e1, e2, e3, e4.trans ?_⟩
    rw [← eff_clauses, nselect_clauses (eff_ok hl), eff_wheres_eq]
    rfl
  obtain ⟨b, c, sql, params, h1, h2, h3, h4⟩ := T l hl hc
  obtain ⟨b', c', sql', params', h1', h2', h3', h4'⟩ := T l' hl' hc'
  refine ⟨b, c, sql, params, b', c', sql', params', h1, h2, h3, h1', h2', h3', ?_⟩
  have ej : (NSelectProg.mk t (KCall.said l)).flat.joins = (NSelectProg.mk t (KCall.said l')).flat.joins := A.said.joins
  have es : (NSelectProg.mk t (KCall.said l)).flat.scope db = (NSelectProg.mk t (KCall.said l')).flat.scope db := by
    unfold SelectProg.scope; rw [ej]; rfl
  have em : wheresMean ((KCall.said l).filterMap NSCall.where?) = wheresMean ((KCall.said l').filterMap NSCall.where?) :=
    funext fun r => A.said.mean r
  rw [h4, h4', ej, es, em, knownIn_cols _ A.said.cols]

/-- **C87**, `Delete()` of a select.  Missing: as in `C87_rows_partial`. -/
theorem C87_delete_partial (eng : Engine) (db : Db) (s : SelKind) (t : TabRef) (l l' : List KCall) (h : Exchanged l l')
    (hl : (KindProg.mk s t l).OK) (hl' : (KindProg.mk s t l').OK)
    (hn : (KindProg.mk s t l).wheres.flatten ≠ []) (hn' : (KindProg.mk s t l').wheres.flatten ≠ [])
    (hc : wheresClear someRow (KindProg.mk s t l).wheres = true) (hc' : wheresClear someRow (KindProg.mk s t l').wheres = true) :
    ∃ b sql params b' sql' params', (KindProg.mk s t l).run = .ok b ∧ b.delete.build = .ok (sql, params) ∧
      (KindProg.mk s t l').run = .ok b' ∧ b'.delete.build = .ok (sql', params') ∧
      runStmt eng db sql params = runStmt eng db sql' params' := by
  have A := asks_exchanged h
  have T : ∀ l, (KindProg.mk s t l).OK → (KindProg.mk s t l).wheres.flatten ≠ [] → wheresClear someRow (KindProg.mk s t l).wheres = true →
      ∃ b sql params, (KindProg.mk s t l).run = .ok b ∧ b.delete.build = .ok (sql, params) ∧
        runStmt eng db sql params = (NDeleteProg.flat ⟨t.name, (KCall.said l).filterMap NSCall.where?⟩).effectBy
          (wheresMean ((KCall.said l).filterMap NSCall.where?)) eng db := by
    intro l hl hn hc
    obtain ⟨d, sql, params, e1, e2, e3⟩ := C81_delete_rows_partial eng db _ hl [] (fun _ h => by cases h) (by rw [List.append_nil]; exact hn)
      (by rw [List.append_nil]; exact hc)
    rw [List.append_nil] at e3
    obtain ⟨b, hb, hd⟩ := Res.bind_eq_ok.mp e1
    cases hd
    exact ⟨b, sql, params, hb, e2, e3⟩
  obtain ⟨b, sql, params, h1, h2, h3⟩ := T l hl hn hc
  obtain ⟨b', sql', params', h1', h2', h3'⟩ := T l' hl' hn' hc'
  refine ⟨b, sql, params, b', sql', params', h1, h2, h1', h2', ?_⟩
  have e1 : ∀ w, (NDeleteProg.mk t.name w).flat.clauses = testClauses (w.flatMap CondExp.testsL) := testClauses_flatten
  have em : wheresMean ((KCall.said l).filterMap NSCall.where?) = wheresMean ((KCall.said l').filterMap NSCall.where?) :=
    funext fun r => A.said.mean r
  rw [h3, h3', em]
  unfold DeleteProg.effectBy
  rw [e1, e1]
  show (if knownIn [(t.name, (db t.name).cols)] _ = true then some (Db.set db t.name _) else _) =
    if knownIn [(t.name, (db t.name).cols)] _ = true then some (Db.set db t.name _) else _
  rw [knownIn_cols _ A.said.cols]
  rfl

theorem update_effect_same {S : Row → Tri} {eng : Engine} {db : Db} {p q : UpdateProg} (ht : p.table = q.table) (hs : p.sets = q.sets)
    (hk : knownIn [(q.table, (db q.table).cols)] p.clauses = knownIn [(q.table, (db q.table).cols)] q.clauses) :
    p.effectBy S eng db = q.effectBy S eng db := by
  unfold UpdateProg.effectBy
  rw [ht, hs]
  by_cases h : (q.sets.map (·.name)).Nodup ∧ (∀ s ∈ q.sets, s.name ∈ (db q.table).cols) ∧ knownIn [(q.table, (db q.table).cols)] q.clauses = true
  · rw [if_pos ⟨h.1, h.2.1, hk.trans h.2.2⟩, if_pos h]
  · rw [if_neg (fun H => h ⟨H.1, H.2.1, hk.symm.trans H.2.2⟩), if_neg h]

/-- **C87**, `Update(values…)` of a select.  Missing: as in `C87_rows_partial`. -/
theorem C87_update_partial (eng : Engine) (db : Db) (s : SelKind) (t : TabRef) (l l' : List KCall) (h : Exchanged l l')
    (hl : (KindProg.mk s t l).OK) (hl' : (KindProg.mk s t l').OK) (sets : List SetTo) (hs : ∀ x ∈ sets, x.OK) (hne : sets ≠ [])
    (hn : (KindProg.mk s t l).wheres.flatten ≠ []) (hn' : (KindProg.mk s t l').wheres.flatten ≠ [])
    (hc : wheresClear someRow (KindProg.mk s t l).wheres = true) (hc' : wheresClear someRow (KindProg.mk s t l').wheres = true) :
    ∃ vs b sql params b' sql' params', Res.mapL SetTo.call sets = .ok vs ∧
      (KindProg.mk s t l).run = .ok b ∧ (b.update vs).build = .ok (sql, params) ∧
      (KindProg.mk s t l').run = .ok b' ∧ (b'.update vs).build = .ok (sql', params') ∧
      runStmt eng db sql params = runStmt eng db sql' params' := by
  have A := asks_exchanged h
  have T : ∀ l, (KindProg.mk s t l).OK → (KindProg.mk s t l).wheres.flatten ≠ [] → wheresClear someRow (KindProg.mk s t l).wheres = true →
      ∃ vs b sql params, Res.mapL SetTo.call sets = .ok vs ∧ (KindProg.mk s t l).run = .ok b ∧ (b.update vs).build = .ok (sql, params) ∧
        runStmt eng db sql params = ((KindProg.mk s t l).changed sets).flat.effectBy (wheresMean ((KCall.said l).filterMap NSCall.where?)) eng db := by
    intro l hl hn hc
    obtain ⟨h1, h2⟩ := wheres_clear _ (eff_wheres_eq (KindProg.mk s t l) ▸ nselect_wheres (eff_ok hl)) hc
    have hr := C81_rows_exact eng db _ hl
    rw [if_pos h1] at hr
    obtain ⟨b, _, _, hb, _⟩ := hr
    obtain ⟨vs, sql, params, e1, e2, e3⟩ := update_of_select _ hl sets hs hne hn h1 hb
    refine ⟨vs, b, sql, params, e1, hb, e2, ?_⟩
    rw [e3, h2]
    rfl
  obtain ⟨vs, b, sql, params, hv, h1, h2, h3⟩ := T l hl hn hc
  obtain ⟨vs', b', sql', params', hv', h1', h2', h3'⟩ := T l' hl' hn' hc'
  cases hv.symm.trans hv'
  refine ⟨vs, b, sql, params, b', sql', params', hv, h1, h2, h1', h2', ?_⟩
  have em : wheresMean ((KCall.said l).filterMap NSCall.where?) = wheresMean ((KCall.said l').filterMap NSCall.where?) :=
    funext fun r => A.said.mean r
  rw [h3, h3', em]
  refine update_effect_same rfl ((changed_sets _ _).trans (changed_sets _ _).symm) ?_
  rw [nupdate_clauses, nupdate_clauses, changed_wheres, changed_wheres]
  exact knownIn_cols _ A.said.cols

/-- **C87**, the rows, for all conditions: the exchanged program reads what the first one would read with the text of the exchanged Where
calls for a condition, so nothing but that text can make a difference. -/
theorem C87_rows_exact (eng : Engine) (db : Db) (s : SelKind) (t : TabRef) (l l' : List KCall) (h : Exchanged l l')
    (hl : (KindProg.mk s t l).OK) (hl' : (KindProg.mk s t l').OK) :
    if wheresSound (KindProg.mk s t l').wheres then
      ∃ b sql params, (KindProg.mk s t l').run = .ok b ∧ b.build = .ok (sql, params) ∧
        runQuery eng db sql params = if (KindProg.mk s t l).eff.flat.known db then
          some ((KindProg.mk s t l).rowsBy (wheresText (KindProg.mk s t l').wheres) eng db) else none
    else (KindProg.mk s t l').run = .panic .nilDeref := by
  have A := asks_exchanged h
  have := C81_rows_exact eng db _ hl'
  split
  · rename_i hs
    rw [if_pos hs] at this
    obtain ⟨b, sql, params, h1, h2, _, h3⟩ := this
    refine ⟨b, sql, params, h1, h2, h3.trans ?_⟩
    obtain ⟨e1, e2⟩ := askC_same (db := db) (t := t) A.eff (eff_ok hl) (eff_ok hl')
    have ek : (KindProg.mk s t l').kind = (KindProg.mk s t l).kind := (A.ends s).symm
    unfold KindProg.rowsBy
    rw [ek]
    show (if (NSelectProg.mk t (KCall.eff l')).flat.known db = true then some (if _ then List.take 1 ((NSelectProg.mk t (KCall.eff l')).flat.rowsBy _ eng db) else (NSelectProg.mk t (KCall.eff l')).flat.rowsBy _ eng db) else none) = _
    rw [e1, e2]
    rfl
  · rename_i hs
    rw [if_neg hs] at this
    exact this

/-- **C81**, what a DELETE through a select does, for all conditions. -/
theorem C81_delete_exact (eng : Engine) (db : Db) (p : KindProg) (h : p.OK) (more : List (List CondExp))
    (hm : ∀ es ∈ more, CondExp.OKL es) (hn : (p.wheres ++ more).flatten ≠ []) :
    if wheresSound (p.wheres ++ more) then
      ∃ d sql params, (p.run.bind fun b => NDeleteProg.runAll b.delete more) = .ok d ∧ d.build = .ok (sql, params) ∧
        params = paramsOf (testClauses ((p.wheres ++ more).flatMap CondExp.testsL)) ∧
        runStmt eng db sql params =
          (NDeleteProg.flat ⟨p.table.name, p.wheres ++ more⟩).effectBy (wheresText (p.wheres ++ more)) eng db
    else (p.run.bind fun b => NDeleteProg.runAll b.delete more) = .panic .nilDeref := by
  have hw := eff_wheres_eq p ▸ nselect_wheres (eff_ok h)
  have := C78_delete_exact eng db ⟨p.table.name, p.wheres ++ more⟩
    ⟨h.table.1, fun es he => (List.mem_append.mp he).elim (hw es) (hm es), hn⟩
  rw [C81_delete p h more]
  split
  · rename_i hs
    rw [if_pos hs] at this
    obtain ⟨q, sql, e, h1, h2, _, _, h3⟩ := this
    exact ⟨q, sql, _, h1, h2, congrArg paramsOf (testClauses_flatten _), h3⟩
  · rename_i hs
    rw [if_neg hs] at this
    exact this

/-- **C81**, what an UPDATE through a select does, for all conditions. -/
theorem C81_update_exact (eng : Engine) (db : Db) (p : KindProg) (h : p.OK) (sets : List SetTo) (hs : ∀ s ∈ sets, s.OK) (hne : sets ≠ [])
    (hw : p.wheres.flatten ≠ []) :
    if wheresSound p.wheres then
      ∃ u sql params, (p.run.bind fun b => (Res.mapL SetTo.call sets).bind fun vs => .ok (b.update vs)) = .ok u ∧
        u.build = .ok (sql, params) ∧
        runStmt eng db sql params = (p.changed sets).flat.effectBy (wheresText p.wheres) eng db
    else (p.run.bind fun b => (Res.mapL SetTo.call sets).bind fun vs => .ok (b.update vs)) = .panic .nilDeref := by
  have hr := C81_rows_exact eng db p h
  split
  · rename_i hd
    rw [if_pos hd] at hr
    obtain ⟨b, _, _, hb, _⟩ := hr
    obtain ⟨vs, sql, params, e1, e2, e3⟩ := update_of_select p h sets hs hne hw hd hb
    exact ⟨b.update vs, sql, params, by rw [hb, Res.bind_ok, e1]; rfl, e2, e3 eng db⟩
  · rename_i hd
    rw [if_neg hd] at hr
    rw [hr]
    rfl

/-- **C87**, `Count()`, for all conditions. -/
theorem C87_count_exact (eng : Engine) (db : Db) (s : SelKind) (t : TabRef) (l l' : List KCall) (h : Exchanged l l')
    (hl : (KindProg.mk s t l).OK) (hl' : (KindProg.mk s t l').OK) :
    if wheresSound (KindProg.mk s t l').wheres then
      ∃ b c sql params, (KindProg.mk s t l').run = .ok b ∧ b.count = .ok c ∧ c.build = .ok (sql, params) ∧
        runQuery eng db sql params =
          if fromOK db t (KindProg.mk s t l).said.flat.joins &&
              knownIn ((KindProg.mk s t l).said.flat.scope db) (testClauses ((KindProg.mk s t l).wheres.flatMap CondExp.testsL)) then
            some [[(c!"count", some (.uint ((fromRows eng db t (KindProg.mk s t l).said.flat.joins).filter fun env =>
              wheresText (KindProg.mk s t l').wheres (eng.row env) == .t).length))]]
          else none
    else (KindProg.mk s t l').run = .panic .nilDeref := by
  have A := asks_exchanged h
  have := C81_count_exact eng db _ hl'
  split
  · rename_i hs
    rw [if_pos hs] at this
    obtain ⟨b, c, sql, params, e1, e2, e3, _, e4⟩ := this
    refine ⟨b, c, sql, params, e1, e2, e3, e4.trans ?_⟩
    rw [← eff_clauses, nselect_clauses (eff_ok hl'), eff_wheres_eq]
    have ej : (KindProg.mk s t l).said.flat.joins = (KindProg.mk s t l').said.flat.joins := A.said.joins
    have es : (KindProg.mk s t l).said.flat.scope db = (KindProg.mk s t l').said.flat.scope db := by
      unfold SelectProg.scope; rw [ej]; rfl
    have ec : ∀ c, c ∈ ((KindProg.mk s t l).wheres.flatMap CondExp.testsL).map Test.col ↔
        c ∈ ((KindProg.mk s t l').wheres.flatMap CondExp.testsL).map Test.col := A.said.cols
    rw [ej, es, knownIn_cols _ ec]
  · rename_i hs
    rw [if_neg hs] at this
    exact this

/-- **C87**, `Delete()` of a select, for all conditions. -/
theorem C87_delete_exact (eng : Engine) (db : Db) (s : SelKind) (t : TabRef) (l l' : List KCall) (h : Exchanged l l')
    (hl' : (KindProg.mk s t l').OK) (hn' : (KindProg.mk s t l').wheres.flatten ≠ []) :
    if wheresSound (KindProg.mk s t l').wheres then
      ∃ b sql params, (KindProg.mk s t l').run = .ok b ∧ b.delete.build = .ok (sql, params) ∧
        runStmt eng db sql params =
          (NDeleteProg.flat ⟨t.name, (KindProg.mk s t l).wheres⟩).effectBy (wheresText (KindProg.mk s t l').wheres) eng db
    else (KindProg.mk s t l').run = .panic .nilDeref := by
  have A := asks_exchanged h
  have hr := C81_rows_exact eng db _ hl'
  split
  · rename_i hs
    have := C81_delete_exact eng db _ hl' [] (fun _ h => by cases h) (by rw [List.append_nil]; exact hn')
    rw [List.append_nil, if_pos hs] at this
    obtain ⟨d, sql, params, e1, e2, _, e3⟩ := this
    obtain ⟨b, hb, hd⟩ := Res.bind_eq_ok.mp e1
    cases hd
    refine ⟨b, sql, params, hb, e2, e3.trans ?_⟩
    have e1 : ∀ w, (NDeleteProg.mk t.name w).flat.clauses = testClauses (w.flatMap CondExp.testsL) := testClauses_flatten
    have ec : ∀ c, c ∈ ((KindProg.mk s t l).wheres.flatMap CondExp.testsL).map Test.col ↔
        c ∈ ((KindProg.mk s t l').wheres.flatMap CondExp.testsL).map Test.col := A.said.cols
    unfold DeleteProg.effectBy
    rw [e1, e1]
    show (if knownIn [(t.name, (db t.name).cols)] _ = true then some (Db.set db t.name _) else _) =
      if knownIn [(t.name, (db t.name).cols)] _ = true then some (Db.set db t.name _) else _
    rw [knownIn_cols _ ec]
    rfl
  · rename_i hs
    rw [if_neg hs] at hr
    exact hr

/-- **C87**, `Update(values…)` of a select, for all conditions. -/
theorem C87_update_exact (eng : Engine) (db : Db) (s : SelKind) (t : TabRef) (l l' : List KCall) (h : Exchanged l l')
    (hl' : (KindProg.mk s t l').OK) (hn' : (KindProg.mk s t l').wheres.flatten ≠ []) (sets : List SetTo) (hs : ∀ x ∈ sets, x.OK)
    (hne : sets ≠ []) :
    if wheresSound (KindProg.mk s t l').wheres then
      ∃ b vs sql params, (KindProg.mk s t l').run = .ok b ∧ Res.mapL SetTo.call sets = .ok vs ∧ (b.update vs).build = .ok (sql, params) ∧
        runStmt eng db sql params = ((KindProg.mk s t l).changed sets).flat.effectBy (wheresText (KindProg.mk s t l').wheres) eng db
    else (KindProg.mk s t l').run = .panic .nilDeref := by
  have A := asks_exchanged h
  have hr := C81_rows_exact eng db _ hl'
  split
  · rename_i hd
    rw [if_pos hd] at hr
    obtain ⟨b, _, _, hb, _⟩ := hr
    obtain ⟨vs, sql, params, e1, e2, e3⟩ := update_of_select _ hl' sets hs hne hn' hd hb
    refine ⟨b, vs, sql, params, hb, e1, e2, (e3 eng db).trans ?_⟩
    refine update_effect_same rfl ((changed_sets _ _).trans (changed_sets _ _).symm) ?_
    rw [nupdate_clauses, nupdate_clauses, changed_wheres, changed_wheres]
    exact (knownIn_cols _ A.said.cols).symm
  · rename_i hd
    rw [if_neg hd] at hr
    exact hr

/-- `SelectFrom("t").Where(And(id = 1, Or(a = 7, id = 3))).Single()`. -/
def exLawA : List KCall := [.call (.addWhere [.fn false (exIs c!"id" 1) [.fn true (exIs c!"a" 7) [exIs c!"id" 3]]]), .single]

/-- `SelectFrom("t").Where(Or(And(id = 1, a = 7), And(id = 1, id = 3))).Single()`. -/
def exLawB : List KCall := [.call (.addWhere [.fn true (.fn false (exIs c!"id" 1) [exIs c!"a" 7]) [.fn false (exIs c!"id" 1) [exIs c!"id" 3]]]), .single]

/-- Multiplied out, the conditions have another text and read the same row. -/
example : Exchanged exLawA exLawB ∧ (KindProg.mk .base ⟨c!"t", none⟩ exLawA).OK ∧ (KindProg.mk .base ⟨c!"t", none⟩ exLawB).OK ∧
    wheresClear someRow (KindProg.mk .base ⟨c!"t", none⟩ exLawA).wheres = true ∧
    wheresClear someRow (KindProg.mk .base ⟨c!"t", none⟩ exLawB).wheres = true ∧
    (KindProg.mk .base ⟨c!"t", none⟩ exLawA).run.bind SelB.build =
      .ok (c!"SELECT * FROM t WHERE id=$1 AND (a=$2 OR id=$3) LIMIT 1", [.other 1, .other 7, .other 3]) ∧
    (KindProg.mk .base ⟨c!"t", none⟩ exLawB).run.bind SelB.build =
      .ok (c!"SELECT * FROM t WHERE (id=$1 AND a=$2) OR (id=$3 AND id=$4) LIMIT 1", [.other 1, .other 7, .other 1, .other 3]) := by
  have hi : Ident c!"t" := exIdent (by decide)
  have h1 := exIs_ok (n := c!"id") (by decide) 1
  have h3 := exIs_ok (n := c!"id") (by decide) 3
  have h7 := exIs_ok (n := c!"a") (by decide) 7
  refine ⟨.cond (pre := []) (es := []) (fs := []) (.refl _) .distrib, ⟨⟨hi, fun a ha => by cases ha⟩, ?_, by simp [exLawA, KCall.noFields, NSCall.isFields]⟩,
    ⟨⟨hi, fun a ha => by cases ha⟩, ?_, by simp [exLawB, KCall.noFields, NSCall.isFields]⟩, rfl, rfl, rfl, rfl⟩
  · intro c hc
    simp only [exLawA, List.mem_cons, List.not_mem_nil, or_false] at hc
    rcases hc with rfl | rfl
    · exact ⟨⟨h1, ⟨h7, h3, trivial⟩, trivial⟩, trivial⟩
    · exact trivial
  · intro c hc
    simp only [exLawB, List.mem_cons, List.not_mem_nil, or_false] at hc
    rcases hc with rfl | rfl
    · exact ⟨⟨⟨h1, h7, trivial⟩, ⟨h1, h3, trivial⟩, trivial⟩, trivial⟩
    · exact trivial

/-- **C87 is false** in general: `Where(Not(Not(a = 7)))` reads the rows on which `a = 7` does not hold. -/
theorem C87_false :
    let l : List KCall := [.call (.addWhere [.not (.not (exIs c!"a" 7))])]
    let l' : List KCall := [.call (.addWhere [exIs c!"a" 7])]
    Exchanged l l' ∧ (KindProg.mk .many ⟨c!"t", none⟩ l).OK ∧ (KindProg.mk .many ⟨c!"t", none⟩ l').OK ∧
    (KindProg.mk .many ⟨c!"t", none⟩ l).run.bind SelB.build = .ok (c!"SELECT * FROM t WHERE NOT a=$1", [.other 7]) ∧
    (KindProg.mk .many ⟨c!"t", none⟩ l').run.bind SelB.build = .ok (c!"SELECT * FROM t WHERE a=$1", [.other 7]) ∧
    (runBuilt exEng exDb ((KindProg.mk .many ⟨c!"t", none⟩ l).run.bind SelB.build)).map List.length = some 0 ∧
    (runBuilt exEng exDb ((KindProg.mk .many ⟨c!"t", none⟩ l').run.bind SelB.build)).map List.length = some 2 := by
  have hi : Ident c!"t" := exIdent (by decide)
  have h7 := exIs_ok (n := c!"a") (by decide) 7
  refine ⟨.cond (pre := []) (es := []) (fs := []) (.refl _) .notNot, ⟨⟨hi, fun a ha => by cases ha⟩, ?_, by simp [KCall.noFields, NSCall.isFields]⟩,
    ⟨⟨hi, fun a ha => by cases ha⟩, ?_, by simp [KCall.noFields, NSCall.isFields]⟩, rfl, rfl, rfl, rfl⟩
  · intro c hc
    simp only [List.mem_cons, List.not_mem_nil, or_false] at hc
    subst hc
    exact ⟨h7, trivial⟩
  · intro c hc
    simp only [List.mem_cons, List.not_mem_nil, or_false] at hc
    subst hc
    exact ⟨h7, trivial⟩

end Query
