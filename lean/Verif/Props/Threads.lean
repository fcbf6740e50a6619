import Verif.Proof.Threads
import Verif.Proof.HeapSafe
import Verif.Proof.Moments
import Verif.Props.Immutable
/-!
# C74: goroutines that share builders
-/
namespace Query

theorem nil_or_snoc {α : Type} (xs : List α) (n : Nat) (x : α) (h : xs[n]? = some x) : xs = xs.take n ++ x :: xs.drop (n + 1) := by
  have hl := (List.getElem?_eq_some_iff.1 h)
  obtain ⟨h1, rfl⟩ := hl
  rw [← List.drop_eq_getElem_cons h1, List.take_append_drop]

/-- **C74.**  Some values are made first; then goroutines go on, each with calls on these values and on values of its own, and keep
apart (`KeepApart`).  Whatever the order of their turns: every value a goroutine has made so far reads as it does when the goroutine
runs alone, and so do the values made first, in each of the six ways of reading, whatever room `append` leaves.

Partial: it holds when no two goroutines extend the same list of a shared value and none completes a join of another; without it the
claim is false (`C74_race_false`).  A call is one step here; `C74_moments_partial` and
`C74_reads_partial` are for calls that overlap, `C74_writes_partial` for what a call writes. -/
theorem C74_threads_partial (pol : Policy) (gr : Grow) (cs : List Call) (prog : Nat → List Call) (P : Nat → List PV)
    (ka : KeepApart cs prog) (hc : ∀ c ∈ cs, c.noApply = true) (hn : ∀ t, ∀ c ∈ prog t, c.noApply = true)
    (h : ∀ t, runPure [] (cs ++ prog t) = some (P t)) (sched : List Nat) (t i : Nat)
    (hi : i < cs.length + ((weave cs.length prog sched).own t).length) :
    ∃ p, (P t)[i]? = some p ∧ ∀ l,
      ReadsAs pol gr (cs ++ (weave cs.length prog sched).calls) (place cs.length ((weave cs.length prog sched).own t) i) l (p.look l) ∧
      ReadsAs pol gr (cs ++ prog t) i l (p.look l) := by
  have inv := weave_inv ka h sched
  obtain ⟨ps, hp, hread⟩ := inv.pure
  have hlt : i < (P t).length := by
    have e := (runPure_prefix _ _ _ (h t)).2
    have := inv.le t
    simp only [List.length_append, List.length_nil] at e
    omega
  refine ⟨(P t)[i], List.getElem?_eq_getElem hlt, fun l => ⟨?_, ?_⟩⟩
  · refine reads_of_run gr (run_lists pol _ ps ?_ inv.once.1 inv.once.2 hp) _ _ (hread t i _ ?_) l
    · intro c hc'
      rcases List.mem_append.1 hc' with h1 | h1
      · exact hc c h1
      · exact weave_noApply hn sched c h1
    · rw [List.getElem?_take_of_lt hi]; exact List.getElem?_eq_getElem hlt
  · refine reads_of_run gr (run_lists pol _ (P t) ?_ (ka.lists t) (ka.joins t) (h t)) _ _ (List.getElem?_eq_getElem hlt) l
    intro c hc'
    rcases List.mem_append.1 hc' with h1 | h1
    · exact hc c h1
    · exact hn t c h1

/-- **C74**, what is written: under the same conditions no call of the goroutines changes a cell that exists already, so that none
writes what another may be reading; only `On` writes the last join of the value it is called on. -/
theorem C74_writes_partial (pol : Policy) (cs : List Call) (prog : Nat → List Call) (P : Nat → List PV)
    (ka : KeepApart cs prog) (hc : ∀ c ∈ cs, c.noApply = true) (hn : ∀ t, ∀ c ∈ prog t, c.noApply = true)
    (h : ∀ t, runPure [] (cs ++ prog t) = some (P t)) (sched : List Nat) (k : Nat) (c : Call)
    (hk : (cs ++ (weave cs.length prog sched).calls)[k]? = some c) :
    ∃ m hs x, runHeap pol Mem.empty [] ((cs ++ (weave cs.length prog sched).calls).take k) = some (m, hs) ∧
      c.heap pol m hs = some x ∧ WritesNew m x.1 hs c := by
  have inv := weave_inv ka h sched
  obtain ⟨ps, hp, _⟩ := inv.pure
  have e := nil_or_snoc _ _ _ hk
  have e' : cs ++ (weave cs.length prog sched).calls = ((cs ++ (weave cs.length prog sched).calls).take k ++ [c]) ++
      (cs ++ (weave cs.length prog sched).calls).drop (k + 1) := by
    rw [List.append_assoc]; exact e
  have hl := inv.once.1
  have hj := inv.once.2
  rw [e'] at hl hj
  have hlen : k < (cs ++ (weave cs.length prog sched).calls).length := (List.getElem?_eq_some_iff.1 hk).1
  obtain ⟨qs, p, h1, h2⟩ := pure_at hp hk
  obtain ⟨m, hs, x, r1, r2, k4⟩ := last_lists pol _ c qs p (by
    intro d hd
    have : d ∈ cs ++ (weave cs.length prog sched).calls := by rw [e']; exact List.mem_append_left _ hd
    rcases List.mem_append.1 this with h1 | h1
    · exact hc d h1
    · exact weave_noApply hn sched d h1) hl.left hj.left h1 h2
  refine ⟨m, hs, x, r1, r2, ⟨fun a k x e => Le.get k4.lc e, fun a k x e => Le.get k4.ls e, fun a k x e => Le.get k4.lv e,
    fun a k x e => Le.get k4.ld e, fun a k x e => (k4.lj a k x e).imp id fun ⟨r, s, e1, e2, e3, e4⟩ => ?_⟩⟩
  cases hr : hs[r]? with
  | none => simp [slAt, hr] at e2
  | some y =>
    rw [slAt_of oj hr, joinsSl_eq] at e2
    exact ⟨r, y, s, e1, hr, by simpa using e2, e3, e4⟩

/-- The calls of goroutines that keep apart are calm. -/
theorem weave_calm {cs : List Call} {prog : Nat → List Call} {P : Nat → List PV}
    (ka : KeepApart cs prog) (hc : ∀ c ∈ cs, c.noApply = true) (hn : ∀ t, ∀ c ∈ prog t, c.noApply = true)
    (h : ∀ t, runPure [] (cs ++ prog t) = some (P t)) (sched : List Nat) :
    ∃ ps, Calm (cs ++ (weave cs.length prog sched).calls) ps := by
  have inv := weave_inv ka h sched
  obtain ⟨ps, hp, _⟩ := inv.pure
  refine ⟨ps, ⟨fun c hc' => ?_, inv.once.1, inv.once.2, hp⟩⟩
  rcases List.mem_append.1 hc' with h1 | h1
  · exact hc c h1
  · exact weave_noApply hn sched c h1

/-- **C74**, calls that overlap: a call need not happen at one moment.  The values it is given were there at moment `j`; whatever the
others do between `j` and the moment `k` of the call, if it sees each cell of the memory as it was at some moment in between, every cell at
a moment of its own (`Glimpse`), then it returns the very value it returns at moment `k`, and makes the same writes. -/
theorem C74_moments_partial (pol : Policy) (cs : List Call) (prog : Nat → List Call) (P : Nat → List PV)
    (ka : KeepApart cs prog) (hc : ∀ c ∈ cs, c.noApply = true) (hn : ∀ t, ∀ c ∈ prog t, c.noApply = true)
    (h : ∀ t, runPure [] (cs ++ prog t) = some (P t)) (sched : List Nat) (j k : Nat) (c : Call) (R : Mem) (hjk : j ≤ k)
    (hk : (cs ++ (weave cs.length prog sched).calls)[k]? = some c) (ho : ∀ i ∈ c.operands, i < j)
    (g : Glimpse (memAt pol (cs ++ (weave cs.length prog sched).calls)) j k R) :
    ∃ m hs m' v R', runHeap pol Mem.empty [] ((cs ++ (weave cs.length prog sched).calls).take k) = some (m, hs) ∧
      c.heap pol m hs = some (m', v) ∧ c.heap pol R hs = some (R', v) ∧ SameM m m' R R' := by
  obtain ⟨ps, ca⟩ := weave_calm ka hc hn h sched
  obtain ⟨hs, m', v, R', h1, h2, h3, h4⟩ := glimpse_call ca hjk hk ho g
  exact ⟨_, hs, m', v, R', h1, h2, h3, h4⟩

/-- **C74**, reading while others go on: a value that was there at moment `j` is read between `j` and `k`, each cell at a moment of its
own.  It reads as it does when its goroutine runs alone, in each of the six ways. -/
theorem C74_reads_partial (pol : Policy) (gr : Grow) (cs : List Call) (prog : Nat → List Call) (P : Nat → List PV)
    (ka : KeepApart cs prog) (hc : ∀ c ∈ cs, c.noApply = true) (hn : ∀ t, ∀ c ∈ prog t, c.noApply = true)
    (h : ∀ t, runPure [] (cs ++ prog t) = some (P t)) (sched : List Nat) (t i j k : Nat) (R : Mem) (hjk : j ≤ k)
    (hk : k ≤ (cs ++ (weave cs.length prog sched).calls).length)
    (hi : i < cs.length + ((weave cs.length prog sched).own t).length)
    (hj : place cs.length ((weave cs.length prog sched).own t) i < j)
    (g : Glimpse (memAt pol (cs ++ (weave cs.length prog sched).calls)) j k R) :
    ∃ p m hs x, (P t)[i]? = some p ∧ runHeap pol Mem.empty [] ((cs ++ (weave cs.length prog sched).calls).take k) = some (m, hs) ∧
      hs[place cs.length ((weave cs.length prog sched).own t) i]? = some x ∧
      ∀ l, ∃ D, ∀ d ≥ D, ∀ par, RepRes (fun a b => RepOut a.1 a.2 b) (x.look gr d ⟨R, par⟩ l) (p.look l) := by
  have inv := weave_inv ka h sched
  obtain ⟨ps, hp, hread⟩ := inv.pure
  have hlt : i < (P t).length := by
    have e := (runPure_prefix _ _ _ (h t)).2
    have := inv.le t
    simp only [List.length_append, List.length_nil] at e
    omega
  have hr := hread t i _ (by rw [List.getElem?_take_of_lt hi]; exact List.getElem?_eq_getElem hlt)
  obtain ⟨qs, ca⟩ := weave_calm ka hc hn h sched
  obtain rfl : qs = ps := Option.some.inj (ca.run.symm.trans hp)
  obtain ⟨m, hs, mo⟩ := ca.moment pol k
  obtain ⟨used, si, hus⟩ := mo.inv
  have lt : place cs.length ((weave cs.length prog sched).own t) i < hs.length := by
    rw [si.len, List.length_take]
    have := (List.getElem?_eq_some_iff.1 hr).1
    omega
  have hx := List.getElem?_eq_getElem lt
  have kd := si.kind _ _ _ hx (by rw [List.getElem?_take_of_lt (by omega)]; exact hr)
  refine ⟨(P t)[i], m, hs, _, List.getElem?_eq_getElem hlt, mo.run, hx, fun l => ⟨(P t)[i].depth, fun d hd par => ?_⟩⟩
  refine (look_serves gr d ⟨R, par⟩ _ _ ?_ l).imp fun a b q => q.2.1
  cases hxj : (hs[place cs.length ((weave cs.length prog sched).own t) i]).isJoiner with
  | true => exact .inr ⟨hxj, by rw [← kd]; exact hxj⟩
  | false => exact .inl ⟨(glimpse_value ca hjk hk g mo hj hx hr fun e => by rw [hxj] at e; cases e).1, hd⟩

/-- **C74**, the turns: a goroutine has made one call for each of its turns, until it has made all of them. -/
theorem C74_turns (n : Nat) (prog : Nat → List Call) (sched : List Nat) (t : Nat) :
    ((weave n prog sched).own t).length = min (sched.count t) (prog t).length ∧
      ∀ k g, ((weave n prog sched).own t)[k]? = some g → n ≤ g ∧
        ∃ c : Call, (prog t)[k]? = some c ∧
          (weave n prog sched).calls[g - n]? = some (c.rename (place n (((weave n prog sched).own t).take k))) := by
  have i := turn_inv n prog [] sched ⟨[], fun _ => []⟩ ⟨fun t => by simp, fun t k g h => by simp at h⟩
  rw [List.nil_append] at i
  exact ⟨i.len t, fun k g hg => i.made t k g hg⟩

/-- Two goroutines with a `Where` each on a select made before. -/
def wTwo : Nat → List Call
  | 0 => [.where_ 8 [3]]
  | 1 => [.where_ 8 [4]]
  | _ => []

/-- **C74** fails when two goroutines extend the same shared value: `q` has three conditions; goroutine 0 makes `x := q.Where(d)`, then
goroutine 1 `q.Where(e)`, and now `x` is built with `e` for `d`, unlike `x` after goroutine 0 alone. -/
theorem C74_race_false : weave 9 wTwo [0] = ⟨[.where_ 8 [3]], (weave 9 wTwo [0]).own⟩ ∧
    (weave 9 wTwo [0, 1]).calls = [.where_ 8 [3], .where_ 8 [4]] ∧ place 9 ((weave 9 wTwo [0, 1]).own 0) 9 = 9 ∧
    Changes goPolicy goGrow (wWhere.take 9 ++ wTwo 0) (wTwo 1) 9 .build :=
  ⟨rfl, rfl, rfl, C34_where_false⟩

/-- Conditions (0 to 2) and a select with a condition (4) made first. -/
def wShared : List Call := [.leaf (wEq c!"a"), .leaf (wEq c!"b"), .leaf (wEq c!"c"), .selectFrom (.str c!"t"), .where_ 3 [0]]

/-- Goroutine 0 adds conditions and asks for one row, goroutine 1 for an ordered page, goroutine 2 joins a table. -/
def wThree : Nat → List Call
  | 0 => [.where_ 4 [1], .where_ 5 [2], .single 6]
  | 1 => [.many 4, .orderBy 5 [wSort c!"d"], .limit 6 10]
  | 2 => [.joinTable 4 ⟨c!"u", []⟩ 0, .on 5 ⟨c!"x", c!"t", []⟩ ⟨c!"y", c!"u", []⟩]
  | _ => []

/-- They keep apart. -/
theorem three_apart : KeepApart wShared wThree := by
  have cases4 : ∀ (Q : Nat → Prop), Q 0 → Q 1 → Q 2 → (∀ n, Q (n + 3)) → ∀ t, Q t := fun Q a b c d t =>
    match t with
    | 0 => a
    | 1 => b
    | 2 => c
    | n + 3 => d n
  refine ⟨cases4 _ ?_ ?_ ?_ fun n => ?_, cases4 _ ?_ ?_ ?_ fun n => ?_, fun act ha t u hne x hx h1 h2 => ?_, fun t u hne x hx h1 h2 => ?_⟩
  · exact ⟨by decide, by decide, by decide, by decide⟩
  · exact ⟨by decide, by decide, by decide, by decide⟩
  · exact ⟨by decide, by decide, by decide, by decide⟩
  · exact ⟨by simp only [wThree]; decide, by simp only [wThree]; decide, by simp only [wThree]; decide, by simp only [wThree]; decide⟩
  · unfold JoinsOnce; decide
  · unfold JoinsOnce; decide
  · unfold JoinsOnce; decide
  · simp only [wThree]; unfold JoinsOnce; decide
  · have key : ∀ act ∈ [Call.condsAct, Call.joinsAct, Call.sortsAct, Call.valsAct], ∀ t, t ≠ 0 →
        ∀ x ∈ extends_ act wShared (wThree t), wShared.length ≤ x := by
      intro act ha
      refine cases4 _ (fun h => absurd rfl h) (fun _ => ?_) (fun _ => ?_) (fun n _ => ?_)
      · simp only [List.mem_cons, List.not_mem_nil, or_false] at ha
        rcases ha with rfl | rfl | rfl | rfl <;> decide
      · simp only [List.mem_cons, List.not_mem_nil, or_false] at ha
        rcases ha with rfl | rfl | rfl | rfl <;> decide
      · simp only [List.mem_cons, List.not_mem_nil, or_false] at ha
        simp only [wThree]
        rcases ha with rfl | rfl | rfl | rfl <;> decide
    by_cases ht : t = 0
    · have := key act ha u (fun e => hne (ht.trans e.symm)) x h2; omega
    · have := key act ha t ht x h1; omega
  · have key : ∀ t, ∀ x ∈ (wThree t).filterMap Call.completes, wShared.length ≤ x := by
      refine cases4 _ ?_ ?_ ?_ fun n => ?_
      · decide
      · decide
      · decide
      · simp only [wThree]; decide
    have := key t x h1; omega

/-- Goroutine 0 does extend the list of number 4. -/
example : 4 ∈ extends_ Call.condsAct wShared (wThree 0) := by decide

/-- Their calls succeed by themselves. -/
theorem three_run : ∀ t, ∃ ps, runPure [] (wShared ++ wThree t) = some ps
  | 0 => ⟨_, rfl⟩
  | 1 => ⟨_, rfl⟩
  | 2 => ⟨_, rfl⟩
  | _ + 3 => ⟨_, rfl⟩

/-- A schedule: the calls in turn, and what the values of the three read as at the end. -/
example : (weave 5 wThree [1, 0, 2, 0, 1, 2, 0, 1]).calls = [.many 4, .where_ 4 [1], .joinTable 4 ⟨c!"u", []⟩ 0, .where_ 6 [2],
      .orderBy 5 [wSort c!"d"], .on 7 ⟨c!"x", c!"t", []⟩ ⟨c!"y", c!"u", []⟩, .single 8, .limit 9 10] ∧
    (weave 5 wThree [1, 0, 2, 0, 1, 2, 0, 1]).own 0 = [6, 8, 11] ∧ (weave 5 wThree [1, 0, 2, 0, 1, 2, 0, 1]).own 1 = [5, 9, 12] ∧
    (weave 5 wThree [1, 0, 2, 0, 1, 2, 0, 1]).own 2 = [7, 10] := ⟨rfl, rfl, rfl, rfl⟩

set_option maxHeartbeats 2000000 in
example : let cs := wShared ++ (weave 5 wThree [1, 0, 2, 0, 1, 2, 0, 1]).calls
    textAt cs 11 .build 12 = some c!"SELECT * FROM t WHERE a=$1 AND b=$2 AND c=$3 LIMIT 1" ∧
    textAt cs 12 .build 12 = some c!"SELECT * FROM t WHERE a=$1 ORDER BY d ASC LIMIT $2" ∧
    textAt cs 10 .build 12 = some c!"SELECT * FROM t INNER JOIN u ON t.x=u.y WHERE a=$1" := by decide +kernel

/-- A schedule: goroutine 2 completes its join (8) just before goroutine 0 asks for one row (9). -/
def wOverlap : List Call := wShared ++ (weave 5 wThree [0, 0, 2, 2, 0]).calls

/-- What goroutine 0 may see there: the joins as they were before `On`, all else as it is after. -/
def wMixed : Mem := { memAt goPolicy wOverlap 9 with joins := (memAt goPolicy wOverlap 8).joins }

example : wOverlap.drop 5 = [.where_ 4 [1], .where_ 5 [2], .joinTable 4 ⟨c!"u", []⟩ 0, .on 7 ⟨c!"x", c!"t", []⟩ ⟨c!"y", c!"u", []⟩, .single 6] := rfl

/-- The two moments differ in the joins. -/
example : (memAt goPolicy wOverlap 8).joins.length = 2 ∧ (memAt goPolicy wOverlap 8).joins.cells 1 ≠ (memAt goPolicy wOverlap 9).joins.cells 1 := by
  decide +kernel

/-- It is a glimpse. -/
theorem mixed_glimpse : Glimpse (memAt goPolicy wOverlap) 8 9 wMixed :=
  ⟨⟨rfl, fun _ _ _ _ => ⟨9, by decide, by decide, rfl⟩⟩, ⟨rfl, fun _ _ _ _ => ⟨8, by decide, by decide, rfl⟩⟩,
    ⟨rfl, fun _ _ _ _ => ⟨9, by decide, by decide, rfl⟩⟩, ⟨rfl, fun _ _ _ _ => ⟨9, by decide, by decide, rfl⟩⟩,
    ⟨rfl, fun _ _ _ _ => ⟨9, by decide, by decide, rfl⟩⟩⟩

/-- The case meets the hypotheses. -/
example : ∃ m hs m' v R', runHeap goPolicy Mem.empty [] (wOverlap.take 9) = some (m, hs) ∧
    (Call.single 6).heap goPolicy m hs = some (m', v) ∧ (Call.single 6).heap goPolicy wMixed hs = some (R', v) ∧ SameM m m' wMixed R' :=
  C74_moments_partial goPolicy wShared wThree (fun t => ((runPure [] (wShared ++ wThree t)).getD []))
    three_apart (by decide) (fun t => match t with | 0 => by decide | 1 => by decide | 2 => by decide | n + 3 => by intro c hc; cases hc)
    (fun t => by obtain ⟨ps, h⟩ := three_run t; rw [h]; rfl) [0, 0, 2, 2, 0] 8 9 (.single 6) wMixed (by decide) rfl (by decide) mixed_glimpse

end Query
