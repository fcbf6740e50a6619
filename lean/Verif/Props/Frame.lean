import Verif.Proof.HeapText
import Verif.Props.Immutable
/-!
# C72: sharing changes elements of lists only
-/
namespace Query

/-- **C72.**  Whatever values the calls share and in whatever order they are extended: calls that succeed in memory succeed on
plain values, and each value agrees with the plain one in everything but the elements of its lists. -/
theorem C72_course (pol : Policy) (cs : List Call) (m : Mem) (hs : List HV) (h : runHeap pol Mem.empty [] cs = some (m, hs)) :
    ∃ ps, runPure [] cs = some ps ∧ hs.length = ps.length ∧
      ∀ (i : Nat) (x : HV) (p : PV), hs[i]? = some x → ps[i]? = some p → LikeV m x p := by
  obtain ⟨ps, hp, l⟩ := (agree_run0 pol cs).1 (m, hs) h
  exact ⟨ps, hp, l.1, l.2⟩

/-- **C72**, the other direction: calls that succeed on plain values succeed in memory, if none of them is `ApplyFieldSpec` or
`ApplyFieldTable` (which do not return on a group that contains itself). -/
theorem C72_runs (pol : Policy) (cs : List Call) (hna : ∀ c ∈ cs, c.noApply = true) (ps : List PV) (h : runPure [] cs = some ps) :
    ∃ m hs, runHeap pol Mem.empty [] cs = some (m, hs) := by
  obtain ⟨x, hx⟩ := (agree_run0 pol cs).2 hna ps h
  exact ⟨x.1, x.2, hx⟩

/-- **C72**, the guards: a build is refused for missing conditions, fields or table exactly when it is on the plain value. -/
theorem C72_guard (pol : Policy) (cs : List Call) (m : Mem) (hs : List HV) (ps : List PV)
    (h : runHeap pol Mem.empty [] cs = some (m, hs)) (hp : runPure [] cs = some ps) (i : Nat) (x : HV) (p : PV)
    (hx : hs[i]? = some x) (hi : ps[i]? = some p) (gr : Grow) (d : Nat) (par : Store Val) (e : GoErr) :
    x.look gr d ⟨m, par⟩ .build = .err e ↔ p.look .build = .err e := by
  obtain ⟨qs, hq, l⟩ := (agree_run0 pol cs).1 (m, hs) h
  rw [hp] at hq
  cases hq
  exact like_err (l.2 i x p hx hi) gr d _ e

/-- **C72**, the texts: a text that is built has the fields, the table, the number of joins, order keys and assignments, OFFSET,
LIMIT and the WHERE clause of the plain value; in particular a built UPDATE or DELETE always has a WHERE clause. -/
theorem C72_text (pol : Policy) (cs : List Call) (m : Mem) (hs : List HV) (ps : List PV)
    (h : runHeap pol Mem.empty [] cs = some (m, hs)) (hp : runPure [] cs = some ps) (i : Nat) (x : HV) (p : PV)
    (hx : hs[i]? = some x) (hi : ps[i]? = some p) (gr : Grow) (d : Nat) (par : Store Val) (m' : RMem) (sql : Str) (params : Sl)
    (e : x.look gr d ⟨m, par⟩ .build = .ok (m', .query sql params)) : Skeleton p sql := by
  obtain ⟨qs, hq, l⟩ := (agree_run0 pol cs).1 (m, hs) h
  rw [hp] at hq
  cases hq
  obtain ⟨sb, hb⟩ := run_bnd0 pol cs (m, hs) h
  exact like_text sb (hb i x hx) (l.2 i x p hx hi) gr d par m' sql params e

set_option maxHeartbeats 2000000 in
/-- A branching history in which a value does change (`C34_where_false`): the conditions of number 9 are not the plain ones,
all the rest is. -/
example : (runHeap goPolicy Mem.empty [] (wWhere ++ [.where_ 8 [4]])).isSome = true ∧
    textAt (wWhere ++ [.where_ 8 [4]]) 9 .build 12 = some c!"SELECT * FROM t WHERE a=$1 AND b=$2 AND c=$3 AND e=$4" ∧
    ((runPure [] (wWhere ++ [.where_ 8 [4]])).bind fun ps => ps[9]?.bind fun p => poutText (p.look .build)) =
      some c!"SELECT * FROM t WHERE a=$1 AND b=$2 AND c=$3 AND d=$4" := ⟨rfl, rfl, rfl⟩

/-- A refused statement: deleting from a select without conditions. -/
example : ∃ m hs x, runHeap goPolicy Mem.empty [] [.selectFrom (.str c!"t"), .deleteFrom 0] = some (m, hs) ∧ hs[1]? = some x ∧
    x.look goGrow 3 ⟨m, []⟩ .build = .err .noConditions := ⟨_, _, _, rfl, rfl, rfl⟩

/-- A call that fails in both: `Or` of a test for NULL. -/
example : runHeap goPolicy Mem.empty [] [.leaf (.null (newBase lAND false) ⟨c!"a", [], []⟩), .or 0 []] = none ∧
    runPure [] [.leaf (.null (newBase lAND false) ⟨c!"a", [], []⟩), .or 0 []] = none := ⟨rfl, rfl⟩

/-- Why the other direction leaves out the two calls: the group of `C47_cycle_false` contains itself. -/
example : runHeap goPolicy Mem.empty [] (wCycle ++ [.applyTable 8 c!"t"]) = none ∧
    (runPure [] (wCycle ++ [.applyTable 8 c!"t"])).isSome = true := ⟨rfl, rfl⟩

end Query
