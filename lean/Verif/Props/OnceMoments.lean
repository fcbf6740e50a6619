import Verif.Proof.OnceMoments
import Verif.Props.OnceThreads
/-!
# C75 for calls that overlap in time
-/
namespace Query

theorem unused_of {cs : List Call} {k i : Nat} (hi : i < k) (h : i ∉ usedIn (cs.take k)) : Unused cs k i := fun hl hm =>
  h (List.mem_filter.2 ⟨hm, by
    have : madeAsLeaf (cs.take k) i = madeAsLeaf cs i := by simp only [madeAsLeaf, List.getElem?_take_of_lt hi]
    rw [this, hl]; rfl⟩)

/-- **C75, calls that overlap.**  No value is used twice.  A call of the history, an Apply call or another, need not happen at one moment: the
values it is given were there at moment `j`, and it sees each cell of the memory as it was at some moment between `j` and `k`, its place in the
history, every cell at a moment of its own.  Then it returns the very value it returns at moment `k`, and makes the same writes, though other Apply calls may
have written into the memory in between. -/
theorem C75_overlapping_calls (pol : Policy) (cs : List Call) (once : UsedOnce cs) (ps : List PV) (h : runPure [] cs = some ps) (j k : Nat)
    (c : Call) (R : Mem) (hjk : j ≤ k) (hk : cs[k]? = some c) (ho : ∀ i ∈ c.operands, i < j) (g : Glimpse (memAt pol cs) j k R) :
    ∃ m hs m' v R', runHeap pol Mem.empty [] (cs.take k) = some (m, hs) ∧
      c.heap pol m hs = some (m', v) ∧ c.heap pol R hs = some (R', v) ∧ SameM m m' R R' := by
  obtain ⟨hs, m', v, R', h1, h2, h3, h4⟩ := once_call once h hjk hk ho g
  exact ⟨_, hs, m', v, R', h1, h2, h3, h4⟩

/-- **C75, reading while calls go on**: a value that was there at moment `j` and that no call before `k` uses up is read between `j` and `k`, each
cell at a moment of its own.  It reads as its plain value, in each of the six ways. -/
theorem C75_overlapping_reads (pol : Policy) (gr : Grow) (cs : List Call) (once : UsedOnce cs) (ps : List PV) (h : runPure [] cs = some ps)
    (i j k : Nat) (R : Mem) (hjk : j ≤ k) (hk : k ≤ cs.length) (hi : i < j) (hu : i ∉ usedIn (cs.take k)) (g : Glimpse (memAt pol cs) j k R) :
    ∃ p m hs x, ps[i]? = some p ∧ runHeap pol Mem.empty [] (cs.take k) = some (m, hs) ∧ hs[i]? = some x ∧
      ∀ l, ∃ D, ∀ d ≥ D, ∀ par, RepRes (fun a b => RepOut a.1 a.2 b) (x.look gr d ⟨R, par⟩ l) (p.look l) := by
  obtain ⟨m, hs, mo⟩ := once_at pol once h k hk
  obtain ⟨hsM, psM, A⟩ := mo.alive
  have lh : i < hs.length := by rw [A.lenH, List.length_take]; omega
  have lp : i < ps.length := by
    have := (runPure_prefix _ _ _ h).2
    simp at this; omega
  have sv := once_value once h hjk hk g mo hi (List.getElem?_eq_getElem lh) (List.getElem?_eq_getElem lp) (unused_of (by omega) hu)
  refine ⟨_, m, hs, _, List.getElem?_eq_getElem lp, mo.run, List.getElem?_eq_getElem lh, fun l => ⟨ps[i].depth, fun d hd par => ?_⟩⟩
  exact (look_serves gr d ⟨R, par⟩ _ _ (.inl ⟨sv.rep, hd⟩) l).imp fun a b q => q.2.1

/-- **C75, goroutines whose calls overlap**: no value goes into two calls, whosever they are.  Whatever the others do between the moment at
which its operands are there and the moment of the call, it returns the same value by the same writes. -/
theorem C75_goroutines_calls (pol : Policy) (cs : List Call) (prog : Nat → List Call) (P : Nat → List PV)
    (ap : OnceApart cs prog) (h : ∀ t, runPure [] (cs ++ prog t) = some (P t)) (sched : List Nat) (j k : Nat) (c : Call) (R : Mem) (hjk : j ≤ k)
    (hk : (cs ++ (weave cs.length prog sched).calls)[k]? = some c) (ho : ∀ i ∈ c.operands, i < j)
    (g : Glimpse (memAt pol (cs ++ (weave cs.length prog sched).calls)) j k R) :
    ∃ m hs m' v R', runHeap pol Mem.empty [] ((cs ++ (weave cs.length prog sched).calls).take k) = some (m, hs) ∧
      c.heap pol m hs = some (m', v) ∧ c.heap pol R hs = some (R', v) ∧ SameM m m' R R' := by
  have inv := turns_inv ap h sched
  obtain ⟨ps, hp, _⟩ := inv.pure
  exact C75_overlapping_calls pol _ inv.nod ps hp j k c R hjk hk ho g

/-- **C75, goroutines that read while others go on**: a value that no goroutine has used up by moment `k`, read between `j` and `k`, reads as it
does when its goroutine runs alone, in each of the six ways. -/
theorem C75_goroutines_reads (pol : Policy) (gr : Grow) (cs : List Call) (prog : Nat → List Call) (P : Nat → List PV)
    (ap : OnceApart cs prog) (h : ∀ t, runPure [] (cs ++ prog t) = some (P t)) (sched : List Nat) (t r j k : Nat) (R : Mem) (hjk : j ≤ k)
    (hk : k ≤ (cs ++ (weave cs.length prog sched).calls).length)
    (hr : r < cs.length + ((weave cs.length prog sched).own t).length)
    (hj : place cs.length ((weave cs.length prog sched).own t) r < j)
    (hu : place cs.length ((weave cs.length prog sched).own t) r ∉ usedIn ((cs ++ (weave cs.length prog sched).calls).take k))
    (g : Glimpse (memAt pol (cs ++ (weave cs.length prog sched).calls)) j k R) :
    ∃ p m hs x, (P t)[r]? = some p ∧ runHeap pol Mem.empty [] ((cs ++ (weave cs.length prog sched).calls).take k) = some (m, hs) ∧
      hs[place cs.length ((weave cs.length prog sched).own t) r]? = some x ∧
      ∀ l, ∃ D, ∀ d ≥ D, ∀ par, RepRes (fun a b => RepOut a.1 a.2 b) (x.look gr d ⟨R, par⟩ l) (p.look l) := by
  have inv := turns_inv ap h sched
  obtain ⟨ps, hp, hread⟩ := inv.pure
  have hlt : r < (P t).length := by
    have e := (runPure_prefix _ _ _ (h t)).2
    have := inv.le t
    simp only [List.length_append, List.length_nil] at e
    omega
  have hg := hread t r _ (by rw [List.getElem?_take_of_lt hr]; exact List.getElem?_eq_getElem hlt)
  obtain ⟨p, m, hs, x, e1, e2, e3, e4⟩ := C75_overlapping_reads pol gr _ inv.nod ps hp _ j k R hjk hk hj hu g
  rw [hg] at e1
  cases e1
  exact ⟨_, m, hs, x, List.getElem?_eq_getElem hlt, e2, e3, e4⟩

/-- The calls of two goroutines that give their groups tables: number 4 gives group 2 the table `t`, number 5 group 3 the table `u`. -/
def wGiven : List Call := wGroups ++ (weave 4 wGive [0, 1, 1, 0, 1, 0]).calls

/-- What goroutine 1 may see while number 4 is being made: the first of the two members of group 2 as it was, the second as it becomes. -/
def wTorn : Mem := { memAt goPolicy wGiven 5 with
  conds := (memAt goPolicy wGiven 5).conds.set 1 (((memAt goPolicy wGiven 4).conds.cells 1).take 1 ++ ((memAt goPolicy wGiven 5).conds.cells 1).drop 1) }

/-- The memory is as neither before the call nor after it. -/
example : ((wTorn.conds.cells 1).map fun h => match h with | .leaf c => c.render 0 | .group .. => .ok []) = [.ok c!"a=$1", .ok c!"t.b=$1"] ∧
    (((memAt goPolicy wGiven 4).conds.cells 1).map fun h => match h with | .leaf c => c.render 0 | .group .. => .ok []) = [.ok c!"a=$1", .ok c!"b=$1"] ∧
    (((memAt goPolicy wGiven 5).conds.cells 1).map fun h => match h with | .leaf c => c.render 0 | .group .. => .ok []) = [.ok c!"t.a=$1", .ok c!"t.b=$1"] := by
  decide +kernel

/-- It is a glimpse. -/
theorem torn_glimpse : Glimpse (memAt goPolicy wGiven) 4 5 wTorn := by
  refine ⟨⟨rfl, fun a i x hx => ?_⟩, ⟨rfl, fun _ _ _ _ => ⟨5, by decide, by decide, rfl⟩⟩,
    ⟨rfl, fun _ _ _ _ => ⟨5, by decide, by decide, rfl⟩⟩, ⟨rfl, fun _ _ _ _ => ⟨5, by decide, by decide, rfl⟩⟩,
    ⟨rfl, fun _ _ _ _ => ⟨5, by decide, by decide, rfl⟩⟩⟩
  match a, i with
  | 0, _ => exact ⟨5, by decide, by decide, rfl⟩
  | 1, 0 => exact ⟨4, by decide, by decide, rfl⟩
  | 1, _ + 1 => exact ⟨5, by decide, by decide, rfl⟩
  | _ + 2, _ => exact ⟨5, by decide, by decide, rfl⟩

/-- Number 5, an Apply call, seen in it. -/
example : ∃ m hs m' v R', runHeap goPolicy Mem.empty [] (wGiven.take 5) = some (m, hs) ∧
    (Call.applyTable 3 c!"u").heap goPolicy m hs = some (m', v) ∧ (Call.applyTable 3 c!"u").heap goPolicy wTorn hs = some (R', v) ∧
      SameM m m' wTorn R' :=
  C75_overlapping_calls goPolicy wGiven (by decide) _ rfl 4 5 _ wTorn (by decide) rfl (by decide) torn_glimpse

/-- Group 3 may be read in it; group 2, which is being used up, may not: there is a column with the table and one without. -/
theorem C75_torn_changes : 3 ∉ usedIn (wGiven.take 5) ∧ 2 ∈ usedIn (wGiven.take 5) ∧
    ((runHeap goPolicy Mem.empty [] (wGiven.take 5)).bind fun x => x.2[2]?).map (fun h => match h.look goGrow 3 ⟨wTorn, []⟩ (.render 0) with
      | .ok (_, .text s) => s
      | _ => []) = some c!"a=$1 AND t.b=$2" := by
  refine ⟨by decide, by decide, ?_⟩
  decide +kernel

end Query
