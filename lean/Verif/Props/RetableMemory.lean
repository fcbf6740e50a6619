import Verif.Proof.RetableMemory
import Verif.Props.Retable
import Verif.Props.Once
/-!
# C89 in memory

`ApplyFieldTable` and `ApplyFieldSpec` write into the arrays of their receiver (group.go:309-324).  Programs that use every condition once may
call them all the same.
-/
namespace Query

/-- **C89 in memory**: programs one after another in one memory, with `append` choosing any capacities, and with `ApplyFieldTable` and
`ApplyFieldSpec` anywhere in their conditions.  All calls return; when all are done, the select of every program builds a query that reads the
rows on which its conditions hold, each looking at the columns it was given, and builds the same each time it is asked.  What is missing is
as in `C89_rows_partial`; conditions that go into two calls are another matter (`C75_twice_changes`). -/
theorem C89_memory_partial (pol : Policy) (gr : Grow) (eng : Engine) (db : Db) (l : List ApProg)
    (ok : ∀ p ∈ l, p.OK ∧ KindProg.Kept p.start (p.calls.map ApCall.plain) ∧ wheresClear someRow p.plain.wheres = true) :
    ∃ m hs, runHeap pol Mem.empty [] (ApProg.traceAll 0 l).1 = some (m, hs) ∧
      ∀ (i : Nat) (p : ApProg), l[i]? = some p →
        ∃ r x, (ApProg.traceAll 0 l).2[i]? = some r ∧ hs[r]? = some x ∧ x.Builds gr m fun sql params =>
          runQuery eng db sql params =
            if p.plain.said.flat.known db then some (p.plain.askedBy (fun row => p.means row) eng db) else none := by
  obtain ⟨ps, h1, h2⟩ := ApProg.traceAll_gives l 0 [] rfl fun p hp => by
    obtain ⟨b, _, _, h, _⟩ := C89_rows_partial eng db p (ok p hp).1 (ok p hp).2.1 (ok p hp).2.2
    exact ⟨(ok p hp).1, b, h⟩
  have on := ApProg.traceAll_once l 0
  have once : UsedOnce (ApProg.traceAll 0 l).1 := List.Nodup.sublist List.filter_sublist on.own.1
  obtain ⟨m, hs, h3, h4⟩ := C75_runs pol _ once ps h1
  refine ⟨m, hs, h3, fun i p hp => ?_⟩
  obtain ⟨r, b, k1, k2, k3⟩ := h2 i p hp
  have hu : r ∉ usedIn (ApProg.traceAll 0 l).1 := fun hm => on.free r (List.mem_of_getElem? k1) (List.mem_filter.1 hm).1
  obtain ⟨m', hs', x, e1, e2, D, e3⟩ := once_reads pol gr _ ps once h1 r _ hu k2 .build
  rw [h3] at e1
  cases e1
  refine ⟨r, x, k1, e2, ?_⟩
  have okp := ok p (List.mem_of_getElem? hp)
  obtain ⟨b', sql, params, g1, g2, g3⟩ := C89_rows_partial eng db p okp.1 okp.2.1 okp.2.2
  rw [k3] at g1
  cases g1
  have lk : b.pv.look .build = .ok (.query sql params) := by
    cases b <;> (simp only [SelB.build] at g2; simp only [SelB.pv, PV.look, BaseSelect.look, g2, POut.ofQuery]; rfl)
  rw [lk] at e3
  refine ⟨sql, params, g3, D, fun d hd par => ?_⟩
  have := e3 d hd par
  generalize HV.look gr d ⟨m, par⟩ x .build = res at this ⊢
  match res with
  | .ok (m1, .query s sl) => exact ⟨m1, sl, by rw [this.1], this.2.2.2⟩
  | .ok (_, .text _) => exact this.elim
  | .ok (_, .vals _) => exact this.elim
  | .ok (_, .conds _) => exact this.elim
  | .ok (_, .defs _) => exact this.elim
  | .err _ => exact this.elim
  | .panic _ => exact this.elim

/-- The program of C89, twice: thirteen values each, the last of them the selects. -/
example : (∀ p ∈ [exApplied, exApplied], p.OK ∧ KindProg.Kept p.start (p.calls.map ApCall.plain) ∧ wheresClear someRow p.plain.wheres = true) ∧
    (ApProg.traceAll 0 [exApplied, exApplied]).2 = [12, 25] ∧
    ((ApProg.traceAll 0 [exApplied, exApplied]).1.filter fun c => !c.noApply).length = 4 := by
  refine ⟨fun p hp => ?_, rfl, rfl⟩
  simp only [List.mem_cons, List.not_mem_nil, or_false, or_self] at hp
  subst hp
  exact ⟨exApplied_ok.1, exApplied_ok.2.1, exApplied_ok.2.2.1⟩

end Query
