import Verif.Proof.OnceThreads
import Verif.Props.RetableMemory
import Verif.Props.MemoryThreads
/-!
# C75 and C89 in goroutines

Goroutines that use every value once may call `ApplyFieldTable` and `ApplyFieldSpec`.
-/
namespace Query

/-- **C75, goroutines.**  Some values are made first, then goroutines go on, a call at a time in any order of turns, and no value goes into two
calls, whosever they are.  Then, with Apply calls among theirs, every value that was not used up reads as it does when the goroutine that made it
runs alone, in each of the six ways. -/
theorem C75_goroutines (pol : Policy) (gr : Grow) (cs : List Call) (prog : Nat → List Call) (P : Nat → List PV)
    (ap : OnceApart cs prog) (h : ∀ t, runPure [] (cs ++ prog t) = some (P t)) (sched : List Nat) (t r : Nat)
    (hr : r < cs.length + ((weave cs.length prog sched).own t).length)
    (hu : ∀ u, u = t ∨ r < cs.length → r ∉ usedIn (cs ++ prog u)) :
    ∃ p, (P t)[r]? = some p ∧ ∀ l,
      ReadsAs pol gr (cs ++ (weave cs.length prog sched).calls) (place cs.length ((weave cs.length prog sched).own t) r) l (p.look l) ∧
      ReadsAs pol gr (cs ++ prog t) r l (p.look l) := by
  have inv := turns_inv ap h sched
  obtain ⟨ps, hp, hread⟩ := inv.pure
  have hlt : r < (P t).length := by
    have e := (runPure_prefix _ _ _ (h t)).2
    have := inv.le t
    simp only [List.length_append, List.length_nil] at e
    omega
  refine ⟨(P t)[r], List.getElem?_eq_getElem hlt, fun l => ⟨?_, ?_⟩⟩
  · exact once_reads pol gr _ ps inv.nod hp _ _ (inv.unused h hr hu)
      (hread t r _ (by rw [List.getElem?_take_of_lt hr]; exact List.getElem?_eq_getElem hlt)) l
  · exact once_reads pol gr _ _ (ap.once t) (h t) _ _ (hu t (.inl rfl)) (List.getElem?_eq_getElem hlt) l

/-- Conditions on `a` and `b`, and two groups of them, made first. -/
def wGroups : List Call := [.leaf (wEq c!"a"), .leaf (wEq c!"b"), .andF 0 [1], .orF 0 [1]]

/-- Each goroutine gives one of the groups a table, and selects by it and by the condition on `a`. -/
def wGive : Nat → List Call
  | 0 => [.applyTable 2 c!"t", .selectFrom (.str c!"t"), .where_ 5 [4, 0]]
  | 1 => [.applyTable 3 c!"u", .selectFrom (.str c!"u"), .where_ 5 [4, 0]]
  | _ => []

/-- They share no group; the selects are not used up. -/
theorem give_apart : OnceApart wGroups wGive := by
  have cases3 : ∀ (Q : Nat → Prop), Q 0 → Q 1 → (∀ n, Q (n + 2)) → ∀ t, Q t := fun Q a b c t =>
    match t with
    | 0 => a
    | 1 => b
    | n + 2 => c n
  refine ⟨cases3 _ (by decide) (by decide) (fun n => by simp only [wGive]; decide), ?_⟩
  refine cases3 _ (cases3 _ (fun h => absurd rfl h) (fun _ => by decide) fun n _ => ?_)
    (cases3 _ (fun _ => by decide) (fun h => absurd rfl h) fun n _ => ?_) (fun n => fun _ _ x _ _ hx => ?_)
  · exact fun x _ _ _ h => by simp [wGive] at h
  · exact fun x _ _ _ h => by simp [wGive] at h
  · simp [wGive] at hx

example : OnceApart wGroups wGive ∧ (∀ t, ∃ ps, runPure [] (wGroups ++ wGive t) = some ps) ∧
    (weave 4 wGive [0, 1, 1, 0, 1, 0]).calls =
      [.applyTable 2 c!"t", .applyTable 3 c!"u", .selectFrom (.str c!"u"), .selectFrom (.str c!"t"), .where_ 6 [5, 0], .where_ 7 [4, 0]] ∧
    place 4 ((weave 4 wGive [0, 1, 1, 0, 1, 0]).own 0) 6 = 9 ∧ (∀ u, u = 0 ∨ 6 < 4 → 6 ∉ usedIn (wGroups ++ wGive u)) := by
  refine ⟨give_apart, fun t => ?_, rfl, rfl, fun u hu => ?_⟩
  · match t with
    | 0 => exact ⟨_, rfl⟩
    | 1 => exact ⟨_, rfl⟩
    | n + 2 => exact ⟨_, rfl⟩
  · rcases hu with rfl | hu
    · decide
    · omega

/-- **C89 in goroutines**: goroutines run lists of such programs of their own, a call at a time, in any order of turns.  When a goroutine has
come to the select of one of its programs, that select builds a query that reads the rows on which the conditions hold, each looking at the
columns it was given, whatever the others do.  What is missing is as in `C89_rows_partial`. -/
theorem C89_goroutines_partial (pol : Policy) (gr : Grow) (eng : Engine) (db : Db) (progs : Nat → List ApProg)
    (ok : ∀ t, ∀ p ∈ progs t, p.OK ∧ KindProg.Kept p.start (p.calls.map ApCall.plain) ∧ wheresClear someRow p.plain.wheres = true)
    (sched : List Nat) (t i : Nat) (p : ApProg) (hp : (progs t)[i]? = some p) :
    ∃ r, (ApProg.traceAll 0 (progs t)).2[i]? = some r ∧
      (r < ((weave 0 (fun u => (ApProg.traceAll 0 (progs u)).1) sched).own t).length →
        ∃ m hs x, runHeap pol Mem.empty [] (weave 0 (fun u => (ApProg.traceAll 0 (progs u)).1) sched).calls = some (m, hs) ∧
          hs[place 0 ((weave 0 (fun u => (ApProg.traceAll 0 (progs u)).1) sched).own t) r]? = some x ∧ x.Builds gr m fun sql params =>
            runQuery eng db sql params =
              if p.plain.said.flat.known db then some (p.plain.askedBy (fun row => p.means row) eng db) else none) := by
  have on := fun u => ApProg.traceAll_once (progs u) 0
  have gv := fun u => ApProg.traceAll_gives (progs u) 0 [] rfl fun p hp => by
    obtain ⟨b, _, _, h, _⟩ := C89_rows_partial eng db p (ok u p hp).1 (ok u p hp).2.1 (ok u p hp).2.2
    exact ⟨(ok u p hp).1, b, h⟩
  obtain ⟨r, b, k1, k2, k3⟩ := (gv t).choose_spec.2 i p hp
  refine ⟨r, k1, fun hr => ?_⟩
  have ap : OnceApart [] (fun u => (ApProg.traceAll 0 (progs u)).1) :=
    ⟨fun u => List.Nodup.sublist List.filter_sublist (on u).own.1, fun _ _ _ x hx => absurd hx (Nat.not_lt_zero x)⟩
  obtain ⟨y, h1, h2⟩ := C75_goroutines pol gr [] (fun u => (ApProg.traceAll 0 (progs u)).1) (fun u => (gv u).choose) ap
    (fun u => (gv u).choose_spec.1) sched t r (by simpa using hr) (fun u hu => by
      rcases hu with rfl | hu
      · exact fun hm => (on u).free r (List.mem_of_getElem? k1) (List.mem_filter.1 hm).1
      · exact absurd hu (Nat.not_lt_zero r))
  rw [k2] at h1
  cases h1
  have okp := ok t p (List.mem_of_getElem? hp)
  obtain ⟨b', sql, params, g1, g2, g3⟩ := C89_rows_partial eng db p okp.1 okp.2.1 okp.2.2
  rw [k3] at g1
  cases g1
  have lk : b.pv.look .build = .ok (.query sql params) := by
    cases b <;> (simp only [SelB.build] at g2; simp only [SelB.pv, PV.look, BaseSelect.look, g2, POut.ofQuery]; rfl)
  have := (h2 .build).1
  rw [lk] at this
  exact readsAs_builds this g3

/-- Two goroutines with the program of C89 each, in turn: goroutine 0 has come to its select. -/
example : ((weave 0 (fun u => (ApProg.traceAll 0 (if u < 2 then [exApplied] else [])).1)
    ([0, 1, 0, 1, 1, 0, 0, 1, 0, 1, 0, 0, 1, 1, 1, 1] ++ List.replicate 7 0)).own 0).length = 13 ∧
    (ApProg.traceAll 0 [exApplied]).2 = [12] := ⟨rfl, rfl⟩

end Query
