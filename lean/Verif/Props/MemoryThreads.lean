import Verif.Props.Memory
import Verif.Props.Threads
import Verif.Proof.HeapLinear
/-!
# C79: programs in goroutines

Goroutines that each run programs of their own, one call at a time in any order.
-/
namespace Query

/-- A reading call that gives text and parameters. -/
theorem readsAs_builds {pol : Policy} {gr : Grow} {cs : List Call} {r : Nat} {sql : Str} {params : List Val}
    (h : ReadsAs pol gr cs r .build (.ok (.query sql params))) {P : Str → List Val → Prop} (hp : P sql params) :
    ∃ m hs x, runHeap pol Mem.empty [] cs = some (m, hs) ∧ hs[r]? = some x ∧ x.Builds gr m P := by
  obtain ⟨m, hs, x, h1, h2, D, h3⟩ := h
  refine ⟨m, hs, x, h1, h2, sql, params, hp, D, fun d hd par => ?_⟩
  have := h3 d hd par
  generalize HV.look gr d ⟨m, par⟩ x .build = res at this ⊢
  match res with
  | .ok (m1, .query s sl) => exact ⟨m1, sl, by rw [this.1], this.2.2.2⟩
  | .ok (_, .text _) => exact this.elim
  | .ok (_, .vals _) => exact this.elim
  | .ok (_, .conds _) => exact this.elim
  | .ok (_, .defs _) => exact this.elim
  | .err _ => exact this.elim
  | .panic _ => exact this.elim

/-- **C79, goroutines.**  Goroutines run lists of programs of their own, a call at a time, in any order of turns.  When a goroutine has
made the builder of one of its programs, that builder builds the statement the program describes, whatever the others do. -/
theorem C79_goroutines (pol : Policy) (gr : Grow) (eng : Engine) (db : Db) (progs : Nat → List AnyProg)
    (ok : ∀ t, ∀ p ∈ progs t, p.OK ∧ p.Sound) (sched : List Nat) (t i : Nat) (p : AnyProg) (hp : (progs t)[i]? = some p) :
    ∃ r, (AnyProg.traceAll 0 (progs t)).2[i]? = some r ∧
      (r < ((weave 0 (fun u => (AnyProg.traceAll 0 (progs u)).1) sched).own t).length →
        ∃ m hs x, runHeap pol Mem.empty [] (weave 0 (fun u => (AnyProg.traceAll 0 (progs u)).1) sched).calls = some (m, hs) ∧
          hs[place 0 ((weave 0 (fun u => (AnyProg.traceAll 0 (progs u)).1) sched).own t) r]? = some x ∧ x.Builds gr m (p.Says eng db)) := by
  have fr := fun u => AnyProg.traceAll_fresh (progs u) 0
  have gv := fun u => AnyProg.traceAll_gives (progs u) 0 [] rfl fun p hp => by
    obtain ⟨x, _, _, h, _⟩ := progs_say eng db p (ok u p hp).1 (ok u p hp).2
    exact ⟨(ok u p hp).1, x, h⟩
  obtain ⟨r, x, k1, k2, k3⟩ := (gv t).choose_spec.2.2 i p hp
  refine ⟨r, k1, fun hr => ?_⟩
  have ka : KeepApart [] (fun u => (AnyProg.traceAll 0 (progs u)).1) :=
    ⟨fun u => Linear.listsOnce (fr u).own.1, fun u => Linear.joinsOnce (fr u).own.1,
      fun _ _ _ _ _ x hx => absurd hx (Nat.not_lt_zero x), fun _ _ _ x hx => absurd hx (Nat.not_lt_zero x)⟩
  obtain ⟨y, h1, h2⟩ := C74_threads_partial pol gr [] (fun u => (AnyProg.traceAll 0 (progs u)).1) (fun u => (gv u).choose) ka
    (fun c hc => by cases hc) (fun u => (fr u).plain) (fun u => (gv u).choose_spec.1) sched t r (by simpa using hr)
  rw [k2] at h1
  cases h1
  obtain ⟨z, sql, params, g1, g2, g3⟩ := progs_say eng db p (ok t p (List.mem_of_getElem? hp)).1 (ok t p (List.mem_of_getElem? hp)).2
  cases gives_unique g1 k3
  have := (h2 .build).1
  rw [g2] at this
  exact readsAs_builds this g3

/-- Two goroutines with a program each, in turn. -/
example : ((weave 0 (fun u => (AnyProg.traceAll 0 (if u < 2 then exTwoProgs.drop u |>.take 1 else [])).1)
    [0, 1, 0, 1, 1, 0, 0, 1, 0, 1, 0, 0, 1, 1, 1, 1]).own 0).length = 7 ∧
    (AnyProg.traceAll 0 (exTwoProgs.take 1)).2 = [6] := by decide

end Query
