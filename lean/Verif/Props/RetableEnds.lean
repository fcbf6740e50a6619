import Verif.Props.OnceThreads
import Verif.Props.MemoryMeant
/-!
# C89: programs that end with Count, Delete, Update or InsertInto
-/
namespace Query

/-- What a program with its end gives, alone. -/
theorem ends_say (eng : Engine) (db : Db) (x : ApProg × KEnd) (h : x.1.OK) (hp : (AnyProg.kind x.1.plain x.2).OK)
    (hs : (AnyProg.kind x.1.plain x.2).Sound) :
    ∃ b y sql params, x.1.run = .ok b ∧ b.kind = x.1.plain.kind ∧ x.2.run b = .ok y ∧ y.look .build = .ok (.query sql params) ∧
      (AnyProg.kind x.1.plain x.2).Says eng db sql params := by
  obtain ⟨y, sql, params, h1, h2, h3⟩ := progs_say eng db _ hp hs
  cases h1 with
  | @kind p e b y k1 k2 =>
    exact ⟨b, y, sql, params, (C89_runs_partial x.1 h).2.trans k1, (KindProg.trace_gives hp.1 k1 0 [] rfl).2, k2, h2, h3⟩

/-- **C89**, whatever the end: programs whose conditions are given tables and columns at any stage and that end with `BuildSQL`, `Count`,
`Delete`, `Update` or `InsertInto`, one after another in one memory.  All calls return; when all are done, the builder of every program builds
the statement of the program written with these columns at once, and if the calls do what their names say (`Clear`), running it does what
that program says.  What is missing: `C89_alias_false`. -/
theorem C89_ends_partial (pol : Policy) (gr : Grow) (eng : Engine) (db : Db) (l : List (ApProg × KEnd))
    (ok : ∀ x ∈ l, x.1.OK ∧ x.2.OK x.1.plain ∧ x.2.Sound x.1.plain) :
    ∃ m hs, runHeap pol Mem.empty [] (ApProg.traceEnds 0 l).1 = some (m, hs) ∧
      ∀ (i : Nat) (x : ApProg × KEnd), l[i]? = some x →
        ∃ r v, (ApProg.traceEnds 0 l).2[i]? = some r ∧ hs[r]? = some v ∧ v.Builds gr m fun sql params =>
          (AnyProg.kind x.1.plain x.2).Says eng db sql params ∧
          ((AnyProg.kind x.1.plain x.2).Clear → (AnyProg.kind x.1.plain x.2).Does eng db sql params) := by
  have okp : ∀ x ∈ l, (AnyProg.kind x.1.plain x.2).OK := fun x hx => ⟨(C89_runs_partial x.1 (ok x hx).1).1, (ok x hx).2.1⟩
  obtain ⟨ps, h1, h2⟩ := ApProg.traceEnds_gives l 0 [] rfl fun x hx => by
    obtain ⟨b, y, _, _, k1, k2, k3, _⟩ := ends_say eng db x (ok x hx).1 (okp x hx) (ok x hx).2.2
    exact ⟨(ok x hx).1, b, y, k1, k2, k3⟩
  have on := ApProg.traceEnds_once l 0
  have once : UsedOnce (ApProg.traceEnds 0 l).1 := List.Nodup.sublist List.filter_sublist on.own.1
  obtain ⟨m, hs, h3, h4⟩ := C75_runs pol _ once ps h1
  refine ⟨m, hs, h3, fun i x hx => ?_⟩
  obtain ⟨r, b, y, k1, k2, k3, k4⟩ := h2 i x hx
  have hm := List.mem_of_getElem? hx
  have hu : r ∉ usedIn (ApProg.traceEnds 0 l).1 := fun hm => on.free r (List.mem_of_getElem? k1) (List.mem_filter.1 hm).1
  obtain ⟨b', y', sql, params, g1, _, g2, g3, g4⟩ := ends_say eng db x (ok x hm).1 (okp x hm) (ok x hm).2.2
  rw [k3] at g1; cases g1
  rw [k4] at g2; cases g2
  have rd := once_reads pol gr _ ps once h1 r _ hu k2 .build
  rw [g3] at rd
  obtain ⟨m', hs', v, e1, e2, e3⟩ := readsAs_builds rd (P := fun sql params =>
    (AnyProg.kind x.1.plain x.2).Says eng db sql params ∧
    ((AnyProg.kind x.1.plain x.2).Clear → (AnyProg.kind x.1.plain x.2).Does eng db sql params))
    ⟨g4, fun hc => (clear_does eng db _ (okp x hm) hc).2 _ _ g4⟩
  rw [h3] at e1
  cases e1
  exact ⟨r, v, k1, e2, e3⟩

/-- **C89**, whatever the end, in goroutines: once a goroutine has come to the builder of one of its programs, that builder builds the statement
of the program written with these columns at once, whatever the others do. -/
theorem C89_ends_goroutines_partial (pol : Policy) (gr : Grow) (eng : Engine) (db : Db) (progs : Nat → List (ApProg × KEnd))
    (ok : ∀ t, ∀ x ∈ progs t, x.1.OK ∧ x.2.OK x.1.plain ∧ x.2.Sound x.1.plain)
    (sched : List Nat) (t i : Nat) (x : ApProg × KEnd) (hx : (progs t)[i]? = some x) :
    ∃ r, (ApProg.traceEnds 0 (progs t)).2[i]? = some r ∧
      (r < ((weave 0 (fun u => (ApProg.traceEnds 0 (progs u)).1) sched).own t).length →
        ∃ m hs v, runHeap pol Mem.empty [] (weave 0 (fun u => (ApProg.traceEnds 0 (progs u)).1) sched).calls = some (m, hs) ∧
          hs[place 0 ((weave 0 (fun u => (ApProg.traceEnds 0 (progs u)).1) sched).own t) r]? = some v ∧ v.Builds gr m fun sql params =>
            (AnyProg.kind x.1.plain x.2).Says eng db sql params ∧
            ((AnyProg.kind x.1.plain x.2).Clear → (AnyProg.kind x.1.plain x.2).Does eng db sql params)) := by
  have okp : ∀ u, ∀ x ∈ progs u, (AnyProg.kind x.1.plain x.2).OK := fun u x hx => ⟨(C89_runs_partial x.1 (ok u x hx).1).1, (ok u x hx).2.1⟩
  have on := fun u => ApProg.traceEnds_once (progs u) 0
  have gv := fun u => ApProg.traceEnds_gives (progs u) 0 [] rfl fun x hx => by
    obtain ⟨b, y, _, _, k1, k2, k3, _⟩ := ends_say eng db x (ok u x hx).1 (okp u x hx) (ok u x hx).2.2
    exact ⟨(ok u x hx).1, b, y, k1, k2, k3⟩
  obtain ⟨r, b, y, k1, k2, k3, k4⟩ := (gv t).choose_spec.2 i x hx
  refine ⟨r, k1, fun hr => ?_⟩
  have ap : OnceApart [] (fun u => (ApProg.traceEnds 0 (progs u)).1) :=
    ⟨fun u => List.Nodup.sublist List.filter_sublist (on u).own.1, fun _ _ _ x hx => absurd hx (Nat.not_lt_zero x)⟩
  obtain ⟨z, h1, h2⟩ := C75_goroutines pol gr [] (fun u => (ApProg.traceEnds 0 (progs u)).1) (fun u => (gv u).choose) ap
    (fun u => (gv u).choose_spec.1) sched t r (by simpa using hr) (fun u hu => by
      rcases hu with rfl | hu
      · exact fun hm => (on u).free r (List.mem_of_getElem? k1) (List.mem_filter.1 hm).1
      · exact absurd hu (Nat.not_lt_zero r))
  rw [k2] at h1
  cases h1
  have hm := List.mem_of_getElem? hx
  obtain ⟨b', y', sql, params, g1, _, g2, g3, g4⟩ := ends_say eng db x (ok t x hm).1 (okp t x hm) (ok t x hm).2.2
  rw [k3] at g1; cases g1
  rw [k4] at g2; cases g2
  have rd := (h2 .build).1
  rw [g3] at rd
  exact readsAs_builds rd ⟨g4, fun hc => (clear_does eng db _ (okp t x hm) hc).2 _ _ g4⟩

/-- The program of C89 counted, and its rows deleted but those with no `a`. -/
def exAppliedEnds : List (ApProg × KEnd) := [(exApplied, .count), (exApplied, .delete [[.not (.test (.null ⟨none, c!"a"⟩))]])]

example : (∀ x ∈ exAppliedEnds, x.1.OK ∧ x.2.OK x.1.plain ∧ x.2.Sound x.1.plain) ∧ (ApProg.traceEnds 0 exAppliedEnds).2 = [13, 30] ∧
    (∀ x ∈ exAppliedEnds, (AnyProg.kind x.1.plain x.2).Clear) := by
  refine ⟨fun x hx => ?_, rfl, fun x hx => ?_⟩
  · simp only [exAppliedEnds, List.mem_cons, List.not_mem_nil, or_false] at hx
    rcases hx with rfl | rfl
    · exact ⟨exApplied_ok.1, trivial, rfl⟩
    · refine ⟨exApplied_ok.1, ?_, rfl⟩
      have hw := eff_wheres_eq exApplied.plain ▸ nselect_wheres (eff_ok (C89_runs_partial exApplied exApplied_ok.1).1)
      refine ⟨exIdent (by decide), fun es hes => ?_, by decide⟩
      rcases List.mem_append.1 hes with hes | hes
      · exact hw es hes
      · rw [List.mem_singleton.1 hes]
        exact ⟨⟨exIdent (by decide), fun t h => by cases h⟩, trivial⟩
  · simp only [exAppliedEnds, List.mem_cons, List.not_mem_nil, or_false] at hx
    rcases hx with rfl | rfl <;> rfl

end Query
