import Verif.Props.MemoryThreads
/-!
# C79: clear programs, taken at their word

Where every call does what its name says, the programs of C79 do what they say, in any memory and in goroutines.
-/
namespace Query

theorem update_wheres (p : KindProg) (sets : List SetTo) (more : List NUCall) :
    (p.updateProg sets more).wheres = p.wheres ++ more.filterMap NUCall.where? := by
  show (p.wheres.map NUCall.addWhere ++ NUCall.set sets :: more).filterMap NUCall.where? = _
  rw [List.filterMap_append, List.filterMap_map]
  simp only [List.filterMap_cons, NUCall.where?]
  congr 1
  exact List.filterMap_some

/-- A clear program does not panic, and what its text says is what it means. -/
theorem clear_does (eng : Engine) (db : Db) (p : AnyProg) (ok : p.OK) (hc : p.Clear) :
    p.Sound ∧ ∀ sql params, p.Says eng db sql params → p.Does eng db sql params := by
  cases p with
  | select p =>
    obtain ⟨h1, h2⟩ := wheres_clear p.wheres (nselect_wheres ok) hc
    exact ⟨h1, fun sql params h => by simpa only [AnyProg.Does, ← h2] using h.2.2⟩
  | count p =>
    obtain ⟨h1, h2⟩ := wheres_clear p.wheres (nselect_wheres ok) hc
    exact ⟨h1, fun sql params h => by simpa only [AnyProg.Does, ← h2] using h.2⟩
  | insert p => exact ⟨trivial, fun sql params h => h.2.2⟩
  | update p =>
    obtain ⟨h1, h2⟩ := wheres_clear p.wheres (nupdate_wheres ok) hc
    exact ⟨h1, fun sql params h => by simpa only [AnyProg.Does, ← h2] using h.2.2⟩
  | delete p =>
    obtain ⟨h1, h2⟩ := wheres_clear p.wheres ok.wheres hc
    exact ⟨h1, fun sql params h => by simpa only [AnyProg.Does, ← h2] using h.2.2⟩
  | kind p e =>
    obtain ⟨ok, oke⟩ := ok
    have hw := eff_wheres_eq p ▸ nselect_wheres (eff_ok ok)
    cases e with
    | read =>
      obtain ⟨hc, hk⟩ := hc
      obtain ⟨h1, h2⟩ := wheres_clear p.wheres hw hc
      have e : p.eff = p.said := by
        unfold KindProg.eff KindProg.said
        rw [kept_eff p.calls p.start hk]
      have ek : (p.kind = .single) = (p.wanted = .single) := propext (kept_kind p.calls p.start p.start hk Iff.rfl)
      refine ⟨h1, fun sql params h => ?_⟩
      have h := h.2
      unfold KindProg.rowsBy at h
      simpa only [AnyProg.Does, KindProg.askedBy, e, ek, ← h2] using h
    | count =>
      obtain ⟨h1, h2⟩ := wheres_clear p.wheres hw hc
      exact ⟨h1, fun sql params h => by simpa only [AnyProg.Does, ← h2] using h.2⟩
    | countCol _ _ =>
      obtain ⟨h1, h2⟩ := wheres_clear p.wheres hw hc
      exact ⟨h1, fun sql params h => by simpa only [AnyProg.Does, ← h2] using h.2⟩
    | delete more =>
      obtain ⟨h1, h2⟩ := wheres_clear (p.wheres ++ more) oke.wheres hc
      refine ⟨h1, fun sql params h => ?_⟩
      simp only [AnyProg.Does, ← h2]
      exact h.2.2
    | update sets more =>
      have hc : wheresClear someRow (p.updateProg sets more).wheres = true := by rw [update_wheres]; exact hc
      obtain ⟨h1, h2⟩ := wheres_clear _ (nupdate_wheres oke) hc
      refine ⟨h1, fun sql params h => ?_⟩
      have h := h.2.2
      rw [h2, update_wheres] at h
      exact h
    | insert sets more =>
      exact ⟨(wheres_clear p.wheres hw hc).1, fun sql params h => h.2.2⟩

theorem HV.Builds.mono {gr : Grow} {m : Mem} {x : HV} {P Q : Str → List Val → Prop} (h : x.Builds gr m P)
    (hpq : ∀ sql params, P sql params → Q sql params) : x.Builds gr m Q := by
  obtain ⟨sql, params, hp, h⟩ := h
  exact ⟨sql, params, hpq sql params hp, h⟩

/-- **C79**, taken at its word: clear programs one after another, from any memory and any values, all return, and then the builder of
each builds a statement that does on any database what the program says.  Of programs that are not clear it is false
already for one alone (`C78_false`, `C81_false`); `C79_programs` says what those do. -/
theorem C79_meant (pol : Policy) (gr : Grow) (eng : Engine) (db : Db) (m : Mem) (hs : List HV) (l : List AnyProg)
    (ok : ∀ p ∈ l, p.OK ∧ p.Clear) :
    ∃ m' hs', runHeap pol m hs (AnyProg.traceAll hs.length l).1 = some (m', hs ++ hs') ∧
      ∀ (i : Nat) (p : AnyProg), l[i]? = some p →
        ∃ r x, (AnyProg.traceAll hs.length l).2[i]? = some r ∧ (hs ++ hs')[r]? = some x ∧ x.Builds gr m' (p.Does eng db) := by
  have cd := fun p hp => clear_does eng db p (ok p hp).1 (ok p hp).2
  obtain ⟨m', hs', h1, h2⟩ := C79_programs pol gr eng db m hs l fun p hp => ⟨(ok p hp).1, (cd p hp).1⟩
  refine ⟨m', hs', h1, fun i p hp => ?_⟩
  obtain ⟨r, x, k1, k2, k3⟩ := h2 i p hp
  exact ⟨r, x, k1, k2, k3.mono (cd p (List.mem_of_getElem? hp)).2⟩

/-- **C79** in goroutines, taken at its word: once a goroutine has come to the builder of its program, that builder builds a statement
that does what the program says, whatever the others have done in between. -/
theorem C79_goroutines_meant (pol : Policy) (gr : Grow) (eng : Engine) (db : Db) (progs : Nat → List AnyProg)
    (ok : ∀ t, ∀ p ∈ progs t, p.OK ∧ p.Clear) (sched : List Nat) (t i : Nat) (p : AnyProg) (hp : (progs t)[i]? = some p) :
    ∃ r, (AnyProg.traceAll 0 (progs t)).2[i]? = some r ∧
      (r < ((weave 0 (fun u => (AnyProg.traceAll 0 (progs u)).1) sched).own t).length →
        ∃ m hs x, runHeap pol Mem.empty [] (weave 0 (fun u => (AnyProg.traceAll 0 (progs u)).1) sched).calls = some (m, hs) ∧
          hs[place 0 ((weave 0 (fun u => (AnyProg.traceAll 0 (progs u)).1) sched).own t) r]? = some x ∧ x.Builds gr m (p.Does eng db)) := by
  have cd := fun u p hp => clear_does eng db p (ok u p hp).1 (ok u p hp).2
  obtain ⟨r, h1, h2⟩ := C79_goroutines pol gr eng db progs (fun u p hp => ⟨(ok u p hp).1, (cd u p hp).1⟩) sched t i p hp
  refine ⟨r, h1, fun hr => ?_⟩
  obtain ⟨m, hs, x, k1, k2, k3⟩ := h2 hr
  exact ⟨m, hs, x, k1, k2, k3.mono (cd t p (List.mem_of_getElem? hp)).2⟩

/-- The programs of the examples are clear; the DELETE of the first removes what it says. -/
example : (∀ p ∈ exTwoProgs, p.OK ∧ p.Clear) ∧
    (AnyProg.delete ⟨c!"t", [[exIs c!"a" 7], [.fn true (exIs c!"id" 3) [exIs c!"id" 2]]]⟩).Does exEng exDb
      c!"DELETE FROM t WHERE a=$1 AND (id=$2 OR id=$3)" [.other 7, .other 3, .other 2] := by
  refine ⟨fun p hp => ⟨(exTwoProgs_ok p hp).1, ?_⟩, ?_⟩
  · simp only [exTwoProgs, List.mem_cons, List.not_mem_nil, or_false] at hp
    rcases hp with rfl | rfl <;> rfl
  · rfl

end Query
