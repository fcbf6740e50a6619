import Verif.Proof.FootRun
import Verif.Props.Immutable
/-!
# C75: every value used once

Chained calls, as programs usually write them: each builder and each group goes into one further call, be it as the value the call
is made on or as an argument.  Then also `ApplyFieldSpec` and `ApplyFieldTable`, which write into the lists of their receiver
(group.go:309-324), give what the calls say.
-/
namespace Query

theorem operands_before : ∀ (cs : List Call) (ps ps' : List PV), runPure ps cs = some ps' → ∀ c ∈ cs, ∀ i ∈ c.operands, i + 1 < ps.length + cs.length
  | [], _, _, _, _, hc => by cases hc
  | c :: cs, ps, ps', h, d, hd => by
    simp only [runPure] at h
    cases e : c.pure ps with
    | none => rw [e] at h; cases h
    | some p =>
      rw [e] at h
      intro i hi
      rcases List.mem_cons.1 hd with rfl | hd
      · have := operands_lt d e i hi
        simp only [List.length_cons]; omega
      · have := operands_before cs (ps ++ [p]) ps' h d hd i hi
        simp only [List.length_append, List.length_cons, List.length_nil] at this ⊢
        omega

theorem usedIn_append {cs cs' : List Call} {ps : List PV} (h : runPure [] cs = some ps) : usedIn cs <+: usedIn (cs ++ cs') := by
  unfold usedIn
  rw [List.flatMap_append, List.filter_append]
  refine ⟨_, congrArg (· ++ _) ?_⟩
  apply List.filter_congr
  intro i hi
  obtain ⟨c, hc, hi⟩ := List.mem_flatMap.1 hi
  have hl := operands_before cs [] ps h c hc i hi
  simp only [madeAsLeaf]
  rw [List.getElem?_append_left (by simp at hl; omega)]

/-- **C75.**  In every history that uses no value twice, Apply calls among them, every value that was not used up reads as the
plain immutable value: when it was made and the calls `cs` are done, and after the further calls `cs'`. -/
theorem C75_once (pol : Policy) (gr : Grow) (cs cs' : List Call) (once : UsedOnce (cs ++ cs')) (ps : List PV)
    (h : runPure [] (cs ++ cs') = some ps) (r : Nat) (hr : r < cs.length) (hu : r ∉ usedIn (cs ++ cs')) (l : Look) :
    ∃ p, ps[r]? = some p ∧ ReadsAs pol gr cs r l (p.look l) ∧ ReadsAs pol gr (cs ++ cs') r l (p.look l) := by
  have len := (runPure_prefix _ _ _ h).2
  have hr' : r < ps.length := by rw [len]; simp; omega
  refine ⟨ps[r], List.getElem?_eq_getElem hr', ?_, once_reads pol gr _ ps once h r _ hu (List.getElem?_eq_getElem hr') l⟩
  obtain ⟨ps1, h1, h2⟩ := runPure_append cs cs' [] ps h
  have pre := usedIn_append (cs' := cs') h1
  have hr1 : ps1[r]? = some ps[r] := by
    obtain ⟨t, ht⟩ := (runPure_prefix cs' ps1 ps h2).1
    have l1 := (runPure_prefix cs [] ps1 h1).2
    have hr1 : r < ps1.length := by rw [l1]; simpa using hr
    have : ps[r]? = ps1[r]? := by rw [← ht, List.getElem?_append_left hr1]
    rw [← this, List.getElem?_eq_getElem hr']
  exact once_reads pol gr cs ps1 (pre.sublist.nodup once) h1 r _ (fun hm => hu (pre.subset hm)) hr1 l

/-- **C75, the result.**  The last value of such a history reads as the calls say. -/
theorem C75_result (pol : Policy) (gr : Grow) (cs : List Call) (c : Call) (once : UsedOnce (cs ++ [c])) (ps : List PV)
    (h : runPure [] (cs ++ [c]) = some ps) (l : Look) :
    ∃ p, ps[cs.length]? = some p ∧ ReadsAs pol gr (cs ++ [c]) cs.length l (p.look l) := by
  have len := (runPure_prefix _ _ _ h).2
  have hr' : cs.length < ps.length := by rw [len]; simp
  refine ⟨ps[cs.length], List.getElem?_eq_getElem hr', once_reads pol gr _ ps once h _ _ (fun hm => ?_) (List.getElem?_eq_getElem hr') l⟩
  obtain ⟨c0, hc, hi⟩ := List.mem_flatMap.1 (List.mem_filter.1 hm).1
  have := operands_before _ [] ps h c0 hc _ hi
  simp at this

/-- **C75, at every step.**  Each value of such a history reads as the calls say when it is made, whatever becomes of it. -/
theorem C75_each (pol : Policy) (gr : Grow) (cs cs' : List Call) (c : Call) (once : UsedOnce (cs ++ c :: cs')) (ps : List PV)
    (h : runPure [] (cs ++ c :: cs') = some ps) (l : Look) :
    ∃ p, ps[cs.length]? = some p ∧ ReadsAs pol gr (cs ++ [c]) cs.length l (p.look l) := by
  have e : cs ++ c :: cs' = (cs ++ [c]) ++ cs' := by simp
  rw [e] at once h
  obtain ⟨ps1, h1, h2⟩ := runPure_append (cs ++ [c]) cs' [] ps h
  have pre := usedIn_append (cs' := cs') h1
  obtain ⟨p, hp, hR⟩ := C75_result pol gr cs c (pre.sublist.nodup once) ps1 h1 l
  obtain ⟨t, rfl⟩ := (runPure_prefix cs' ps1 ps h2).1
  exact ⟨p, by rw [List.getElem?_append_left (List.getElem?_eq_some_iff.1 hp).1]; exact hp, hR⟩

/-- **C75, running.**  Such a history runs in memory whenever it runs on plain values. -/
theorem C75_runs (pol : Policy) (cs : List Call) (once : UsedOnce cs) (ps : List PV) (h : runPure [] cs = some ps) :
    ∃ m hs, runHeap pol Mem.empty [] cs = some (m, hs) ∧ hs.length = ps.length := by
  obtain ⟨m, hs, h1, h2, _⟩ := once_history pol cs ps once h
  exact ⟨m, hs, h1, h2⟩

instance (cs : List Call) : Decidable (UsedOnce cs) := inferInstanceAs (Decidable (List.Nodup _))

/-- `g := And(a, b)`; `h := Or(c, d)`; `g' := g.ApplyFieldTable("t").And(h.ApplyFieldSpec(u.d)).ApplyFieldTable("v")`; a select
with that condition and one on the field of `a`, made many, then a delete from it. -/
def wOnce : List Call := [.leaf (wEq c!"a"), .leaf (wEq c!"b"), .leaf (wEq c!"c"), .leaf (wEq c!"d"), .andF 0 [1], .orF 2 [3],
  .applyTable 4 c!"t", .applySpec 5 ⟨c!"d", c!"u", []⟩, .and 6 [7], .applyTable 8 c!"v", .selectFrom (.str c!"v"), .where_ 10 [9, 0],
  .many 11, .orderBy 12 [wSort c!"a"]]

/-- It uses every value once, and has Apply calls, on groups in groups too. -/
example : UsedOnce (wOnce.take 9 ++ wOnce.drop 9) ∧ (runPure [] (wOnce.take 9 ++ wOnce.drop 9)).isSome = true ∧
    ¬ (∀ c ∈ wOnce, c.noApply = true) ∧ (13 ∉ usedIn wOnce) := by
  refine ⟨by decide, by decide +kernel, by decide, by decide⟩

/-- And what comes out of it, on plain values and in memory: the condition of the select. -/
example : ((runPure [] (wOnce.take 10)).bind fun ps => ps[9]?).map (fun p => poutText (p.look (.render 0)))
      = some (some c!"v.a=$1 AND v.b=$2 AND (v.c=$3 OR v.d=$4)") ∧
    textAt (wOnce.take 10) 9 (.render 0) 20 = some c!"v.a=$1 AND v.b=$2 AND (v.c=$3 OR v.d=$4)" := by decide +kernel

/-- **C47 where it holds, with Apply calls.**  In a history that uses no value twice every reading call on a value that was not used
up returns: for all bounds large enough the bound does not matter.  Missing: histories that use a value twice (`C47_cycle_false`). -/
theorem C47_once_partial (pol : Policy) (gr : Grow) (cs : List Call) (once : UsedOnce cs) (ps : List PV) (h : runPure [] cs = some ps)
    (r : Nat) (hr : r < cs.length) (hu : r ∉ usedIn cs) (l : Look) :
    ∃ m hs x, runHeap pol Mem.empty [] cs = some (m, hs) ∧ hs[r]? = some x ∧
      ∃ D, ∀ d ≥ D, ∀ par, x.look gr d ⟨m, par⟩ l ≠ tooDeep := by
  have len := (runPure_prefix _ _ _ h).2
  have hr' : r < ps.length := by rw [len]; simp; omega
  obtain ⟨m, hs, x, h1, h2, D, h3⟩ := once_reads pol gr cs ps once h r _ hu (List.getElem?_eq_getElem hr') l
  refine ⟨m, hs, x, h1, h2, D, fun d hd par e => ?_⟩
  have k := h3 d hd par
  rw [e] at k
  have nr := look_returns ps[r] l
  cases hp : ps[r].look l with
  | ok a => rw [hp] at k; exact k
  | err a => rw [hp] at k; exact k
  | panic a => rw [hp] at k nr; simp only [tooDeep, RepRes] at k; subst k; exact nr rfl

/-- The many-rows select at the end of `wOnce` meets the hypotheses. -/
example : UsedOnce wOnce ∧ (runPure [] wOnce).isSome = true ∧ 13 < wOnce.length ∧ 13 ∉ usedIn wOnce := by
  refine ⟨by decide, by decide +kernel, by decide, by decide⟩

/-- `g := And(a, b)`, in two groups. -/
def wArgTwice : List Call := [.leaf (wEq c!"a"), .leaf (wEq c!"b"), .andF 0 [1], .newGroup lOR [2], .newGroup lOR [2]]

/-- **C75, why once.**  A group that is an argument of two calls: `ApplyFieldTable` on the one result changes the other.  Every
call but the last copies and appends, and no value is extended twice. -/
theorem C75_twice_changes : Linear (wArgTwice ++ [.applyTable 3 c!"t"]) ∧ ¬ UsedOnce wArgTwice ∧
    Changes goPolicy goGrow wArgTwice [.applyTable 3 c!"t"] 4 (.render 0) := by
  refine ⟨by unfold Linear; decide, by decide, ?_⟩
  refine changes_of _ _ _ _ _ _ c!"a=$1 AND b=$2" c!"t.a=$1 AND t.b=$2" ?_ ?_ rfl rfl rfl (fun D => rfl) (by decide)
  · decide
  · unfold Linear; decide

end Query
