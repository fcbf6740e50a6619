import Verif.Props.Immutable
import Verif.Proof.HeapSafe
import Verif.Proof.HeapLinear
/-!
# C34, C35, C47: branching histories that are safe

Two conditions under which builders may be shared and extended several times: one that can be read off the calls (`ListsOnce`), and
one about the memory (`harmlessRun`), which is met by far more histories.
-/
namespace Query

/-- **C34 where the appends are harmless.**  If every `append` of a history hits a slice that is full or the last in its array,
`ApplyFieldSpec` and `ApplyFieldTable` are not called and no join is completed twice, then no call changes what reading any earlier
value gives.  Any branching is allowed, and `append` may choose any capacities.  Missing: other histories (the witnesses). -/
theorem C34_harmless_partial (pol : Policy) (gr : Grow) (cs cs' : List Call) (hna : ∀ c ∈ cs ++ cs', c.noApply = true)
    (hl : harmlessRun pol Mem.empty [] (cs ++ cs') = true) (hj : JoinsOnce (cs ++ cs')) (ps : List PV)
    (h : runPure [] (cs ++ cs') = some ps) (r : Nat) (hr : r < cs.length) (l : Look) :
    ∃ p, ps[r]? = some p ∧ ReadsAs pol gr cs r l (p.look l) ∧ ReadsAs pol gr (cs ++ cs') r l (p.look l) := by
  have len := (runPure_prefix _ _ _ h).2
  have hr' : r < ps.length := by rw [len]; simp; omega
  refine ⟨ps[r], List.getElem?_eq_getElem hr', ?_, ?_⟩
  · obtain ⟨ps1, h1, h2⟩ := runPure_append cs cs' [] ps h
    have hr1 : ps1[r]? = some ps[r] := by
      obtain ⟨t, e⟩ := (runPure_prefix cs' ps1 ps h2).1
      have l1 := (runPure_prefix cs [] ps1 h1).2
      subst e
      rw [List.getElem_append_left (by rw [l1]; simpa using hr)]
      exact List.getElem?_eq_getElem _
    exact reads_of_run gr (run_harmless pol cs ps1 (fun c hc => hna c (by simp [hc])) (harmlessRun_left _ _ _ _ hl) hj.left h1) r _ hr1 l
  · exact reads_of_run gr (run_harmless pol _ ps hna hl hj h) r _ (List.getElem?_eq_getElem hr') l

/-- **C35, by lists.**  In every history in which no list that may have spare capacity is extended twice, with `append` choosing any
capacities, every value reads at once and after any further calls as the plain immutable value.  Values may be extended many times:
in different lists, while the list is still empty, or as conditions that are no groups.  Missing: as for `C35_linear_partial`. -/
theorem C35_lists_partial (pol : Policy) (gr : Grow) (cs cs' : List Call) (hna : ∀ c ∈ cs ++ cs', c.noApply = true)
    (hl : ListsOnce (cs ++ cs')) (hj : JoinsOnce (cs ++ cs')) (ps : List PV)
    (h : runPure [] (cs ++ cs') = some ps) (r : Nat) (hr : r < cs.length) (l : Look) :
    ∃ p, ps[r]? = some p ∧ ReadsAs pol gr cs r l (p.look l) ∧ ReadsAs pol gr (cs ++ cs') r l (p.look l) := by
  have len := (runPure_prefix _ _ _ h).2
  have hr' : r < ps.length := by rw [len]; simp; omega
  refine ⟨ps[r], List.getElem?_eq_getElem hr', ?_, ?_⟩
  · obtain ⟨ps1, h1, h2⟩ := runPure_append cs cs' [] ps h
    have hr1 : ps1[r]? = some ps[r] := by
      obtain ⟨t, e⟩ := (runPure_prefix cs' ps1 ps h2).1
      have l1 := (runPure_prefix cs [] ps1 h1).2
      subst e
      rw [List.getElem_append_left (by rw [l1]; simpa using hr)]
      exact List.getElem?_eq_getElem _
    exact reads_of_run gr (run_lists pol cs ps1 (fun c hc => hna c (by simp [hc])) hl.left hj.left h1) r _ hr1 l
  · exact reads_of_run gr (run_lists pol _ ps hna hl hj h) r _ (List.getElem?_eq_getElem hr') l

/-- The condition of `C35_lists_partial` is weaker than that of `C35_linear_partial`. -/
theorem C35_lists_weaker (cs : List Call) (hl : Linear cs) : ListsOnce cs ∧ JoinsOnce cs := ⟨hl.listsOnce, hl.joinsOnce⟩

/-- **C47 for the same histories.**  Every reading call on every value returns. -/
theorem C47_lists_partial (pol : Policy) (gr : Grow) (cs : List Call) (hna : ∀ c ∈ cs, c.noApply = true)
    (hh : ListsOnce cs ∨ harmlessRun pol Mem.empty [] cs = true) (hj : JoinsOnce cs) (ps : List PV)
    (h : runPure [] cs = some ps) (r : Nat) (hr : r < cs.length) (l : Look) :
    ∃ m hs x, runHeap pol Mem.empty [] cs = some (m, hs) ∧ hs[r]? = some x ∧
      ∃ D, ∀ d ≥ D, ∀ par, x.look gr d ⟨m, par⟩ l ≠ tooDeep := by
  have len := (runPure_prefix _ _ _ h).2
  have hr' : r < ps.length := by rw [len]; simp; omega
  have key : ReadsAs pol gr cs r l (ps[r].look l) := by
    refine reads_of_run gr ?_ r _ (List.getElem?_eq_getElem hr') l
    rcases hh with hl | hl
    · exact run_lists pol cs ps hna hl hj h
    · exact run_harmless pol cs ps hna hl hj h
  obtain ⟨m, hs, x, h1, h2, D, h3⟩ := key
  refine ⟨m, hs, x, h1, h2, D, fun d hd par e => ?_⟩
  have k := h3 d hd par
  rw [e] at k
  have nr := look_returns ps[r] l
  cases hp : ps[r].look l with
  | ok a => rw [hp] at k; exact k
  | err a => rw [hp] at k; exact k
  | panic a => rw [hp] at k nr; simp only [tooDeep, RepRes] at k; subst k; exact nr rfl

/-- A base query used several times: `b := Select("t")` (number 4), `b.Where(a)`, `b.Where(b)`, `b.Where(a.And(c))`, then
`q := b.Where(a)` ordered, limited, counted, turned into an UPDATE and a DELETE, and joined. -/
def wBranch : List Call := [.leaf (wEq c!"a"), .leaf (wEq c!"b"), .leaf (wEq c!"c"), .and 0 [2],
  .selectFrom (.str c!"t"), .where_ 4 [0], .where_ 4 [1], .where_ 4 [3], .and 0 [1],
  .many 5, .orderBy 9 [wSort c!"a"], .limit 10 5, .where_ 11 [1], .offset 10 3, .orderBy 13 [wSort c!"b"],
  .updateFrom 5 [wVal c!"z"], .deleteFrom 5, .joinTable 5 ⟨c!"u", []⟩ leftJoin, .on 17 ⟨c!"x", c!"t", []⟩ ⟨c!"y", c!"u", []⟩,
  .single 5, .count 5 [], .orderBy 9 [wSort c!"c"]]

/-- It meets the hypotheses of `C35_lists_partial` and not those of `C35_linear_partial`. -/
example : (∀ c ∈ wBranch.take 15 ++ wBranch.drop 15, c.noApply = true) ∧ ListsOnce (wBranch.take 15 ++ wBranch.drop 15) ∧
    JoinsOnce (wBranch.take 15 ++ wBranch.drop 15) ∧ (runPure [] (wBranch.take 15 ++ wBranch.drop 15)).isSome = true ∧
    ¬ Linear (wBranch.take 15 ++ wBranch.drop 15) := by
  refine ⟨by decide, ⟨by decide, by decide, by decide, by decide⟩, ?_, rfl, ?_⟩
  · unfold JoinsOnce; decide
  · unfold Linear; decide

/-- `q := Select("t").Where(a).Where(b)` (number 6), extended three times: with Go's growth policy its two conditions fill their
array. -/
def wTwice : List Call := [.leaf (wEq c!"a"), .leaf (wEq c!"b"), .leaf (wEq c!"c"), .selectFrom (.str c!"t"),
  .where_ 3 [0], .where_ 4 [1], .where_ 5 [2], .where_ 5 [0], .where_ 5 [1]]

/-- It meets the hypotheses of `C34_harmless_partial` with Go's growth policy and not those of `C35_lists_partial`; the witness
against C34 with one condition more does not meet them. -/
example : (∀ c ∈ wTwice.take 7 ++ wTwice.drop 7, c.noApply = true) ∧
    harmlessRun goPolicy Mem.empty [] (wTwice.take 7 ++ wTwice.drop 7) = true ∧
    JoinsOnce (wTwice.take 7 ++ wTwice.drop 7) ∧ (runPure [] (wTwice.take 7 ++ wTwice.drop 7)).isSome = true ∧
    ¬ ListsOnce (wTwice.take 7 ++ wTwice.drop 7) ∧
    harmlessRun goPolicy Mem.empty [] (wWhere ++ [.where_ 8 [4]]) = false := by
  refine ⟨by decide, rfl, ?_, rfl, fun h => ?_, rfl⟩
  · unfold JoinsOnce; decide
  · exact absurd h.conds (by decide)

end Query
