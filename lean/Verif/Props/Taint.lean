import Verif.Proof.TaintCalls
/-!
# C35: in any history, what was not spoilt reads as plain immutable values

For every history whatsoever, with branching and Apply calls: a value can read otherwise than the plain immutable value only if a call
spoilt it, or spoilt a value it was made from.
-/
namespace Query
open Store

theorem runPure_snoc_inv {cs : List Call} {c : Call} {ps' : List PV} (h : runPure [] (cs ++ [c]) = some ps') :
    ∃ ps p, runPure [] cs = some ps ∧ c.pure ps = some p ∧ ps' = ps ++ [p] := by
  obtain ⟨ps, h1, h2⟩ := runPure_append cs [c] [] ps' h
  simp only [runPure] at h2
  split at h2
  · rename_i p e
    cases h2
    exact ⟨ps, p, h1, e, rfl⟩
  · cases h2

theorem runHeap_length (pol : Policy) : ∀ (cs : List Call) (m : Mem) (hs : List HV) (x : Mem × List HV), runHeap pol m hs cs = some x →
    x.2.length = hs.length + cs.length
  | [], _, _, _, h => by cases h; rfl
  | c :: cs, m, hs, x, h => by
    simp only [runHeap] at h
    split at h
    · rw [runHeap_length pol cs _ _ x h]; simp; omega
    · cases h

theorem untainted_aux (pol : Policy) : ∀ (n : Nat) (cs : List Call), cs.length = n → ∀ (m : Mem) (hs : List HV) (ps : List PV),
    runHeap pol Mem.empty [] cs = some (m, hs) → runPure [] cs = some ps →
    ∀ (i : Nat) (h : HV) (p : PV), ¬ Taint pol cs i → hs[i]? = some h → ps[i]? = some p → RepV m h p
  | 0, cs, hn, m, hs, ps, e1, e2, i, h, p, _, hi, _ => by
    cases List.length_eq_zero_iff.1 hn
    cases e1
    simp at hi
  | n + 1, cs, hn, m, hs, ps, e1, e2, i, h, p, ht, hi, hpi => by
    have hne : cs ≠ [] := by intro e; subst e; cases hn
    obtain ⟨cs0, c, rfl⟩ : ∃ cs0 c, cs = cs0 ++ [c] := ⟨cs.dropLast, cs.getLast hne, (List.dropLast_concat_getLast hne).symm⟩
    have hn0 : cs0.length = n := by simpa using hn
    obtain ⟨m0, hs0, v, a1, a2, rfl⟩ := runHeap_snoc e1
    obtain ⟨ps0, q, b1, b2, rfl⟩ := runPure_snoc_inv e2
    have ih := untainted_aux pol n cs0 hn0 m0 hs0 ps0 a1 b1
    have l1 : hs0.length = cs0.length := by have := runHeap_length pol cs0 _ _ _ a1; simpa using this
    have l2 : ps0.length = cs0.length := by have := (runPure_prefix _ _ _ b1).2; simpa using this
    obtain ⟨sb, hb⟩ := run_bnd0 pol cs0 (m0, hs0) a1
    have st := step_call pol sb hb c (m, v) a2
    have hk : ∀ s, InB m0.conds s → InB m.conds s := fun s i => i.mono st.1.1.conds
    rcases Nat.lt_or_ge i cs0.length with hlt | hge
    · rw [List.getElem?_append_left (by omega)] at hi hpi
      have r0 := ih i h p (fun t => ht (.stays t)) hi hpi
      obtain ⟨k1, _, k3, _, k5, _⟩ := step_unspoilt pol cs0 m0 hs0 a1 c m v a2 i h hi (fun s => ht (.spoilt a1 hi s))
      exact repV_same sb hk h k3 k5 k1 p r0
    · have hi' := (List.getElem?_eq_some_iff.1 hi).1
      have : i = cs0.length := by simp at hi'; omega
      subst this
      rw [List.getElem?_append_right (by omega), l1, Nat.sub_self] at hi
      rw [List.getElem?_append_right (by omega), l2, Nat.sub_self] at hpi
      cases hi
      cases hpi
      refine made_stands pol sb c a2 hk b2 (fun j hj p hp => ?_) (fun hc ha j hj x hx => ?_)
      · have hj0 : j < hs0.length := by rw [l1, ← l2]; exact (List.getElem?_eq_some_iff.1 hp).1
        refine ⟨_, List.getElem?_eq_getElem hj0, ih j _ p (fun t => ht (.made hj t)) (List.getElem?_eq_getElem hj0) hp⟩
      · exact (step_unspoilt pol cs0 m0 hs0 a1 c m _ a2 j x hx (fun s => ht (.own a1 hc ha hj hx s))).1

/-- **C35, in any history.**  For every history whatsoever (values extended many times, Apply calls, any growth policy) that runs in
memory and on plain values: a value that no call spoilt, and that was made from such values only, reads in every way as the plain
immutable value. -/
theorem C35_untainted (pol : Policy) (gr : Grow) (cs : List Call) (m : Mem) (hs : List HV)
    (h : runHeap pol Mem.empty [] cs = some (m, hs)) (ps : List PV) (hp : runPure [] cs = some ps) (r : Nat) (p : PV) (hr : ps[r]? = some p)
    (ht : ¬ Taint pol cs r) (l : Look) : ReadsAs pol gr cs r l (p.look l) := by
  have l1 : hs.length = cs.length := by have := runHeap_length pol cs _ _ _ h; simpa using this
  have l2 : ps.length = cs.length := by have := (runPure_prefix _ _ _ hp).2; simpa using this
  have hr0 : r < hs.length := by rw [l1, ← l2]; exact (List.getElem?_eq_some_iff.1 hr).1
  have hx := List.getElem?_eq_getElem hr0
  refine ⟨m, hs, hs[r], h, hx, p.depth, fun d hd par => ?_⟩
  have sv : Serves m d hs[r] p := .inl ⟨untainted_aux pol _ cs rfl m hs ps h hp r _ p ht hx hr, hd⟩
  exact (look_serves gr d ⟨m, par⟩ _ p sv l).imp fun a b q => q.2.1

theorem taint_culprit {pol : Policy} {cs : List Call} {r : Nat} (t : Taint pol cs r) :
    ∃ cs1 c cs2 m hs, ∃ (i : Nat) (x : HV), cs = cs1 ++ c :: cs2 ∧ runHeap pol Mem.empty [] cs1 = some (m, hs) ∧ hs[i]? = some x ∧ c.spoils m hs x := by
  induction t with
  | @spoilt cs c m hs i x h1 h2 h3 => exact ⟨cs, c, [], m, hs, i, x, rfl, h1, h2, h3⟩
  | @stays cs c i _ ih =>
    obtain ⟨cs1, d, cs2, m, hs, j, x, e, h⟩ := ih
    exact ⟨cs1, d, cs2 ++ [c], m, hs, j, x, by rw [e]; simp, h⟩
  | @made cs c i _ _ ih =>
    obtain ⟨cs1, d, cs2, m, hs, j, x, e, h⟩ := ih
    exact ⟨cs1, d, cs2 ++ [c], m, hs, j, x, by rw [e]; simp, h⟩
  | @own cs c m hs i x h1 _ _ _ h2 h3 => exact ⟨cs, c, [], m, hs, i, x, rfl, h1, h2, h3⟩

/-- **C35, the culprit.**  If after some history some value reads otherwise than the plain immutable value, then the value is one that
may read wrong, and some call of the history replaced something an earlier value is read from by something else. -/
theorem C35_culprit (pol : Policy) (gr : Grow) (cs : List Call) (hh : (runHeap pol Mem.empty [] cs).isSome = true)
    (ps : List PV) (hp : runPure [] cs = some ps) (r : Nat) (p : PV) (hr : ps[r]? = some p) (l : Look)
    (hne : ¬ ReadsAs pol gr cs r l (p.look l)) :
    Taint pol cs r ∧ ∃ cs1 c cs2 m hs, ∃ (i : Nat) (x : HV), cs = cs1 ++ c :: cs2 ∧ runHeap pol Mem.empty [] cs1 = some (m, hs) ∧ hs[i]? = some x ∧
      c.spoils m hs x := by
  obtain ⟨⟨m, hs⟩, e⟩ := Option.isSome_iff_exists.1 hh
  have t : Taint pol cs r := Classical.byContradiction fun ht => hne (C35_untainted pol gr cs m hs e ps hp r p hr ht l)
  exact ⟨t, taint_culprit t⟩

/-! ## Examples -/

/-- A history in which no call spoils an earlier value. -/
theorem clean_snoc {pol : Policy} {cs : List Call} {c : Call} {m : Mem} {hs : List HV} (h : runHeap pol Mem.empty [] cs = some (m, hs))
    (k : ∀ i, ¬ Taint pol cs i) (hn : ∀ x, ¬ c.spoils m hs x) (i : Nat) : ¬ Taint pol (cs ++ [c]) i := by
  intro t
  generalize e : cs ++ [c] = ds at t
  cases t with
  | spoilt h1 h2 h3 =>
    obtain ⟨rfl, e2⟩ := List.append_inj' e rfl
    cases e2
    rw [h] at h1
    cases h1
    exact hn _ h3
  | stays t =>
    obtain ⟨rfl, e2⟩ := List.append_inj' e rfl
    exact k _ t
  | made _ t =>
    obtain ⟨rfl, e2⟩ := List.append_inj' e rfl
    exact k _ t
  | own h1 _ _ _ _ h3 =>
    obtain ⟨rfl, e2⟩ := List.append_inj' e rfl
    cases e2
    rw [h] at h1
    cases h1
    exact hn _ h3

theorem clean_nil (pol : Policy) (i : Nat) : ¬ Taint pol [] i := by
  intro t
  generalize e : ([] : List Call) = ds at t
  cases t <;> simp at e

/-- `q.Values` without room behind the values of `q` spoils nothing. -/
theorem values_clean {m : Mem} {hs : List HV} {r : Nat} {vs : List FieldValue}
    (k : ∀ s, (Call.values r vs).valsAct.slice hs HV.valsSl = some s → s.cap < s.len + vs.length) (x : HV) :
    ¬ (Call.values r vs).spoils m hs x := by
  rintro ((⟨_, _, _, k', _⟩ | ⟨_, _, _, _, _, _, k', _⟩) | (⟨_, _, k', _⟩ | ⟨_, _, _, _, _, _, _, _, k', _⟩) | ⟨_, _, k', _⟩ | ⟨s, t, h1, h2, h3, _⟩)
  · cases k'
  · cases k'
  · cases k'
  · cases k'
  · cases k'
  · exact absurd (k s h1) (Nat.not_lt.2 h3)

/-- The hypotheses of `C35_untainted`, in a history that extends a value twice: `q.Values(a)` (1), `q.Values(b)` (2), both on an empty
list. -/
example : ∃ m hs ps p, runHeap goPolicy Mem.empty [] [.insertInto (.str c!"t"), .values 0 [wVal c!"a"], .values 0 [wVal c!"b"]] = some (m, hs) ∧
    runPure [] [.insertInto (.str c!"t"), .values 0 [wVal c!"a"], .values 0 [wVal c!"b"]] = some ps ∧ ps[1]? = some p ∧
    ¬ Taint goPolicy [.insertInto (.str c!"t"), .values 0 [wVal c!"a"], .values 0 [wVal c!"b"]] 1 := by
  refine ⟨_, _, _, _, rfl, rfl, rfl, ?_⟩
  have h0 := clean_snoc (pol := goPolicy) (cs := []) (c := .insertInto (.str c!"t")) rfl (clean_nil goPolicy) (fun x => by
    rintro ((⟨_, _, _, k', _⟩ | ⟨_, _, _, _, _, _, k', _⟩) | (⟨_, _, k', _⟩ | ⟨_, _, _, _, _, _, _, _, k', _⟩) | ⟨_, _, k', _⟩ | ⟨s, t, k', _⟩) <;>
      cases k')
  have h1 := clean_snoc (pol := goPolicy) (cs := [.insertInto (.str c!"t")]) (c := .values 0 [wVal c!"a"]) rfl h0
    (values_clean fun s e => by cases e; decide)
  exact clean_snoc (pol := goPolicy) (cs := [.insertInto (.str c!"t"), .values 0 [wVal c!"a"]]) (c := .values 0 [wVal c!"b"]) rfl h1
    (values_clean fun s e => by cases e; decide) 1

/-- The value `C34_false` shows to change is one that may read wrong: `q.Values(d)` (4) after `q.Values(e)` (5). -/
example : Taint goPolicy ((wSpill3 ++ [.values 3 [wVal c!"d"]]) ++ [.values 3 [wVal c!"e"]]) 4 :=
  .spoilt rfl rfl (.inr (.inr (.inr ⟨_, _, rfl, rfl, by decide, rfl, 0, wVal c!"e", wVal c!"d", rfl, rfl, by
    intro h; exact absurd (congrArg (fun v => v.fd.fieldName) h) (by decide)⟩)))

/-- The hypotheses of `C35_culprit`: `x := g.And(d)` (7) after `g.And(e)`. -/
example : ∃ ps p, (runHeap goPolicy Mem.empty [] (wAnd ++ [.and 6 [4]])).isSome = true ∧ runPure [] (wAnd ++ [.and 6 [4]]) = some ps ∧
    ps[7]? = some p ∧ ¬ ReadsAs goPolicy goGrow (wAnd ++ [.and 6 [4]]) 7 (.render 0) (p.look (.render 0)) := by
  refine ⟨_, _, rfl, rfl, rfl, fun h => ?_⟩
  have e := readsAs_text (t := some c!"a=$1 AND b=$2 AND c=$3 AND e=$4") h (fun D => rfl)
  exact absurd ((rfl : some c!"a=$1 AND b=$2 AND c=$3 AND d=$4" = _).trans e) (by decide)

end Query
