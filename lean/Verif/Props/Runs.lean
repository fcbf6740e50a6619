import Verif.Props.Taint
import Verif.Props.Cycle
import Verif.Props.Frame
import Verif.Props.Threads
/-!
# C72, C35, C74: which histories run in memory, and what goroutines read without any condition on what they share
-/
namespace Query
open Store

/-! ## Histories that run -/

/-- The memory in which `ApplyFieldSpec` or `ApplyFieldTable` is called holds no loop below its receiver. -/
def ApplyReturns (pol : Policy) (cs : List Call) (c : Call) : Prop :=
  ∀ (m : Mem) (hs : List HV) (r : Nat) (f : Cond → Cond) (d : HCond), runHeap pol Mem.empty [] cs = some (m, hs) → c.applied = some (r, f) →
    hs[r]? = some (.cond d) → ¬ d.Loops m.conds

theorem runHeap_snoc_of {pol : Policy} {cs : List Call} {c : Call} {m : Mem} {hs : List HV} {x : Mem × HV}
    (h : runHeap pol Mem.empty [] cs = some (m, hs)) (hc : c.heap pol m hs = some x) :
    runHeap pol Mem.empty [] (cs ++ [c]) = some (x.1, hs ++ [x.2]) := by
  rw [runHeap_append, h]
  simp only [Option.bind_some, runHeap, hc]

/-- One more call. -/
theorem goes_on (pol : Policy) {cs : List Call} {c : Call} {m : Mem} {hs : List HV} {ps : List PV} {p : PV}
    (h : runHeap pol Mem.empty [] cs = some (m, hs)) (hp : runPure [] cs = some ps) (hc : c.pure ps = some p)
    (ret : ApplyReturns pol cs c) : ∃ x, c.heap pol m hs = some x := by
  cases na : c.noApply with
  | true =>
    obtain ⟨sb, hb⟩ := run_bnd0 pol cs (m, hs) h
    obtain ⟨qs, hq, l⟩ := (agree_run0 pol cs).1 (m, hs) h
    rw [hp] at hq
    cases hq
    have a := agree_call pol hb l c
    rw [hc, na] at a
    cases e : c.heap pol m hs with
    | some x => exact ⟨x, rfl⟩
    | none => rw [e] at a; simp [SameOutcome] at a
  | false =>
    obtain ⟨qs, hq, l⟩ := (agree_run0 pol cs).1 (m, hs) h
    rw [hp] at hq
    cases hq
    have key : ∀ (r : Nat) (f : Cond → Cond), c.applied = some (r, f) → (∃ d, ps[r]? = some (.cond d)) → ∃ d : HCond, hs[r]? = some (.cond d) := by
      intro r f _ ⟨d, hd⟩
      have hr : r < hs.length := by rw [l.1]; exact (List.getElem?_eq_some_iff.1 hd).1
      have lk := l.2 r _ _ (List.getElem?_eq_getElem hr) hd
      cases e : hs[r] with
      | cond d => exact ⟨d, by rw [List.getElem?_eq_getElem hr, e]⟩
      | _ => rw [e] at lk; exact lk.elim
    cases c with
    | applySpec r spec =>
      have : ∃ d, ps[r]? = some (.cond d) := by
        simp only [Call.pure] at hc
        split at hc
        · rename_i d hd; exact ⟨d, hd⟩
        · cases hc
      obtain ⟨d, hd⟩ := key r _ rfl this
      exact (C47_apply_exact pol cs m hs h r d hd spec []).1.2 (ret m hs r _ d h rfl hd)
    | applyTable r t =>
      have : ∃ d, ps[r]? = some (.cond d) := by
        simp only [Call.pure] at hc
        split at hc
        · rename_i d hd; exact ⟨d, hd⟩
        · cases hc
      obtain ⟨d, hd⟩ := key r _ rfl this
      exact (C47_apply_exact pol cs m hs h r d hd zeroFD t).2.1.2 (ret m hs r _ d h rfl hd)
    | _ => cases na

/-- A step that was made. -/
theorem went_on (pol : Policy) {cs : List Call} {c : Call} {m : Mem} {hs : List HV} {x : Mem × HV}
    (h : runHeap pol Mem.empty [] cs = some (m, hs)) (hc : c.heap pol m hs = some x) : ApplyReturns pol cs c := by
  intro m' hs' r f d h' ha hd
  rw [h] at h'
  cases h'
  cases c <;> simp only [Call.applied, Option.some.injEq, Prod.mk.injEq, reduceCtorEq] at ha
  · obtain ⟨rfl, _⟩ := ha
    exact (C47_apply_exact pol cs m hs h _ d hd _ []).1.1 ⟨x, hc⟩
  · obtain ⟨rfl, _⟩ := ha
    exact (C47_apply_exact pol cs m hs h _ d hd zeroFD _).2.1.1 ⟨x, hc⟩

theorem runs_aux (pol : Policy) : ∀ (n : Nat) (cs : List Call), cs.length = n →
    ((∃ x, runHeap pol Mem.empty [] cs = some x) ↔
      (∃ ps, runPure [] cs = some ps) ∧ ∀ cs1 c cs2, cs = cs1 ++ c :: cs2 → ApplyReturns pol cs1 c)
  | 0, cs, hn => by
    cases List.length_eq_zero_iff.1 hn
    exact ⟨fun _ => ⟨⟨_, rfl⟩, fun cs1 c cs2 e => by simp at e⟩, fun _ => ⟨_, rfl⟩⟩
  | n + 1, cs, hn => by
    have hne : cs ≠ [] := by intro e; subst e; cases hn
    obtain ⟨cs0, c, rfl⟩ : ∃ cs0 c, cs = cs0 ++ [c] := ⟨cs.dropLast, cs.getLast hne, (List.dropLast_concat_getLast hne).symm⟩
    have hn0 : cs0.length = n := by simpa using hn
    have ih := runs_aux pol n cs0 hn0
    constructor
    · rintro ⟨⟨m', hs'⟩, e⟩
      obtain ⟨m, hs, v, a1, a2, rfl⟩ := runHeap_snoc e
      obtain ⟨qs, hq, _⟩ := (agree_run0 pol (cs0 ++ [c])).1 _ e
      refine ⟨⟨qs, hq⟩, fun cs1 d cs2 es => ?_⟩
      rcases List.eq_nil_or_concat cs2 with rfl | ⟨L, b, rfl⟩
      · obtain ⟨rfl, e2⟩ := List.append_inj' es rfl
        cases e2
        exact went_on pol a1 a2
      · refine (ih.1 ⟨_, a1⟩).2 cs1 d L ?_
        have es' : cs0 ++ [c] = (cs1 ++ d :: L) ++ [b] := by rw [es]; simp
        exact (List.append_inj' es' rfl).1
    · rintro ⟨⟨qs, hq⟩, hr⟩
      obtain ⟨ps, p, b1, b2, rfl⟩ := runPure_snoc_inv hq
      obtain ⟨⟨m, hs⟩, a1⟩ := ih.2 ⟨⟨ps, b1⟩, fun cs1 d cs2 es => hr cs1 d (cs2 ++ [c]) (by rw [es]; simp)⟩
      obtain ⟨x, hx⟩ := goes_on pol a1 b1 b2 (hr cs0 c [] rfl)
      exact ⟨_, runHeap_snoc_of a1 hx⟩

/-- **C72, which calls succeed, exactly.**  Whatever values the calls share and in whatever order they are extended: the calls
succeed in memory if and only if they succeed on plain values and no `ApplyFieldSpec` or `ApplyFieldTable` is called on a condition in
which, at that time, a group contains itself. -/
theorem C72_runs_exact (pol : Policy) (cs : List Call) :
    (∃ m hs, runHeap pol Mem.empty [] cs = some (m, hs)) ↔
      (∃ ps, runPure [] cs = some ps) ∧
        ∀ cs1 c cs2 m hs, ∀ (r : Nat) (f : Cond → Cond) (d : HCond), cs = cs1 ++ c :: cs2 → c.applied = some (r, f) →
          runHeap pol Mem.empty [] cs1 = some (m, hs) → hs[r]? = some (.cond d) → ¬ d.Loops m.conds := by
  have k := runs_aux pol _ cs rfl
  constructor
  · rintro ⟨m, hs, h⟩
    obtain ⟨h1, h2⟩ := k.1 ⟨_, h⟩
    exact ⟨h1, fun cs1 c cs2 m hs r f d e a b g => h2 cs1 c cs2 e m hs r f d b a g⟩
  · rintro ⟨h1, h2⟩
    obtain ⟨⟨m, hs⟩, h⟩ := k.2 ⟨h1, fun cs1 c cs2 e m hs r f d b a g => h2 cs1 c cs2 m hs r f d e a b g⟩
    exact ⟨m, hs, h⟩

/-! ## What is not spoilt can be worked on -/

mutual
/-- What stands for a plain condition nests no deeper than it. -/
theorem rep_nested (st : Store HCond) : ∀ (c : Cond) (h : HCond), Rep st h c → h.nested st c.depth
  | .group b' cs br', h, r => by
    cases h with
    | leaf c' =>
      rw [rep_leaf_iff] at r
      have := r.2
      simp [Cond.asGroup] at this
    | group b s br =>
      simp only [Rep] at r
      rw [Cond.depth]
      simp only [HCond.nested]
      exact repL_nested st cs _ r.2.2.2.2
  | .fieldc _ _ _, h, r => by cases h <;> first | trivial | exact r.elim
  | .null _ _, h, r => by cases h <;> first | trivial | exact r.elim
  | .custom _ _, h, r => by cases h <;> first | trivial | exact r.elim
theorem repL_nested (st : Store HCond) : ∀ (cs : List Cond) (hs : List HCond), RepL st hs cs → ∀ x ∈ hs, x.nested st (Cond.depthL cs)
  | [], [], _ => by simp
  | c :: cs, h :: hs, r => by
    simp only [RepL] at r
    intro x hx
    simp only [Cond.depthL]
    rcases List.mem_cons.1 hx with rfl | hx
    · exact nested_le _ _ x (Nat.le_max_left _ _) (rep_nested st c x r.1)
    · exact nested_le _ _ x (Nat.le_max_right _ _) (repL_nested st cs hs r.2 x hx)
  | [], _ :: _, r => by simp [RepL] at r
  | _ :: _, [], r => by simp [RepL] at r
end

theorem untainted_returns (pol : Policy) (cs : List Call) (c : Call) (ht : ∀ r f, c.applied = some (r, f) → ¬ Taint pol cs r) :
    ApplyReturns pol cs c := by
  intro m hs r f d h ha hd k
  obtain ⟨ps, hp, l⟩ := (agree_run0 pol cs).1 (m, hs) h
  have hr : r < ps.length := by rw [← l.1]; exact (List.getElem?_eq_some_iff.1 hd).1
  have rp := untainted_aux pol _ cs rfl m hs ps h hp r _ _ (ht r f ha) hd (List.getElem?_eq_getElem hr)
  cases e : ps[r] with
  | cond p =>
    rw [e] at rp
    exact loops_not_nested k _ (rep_nested _ p d rp)
  | _ => rw [e] at rp; exact rp.elim

/-- **C35, what is not spoilt can be worked on.**  For every history whatsoever that succeeds on plain values, with branching and Apply
calls: if no `ApplyFieldSpec` or `ApplyFieldTable` is called on a value that may read wrong, the history succeeds in memory too, and
every value that was not spoilt, and was not made from one that was, reads in every way as the plain immutable value. -/
theorem C35_untainted_runs (pol : Policy) (gr : Grow) (cs : List Call) (ps : List PV) (hp : runPure [] cs = some ps)
    (ht : ∀ cs1 c cs2 r f, cs = cs1 ++ c :: cs2 → c.applied = some (r, f) → ¬ Taint pol cs1 r) :
    (∃ m hs, runHeap pol Mem.empty [] cs = some (m, hs) ∧ hs.length = ps.length) ∧
      ∀ (r : Nat) (p : PV), ps[r]? = some p → ¬ Taint pol cs r → ∀ l, ReadsAs pol gr cs r l (p.look l) := by
  obtain ⟨⟨m, hs⟩, h⟩ := (runs_aux pol _ cs rfl).2 ⟨⟨ps, hp⟩, fun cs1 c cs2 e => untainted_returns pol cs1 c fun r f => ht cs1 c cs2 r f e⟩
  refine ⟨⟨m, hs, h, ?_⟩, fun r p hr hn l => C35_untainted pol gr cs m hs h ps hp r p hr hn l⟩
  obtain ⟨qs, hq, k⟩ := (agree_run0 pol cs).1 (m, hs) h
  rw [hp] at hq
  cases hq
  exact k.1

/-! ## Goroutines, whatever they share -/

/-- On plain values each goroutine makes what it makes alone, whatever the turns. -/
structure Woven (cs : List Call) (prog : Nat → List Call) (P : Nat → List PV) (w : Weave) : Prop where
  le : ∀ t, (w.own t).length ≤ (prog t).length
  pure : ∃ ps, runPure [] (cs ++ w.calls) = some ps ∧
    ∀ t i v, ((P t).take (cs.length + (w.own t).length))[i]? = some v → ps[place cs.length (w.own t) i]? = some v

theorem Woven.empty {cs : List Call} {prog : Nat → List Call} {P : Nat → List PV}
    (h : ∀ t, runPure [] (cs ++ prog t) = some (P t)) : Woven cs prog P ⟨[], fun _ => []⟩ := by
  obtain ⟨ps, h0, h1⟩ := runPure_append _ _ _ _ (h 0)
  refine ⟨fun t => Nat.zero_le _, ps, by simpa using h0, fun t i v e => ?_⟩
  obtain ⟨ps', h0', h1'⟩ := runPure_append _ _ _ _ (h t)
  rw [h0] at h0'; cases h0'
  obtain ⟨x, hx⟩ := (runPure_prefix _ _ _ h1').1
  have l1 : ps.length = cs.length := by have := (runPure_prefix _ _ _ h0).2; simpa using this
  simp only [List.length_nil, Nat.add_zero] at e
  rw [← hx, List.take_append_of_le_length (by omega), List.take_of_length_le (by omega)] at e
  have hi := (List.getElem?_eq_some_iff.1 e).1
  rw [place_shared _ _ (by omega)]; exact e

theorem Woven.step {cs : List Call} {prog : Nat → List Call} {P : Nat → List PV} {w : Weave}
    (h : ∀ t, runPure [] (cs ++ prog t) = some (P t)) (inv : Woven cs prog P w) (t : Nat) :
    Woven cs prog P (w.step cs.length prog t) := by
  simp only [Weave.step]
  split
  · exact inv
  · rename_i c hc
    have hk : (w.own t).length < (prog t).length := (List.getElem?_eq_some_iff.1 hc).1
    obtain ⟨v, hv, hat⟩ := alone_at (h t) hc
    have lenP : (P t).length = cs.length + (prog t).length := by rw [(runPure_prefix _ _ _ (h t)).2]; simp
    obtain ⟨ps, hp, hread⟩ := inv.pure
    have lenps : ps.length = cs.length + w.calls.length := by rw [(runPure_prefix _ _ _ hp).2]; simp
    refine ⟨fun u => ?_, ps ++ [v], ?_, ?_⟩
    · simp only
      split
      · rename_i hu; subst hu; simp; omega
      · exact inv.le u
    · simp only [← List.append_assoc]
      exact runPure_snoc hp (pure_rename (fun i v e => hread t i v e) c v hv)
    · intro u i x hx
      by_cases hu : u = t
      · subst hu
        simp only [if_true, List.length_append, List.length_singleton] at hx ⊢
        by_cases hi : i < cs.length + (w.own u).length
        · rw [place_snoc hi]
          have e := hread u i x (by
            rw [List.getElem?_take] at hx ⊢
            rw [if_pos hi]; rw [if_pos (by omega)] at hx; exact hx)
          rw [List.getElem?_append_left (List.getElem?_eq_some_iff.1 e).1]; exact e
        · have hi' : i < cs.length + (w.own u).length + 1 := by
            have := (List.getElem?_eq_some_iff.1 hx).1; rw [List.length_take] at this; omega
          have : i = cs.length + (w.own u).length := by omega
          subst this
          rw [List.getElem?_take, if_pos (by omega), hat] at hx
          cases hx
          rw [place_last, ← lenps]; simp
      · simp only [hu, if_false] at hx ⊢
        have e := hread u i x hx
        rw [List.getElem?_append_left (List.getElem?_eq_some_iff.1 e).1]; exact e

theorem weave_plain {cs : List Call} {prog : Nat → List Call} {P : Nat → List PV}
    (h : ∀ t, runPure [] (cs ++ prog t) = some (P t)) (sched : List Nat) : Woven cs prog P (weave cs.length prog sched) := by
  have key : ∀ (sched : List Nat) (w : Weave), Woven cs prog P w → Woven cs prog P (sched.foldl (Weave.step cs.length prog) w) := by
    intro sched
    induction sched with
    | nil => exact fun w i => i
    | cons t ts ih => exact fun w i => ih _ (i.step h t)
  exact key sched _ (.empty h)

/-- **C74, without any condition on what the goroutines share.**  Some values are made first; then goroutines go on, each with calls on
these values and on values of its own, in any order of turns, extending what they like.  Every value of a goroutine that no call of any
goroutine spoilt, and that was made from such values only, reads in every way as the goroutine's own calls say.  (That the calls
together succeed in memory is `C72_runs_exact`; they do if none is `ApplyFieldSpec` or `ApplyFieldTable`.) -/
theorem C74_untainted (pol : Policy) (gr : Grow) (cs : List Call) (prog : Nat → List Call) (P : Nat → List PV)
    (h : ∀ t, runPure [] (cs ++ prog t) = some (P t)) (sched : List Nat)
    (hh : (runHeap pol Mem.empty [] (cs ++ (weave cs.length prog sched).calls)).isSome = true) (t i : Nat)
    (hi : i < cs.length + ((weave cs.length prog sched).own t).length)
    (ht : ¬ Taint pol (cs ++ (weave cs.length prog sched).calls) (place cs.length ((weave cs.length prog sched).own t) i)) :
    ∃ p, (P t)[i]? = some p ∧ ∀ l,
      ReadsAs pol gr (cs ++ (weave cs.length prog sched).calls) (place cs.length ((weave cs.length prog sched).own t) i) l (p.look l) := by
  have inv := weave_plain h sched
  obtain ⟨ps, hp, hread⟩ := inv.pure
  obtain ⟨⟨m, hs⟩, e⟩ := Option.isSome_iff_exists.1 hh
  have hlt : i < (P t).length := by
    have e := (runPure_prefix _ _ _ (h t)).2
    have := inv.le t
    simp only [List.length_append, List.length_nil] at e
    omega
  refine ⟨(P t)[i], List.getElem?_eq_getElem hlt, fun l => ?_⟩
  refine C35_untainted pol gr _ m hs e ps hp _ _ (hread t i _ ?_) ht l
  rw [List.getElem?_take_of_lt hi]; exact List.getElem?_eq_getElem hlt

/-- **C74, the culprit.**  If a value of a goroutine reads otherwise than the goroutine's own calls say, some call of some goroutine
replaced something an earlier value is read from by something else. -/
theorem C74_culprit (pol : Policy) (gr : Grow) (cs : List Call) (prog : Nat → List Call) (P : Nat → List PV)
    (h : ∀ t, runPure [] (cs ++ prog t) = some (P t)) (sched : List Nat)
    (hn : (∀ c ∈ cs, c.noApply = true) ∧ ∀ t, ∀ c ∈ prog t, c.noApply = true) (t i : Nat)
    (hi : i < cs.length + ((weave cs.length prog sched).own t).length) (p : PV) (hpi : (P t)[i]? = some p) (l : Look)
    (hne : ¬ ReadsAs pol gr (cs ++ (weave cs.length prog sched).calls) (place cs.length ((weave cs.length prog sched).own t) i) l (p.look l)) :
    ∃ cs1 c cs2 m hs, ∃ (j : Nat) (x : HV), cs ++ (weave cs.length prog sched).calls = cs1 ++ c :: cs2 ∧
      runHeap pol Mem.empty [] cs1 = some (m, hs) ∧ hs[j]? = some x ∧ c.spoils m hs x := by
  have inv := weave_plain h sched
  obtain ⟨ps, hp, _⟩ := inv.pure
  have na : ∀ c ∈ cs ++ (weave cs.length prog sched).calls, c.noApply = true := fun c hc => by
    rcases List.mem_append.1 hc with h1 | h1
    · exact hn.1 c h1
    · exact weave_noApply hn.2 sched c h1
  obtain ⟨m, hs, e⟩ := C72_runs pol _ na ps hp
  refine Classical.byContradiction fun no => hne ?_
  obtain ⟨q, hq, k⟩ := C74_untainted pol gr cs prog P h sched (by rw [e]; rfl) t i hi fun t => no (taint_culprit t)
  rw [hpi] at hq
  cases hq
  exact k l

/-! ## Examples -/

/-- Calls that succeed on plain values, but not in memory: `ApplyFieldTable` on a condition in which a group contains itself. -/
example : (∃ ps, runPure [] (wCycle ++ [.applyTable 8 c!"t"]) = some ps) ∧
    runHeap goPolicy Mem.empty [] (wCycle ++ [.applyTable 8 c!"t"]) = none := ⟨⟨_, rfl⟩, rfl⟩

/-- The hypotheses of `C35_untainted_runs`, with an Apply call. -/
example : (∃ ps, runPure [] [.leaf (wEq c!"a"), .applyTable 0 c!"t"] = some ps) ∧
    ∀ cs1 c cs2 r f, [Call.leaf (wEq c!"a"), .applyTable 0 c!"t"] = cs1 ++ c :: cs2 → c.applied = some (r, f) → ¬ Taint goPolicy cs1 r := by
  refine ⟨⟨_, rfl⟩, fun cs1 c cs2 r f e ha => ?_⟩
  match cs1, e with
  | [], e => cases e; cases ha
  | [x], e =>
    cases e
    refine clean_snoc (pol := goPolicy) (cs := []) (c := .leaf (wEq c!"a")) rfl (clean_nil goPolicy) (fun x => ?_) r
    rintro ((⟨_, _, _, k', _⟩ | ⟨_, _, _, _, _, _, k', _⟩) | (⟨_, _, k', _⟩ | ⟨_, _, _, _, _, _, _, _, k', _⟩) | ⟨_, _, k', _⟩ | ⟨s, t, k', _⟩) <;>
      cases k'
  | x :: y :: zs, e =>
    simp only [List.cons_append, List.cons.injEq] at e
    exact absurd e.2.2 (by simp)

/-- An insert with one value, made first. -/
def wOne : List Call := [.insertInto (.str c!"t"), .values 0 [wVal c!"k"]]

/-- Two goroutines that add values to it. -/
def wRace : Nat → List Call
  | 0 => [.values 1 [wVal c!"a"]]
  | 1 => [.values 1 [wVal c!"b"]]
  | _ => []

/-- They do not keep apart, and yet nothing is spoilt: the hypotheses of `C74_untainted`. -/
example : ¬ KeepApart wOne wRace ∧
    (weave 2 wRace [0, 1]).calls = [.values 1 [wVal c!"a"], .values 1 [wVal c!"b"]] ∧ (weave 2 wRace [0, 1]).own 0 = [2] ∧
    (runHeap goPolicy Mem.empty [] (wOne ++ (weave 2 wRace [0, 1]).calls)).isSome = true ∧
    ¬ Taint goPolicy (wOne ++ (weave 2 wRace [0, 1]).calls) (place 2 ((weave 2 wRace [0, 1]).own 0) 2) := by
  refine ⟨fun k => k.shared Call.valsAct (by simp) 0 1 (by decide) 1 (by decide) (by decide) (by decide), rfl, rfl, rfl, ?_⟩
  have h0 := clean_snoc (pol := goPolicy) (cs := []) (c := .insertInto (.str c!"t")) rfl (clean_nil goPolicy) (fun x => by
    rintro ((⟨_, _, _, k', _⟩ | ⟨_, _, _, _, _, _, k', _⟩) | (⟨_, _, k', _⟩ | ⟨_, _, _, _, _, _, _, _, k', _⟩) | ⟨_, _, k', _⟩ | ⟨s, t, k', _⟩) <;>
      cases k')
  have h1 := clean_snoc (pol := goPolicy) (cs := [.insertInto (.str c!"t")]) (c := .values 0 [wVal c!"k"]) rfl h0
    (values_clean fun s e => by cases e; decide)
  have h2 := clean_snoc (pol := goPolicy) (cs := wOne) (c := .values 1 [wVal c!"a"]) rfl h1
    (values_clean fun s e => by cases e; decide)
  exact clean_snoc (pol := goPolicy) (cs := wOne ++ [.values 1 [wVal c!"a"]]) (c := .values 1 [wVal c!"b"]) rfl h2
    (values_clean fun s e => by cases e; decide) 2

set_option maxHeartbeats 2000000 in
/-- The hypotheses of `C74_culprit`: two goroutines add a condition to the same select. -/
example : ∃ p, (runPure [] (wWhere.take 9 ++ wTwo 0)).bind (·[9]?) = some p ∧ place 9 ((weave 9 wTwo [0, 1]).own 0) 9 = 9 ∧
    ¬ ReadsAs goPolicy goGrow (wWhere.take 9 ++ (weave 9 wTwo [0, 1]).calls) 9 .build (p.look .build) := by
  refine ⟨_, rfl, rfl, fun h => ?_⟩
  have e := readsAs_text (t := some c!"SELECT * FROM t WHERE a=$1 AND b=$2 AND c=$3 AND e=$4") h (fun D => rfl)
  exact absurd ((rfl : some c!"SELECT * FROM t WHERE a=$1 AND b=$2 AND c=$3 AND d=$4" = _).trans e) (by decide)

end Query
