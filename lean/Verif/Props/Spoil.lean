import Verif.Proof.SpoilApply
/-!
# C34 exactly: which call changes which earlier value

After any history, for every call: an earlier value keeps all that is read from it just if the call does not spoil it, that is, writes
no other element into a cell the value is read from.
-/
namespace Query
open Store

theorem noApply_of {c : Call} (h : c.applied = none) : c.noApply = true := by
  cases c <;> first | rfl | cases h

theorem slice_applied {c : Call} {y : Nat × (Cond → Cond)} (h : c.applied = some y) {hs : List HV} : c.condsAct.slice hs HV.condsSl = none := by
  cases c <;> first | rfl | cases h

theorem spoil_exact (pol : Policy) {m : Mem} {hs : List HV} (hb : ∀ (i : Nat) (h : HV), hs[i]? = some h → h.bnd m) (sb : StB m.conds) (c : Call)
    (m' : Mem) (v : HV) (hc : c.heap pol m hs = some (m', v)) (r : Nat) (x : HV) (hx : hs[r]? = some x) :
    x.Intact m m' ↔ ¬ c.spoils m hs x := by
  have hbx := hb r x hx
  have bc : ∀ d t, x.root = some d → d.Through m.conds t → InB m.conds t := by
    intro d t e1 e2
    refine through_bnd sb e2 ?_
    cases x <;> simp only [HV.root, Option.some.injEq, reduceCtorEq] at e1 <;> subst e1 <;> simp only [HV.bnd] at hbx
    · exact hbx
    · exact hbx.cond
    · exact hbx.cond
    · exact hbx.1.cond
    · exact hbx.cond
    · exact hbx.1
    · exact hbx
    · exact hbx.cond
    · exact hbx.cond
    · exact hbx.1.cond
  have bj : ∀ t, x.joinList = some t → InB m.joins t := by
    intro t e1
    cases x <;> simp only [HV.joinList, Option.some.injEq, reduceCtorEq] at e1 <;> subst e1 <;> simp only [HV.bnd] at hbx <;>
      first | exact hbx.joins | exact hbx.1.joins
  have bs : ∀ t, x.sortsSl = some t → InB m.sorts t := by
    intro t e1
    cases x <;> simp only [HV.sortsSl, Option.some.injEq, reduceCtorEq] at e1 <;> subst e1 <;> simp only [HV.bnd] at hbx <;> exact hbx.2
  have bv : ∀ t, x.valsSl = some t → InB m.vals t := by
    intro t e1
    cases x <;> simp only [HV.valsSl, Option.some.injEq, reduceCtorEq] at e1 <;> subst e1 <;> simp only [HV.bnd] at hbx <;>
      first | exact hbx | exact hbx.2
  constructor
  · rintro i (k | k | ⟨s, t, e1, e2, e3⟩ | ⟨s, t, e1, e2, e3⟩)
    · rcases k with ⟨s, d, t, e1, e2, e3, e4⟩ | ⟨r', f, h', a, j, k, e1, e2, e3, ⟨d, t, e4, e5, e6⟩, e7⟩
      · cases ha : c.applied with
        | none => exact (conds_call pol hb c (noApply_of ha) hc (bc d t e2 e3)).2 ⟨s, e1, e4⟩ (i.conds d t e2 e3)
        | some y => rw [slice_applied ha] at e1; cases e1
      · exact (apply_call pol c hc r' f e1 (bc d t e4 e5)).2 ⟨h', a, j, k, e2, e3, e6, e7⟩ (i.conds d t e4 e5)
    · rcases k with ⟨s, t, e1, e2, e3⟩ | ⟨r', l, l', h', s, t, n, j, e1, e2, e3, e4, e5⟩
      · exact (joins_call pol hb c hc (bj t e2)).2 (.inl ⟨s, e1, e3⟩) (i.joins t e2)
      · exact (joins_call pol hb c hc (bj t e4)).2 (.inr ⟨r', l, l', h', s, n, j, e1, e2, e3, e5⟩) (i.joins t e4)
    · exact (sorts_call pol c hc (bs t e2)).2 ⟨s, e1, e3⟩ (i.sorts t e2)
    · exact (vals_call pol c hc (bv t e2)).2 ⟨s, e1, e3⟩ (i.vals t e2)
  · intro hn
    refine ⟨fun d t e2 e3 => ?_, fun t e2 => ?_, fun t e2 => ?_, fun t e2 => ?_⟩ <;> refine Classical.byContradiction fun k => hn ?_
    · cases ha : c.applied with
      | none =>
        obtain ⟨s, e1, e4⟩ := (conds_call pol hb c (noApply_of ha) hc (bc d t e2 e3)).1 k
        exact .inl (.inl ⟨s, d, t, e1, e2, e3, e4⟩)
      | some y =>
        obtain ⟨h', a, j, k, f1, f2, f3, f4⟩ := (apply_call pol c hc y.1 y.2 ha (bc d t e2 e3)).1 k
        exact .inl (.inr ⟨y.1, y.2, h', a, j, k, ha, f1, f2, ⟨d, t, e2, e3, f3⟩, f4⟩)
    · rcases (joins_call pol hb c hc (bj t e2)).1 k with ⟨s, e1, e3⟩ | ⟨r', l, l', h', s, n, j, e1, e3, e4, e5⟩
      · exact .inr (.inl (.inl ⟨s, t, e1, e2, e3⟩))
      · exact .inr (.inl (.inr ⟨r', l, l', h', s, t, n, j, e1, e3, e4, e2, e5⟩))
    · obtain ⟨s, e1, e4⟩ := (sorts_call pol c hc (bs t e2)).1 k
      exact .inr (.inr (.inl ⟨s, t, e1, e2, e4⟩))
    · obtain ⟨s, e1, e4⟩ := (vals_call pol c hc (bv t e2)).1 k
      exact .inr (.inr (.inr ⟨s, t, e1, e2, e4⟩))

/-- **C34, exactly.**  After any history (branching, earlier overwriting, Apply calls, groups that contain themselves): a call of
any kind leaves all lists an earlier value is read through as they were, just if it does not spoil the value: if it does not append into
the spare room of an array in which one of these lists has another element at that place, is no `On` that gives one of these joins
another condition, and no `ApplyFieldSpec` or `ApplyFieldTable` that changes one of these conditions. -/
theorem C34_exact (pol : Policy) (cs : List Call) (m : Mem) (hs : List HV) (h : runHeap pol Mem.empty [] cs = some (m, hs)) (c : Call)
    (m' : Mem) (v : HV) (hc : c.heap pol m hs = some (m', v)) (r : Nat) (x : HV) (hx : hs[r]? = some x) :
    x.Intact m m' ↔ ¬ c.spoils m hs x := by
  obtain ⟨sb, hb⟩ := run_bnd0 pol cs (m, hs) h
  exact spoil_exact pol hb sb c m' v hc r x hx

theorem unspoilt_at (pol : Policy) {m : Mem} {hs : List HV} (hb : ∀ (i : Nat) (h : HV), hs[i]? = some h → h.bnd m) (sb : StB m.conds) (c : Call)
    (m' : Mem) (v : HV) (hc : c.heap pol m hs = some (m', v)) (r : Nat) (x : HV) (hx : hs[r]? = some x)
    (hn : ¬ c.spoils m hs x) :
    x.Same m m' ∧ StB m.conds ∧ x.bnd m ∧ StB m'.conds ∧ x.bnd m' ∧ ∀ s, InB m.conds s → InB m'.conds s := by
  have st := step_call pol sb hb c (m', v) hc
  have i := (spoil_exact pol hb sb c m' v hc r x hx).2 hn
  exact ⟨⟨fun d e s t => i.conds d s e t, i.joins, i.sorts, i.vals,
    fun s ib => (sparM_call pol c (m', v) hc).defs.read ib fun _ _ _ w => w⟩, sb, hb r x hx, st.1.2, (hb r x hx).mono st.1.1,
    fun s i => i.mono st.1.1.conds⟩

theorem step_unspoilt (pol : Policy) (cs : List Call) (m : Mem) (hs : List HV) (h : runHeap pol Mem.empty [] cs = some (m, hs)) (c : Call)
    (m' : Mem) (v : HV) (hc : c.heap pol m hs = some (m', v)) (r : Nat) (x : HV) (hx : hs[r]? = some x)
    (hn : ¬ c.spoils m hs x) :
    x.Same m m' ∧ StB m.conds ∧ x.bnd m ∧ StB m'.conds ∧ x.bnd m' ∧ ∀ s, InB m.conds s → InB m'.conds s := by
  obtain ⟨sb, hb⟩ := run_bnd0 pol cs (m, hs) h
  exact unspoilt_at pol hb sb c m' v hc r x hx hn

/-- **C34, what an unspoilt value reads.**  Every reading call gives after a call what it gave before, if the call does not spoil the
value; also if the call writes into cells the value is read from, as long as it writes there what was there. -/
theorem C34_unspoilt (pol : Policy) (cs : List Call) (m : Mem) (hs : List HV) (h : runHeap pol Mem.empty [] cs = some (m, hs))
    (c : Call) (m' : Mem) (v : HV) (hc : c.heap pol m hs = some (m', v)) (r : Nat) (x : HV) (hx : hs[r]? = some x)
    (hn : ¬ c.spoils m hs x) (gr gr' : Grow) (d : Nat) (par par' : Store Val) (l : Look) :
    contentNow (x.look gr' d ⟨m', par'⟩ l) = contentNow (x.look gr d ⟨m, par⟩ l) := by
  obtain ⟨k, h1, h2, h3, h4, _⟩ := step_unspoilt pol cs m hs h c m' v hc r x hx hn
  exact look_same (m := ⟨m, par⟩) (m' := ⟨m', par'⟩) gr gr' d x k h1 h2 h3 h4 l

theorem readsAs_unspoilt {pol : Policy} {gr : Grow} {cs : List Call} {c : Call} {m m' : Mem} {hs : List HV} {v : HV}
    (h : runHeap pol Mem.empty [] cs = some (m, hs)) (hc : c.heap pol m hs = some (m', v)) {r : Nat} {x : HV}
    (hx : hs[r]? = some x) (hn : ¬ c.spoils m hs x) {l : Look} {out : Res POut} (e : ReadsAs pol gr cs r l out) :
    ReadsAs pol gr (cs ++ [c]) r l out := by
  obtain ⟨k, h1, h2, h3, h4, h5⟩ := step_unspoilt pol cs m hs h c m' v hc r x hx hn
  obtain ⟨m0, hs0, x0, a1, a2, D, a3⟩ := e
  rw [h] at a1
  cases a1
  rw [hx] at a2
  cases a2
  refine ⟨m', hs ++ [v], x, ?_, ?_, D, fun d hd par => ?_⟩
  · rw [runHeap_append, h]; simp [runHeap, hc]
  · rw [List.getElem?_append_left (List.getElem?_eq_some_iff.1 hx).1]; exact hx
  · exact (reads_same (m := ⟨m, par⟩) (m' := ⟨m', par⟩) gr d x k h1 h2 h3 h4 h5 l out).2 (a3 d hd par)

theorem culprit_aux (pol : Policy) (gr : Grow) (r : Nat) (l : Look) (out : Res POut) : ∀ (cs' cs : List Call),
    (runHeap pol Mem.empty [] (cs ++ cs')).isSome = true → ReadsAs pol gr cs r l out → ¬ ReadsAs pol gr (cs ++ cs') r l out →
    ∃ cs1 c cs2 m hs x, cs' = cs1 ++ c :: cs2 ∧ runHeap pol Mem.empty [] (cs ++ cs1) = some (m, hs) ∧ hs[r]? = some x ∧ c.spoils m hs x
  | [], cs, _, h, hn => absurd (by simpa using h) hn
  | c :: cs', cs, hr, h, hn => by
    have ra : cs ++ c :: cs' = (cs ++ [c]) ++ cs' := by simp
    rw [ra] at hr hn
    have h0 := h
    obtain ⟨m, hs, x, a1, a2, _⟩ := h0
    have hr1 := hr
    rw [runHeap_append] at hr1
    cases e : runHeap pol Mem.empty [] (cs ++ [c]) with
    | none => rw [e] at hr1; cases hr1
    | some y =>
      obtain ⟨m0, hs0, v, b1, b2, _⟩ := runHeap_snoc (m' := y.1) (hs' := y.2) e
      rw [a1] at b1
      cases b1
      by_cases hit : c.spoils m hs x
      · exact ⟨[], c, cs', m, hs, x, rfl, by simpa using a1, a2, hit⟩
      · obtain ⟨cs1, c', cs2, m1, hs1, x1, e1, e2, e3, e4⟩ := culprit_aux pol gr r l out cs' (cs ++ [c])
          hr (readsAs_unspoilt a1 b2 a2 hit h) hn
        exact ⟨c :: cs1, c', cs2, m1, hs1, x1, by rw [e1]; rfl, by simpa using e2, e3, e4⟩

/-- **C34, the culprit, exactly.**  If, after any history, further calls change what reading an earlier value gives, then one of these
calls spoilt the value: it replaced something the value is read from by something else. -/
theorem C34_culprit (pol : Policy) (gr : Grow) (cs cs' : List Call) (hr : (runHeap pol Mem.empty [] (cs ++ cs')).isSome = true)
    (r : Nat) (l : Look) (h : Changes pol gr cs cs' r l) :
    ∃ cs1 c cs2 m hs x, cs' = cs1 ++ c :: cs2 ∧ runHeap pol Mem.empty [] (cs ++ cs1) = some (m, hs) ∧ hs[r]? = some x ∧ c.spoils m hs x := by
  obtain ⟨out, h1, h2⟩ := h
  exact culprit_aux pol gr r l out cs' cs hr h1 h2

/-! ## Examples -/

/-- After `q.Values(d)`, `q.Values(e)` spoils the first result, and a second `q.Values(d)` writes the same once more and spoils nothing,
although it writes into a cell the first result is read from. -/
example : ∃ m hs x v, runHeap goPolicy Mem.empty [] (wSpill3 ++ [.values 3 [wVal c!"d"]]) = some (m, hs) ∧ hs[4]? = some x ∧
    (Call.values 3 [wVal c!"d"]).heap goPolicy m hs = some v ∧ (Call.values 3 [wVal c!"d"]).hits m hs x ∧
    ¬ (Call.values 3 [wVal c!"d"]).spoils m hs x ∧ (Call.values 3 [wVal c!"e"]).spoils m hs x := by
  refine ⟨_, _, _, _, rfl, rfl, rfl, ⟨3, 3, .inr (.inr (.inr ⟨⟨_, rfl, rfl, by decide, by decide⟩, _, rfl, rfl, by decide⟩))⟩, ?_, ?_⟩
  · rintro ((⟨_, _, _, k, _⟩ | ⟨_, _, _, _, _, _, k, _⟩) | (⟨_, _, k, _⟩ | ⟨_, _, _, _, _, _, _, _, k, _⟩) | ⟨_, _, k, _⟩ | ⟨s, t, k, k', _, _, i, x, y, h1, h2, h3⟩)
    · cases k
    · cases k
    · cases k
    · cases k
    · cases k
    · cases k; cases k'
      match i, h1 with
      | 0, h1 => cases h1; cases h2; exact h3 rfl
  · exact .inr (.inr (.inr ⟨_, _, rfl, rfl, by decide, rfl, 0, wVal c!"e", wVal c!"d", rfl, rfl, by
      intro h; exact absurd (congrArg (fun v => v.fd.fieldName) h) (by decide)⟩))

/-- The hypotheses of `C34_culprit`. -/
example : (runHeap goPolicy Mem.empty [] (wWhere ++ [.where_ 8 [4]])).isSome = true ∧
    Changes goPolicy goGrow wWhere [.where_ 8 [4]] 9 .build :=
  ⟨rfl, C34_where_false⟩

/-- The spoilt condition: after `q.Where(d)`, the call `q.Where(e)` replaces the fourth condition of the first result. -/
example : ∃ m hs x, runHeap goPolicy Mem.empty [] wWhere = some (m, hs) ∧ hs[9]? = some x ∧ (Call.where_ 8 [4]).spoilsConds m hs x := by
  refine ⟨_, _, _, rfl, rfl, .inl ⟨_, _, _, rfl, rfl, .own, (by decide : (3 : Nat) + 1 ≤ 4), rfl, 0, _, _, rfl, rfl, ?_⟩⟩
  intro h; cases h

/-- `g := NewGroup(AND, a)` (number 1) is spoilt by `g.ApplyFieldTable("t")`, and not by a second such call: `a` has the table then. -/
example : ∃ m hs x, runHeap goPolicy Mem.empty [] [.leaf (wEq c!"a"), .newGroup lAND [0]] = some (m, hs) ∧ hs[1]? = some x ∧
    (Call.applyTable 1 c!"t").spoils m hs x := by
  refine ⟨_, _, _, rfl, rfl, .inl (.inr ⟨1, _, _, 0, 0, _, rfl, rfl, ⟨_, _, rfl, .own, rfl, by decide⟩, ⟨_, _, rfl, .own, rfl, by decide⟩, rfl, ?_⟩)⟩
  intro h
  exact absurd (congrArg Cond.leafFields h) (by decide)

example : ∃ m hs x, runHeap goPolicy Mem.empty [] [.leaf (wEq c!"a"), .newGroup lAND [0], .applyTable 1 c!"t"] = some (m, hs) ∧
    hs[1]? = some x ∧ (Call.applyTable 1 c!"t").hits m hs x ∧ ¬ (Call.applyTable 1 c!"t").spoils m hs x := by
  refine ⟨_, _, _, rfl, rfl, ⟨0, 0, .inl ⟨.inr ⟨rfl, 1, _, rfl, rfl, _, _, rfl, .own, rfl, by decide⟩, _, _, rfl, .own, rfl, by decide⟩⟩, ?_⟩
  rintro ((⟨_, _, _, k, _⟩ | ⟨r, f, h, a, i, k, e1, _, _, ⟨d, t, e2, e3, e4⟩, e5, e6⟩) | (⟨_, _, k, _⟩ | ⟨_, _, _, _, _, _, _, _, k, _⟩) |
    ⟨_, _, k, _⟩ | ⟨_, _, k, _⟩)
  · cases k
  · cases e1
    cases e2
    obtain ⟨rfl, l⟩ := e4
    cases e3 with
    | own =>
      match i, l, e5 with
      | 0, _, e5 => cases e5; exact e6 rfl
    | deep hc hk =>
      cases List.mem_singleton.1 hc
      cases hk
  · cases k
  · cases k
  · cases k
  · cases k

end Query
