import Verif.Spec.PassedTaint
import Verif.Props.Taint
import Verif.Props.Passed
/-!
# C73: in any program that passes lists, what was not spoilt reads as plain values

No condition on the program: values may be extended many times, joins completed twice, and `ApplyFieldSpec` and `ApplyFieldTable` be
called.  A value reads otherwise than the plain value made of the elements the lists held at the time of each call only if a call
spoilt it, or spoilt a value it was made from.  Writing into a list never does.
-/
namespace Query
open Store

theorem runProg_snoc {pol : Policy} {p : PStep} {s' : Prog} : ∀ {steps : List PStep} {s : Prog}, runProg pol s (steps ++ [p]) = some s' →
    ∃ s0, runProg pol s steps = some s0 ∧ p.run pol s0 = some s'
  | [], s, h => by
    simp only [List.nil_append, runProg] at h
    split at h
    · rename_i s1 e; cases h; exact ⟨s, rfl, e⟩
    · cases h
  | q :: steps, s, h => by
    simp only [List.cons_append, runProg] at h ⊢
    split at h
    · rename_i s1 e
      obtain ⟨s0, h1, h2⟩ := runProg_snoc h
      exact ⟨s0, h1, h2⟩
    · cases h

theorem spellOut_snoc {p : PStep} : ∀ {steps : List PStep} {ps : List PV} {ls : List PLst} {cs' : List Call} {ps' : List PV} {ls' : List PLst},
    spellOut ps ls (steps ++ [p]) = some (cs', ps', ls') →
    ∃ cs0 ps0 ls0, spellOut ps ls steps = some (cs0, ps0, ls0) ∧
      ((p.spell ps0 ls0 = some (none, ls') ∧ ps' = ps0) ∨ ∃ c v, p.spell ps0 ls0 = some (some c, ls') ∧ c.pure ps0 = some v ∧ ps' = ps0 ++ [v])
  | [], ps, ls, cs', ps', ls', h => by
    refine ⟨[], ps, ls, rfl, ?_⟩
    simp only [List.nil_append, spellOut] at h
    split at h
    · cases h
    · rename_i e; cases h; exact .inl ⟨e, rfl⟩
    · rename_i c L e
      split at h
      · cases h
      · rename_i v ev
        cases h
        exact .inr ⟨c, v, e, ev, rfl⟩
  | q :: steps, ps, ls, cs', ps', ls', h => by
    simp only [List.cons_append, spellOut] at h ⊢
    split at h
    · cases h
    · rename_i e
      obtain ⟨cs0, ps0, ls0, h1, h2⟩ := spellOut_snoc h
      exact ⟨cs0, ps0, ls0, h1, h2⟩
    · rename_i c L e
      split at h
      · cases h
      · rename_i v ev
        cases hr : spellOut (ps ++ [v]) L (steps ++ [p]) with
        | none => rw [hr] at h; cases h
        | some y =>
          obtain ⟨cs1, ps1, ls1⟩ := y
          rw [hr] at h
          cases h
          obtain ⟨cs0, ps0, ls0, h1, h2⟩ := spellOut_snoc hr
          refine ⟨c :: cs0, ps0, ls0, ?_, h2⟩
          simp only [h1, Option.map_some]

/-- A step that is no call is a step on lists, and both accounts of the lists agree. -/
theorem spell_none {p : PStep} {ps : List PV} {L L' : List PLst} (h : p.spell ps L = some (none, L')) : p.onList = true ∧ L' = p.lists L := by
  cases p <;> simp only [PStep.spell] at h
  · cases h
  · cases hg : getConds ps _ <;> rw [hg] at h <;> cases h
    exact ⟨rfl, rfl⟩
  · cases h; exact ⟨rfl, rfl⟩
  · cases h; exact ⟨rfl, rfl⟩
  · cases h; exact ⟨rfl, rfl⟩
  · split at h
    · rename_i hu hn
      split at h
      · cases h; exact ⟨rfl, by simp only [PStep.lists, hu]⟩
      · cases h
    · cases h
  · split at h
    · rename_i hu
      split at h
      · cases h; exact ⟨rfl, by simp only [PStep.lists, hu]⟩
      · cases h
    · cases h
  · split at h
    · rename_i hu
      split at h
      · cases h; exact ⟨rfl, by simp only [PStep.lists, hu]⟩
      · cases h
    · cases h
  · split at h
    · rename_i hu
      split at h
      · cases h; exact ⟨rfl, by simp only [PStep.lists, hu]⟩
      · cases h
    · cases h
  all_goals (split at h <;> cases h)

theorem pass_aux (pol : Policy) : ∀ (n : Nat) (steps : List PStep), steps.length = n → ∀ (s : Prog) (cs : List Call) (ps : List PV) (L : List PLst),
    runProg pol Prog.empty steps = some s → spellOut [] [] steps = some (cs, ps, L) →
    PInv s L ∧ s.hs.length = ps.length ∧
      ∀ (i : Nat) (h : HV) (p : PV), ¬ PassTaint pol steps i → s.hs[i]? = some h → ps[i]? = some p → RepV s.mem h p
  | 0, steps, hn, s, cs, ps, L, e1, e2 => by
    cases List.length_eq_zero_iff.1 hn
    cases e1
    cases e2
    exact ⟨PInv.empty, rfl, fun i h p _ hi _ => by simp [Prog.empty] at hi⟩
  | n + 1, steps, hn, s, cs, ps, L, e1, e2 => by
    have hne : steps ≠ [] := by intro e; subst e; cases hn
    obtain ⟨st0, q, rfl⟩ : ∃ st0 q, steps = st0 ++ [q] := ⟨steps.dropLast, steps.getLast hne, (List.dropLast_concat_getLast hne).symm⟩
    have hn0 : st0.length = n := by simpa using hn
    obtain ⟨s0, a1, a2⟩ := runProg_snoc e1
    obtain ⟨cs0, ps0, L0, b1, b2⟩ := spellOut_snoc e2
    obtain ⟨pi, hl, ih⟩ := pass_aux pol n st0 hn0 s0 cs0 ps0 L0 a1 b1
    rcases b2 with ⟨e, rfl⟩ | ⟨c, v, e, ev, rfl⟩
    · obtain ⟨ho, rfl⟩ := spell_none e
      obtain ⟨eh, ag⟩ := onList_agr pol q ho a2
      refine ⟨pi.step pol q a2, by rw [eh]; exact hl, fun i h p ht hi hp => ?_⟩
      rw [eh] at hi
      exact (ih i h p (fun t => ht (.stays t)) hi hp).agr ag pi.away.conds.off (pi.off i h hi)
    · obtain ⟨ho, rfl, ec⟩ := spell_call q e
      have er := run_asCall pol pi q ho
      rw [Called, a2, ec] at er
      simp only [Option.bind_some] at er
      cases hx : c.heap pol s0.mem s0.hs with
      | none => rw [hx] at er; cases er
      | some x =>
        rw [hx] at er
        cases er
        obtain ⟨m, w⟩ := x
        have ca : CallAt st0 q c ps0.length := ⟨cs0, ps0, L, L, b1, e, rfl⟩
        have st := step_call pol pi.stb pi.bnd c (m, w) hx
        have hk : ∀ sl, InB s0.mem.conds sl → InB m.conds sl := fun sl i => i.mono st.1.1.conds
        refine ⟨(pi.made pol hx).1, by simp [Prog.made, hl], fun i h p ht hi hpi => ?_⟩
        rcases Nat.lt_or_ge i ps0.length with hlt | hge
        · simp only [Prog.made] at hi
          rw [List.getElem?_append_left (by omega)] at hi hpi
          have r0 := ih i h p (fun t => ht (.stays t)) hi hpi
          obtain ⟨k1, _, k3, _, k5, _⟩ := unspoilt_at pol pi.bnd pi.stb c m w hx i h hi (fun s => ht (.spoilt a1 ca hi s))
          exact repV_same pi.stb hk h k3 k5 k1 p r0
        · have hi' := (List.getElem?_eq_some_iff.1 hpi).1
          have : i = ps0.length := by simp at hi'; omega
          subst this
          simp only [Prog.made] at hi
          rw [List.getElem?_append_right (by omega), hl, Nat.sub_self] at hi
          rw [List.getElem?_append_right (by omega), Nat.sub_self] at hpi
          cases hi
          cases hpi
          refine made_stands pol pi.stb c hx hk ev (fun j hj p hp => ?_) (fun hc ha j hj x hx' => ?_)
          · have hj0 : j < s0.hs.length := by rw [hl]; exact (List.getElem?_eq_some_iff.1 hp).1
            exact ⟨_, List.getElem?_eq_getElem hj0, ih j _ p (fun t => ht (.made ca hj t)) (List.getElem?_eq_getElem hj0) hp⟩
          · exact (unspoilt_at pol pi.bnd pi.stb c m w hx j x hx' (fun s => ht (.own a1 ca hc ha hj hx' s))).1

/-- **C73, in any program.**  For every program that passes lists and writes into them, with no condition on how its values are shared
or extended and with Apply calls: at the end every list holds just what the program has put in; and a value that no call spoilt, and
that was made from such values only, reads in every way as the plain value of the program with the elements the lists held at the
time of each call written out.  Missing from the property: slices given as values (`C73_value_slice_false`). -/
theorem C73_untainted_partial (pol : Policy) (gr : Grow) (steps : List PStep) (s : Prog) (h : runProg pol Prog.empty steps = some s)
    (cs : List Call) (ps : List PV) (ls : List PLst) (hp : spellOut [] [] steps = some (cs, ps, ls)) :
    (s.ls.length = ls.length ∧ ∀ (u : Nat) (l : Lst) (pl : PLst), s.ls[u]? = some l → ls[u]? = some pl → l.Holds s pl) ∧
    ∀ (r : Nat) (p : PV), ps[r]? = some p → ¬ PassTaint pol steps r → ∀ l, s.ReadsAs gr r l (p.look l) := by
  obtain ⟨pi, hl, k⟩ := pass_aux pol _ steps rfl s cs ps ls h hp
  refine ⟨⟨pi.len, pi.holds⟩, fun r p hr ht l => ?_⟩
  have hr0 : r < s.hs.length := by rw [hl]; exact (List.getElem?_eq_some_iff.1 hr).1
  have hx := List.getElem?_eq_getElem hr0
  refine ⟨s.hs[r], hx, p.depth, fun d hd par => ?_⟩
  have sv : Serves s.mem d s.hs[r] p := .inl ⟨k r _ p ht hx hr, hd⟩
  exact (look_serves gr d ⟨s.mem, par⟩ _ p sv l).imp fun a b q => q.2.1

theorem passTaint_culprit {pol : Policy} {steps : List PStep} {r : Nat} (t : PassTaint pol steps r) :
    ∃ st1 p st2 c n s, ∃ (i : Nat) (x : HV), steps = st1 ++ p :: st2 ∧ runProg pol Prog.empty st1 = some s ∧ CallAt st1 p c n ∧
      s.hs[i]? = some x ∧ c.spoils s.mem s.hs x := by
  induction t with
  | @spoilt st p c n s i x h1 h0 h2 h3 => exact ⟨st, p, [], c, n, s, i, x, rfl, h1, h0, h2, h3⟩
  | @stays st p i _ ih =>
    obtain ⟨st1, q, st2, c, n, s, j, x, e, h⟩ := ih
    exact ⟨st1, q, st2 ++ [p], c, n, s, j, x, by rw [e]; simp, h⟩
  | @made st p c n i _ _ _ ih =>
    obtain ⟨st1, q, st2, c, n, s, j, x, e, h⟩ := ih
    exact ⟨st1, q, st2 ++ [p], c, n, s, j, x, by rw [e]; simp, h⟩
  | @own st p c n s i x h1 h0 _ _ _ h2 h3 => exact ⟨st, p, [], c, n, s, i, x, rfl, h1, h0, h2, h3⟩

/-- **C73, the culprit.**  If some value of some program that passes lists reads otherwise than the plain value with the elements
written out, then some step was a call that replaced something an earlier value is read from by something else.  That step made no
list and wrote into none: what the program does with its own lists is never to blame. -/
theorem C73_culprit_partial (pol : Policy) (gr : Grow) (steps : List PStep) (s : Prog) (h : runProg pol Prog.empty steps = some s)
    (cs : List Call) (ps : List PV) (ls : List PLst) (hp : spellOut [] [] steps = some (cs, ps, ls)) (r : Nat) (p : PV)
    (hr : ps[r]? = some p) (l : Look) (hne : ¬ s.ReadsAs gr r l (p.look l)) :
    ∃ st1 q st2 c n s1, ∃ (i : Nat) (x : HV), steps = st1 ++ q :: st2 ∧ runProg pol Prog.empty st1 = some s1 ∧ CallAt st1 q c n ∧
      q.isPut = false ∧ s1.hs[i]? = some x ∧ c.spoils s1.mem s1.hs x := by
  have t : PassTaint pol steps r := Classical.byContradiction fun ht =>
    hne ((C73_untainted_partial pol gr steps s h cs ps ls hp).2 r p hr ht l)
  obtain ⟨st1, q, st2, c, n, s1, i, x, e1, e2, e3, e4⟩ := passTaint_culprit t
  refine ⟨st1, q, st2, c, n, s1, i, x, e1, e2, e3, ?_, e4⟩
  obtain ⟨_, _, _, _, _, e, _⟩ := e3
  have := (spell_call q e).1
  cases q <;> first | rfl | cases this

/-! ## Examples -/

theorem pass_clean_nil (pol : Policy) (i : Nat) : ¬ PassTaint pol [] i := by
  intro t
  generalize e : ([] : List PStep) = ds at t
  cases t <;> simp at e

/-- A step that spoils no earlier value. -/
theorem pass_clean_snoc {pol : Policy} {steps : List PStep} {p : PStep} {s : Prog} (h : runProg pol Prog.empty steps = some s)
    (k : ∀ i, ¬ PassTaint pol steps i) (hn : ∀ c n, CallAt steps p c n → ∀ x, ¬ c.spoils s.mem s.hs x) (i : Nat) : ¬ PassTaint pol (steps ++ [p]) i := by
  intro t
  generalize e : steps ++ [p] = ds at t
  cases t with
  | spoilt h1 h0 h2 h3 =>
    obtain ⟨rfl, e2⟩ := List.append_inj' e rfl
    cases e2
    rw [h] at h1
    cases h1
    exact hn _ _ h0 _ h3
  | stays t =>
    obtain ⟨rfl, e2⟩ := List.append_inj' e rfl
    exact k _ t
  | made _ _ t =>
    obtain ⟨rfl, e2⟩ := List.append_inj' e rfl
    exact k _ t
  | own h1 h0 _ _ _ _ h3 =>
    obtain ⟨rfl, e2⟩ := List.append_inj' e rfl
    cases e2
    rw [h] at h1
    cases h1
    exact hn _ _ h0 _ h3

theorem CallAt.known {steps : List PStep} {p : PStep} {c c' : Call} {n n' : Nat} (h : CallAt steps p c n) (h' : CallAt steps p c' n') : c = c' := by
  obtain ⟨_, _, _, _, e1, e2, _⟩ := h
  obtain ⟨_, _, _, _, e3, e4, _⟩ := h'
  rw [e1] at e3
  cases e3
  rw [e2] at e4
  cases e4
  rfl

/-- `list := []FieldValue{a}; x := q.Values(list...)` (1)`; list[0] = b; y := q.Values(list...)` (2). -/
def wPassTwice : List PStep :=
  [.call (.insertInto (.str c!"t")), .listVals [wVal c!"a"], .values 0 0, .putVal 0 0 (wVal c!"b"), .values 0 0]

/-- The hypotheses of `C73_untainted_partial`, in a program that extends a value twice with one list. -/
example : ∃ s cs ps ls p, runProg goPolicy Prog.empty wPassTwice = some s ∧ spellOut [] [] wPassTwice = some (cs, ps, ls) ∧ ps[1]? = some p ∧
    ¬ PassTaint goPolicy wPassTwice 1 := by
  refine ⟨_, _, _, _, _, rfl, rfl, rfl, ?_⟩
  have h0 := pass_clean_snoc (pol := goPolicy) (steps := []) (p := .call (.insertInto (.str c!"t"))) rfl (pass_clean_nil goPolicy) (fun c n hc x => by
    cases hc.known (c' := .insertInto (.str c!"t")) ⟨_, _, _, _, rfl, rfl, rfl⟩
    rintro ((⟨_, _, _, k', _⟩ | ⟨_, _, _, _, _, _, k', _⟩) | (⟨_, _, k', _⟩ | ⟨_, _, _, _, _, _, _, _, k', _⟩) | ⟨_, _, k', _⟩ | ⟨s, t, k', _⟩) <;>
      cases k')
  have h1 := pass_clean_snoc (pol := goPolicy) (steps := wPassTwice.take 1) (p := .listVals [wVal c!"a"]) rfl h0 (fun c n hc x => by
    obtain ⟨_, _, _, _, e1, e2, _⟩ := hc
    cases e1
    cases e2)
  have h2 := pass_clean_snoc (pol := goPolicy) (steps := wPassTwice.take 2) (p := .values 0 0) rfl h1 (fun c n hc x => by
    cases hc.known (c' := .values 0 [wVal c!"a"]) ⟨_, _, _, _, rfl, rfl, rfl⟩
    exact values_clean (fun s e => by cases e; decide) x)
  have h3 := pass_clean_snoc (pol := goPolicy) (steps := wPassTwice.take 3) (p := .putVal 0 0 (wVal c!"b")) rfl h2 (fun c n hc x => by
    obtain ⟨_, _, _, _, e1, e2, _⟩ := hc
    cases e1
    cases e2)
  exact pass_clean_snoc (pol := goPolicy) (steps := wPassTwice.take 4) (p := .values 0 0) rfl h3 (fun c n hc x => by
    cases hc.known (c' := .values 0 [wVal c!"b"]) ⟨_, _, _, _, rfl, rfl, rfl⟩
    exact values_clean (fun s e => by cases e; decide) x) 1

/-- The inserts read as said: the first has the value the list held then. -/
example : progText wPassTwice 1 .build 9 = some c!"INSERT INTO t(a) VALUES ($1)" ∧
    progText wPassTwice 2 .build 9 = some c!"INSERT INTO t(b) VALUES ($1)" := by decide +kernel

/-- An insert with room behind its three values; then `q.Values(list...)` (4), `list[0] = e`, and again `q.Values(list...)` (5). -/
def wPassSpill : List PStep :=
  wSpill3.map PStep.call ++ [.listVals [wVal c!"d"], .values 3 0, .putVal 0 0 (wVal c!"e"), .values 3 0]

/-- The value made first is one that may read wrong, by the second call and not by the assignment. -/
example : PassTaint goPolicy wPassSpill 4 ∧ (∀ i, PassTaint goPolicy (wPassSpill.take 7) i ↔ PassTaint goPolicy (wPassSpill.take 6) i) := by
  refine ⟨.spoilt (steps := wPassSpill.take 7) (p := .values 3 0) (c := .values 3 [wVal c!"e"]) rfl ⟨_, _, _, _, rfl, rfl, rfl⟩ rfl
    (.inr (.inr (.inr ⟨_, _, rfl, rfl, by decide, rfl, 0, wVal c!"e", wVal c!"d", rfl, rfl, by
      intro h; exact absurd (congrArg (fun v => v.fd.fieldName) h) (by decide)⟩))), fun i => ⟨fun t => ?_, fun t => ?_⟩⟩
  · generalize e : wPassSpill.take 7 = ds at t
    have e' : wPassSpill.take 6 ++ [.putVal 0 0 (wVal c!"e")] = ds := e
    have no : ∀ c n, ¬ CallAt (wPassSpill.take 6) (.putVal 0 0 (wVal c!"e")) c n := fun c n hc => by
      obtain ⟨_, _, _, _, e1, e2, _⟩ := hc
      cases e1
      cases e2
    cases t with
    | spoilt _ h0 _ _ =>
      obtain ⟨rfl, e2⟩ := List.append_inj' e' rfl
      cases e2
      exact absurd h0 (no _ _)
    | stays t =>
      obtain ⟨rfl, e2⟩ := List.append_inj' e' rfl
      exact t
    | made h0 _ _ =>
      obtain ⟨rfl, e2⟩ := List.append_inj' e' rfl
      cases e2
      exact absurd h0 (no _ _)
    | own _ h0 _ _ _ _ _ =>
      obtain ⟨rfl, e2⟩ := List.append_inj' e' rfl
      cases e2
      exact absurd h0 (no _ _)
  · exact .stays (p := .putVal 0 0 (wVal c!"e")) t

/-- The hypotheses of `C73_culprit_partial`: the insert made first reads the value the list held later. -/
example : ∃ s cs ps ls p, runProg goPolicy Prog.empty wPassSpill = some s ∧ spellOut [] [] wPassSpill = some (cs, ps, ls) ∧ ps[4]? = some p ∧
    ¬ s.ReadsAs goGrow 4 .build (p.look .build) := by
  refine ⟨_, _, _, _, _, rfl, rfl, rfl, fun h => ?_⟩
  obtain ⟨x, e, D, h⟩ := h
  cases e
  have k := text_rep (h (D + 12) (by omega) [])
  have e2 : (some c!"INSERT INTO t(a, b, c, e) VALUES ($1, $2, $3, $4)" : Option Str) = some c!"INSERT INTO t(a, b, c, d) VALUES ($1, $2, $3, $4)" := k
  exact absurd e2 (by decide)

end Query
