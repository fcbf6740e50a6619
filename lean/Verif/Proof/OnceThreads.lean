import Verif.Spec.OnceThreads
import Verif.Proof.Threads
import Verif.Props.Once
/-!
# Goroutines that use values once: so do all their calls together
-/
namespace Query

theorem operands_rename (f : Nat → Nat) (c : Call) : (c.rename f).operands = c.operands.map f := by cases c <;> rfl

theorem leaf_append {cs cs' : List Call} {i : Nat} (h : i < cs.length) : madeAsLeaf (cs ++ cs') i = madeAsLeaf cs i := by
  simp only [madeAsLeaf, List.getElem?_append_left h]

/-- What is known after some turns of the values of the goroutines. -/
structure TurnsInv (cs : List Call) (prog : Nat → List Call) (P : Nat → List PV) (w : Weave) : Prop where
  own : OwnInv cs.length w
  le : ∀ t, (w.own t).length ≤ (prog t).length
  pure : ∃ ps, runPure [] (cs ++ w.calls) = some ps ∧
    ∀ t i v, ((P t).take (cs.length + (w.own t).length))[i]? = some v → ps[place cs.length (w.own t) i]? = some v
  nod : UsedOnce (cs ++ w.calls)
  src : ∀ x ∈ w.calls.flatMap Call.operands, ∃ t y, y ∈ ((prog t).take (w.own t).length).flatMap Call.operands ∧
    x = place cs.length (w.own t) y ∧ y < cs.length + (w.own t).length
  leaf : ∀ t i, i < cs.length + (w.own t).length →
    madeAsLeaf (cs ++ w.calls) (place cs.length (w.own t) i) = madeAsLeaf (cs ++ prog t) i

theorem TurnsInv.empty {cs : List Call} {prog : Nat → List Call} {P : Nat → List PV} (ap : OnceApart cs prog)
    (h : ∀ t, runPure [] (cs ++ prog t) = some (P t)) : TurnsInv cs prog P ⟨[], fun _ => []⟩ := by
  obtain ⟨ps, h0, h1⟩ := runPure_append _ _ _ _ (h 0)
  refine ⟨.empty _, fun t => Nat.zero_le _, ⟨ps, by simpa using h0, fun t i v e => ?_⟩, ?_, (fun x hx => by cases hx), fun t i hi => ?_⟩
  · obtain ⟨ps', h0', h1'⟩ := runPure_append _ _ _ _ (h t)
    rw [h0] at h0'; cases h0'
    obtain ⟨x, hx⟩ := (runPure_prefix _ _ _ h1').1
    have l1 : ps.length = cs.length := by have := (runPure_prefix _ _ _ h0).2; simpa using this
    simp only [List.length_nil, Nat.add_zero] at e
    rw [← hx, List.take_append_of_le_length (by omega), List.take_of_length_le (by omega)] at e
    have hi := (List.getElem?_eq_some_iff.1 e).1
    rw [place_shared _ _ (by omega)]; exact e
  · simp only [List.append_nil]
    exact (usedIn_append h0).sublist.nodup (ap.once 0)
  · simp only [List.length_nil, Nat.add_zero] at hi
    rw [place_shared _ _ hi, leaf_append hi, leaf_append hi]

theorem TurnsInv.step {cs : List Call} {prog : Nat → List Call} {P : Nat → List PV} {w : Weave} (ap : OnceApart cs prog)
    (h : ∀ t, runPure [] (cs ++ prog t) = some (P t)) (inv : TurnsInv cs prog P w) (t : Nat) :
    TurnsInv cs prog P (w.step cs.length prog t) := by
  simp only [Weave.step]
  split
  · exact inv
  · rename_i c hc
    have hk : (w.own t).length < (prog t).length := (List.getElem?_eq_some_iff.1 hc).1
    obtain ⟨v, hv, hat⟩ := alone_at (h t) hc
    have lenP : (P t).length = cs.length + (prog t).length := by rw [(runPure_prefix _ _ _ (h t)).2]; simp
    have hops : ∀ i ∈ c.operands, i < cs.length + (w.own t).length := fun i hi => by
      have := operands_lt c hv i hi; rw [List.length_take] at this; omega
    obtain ⟨ps, hp, hread⟩ := inv.pure
    have lenps : ps.length = cs.length + w.calls.length := by rw [(runPure_prefix _ _ _ hp).2]; simp
    have csops : ∀ i ∈ cs.flatMap Call.operands, i < cs.length := fun i hi => by
      obtain ⟨ps0, h0, _⟩ := runPure_append _ _ _ _ (h t)
      obtain ⟨d, hd, hi⟩ := List.mem_flatMap.1 hi
      have := operands_before cs [] ps0 h0 d hd i hi
      simp at this; omega
    have allops : ∀ i ∈ (cs ++ w.calls).flatMap Call.operands, i < (cs ++ w.calls).length := fun i hi => by
      obtain ⟨d, hd, hi⟩ := List.mem_flatMap.1 hi
      have := operands_before _ [] ps hp d hd i hi
      simp at this ⊢; omega
    have newops : ∀ i ∈ c.operands.map (place cs.length (w.own t)), i < (cs ++ w.calls).length := fun i hi => by
      obtain ⟨j, hj, rfl⟩ := List.mem_map.1 hi
      rw [List.length_append]
      exact inv.own.bound (hops j hj)
    -- the goroutine by itself, up to this call
    have alone := ap.once t
    have split3 : usedIn (cs ++ prog t) = (cs.flatMap Call.operands).filter (fun i => !madeAsLeaf (cs ++ prog t) i) ++
        ((((prog t).take (w.own t).length).flatMap Call.operands).filter (fun i => !madeAsLeaf (cs ++ prog t) i) ++
        ((c.operands).filter (fun i => !madeAsLeaf (cs ++ prog t) i) ++
        (((prog t).drop ((w.own t).length + 1)).flatMap Call.operands).filter (fun i => !madeAsLeaf (cs ++ prog t) i))) := by
      have e : cs ++ prog t = cs ++ ((prog t).take (w.own t).length ++ c :: (prog t).drop ((w.own t).length + 1)) := by
        congr 1
        have := List.take_append_drop (w.own t).length (prog t)
        rw [List.drop_eq_getElem_cons hk, (List.getElem?_eq_some_iff.1 hc).2] at this
        exact this.symm
      unfold usedIn
      generalize (fun i => !madeAsLeaf (cs ++ prog t) i) = Q
      rw [e]
      simp only [List.flatMap_append, List.flatMap_cons, List.filter_append]
    unfold UsedOnce at alone
    rw [split3] at alone
    obtain ⟨_, a2, a3⟩ := List.nodup_append.1 alone
    obtain ⟨_, a4, a5⟩ := List.nodup_append.1 a2
    obtain ⟨a6, _, _⟩ := List.nodup_append.1 a4
    refine ⟨inv.own.add t c, fun u => ?_, ⟨ps ++ [v], ?_, ?_⟩, ?_, ?_, ?_⟩
    · simp only
      split
      · rename_i hu; subst hu; simp; omega
      · exact inv.le u
    · simp only [← List.append_assoc]
      exact runPure_snoc hp (pure_rename (fun i v e => hread t i v e) c v hv)
    · intro u i x hx
      by_cases hu : u = t
      · subst hu
        simp only [if_true, List.length_append, List.length_singleton] at hx ⊢
        by_cases hi : i < cs.length + (w.own u).length
        · rw [place_snoc hi]
          have e := hread u i x (by
            rw [List.getElem?_take] at hx ⊢
            rw [if_pos hi]; rw [if_pos (by omega)] at hx; exact hx)
          rw [List.getElem?_append_left (List.getElem?_eq_some_iff.1 e).1]; exact e
        · have hi' : i < cs.length + (w.own u).length + 1 := by
            have := (List.getElem?_eq_some_iff.1 hx).1; rw [List.length_take] at this; omega
          have : i = cs.length + (w.own u).length := by omega
          subst this
          rw [List.getElem?_take, if_pos (by omega), hat] at hx
          cases hx
          rw [place_last, ← lenps]; simp
      · simp only [hu, if_false] at hx ⊢
        have e := hread u i x hx
        rw [List.getElem?_append_left (List.getElem?_eq_some_iff.1 e).1]; exact e
    · -- no value is used twice
      have e : usedIn (cs ++ (w.calls ++ [c.rename (place cs.length (w.own t))])) =
          usedIn (cs ++ w.calls) ++ (c.operands.map (place cs.length (w.own t))).filter fun i => !madeAsLeaf (cs ++ w.calls) i := by
        rw [← List.append_assoc]
        unfold usedIn
        rw [List.flatMap_append, List.filter_append]
        congr 1
        · exact List.filter_congr fun i hi => by rw [leaf_append (allops i hi)]
        · simp only [List.flatMap_cons, List.flatMap_nil, List.append_nil, operands_rename]
          exact List.filter_congr fun i hi => by rw [leaf_append (newops i hi)]
      unfold UsedOnce
      rw [e]
      refine List.nodup_append.2 ⟨inv.nod, ?_, fun a ha b hb k => ?_⟩
      · rw [List.filter_map]
        have : (c.operands.filter ((fun i => !madeAsLeaf (cs ++ w.calls) i) ∘ place cs.length (w.own t))) =
            c.operands.filter (fun i => !madeAsLeaf (cs ++ prog t) i) :=
          List.filter_congr fun i hi => by simp only [Function.comp, inv.leaf t i (hops i hi)]
        rw [this]
        refine List.pairwise_map.2 (List.Pairwise.imp_of_mem (fun ha hb hne k => hne ?_) a6)
        exact (inv.own.inj (hops _ (List.mem_filter.1 ha).1) (hops _ (List.mem_filter.1 hb).1) k).1
      · subst k
        obtain ⟨ha, hl⟩ := List.mem_filter.1 ha
        obtain ⟨y, hy, rfl⟩ := List.mem_map.1 (List.mem_filter.1 hb).1
        have hyl : (!madeAsLeaf (cs ++ prog t) y) = true := by rw [← inv.leaf t y (hops y hy)]; exact hl
        have hyc : y ∈ c.operands.filter (fun i => !madeAsLeaf (cs ++ prog t) i) := List.mem_filter.2 ⟨hy, hyl⟩
        rw [List.flatMap_append] at ha
        rcases List.mem_append.1 ha with ha | ha
        · have lt := csops _ ha
          have : y < cs.length := by
            by_cases hlt : y < cs.length
            · exact hlt
            · have := (inv.own.low t _ (place_own hlt (hops y hy))).1; omega
          rw [place_shared _ _ this] at ha
          exact a3 y (List.mem_filter.2 ⟨ha, hyl⟩) y (List.mem_append_right _ (List.mem_append_left _ hyc)) rfl
        · obtain ⟨u, z, hz, ez, zl⟩ := inv.src _ ha
          obtain ⟨rfl, hor⟩ := inv.own.inj (hops y hy) zl ez
          by_cases htu : t = u
          · subst htu
            exact a5 y (List.mem_filter.2 ⟨hz, hyl⟩) y (List.mem_append_left _ hyc) rfl
          · rcases hor with hlt | hor
            · have m1 : y ∈ (prog t).flatMap Call.operands := List.mem_flatMap.2 ⟨c, List.mem_of_getElem? hc, hy⟩
              have m2 : y ∈ (prog u).flatMap Call.operands := by
                obtain ⟨d, hd, hz⟩ := List.mem_flatMap.1 hz
                exact List.mem_flatMap.2 ⟨d, List.mem_of_mem_take hd, hz⟩
              refine ap.shared t u htu y hlt ?_ m1 m2
              rw [leaf_append hlt] at hyl
              simpa using hyl
            · exact htu hor
    · intro x hx
      rw [List.flatMap_append] at hx
      rcases List.mem_append.1 hx with hx | hx
      · obtain ⟨u, y, h1, h2, h3⟩ := inv.src x hx
        refine ⟨u, y, ?_, ?_, ?_⟩
        · by_cases hu : u = t
          · subst hu
            simp only [if_true, List.length_append, List.length_singleton]
            rw [take_snoc hc, List.flatMap_append]
            exact List.mem_append_left _ h1
          · simp only [hu, if_false]; exact h1
        · by_cases hu : u = t
          · subst hu; simp only [if_true]; rw [place_snoc h3]; exact h2
          · simp only [hu, if_false]; exact h2
        · by_cases hu : u = t
          · subst hu; simp only [if_true, List.length_append, List.length_singleton]; omega
          · simp only [hu, if_false]; exact h3
      · simp only [List.flatMap_cons, List.flatMap_nil, List.append_nil, operands_rename] at hx
        obtain ⟨y, hy, rfl⟩ := List.mem_map.1 hx
        refine ⟨t, y, ?_, ?_, ?_⟩
        · simp only [if_true, List.length_append, List.length_singleton]
          rw [take_snoc hc, List.flatMap_append]
          exact List.mem_append_right _ (by simpa using hy)
        · simp only [if_true]; rw [place_snoc (hops y hy)]
        · have := hops y hy
          simp only [if_true, List.length_append, List.length_singleton]; omega
    · intro u i hi
      by_cases hu : u = t
      · subst hu
        simp only [if_true, List.length_append, List.length_singleton] at hi ⊢
        by_cases hlt : i < cs.length + (w.own u).length
        · rw [place_snoc hlt, ← List.append_assoc, leaf_append (by rw [List.length_append]; exact inv.own.bound hlt)]
          exact inv.leaf u i hlt
        · have : i = cs.length + (w.own u).length := by omega
          subst this
          rw [place_last, ← List.append_assoc]
          have e1 : ((cs ++ w.calls) ++ [c.rename (place cs.length (w.own u))])[cs.length + w.calls.length]? =
              some (c.rename (place cs.length (w.own u))) := by simp
          have e2 : (cs ++ prog u)[cs.length + (w.own u).length]? = some c := by
            rw [List.getElem?_append_right (by omega)]
            simpa using hc
          simp only [madeAsLeaf, e1, e2]
          cases c <;> rfl
      · simp only [hu, if_false] at hi ⊢
        rw [← List.append_assoc, leaf_append (by rw [List.length_append]; exact inv.own.bound hi)]
        exact inv.leaf u i hi

theorem turns_inv {cs : List Call} {prog : Nat → List Call} {P : Nat → List PV} (ap : OnceApart cs prog)
    (h : ∀ t, runPure [] (cs ++ prog t) = some (P t)) (sched : List Nat) : TurnsInv cs prog P (weave cs.length prog sched) := by
  have key : ∀ (sched : List Nat) (w : Weave), TurnsInv cs prog P w → TurnsInv cs prog P (sched.foldl (Weave.step cs.length prog) w) := by
    intro sched
    induction sched with
    | nil => exact fun w i => i
    | cons t ts ih => exact fun w i => ih _ (i.step ap h t)
  exact key sched _ (.empty ap h)

/-- A value no goroutine uses. -/
theorem TurnsInv.unused {cs : List Call} {prog : Nat → List Call} {P : Nat → List PV} {w : Weave} (inv : TurnsInv cs prog P w)
    (h : ∀ t, runPure [] (cs ++ prog t) = some (P t)) {t r : Nat}
    (hr : r < cs.length + (w.own t).length) (hu : ∀ u, u = t ∨ r < cs.length → r ∉ usedIn (cs ++ prog u)) :
    place cs.length (w.own t) r ∉ usedIn (cs ++ w.calls) := by
  intro hm
  obtain ⟨ha, hl⟩ := List.mem_filter.1 hm
  have hl' := hl
  rw [inv.leaf t r hr] at hl'
  rw [List.flatMap_append] at ha
  rcases List.mem_append.1 ha with ha | ha
  · have lt : place cs.length (w.own t) r < cs.length := by
      obtain ⟨ps0, h0, _⟩ := runPure_append _ _ _ _ (h t)
      obtain ⟨d, hd, hi⟩ := List.mem_flatMap.1 ha
      have := operands_before cs [] ps0 h0 d hd _ hi
      simp at this; omega
    have : r < cs.length := by
      by_cases hlt : r < cs.length
      · exact hlt
      · have := (inv.own.low t _ (place_own hlt hr)).1; omega
    rw [place_shared _ _ this] at ha
    exact hu t (.inl rfl) (List.mem_filter.2 ⟨by rw [List.flatMap_append]; exact List.mem_append_left _ ha, hl'⟩)
  · obtain ⟨u, z, hz, ez, zl⟩ := inv.src _ ha
    obtain ⟨rfl, hor⟩ := inv.own.inj hr zl ez
    have hmem : r ∈ (cs ++ prog u).flatMap Call.operands := by
      obtain ⟨d, hd, hz⟩ := List.mem_flatMap.1 hz
      exact List.mem_flatMap.2 ⟨d, List.mem_append_right _ (List.mem_of_mem_take hd), hz⟩
    refine hu u (hor.symm.imp Eq.symm id) (List.mem_filter.2 ⟨hmem, ?_⟩)
    rw [ez, inv.leaf u r zl] at hl
    exact hl

end Query
