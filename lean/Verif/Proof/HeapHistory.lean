import Verif.Proof.HeapBound
/-!
# Reading the values of histories
-/
namespace Query

theorem SimR.repRes {α β : Type} {res : Res α} {pur : Res β} {Q : α → β → Prop} (h : SimR res pur Q) : RepRes Q res pur := by
  cases pur with
  | ok b => obtain ⟨a, rfl, q⟩ := h; exact q
  | err e => rw [show res = .err e from h]; rfl
  | panic p => rw [show res = .panic p from h]; rfl

theorem RepRes.imp {α β : Type} {Q Q' : α → β → Prop} {res : Res α} {pur : Res β} (h : RepRes Q res pur)
    (k : ∀ a b, Q a b → Q' a b) : RepRes Q' res pur := by
  cases res <;> cases pur <;> simp only [RepRes] at h ⊢
  · exact k _ _ h
  · exact h
  · exact h

theorem look_serves (gr : Grow) (d : Nat) (m : RMem) (h : HV) (p : PV) (sv : Serves m.mem d h p) (l : Look) :
    RepRes (QL m) (h.look gr d m l) (p.look l) := by
  rcases sv with ⟨r, hd⟩ | ⟨a, b⟩
  · exact (sim_look gr d m h p r hd l).repRes
  · obtain ⟨e1, e2⟩ := look_joiner gr d m h p a b l
    rw [e1, e2]; rfl

theorem runPure_append : ∀ (cs cs' : List Call) (ps ps' : List PV), runPure ps (cs ++ cs') = some ps' →
    ∃ ps1, runPure ps cs = some ps1 ∧ runPure ps1 cs' = some ps'
  | [], cs', ps, ps', h => ⟨ps, rfl, h⟩
  | c :: cs, cs', ps, ps', h => by
    simp only [List.cons_append, runPure] at h ⊢
    cases hc : c.pure ps with
    | none => rw [hc] at h; cases h
    | some p => rw [hc] at h; exact runPure_append cs cs' _ ps' h

theorem runPure_prefix : ∀ (cs : List Call) (ps ps' : List PV), runPure ps cs = some ps' → ps <+: ps' ∧ ps'.length = ps.length + cs.length
  | [], ps, ps', h => by cases h; exact ⟨List.prefix_refl _, rfl⟩
  | c :: cs, ps, ps', h => by
    simp only [runPure] at h
    cases hc : c.pure ps with
    | none => rw [hc] at h; cases h
    | some p =>
      rw [hc] at h
      have ih := runPure_prefix cs _ ps' h
      refine ⟨(List.prefix_append _ _).trans ih.1, ?_⟩
      rw [ih.2]; simp; omega

theorem completes_extends {c : Call} {r : Nat} (h : c.completes = some r) : c.extends = some r := by
  cases c <;> simp [Call.completes] at h ⊢ <;> simpa [Call.extends] using h

theorem Linear.joinsOnce : ∀ {cs : List Call}, Linear cs → JoinsOnce cs := by
  intro cs h
  unfold Linear at h; unfold JoinsOnce
  induction cs with
  | nil => exact List.nodup_nil
  | cons c cs ih =>
    have key : ∀ r ∈ cs.filterMap Call.completes, r ∈ cs.filterMap Call.extends := by
      intro r hr
      simp only [List.mem_filterMap] at hr ⊢
      obtain ⟨a, ha, hb⟩ := hr
      exact ⟨a, ha, completes_extends hb⟩
    cases hc : c.completes with
    | none =>
      rw [List.filterMap_cons, hc]
      rw [List.filterMap_cons] at h
      split at h
      · exact ih h
      · exact ih (List.nodup_cons.1 h).2
    | some r =>
      rw [List.filterMap_cons, hc]
      rw [List.filterMap_cons, completes_extends hc] at h
      have h' := List.nodup_cons.1 h
      exact List.nodup_cons.2 ⟨fun hm => h'.1 (key r hm), ih h'.2⟩

theorem Linear.left {cs cs' : List Call} (h : Linear (cs ++ cs')) : Linear cs := by
  unfold Linear at h ⊢
  rw [List.filterMap_append] at h
  exact (List.nodup_append.1 h).1

theorem JoinsOnce.left {cs cs' : List Call} (h : JoinsOnce (cs ++ cs')) : JoinsOnce cs := by
  unfold JoinsOnce at h ⊢
  rw [List.filterMap_append] at h
  exact (List.nodup_append.1 h).1

/-- A bound for the depth of finitely many values. -/
theorem depth_bound (ps : List PV) : ∃ D, ∀ p ∈ ps, p.depth ≤ D := by
  induction ps with
  | nil => exact ⟨0, fun p hp => by cases hp⟩
  | cons p ps ih =>
    obtain ⟨D, hD⟩ := ih
    refine ⟨max p.depth D, fun q hq => ?_⟩
    rcases List.mem_cons.1 hq with rfl | hq
    · omega
    · have := hD q hq; omega

/-- Every value of a history can be read as the plain value. -/
theorem history (tight : Bool) {pol : Policy} (hp : PolOK tight pol) (cs : List Call) (ps : List PV)
    (hna : ∀ c ∈ cs, c.noApply = true) (hl : tight = false → Linear cs) (hj : JoinsOnce cs) (h : runPure [] cs = some ps) :
    ∃ m hs, runHeap pol Mem.empty [] cs = some (m, hs) ∧ hs.length = ps.length ∧
      ∀ (i : Nat) (x : HV) (p : PV), hs[i]? = some x → ps[i]? = some p → RepV m x p ∨ (x.isJoiner = true ∧ p.isJoiner = true) := by
  obtain ⟨m, hs, used, h1, inv, _⟩ := run_sim hp cs [] Mem.empty [] [] ps inv_empty hna hl hj (fun _ _ _ h => by cases h)
    (fun _ _ h => by cases h) h
  refine ⟨m, hs, h1, inv.len, fun i x p hx hpx => ?_⟩
  have k := inv.kind i x p hx hpx
  cases hxj : x.isJoiner with
  | true => exact .inr ⟨rfl, by rw [← k]; exact hxj⟩
  | false => exact .inl (inv.rep i x p hx hpx (fun h => by rw [hxj] at h; cases h))

theorem history_reads (tight : Bool) {pol : Policy} (gr : Grow) (hp : PolOK tight pol) (cs : List Call) (ps : List PV)
    (hna : ∀ c ∈ cs, c.noApply = true) (hl : tight = false → Linear cs) (hj : JoinsOnce cs) (h : runPure [] cs = some ps)
    (r : Nat) (p : PV) (hr : ps[r]? = some p) (l : Look) : ReadsAs pol gr cs r l (p.look l) := by
  obtain ⟨m, hs, h1, h2, h3⟩ := history tight hp cs ps hna hl hj h
  obtain ⟨x, hx⟩ : ∃ x, hs[r]? = some x := by
    have : r < hs.length := by rw [h2]; exact (List.getElem?_eq_some_iff.1 hr).1
    exact ⟨_, List.getElem?_eq_getElem this⟩
  refine ⟨m, hs, x, h1, hx, p.depth, fun d hd par => ?_⟩
  have sv : Serves m d x p := (h3 r x p hx hr).imp (fun y => ⟨y, hd⟩) id
  exact (look_serves gr d ⟨m, par⟩ x p sv l).imp fun a b q => q.2.1

/-- Both before and after further calls. -/
theorem history_stable (tight : Bool) {pol : Policy} (gr : Grow) (hp : PolOK tight pol) (cs cs' : List Call) (ps : List PV)
    (hna : ∀ c ∈ cs ++ cs', c.noApply = true) (hl : tight = false → Linear (cs ++ cs')) (hj : JoinsOnce (cs ++ cs'))
    (h : runPure [] (cs ++ cs') = some ps) (r : Nat) (hrc : r < cs.length) (p : PV) (hr : ps[r]? = some p) (l : Look) :
    ReadsAs pol gr cs r l (p.look l) ∧ ReadsAs pol gr (cs ++ cs') r l (p.look l) := by
  refine ⟨?_, history_reads tight gr hp (cs ++ cs') ps hna hl hj h r p hr l⟩
  obtain ⟨ps1, h1, h2⟩ := runPure_append cs cs' [] ps h
  have pre := (runPure_prefix cs' ps1 ps h2).1
  have len := (runPure_prefix cs [] ps1 h1).2
  have hr1 : ps1[r]? = some p := by
    obtain ⟨t, rfl⟩ := pre
    rwa [List.getElem?_append_left (by rw [len]; simpa using hrc)] at hr
  exact history_reads tight gr hp cs ps1 (fun c hc => hna c (by simp [hc])) (fun ht => (hl ht).left) hj.left h1 r p hr1 l

theorem polOK_false (pol : Policy) : PolOK false pol :=
  ⟨(fun h => by cases h), (fun h => by cases h), (fun h => by cases h), (fun h => by cases h)⟩

end Query
