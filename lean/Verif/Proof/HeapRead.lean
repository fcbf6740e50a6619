import Verif.Heap.Read
import Verif.Proof.HeapRun
/-!
# Reading leaves memory alone and gives the plain results
-/
namespace Query
open Store

/-- The result in memory against the plain result. -/
def SimR {α β : Type} (res : Res α) (pur : Res β) (Q : α → β → Prop) : Prop :=
  match pur with
  | .ok b => ∃ a, res = .ok a ∧ Q a b
  | .err e => res = .err e
  | .panic p => res = .panic p

theorem SimR.ok {α β : Type} {a : α} {b : β} {Q : α → β → Prop} (h : Q a b) : SimR (.ok a) (.ok b) Q := ⟨a, rfl, h⟩

theorem SimR.same {α β : Type} (r : Res α) {Q : α → β → Prop} {f : α → β} (h : ∀ a, Q a (f a)) :
    SimR r (r.bind fun a => .ok (f a)) Q := by
  cases r with
  | ok a => exact ⟨a, rfl, h a⟩
  | err e => rfl
  | panic p => rfl

theorem SimR.bind {α β γ δ : Type} {res : Res α} {pur : Res β} {Q : α → β → Prop} {f : α → Res γ} {g : β → Res δ}
    {Q' : γ → δ → Prop} (h : SimR res pur Q) (k : ∀ a b, Q a b → SimR (f a) (g b) Q') : SimR (res.bind f) (pur.bind g) Q' := by
  cases pur with
  | ok b =>
    obtain ⟨a, rfl, q⟩ := h
    exact k a b q
  | err e => rw [show res = .err e from h]; rfl
  | panic p => rw [show res = .panic p from h]; rfl

theorem SimR.refl {α : Type} (r : Res α) : SimR r r (fun a b => a = b) := by
  cases r with
  | ok a => exact ⟨a, rfl, rfl⟩
  | err e => rfl
  | panic p => rfl

theorem SimR.imp {α β : Type} {res : Res α} {pur : Res β} {Q Q' : α → β → Prop} (h : SimR res pur Q)
    (k : ∀ a b, Q a b → Q' a b) : SimR res pur Q' := by
  cases pur with
  | ok b => obtain ⟨a, e, q⟩ := h; exact ⟨a, e, k a b q⟩
  | err e => exact h
  | panic p => exact h

variable {α : Type} {tight : Bool}

/-- New arrays only: a slice that was safe to append to still is. -/
theorem Tr.keep {st st' : Store α} {P : List Sl} {s : Sl} (t : Tr tight st st' [] P) (h : Ext tight st s) :
    Tr tight st st' [s] [s] :=
  ⟨t.le, fun x hx => by rw [List.mem_singleton.1 hx]; exact h.frame t (fun _ _ hx => by cases hx), fun a ha _ => t.frame a ha (fun _ hs => by cases hs),
    fun x hx => .inl ⟨s, by simp, by rw [List.mem_singleton.1 hx]; exact ⟨rfl, .inr rfl⟩⟩⟩

theorem ext_last {st st' : Store α} {O : List Sl} {s : Sl} (t : Tr tight st st' O [s]) : Ext tight st' s := t.ext s (by simp)

/-- What reading the parameters of something does. -/
def QV (m : RMem) (a : RMem × Sl) (vs : List Val) : Prop :=
  a.1.mem = m.mem ∧ Tr false m.par a.1.par [] [a.2] ∧ RepS a.1.par a.2 vs

/-- What rendering does. -/
def QR (m : RMem) (a : RMem × Str) (s : Str) : Prop :=
  a.1.mem = m.mem ∧ Tr false m.par a.1.par [] [] ∧ a.2 = s

theorem growOK_false (gr : Grow) : GrowOK false gr := fun h => by cases h

theorem Cond.depthL_le : ∀ {cs : List Cond} {d : Nat}, Cond.depthL cs ≤ d → ∀ c ∈ cs, c.depth ≤ d
  | [], _, _, _, hc => by cases hc
  | c :: cs, d, h, x, hx => by
    simp only [Cond.depthL] at h
    rcases List.mem_cons.1 hx with rfl | hx
    · omega
    · exact Cond.depthL_le (by omega) x hx

theorem sim_loopValues (gr : Grow) (f : RMem → HCond → Res (RMem × Sl)) (M : Mem) (D : Nat)
    (hf : ∀ m h c, m.mem = M → Rep M.conds h c → c.depth ≤ D → SimR (f m h) c.values (QV m)) :
    ∀ (hs : List HCond) (cs : List Cond) (m : RMem) (acc : Sl) (xs : List Val), m.mem = M → RepL M.conds hs cs →
      (∀ c ∈ cs, c.depth ≤ D) → Ext false m.par acc → RepS m.par acc xs →
      SimR (loopValues gr f hs m acc) (Cond.valuesL cs) fun a vs =>
        a.1.mem = M ∧ Tr false m.par a.1.par [acc] [a.2] ∧ RepS a.1.par a.2 (xs ++ vs)
  | [], [], m, acc, xs, hm, _, _, he, hx => by
    simp only [loopValues, Cond.valuesL]
    exact .ok ⟨hm, Tr.same (fun s hs => by rw [List.mem_singleton.1 hs]; exact he), by simpa using hx⟩
  | [], _ :: _, _, _, _, _, r, _, _, _ => by simp [RepL] at r
  | _ :: _, [], _, _, _, _, r, _, _, _ => by simp [RepL] at r
  | h :: hs, c :: cs, m, acc, xs, hm, r, hd, he, hx => by
    simp only [RepL] at r
    simp only [loopValues, Cond.valuesL, Res.bind_def, Res.pure_def]
    refine SimR.bind (hf m h c hm r.1 (hd c (by simp))) fun a v q => ?_
    obtain ⟨q1, q2, q3⟩ := q
    have k1 := q2.keep he
    have he' := ext_last k1
    have hx' : RepS a.1.par acc xs := hx.mono q2.le
    have k2 := tr_append gr (growOK_false gr) a.1.par acc (a.1.par.read a.2) he'
    have hx2 := rep_append gr a.1.par acc (a.1.par.read a.2) xs he'.arr hx'
    rw [q3.2.2] at hx2 k2 ⊢
    have ih := sim_loopValues gr f M D hf hs cs { a.1 with par := (a.1.par.append gr acc v).1 }
      (a.1.par.append gr acc v).2 (xs ++ v) (q1.trans hm) r.2 (fun x hx => hd x (by simp [hx])) (ext_last k2) hx2
    cases hp : Cond.valuesL cs with
    | ok vs =>
      rw [hp] at ih
      obtain ⟨z, ez, z1, z2, z3⟩ := ih
      refine ⟨z, ez, z1, (k1.trans k2).trans z2, ?_⟩
      rw [← List.append_assoc]; exact z3
    | err e => rw [hp] at ih; exact ih
    | panic p => rw [hp] at ih; exact ih

theorem tr_nil (st : Store α) (xs : List α) : Tr tight st (st.make xs).1 [] [(st.make xs).2] := tr_make st xs

theorem sim_valuesR (gr : Grow) : ∀ (d : Nat) (m : RMem) (h : HCond) (c : Cond), Rep m.mem.conds h c → c.depth ≤ d →
    SimR (valuesR gr d m h) c.values (QV m) := by
  intro d
  induction d with
  | zero =>
    intro m h c r hd
    cases h with
    | leaf c' =>
      rw [rep_leaf_iff] at r
      obtain ⟨rfl, _⟩ := r
      simp only [valuesR]
      cases hv : c'.values with
      | ok vs => exact ⟨_, rfl, rfl, tr_make _ _, rep_make _ _⟩
      | err e => rfl
      | panic p => rfl
    | group b s br =>
      cases c with
      | group b' cs br' => simp [Cond.depth] at hd
      | fieldc => simp [Rep] at r
      | null => simp [Rep] at r
      | custom => simp [Rep] at r
  | succ d ih =>
    intro m h c r hd
    cases h with
    | leaf c' =>
      rw [rep_leaf_iff] at r
      obtain ⟨rfl, _⟩ := r
      simp only [valuesR]
      cases hv : c'.values with
      | ok vs => exact ⟨_, rfl, rfl, tr_make _ _, rep_make _ _⟩
      | err e => rfl
      | panic p => rfl
    | group b s br =>
      cases c with
      | group b' cs br' =>
        obtain ⟨_, _, _, _, rl⟩ := rep_group_iff.1 r
        simp only [Cond.depth] at hd
        simp only [valuesR, Cond.values]
        have t0 := tr_make (tight := false) m.par ([] : List Val)
        have r0 := rep_make m.par ([] : List Val)
        have := sim_loopValues gr (valuesR gr d) m.mem d (fun m' h' c' hm hr hd' => ih m' h' c' (by rw [hm]; exact hr) hd')
          (m.mem.conds.read s) cs { m with par := (m.par.make []).1 } (m.par.make []).2 [] rfl rl
          (Cond.depthL_le (by omega)) (ext_last t0) r0
        exact this.imp fun a vs ⟨q1, q2, q3⟩ => ⟨q1, t0.trans q2, by simpa using q3⟩
      | fieldc => simp [Rep] at r
      | null => simp [Rep] at r
      | custom => simp [Rep] at r

theorem Rep.base_eq {st : Store HCond} {h : HCond} {c : Cond} (r : Rep st h c) : h.base = c.base := by
  rcases r.cases with ⟨g, G, rfl, rfl, rg⟩ | ⟨rfl, _⟩
  · exact (rep_group_iff.1 rg).1
  · rfl

theorem Rep.joinToken_eq {st : Store HCond} {h : HCond} {c : Cond} (r : Rep st h c) (f : Bool) :
    joinTokenH h f = joinToken c f := by
  simp only [joinTokenH, joinToken, r.base_eq]

theorem sim_loopRender (f : RMem → HCond → Nat → Res (RMem × Str)) (g : RMem → HCond → Res (RMem × Sl)) (M : Mem) (D : Nat)
    (hf : ∀ m h c n, m.mem = M → Rep M.conds h c → c.depth ≤ D → SimR (f m h n) (c.render n) (QR m))
    (hg : ∀ m h c, m.mem = M → Rep M.conds h c → c.depth ≤ D → SimR (g m h) c.values (QV m)) :
    ∀ (hs : List HCond) (cs : List Cond) (m : RMem) (b : Bool) (n : Nat), m.mem = M → RepL M.conds hs cs →
      (∀ c ∈ cs, c.depth ≤ D) → SimR (loopRender f g hs b n m) (Cond.renderL cs b n) (QR m)
  | [], [], m, b, n, hm, _, _ => by
    simp only [loopRender, Cond.renderL]
    exact .ok ⟨rfl, Tr.none _ _, rfl⟩
  | [], _ :: _, _, _, _, _, r, _ => by simp [RepL] at r
  | _ :: _, [], _, _, _, _, r, _ => by simp [RepL] at r
  | h :: hs, c :: cs, m, b, n, hm, r, hd => by
    simp only [RepL] at r
    simp only [loopRender, Cond.renderL, Res.bind_def, Res.pure_def]
    refine SimR.bind (hf m h c n hm r.1 (hd c (by simp))) fun a s q => ?_
    obtain ⟨q1, q2, rfl⟩ := q
    refine SimR.bind (hg a.1 h c (q1.trans hm) r.1 (hd c (by simp))) fun v vs w => ?_
    obtain ⟨w1, w2, w3⟩ := w
    rw [← w3.length]
    refine SimR.bind (sim_loopRender f g M D hf hg hs cs v.1 false (n + vs.length) (w1.trans (q1.trans hm)) r.2
      (fun x hx => hd x (by simp [hx]))) fun z t y => ?_
    obtain ⟨y1, y2, rfl⟩ := y
    exact .ok ⟨y1.trans (w1.trans q1), (q2.trans w2.drop).trans y2, by rw [r.1.joinToken_eq]⟩

theorem sim_renderR (gr : Grow) : ∀ (d : Nat) (m : RMem) (h : HCond) (c : Cond) (n : Nat), Rep m.mem.conds h c → c.depth ≤ d →
    SimR (renderR gr d m h n) (c.render n) (QR m) := by
  have leaf : ∀ (m : RMem) (r : Res Str), SimR (r.bind fun s => .ok (m, s)) r (QR m) := by
    intro m r
    cases r with
    | ok s => exact ⟨_, rfl, rfl, Tr.none _ _, rfl⟩
    | err e => rfl
    | panic p => rfl
  intro d
  induction d with
  | zero =>
    intro m h c n r hd
    cases h with
    | leaf c' =>
      rw [rep_leaf_iff] at r
      obtain ⟨rfl, _⟩ := r
      simp only [renderR]; exact leaf _ _
    | group b s br =>
      cases c with
      | group b' cs br' => simp [Cond.depth] at hd
      | fieldc => simp [Rep] at r
      | null => simp [Rep] at r
      | custom => simp [Rep] at r
  | succ d ih =>
    intro m h c n r hd
    cases h with
    | leaf c' =>
      rw [rep_leaf_iff] at r
      obtain ⟨rfl, _⟩ := r
      simp only [renderR]; exact leaf _ _
    | group b s br =>
      cases c with
      | group b' cs br' =>
        obtain ⟨rfl, rfl, _, hl, rl⟩ := rep_group_iff.1 r
        have len : s.len = cs.length := by rw [← rl.length]; simp [Store.read, hl]
        simp only [Cond.depth] at hd
        simp only [renderR, Cond.render, len]
        by_cases h0 : cs.length = 0
        · simp only [h0, if_true]
          exact .ok ⟨rfl, Tr.none _ _, rfl⟩
        · simp only [h0, if_false]
          refine SimR.bind (sim_loopRender (renderR gr d) (valuesR gr d) m.mem d
            (fun m' h' c' n' hm hr hd' => ih m' h' c' n' (by rw [hm]; exact hr) hd')
            (fun m' h' c' hm hr hd' => sim_valuesR gr d m' h' c' (by rw [hm]; exact hr) hd')
            _ cs m true n rfl rl (Cond.depthL_le (by omega))) fun a s q => ?_
          obtain ⟨q1, q2, rfl⟩ := q
          exact .ok ⟨q1, q2, rfl⟩
      | fieldc => simp [Rep] at r
      | null => simp [Rep] at r
      | custom => simp [Rep] at r

theorem sim_loopRenderSQL (f : RMem → HCond → Res (RMem × Str)) (M : Mem) (D : Nat)
    (hf : ∀ m h c, m.mem = M → Rep M.conds h c → c.depth ≤ D → SimR (f m h) c.renderSQL (QR m)) :
    ∀ (hs : List HCond) (cs : List Cond) (m : RMem) (b : Bool), m.mem = M → RepL M.conds hs cs →
      (∀ c ∈ cs, c.depth ≤ D) → SimR (loopRenderSQL f hs b m) (Cond.renderSQLL cs b) (QR m)
  | [], [], m, b, hm, _, _ => by
    simp only [loopRenderSQL, Cond.renderSQLL]
    exact .ok ⟨rfl, Tr.none _ _, rfl⟩
  | [], _ :: _, _, _, _, r, _ => by simp [RepL] at r
  | _ :: _, [], _, _, _, r, _ => by simp [RepL] at r
  | h :: hs, c :: cs, m, b, hm, r, hd => by
    simp only [RepL] at r
    simp only [loopRenderSQL, Cond.renderSQLL, Res.bind_def, Res.pure_def]
    refine SimR.bind (hf m h c hm r.1 (hd c (by simp))) fun a s q => ?_
    obtain ⟨q1, q2, rfl⟩ := q
    refine SimR.bind (sim_loopRenderSQL f M D hf hs cs a.1 false (q1.trans hm) r.2
      (fun x hx => hd x (by simp [hx]))) fun z t y => ?_
    obtain ⟨y1, y2, rfl⟩ := y
    exact .ok ⟨y1.trans q1, q2.trans y2, by rw [r.1.joinToken_eq]⟩

theorem sim_renderSQLR : ∀ (d : Nat) (m : RMem) (h : HCond) (c : Cond), Rep m.mem.conds h c → c.depth ≤ d →
    SimR (renderSQLR d m h) c.renderSQL (QR m) := by
  have leaf : ∀ (m : RMem) (r : Res Str), SimR (r.bind fun s => .ok (m, s)) r (QR m) := by
    intro m r
    cases r with
    | ok s => exact ⟨_, rfl, rfl, Tr.none _ _, rfl⟩
    | err e => rfl
    | panic p => rfl
  intro d
  induction d with
  | zero =>
    intro m h c r hd
    cases h with
    | leaf c' =>
      rw [rep_leaf_iff] at r
      obtain ⟨rfl, _⟩ := r
      simp only [renderSQLR]; exact leaf _ _
    | group b s br =>
      cases c with
      | group b' cs br' => simp [Cond.depth] at hd
      | fieldc => simp [Rep] at r
      | null => simp [Rep] at r
      | custom => simp [Rep] at r
  | succ d ih =>
    intro m h c r hd
    cases h with
    | leaf c' =>
      rw [rep_leaf_iff] at r
      obtain ⟨rfl, _⟩ := r
      simp only [renderSQLR]; exact leaf _ _
    | group b s br =>
      cases c with
      | group b' cs br' =>
        obtain ⟨rfl, rfl, _, hl, rl⟩ := rep_group_iff.1 r
        have len : s.len = cs.length := by rw [← rl.length]; simp [Store.read, hl]
        simp only [Cond.depth] at hd
        simp only [renderSQLR, Cond.renderSQL, len]
        by_cases h0 : cs.length = 0
        · simp only [h0, if_true]
          exact .ok ⟨rfl, Tr.none _ _, rfl⟩
        · simp only [h0, if_false]
          refine SimR.bind (sim_loopRenderSQL (renderSQLR d) m.mem d
            (fun m' h' c' hm hr hd' => ih m' h' c' (by rw [hm]; exact hr) hd')
            _ cs m true rfl rl (Cond.depthL_le (by omega))) fun a s q => ?_
          obtain ⟨q1, q2, rfl⟩ := q
          exact .ok ⟨q1, q2, rfl⟩
      | fieldc => simp [Rep] at r
      | null => simp [Rep] at r
      | custom => simp [Rep] at r

end Query
