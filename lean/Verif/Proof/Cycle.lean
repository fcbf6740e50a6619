import Verif.Proof.SpillLook
import Verif.Proof.NoDeep
import Verif.Spec.Cycle
/-!
# Reading groups that contain themselves
-/
namespace Query
open Store

section
variable {st : Store HCond}

theorem nested_le : ∀ (d e : Nat) (c : HCond), d ≤ e → c.nested st d → c.nested st e
  | _, _, .leaf _, _, _ => by simp only [HCond.nested]
  | 0, _, .group _ _ _, _, h => by simp only [HCond.nested] at h
  | d + 1, 0, .group _ _ _, l, _ => absurd l (by omega)
  | d + 1, e + 1, .group _ _ _, l, h => by
    simp only [HCond.nested] at h ⊢
    exact fun c hc => nested_le d e c (by omega) (h c hc)

theorem nested_of_acyclic : ∀ (n : Nat) (L : List Sl) (c : HCond), L.length = n → (∀ s, c.Through st s → s ∈ L) → ¬ c.Loops st →
    c.nested st n
  | _, _, .leaf _, _, _, _ => by simp only [HCond.nested]
  | 0, L, .group b s br, hl, h, _ => by
    have := h s .own
    rw [List.length_eq_zero_iff.1 hl] at this
    cases this
  | n + 1, L, .group b s br, hl, h, hn => by
    simp only [HCond.nested]
    intro x hx
    refine nested_of_acyclic n (L.erase s) x (by rw [List.length_erase_of_mem (h s .own)]; omega) (fun t ht => ?_) fun ⟨t, y, h1, h2, h3⟩ =>
      hn ⟨t, y, .deep hx h1, h2, h3⟩
    have ne : t ≠ s := fun e => hn ⟨s, x, .own, hx, e ▸ ht⟩
    exact (List.mem_erase_of_ne ne).2 (h t (.deep hx ht))

theorem members_nested {c : HCond} {s : Sl} (h : c.Through st s) : ∀ d, c.nested st d → ∃ d', d' < d ∧ ∀ x ∈ st.read s, x.nested st d' := by
  induction h with
  | own =>
    intro d hd
    cases d with
    | zero => simp only [HCond.nested] at hd
    | succ d => exact ⟨d, Nat.lt_succ_self d, by simpa only [HCond.nested] using hd⟩
  | deep m _ ih =>
    intro d hd
    cases d with
    | zero => simp only [HCond.nested] at hd
    | succ d =>
      simp only [HCond.nested] at hd
      obtain ⟨d', h1, h2⟩ := ih d (hd _ m)
      exact ⟨d', by omega, h2⟩

theorem loops_not_nested {c : HCond} (h : c.Loops st) (d : Nat) : ¬ c.nested st d := by
  obtain ⟨s, x, h1, h2, h3⟩ := h
  intro hd
  obtain ⟨d', _, hm⟩ := members_nested h1 d hd
  have : ∀ n, ¬ ∀ y ∈ st.read s, y.nested st n := by
    intro n
    induction n using Nat.strongRecOn with
    | ind n ih =>
      intro hy
      obtain ⟨k, l, hk⟩ := members_nested h3 n (hy x h2)
      exact ih k l hk
  exact this d' hm

/-- The slice of a group. -/
def HCond.sl? : HCond → Option Sl
  | .leaf _ => none
  | .group _ s _ => some s

theorem sl_mem_flatten {x : HCond} {s t : Sl} (hx : x ∈ st.read s) (h : x.sl? = some t) : t ∈ st.flatten.filterMap HCond.sl? := by
  refine List.mem_filterMap.2 ⟨x, ?_, h⟩
  simp only [Store.read] at hx
  have := List.mem_of_mem_take hx
  simp only [Store.cells] at this
  cases e : st[s.arr]? with
  | none => rw [e] at this; cases this
  | some l =>
    rw [e] at this
    exact List.mem_flatten.2 ⟨l, List.mem_of_getElem? e, this⟩

theorem through_mem {c : HCond} {s : Sl} (h : c.Through st s) : c.sl? = some s ∨ s ∈ st.flatten.filterMap HCond.sl? := by
  induction h with
  | own => exact .inl rfl
  | deep m k ih =>
    rcases ih with h | h
    · exact .inr (sl_mem_flatten m h)
    · exact .inr h

/-- A condition without such a group nests at most as deep as there are cells. -/
theorem nested_depth {m : Mem} {c : HCond} (h : ¬ c.Loops m.conds) : c.nested m.conds m.depth := by
  have := nested_of_acyclic _ (c.sl?.toList ++ m.conds.flatten.filterMap HCond.sl?) c rfl (fun s hs => by
    rcases through_mem hs with k | k
    · exact List.mem_append_left _ (by rw [k]; simp)
    · exact List.mem_append_right _ k) h
  refine nested_le _ _ _ ?_ this
  have h1 := List.length_filterMap_le HCond.sl? m.conds.flatten
  have h2 : c.sl?.toList.length ≤ 1 := by cases c.sl? <;> simp
  rw [List.length_flatten] at h1
  simp only [List.length_append, Mem.depth]
  omega

/-! ## Reading too deep -/

theorem render_listable {e : Cond} (h : ∃ vs, e.values = .ok vs) (hg : e.asGroup = none) (n : Nat) :
    (∃ s, e.render n = .ok s) ∧ ∃ s, e.renderSQL = .ok s := by
  obtain ⟨vs, h⟩ := h
  cases e with
  | fieldc k b fv =>
    cases k <;> simp only [Cond.render, Cond.renderSQL, fieldcRender, fieldcRenderSQL] <;> simp only [Cond.values, fieldcValues] at h <;>
      first | exact ⟨⟨_, rfl⟩, ⟨_, rfl⟩⟩ | (rw [h]; exact ⟨⟨_, rfl⟩, ⟨_, rfl⟩⟩)
  | null b fd => exact ⟨⟨_, rfl⟩, ⟨_, rfl⟩⟩
  | custom b x => exact ⟨⟨_, rfl⟩, ⟨_, rfl⟩⟩
  | group b cs br => cases hg

/-- All leaves can be listed. -/
def HCond.lists (st : Store HCond) (c : HCond) : Prop := ∀ e, c.Holds st e → ∃ vs, e.values = .ok vs

theorem HCond.lists.mem {b : CondBase} {s : Sl} {br : Bool} (h : (HCond.group b s br).lists st) {c : HCond} (hc : c ∈ st.read s) :
    c.lists st := by
  intro e he
  rcases he with rfl | ⟨t, h1, h2⟩
  · exact h e (.inr ⟨s, .own, hc⟩)
  · exact h e (.inr ⟨t, .deep hc h1, h2⟩)

/-- A result of a reading call below the bound on the depth: success if the condition nests so deep, otherwise not. -/
def Deep {α : Type} (n : Prop) (r : Res α) : Prop := (n → ∃ a, r = .ok a) ∧ (¬ n → r = tooDeep)

theorem loopValuesP_deep {f : HCond → Res (List Val)} {P : HCond → Prop} : ∀ (cs : List HCond), (∀ c ∈ cs, Deep (P c) (f c)) →
    Deep (∀ c ∈ cs, P c) (loopValuesP f cs)
  | [], _ => ⟨fun _ => ⟨_, rfl⟩, fun h => absurd (fun _ hc => by cases hc) h⟩
  | c :: cs, h => by
    have ih := loopValuesP_deep cs fun x hx => h x (List.mem_cons_of_mem _ hx)
    have hc := h c (List.mem_cons_self ..)
    simp only [loopValuesP]
    by_cases p : P c
    · obtain ⟨v, e⟩ := hc.1 p
      rw [e]
      simp only [Res.bind_ok]
      by_cases q : ∀ x ∈ cs, P x
      · obtain ⟨vs, e'⟩ := ih.1 q
        rw [e']
        exact ⟨fun _ => ⟨_, rfl⟩, fun k => absurd (List.forall_mem_cons.2 ⟨p, q⟩) k⟩
      · rw [ih.2 q]
        exact ⟨fun k => absurd (fun x hx => k x (List.mem_cons_of_mem _ hx)) q, fun _ => rfl⟩
    · rw [hc.2 p]
      exact ⟨fun k => absurd (k c (List.mem_cons_self ..)) p, fun _ => rfl⟩

theorem loopRenderSQLP_deep {f : HCond → Res Str} {P : HCond → Prop} : ∀ (cs : List HCond) (b : Bool), (∀ c ∈ cs, Deep (P c) (f c)) →
    Deep (∀ c ∈ cs, P c) (loopRenderSQLP f cs b)
  | [], _, _ => ⟨fun _ => ⟨_, rfl⟩, fun h => absurd (fun _ hc => by cases hc) h⟩
  | c :: cs, b, h => by
    have ih := loopRenderSQLP_deep cs false fun x hx => h x (List.mem_cons_of_mem _ hx)
    have hc := h c (List.mem_cons_self ..)
    simp only [loopRenderSQLP]
    by_cases p : P c
    · obtain ⟨v, e⟩ := hc.1 p
      rw [e]
      simp only [Res.bind_ok]
      by_cases q : ∀ x ∈ cs, P x
      · obtain ⟨vs, e'⟩ := ih.1 q
        rw [e']
        exact ⟨fun _ => ⟨_, rfl⟩, fun k => absurd (List.forall_mem_cons.2 ⟨p, q⟩) k⟩
      · rw [ih.2 q]
        exact ⟨fun k => absurd (fun x hx => k x (List.mem_cons_of_mem _ hx)) q, fun _ => rfl⟩
    · rw [hc.2 p]
      exact ⟨fun k => absurd (k c (List.mem_cons_self ..)) p, fun _ => rfl⟩

theorem loopRenderP_deep {f : HCond → Nat → Res Str} {g : HCond → Res (List Val)} {P : HCond → Prop} : ∀ (cs : List HCond) (b : Bool) (n : Nat),
    (∀ c ∈ cs, (∀ n, Deep (P c) (f c n)) ∧ Deep (P c) (g c)) → Deep (∀ c ∈ cs, P c) (loopRenderP f g cs b n)
  | [], _, _, _ => ⟨fun _ => ⟨_, rfl⟩, fun h => absurd (fun _ hc => by cases hc) h⟩
  | c :: cs, b, n, h => by
    obtain ⟨hf, hg⟩ := h c (List.mem_cons_self ..)
    simp only [loopRenderP]
    by_cases p : P c
    · obtain ⟨s, e⟩ := (hf n).1 p
      obtain ⟨v, e2⟩ := hg.1 p
      rw [e, e2]
      simp only [Res.bind_ok]
      have ih := loopRenderP_deep cs false (n + v.length) fun x hx => h x (List.mem_cons_of_mem _ hx)
      by_cases q : ∀ x ∈ cs, P x
      · obtain ⟨vs, e'⟩ := ih.1 q
        rw [e']
        exact ⟨fun _ => ⟨_, rfl⟩, fun k => absurd (List.forall_mem_cons.2 ⟨p, q⟩) k⟩
      · rw [ih.2 q]
        exact ⟨fun k => absurd (fun x hx => k x (List.mem_cons_of_mem _ hx)) q, fun _ => rfl⟩
    · rw [(hf n).2 p]
      exact ⟨fun k => absurd (k c (List.mem_cons_self ..)) p, fun _ => rfl⟩

/-- Reading with a bound on the depth. -/
theorem readP_deep (hz : StB st) : ∀ (d : Nat) (c : HCond), c.bnd st → c.lists st →
    Deep (c.nested st d) (valuesP st d c) ∧ (∀ n, Deep (c.nested st d) (renderP st d c n)) ∧ Deep (c.nested st d) (renderSQLP st d c) := by
  have leaf : ∀ (d : Nat) (e : Cond), e.asGroup = none → (HCond.leaf e).lists st →
      Deep ((HCond.leaf e).nested st d) (valuesP st d (.leaf e)) ∧ (∀ n, Deep ((HCond.leaf e).nested st d) (renderP st d (.leaf e) n)) ∧
        Deep ((HCond.leaf e).nested st d) (renderSQLP st d (.leaf e)) := by
    intro d e hg h
    have hv := h e (.inl rfl)
    have hn : (HCond.leaf e).nested st d := by simp only [HCond.nested]
    refine ⟨⟨fun _ => ?_, fun k => absurd hn k⟩, fun n => ⟨fun _ => ?_, fun k => absurd hn k⟩, ⟨fun _ => ?_, fun k => absurd hn k⟩⟩
    · simpa only [valuesP] using hv
    · simpa only [renderP] using (render_listable hv hg n).1
    · simpa only [renderSQLP] using (render_listable hv hg 0).2
  intro d
  induction d with
  | zero =>
    intro c hb h
    cases c with
    | leaf e => exact leaf 0 e hb h
    | group b s br =>
      simp only [HCond.nested, valuesP, renderP, renderSQLP]
      exact ⟨⟨fun k => k.elim, fun _ => rfl⟩, fun _ => ⟨fun k => k.elim, fun _ => rfl⟩, ⟨fun k => k.elim, fun _ => rfl⟩⟩
  | succ d ih =>
    intro c hb h
    cases c with
    | leaf e => exact leaf (d + 1) e hb h
    | group b s br =>
      have im : ∀ x ∈ st.read s, _ := fun x hx => ih x (read_mem_bnd hz hx) (h.mem hx)
      simp only [HCond.nested, valuesP, renderP, renderSQLP]
      refine ⟨loopValuesP_deep _ fun x hx => (im x hx).1, fun n => ?_, ?_⟩
      · by_cases h0 : s.len = 0
        · rw [if_pos h0]
          refine ⟨fun _ => ⟨_, rfl⟩, fun k => absurd (fun x hx => ?_) k⟩
          simp only [Store.read, h0, List.take_zero] at hx
          cases hx
        · rw [if_neg h0]
          have := loopRenderP_deep (st.read s) true n fun x hx => ⟨(im x hx).2.1, (im x hx).1⟩
          refine ⟨fun k => ?_, fun k => ?_⟩
          · obtain ⟨a, e⟩ := this.1 k; rw [e]; exact ⟨_, rfl⟩
          · rw [this.2 k]; rfl
      · by_cases h0 : s.len = 0
        · rw [if_pos h0]
          refine ⟨fun _ => ⟨_, rfl⟩, fun k => absurd (fun x hx => ?_) k⟩
          simp only [Store.read, h0, List.take_zero] at hx
          cases hx
        · rw [if_neg h0]
          have := loopRenderSQLP_deep (st.read s) true fun x hx => (im x hx).2.2
          refine ⟨fun k => ?_, fun k => ?_⟩
          · obtain ⟨a, e⟩ := this.1 k; rw [e]; exact ⟨_, rfl⟩
          · rw [this.2 k]; rfl

end

end Query
