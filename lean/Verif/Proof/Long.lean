import Verif.Spec.Long
import Verif.Props.Nested

/-!
# Helper lemmas for C91

The text of a condition is no longer than the room of its tests and 11 characters for every group (`text_long`); a call that combines
conditions makes at most three groups (`call_groups`).
-/

namespace Query

/-! ### Text -/

theorem roomOf_append (d : Nat) (a b : List Leaf) : roomOf d (a ++ b) = roomOf d a + roomOf d b := by simp [roomOf]

theorem joinWith_length_le (sep : Str) (xs : List Str) (m : Nat) (h : ∀ x ∈ xs, x.length ≤ m) :
    (joinWith sep xs).length ≤ (m + sep.length) * xs.length := by
  induction xs with
  | nil => simp [joinWith]
  | cons x l ih =>
    have hx := h x (by simp)
    cases l with
    | nil =>
      simp only [joinWith, List.length_cons, List.length_nil]
      omega
    | cons y r =>
      have := ih (fun z hz => h z (by simp [hz]))
      simp only [joinWith, List.length_append]
      rw [List.length_cons, Nat.mul_succ]
      omega

theorem itoa_le {n d : Nat} (hd : 0 < d) (h : n < 10 ^ d) : (itoa n).length ≤ d :=
  (Nat.length_toDigits_le_iff (by omega) hd).mpr h

theorem leaf_long {k : Kind} {b : CondBase} {fv : FieldValue} (h : ReadableNode (.fieldc k b fv)) {n d : Nat} (hd : 0 < d) {s : Str}
    (hs : fieldcRender k b fv n = .ok s) (hn : n + (bindsOf k fv).length < 10 ^ d) :
    s.length + 5 ≤ Leaf.room d ⟨k.opText, fv.fd.col, bindsOf k fv⟩ := by
  obtain ⟨v, vs, hb, hv, h1⟩ := readable_binds h
  have hcol : fv.fd.renderSpec = fv.fd.col := plain_renderSpec (readable_fieldc h).1
  have hone : k ≠ .inn → (itoa (n + 1)).length ≤ d ∧ (bindsOf k fv).length = 1 := by
    intro hk
    have : (bindsOf k fv).length = 1 := by rw [hb, h1 hk]; rfl
    exact ⟨itoa_le hd (by omega), this⟩
  unfold Leaf.room
  simp only
  by_cases hk : k = .inn
  · subst hk
    have hv' : fv.values = .ok (v :: vs) := hv
    simp only [fieldcRender, hv', Res.bind_ok, Res.ok.injEq] at hs
    have hl := joinWith_length_le c!"," (inPlaceholders n (v :: vs).length) (d + 1) (by
      intro x hx
      simp only [inPlaceholders, List.mem_map, List.mem_range] at hx
      obtain ⟨i, hi, rfl⟩ := hx
      rw [hb] at hn
      have := itoa_le (n := n + i + 1) hd (by omega)
      simp only [List.length_append, List.length_cons, List.length_nil]
      omega)
    have hll : (inPlaceholders n (v :: vs).length).length = (v :: vs).length := by simp [inPlaceholders]
    rw [hll, show d + 1 + (c!"," : Str).length = d + 2 from rfl] at hl
    rw [hb, ← hs]
    unfold renderIn
    simp only [hcol]
    split
    · simp only [joinWith, List.length_append, CondBase.renderNegate, cmpSym, List.length_cons, List.length_nil, *, if_true] at hl ⊢
      omega
    · simp only [joinWith, List.length_append, cmpSym, List.length_cons, List.length_nil] at hl ⊢
      omega
  · obtain ⟨hi, hl⟩ := hone hk
    rw [hl]
    cases k <;> simp only [fieldcRender, Res.ok.injEq] at hs
    all_goals first
      | exact absurd rfl hk
      | (rw [← hs]
         unfold renderCmp
         simp only [hcol]
         split <;> simp only [joinWith, List.length_append, CondBase.renderNegate, cmpSym, List.length_cons, List.length_nil, *, if_true] at hi ⊢ <;> omega)
      | (rw [← hs]
         unfold renderLike
         simp only [hcol]
         split <;> simp only [joinWith, List.length_append, CondBase.renderNegate, cmpSym, List.length_cons, List.length_nil, *, if_true] at hi ⊢ <;> omega)

theorem joinToken_long (c : Cond) (f : Bool) (h : f = false → c.joinType = c!"AND" ∨ c.joinType = c!"OR") : (joinToken c f).length ≤ 5 := by
  unfold joinToken CondBase.renderJoin
  cases f with
  | true => simp
  | false =>
    have h : c.base.joinType = c!"AND" ∨ c.base.joinType = c!"OR" := h rfl
    rcases h with h | h <;> simp [h]

theorem wrap_long (b : CondBase) (k : Nat) (br : Bool) (s : Str) : (wrapGroup b k br s).length ≤ s.length + 6 := by
  have h : ∀ x : Bool, (if x then c!"(" ++ s ++ c!")" else s).length ≤ s.length + 2 := by
    intro x
    cases x <;> simp
  unfold wrapGroup CondBase.renderNegate
  simp only
  generalize (if (b.negate && decide (k > 1)) = true then true else br) = x
  have := h x
  cases b.negate with
  | false => simp only [Bool.false_eq_true, if_false]; omega
  | true => simp only [if_true, List.length_append, List.length_cons, List.length_nil] at this ⊢; omega

mutual
theorem text_long (d : Nat) (hd : 0 < d) (c : Cond) (n : Nat) (h : c.Readable) (s : Str) (hs : c.render n = .ok s)
    (hn : n + c.valuesP.length < 10 ^ d) : s.length + 5 ≤ roomOf d c.leaves + 11 * c.groups := by
  cases c with
  | fieldc k b fv =>
    rw [binds_valuesP] at hn
    simp only [Cond.render] at hs
    have := leaf_long h hd hs hn
    simpa [roomOf, Cond.leaves, Cond.groups] using this
  | null b fd =>
    have hcol : fd.renderSpec = fd.col := plain_renderSpec h
    simp only [Cond.render, Res.ok.injEq] at hs
    rw [← hs]
    simp only [roomOf, Cond.leaves, Cond.groups, List.map_cons, List.map_nil, List.sum_cons, List.sum_nil, Leaf.room, List.length_nil]
    unfold renderNull
    simp only [hcol]
    split <;> simp only [joinWith, List.length_append, List.length_cons, List.length_nil] <;> omega
  | custom b x => exact h.elim
  | group b cs br =>
    have hr := readable_group.mp h
    have hne : ¬ cs.length = 0 := by simpa using hr.1
    simp only [Cond.render, if_neg hne, Res.bind_eq_ok, Res.ok.injEq] at hs
    obtain ⟨t, h1, h2⟩ := hs
    have := textL_long d hd cs true n h.2 (fun _ => hr.2.1) (fun hf => by cases hf) t h1 hn
    have hw := wrap_long b cs.length br t
    rw [← h2]
    simp only [Cond.leaves, Cond.groups]
    omega
theorem textL_long (d : Nat) (hd : 0 < d) (cs : List Cond) (f : Bool) (n : Nat) (h : Cond.EveryL ReadableNode cs)
    (h1 : f = true → ∀ c ∈ cs.drop 1, c.joinType = c!"AND" ∨ c.joinType = c!"OR")
    (h2 : f = false → ∀ c ∈ cs, c.joinType = c!"AND" ∨ c.joinType = c!"OR") (s : Str) (hs : Cond.renderL cs f n = .ok s)
    (hn : n + (Cond.valuesPL cs).length < 10 ^ d) : s.length ≤ roomOf d (Cond.leavesL cs) + 11 * Cond.groupsL cs := by
  cases cs with
  | nil =>
    simp only [Cond.renderL, Res.ok.injEq] at hs
    simp [← hs]
  | cons c cs =>
    simp only [Cond.renderL, Res.bind_eq_ok, bind, pure, Res.ok.injEq] at hs
    obtain ⟨a, e1, vs, e2, r, e3, e4⟩ := hs
    have hv := Cond.values_pure c vs e2
    simp only [Cond.valuesPL, List.length_append] at hn
    have i1 := text_long d hd c n h.1 a e1 (by omega)
    have hw : ∀ x ∈ cs, x.joinType = c!"AND" ∨ x.joinType = c!"OR" := by
      intro x hx
      cases f with
      | true => exact h1 rfl x (by simpa using hx)
      | false => exact h2 rfl x (by simp [hx])
    have i2 := textL_long d hd cs false _ h.2 (fun hf => by cases hf) (fun _ => hw) r e3 (by rw [← hv]; omega)
    have i3 := joinToken_long c f (fun hf => h2 hf c (by simp))
    rw [← e4]
    simp only [Cond.leavesL, Cond.groupsL, roomOf_append, List.length_append]
    omega
end

/-! ### Groups -/

theorem groupsL_append (a b : List Cond) : Cond.groupsL (a ++ b) = Cond.groupsL a + Cond.groupsL b := by
  induction a with
  | nil => simp [Cond.groupsL]
  | cons c a ih => simp only [List.cons_append, Cond.groupsL, ih]; omega

theorem groups_join (c : Cond) (j : Str) : (c.join j).groups = c.groups := by cases c <;> rfl

theorem groups_negate (c : Cond) (b : Bool) : (c.setNegate b).groups = c.groups := by cases c <;> rfl

theorem groupsL_join (j : Str) (cs : List Cond) : Cond.groupsL (setToAll j cs) = Cond.groupsL cs := by
  induction cs with
  | nil => rfl
  | cons c cs ih => simp only [setToAll, List.map_cons, Cond.groupsL, groups_join] at ih ⊢; rw [ih]

theorem groups_toCond (g : Group) : g.toCond.groups = Cond.groupsL g.conds + 1 := rfl

theorem groups_newGroup (j : Str) (cs : List Cond) : (newGroup j cs).toCond.groups = Cond.groupsL cs + 1 := by
  rw [groups_toCond]
  exact congrArg (· + 1) (groupsL_join j cs)

theorem groups_addGroup (g a : Group) : (g.addGroup a).toCond.groups ≤ g.toCond.groups + a.toCond.groups + 1 := by
  simp only [Group.addGroup]
  repeat' split
  all_goals
    simp only [groups_toCond, groupsL_append, Cond.groupsL, groups_join, Group.withBrackets]
    omega

theorem groups_addSingle (g : Group) (c : Cond) : (g.addSingleCondition c).toCond.groups ≤ g.toCond.groups + c.groups + 1 := by
  simp only [Group.addSingleCondition]
  split
  · rename_i a ha
    have : c = a.toCond := by
      cases c <;> simp only [Cond.asGroup, Option.some.injEq, reduceCtorEq] at ha
      subst ha; rfl
    rw [this]
    exact groups_addGroup g a
  · repeat' split
    all_goals
      simp only [groups_toCond, groupsL_append, Cond.groupsL, groups_join, Group.withBrackets]
      omega

theorem groups_addConditions (g : Group) (j : Str) (cs : List Cond) :
    (g.addConditions j cs).toCond.groups ≤ g.toCond.groups + Cond.groupsL cs + 2 := by
  cases cs with
  | nil => simp only [Group.addConditions]; omega
  | cons c more =>
    simp only [Group.addConditions]
    split
    · simp only [groups_toCond, groupsL_append]; omega
    · split
      · have := groups_addSingle g (c.join j)
        rw [groups_join] at this
        simp only [Cond.groupsL]
        omega
      · repeat' split
        all_goals
          simp only [groups_toCond, groupsL_append, Cond.groupsL, groups_join, Group.withBrackets, newGroup, groupsL_join]
          omega

theorem groups_withGroup (c : Cond) (j j' : Str) (cs : List Cond) :
    ((match c.asGroup with | some g => g | none => newGroup j [c]).addConditions j' cs).toCond.groups ≤ c.groups + Cond.groupsL cs + 3 := by
  refine Nat.le_trans (groups_addConditions _ _ _) ?_
  have h : (newGroup j [c]).toCond.groups = c.groups + 0 + 1 := groups_newGroup j [c]
  cases c with
  | group b ds br => simp only [Cond.asGroup, groups_toCond, Cond.groups]; omega
  | _ => simp only [Cond.asGroup]; omega

theorem groups_fn (o : Bool) (c : Cond) (cs : List Cond) : (if o then orC c cs else andC c cs).groups ≤ c.groups + Cond.groupsL cs + 3 := by
  cases o with
  | true =>
    simp only [if_true, orC]
    split
    · rw [groups_join]; omega
    · rw [groups_join]; exact groups_withGroup c lOR lOR cs
  | false =>
    simp only [Bool.false_eq_true, if_false, andC]
    split
    · rw [groups_join]; omega
    · exact groups_withGroup c lAND lAND cs

theorem groups_and (c : Cond) (cs : List Cond) : (c.and cs).groups ≤ c.groups + Cond.groupsL cs + 3 := by
  have h1 := groups_fn false c cs
  have h2 := groups_addConditions (newGroup lAND [c]) lAND cs
  simp only [groups_newGroup, Cond.groupsL] at h2
  cases c with
  | fieldc k b fv => cases k <;> first | exact h1 | (simp only [Cond.and, Group.groupAND]; omega)
  | null b fd => simp only [Cond.and, Group.groupAND]; omega
  | custom b x => exact h1
  | group b ds br =>
    have := groups_addConditions ⟨b, ds, br⟩ lAND cs
    simp only [Cond.and, Group.groupAND]
    have e : (Cond.group b ds br).groups = (Group.toCond ⟨b, ds, br⟩).groups := rfl
    omega

theorem groups_or (c : Cond) (cs : List Cond) (d : Cond) (h : c.or cs = .ok d) : d.groups ≤ c.groups + Cond.groupsL cs + 3 := by
  have h1 := groups_fn true c cs
  have h2 := groups_addConditions (newGroup lOR [c]) lOR cs
  simp only [groups_newGroup, Cond.groupsL] at h2
  cases c with
  | fieldc k b fv => cases k <;> (simp only [Cond.or, Res.ok.injEq] at h; subst h) <;> first | exact h1 | (simp only [Group.groupOR]; omega)
  | null b fd => simp [Cond.or, nullOr, newGroupI, setToAllI, Res.mapL, joinOneI] at h
  | custom b x => simp only [Cond.or, Res.ok.injEq] at h; subst h; exact h1
  | group b ds br =>
    have := groups_addConditions ⟨b, ds, br⟩ lOR cs
    simp only [Cond.or, Res.ok.injEq, Group.groupOR] at h
    subst h
    have e : (Cond.group b ds br).groups = (Group.toCond ⟨b, ds, br⟩).groups := rfl
    omega

theorem groups_test (t : Test) (c : Cond) (h : t.call = .ok c) : c.groups = 0 := by
  have hf : ∀ k fn v, mkField k fn v = .ok c → c.groups = 0 := by
    intro k fn v h
    simp only [mkField, Res.bind_eq_ok, Res.ok.injEq] at h
    obtain ⟨_, _, rfl⟩ := h
    rfl
  cases t with
  | cmp o col v p => cases o <;> exact hf _ _ _ h
  | isIn col v ps => exact hf _ _ _ h
  | has col v => exact hf _ _ _ h
  | ihas col v => exact hf _ _ _ h
  | null col =>
    simp only [Test.call, isNull, Res.bind_eq_ok, Res.ok.injEq] at h
    obtain ⟨_, _, rfl⟩ := h
    rfl

namespace CondExp
mutual
theorem call_groups : ∀ e : CondExp, ∀ c, e.call = .ok c → c.groups ≤ 3 * e.combines
  | .test t, c, hc => by
    simp only [call] at hc
    simp [groups_test t c hc]
  | .not e, c, hc => by
    simp only [call, Res.bind_eq_ok, Res.ok.injEq] at hc
    obtain ⟨d, h1, rfl⟩ := hc
    rw [show notC d = d.setNegate true from rfl, groups_negate]
    exact call_groups e d h1
  | .unnot e, c, hc => by
    simp only [call, Res.bind_eq_ok, Res.ok.injEq] at hc
    obtain ⟨d, h1, rfl⟩ := hc
    rw [groups_negate]
    exact call_groups e d h1
  | .join o e, c, hc => by
    simp only [call, Res.bind_eq_ok, Res.ok.injEq] at hc
    obtain ⟨d, h1, rfl⟩ := hc
    rw [groups_join]
    exact call_groups e d h1
  | .brackets e, c, hc => by
    simp only [call, Res.bind_eq_ok, Res.ok.injEq] at hc
    obtain ⟨d, h1, rfl⟩ := hc
    have := call_groups e d h1
    cases d <;> exact this
  | .fn o e es, c, hc => by
    simp only [call, Res.bind_eq_ok, Res.ok.injEq] at hc
    obtain ⟨d, h1, ds, h2, rfl⟩ := hc
    have i1 := call_groups e d h1
    have i2 := callL_groups es ds h2
    have := groups_fn o d ds
    simp only [combines]
    omega
  | .method o e es, c, hc => by
    simp only [call, Res.bind_eq_ok] at hc
    obtain ⟨d, h1, ds, h2, h3⟩ := hc
    have i1 := call_groups e d h1
    have i2 := callL_groups es ds h2
    simp only [combines]
    cases o with
    | false =>
      simp only [Bool.false_eq_true, if_false, Res.ok.injEq] at h3
      subst h3
      have := groups_and d ds
      omega
    | true =>
      have := groups_or d ds c (by simpa using h3)
      omega
  | .group o es, c, hc => by
    simp only [call, Res.bind_eq_ok, Res.ok.injEq] at hc
    obtain ⟨ds, h2, rfl⟩ := hc
    have i2 := callL_groups es ds h2
    rw [groups_newGroup]
    simp only [combines]
    omega
  | .joinAll o es, c, hc => by
    simp only [call, Res.bind_eq_ok] at hc
    obtain ⟨ds, h2, h3⟩ := hc
    have i2 := callL_groups es ds h2
    simp only [combines]
    match ds, h3 with
    | [], h3 => simp [Query.joinAll] at h3
    | [d], h3 =>
      have h3 : Res.ok (d.join (wordOf o)) = .ok c := h3
      injection h3 with h3
      rw [← h3, groups_join]
      simp only [Cond.groupsL] at i2
      omega
    | d :: d' :: ds, h3 =>
      have h3 : (newGroupI (wordOf o) ((d :: d' :: ds).map some)).bind (fun g => .ok g.toCond) = .ok c := h3
      rw [newGroupI_some, Res.bind_ok] at h3
      injection h3 with h3
      rw [← h3, groups_newGroup]
      omega
theorem callL_groups : ∀ es : List CondExp, ∀ cs, callL es = .ok cs → Cond.groupsL cs ≤ 3 * combinesL es
  | [], cs, hc => by
    simp only [callL, Res.ok.injEq] at hc
    subst hc
    simp [Cond.groupsL]
  | e :: es, cs, hc => by
    simp only [callL, Res.bind_eq_ok, Res.ok.injEq] at hc
    obtain ⟨d, h1, ds, h2, rfl⟩ := hc
    have i1 := call_groups e d h1
    have i2 := callL_groups es ds h2
    simp only [combinesL, Cond.groupsL]
    omega
end
end CondExp

/-! ### Question marks -/

/-- Parts of one character, joined, are no longer than as many parts that are not empty. -/
theorem joinWith_ones (sep : Str) : ∀ (xs ys : List Str), xs.length = ys.length → (∀ x ∈ xs, x.length = 1) → (∀ y ∈ ys, 1 ≤ y.length) →
    (joinWith sep xs).length ≤ (joinWith sep ys).length
  | [], [], _, _, _ => Nat.le_refl _
  | [x], [y], _, hx, hy => by
    have h1 := hx x (by simp)
    have h2 := hy y (by simp)
    simp only [joinWith]
    omega
  | x :: x' :: xs, y :: y' :: ys, hl, hx, hy => by
    have := joinWith_ones sep (x' :: xs) (y' :: ys) (by simpa using hl) (fun z hz => hx z (by simp [List.mem_cons.mp hz]))
      (fun z hz => hy z (by simp [List.mem_cons.mp hz]))
    have h1 := hx x (by simp)
    have h2 := hy y (by simp)
    simp only [joinWith, List.length_append]
    omega
  | [], _ :: _, hl, _, _ => by cases hl
  | _ :: _, [], hl, _, _ => by cases hl
  | [_], _ :: _ :: _, hl, _, _ => by simp at hl
  | _ :: _ :: _, [_], hl, _, _ => by simp at hl

theorem leaf_marks (k : Kind) (b : CondBase) (fv : FieldValue) (n : Nat) (s : Str) (h : fieldcRender k b fv n = .ok s) :
    ∃ t, fieldcRenderSQL k b fv = .ok t ∧ t.length ≤ s.length := by
  cases k with
  | inn =>
    simp only [fieldcRender, Res.bind_eq_ok, Res.ok.injEq] at h
    obtain ⟨vs, hv, rfl⟩ := h
    refine ⟨renderInSQL b fv.fd vs.length, by simp only [fieldcRenderSQL, hv, Res.bind_ok], ?_⟩
    have := joinWith_ones c!"," (List.replicate vs.length c!"?") (inPlaceholders n vs.length) (by simp [inPlaceholders])
      (fun x hx => by rw [(List.mem_replicate.mp hx).2]; rfl) (fun y hy => by
        simp only [inPlaceholders, List.mem_map] at hy
        obtain ⟨i, _, rfl⟩ := hy
        simp)
    unfold renderInSQL renderIn
    simp only
    split <;> simp only [joinWith, List.length_append] at this ⊢ <;> omega
  | like | ilike =>
    simp only [fieldcRender, Res.ok.injEq] at h
    subst h
    refine ⟨_, rfl, ?_⟩
    unfold renderLikeSQL renderLike
    split <;> simp only [joinWith, List.length_append, List.length_cons, List.length_nil] <;> omega
  | _ =>
    simp only [fieldcRender, Res.ok.injEq] at h
    subst h
    refine ⟨_, rfl, ?_⟩
    unfold renderCmpSQL renderCmp
    split <;> simp only [joinWith, List.length_append, List.length_cons, List.length_nil] <;> omega

theorem wrap_mono (b : CondBase) (k : Nat) (br : Bool) {s t : Str} (h : t.length ≤ s.length) :
    (wrapGroup b k br t).length ≤ (wrapGroup b k br s).length := by
  unfold wrapGroup
  simp only
  generalize (if (b.negate && decide (k > 1)) = true then true else br) = x
  cases x <;> cases b.negate <;> simp only [Bool.false_eq_true, if_false, if_true, List.length_append] <;> omega

mutual
theorem marks_long (c : Cond) (n : Nat) (h : c.Every LibraryNode) (s : Str) (hs : c.render n = .ok s) :
    ∃ t, c.renderSQL = .ok t ∧ t.length ≤ s.length := by
  cases c with
  | fieldc k b fv => exact leaf_marks k b fv n s hs
  | null b fd =>
    simp only [Cond.render, Res.ok.injEq] at hs
    exact ⟨_, rfl, by rw [hs]; exact Nat.le_refl _⟩
  | custom b x => exact h.elim
  | group b cs br =>
    simp only [Cond.render] at hs
    simp only [Cond.renderSQL]
    split at hs
    · rename_i h0
      rw [if_pos h0]
      exact ⟨_, rfl, by simp⟩
    · rename_i h0
      rw [if_neg h0]
      simp only [Res.bind_eq_ok, Res.ok.injEq] at hs
      obtain ⟨a, h1, rfl⟩ := hs
      obtain ⟨t, h2, h3⟩ := marksL_long cs true n h.2 a h1
      exact ⟨_, by rw [h2, Res.bind_ok], wrap_mono b _ br h3⟩
theorem marksL_long (cs : List Cond) (f : Bool) (n : Nat) (h : Cond.EveryL LibraryNode cs) (s : Str) (hs : Cond.renderL cs f n = .ok s) :
    ∃ t, Cond.renderSQLL cs f = .ok t ∧ t.length ≤ s.length := by
  cases cs with
  | nil => exact ⟨_, rfl, by simp⟩
  | cons c cs =>
    simp only [Cond.renderL, Res.bind_eq_ok, bind, pure, Res.ok.injEq] at hs
    obtain ⟨a, e1, vs, _, r, e3, rfl⟩ := hs
    obtain ⟨t1, g1, g2⟩ := marks_long c n h.1 a e1
    obtain ⟨t2, g3, g4⟩ := marksL_long cs false _ h.2 r e3
    refine ⟨joinToken c f ++ t1 ++ t2, by simp only [Cond.renderSQLL, bind, pure, g1, g3, Res.bind_ok], ?_⟩
    simp only [List.length_append]
    omega
end

end Query
