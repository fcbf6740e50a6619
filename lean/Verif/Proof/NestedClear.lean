import Verif.Proof.Nested
/-!
# Calls that say what they should
-/
namespace Query

set_option linter.unusedSimpArgs false

/-- Members as the calls make them: the first factor has the word of the first; several have an OR or an AND between them, one has none. -/
structure Members.WF (p : Members) : Prop where
  head : ∃ v l, p.facs = (p.first, v) :: l
  many : p.many = true → (p.noOr && p.noAnd) = false
  one : p.many = false → p.noOr = true ∧ p.noAnd = true

/-- A condition as the calls make it. -/
def Made.WF : Made → Prop
  | .test _ _ _ _ => True
  | .group g => g.mem.WF

/-- The condition says `x`. -/
structure Made.Is (m : Made) (x : Tri) : Prop where
  wf : m.WF
  sem : joinTri m.facs = x
  inside : ∀ g, m = .group g → (joinTri g.mem.facs).notIf g.neg = x

theorem made_head {m : Made} (h : m.WF) : ∃ v l, m.facs = (m.word, v) :: l := by
  cases m with
  | test k x neg w => exact ⟨_, _, rfl⟩
  | group g =>
    obtain ⟨v, l, e⟩ := h.head
    simp only [Made.facs, Made.word]
    split
    · exact ⟨_, _, rfl⟩
    · rw [e]; exact ⟨_, _, rfl⟩

theorem wf_one {m : Made} (h : m.WF) : (Members.one m.word m.facs).WF :=
  ⟨made_head h, fun h => (by cases h), fun _ => ⟨rfl, rfl⟩⟩

theorem wf_then {p q : Members} (hp : p.WF) (hq : q.WF) : (p.then q).WF := by
  obtain ⟨v, l, e⟩ := hp.head
  refine ⟨⟨v, l ++ q.facs, by simp [Members.then, e]⟩, fun _ => ?_, fun h => by cases h⟩
  simp only [Members.then]
  cases q.first <;> simp

theorem wf_box (g : MadeGroup) (o : Bool) : (g.box o).WF :=
  ⟨⟨_, _, rfl⟩, fun h => (by cases h), fun _ => ⟨rfl, rfl⟩⟩

theorem wf_withWord {m : Made} (h : m.WF) (o : Bool) : (m.withWord o).WF := by cases m <;> exact h

theorem wf_row : ∀ ms : List Made, ms ≠ [] → (∀ m ∈ ms, m.WF) → (Made.row ms).WF
  | [], h, _ => absurd rfl h
  | [m], _, h => wf_one (h m (by simp))
  | m :: n :: ms, _, h => wf_then (wf_one (h m (by simp))) (wf_row (n :: ms) (by simp) fun x hx => h x (by simp [hx]))

theorem wf_newGroup {ms : List Made} (o : Bool) (hn : ms ≠ []) (h : ∀ m ∈ ms, m.WF) : (Made.newGroup o ms).mem.WF := by
  refine wf_row _ (by simpa using hn) fun m hm => ?_
  obtain ⟨a, ha, rfl⟩ := List.mem_map.mp hm
  exact wf_withWord (h a ha) o

theorem wf_addAnd {h : MadeGroup} (hh : h.mem.WF) : ∀ ms : List Made, (∀ m ∈ ms, m.WF) → (h.addAnd ms).WF
  | [], _ => hh
  | [.test k x neg w], _ => by
    simp only [MadeGroup.addAnd]
    refine wf_then ?_ (wf_row _ (by simp) (by simp [Made.WF]))
    split
    · exact hh
    · exact wf_box _ _
  | [.group a], hm => by
    have ha : a.mem.WF := hm (.group a) (by simp)
    simp only [MadeGroup.addAnd]
    split <;> refine wf_then (by first | exact hh | exact wf_box _ _) ?_ <;> split <;> first | exact ha | exact wf_box _ _
  | m :: n :: ms, hm => by
    rw [addAnd_many]
    refine wf_then (wf_box _ _) ?_
    split
    · exact wf_box _ _
    · exact wf_row _ (by simp) hm

theorem wf_addOr {h : MadeGroup} (hh : h.mem.WF) : ∀ ms : List Made, (∀ m ∈ ms, m.WF) → (h.addOr ms).WF
  | [], _ => hh
  | [.test k x neg w], _ => by
    simp only [MadeGroup.addOr]
    refine wf_then ?_ (wf_row _ (by simp) (by simp [Made.WF]))
    split
    · exact hh
    · exact wf_box _ _
  | [.group a], hm => by
    have ha : a.mem.WF := hm (.group a) (by simp)
    simp only [MadeGroup.addOr]
    refine wf_then ?_ ?_ <;> split <;> first | exact hh | exact ha | exact wf_box _ _
  | m :: n :: ms, hm => by
    rw [addOr_many]
    split
    · exact wf_then (wf_box _ _) (wf_box _ _)
    · exact wf_then hh (wf_row _ (by simp) (by simpa [Made.WF] using wf_newGroup true (by simp) hm))

/-! ## Truth values side by side -/

theorem oFree_iff (l : List (Bool × Tri)) : noOrIn l = true ↔ OFree l := by
  simp [noOrIn, OFree]

theorem join_then_or {p q : Members} (hp : p.WF) (hq : q.WF) (h : q.first = true) :
    joinTri (p.then q).facs = (joinTri p.facs).or (joinTri q.facs) := by
  obtain ⟨v, l, e⟩ := hq.head
  obtain ⟨v', l', e'⟩ := hp.head
  simp only [Members.then, e, h]
  exact joinTri_append_or _ _ _ (by simp [e'])

theorem join_then_and {p q : Members} (hp : p.WF) (hq : q.WF) (h : q.first = false) (h1 : OFree p.facs) (h2 : OFree q.facs) :
    joinTri (p.then q).facs = (joinTri p.facs).and (joinTri q.facs) := by
  obtain ⟨v, l, e⟩ := hq.head
  obtain ⟨v', l', e'⟩ := hp.head
  simp only [Members.then, e, h]
  refine joinTri_append_and _ _ _ (by simp [e']) h1 ?_
  intro x hx
  exact h2 x (by rw [e]; simpa using hx)

theorem oFree_then {p q : Members} (hp : p.WF) (hq : q.WF) (h : q.first = false) (h1 : OFree p.facs) (h2 : OFree q.facs) :
    OFree (p.then q).facs := by
  obtain ⟨v, l, e⟩ := hq.head
  obtain ⟨v', l', e'⟩ := hp.head
  intro x hx
  simp only [Members.then, e', e, List.cons_append, List.drop_one, List.tail_cons, List.mem_append, List.mem_cons] at hx
  rcases hx with hx | rfl | hx
  · exact h1 x (by rw [e']; simpa using hx)
  · exact h
  · exact h2 x (by rw [e]; simpa using hx)

theorem box_facs (g : MadeGroup) (o : Bool) : joinTri (g.box o).facs = (joinTri g.mem.facs).notIf g.neg := joinTri_one _

theorem box_oFree (g : MadeGroup) (o : Bool) : OFree (g.box o).facs := by intro p hp; simp [MadeGroup.box, Members.one] at hp

theorem facs_withWord (m : Made) (o : Bool) : (m.withWord o).facs = ssetHead o m.facs := by
  cases m with
  | test k x neg w => rfl
  | group g =>
    simp only [Made.withWord, Made.facs]
    split
    · rfl
    · cases snegHead g.neg g.mem.facs <;> rfl

theorem noOrIn_setHead (o : Bool) (l : List (Bool × Tri)) : noOrIn (ssetHead o l) = noOrIn l := by cases l <;> rfl

theorem word_withWord (m : Made) (o : Bool) : (m.withWord o).word = o := by cases m <;> rfl

theorem is_withWord {m : Made} {x : Tri} (h : m.Is x) (o : Bool) : (m.withWord o).Is x := by
  refine ⟨wf_withWord h.wf o, by rw [facs_withWord, joinTri_ssetHead]; exact h.sem, ?_⟩
  cases m with
  | test k y neg w => intro g e; cases e
  | group g => intro g' e; cases e; exact h.inside g rfl

/-- Conditions with their truth values. -/
def AreL : List Made → List Tri → Prop
  | [], [] => True
  | m :: ms, x :: xs => m.Is x ∧ AreL ms xs
  | _, _ => False

theorem areL_wf : ∀ (ms : List Made) (xs : List Tri), AreL ms xs → ∀ m ∈ ms, m.WF
  | [], _, _ => fun _ h => nomatch h
  | m :: ms, [], h => h.elim
  | m :: ms, x :: xs, h => by
    intro n hn
    simp only [List.mem_cons] at hn
    rcases hn with rfl | hn
    · exact h.1.wf
    · exact areL_wf ms xs h.2 n hn

theorem areL_withWord (o : Bool) : ∀ (ms : List Made) (xs : List Tri), AreL ms xs → AreL (ms.map (Made.withWord o)) xs
  | [], [], _ => trivial
  | [], _ :: _, h => h.elim
  | m :: ms, [], h => h.elim
  | m :: ms, x :: xs, h => ⟨is_withWord h.1 o, areL_withWord o ms xs h.2⟩

theorem row_first : ∀ (m : Made) (ms : List Made), (Made.row (m :: ms)).first = m.word
  | _, [] => rfl
  | _, _ :: _ => rfl

/-- Side by side and joined by AND, without OR anywhere: all of them. -/
theorem row_and : ∀ (ms : List Made) (xs : List Tri), AreL ms xs → ms ≠ [] → (∀ m ∈ ms, noOrIn m.facs = true) → (∀ m ∈ ms.drop 1, m.word = false) →
    OFree (Made.row ms).facs ∧ joinTri (Made.row ms).facs = allOf xs
  | [], _, _, hn, _, _ => absurd rfl hn
  | [m], [], h, _, _, _ => h.elim
  | [m], [x], h, _, ho, _ => by
    refine ⟨(oFree_iff _).mp (ho m (by simp)), ?_⟩
    simp only [allOf, List.foldr_cons, List.foldr_nil, Tri.and_t]
    exact h.1.sem
  | [m], x :: y :: xs, h, _, _, _ => h.2.elim
  | m :: n :: ms, [], h, _, _, _ => h.elim
  | m :: n :: ms, x :: xs, h, _, ho, hw => by
    obtain ⟨h1, h2⟩ := row_and (n :: ms) xs h.2 (by simp) (fun y hy => ho y (by simp [hy])) (fun y hy => hw y (by
      simp only [List.drop_one, List.tail_cons] at hy ⊢; simp [hy]))
    have hwf1 := wf_one h.1.wf
    have hwf2 := wf_row (n :: ms) (by simp) (areL_wf _ _ h.2)
    have hf : (Made.row (n :: ms)).first = false := by rw [row_first]; exact hw n (by simp)
    have ho1 : OFree (Members.one m.word m.facs).facs := (oFree_iff _).mp (ho m (by simp))
    refine ⟨oFree_then hwf1 hwf2 hf ho1 h1, ?_⟩
    show joinTri ((Members.one m.word m.facs).then (Made.row (n :: ms))).facs = _
    rw [join_then_and hwf1 hwf2 hf ho1 h1, h2]
    show (joinTri m.facs).and _ = _
    rw [h.1.sem]
    rfl

/-- Side by side and joined by OR: one of them. -/
theorem row_or : ∀ (ms : List Made) (xs : List Tri), AreL ms xs → ms ≠ [] → (∀ m ∈ ms.drop 1, m.word = true) →
    joinTri (Made.row ms).facs = anyOf xs
  | [], _, _, hn, _ => absurd rfl hn
  | [m], [], h, _, _ => h.elim
  | [m], [x], h, _, _ => by
    simp only [anyOf, List.foldr_cons, List.foldr_nil, Tri.or_f]
    exact h.1.sem
  | [m], x :: y :: xs, h, _, _ => h.2.elim
  | m :: n :: ms, [], h, _, _ => h.elim
  | m :: n :: ms, x :: xs, h, _, hw => by
    have h2 := row_or (n :: ms) xs h.2 (by simp) (fun y hy => hw y (by
      simp only [List.drop_one, List.tail_cons] at hy ⊢; simp [hy]))
    have hf : (Made.row (n :: ms)).first = true := by rw [row_first]; exact hw n (by simp)
    show joinTri ((Members.one m.word m.facs).then (Made.row (n :: ms))).facs = _
    rw [join_then_or (wf_one h.1.wf) (wf_row (n :: ms) (by simp) (areL_wf _ _ h.2)) hf, h2]
    show (joinTri m.facs).or _ = _
    rw [h.1.sem]
    rfl

theorem map_words (o : Bool) (ms : List Made) : ∀ m ∈ (ms.map (Made.withWord o)).drop 1, m.word = o := by
  intro m hm
  obtain ⟨a, _, rfl⟩ := List.mem_map.mp (List.mem_of_mem_drop hm)
  exact word_withWord a o

/-- A new group joined by AND, without OR inside. -/
theorem newGroup_and (ms : List Made) (xs : List Tri) (h : AreL ms xs) (hn : ms ≠ []) (ho : ∀ m ∈ ms, noOrIn m.facs = true) :
    joinTri (Made.newGroup false ms).mem.facs = allOf xs := by
  refine (row_and _ xs (areL_withWord false ms xs h) (by simpa using hn) ?_ (map_words false ms)).2
  intro m hm
  obtain ⟨a, ha, rfl⟩ := List.mem_map.mp hm
  rw [facs_withWord, noOrIn_setHead]
  exact ho a ha

/-- A new group joined by OR. -/
theorem newGroup_or (ms : List Made) (xs : List Tri) (h : AreL ms xs) (hn : ms ≠ []) : joinTri (Made.newGroup true ms).mem.facs = anyOf xs :=
  row_or _ xs (areL_withWord true ms xs h) (by simpa using hn) (map_words true ms)

theorem is_group {g : MadeGroup} (hw : g.mem.WF) (hn : g.neg = false) : (Made.group g).Is (joinTri g.mem.facs) := by
  refine ⟨hw, ?_, fun g' e => ?_⟩
  · simp only [Made.facs, hn, Bool.false_and, Bool.or_false]
    split
    · rw [joinTri_one]; rfl
    · rw [joinTri_ssetHead]
      cases h : g.mem.facs <;> rfl
  · cases e; rw [hn]; rfl

/-- And is conjunction. -/
theorem adds_conj {h : MadeGroup} (hh : h.mem.WF) : ∀ (ms : List Made) (xs : List Tri), AreL ms xs → ms ≠ [] → h.takesAnd ms = true →
    h.neg = false ∧ joinTri (h.addAnd ms).facs = (joinTri h.mem.facs).and (allOf xs)
  | [], _, _, hn, _ => absurd rfl hn
  | [m], [], ha, _, _ => ha.elim
  | [m], x :: y :: xs, ha, _, _ => ha.2.elim
  | [.test k v neg w], [x], ha, _, ht => by
    simp only [MadeGroup.takesAnd, Bool.and_eq_true, Bool.not_eq_true', Bool.or_eq_true] at ht
    refine ⟨ht.1, ?_⟩
    have hx : v.notIf neg = x := by have := ha.1.sem; simpa only [Made.facs, joinTri_one] using this
    have hq := wf_row [Made.test k v neg false] (by simp) (by simp [Made.WF])
    have hqo : OFree (Made.row [Made.test k v neg false]).facs := by intro p hp; simp [Made.row, Members.one, Made.facs] at hp
    have hqs : joinTri (Made.row [Made.test k v neg false]).facs = allOf [x] := by
      simp only [Made.row, Members.one, Made.facs, joinTri_one, hx, allOf, List.foldr_cons, List.foldr_nil, Tri.and_t]
    simp only [MadeGroup.addAnd]
    split
    · rename_i hA
      rw [join_then_and hh hq rfl ((oFree_iff _).mp (ht.2.resolve_left (by simp [hA]))) hqo, hqs]
    · rw [join_then_and (wf_box _ _) hq rfl (box_oFree _ _) hqo, hqs, box_facs, ht.1]; rfl
  | [.group a], [x], ha, _, ht => by
    simp only [MadeGroup.takesAnd, Bool.and_eq_true, Bool.not_eq_true', Bool.or_eq_true] at ht
    obtain ⟨⟨ht1, ht2⟩, ht3⟩ := ht
    refine ⟨ht1, ?_⟩
    have hx := ha.1.inside a rfl
    have haw : a.mem.WF := ha.1.wf
    have hxs : allOf [x] = x := by simp only [allOf, List.foldr_cons, List.foldr_nil, Tri.and_t]
    have hbox : joinTri (a.box false).facs = x := by rw [box_facs, hx]
    rw [hxs]
    simp only [MadeGroup.addAnd]
    split
    · rename_i hA
      have ho := (oFree_iff _).mp (ht2.resolve_left (by simp [hA]))
      split
      · rename_i hB
        rcases ht3 with (⟨⟨⟨h1, h2⟩, h3⟩, _⟩ | ⟨h1, h2⟩) | ⟨h1, _⟩
        · rw [h1] at hx
          rw [join_then_and hh haw h2 ho ((oFree_iff _).mp h3)]
          exact congrArg _ hx
        · have := haw.many h1
          rw [hB, h2] at this; cases this
        · rw [hB] at h1; cases h1
      · rw [join_then_and hh (wf_box _ _) rfl ho (box_oFree _ _), hbox]
    · rename_i hA
      have hbh : joinTri (h.box h.word).facs = joinTri h.mem.facs := by rw [box_facs, ht1]; rfl
      split
      · rw [join_then_and (wf_box _ _) (wf_box _ _) rfl (box_oFree _ _) (box_oFree _ _), hbox, hbh]
      · rename_i hB
        rcases ht3 with (⟨⟨⟨h1, h2⟩, h3⟩, _⟩ | ⟨h1, h2⟩) | ⟨_, h1⟩
        · rw [h1] at hx
          rw [join_then_and (wf_box _ _) haw h2 (box_oFree _ _) ((oFree_iff _).mp h3), hbh]
          exact congrArg _ hx
        · exact absurd h2 hB
        · exact absurd h1 hA
  | m :: n :: ms, xs, ha, _, ht => by
    have ht : (!h.neg && ((m :: n :: ms).all fun m => noOrIn m.facs && (h.mem.noOr || !m.word))) = true := by
      cases m <;> exact ht
    simp only [Bool.and_eq_true, Bool.not_eq_true', List.all_eq_true, Bool.or_eq_true] at ht
    refine ⟨ht.1, ?_⟩
    have hbh : joinTri (h.box h.word).facs = joinTri h.mem.facs := by rw [box_facs, ht.1]; rfl
    rw [addAnd_many]
    split
    · rw [join_then_and (wf_box _ _) (wf_box _ _) rfl (box_oFree _ _) (box_oFree _ _), hbh, box_facs]
      show _ = (joinTri h.mem.facs).and (allOf xs)
      rw [← newGroup_and _ xs ha (by simp) fun y hy => (ht.2 y hy).1]
      rfl
    · rename_i hA
      have hw : ∀ y ∈ m :: n :: ms, y.word = false := fun y hy => (ht.2 y hy).2.resolve_left hA
      obtain ⟨h1, h2⟩ := row_and _ xs ha (by simp) (fun y hy => (ht.2 y hy).1) fun y hy => hw y (List.mem_of_mem_drop hy)
      rw [join_then_and (wf_box _ _) (wf_row _ (by simp) (areL_wf _ _ ha)) (by rw [row_first]; exact hw m (by simp)) (box_oFree _ _) h1, h2, hbh]

/-- Or is disjunction. -/
theorem adds_disj {h : MadeGroup} (hh : h.mem.WF) : ∀ (ms : List Made) (xs : List Tri), AreL ms xs → ms ≠ [] → h.takesOr ms = true →
    h.neg = false ∧ joinTri (h.addOr ms).facs = (joinTri h.mem.facs).or (anyOf xs)
  | [], _, _, hn, _ => absurd rfl hn
  | [m], [], ha, _, _ => ha.elim
  | [m], x :: y :: xs, ha, _, _ => ha.2.elim
  | [.test k v neg w], [x], ha, _, ht => by
    simp only [MadeGroup.takesOr, Bool.not_eq_true'] at ht
    refine ⟨ht, ?_⟩
    have hx : v.notIf neg = x := by have := ha.1.sem; simpa only [Made.facs, joinTri_one] using this
    have hq := wf_row [Made.test k v neg true] (by simp) (by simp [Made.WF])
    have hqs : joinTri (Made.row [Made.test k v neg true]).facs = anyOf [x] := by
      simp only [Made.row, Members.one, Made.facs, joinTri_one, hx, anyOf, List.foldr_cons, List.foldr_nil, Tri.or_f]
    simp only [MadeGroup.addOr]
    split
    · rw [join_then_or hh hq rfl, hqs]
    · rw [join_then_or (wf_box _ _) hq rfl, hqs, box_facs, ht]; rfl
  | [.group a], [x], ha, _, ht => by
    simp only [MadeGroup.takesOr, Bool.and_eq_true, Bool.not_eq_true', Bool.or_eq_true] at ht
    obtain ⟨ht1, ht2⟩ := ht
    refine ⟨ht1, ?_⟩
    have hx := ha.1.inside a rfl
    have haw : a.mem.WF := ha.1.wf
    have hxs : anyOf [x] = x := by simp only [anyOf, List.foldr_cons, List.foldr_nil, Tri.or_f]
    have hq : (if a.mem.noAnd = true then a.mem else a.box true).WF ∧ (if a.mem.noAnd = true then a.mem else a.box true).first = true ∧
        joinTri (if a.mem.noAnd = true then a.mem else a.box true).facs = x := by
      split
      · rename_i hB
        rcases ht2 with h1 | ⟨h1, h2⟩
        · rw [hB] at h1; cases h1
        · rw [h1] at hx; exact ⟨haw, h2, hx⟩
      · exact ⟨wf_box _ _, rfl, by rw [box_facs, hx]⟩
    rw [hxs]
    simp only [MadeGroup.addOr]
    generalize (if a.mem.noAnd = true then a.mem else a.box true) = q at hq
    split
    · rw [join_then_or hh hq.1 hq.2.1, hq.2.2]
    · rw [join_then_or (wf_box _ _) hq.1 hq.2.1, hq.2.2, box_facs, ht1]; rfl
  | m :: n :: ms, xs, ha, _, ht => by
    have ht : (!h.neg && !h.mem.noAnd) = true := by cases m <;> exact ht
    simp only [Bool.and_eq_true, Bool.not_eq_true'] at ht
    refine ⟨ht.1, ?_⟩
    rw [addOr_many, if_neg (by simp [ht.2])]
    have hw : (Made.group { Made.newGroup true (m :: n :: ms) with word := true }).WF := wf_newGroup true (by simp) (areL_wf _ _ ha)
    have hs := is_group (g := { Made.newGroup true (m :: n :: ms) with word := true }) hw rfl
    rw [join_then_or hh (wf_row _ (by simp) (by simpa using hw)) rfl]
    show _ = (joinTri h.mem.facs).or (anyOf xs)
    rw [← newGroup_or _ xs ha (by simp)]
    exact congrArg _ hs.sem

theorem recv_is {m : Made} {x : Tri} (h : m.Is x) (o : Bool) : (m.recv o).mem.WF ∧ (joinTri (m.recv o).mem.facs).notIf (m.recv o).neg = x := by
  cases m with
  | test k v neg w =>
    refine ⟨wf_newGroup o (by simp) (by simp [Made.WF]), ?_⟩
    have := h.sem
    simp only [Made.facs, joinTri_one] at this
    show joinTri (Made.row [Made.test k v neg o]).facs = x
    simp only [Made.row, Members.one, Made.facs, joinTri_one, this]
  | group g => exact ⟨h.wf, h.inside g rfl⟩

/-- What And and Or should say. -/
def joinsTo (o : Bool) (x : Tri) (xs : List Tri) : Tri := if o then x.or (anyOf xs) else x.and (allOf xs)

theorem joinsTo_nil (o : Bool) (x : Tri) : joinsTo o x [] = x := by cases o <;> simp [joinsTo, anyOf, allOf]

/-- The group after And or Or. -/
theorem added_is {m : Made} {x : Tri} (h : m.Is x) (o : Bool) {ms : List Made} {xs : List Tri} (ha : AreL ms xs) (hn : ms ≠ [])
    (ht : m.takes o ms = true) (w : Bool) :
    (Made.group { m.recv o with mem := if o then (m.recv o).addOr ms else (m.recv o).addAnd ms, word := w }).Is (joinsTo o x xs) := by
  obtain ⟨hw, hx⟩ := recv_is h o
  cases o with
  | false =>
    have ht : (m.recv false).takesAnd ms = true := ht
    obtain ⟨h1, h2⟩ := adds_conj hw ms xs ha hn ht
    rw [h1] at hx
    have := is_group (g := { m.recv false with mem := (m.recv false).addAnd ms, word := w }) (wf_addAnd hw ms (areL_wf _ _ ha)) h1
    rw [show joinsTo false x xs = x.and (allOf xs) from rfl, ← hx]
    exact h2 ▸ this
  | true =>
    have ht : (m.recv true).takesOr ms = true := ht
    obtain ⟨h1, h2⟩ := adds_disj hw ms xs ha hn ht
    rw [h1] at hx
    have := is_group (g := { m.recv true with mem := (m.recv true).addOr ms, word := w }) (wf_addOr hw ms (areL_wf _ _ ha)) h1
    rw [show joinsTo true x xs = x.or (anyOf xs) from rfl, ← hx]
    exact h2 ▸ this

theorem fn_is {m : Made} {x : Tri} (h : m.Is x) (o : Bool) {ms : List Made} {xs : List Tri} (ha : AreL ms xs) (ht : m.takes o ms = true) :
    (m.fn o ms).Is (joinsTo o x xs) := by
  cases ms with
  | nil =>
    cases xs with
    | nil => rw [joinsTo_nil]; exact is_withWord h o
    | cons _ _ => exact ha.elim
  | cons n ms =>
    cases o with
    | false => exact added_is h false ha (by simp) ht _
    | true => exact added_is h true ha (by simp) ht _

theorem method_is {m r : Made} {x : Tri} (h : m.Is x) (o : Bool) {ms : List Made} {xs : List Tri} (ha : AreL ms xs) (ht : m.takes o ms = true)
    (hr : m.method o ms = some r) : r.Is (joinsTo o x xs) := by
  have key : ∀ w, (Made.group { m.recv o with mem := if o then (m.recv o).addOr ms else (m.recv o).addAnd ms, word := w }).Is (joinsTo o x xs) ∨ ms = [] := by
    intro w
    by_cases hn : ms = []
    · exact Or.inr hn
    · exact Or.inl (added_is h o ha hn ht w)
  have gen : (Made.group { m.recv o with mem := if o then (m.recv o).addOr ms else (m.recv o).addAnd ms }).Is (joinsTo o x xs) := by
    rcases key (m.recv o).word with h1 | h1
    · exact h1
    · subst h1
      cases xs with
      | cons _ _ => exact ha.elim
      | nil =>
        rw [joinsTo_nil]
        have e : (if o then (m.recv o).addOr [] else (m.recv o).addAnd []) = (m.recv o).mem := by cases o <;> rfl
        rw [e]
        cases m with
        | group g => exact h
        | test k v neg w =>
          obtain ⟨hw, hx⟩ := recv_is h o
          have := is_group (g := (Made.test k v neg w).recv o) hw rfl
          have hx : joinTri ((Made.test k v neg w).recv o).mem.facs = x := hx
          rw [hx] at this
          exact this
  match m, h, ht, hr, gen with
  | .test .plain v neg w, h, ht, hr, _ =>
    simp only [Made.method, Option.some.injEq] at hr
    subst hr
    exact fn_is h o ha ht
  | .test .null v neg w, h, ht, hr, gen =>
    cases o with
    | true => simp [Made.method] at hr
    | false =>
      simp only [Made.method, Bool.false_eq_true, if_false, Option.some.injEq] at hr
      subst hr
      exact gen
  | .test .like v neg w, h, ht, hr, gen =>
    simp only [Made.method, Option.some.injEq] at hr
    subst hr
    exact gen
  | .group g, h, ht, hr, gen =>
    simp only [Made.method, Option.some.injEq] at hr
    subst hr
    exact gen

theorem not_is {m : Made} {x : Tri} (h : m.Is x) (ht : m.takesNot = true) : (m.withNeg true).Is x.not := by
  cases m with
  | test k v neg w =>
    simp only [Made.takesNot, Bool.not_eq_true'] at ht
    subst ht
    have hs := h.sem
    simp only [Made.facs, joinTri_one] at hs
    refine ⟨trivial, ?_, fun g e => by cases e⟩
    simp only [Made.withNeg, Made.facs, joinTri_one]
    rw [← hs]; rfl
  | group g =>
    simp only [Made.takesNot, Bool.and_eq_true, Bool.not_eq_true', Bool.or_eq_true, beq_iff_eq] at ht
    obtain ⟨hn, hb⟩ := ht
    have hi := h.inside g rfl
    rw [hn] at hi
    have hi : joinTri g.mem.facs = x := hi
    refine ⟨h.wf, ?_, fun g' e => ?_⟩
    · simp only [Made.withNeg, Made.facs, Bool.true_and]
      split
      · rw [joinTri_one]
        show (joinTri g.mem.facs).not = _
        rw [hi]
      · rename_i hB
        simp only [Bool.or_eq_true, not_or, Bool.not_eq_true] at hB
        have hl : g.mem.facs.length = 1 := by
          rcases hb with (h1 | h1) | h1
          · rw [hB.1] at h1; cases h1
          · rw [hB.2] at h1; cases h1
          · exact h1
        match hf : g.mem.facs, hl with
        | [p], _ =>
          rw [hf, joinTri_one] at hi
          rw [joinTri_ssetHead]
          simp only [snegHead, joinTri_one, ← hi]
          obtain ⟨b, y⟩ := p
          rfl
    · cases e
      show (joinTri g.mem.facs).not = _
      rw [hi]

theorem bracketed_is {m : Made} {x : Tri} (h : m.Is x) : m.bracketed.Is x := by
  cases m with
  | test k v neg w => exact h
  | group g =>
    have hi := h.inside g rfl
    refine ⟨h.wf, ?_, fun g' e => ?_⟩
    · simp only [Made.bracketed, Made.facs, Bool.true_or, if_true, joinTri_one]
      exact hi
    · cases e; exact hi

namespace CondExp

mutual
/-- Clear expressions say what they should. -/
theorem clear_is (row : Row) : ∀ e : CondExp, e.OK → e.clear row = true → ∃ m, e.made row = some m ∧ m.Is (e.means row)
  | .test t, _, _ => by
    refine ⟨_, rfl, trivial, ?_, fun g e => by cases e⟩
    simp only [Made.facs, joinTri_one]
    rfl
  | .not e, hk, h => by
    simp only [clear, Bool.and_eq_true] at h
    obtain ⟨m, h1, h2⟩ := clear_is row e hk h.1
    rw [h1] at h
    exact ⟨_, by simp only [made, h1]; rfl, not_is h2 h.2⟩
  | .unnot e, hk, h => by
    simp only [clear, Bool.and_eq_true] at h
    obtain ⟨m, h1, h2⟩ := clear_is row e hk h.1
    rw [h1] at h
    have hn : m.neg = false := by simpa using h.2
    have : m.withNeg false = m := by
      cases m with
      | test k x n w => simp only [Made.neg] at hn; subst hn; rfl
      | group g => simp only [Made.neg] at hn; simp only [Made.withNeg]; rw [← hn]
    exact ⟨m, by simp only [made, h1, Option.map_some, this], h2⟩
  | .fn o e es, hk, h => by
    simp only [clear, Bool.and_eq_true] at h
    obtain ⟨⟨h1, h2⟩, h3⟩ := h
    obtain ⟨m, e1, e2⟩ := clear_is row e hk.1 h1
    obtain ⟨ms, f1, f2⟩ := clear_isL row es hk.2 h2
    rw [e1, f1] at h3
    refine ⟨m.fn o ms, by simp only [made, e1, f1, Option.bind_some, Option.map_some], ?_⟩
    have := fn_is e2 o f2 h3
    simpa only [joinsTo, means] using this
  | .method o e es, hk, h => by
    simp only [clear, Bool.and_eq_true] at h
    obtain ⟨⟨h1, h2⟩, h3⟩ := h
    obtain ⟨m, e1, e2⟩ := clear_is row e hk.1 h1
    obtain ⟨ms, f1, f2⟩ := clear_isL row es hk.2 h2
    rw [e1, f1] at h3
    simp only [Bool.and_eq_true, Option.isSome_iff_exists] at h3
    obtain ⟨h3, r, h4⟩ := h3
    refine ⟨r, by simp only [made, e1, f1, Option.bind_some, h4], ?_⟩
    have := method_is e2 o f2 h3 h4
    simpa only [joinsTo, means] using this
  | .group o es, hk, h => by
    simp only [clear, Bool.and_eq_true] at h
    obtain ⟨ms, f1, f2⟩ := clear_isL row es hk.2 h.1
    have hn : ms ≠ [] := by
      have := madeL_length row es _ f1
      have := List.length_pos_iff.2 hk.1
      exact List.length_pos_iff.1 (by omega)
    rw [f1] at h
    refine ⟨.group (Made.newGroup o ms), by simp only [made, f1, Option.map_some], ?_⟩
    have := is_group (wf_newGroup o hn (areL_wf _ _ f2)) rfl
    cases o with
    | false =>
      have h2 := h.2
      simp only [Bool.false_or, List.all_eq_true] at h2
      rw [newGroup_and ms _ f2 hn h2] at this
      exact this
    | true =>
      rw [newGroup_or ms _ f2 hn] at this
      exact this
  | .joinAll o es, hk, h => by
    simp only [clear, Bool.and_eq_true] at h
    obtain ⟨ms, f1, f2⟩ := clear_isL row es hk.2 h.1
    have hn : ms ≠ [] := by
      have := madeL_length row es _ f1
      have := List.length_pos_iff.2 hk.1
      exact List.length_pos_iff.1 (by omega)
    rw [f1] at h
    refine ⟨Made.joinAll o ms, by simp only [made, f1, Option.map_some], ?_⟩
    simp only [means]
    match ms, hn, f2, h.2 with
    | [m], _, f2, _ =>
      match hxs : meansL row es, f2 with
      | [x], f2 =>
        have e : (if o = true then anyOf [x] else allOf [x]) = x := by
          cases o <;> simp [anyOf, allOf]
        rw [e]
        exact is_withWord f2.1 o
      | [], f2 => exact f2.elim
      | _ :: _ :: _, f2 => exact f2.2.elim
    | m :: n :: ms, hn, f2, h2 =>
      have := is_group (wf_newGroup o hn (areL_wf _ _ f2)) rfl
      cases o with
      | false =>
        simp only [Bool.false_or, List.length_cons, Bool.or_eq_true, beq_iff_eq] at h2
        have h2 := h2.resolve_left (by omega)
        rw [List.all_eq_true] at h2
        rw [newGroup_and _ _ f2 hn h2] at this
        exact this
      | true =>
        rw [newGroup_or _ _ f2 hn] at this
        exact this
  | .join o e, hk, h => by
    obtain ⟨m, h1, h2⟩ := clear_is row e hk h
    exact ⟨_, by simp only [made, h1]; rfl, is_withWord h2 o⟩
  | .brackets e, hk, h => by
    obtain ⟨m, h1, h2⟩ := clear_is row e hk h
    exact ⟨_, by simp only [made, h1]; rfl, bracketed_is h2⟩
/-- All of them. -/
theorem clear_isL (row : Row) : ∀ es : List CondExp, OKL es → clearL row es = true → ∃ ms, madeL row es = some ms ∧ AreL ms (meansL row es)
  | [], _, _ => ⟨[], rfl, trivial⟩
  | e :: es, hk, h => by
    simp only [clearL, Bool.and_eq_true] at h
    obtain ⟨m, h1, h2⟩ := clear_is row e hk.1 h.1
    obtain ⟨ms, h3, h4⟩ := clear_isL row es hk.2 h.2
    exact ⟨m :: ms, by simp only [madeL, h1, h3, Option.bind_some, Option.map_some], h2, h4⟩
end

end CondExp

/-! ## Being clear does not depend on the row -/

/-- The words of factors. -/
def wordsOf (l : List (Bool × Tri)) : List Bool := l.map (·.1)

/-- The same members but for the truth values. -/
structure Members.Like (p q : Members) : Prop where
  facs : wordsOf p.facs = wordsOf q.facs
  first : p.first = q.first
  noOr : p.noOr = q.noOr
  noAnd : p.noAnd = q.noAnd
  many : p.many = q.many

/-- The same group but for the truth values. -/
structure MadeGroup.Like (g h : MadeGroup) : Prop where
  mem : g.mem.Like h.mem
  neg : g.neg = h.neg
  word : g.word = h.word
  br : g.br = h.br

/-- The same condition but for the truth values. -/
def Made.Like : Made → Made → Prop
  | .test k _ n w, .test k' _ n' w' => k = k' ∧ n = n' ∧ w = w'
  | .group g, .group h => g.Like h
  | _, _ => False

/-- The same conditions but for the truth values. -/
def AlikeL : List Made → List Made → Prop
  | [], [] => True
  | m :: ms, n :: ns => m.Like n ∧ AlikeL ms ns
  | _, _ => False

theorem alike_then {p q p' q' : Members} (h : p.Like p') (k : q.Like q') : (p.then q).Like (p'.then q') :=
  ⟨by have hf := h.facs; have kf := k.facs; simp only [Members.then, wordsOf, List.map_append] at hf kf ⊢; rw [hf, kf], h.first,
    by simp only [Members.then, h.noOr, k.first, k.noOr], by simp only [Members.then, h.noAnd, k.first, k.noAnd], rfl⟩

theorem alike_box {g h : MadeGroup} (_ : g.Like h) (o : Bool) : (g.box o).Like (h.box o) := ⟨rfl, rfl, rfl, rfl, rfl⟩

theorem alike_if {c c' : Bool} {p q p' q' : Members} (hc : c = c') (h : p.Like p') (k : q.Like q') :
    (if c = true then p else q).Like (if c' = true then p' else q') := by
  subst hc; split <;> assumption

theorem words_setHead (o : Bool) {l m : List (Bool × Tri)} (h : wordsOf l = wordsOf m) : wordsOf (ssetHead o l) = wordsOf (ssetHead o m) := by
  cases l <;> cases m <;> simp_all [wordsOf, ssetHead]

theorem words_negHead (o p : Bool) {l m : List (Bool × Tri)} (h : wordsOf l = wordsOf m) : wordsOf (snegHead o l) = wordsOf (snegHead p m) := by
  cases l <;> cases m <;> simp_all [wordsOf, snegHead]

theorem alike_facs {m n : Made} (h : m.Like n) : wordsOf m.facs = wordsOf n.facs ∧ m.word = n.word ∧ m.neg = n.neg := by
  match m, n, h with
  | .test .., .test .., h => exact ⟨by simp only [Made.facs, wordsOf, List.map_cons, List.map_nil, h.2.2], h.2.2, h.2.1⟩
  | .group g, .group k, h =>
    refine ⟨?_, h.word, h.neg⟩
    simp only [Made.facs]
    rw [h.br, h.neg, h.mem.many, h.word]
    split
    · rfl
    · exact words_setHead _ (words_negHead _ _ h.mem.facs)
  | .test .., .group _, h => exact h.elim
  | .group _, .test .., h => exact h.elim

theorem noOrIn_words {l m : List (Bool × Tri)} (h : wordsOf l = wordsOf m) : noOrIn l = noOrIn m := by
  have : ∀ l : List (Bool × Tri), noOrIn l = ((wordsOf l).drop 1).all fun b => !b := by
    intro l
    cases l with
    | nil => rfl
    | cons _ l => simp [noOrIn, wordsOf, List.all_map, Function.comp_def]
  rw [this, this, h]

theorem alike_one {m n : Made} (h : m.Like n) : (Members.one m.word m.facs).Like (Members.one n.word n.facs) :=
  ⟨(alike_facs h).1, (alike_facs h).2.1, rfl, rfl, rfl⟩

theorem alike_row : ∀ ms ns : List Made, AlikeL ms ns → (Made.row ms).Like (Made.row ns)
  | [], [], _ => ⟨rfl, rfl, rfl, rfl, rfl⟩
  | [m], [n], h => alike_one h.1
  | m :: m' :: ms, n :: n' :: ns, h => alike_then (alike_one h.1) (alike_row (m' :: ms) (n' :: ns) h.2)
  | [], _ :: _, h => h.elim
  | _ :: _, [], h => h.elim
  | [_], _ :: _ :: _, h => h.2.elim
  | _ :: _ :: _, [_], h => h.2.elim

theorem alike_withWord (o : Bool) {m n : Made} (h : m.Like n) : (m.withWord o).Like (n.withWord o) := by
  match m, n, h with
  | .test .., .test .., h => exact ⟨h.1, h.2.1, rfl⟩
  | .group g, .group k, h => exact ⟨h.mem, h.neg, rfl, h.br⟩
  | .test .., .group _, h => exact h.elim
  | .group _, .test .., h => exact h.elim

theorem alike_withNeg (o : Bool) {m n : Made} (h : m.Like n) : (m.withNeg o).Like (n.withNeg o) := by
  match m, n, h with
  | .test .., .test .., h => exact ⟨h.1, rfl, h.2.2⟩
  | .group g, .group k, h => exact ⟨h.mem, rfl, h.word, h.br⟩
  | .test .., .group _, h => exact h.elim
  | .group _, .test .., h => exact h.elim

theorem alikeL_map (f : Made → Made) (hf : ∀ m n : Made, m.Like n → (f m).Like (f n)) : ∀ ms ns : List Made, AlikeL ms ns → AlikeL (ms.map f) (ns.map f)
  | [], [], _ => trivial
  | m :: ms, n :: ns, h => ⟨hf m n h.1, alikeL_map f hf ms ns h.2⟩
  | [], _ :: _, h => h.elim
  | _ :: _, [], h => h.elim

theorem alike_newGroup (o : Bool) {ms ns : List Made} (h : AlikeL ms ns) : (Made.newGroup o ms).Like (Made.newGroup o ns) :=
  ⟨alike_row _ _ (alikeL_map _ (fun _ _ => alike_withWord o) ms ns h), rfl, rfl, rfl⟩

theorem alike_recv (o : Bool) {m n : Made} (h : m.Like n) : (m.recv o).Like (n.recv o) := by
  match m, n, h with
  | .test .., .test .., h => exact alike_newGroup o ⟨h, trivial⟩
  | .group g, .group k, h => exact h
  | .test .., .group _, h => exact h.elim
  | .group _, .test .., h => exact h.elim

theorem alike_addAnd {g h : MadeGroup} (k : g.Like h) : ∀ ms ns : List Made, AlikeL ms ns → (g.addAnd ms).Like (h.addAnd ns)
  | [], [], _ => k.mem
  | [.test .., ], [.test ..], l => by
    simp only [MadeGroup.addAnd]
    exact alike_then (alike_if k.mem.noOr k.mem (by rw [k.word]; exact alike_box k _))
      (alike_row _ _ ⟨⟨l.1.1, l.1.2.1, rfl⟩, trivial⟩)
  | [.group a], [.group b], l => by
    have l : a.Like b := l.1
    simp only [MadeGroup.addAnd]
    exact alike_if k.mem.noOr (alike_then k.mem (alike_if l.mem.noOr l.mem (alike_box l _)))
      (alike_then (by rw [k.word]; exact alike_box k _) (alike_if l.mem.noAnd (alike_box l _) l.mem))
  | m :: m' :: ms, n :: n' :: ns, l => by
    rw [addAnd_many, addAnd_many]
    exact alike_then (by rw [k.word]; exact alike_box k _) (alike_if k.mem.noOr (alike_box (alike_newGroup false l) _) (alike_row _ _ l))
  | [.test ..], [.group _], l => l.1.elim
  | [.group _], [.test ..], l => l.1.elim
  | [], _ :: _, h => h.elim
  | _ :: _, [], h => h.elim
  | [_], _ :: _ :: _, h => h.2.elim
  | _ :: _ :: _, [_], h => h.2.elim

theorem alike_addOr {g h : MadeGroup} (k : g.Like h) : ∀ ms ns : List Made, AlikeL ms ns → (g.addOr ms).Like (h.addOr ns)
  | [], [], _ => k.mem
  | [.test .., ], [.test ..], l => by
    simp only [MadeGroup.addOr]
    exact alike_then (alike_if k.mem.noAnd k.mem (by rw [k.word]; exact alike_box k _))
      (alike_row _ _ ⟨⟨l.1.1, l.1.2.1, rfl⟩, trivial⟩)
  | [.group a], [.group b], l => by
    have l : a.Like b := l.1
    simp only [MadeGroup.addOr]
    exact alike_then (alike_if k.mem.noAnd k.mem (by rw [k.word]; exact alike_box k _)) (alike_if l.mem.noAnd l.mem (alike_box l _))
  | m :: m' :: ms, n :: n' :: ns, l => by
    rw [addOr_many, addOr_many]
    have hg := alike_newGroup true l
    exact alike_if k.mem.noAnd (alike_then (by rw [k.word]; exact alike_box k _) (alike_box (alike_newGroup false l) _))
      (alike_then k.mem (alike_row _ _ ⟨⟨hg.mem, hg.neg, rfl, hg.br⟩, trivial⟩))
  | [.test ..], [.group _], l => l.1.elim
  | [.group _], [.test ..], l => l.1.elim
  | [], _ :: _, h => h.elim
  | _ :: _, [], h => h.elim
  | [_], _ :: _ :: _, h => h.2.elim
  | _ :: _ :: _, [_], h => h.2.elim

theorem alike_fn (o : Bool) {m n : Made} (h : m.Like n) : ∀ ms ns : List Made, AlikeL ms ns → (m.fn o ms).Like (n.fn o ns)
  | [], [], _ => alike_withWord o h
  | m' :: ms, n' :: ns, l => by
    have hr := alike_recv o h
    cases o with
    | false => exact ⟨alike_addAnd hr _ _ l, hr.neg, hr.word, hr.br⟩
    | true => exact ⟨alike_addOr hr _ _ l, hr.neg, rfl, hr.br⟩
  | [], _ :: _, h => h.elim
  | _ :: _, [], h => h.elim

/-- The same results but for the truth values. -/
def AlikeO : Option Made → Option Made → Prop
  | none, none => True
  | some m, some n => m.Like n
  | _, _ => False

theorem alike_method (o : Bool) {m n : Made} (h : m.Like n) {ms ns : List Made} (l : AlikeL ms ns) : AlikeO (m.method o ms) (n.method o ns) := by
  have hr := alike_recv o h
  have gen : MadeGroup.Like { m.recv o with mem := if o then (m.recv o).addOr ms else (m.recv o).addAnd ms }
      { n.recv o with mem := if o then (n.recv o).addOr ns else (n.recv o).addAnd ns } := by
    refine ⟨?_, hr.neg, hr.word, hr.br⟩
    cases o with
    | false => exact alike_addAnd hr _ _ l
    | true => exact alike_addOr hr _ _ l
  match m, n, h with
  | .test .plain .., .test .plain .., h => exact alike_fn o h _ _ l
  | .test .like .., .test .like .., h => exact gen
  | .test .null .., .test .null .., h =>
    cases o with
    | false => exact gen
    | true => trivial
  | .group g, .group k, h => exact gen
  | .test .., .group _, h => exact h.elim
  | .group _, .test .., h => exact h.elim
  | .test .plain .., .test .like .., h => exact absurd h.1 (by simp)
  | .test .plain .., .test .null .., h => exact absurd h.1 (by simp)
  | .test .like .., .test .plain .., h => exact absurd h.1 (by simp)
  | .test .like .., .test .null .., h => exact absurd h.1 (by simp)
  | .test .null .., .test .plain .., h => exact absurd h.1 (by simp)
  | .test .null .., .test .like .., h => exact absurd h.1 (by simp)

theorem alike_bracketed {m n : Made} (h : m.Like n) : m.bracketed.Like n.bracketed := by
  match m, n, h with
  | .test .., .test .., h => exact h
  | .group g, .group k, h => exact ⟨h.mem, h.neg, h.word, rfl⟩
  | .test .., .group _, h => exact h.elim
  | .group _, .test .., h => exact h.elim

theorem alike_joinAll (o : Bool) : ∀ ms ns : List Made, AlikeL ms ns → (Made.joinAll o ms).Like (Made.joinAll o ns)
  | [], [], l => alike_newGroup o l
  | [_], [_], l => alike_withWord o l.1
  | _ :: _ :: _, _ :: _ :: _, l => alike_newGroup o l
  | [], _ :: _, h => h.elim
  | _ :: _, [], h => h.elim
  | [_], _ :: _ :: _, h => h.2.elim
  | _ :: _ :: _, [_], h => h.2.elim

theorem alike_takesAnd {g h : MadeGroup} (k : g.Like h) : ∀ ms ns : List Made, AlikeL ms ns → g.takesAnd ms = h.takesAnd ns
  | [], [], _ => rfl
  | [.test ..], [.test ..], _ => by simp only [MadeGroup.takesAnd, k.neg, k.mem.noOr, noOrIn_words k.mem.facs]
  | [.group a], [.group b], l => by
    have l : a.Like b := l.1
    simp only [MadeGroup.takesAnd, k.neg, k.mem.noOr, noOrIn_words k.mem.facs, l.neg, l.mem.first, noOrIn_words l.mem.facs, l.mem.noOr, l.mem.many,
      l.mem.noAnd]
  | m :: m' :: ms, n :: n' :: ns, l => by
    have e : ∀ (g : MadeGroup) (m m' : Made) (ms : List Made), g.takesAnd (m :: m' :: ms) =
        (!g.neg && ((m :: m' :: ms).all fun m => noOrIn m.facs && (g.mem.noOr || !m.word))) := by
      intro g m m' ms; cases m <;> rfl
    rw [e, e, k.neg, k.mem.noOr]
    congr 1
    have all : ∀ ms ns : List Made, AlikeL ms ns → (ms.all fun m => noOrIn m.facs && (h.mem.noOr || !m.word)) =
        (ns.all fun m => noOrIn m.facs && (h.mem.noOr || !m.word)) := by
      intro ms
      induction ms with
      | nil => intro ns l; cases ns with
        | nil => rfl
        | cons _ _ => exact l.elim
      | cons m ms ih => intro ns l; cases ns with
        | nil => exact l.elim
        | cons n ns => simp only [List.all_cons, noOrIn_words (alike_facs l.1).1, (alike_facs l.1).2.1, ih ns l.2]
    exact all _ _ l
  | [.test ..], [.group _], l => l.1.elim
  | [.group _], [.test ..], l => l.1.elim
  | [], _ :: _, h => h.elim
  | _ :: _, [], h => h.elim
  | [_], _ :: _ :: _, h => h.2.elim
  | _ :: _ :: _, [_], h => h.2.elim

theorem alike_takesOr {g h : MadeGroup} (k : g.Like h) : ∀ ms ns : List Made, AlikeL ms ns → g.takesOr ms = h.takesOr ns
  | [], [], _ => rfl
  | [.test ..], [.test ..], _ => by simp only [MadeGroup.takesOr, k.neg]
  | [.group a], [.group b], l => by
    have l : a.Like b := l.1
    simp only [MadeGroup.takesOr, k.neg, l.neg, l.mem.first, l.mem.noAnd]
  | m :: m' :: ms, n :: n' :: ns, l => by
    have e : ∀ (g : MadeGroup) (m m' : Made) (ms : List Made), g.takesOr (m :: m' :: ms) = (!g.neg && !g.mem.noAnd) := by
      intro g m m' ms; cases m <;> rfl
    rw [e, e, k.neg, k.mem.noAnd]
  | [.test ..], [.group _], l => l.1.elim
  | [.group _], [.test ..], l => l.1.elim
  | [], _ :: _, h => h.elim
  | _ :: _, [], h => h.elim
  | [_], _ :: _ :: _, h => h.2.elim
  | _ :: _ :: _, [_], h => h.2.elim

theorem alike_takes (o : Bool) {m n : Made} (h : m.Like n) {ms ns : List Made} (l : AlikeL ms ns) : m.takes o ms = n.takes o ns := by
  cases o with
  | false => exact alike_takesAnd (alike_recv false h) _ _ l
  | true => exact alike_takesOr (alike_recv true h) _ _ l

theorem alike_takesNot {m n : Made} (h : m.Like n) : m.takesNot = n.takesNot := by
  match m, n, h with
  | .test .., .test .., h => simp only [Made.takesNot, h.2.1]
  | .group g, .group k, h =>
    have hl : g.mem.facs.length = k.mem.facs.length := by
      have := congrArg List.length h.mem.facs
      simpa [wordsOf] using this
    simp only [Made.takesNot, h.neg, h.br, h.mem.many, hl]
  | .test .., .group _, h => exact h.elim
  | .group _, .test .., h => exact h.elim

/-- The same lists of results but for the truth values. -/
def AlikeLO : Option (List Made) → Option (List Made) → Prop
  | none, none => True
  | some m, some n => AlikeL m n
  | _, _ => False

theorem alikeO_map (f : Made → Made) (hf : ∀ m n : Made, m.Like n → (f m).Like (f n)) {a b : Option Made} (h : AlikeO a b) : AlikeO (a.map f) (b.map f) := by
  match a, b, h with
  | none, none, _ => trivial
  | some m, some n, h => exact hf m n h
  | none, some _, h => exact h.elim
  | some _, none, h => exact h.elim

theorem alikeL_length : ∀ ms ns : List Made, AlikeL ms ns → ms.length = ns.length
  | [], [], _ => rfl
  | _ :: ms, _ :: ns, h => congrArg (· + 1) (alikeL_length ms ns h.2)
  | [], _ :: _, h => h.elim
  | _ :: _, [], h => h.elim

theorem alikeL_noOr : ∀ ms ns : List Made, AlikeL ms ns → (ms.all fun m => noOrIn m.facs) = (ns.all fun m => noOrIn m.facs)
  | [], [], _ => rfl
  | _ :: ms, _ :: ns, h => by simp only [List.all_cons, noOrIn_words (alike_facs h.1).1, alikeL_noOr ms ns h.2]
  | [], _ :: _, h => h.elim
  | _ :: _, [], h => h.elim

namespace CondExp

mutual
/-- What the calls give has the same shape on all rows. -/
theorem made_like (r s : Row) : ∀ e : CondExp, AlikeO (e.made r) (e.made s)
  | .test t => ⟨rfl, rfl, rfl⟩
  | .not e => alikeO_map _ (fun _ _ => alike_withNeg true) (made_like r s e)
  | .unnot e => alikeO_map _ (fun _ _ => alike_withNeg false) (made_like r s e)
  | .fn o e es => by
    simp only [made]
    have h1 := made_like r s e
    have h2 := madeL_like r s es
    match e.made r, e.made s, madeL r es, madeL s es, h1, h2 with
    | some m, some n, some ms, some ns, h1, h2 => exact alike_fn o h1 _ _ h2
    | none, none, _, _, _, _ => trivial
    | some m, some n, none, none, _, _ => trivial
    | none, some _, _, _, h1, _ => exact h1.elim
    | some _, none, _, _, h1, _ => exact h1.elim
    | some _, some _, none, some _, _, h2 => exact h2.elim
    | some _, some _, some _, none, _, h2 => exact h2.elim
  | .method o e es => by
    simp only [made]
    have h1 := made_like r s e
    have h2 := madeL_like r s es
    match e.made r, e.made s, madeL r es, madeL s es, h1, h2 with
    | some m, some n, some ms, some ns, h1, h2 => exact alike_method o h1 h2
    | none, none, _, _, _, _ => trivial
    | some m, some n, none, none, _, _ => trivial
    | none, some _, _, _, h1, _ => exact h1.elim
    | some _, none, _, _, h1, _ => exact h1.elim
    | some _, some _, none, some _, _, h2 => exact h2.elim
    | some _, some _, some _, none, _, h2 => exact h2.elim
  | .group o es => by
    simp only [made]
    have h2 := madeL_like r s es
    match madeL r es, madeL s es, h2 with
    | some ms, some ns, h2 => exact alike_newGroup o h2
    | none, none, _ => trivial
    | none, some _, h2 => exact h2.elim
    | some _, none, h2 => exact h2.elim
  | .joinAll o es => by
    simp only [made]
    have h2 := madeL_like r s es
    match madeL r es, madeL s es, h2 with
    | some ms, some ns, h2 => exact alike_joinAll o _ _ h2
    | none, none, _ => trivial
    | none, some _, h2 => exact h2.elim
    | some _, none, h2 => exact h2.elim
  | .join o e => alikeO_map _ (fun _ _ => alike_withWord o) (made_like r s e)
  | .brackets e => alikeO_map _ (fun _ _ => alike_bracketed) (made_like r s e)
/-- All of them. -/
theorem madeL_like (r s : Row) : ∀ es : List CondExp, AlikeLO (madeL r es) (madeL s es)
  | [] => trivial
  | e :: es => by
    simp only [madeL]
    have h1 := made_like r s e
    have h2 := madeL_like r s es
    match e.made r, e.made s, madeL r es, madeL s es, h1, h2 with
    | some m, some n, some ms, some ns, h1, h2 => exact ⟨h1, h2⟩
    | none, none, _, _, _, _ => trivial
    | some m, some n, none, none, _, _ => trivial
    | none, some _, _, _, h1, _ => exact h1.elim
    | some _, none, _, _, h1, _ => exact h1.elim
    | some _, some _, none, some _, _, h2 => exact h2.elim
    | some _, some _, some _, none, _, h2 => exact h2.elim
end

mutual
/-- Whether an expression is clear does not depend on the row. -/
theorem clear_row (r s : Row) : ∀ e : CondExp, e.clear r = e.clear s
  | .test t => rfl
  | .not e => by
    simp only [clear]
    rw [clear_row r s e]
    have h1 := made_like r s e
    congr 1
    match e.made r, e.made s, h1 with
    | some m, some n, h1 => exact alike_takesNot h1
    | none, none, _ => rfl
    | none, some _, h1 => exact h1.elim
    | some _, none, h1 => exact h1.elim
  | .unnot e => by
    simp only [clear]
    rw [clear_row r s e]
    have h1 := made_like r s e
    congr 1
    match e.made r, e.made s, h1 with
    | some m, some n, h1 => show (!m.neg) = !n.neg; rw [(alike_facs h1).2.2]
    | none, none, _ => rfl
    | none, some _, h1 => exact h1.elim
    | some _, none, h1 => exact h1.elim
  | .fn o e es => by
    simp only [clear]
    rw [clear_row r s e, clearL_row r s es]
    have h1 := made_like r s e
    have h2 := madeL_like r s es
    congr 1
    match e.made r, e.made s, madeL r es, madeL s es, h1, h2 with
    | some m, some n, some ms, some ns, h1, h2 => exact alike_takes o h1 h2
    | none, none, _, _, _, _ => rfl
    | some m, some n, none, none, _, _ => rfl
    | none, some _, _, _, h1, _ => exact h1.elim
    | some _, none, _, _, h1, _ => exact h1.elim
    | some _, some _, none, some _, _, h2 => exact h2.elim
    | some _, some _, some _, none, _, h2 => exact h2.elim
  | .method o e es => by
    simp only [clear]
    rw [clear_row r s e, clearL_row r s es]
    have h1 := made_like r s e
    have h2 := madeL_like r s es
    congr 1
    match e.made r, e.made s, madeL r es, madeL s es, h1, h2 with
    | some m, some n, some ms, some ns, h1, h2 =>
      have h0 := alike_takes o h1 h2
      show (_ && _) = (_ && _)
      rw [h0]
      congr 1
      have h3 := alike_method o h1 h2
      match m.method o ms, n.method o ns, h3 with
      | none, none, _ => rfl
      | some _, some _, _ => rfl
      | none, some _, h3 => exact h3.elim
      | some _, none, h3 => exact h3.elim
    | none, none, _, _, _, _ => rfl
    | some m, some n, none, none, _, _ => rfl
    | none, some _, _, _, h1, _ => exact h1.elim
    | some _, none, _, _, h1, _ => exact h1.elim
    | some _, some _, none, some _, _, h2 => exact h2.elim
    | some _, some _, some _, none, _, h2 => exact h2.elim
  | .group o es => by
    simp only [clear]
    rw [clearL_row r s es]
    have h2 := madeL_like r s es
    congr 1
    match madeL r es, madeL s es, h2 with
    | some ms, some ns, h2 => simp only [alikeL_noOr ms ns h2]
    | none, none, _ => rfl
    | none, some _, h2 => exact h2.elim
    | some _, none, h2 => exact h2.elim
  | .joinAll o es => by
    simp only [clear]
    rw [clearL_row r s es]
    have h2 := madeL_like r s es
    congr 1
    match madeL r es, madeL s es, h2 with
    | some ms, some ns, h2 => simp only [alikeL_noOr ms ns h2, alikeL_length ms ns h2]
    | none, none, _ => rfl
    | none, some _, h2 => exact h2.elim
    | some _, none, h2 => exact h2.elim
  | .join o e => clear_row r s e
  | .brackets e => clear_row r s e
/-- All of them. -/
theorem clearL_row (r s : Row) : ∀ es : List CondExp, clearL r es = clearL s es
  | [] => rfl
  | e :: es => by simp only [clearL, clear_row r s e, clearL_row r s es]
end

end CondExp

end Query
