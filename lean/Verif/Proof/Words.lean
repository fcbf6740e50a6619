import Verif.Spec.Words
import Verif.Model.Ident
/-!
# `strings.Fields` and `strings.Split`
-/
namespace Query

theorem fieldsGo_gap (gap t : Str) (h : AllSpace gap) : fieldsGo [] (gap ++ t) = fieldsGo [] t := by
  induction gap with
  | nil => rfl
  | cons c gap ih =>
    simp only [List.cons_append, fieldsGo, h c (by simp), if_true]
    exact ih (fun d hd => h d (by simp [hd]))

theorem fieldsGo_word (w t cur : Str) (h : NoSpace w) : fieldsGo cur (w ++ t) = fieldsGo (cur ++ w) t := by
  induction w generalizing cur with
  | nil => simp
  | cons c w ih =>
    simp only [List.cons_append, fieldsGo, h c (by simp), Bool.false_eq_true, if_false]
    rw [ih _ (fun d hd => h d (by simp [hd])), List.append_assoc]
    rfl

theorem fieldsGo_atGap (w rest : Str) (hw : w ≠ []) (h : AtGap rest) : fieldsGo w rest = w :: fieldsGo [] rest := by
  cases rest with
  | nil => simp [fieldsGo, hw]
  | cons c rest =>
    have hc := h c (by simp)
    simp [fieldsGo, hc, hw]

theorem fields_of_words {s : Str} {ws : List Str} (h : Words s ws) : fields s = ws := by
  induction h with
  | @nil s hs =>
    have := fieldsGo_gap s [] hs
    simp only [List.append_nil] at this
    rw [fields, this]
    rfl
  | cons hg hne hw hr _ ih =>
    rw [fields, fieldsGo_gap _ _ hg, fieldsGo_word _ _ _ hw, List.nil_append, fieldsGo_atGap _ _ hne hr]
    simp only [fields] at ih
    rw [ih]

theorem words_exist (s : Str) : ∃ ws, Words s ws := by
  induction s with
  | nil => exact ⟨[], .nil (by simp [AllSpace])⟩
  | cons c s ih =>
    obtain ⟨ws, h⟩ := ih
    by_cases hc : isSpace c = true
    · refine ⟨ws, ?_⟩
      cases h with
      | nil hs => exact .nil (by intro d hd; simp at hd; exact hd.elim (fun e => e ▸ hc) (hs d))
      | @cons gap w rest ws hg hne hw hr hrest =>
        rw [← List.cons_append]
        exact .cons (by intro d hd; simp at hd; exact hd.elim (fun e => e ▸ hc) (hg d)) hne hw hr hrest
    · have hc : isSpace c = false := by simpa using hc
      cases h with
      | nil hs =>
        refine ⟨[[c]], ?_⟩
        have := Words.cons (gap := []) (w := [c]) (rest := s) (by simp [AllSpace]) (by simp)
          (by intro d hd; simp at hd; subst hd; exact hc) (by
            intro d hd
            exact hs d (List.mem_of_mem_head? hd)) (.nil hs)
        simpa using this
      | @cons gap w rest ws hg hne hw hr hrest =>
        cases gap with
        | nil =>
          refine ⟨(c :: w) :: ws, ?_⟩
          have := Words.cons (gap := []) (w := c :: w) (rest := rest) (by simp [AllSpace]) (by simp)
            (by intro d hd; simp at hd; exact hd.elim (fun e => e ▸ hc) (hw d)) hr hrest
          simpa using this
        | cons g gap =>
          refine ⟨[c] :: w :: ws, ?_⟩
          have := Words.cons (gap := []) (w := [c]) (rest := g :: gap ++ (w ++ rest)) (by simp [AllSpace]) (by simp)
            (by intro d hd; simp at hd; subst hd; exact hc) (by
              intro d hd
              simp at hd
              subst hd
              exact hg _ (by simp)) (.cons hg hne hw hr hrest)
          simpa using this

/-- `strings.Fields` returns exactly the words. -/
theorem fields_iff (s : Str) (ws : List Str) : fields s = ws ↔ Words s ws := by
  constructor
  · intro h
    obtain ⟨ws', h'⟩ := words_exist s
    rw [← h, fields_of_words h']
    exact h'
  · exact fields_of_words

theorem words_mem {s : Str} {ws : List Str} (h : Words s ws) : ∀ w ∈ ws, w ≠ [] ∧ NoSpace w := by
  induction h with
  | nil _ => simp
  | cons _ hne hw _ _ ih =>
    intro x hx
    simp only [List.mem_cons] at hx
    rcases hx with rfl | hx
    · exact ⟨hne, hw⟩
    · exact ih x hx

theorem words_one {w : Str} (h : w ≠ []) (hs : NoSpace w) : Words w [w] := by
  have := Words.cons (gap := []) (w := w) (rest := []) (by simp [AllSpace]) h hs (by simp [AtGap])
    (.nil (by simp [AllSpace]))
  simpa using this

theorem words_cons {w s : Str} {ws : List Str} (h : w ≠ []) (hs : NoSpace w) (hr : Words s ws) :
    Words (w ++ ' ' :: s) (w :: ws) := by
  have hsp : isSpace ' ' = true := by decide
  have hr' : Words (' ' :: s) ws := by
    cases hr with
    | nil ha => exact .nil (by intro d hd; simp at hd; exact hd.elim (fun e => e ▸ hsp) (ha d))
    | @cons gap w rest ws hg hne hw hr hrest =>
      rw [← List.cons_append]
      exact .cons (by intro d hd; simp at hd; exact hd.elim (fun e => e ▸ hsp) (hg d)) hne hw hr hrest
  have := Words.cons (gap := []) (w := w) (rest := ' ' :: s) (by simp [AllSpace]) h hs (by
    intro d hd; simp at hd; subst hd; exact hsp) hr'
  simpa using this

theorem toUpperChar_A (c : Char) : toUpperChar c = 'A' ↔ c = 'A' ∨ c = 'a' := by
  unfold toUpperChar
  by_cases hl : c.isLower = true
  · rw [if_pos hl]
    constructor
    · intro h
      right
      have hv : c.toUpper.val = 'A'.val := by rw [h]
      simp only [Char.isLower, Bool.and_eq_true, decide_eq_true_eq] at hl
      simp only [Char.toUpper] at hv
      split at hv
      · rename_i hh
        apply Char.ext
        have h1 : c.val.toNat ≤ 122 := UInt32.le_iff_toNat_le.mp hl.2
        have h2 : (97 : Nat) ≤ c.val.toNat := UInt32.le_iff_toNat_le.mp hl.1
        have h3 := congrArg UInt32.toNat hv
        apply UInt32.toNat.inj
        simp at h3
        have h4 : c.toNat = c.val.toNat := rfl
        have : ('a'.val).toNat = 97 := by decide
        omega
      · rename_i hh
        exfalso
        exact hh hl
    · rintro (rfl | rfl) <;> decide
  · rw [if_neg hl]
    split
    · rename_i h; subst h; decide
    · split
      · rename_i h; subst h; decide
      · constructor
        · intro h; exact .inl h
        · rintro (rfl | rfl)
          · rfl
          · exact absurd (by decide) hl

theorem toUpperChar_S (c : Char) : toUpperChar c = 'S' ↔ c = 'S' ∨ c = 's' ∨ c = 'ſ' := by
  unfold toUpperChar
  by_cases hl : c.isLower = true
  · rw [if_pos hl]
    constructor
    · intro h
      right; left
      have hv : c.toUpper.val = 'S'.val := by rw [h]
      simp only [Char.isLower, Bool.and_eq_true, decide_eq_true_eq] at hl
      simp only [Char.toUpper] at hv
      split at hv
      · apply Char.ext
        have h1 : c.val.toNat ≤ 122 := UInt32.le_iff_toNat_le.mp hl.2
        have h2 : (97 : Nat) ≤ c.val.toNat := UInt32.le_iff_toNat_le.mp hl.1
        have h3 := congrArg UInt32.toNat hv
        apply UInt32.toNat.inj
        simp at h3
        have h4 : c.toNat = c.val.toNat := rfl
        have : ('s'.val).toNat = 115 := by decide
        omega
      · rename_i hh
        exfalso
        exact hh hl
    · rintro (rfl | rfl | rfl) <;> revert hl <;> decide
  · rw [if_neg hl]
    split
    · rename_i h; subst h; decide
    · rename_i hs
      split
      · rename_i h; subst h; decide
      · constructor
        · intro h; exact .inl h
        · rintro (rfl | rfl | rfl)
          · rfl
          · exact absurd (by decide) hl
          · exact absurd rfl hs

/-- `strings.ToUpper(w) == "AS"` exactly for `AS` in any case. -/
theorem toUpper_as (w : Str) : toUpper w = kwAs ↔ IsAs w := by
  unfold toUpper kwAs IsAs
  match w with
  | [] => simp
  | [a] => simp
  | [a, b] =>
    simp only [List.map_cons, List.map_nil, List.cons.injEq, and_true, toUpperChar_A, toUpperChar_S, List.mem_cons,
      List.not_mem_nil, or_false]
    constructor
    · rintro ⟨rfl | rfl, rfl | rfl | rfl⟩ <;> simp
    · rintro (⟨rfl, rfl⟩ | ⟨rfl, rfl⟩ | ⟨rfl, rfl⟩ | ⟨rfl, rfl⟩ | ⟨rfl, rfl⟩ | ⟨rfl, rfl⟩) <;> simp
  | a :: b :: c :: r => simp

/-! ## Splitting at dots -/

theorem splitGo_free (sep : Char) (cur t : Str) (h : sep ∉ t) : splitGo sep cur t = [cur ++ t] := by
  induction t generalizing cur with
  | nil => simp [splitGo]
  | cons c t ih =>
    simp only [List.mem_cons, not_or] at h
    simp only [splitGo]
    rw [if_neg (fun e => h.1 e.symm), ih _ h.2]
    simp

theorem splitGo_sep (sep : Char) (cur a t : Str) (h : sep ∉ a) :
    splitGo sep cur (a ++ sep :: t) = (cur ++ a) :: splitGo sep [] t := by
  induction a generalizing cur with
  | nil => simp [splitGo]
  | cons c a ih =>
    simp only [List.mem_cons, not_or] at h
    simp only [List.cons_append, splitGo]
    rw [if_neg (fun e => h.1 e.symm), ih _ h.2]
    simp

/-- A text with the character splits at its first occurrence. -/
theorem split_first {sep : Char} {w : Str} (h : sep ∈ w) : ∃ a b, w = a ++ sep :: b ∧ sep ∉ a := by
  induction w with
  | nil => simp at h
  | cons c w ih =>
    by_cases hc : c = sep
    · exact ⟨[], w, by simp [hc], by simp⟩
    · simp only [List.mem_cons, Ne.symm hc, false_or] at h
      obtain ⟨a, b, rfl, hb⟩ := ih h
      exact ⟨c :: a, b, rfl, by simp [hb, Ne.symm hc]⟩

/-- The first two parts of a split word: the text up to the first dot and the text up to the second. -/
theorem split_two (w : Str) (h : '.' ∈ w) :
    ∃ a b r, split '.' w = a :: b :: r ∧ '.' ∉ a ∧ '.' ∉ b ∧
      (w = a ++ '.' :: b ∨ ∃ rest, w = a ++ '.' :: (b ++ '.' :: rest)) := by
  obtain ⟨a, t, rfl, ha⟩ := split_first h
  unfold split
  rw [splitGo_sep _ _ _ _ ha]
  by_cases ht : '.' ∈ t
  · obtain ⟨b, t', rfl, hb⟩ := split_first ht
    rw [splitGo_sep _ _ _ _ hb]
    exact ⟨a, b, splitGo '.' [] t', by simp, ha, hb, .inr ⟨t', rfl⟩⟩
  · rw [splitGo_free _ _ _ ht]
    exact ⟨a, t, [], by simp, ha, ht, .inl rfl⟩

theorem split_two_eq (a b : Str) (ha : '.' ∉ a) (hb : '.' ∉ b) : split '.' (a ++ '.' :: b) = [a, b] := by
  unfold split
  rw [splitGo_sep _ _ _ _ ha, splitGo_free _ _ _ hb]
  simp

/-- `FieldOrError` never panics. -/
theorem fieldOrError_no_panic (s : Str) (p : GoPanic) : fieldOrError s ≠ .panic p := by
  have h2 : ∀ t al q, (match split '.' t with
      | n0 :: n1 :: _ => (Res.ok ⟨n1, n0, al⟩ : Res FieldDef)
      | _ => .panic .index) = .panic q → hasChar '.' t = false := by
    intro t al q h
    cases hh : hasChar '.' t with
    | false => rfl
    | true =>
      obtain ⟨a, b, r, hs, _⟩ := split_two t (by simpa [hasChar] using hh)
      simp [hs] at h
  intro hp
  unfold fieldOrError at hp
  split at hp
  · split at hp
    · simp at hp
    · rename_i h; have := h2 _ _ _ hp; simp [this] at h
  · split at hp
    · split at hp
      · simp at hp
      · rename_i h; have := h2 _ _ _ hp; simp [this] at h
    · simp at hp
  · simp at hp

/-- What `FieldOrError` makes of the first word. -/
theorem field_word (w al : Str) (fd : FieldDef) :
    (if (!hasChar '.' w) = true then (Res.ok ⟨w, [], al⟩ : Res FieldDef)
      else match split '.' w with
        | n0 :: n1 :: _ => .ok ⟨n1, n0, al⟩
        | _ => .panic .index) = .ok fd ↔
    fd.alias = al ∧ (('.' ∉ w ∧ fd.tableName = [] ∧ fd.fieldName = w) ∨
      ('.' ∉ fd.tableName ∧ '.' ∉ fd.fieldName ∧ (w = fd.tableName ++ '.' :: fd.fieldName ∨
        ∃ rest, w = fd.tableName ++ '.' :: (fd.fieldName ++ '.' :: rest)))) := by
  have unique : ∀ (a b x y : Str), '.' ∉ a → '.' ∉ x → a ++ '.' :: b = x ++ '.' :: y → a = x ∧ b = y := by
    intro a
    induction a with
    | nil =>
      intro b x y _ hx h
      cases x with
      | nil => simpa using h
      | cons c x =>
        simp only [List.nil_append, List.cons_append, List.cons.injEq] at h
        exact absurd (h.1 ▸ List.mem_cons_self) hx
    | cons c a ih =>
      intro b x y ha hx h
      cases x with
      | nil =>
        simp only [List.nil_append, List.cons_append, List.cons.injEq] at h
        exact absurd (h.1 ▸ List.mem_cons_self) ha
      | cons d x =>
        simp only [List.cons_append, List.cons.injEq] at h
        simp only [List.mem_cons, not_or] at ha hx
        obtain ⟨h1, h2⟩ := ih b x y ha.2 hx.2 h.2
        exact ⟨by rw [h.1, h1], h2⟩
  obtain ⟨n, t, a⟩ := fd
  by_cases hd : '.' ∈ w
  · rw [if_neg (by simpa [hasChar] using hd)]
    obtain ⟨x, y, r, hs, hx, hy, hw⟩ := split_two w hd
    rw [hs]
    simp only [Res.ok.injEq, FieldDef.mk.injEq]
    constructor
    · rintro ⟨rfl, rfl, rfl⟩
      exact ⟨rfl, .inr ⟨hx, hy, hw⟩⟩
    · rintro ⟨rfl, ⟨h1, _⟩ | ⟨h1, h2, h3⟩⟩
      · exact absurd hd h1
      · rcases hw with hw | ⟨rest, hw⟩ <;> rcases h3 with h3 | ⟨rest', h3⟩ <;> rw [hw] at h3
        · obtain ⟨e1, e2⟩ := unique _ _ _ _ hx h1 h3
          exact ⟨e2, e1, rfl⟩
        · obtain ⟨e1, e2⟩ := unique _ _ _ _ hx h1 h3
          exact absurd (by simp [e2]) hy
        · obtain ⟨e1, e2⟩ := unique _ _ _ _ hx h1 h3
          exact absurd (by simp [← e2]) h2
        · obtain ⟨e1, e2⟩ := unique _ _ _ _ hx h1 h3
          obtain ⟨e3, _⟩ := unique _ _ _ _ hy h2 e2
          exact ⟨e3, e1, rfl⟩
  · rw [if_pos (by simpa [hasChar] using hd)]
    simp only [Res.ok.injEq, FieldDef.mk.injEq]
    constructor
    · rintro ⟨rfl, rfl, rfl⟩
      exact ⟨rfl, .inl ⟨hd, rfl, rfl⟩⟩
    · rintro ⟨rfl, ⟨_, rfl, rfl⟩ | ⟨_, _, h3⟩⟩
      · exact ⟨rfl, rfl, rfl⟩
      · exfalso
        rcases h3 with h3 | ⟨rest, h3⟩ <;> exact hd (by simp [h3])

end Query
