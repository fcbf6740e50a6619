import Verif.Spec.Meaning
import Verif.Proof.Scan
/-!
# Lexing
-/
namespace Query

theorem lexRun_append (p : Pend) (s t : Str) :
    lexRun p (s ++ t) = ((lexRun p s).1 ++ (lexRun (lexRun p s).2 t).1, (lexRun (lexRun p s).2 t).2) := by
  induction s generalizing p with
  | nil => simp [lexRun]
  | cons c cs ih => simp [lexRun, ih]

@[simp] theorem lex_nil : lex [] = [] := rfl

theorem lexRun_none (t : Str) : (lexRun .none t).1 ++ (lexRun .none t).2.flush = lex t := rfl

theorem lexChar_space (p : Pend) : lexChar p ' ' = (p.flush, .none) := if_pos rfl

theorem lexChar_lpar (p : Pend) : lexChar p '(' = (p.flush ++ [.lpar], .none) := by
  unfold lexChar; rw [if_neg (by decide), if_pos rfl]

theorem lexChar_rpar (p : Pend) : lexChar p ')' = (p.flush ++ [.rpar], .none) := by
  unfold lexChar; rw [if_neg (by decide), if_neg (by decide), if_pos rfl]

theorem lexChar_comma (p : Pend) : lexChar p ',' = (p.flush ++ [.comma], .none) := by
  unfold lexChar; rw [if_neg (by decide), if_neg (by decide), if_neg (by decide), if_pos rfl]

theorem lexChar_dollar (p : Pend) : lexChar p '$' = (p.flush, .num 0) := by
  unfold lexChar; rw [if_neg (by decide), if_neg (by decide), if_neg (by decide), if_neg (by decide), if_pos rfl]

theorem lexChar_op (p : Pend) (c : Char) (h : c ∈ c!"=<>") :
    lexChar p c = match p with
      | .op s => ([], .op (s ++ [c]))
      | _ => (p.flush, .op [c]) := by
  simp only [List.mem_cons, List.not_mem_nil, or_false] at h
  rcases h with rfl | rfl | rfl <;>
  · unfold lexChar
    rw [if_neg (by decide), if_neg (by decide), if_neg (by decide), if_neg (by decide), if_neg (by decide),
      if_pos (by decide)]
    all_goals (cases p <;> rfl)

theorem lex_space (s t : Str) : lex (s ++ ' ' :: t) = lex s ++ lex t := by
  simp only [lex, lexRun_append, lexRun, lexChar_space, List.append_assoc]

theorem lex_lpar (s t : Str) : lex (s ++ '(' :: t) = lex s ++ .lpar :: lex t := by
  simp only [lex, lexRun_append, lexRun, lexChar_lpar, List.append_assoc, List.cons_append, List.nil_append]

theorem lex_rpar (s t : Str) : lex (s ++ ')' :: t) = lex s ++ .rpar :: lex t := by
  simp only [lex, lexRun_append, lexRun, lexChar_rpar, List.append_assoc, List.cons_append, List.nil_append]

theorem lex_comma (s t : Str) : lex (s ++ ',' :: t) = lex s ++ .comma :: lex t := by
  simp only [lex, lexRun_append, lexRun, lexChar_comma, List.append_assoc, List.cons_append, List.nil_append]

theorem lex_dollar (s t : Str) : lex (s ++ '$' :: t) = lex s ++ lex ('$' :: t) := by
  simp only [lex, lexRun_append, lexRun, lexChar_dollar, Pend.flush, List.append_assoc, List.nil_append]

theorem lex_lpar' (t : Str) : lex ('(' :: t) = .lpar :: lex t := lex_lpar [] t

theorem lexChar_wordChar {c : Char} (h : isWordChar c = true) (p : Pend) :
    lexChar p c = match p with
      | .word s => ([], .word (s ++ [c]))
      | .num n => if c.isDigit then ([], .num (10 * n + (c.toNat - '0'.toNat))) else (p.flush, .word [c])
      | _ => (p.flush, .word [c]) := by
  simp only [isWordChar, Bool.and_eq_true, Bool.not_eq_true', beq_eq_false_iff_ne] at h
  obtain ⟨⟨⟨⟨⟨⟨h1, h2⟩, h3⟩, h4⟩, h5⟩, h6⟩, h7⟩ := h
  unfold lexChar
  rw [if_neg (by simp [h1]), if_neg h2, if_neg h3, if_neg h4, if_neg h5, if_neg (by simp [h6]), if_neg (by simp [h7])]
  all_goals (cases p <;> rfl)

theorem lexRun_word_go (w : Str) (h : ∀ c ∈ w, isWordChar c = true) (s : Str) :
    lexRun (.word s) w = ([], .word (s ++ w)) := by
  induction w generalizing s with
  | nil => simp [lexRun]
  | cons c cs ih =>
    have hc := h c (by simp)
    simp [lexRun, lexChar_wordChar hc, ih (fun d hd => h d (by simp [hd]))]

theorem lexRun_word {w : Str} (hn : w ≠ []) (h : ∀ c ∈ w, isWordChar c = true) :
    lexRun .none w = ([], .word w) := by
  cases w with
  | nil => exact absurd rfl hn
  | cons c cs =>
    have hc := h c (by simp)
    simp [lexRun, lexChar_wordChar hc, lexRun_word_go cs (fun d hd => h d (by simp [hd])), Pend.flush]

theorem lex_word {w : Str} (hn : w ≠ []) (h : ∀ c ∈ w, isWordChar c = true) : lex w = [.word w] := by
  simp [lex, lexRun_word hn h, Pend.flush]

theorem isDigit_wordChar {c : Char} (h : c.isDigit = true) : isWordChar c = true := by
  have ne : ∀ d : Char, d.isDigit = false → c ≠ d := fun d hd => isDigit_ne h hd
  have h1 : c.toNat ≤ 57 := by
    simp only [Char.isDigit, Bool.and_eq_true, decide_eq_true_eq] at h
    have h2 : c.val.toNat ≤ 57 := UInt32.le_iff_toNat_le.mp h.2
    exact h2
  have h2 : ¬ (8192 ≤ c.toNat) := by omega
  have : isSpace c = false := by
    simp only [isSpace, Bool.or_eq_false_iff, beq_eq_false_iff_ne, Bool.and_eq_false_iff, decide_eq_false_iff_not]
    refine ⟨⟨⟨⟨⟨⟨⟨⟨⟨⟨⟨⟨⟨⟨?_, ?_⟩, ?_⟩, ?_⟩, ?_⟩, ?_⟩, ?_⟩, ?_⟩, ?_⟩, Or.inl h2⟩, ?_⟩, ?_⟩, ?_⟩, ?_⟩, ?_⟩ <;>
      exact ne _ (by decide)
  have hs : isSymChar c = false := by simp [isSymChar, Char.isAlphanum, h]
  simp only [isWordChar, isOpChar, this, hs, Bool.and_eq_true, Bool.not_eq_true', beq_eq_false_iff_ne,
    Bool.or_eq_false_iff]
  exact ⟨⟨⟨⟨⟨⟨trivial, ne _ (by decide)⟩, ne _ (by decide)⟩, ne _ (by decide)⟩, ne _ (by decide)⟩,
    ⟨ne _ (by decide), ne _ (by decide)⟩, ne _ (by decide)⟩, trivial⟩

theorem lexRun_digits (ds : Str) (h : ∀ c ∈ ds, c.isDigit = true) (n : Nat) :
    lexRun (.num n) ds = ([], .num (Nat.ofDigitChars 10 ds n)) := by
  induction ds generalizing n with
  | nil => simp [lexRun, Nat.ofDigitChars]
  | cons c cs ih =>
    have hc := h c (by simp)
    simp only [lexRun, lexChar_wordChar (isDigit_wordChar hc), hc, if_true,
      ih (fun d hd => h d (by simp [hd])), List.nil_append, Nat.ofDigitChars_cons]

theorem lex_placeholder (n : Nat) : lex ('$' :: itoa n) = [.dollar n] := by
  have e : lexRun .none ('$' :: itoa n) = ([], .num n) := by
    simp [lexRun, lexChar_dollar, lexRun_digits (itoa n) (itoa_digits n), itoa_value, Pend.flush]
  simp [lex, e, Pend.flush]

theorem lex_word_op {w : Str} (hn : w ≠ []) (h : ∀ c ∈ w, isWordChar c = true) {o : Str} (ho : o ∈ cmpOps) (t : Str) :
    lex (w ++ o ++ '$' :: t) = .word w :: .op o :: lex ('$' :: t) := by
  rw [lex_dollar]
  have : lex (w ++ o) = [.word w, .op o] := by
    simp only [lex, lexRun_append, lexRun_word hn h]
    simp only [cmpOps, List.mem_cons, List.not_mem_nil, or_false] at ho
    rcases ho with rfl | rfl | rfl | rfl | rfl <;> simp [lexRun, lexChar_op, Pend.flush]
  simp [this]

theorem lex_placeholders (n count : Nat) (hc : count ≠ 0) :
    lex (joinWith c!"," (inPlaceholders n count)) = listToks (numbersFrom n count) := by
  induction count generalizing n with
  | zero => exact absurd rfl hc
  | succ m ih =>
    have e1 : inPlaceholders n (m + 1) = (c!"$" ++ itoa (n + 1)) :: inPlaceholders (n + 1) m := by
      simp only [inPlaceholders, List.range_succ_eq_map, List.map_cons, List.map_map]
      congr 1
      apply List.map_congr_left
      intro i _
      simp only [Function.comp]
      congr 2
      omega
    have e2 : numbersFrom n (m + 1) = (n + 1) :: numbersFrom (n + 1) m := by
      rw [Nat.add_comm m 1, numbersFrom_add, numbersFrom_one]
      rfl
    rw [e1, e2]
    cases m with
    | zero => simp only [inPlaceholders, numbersFrom_zero, List.range_zero, List.map_nil, joinWith, listToks]
              exact lex_placeholder (n + 1)
    | succ m =>
      have ih' := ih (n + 1) (by simp)
      have e3 : inPlaceholders (n + 1) (m + 1) ≠ [] := by simp [inPlaceholders]
      have e4 : numbersFrom (n + 1) (m + 1) ≠ [] := by
        intro h
        have := congrArg List.length h
        simp [numbersFrom_length] at this
      obtain ⟨x, xs, hx⟩ := List.exists_cons_of_ne_nil e3
      obtain ⟨y, ys, hy⟩ := List.exists_cons_of_ne_nil e4
      rw [hx, hy] at ih' ⊢
      simp only [joinWith, listToks, List.append_assoc]
      rw [← ih']
      have := lex_comma (c!"$" ++ itoa (n + 1)) (joinWith c!"," (x :: xs))
      simp only [List.cons_append, List.nil_append] at this ⊢
      rw [this, lex_placeholder]
      rfl

end Query
