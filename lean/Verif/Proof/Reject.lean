import Verif.Proof.Broken
import Verif.Props.Reads
/-!
# Lemmas: a statement whose WHERE clause is no expression is not read
-/
namespace Query

theorem clauses_where (A ts B : List Tok) (hq : Quiet ts) (hB : ∀ t ∈ B.head?, t.clause? ≠ none) :
    (c!"WHERE", ts) ∈ (clauses (A ++ .word c!"WHERE" :: (ts ++ B))).2 := by
  have hw : (Tok.word c!"WHERE").clause? = some c!"WHERE" := by decide
  have hb1 : (clauses B).1 = [] := by
    cases B with
    | nil => rfl
    | cons t B =>
      have := hB t (by simp)
      simp only [clauses]
      split
      · rfl
      · rename_i h; exact absurd h this
  induction A with
  | nil => simp [clauses, hw, clauses_body hq, hb1]
  | cons t A ih =>
    simp only [List.cons_append, clauses]
    split
    · exact List.mem_cons_of_mem _ ih
    · exact ih

theorem readOpt_mem {α : Type} {kw : Str} {f : List Tok → Option α} {cs rest : List (Str × List Tok)} {a : Option α}
    (h : readOpt kw f cs = some (a, rest)) {k : Str} {ts : List Tok} (hm : (k, ts) ∈ cs) :
    (k = kw ∧ f ts ≠ none) ∨ (k, ts) ∈ rest := by
  cases cs with
  | nil => cases hm
  | cons p cs =>
    obtain ⟨k0, t0⟩ := p
    simp only [readOpt] at h
    by_cases hk : k0 = kw
    · rw [if_pos hk] at h
      cases hf : f t0 with
      | none => rw [hf] at h; cases h
      | some b =>
        rw [hf] at h
        cases h
        rcases List.mem_cons.mp hm with e | hm
        · cases e; exact .inl ⟨hk, by simp [hf]⟩
        · exact .inr hm
    · rw [if_neg hk] at h
      cases h
      exact .inr hm

theorem readJoins_mem {cs rest : List (Str × List Tok)} {js : List JoinRef} (h : readJoins cs = some (js, rest)) {k : Str}
    {ts : List Tok} (hk : k ∉ joinWords) (hm : (k, ts) ∈ cs) : (k, ts) ∈ rest := by
  induction cs generalizing js rest with
  | nil => cases hm
  | cons p cs ih =>
    obtain ⟨k0, t0⟩ := p
    simp only [readJoins] at h
    by_cases hj : k0 ∈ joinWords
    · rw [if_pos hj] at h
      split at h
      · rename_i j r _ hr
        cases h
        rcases List.mem_cons.mp hm with e | hm
        · cases e; exact absurd hj hk
        · exact ih hr hm
      · cases h
    · rw [if_neg hj] at h
      cases h
      exact hm

theorem readSelect_where {a b : List Tok} {cs : List (Str × List Tok)} {st : SelectStmt} (h : readSelect a b cs = some st)
    {ts : List Tok} (hm : (c!"WHERE", ts) ∈ cs) : readBool ts ≠ none := by
  unfold readSelect at h
  split at h
  · rename_i js r0 _ _ hj
    have m0 := readJoins_mem hj (by decide) hm
    split at h
    · rename_i w r1 h1
      rcases readOpt_mem h1 m0 with ⟨_, hr⟩ | m1
      · exact hr
      · split at h
        · rename_i o r2 h2
          rcases readOpt_mem h2 m1 with ⟨hk, _⟩ | m2
          · exact absurd hk (by decide)
          · split at h
            · rename_i off r3 h3
              rcases readOpt_mem h3 m2 with ⟨hk, _⟩ | m3
              · exact absurd hk (by decide)
              · split at h
                · rename_i lim h4
                  rcases readOpt_mem h4 m3 with ⟨hk, _⟩ | m4
                  · exact absurd hk (by decide)
                  · cases m4
                · cases h
            · cases h
        · cases h
    · cases h
  · cases h

theorem readClauses_where {cs : List (Str × List Tok)} {st : Stmt} (h : readClauses cs = some st)
    {ts : List Tok} (hm : (c!"WHERE", ts) ∈ cs) : readBool ts ≠ none := by
  unfold readClauses at h
  split at h
  · rename_i k1 ts1 k2 ts2 rest
    have drop : k1 ≠ c!"WHERE" → k2 ≠ c!"WHERE" → (c!"WHERE", ts) ∈ rest := by
      intro n1 n2
      rcases List.mem_cons.mp hm with e | hm
      · cases e; exact absurd rfl n1
      rcases List.mem_cons.mp hm with e | hm
      · cases e; exact absurd rfl n2
      exact hm
    split at h
    · rename_i hk
      have hr := drop (by rw [hk.1]; decide) (by rw [hk.2]; decide)
      cases hs : readSelect ts1 ts2 rest with
      | none => rw [hs] at h; cases h
      | some s => exact readSelect_where hs hr
    split at h
    · rename_i hk
      have hr := drop (by rw [hk.1]; decide) (by rw [hk.2.1]; decide)
      split at h
      · split at h
        · rename_i k3 ts3 _ hk3
          simp only [List.mem_cons, List.not_mem_nil, or_false] at hr
          cases hr
          exact absurd hk3 (by decide)
        · cases h
      · cases h
    split at h
    · rename_i hk
      have hr := drop (by rw [hk.1]; decide) (by rw [hk.2]; decide)
      split at h
      · split at h
        · simp only [List.mem_cons, List.not_mem_nil, or_false] at hr
          cases hr
          intro hn
          rw [hn] at h
          cases h
        · cases h
      · cases h
    split at h
    · rename_i hk
      have hr := drop (by rw [hk.1]; decide) (by rw [hk.2.1]; decide)
      split at h
      · split at h
        · simp only [List.mem_cons, List.not_mem_nil, or_false] at hr
          cases hr
          intro hn
          rw [hn] at h
          cases h
        · cases h
      · cases h
    · cases h
  · cases h

/-- A text after the condition that does not belong to it. -/
def TailText (tail : Str) : Prop := tail = [] ∨ ∃ c, tail = ' ' :: c ∧ ∀ t ∈ (lex c).head?, t.clause? ≠ none

theorem lex_split (a b : Str) (h : b = [] ∨ ∃ c, b = ' ' :: c) : lex (a ++ b) = lex a ++ lex b := by
  obtain rfl | ⟨c, rfl⟩ := h
  · simp
  · rw [lex_space, show ' ' :: c = [] ++ ' ' :: c from rfl, lex_space]; rfl

theorem where_split (pre s : Str) : lex (pre ++ c!" WHERE " ++ s) = lex pre ++ .word c!"WHERE" :: lex s := by
  have h := lex_joinSpace [pre, c!"WHERE", s]
  have k : lex c!"WHERE" = [.word c!"WHERE"] := by decide
  simp only [joinWith, List.flatMap_cons, List.flatMap_nil, k, List.append_nil] at h
  simpa using h

theorem stmt_where {pre s tail : Str} (hq : Quiet (lex s)) (ht : TailText tail) {st : Stmt}
    (h : readStmt (pre ++ c!" WHERE " ++ s ++ tail) = some st) : readBool (lex s) ≠ none := by
  have hl : lex (pre ++ c!" WHERE " ++ s ++ tail) = lex pre ++ .word c!"WHERE" :: (lex s ++ lex tail) := by
    rw [lex_split _ tail (ht.imp id fun ⟨c, hc, _⟩ => ⟨c, hc⟩), where_split]
    simp
  have hB : ∀ t ∈ (lex tail).head?, t.clause? ≠ none := by
    obtain rfl | ⟨c, rfl, hc⟩ := ht
    · intro t h; cases h
    · rw [show ' ' :: c = [] ++ ' ' :: c from rfl, lex_space]
      exact hc
  have hm := clauses_where (lex pre) (lex s) (lex tail) hq hB
  unfold readStmt at h
  rw [hl] at h
  split at h
  · rename_i cs hcs
    rw [hcs] at hm
    exact readClauses_where h hm
  · cases h

/-- Whatever the rest of the statement, it is not read when its condition is unsound. -/
theorem unsound_stmt {c : Cond} (h : c.Every WritableNode) {pre tail : Str} (k : Nat) (ht : TailText tail) {st : Stmt}
    (hr : readStmt (pre ++ c!" WHERE " ++ c.renderP k ++ tail) = some st) : c.Every SoundNode := by
  refine Classical.byContradiction fun hn => ?_
  exact stmt_where (cond_sound c k h).1 ht hr (unsound_read c k h hn)

end Query
