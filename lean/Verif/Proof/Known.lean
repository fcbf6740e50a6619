import Verif.Proof.StmtRead
/-!
# Lemmas: the words of a text that is a statement are keywords, names and numbers
-/
namespace Query

/-- A token that is no word, or a keyword, a column, all columns or a number. -/
def Tok.Known : Tok → Prop
  | .word w => w ∈ reserved ∨ isItem w = true ∨ w.all Char.isDigit = true
  | _ => True

theorem known_kw {w : Str} (h : w ∈ reserved) : (Tok.word w).Known := .inl h

theorem known_name {w : Str} (h : isName w = true) : (Tok.word w).Known := .inr (.inl (name_item h))

theorem known_ident {w : Str} (h : isIdent w = true) : (Tok.word w).Known := known_name (Bool.and_eq_true_iff.mp h).1

theorem known_col {w : Str} {c : ColRef} (h : readCol w = some c) : (Tok.word w).Known := by
  unfold readCol at h
  split at h
  · exact known_name ‹_›
  · cases h

theorem known_cols {w : Str} {c : ColRef} (h : readCols w = some c) : (Tok.word w).Known := by
  unfold readCols at h
  split at h
  · exact .inr (.inl ‹_›)
  · cases h

theorem known_readTok {st st' : RState} {t : Tok} (h : readTok st t = some st') : t.Known := by
  cases t with
  | word w =>
    unfold readTok at h
    have kw : ∀ k ∈ [c!"NOT", c!"AND", c!"OR", c!"LIKE", c!"ILIKE", c!"IN", c!"IS", c!"NULL"], w = k → (Tok.word w).Known := by
      intro k hk e
      have all : ∀ k ∈ [c!"NOT", c!"AND", c!"OR", c!"LIKE", c!"ILIKE", c!"IN", c!"IS", c!"NULL"], k ∈ reserved := by decide
      exact known_kw (e ▸ all k hk)
    cases hm : st.mode <;> simp only [hm] at h
    case operand =>
      by_cases h1 : w = c!"NOT"
      · exact kw _ (by simp) h1
      · rw [if_neg h1] at h
        split at h
        · exact known_name ‹_›
        · cases h
    case after =>
      by_cases h1 : w = c!"AND"
      · exact kw _ (by simp) h1
      · rw [if_neg h1] at h
        by_cases h2 : w = c!"OR"
        · exact kw _ (by simp) h2
        · rw [if_neg h2] at h; cases h
    case col =>
      by_cases h1 : w = c!"NOT"
      · exact kw _ (by simp) h1
      rw [if_neg h1] at h
      by_cases h1 : w = c!"LIKE"
      · exact kw _ (by simp) h1
      rw [if_neg h1] at h
      by_cases h1 : w = c!"ILIKE"
      · exact kw _ (by simp) h1
      rw [if_neg h1] at h
      by_cases h1 : w = c!"IN"
      · exact kw _ (by simp) h1
      rw [if_neg h1] at h
      by_cases h1 : w = c!"IS"
      · exact kw _ (by simp) h1
      rw [if_neg h1] at h
      cases h
    case colNot =>
      by_cases h1 : w = c!"LIKE"
      · exact kw _ (by simp) h1
      rw [if_neg h1] at h
      by_cases h1 : w = c!"ILIKE"
      · exact kw _ (by simp) h1
      rw [if_neg h1] at h
      by_cases h1 : w = c!"IN"
      · exact kw _ (by simp) h1
      rw [if_neg h1] at h
      cases h
    case isM =>
      by_cases h1 : w = c!"NULL"
      · exact kw _ (by simp) h1
      rw [if_neg h1] at h
      by_cases h1 : w = c!"NOT"
      · exact kw _ (by simp) h1
      rw [if_neg h1] at h
      cases h
    case isNot =>
      by_cases h1 : w = c!"NULL"
      · exact kw _ (by simp) h1
      rw [if_neg h1] at h
      cases h
    all_goals cases h
  | lpar => trivial
  | rpar => trivial
  | comma => trivial
  | op o => trivial
  | dollar n => trivial
  | sym c => trivial

theorem known_readToks {st st' : RState} {ts : List Tok} (h : readToks st ts = some st') : ∀ t ∈ ts, t.Known := by
  induction ts generalizing st with
  | nil => simp
  | cons t ts ih =>
    unfold readToks at h
    split at h
    · rename_i h1
      intro x hx
      rcases List.mem_cons.mp hx with rfl | hx
      · exact known_readTok h1
      · exact ih h x hx
    · cases h

theorem known_bool {ts : List Tok} {e : BExp} (h : readBool ts = some e) : ∀ t ∈ ts, t.Known := by
  unfold readBool at h
  split at h
  · exact known_readToks ‹_›
  · cases h

theorem known_table {ts : List Tok} {t : TabRef} (h : readTable ts = some t) : ∀ t ∈ ts, t.Known := by
  unfold readTable at h
  split at h
  · split at h
    · simpa using known_name ‹_›
    · cases h
  · split at h
    · rename_i hn
      obtain ⟨h1, rfl, h3⟩ := hn
      simpa using ⟨known_name h1, known_kw (by decide), known_ident h3⟩
    · cases h
  · cases h

theorem known_item {ts : List Tok} {i : SelItem} (h : readItem ts = some i) : ∀ t ∈ ts, t.Known := by
  unfold readItem at h
  split at h
  · obtain ⟨c, hc, _⟩ := Option.map_eq_some_iff.mp h
    simpa using known_cols hc
  · split at h
    · rename_i hn
      obtain ⟨rfl, h3, _⟩ := hn
      obtain ⟨c, hc, _⟩ := Option.map_eq_some_iff.mp h
      simpa using ⟨known_cols hc, known_kw (by decide), known_ident h3⟩
    · cases h
  · split at h
    · rename_i hn
      subst hn
      obtain ⟨c, hc, _⟩ := Option.map_eq_some_iff.mp h
      simpa [show Tok.lpar.Known from trivial, show Tok.rpar.Known from trivial] using ⟨known_name (by decide), known_cols hc⟩
    · cases h
  · cases h

theorem known_join {k : Str} {ts : List Tok} {j : JoinRef} (h : readJoin k ts = some j) : ∀ t ∈ ts, t.Known := by
  unfold readJoin at h
  split at h
  · split at h
    · rename_i hn
      obtain ⟨rfl, rfl, rfl⟩ := hn
      split at h
      · rename_i h1 h2 h3
        have := known_table h1
        simpa [show (Tok.op c!"=").Known from trivial] using
          ⟨known_kw (by decide), this _ (by simp), known_kw (by decide), known_col h2, known_col h3⟩
      · cases h
    · cases h
  · split at h
    · rename_i hn
      obtain ⟨rfl, rfl, rfl⟩ := hn
      split at h
      · rename_i h1 h2 h3
        have := known_table h1
        simpa [show (Tok.op c!"=").Known from trivial] using
          ⟨known_kw (by decide), this _ (by simp), this _ (by simp), this _ (by simp), known_kw (by decide), known_col h2, known_col h3⟩
      · cases h
    · cases h
  · cases h

theorem known_key {ts : List Tok} {k : ColRef × Str} (h : readKey ts = some k) : ∀ t ∈ ts, t.Known := by
  unfold readKey at h
  split at h
  · split at h
    · rename_i hd
      obtain ⟨c, hc, _⟩ := Option.map_eq_some_iff.mp h
      rcases hd with rfl | rfl
      · simpa using ⟨known_col hc, known_kw (by decide)⟩
      · simpa using ⟨known_col hc, known_kw (by decide)⟩
    · cases h
  · cases h

theorem mem_commas {ts : List Tok} {t : Tok} (h : t ∈ ts) : t = .comma ∨ ∃ l ∈ commas ts, t ∈ l := by
  induction ts with
  | nil => cases h
  | cons x ts ih =>
    have other : t = .comma ∨ ∃ l ∈ (match commas ts with | [] => [[x]] | l :: ls => (x :: l) :: ls), t ∈ l := by
      rcases List.mem_cons.mp h with rfl | h
      · right
        cases commas ts with
        | nil => exact ⟨[t], by simp, by simp⟩
        | cons l ls => exact ⟨_, List.mem_cons_self .., List.mem_cons_self ..⟩
      · rcases ih h with h | ⟨l, hl, ht⟩
        · exact .inl h
        · right
          cases hc : commas ts with
          | nil => rw [hc] at hl; cases hl
          | cons l0 ls =>
            rw [hc] at hl
            rcases List.mem_cons.mp hl with rfl | hl
            · exact ⟨_, List.mem_cons_self .., List.mem_cons_of_mem _ ht⟩
            · exact ⟨l, List.mem_cons_of_mem _ hl, ht⟩
    cases x with
    | comma =>
      simp only [commas]
      rcases List.mem_cons.mp h with rfl | h
      · exact .inl rfl
      · rcases ih h with h | ⟨l, hl, ht⟩
        · exact .inl h
        · exact .inr ⟨l, List.mem_cons_of_mem _ hl, ht⟩
    | word w => exact other
    | lpar => exact other
    | rpar => exact other
    | op o => exact other
    | dollar n => exact other
    | sym c => exact other

theorem readAll_each {α β : Type} {f : α → Option β} {as : List α} {bs : List β} (h : readAll f as = some bs) :
    ∀ a ∈ as, ∃ b, f a = some b := by
  induction as generalizing bs with
  | nil => simp
  | cons a as ih =>
    unfold readAll at h
    split at h
    · rename_i b bs' h1 h2
      intro x hx
      rcases List.mem_cons.mp hx with rfl | hx
      · exact ⟨b, h1⟩
      · exact ih h2 x hx
    · cases h

theorem known_list {β : Type} {f : List Tok → Option β} (hf : ∀ l b, f l = some b → ∀ t ∈ l, t.Known) {ts : List Tok} {bs : List β}
    (h : readAll f (commas ts) = some bs) : ∀ t ∈ ts, t.Known := by
  intro t ht
  rcases mem_commas ht with rfl | ⟨l, hl, ht⟩
  · trivial
  · obtain ⟨b, hb⟩ := readAll_each h l hl
    exact hf l b hb t ht

theorem known_readList {β : Type} {f : List Tok → Option β} (hf : ∀ l b, f l = some b → ∀ t ∈ l, t.Known) {ts : List Tok} {bs : List β}
    (h : readList f ts = some bs) : ∀ t ∈ ts, t.Known := by
  unfold readList at h
  split at h
  · rename_i ts
    split at h
    · rename_i body hb
      intro t ht
      rcases List.mem_cons.mp ht with rfl | ht
      · trivial
      · rw [← List.mem_reverse, hb] at ht
        rcases List.mem_cons.mp ht with rfl | ht
        · trivial
        · exact known_list hf h t (List.mem_reverse.mpr ht)
    · cases h
  · cases h

theorem known_order {ts : List Tok} {ks : List (ColRef × Str)} (h : readOrder ts = some ks) : ∀ t ∈ ts, t.Known := by
  unfold readOrder at h
  split at h
  · split at h
    · rename_i hb
      subst hb
      intro t ht
      rcases List.mem_cons.mp ht with rfl | ht
      · exact known_name (by decide)
      · exact known_list (fun _ _ => known_key) h t ht
    · cases h
  · cases h

theorem known_rows {ts : List Tok} {r : Rows} (h : readRows ts = some r) : ∀ t ∈ ts, t.Known := by
  unfold readRows at h
  split at h
  · simp [Tok.Known]
  · split at h
    · rename_i hn
      simpa using show (Tok.word _).Known from .inr (.inr hn.2)
    · cases h
  · cases h

theorem known_readName {ts : List Tok} {w : Str} (h : readName ts = some w) : ∀ t ∈ ts, t.Known := by
  unfold readName at h
  split at h
  · split at h
    · simpa using known_name ‹_›
    · cases h
  · cases h

theorem known_readIdent {ts : List Tok} {w : Str} (h : readIdent ts = some w) : ∀ t ∈ ts, t.Known := by
  unfold readIdent at h
  split at h
  · split at h
    · simpa using known_ident ‹_›
    · cases h
  · cases h

theorem known_param {ts : List Tok} {n : Nat} (h : readParam ts = some n) : ∀ t ∈ ts, t.Known := by
  unfold readParam at h
  split at h
  · simp [Tok.Known]
  · cases h

theorem known_set {ts : List Tok} {s : Str × Nat} (h : readSet ts = some s) : ∀ t ∈ ts, t.Known := by
  unfold readSet at h
  split at h
  · split at h
    · rename_i hn
      simpa [show (Tok.op _).Known from trivial, show (Tok.dollar _).Known from trivial] using known_ident hn.1
    · cases h
  · cases h

theorem known_into {ts : List Tok} {r : Str × List Str} (h : readInto ts = some r) : ∀ t ∈ ts, t.Known := by
  unfold readInto at h
  split at h
  · split at h
    · rename_i hn
      obtain ⟨cols, hc, _⟩ := Option.map_eq_some_iff.mp h
      intro t ht
      rcases List.mem_cons.mp ht with rfl | ht
      · exact known_name hn
      · exact known_readList (fun _ _ => known_readIdent) hc t ht
    · cases h
  · cases h

/-! ## Clauses -/

/-- The tokens of clauses are known. -/
def KnownSegs (cs : List (Str × List Tok)) : Prop := ∀ c ∈ cs, ∀ t ∈ c.2, t.Known

theorem knownSegs_cons {k : Str} {ts : List Tok} {cs : List (Str × List Tok)} (h : ∀ t ∈ ts, t.Known) (hc : KnownSegs cs) :
    KnownSegs ((k, ts) :: cs) := by
  intro c hm
  rcases List.mem_cons.mp hm with rfl | hm
  · exact h
  · exact hc c hm

theorem known_joins {cs rest : List (Str × List Tok)} {js : List JoinRef} (h : readJoins cs = some (js, rest))
    (hr : KnownSegs rest) : KnownSegs cs := by
  induction cs generalizing js rest with
  | nil => intro c hc; cases hc
  | cons c cs ih =>
    obtain ⟨k, ts⟩ := c
    unfold readJoins at h
    split at h
    · split at h
      · rename_i j r h1 h2
        simp only [Option.some.injEq, Prod.mk.injEq] at h
        obtain ⟨rfl, rfl⟩ := h
        exact knownSegs_cons (known_join h1) (ih h2 hr)
      · cases h
    · simp only [Option.some.injEq, Prod.mk.injEq] at h
      obtain ⟨rfl, rfl⟩ := h
      exact hr

theorem known_opt {α : Type} {kw : Str} {f : List Tok → Option α} (hf : ∀ l b, f l = some b → ∀ t ∈ l, t.Known)
    {cs rest : List (Str × List Tok)} {a : Option α} (h : readOpt kw f cs = some (a, rest)) (hr : KnownSegs rest) : KnownSegs cs := by
  unfold readOpt at h
  split at h
  · intro c hc; cases hc
  · split at h
    · split at h
      · rename_i x hx
        simp only [Option.some.injEq, Prod.mk.injEq] at h
        obtain ⟨_, rfl⟩ := h
        exact knownSegs_cons (hf _ _ hx) hr
      · cases h
    · simp only [Option.some.injEq, Prod.mk.injEq] at h
      obtain ⟨_, rfl⟩ := h
      exact hr

theorem known_select {a b : List Tok} {cs : List (Str × List Tok)} {s : SelectStmt} (h : readSelect a b cs = some s) :
    (∀ t ∈ a, t.Known) ∧ (∀ t ∈ b, t.Known) ∧ KnownSegs cs := by
  unfold readSelect at h
  split at h
  · rename_i is t js rest h1 h2 h3
    split at h
    · rename_i w rest1 h4
      split at h
      · rename_i o rest2 h5
        split at h
        · rename_i off rest3 h6
          split at h
          · rename_i lim h7
            refine ⟨known_list (fun _ _ => known_item) h1, known_table h2, known_joins h3 ?_⟩
            refine known_opt (fun _ _ => known_bool) h4 (known_opt (fun _ _ => known_order) h5 ?_)
            exact known_opt (fun _ _ => known_rows) h6 (known_opt (fun _ _ => known_rows) h7 fun c hc => by cases hc)
          · cases h
        · cases h
      · cases h
    · cases h
  · cases h

theorem known_clauses {cs : List (Str × List Tok)} {st : Stmt} (h : readClauses cs = some st) : KnownSegs cs := by
  unfold readClauses at h
  split at h
  · rename_i k1 ts1 k2 ts2 rest
    have none' : ∀ t ∈ ([] : List Tok), t.Known := by simp
    have nilS : KnownSegs [] := fun c hc => by cases hc
    split at h
    · obtain ⟨s, hs, _⟩ := Option.map_eq_some_iff.mp h
      obtain ⟨h1, h2, h3⟩ := known_select hs
      exact knownSegs_cons h1 (knownSegs_cons h2 h3)
    · split at h
      · rename_i hk
        split at h
        · rename_i h1
          split at h
          · obtain ⟨ns, hn, _⟩ := Option.map_eq_some_iff.mp h
            exact knownSegs_cons (hk.2.2 ▸ none') (knownSegs_cons (known_into h1)
              (knownSegs_cons (known_readList (fun _ _ => known_param) hn) nilS))
          · cases h
        · cases h
      · split at h
        · split at h
          · rename_i h1 h2
            split at h
            · obtain ⟨e, he, _⟩ := Option.map_eq_some_iff.mp h
              exact knownSegs_cons (known_readName h1) (knownSegs_cons (known_list (fun _ _ => known_set) h2)
                (knownSegs_cons (known_bool he) nilS))
            · cases h
          · cases h
        · split at h
          · rename_i hk
            split at h
            · rename_i h1
              split at h
              · obtain ⟨e, he, _⟩ := Option.map_eq_some_iff.mp h
                exact knownSegs_cons (hk.2.2 ▸ none') (knownSegs_cons (known_readName h1) (knownSegs_cons (known_bool he) nilS))
              · cases h
            · cases h
          · cases h
  · cases h

theorem clauseWords_kw : ∀ w ∈ clauseWords, w ∈ reserved := by decide

theorem mem_clauses {ts : List Tok} {t : Tok} (h : t ∈ ts) :
    (∃ w ∈ clauseWords, t = .word w) ∨ t ∈ (clauses ts).1 ∨ ∃ c ∈ (clauses ts).2, t ∈ c.2 := by
  induction ts with
  | nil => cases h
  | cons x ts ih =>
    unfold clauses
    cases hx : x.clause? with
    | some k =>
      rcases List.mem_cons.mp h with rfl | h
      · left
        cases t with
        | word w =>
          by_cases hw : w ∈ clauseWords
          · exact ⟨w, hw, rfl⟩
          · rw [show (Tok.word w).clause? = none from if_neg hw] at hx; cases hx
        | lpar => cases hx
        | rpar => cases hx
        | comma => cases hx
        | op o => cases hx
        | dollar n => cases hx
        | sym c => cases hx
      · rcases ih h with h | h | ⟨c, hc, ht⟩
        · exact .inl h
        · exact .inr (.inr ⟨_, List.mem_cons_self .., h⟩)
        · exact .inr (.inr ⟨c, List.mem_cons_of_mem _ hc, ht⟩)
    | none =>
      rcases List.mem_cons.mp h with rfl | h
      · exact .inr (.inl (List.mem_cons_self ..))
      · rcases ih h with h | h | h
        · exact .inl h
        · exact .inr (.inl (List.mem_cons_of_mem _ h))
        · exact .inr (.inr h)

/-- Every word of a text that is a statement is a keyword, a column, all columns or a number. -/
theorem known_stmt {sql : Str} {st : Stmt} (h : readStmt sql = some st) : ∀ t ∈ lex sql, t.Known := by
  unfold readStmt at h
  split at h
  · rename_i cs hc
    intro t ht
    rcases mem_clauses ht with ⟨w, hw, rfl⟩ | h1 | ⟨c, h1, h2⟩
    · exact known_kw (clauseWords_kw w hw)
    · rw [hc] at h1; cases h1
    · rw [hc] at h1
      exact known_clauses h c h1 t h2
  · cases h

/-- A column written with a table it does not have is no known word. -/
theorem untabled_unknown {fd : FieldDef} (ht : fd.tableName = []) : ¬ (Tok.word fd.renderTableSpec).Known := by
  rintro (h | h | h)
  · have : ∀ w ∈ reserved, '.' ∉ w := by decide
    exact this _ h (tableSpec_dot fd)
  · rw [tableSpec_no_name ht] at h; cases h
  · have := List.all_eq_true.mp h '.' (tableSpec_dot fd)
    revert this
    decide

end Query
