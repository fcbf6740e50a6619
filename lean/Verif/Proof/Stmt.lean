import Verif.Spec.Stmt
import Verif.Proof.Sem
/-!
# Lemmas for reading statements
-/
namespace Query

/-! ## Cutting -/

/-- Token lists with commas between. -/
def commaJoin : List (List Tok) → List Tok
  | [] => []
  | [x] => x
  | x :: y :: r => x ++ .comma :: commaJoin (y :: r)

theorem lex_joinSpace (l : List Str) : lex (joinWith c!" " l) = l.flatMap lex := by
  induction l with
  | nil => rfl
  | cons x r ih =>
    cases r with
    | nil => simp [joinWith]
    | cons y r =>
      have := lex_space x (joinWith c!" " (y :: r))
      simp only [joinWith, List.append_assoc, List.cons_append, List.nil_append]
      rw [this, ih]
      rfl

theorem lex_comma_space (s t : Str) : lex (s ++ c!", " ++ t) = lex s ++ .comma :: lex t := by
  have h1 := lex_comma s (' ' :: t)
  have h2 := lex_space [] t
  simp only [List.append_assoc, List.cons_append, List.nil_append] at *
  rw [h1, h2]
  rfl

theorem lex_joinComma (l : List Str) : lex (joinWith c!", " l) = commaJoin (l.map lex) := by
  induction l with
  | nil => rfl
  | cons x r ih =>
    cases r with
    | nil => simp [joinWith, commaJoin]
    | cons y r =>
      have := lex_comma_space x (joinWith c!", " (y :: r))
      simp only [joinWith, List.map_cons, commaJoin] at *
      rw [this, ih]

theorem commas_cons_ne {t : Tok} (h : t ≠ .comma) (ts : List Tok) :
    commas (t :: ts) = match commas ts with
      | [] => [[t]]
      | l :: ls => (t :: l) :: ls := by
  cases t <;> first | rfl | exact absurd rfl h

theorem commas_free {x : List Tok} (h : .comma ∉ x) : commas x = [x] := by
  induction x with
  | nil => rfl
  | cons t ts ih =>
    simp only [List.mem_cons, not_or] at h
    rw [commas_cons_ne (Ne.symm h.1), ih h.2]

theorem commas_append {x : List Tok} (h : .comma ∉ x) (r : List Tok) : commas (x ++ .comma :: r) = x :: commas r := by
  induction x with
  | nil => rfl
  | cons t ts ih =>
    simp only [List.mem_cons, not_or] at h
    rw [List.cons_append, commas_cons_ne (Ne.symm h.1), ih h.2]

theorem commas_join {ls : List (List Tok)} (hn : ls ≠ []) (h : ∀ l ∈ ls, .comma ∉ l) : commas (commaJoin ls) = ls := by
  induction ls with
  | nil => exact absurd rfl hn
  | cons x r ih =>
    cases r with
    | nil => exact commas_free (h x (by simp))
    | cons y r =>
      simp only [commaJoin]
      rw [commas_append (h x (by simp)), ih (by simp) (fun l hl => h l (by simp [hl]))]

/-- The tokens of clauses. -/
def segToks (segs : List (Str × List Tok)) : List Tok := segs.flatMap fun p => .word p.1 :: p.2

theorem clauses_body {b : List Tok} (h : ∀ t ∈ b, t.clause? = none) (r : List Tok) :
    clauses (b ++ r) = (b ++ (clauses r).1, (clauses r).2) := by
  induction b with
  | nil => rfl
  | cons t ts ih =>
    have h1 := h t (by simp)
    simp only [List.cons_append, clauses, h1, ih (fun x hx => h x (by simp [hx]))]

theorem clauses_segs (segs : List (Str × List Tok)) (h : ∀ p ∈ segs, p.1 ∈ clauseWords ∧ ∀ t ∈ p.2, t.clause? = none) :
    clauses (segToks segs) = ([], segs) := by
  induction segs with
  | nil => rfl
  | cons p r ih =>
    obtain ⟨k, b⟩ := p
    obtain ⟨h1, h2⟩ := h (k, b) (by simp)
    have e : segToks ((k, b) :: r) = .word k :: (b ++ segToks r) := by simp [segToks]
    have hk : (Tok.word k).clause? = some k := if_pos h1
    rw [e]
    simp only [clauses, hk, clauses_body h2, ih (fun x hx => h x (by simp [hx])), List.append_nil]

theorem segToks_append (a b : List (Str × List Tok)) : segToks (a ++ b) = segToks a ++ segToks b := by simp [segToks]

/-! ## Names -/

theorem clauseWords_items : ∀ w ∈ clauseWords, isItem w = false := by decide

theorem item_clause {w : Str} (h : isItem w = true) : (Tok.word w).clause? = none := by
  refine if_neg fun hw => ?_
  rw [clauseWords_items w hw] at h
  cases h

theorem name_item {w : Str} (h : isName w = true) : isItem w = true := by rw [isItem, h]; rfl

theorem name_clause {w : Str} (h : isName w = true) : (Tok.word w).clause? = none := item_clause (name_item h)

theorem clauseWords_no_dot : ∀ w ∈ clauseWords, '.' ∉ w := by decide

theorem dot_clause {w : Str} (h : '.' ∈ w) : (Tok.word w).clause? = none := if_neg fun hw => clauseWords_no_dot w hw h

theorem dotted_append (b : Bool) (t n : Str) : dotted b (t ++ '.' :: n) = (dotted b t && dotted true n) := by
  induction t generalizing b with
  | nil => cases b <;> simp [dotted]
  | cons c cs ih =>
    cases b
    · simp only [List.cons_append, dotted]
      split
      · exact ih true
      · rw [ih false, Bool.and_assoc]
    · simp only [List.cons_append, dotted, ih false, Bool.and_assoc]

theorem takeWhile_first (t n : Str) : (t ++ '.' :: n).takeWhile (· != '.') = t.takeWhile (· != '.') := by
  induction t with
  | nil => simp
  | cons c cs ih => simp [List.takeWhile_cons, ih]

/-- A name is qualified by a name. -/
theorem isName_qual (t n : Str) : isName (t ++ '.' :: n) = (isName t && dotted true n) := by
  simp only [isName, dotted_append, takeWhile_first]
  cases dotted true t <;> cases dotted true n <;> simp

theorem dotted_of_name {w : Str} (h : isName w = true) : dotted true w = true := (Bool.and_eq_true_iff.mp h).1

theorem isStar_qual (t : Str) : isStar (t ++ c!".*") = isName t := by simp [isStar]

theorem isIdent_of {w : Str} (h : PlainIdent w) : isIdent w = true := by
  rw [isIdent, h.1.2.2, Bool.true_and]
  simpa using h.2

theorem wordChar_dot : isWordChar '.' = true := by decide

theorem plain_qualified {t n : Str} (h1 : PlainName t) (h2 : PlainName n) : PlainName (t ++ c!"." ++ n) := by
  refine ⟨by simp, ?_, by simp [isName_qual, h1.2.2, dotted_of_name h2.2.2]⟩
  intro c hc
  simp only [List.mem_append, List.mem_cons, List.not_mem_nil, or_false] at hc
  rcases hc with (h | rfl) | h
  · exact h1.2.1 c h
  · exact wordChar_dot
  · exact h2.2.1 c h

theorem plain_col {fd : FieldDef} (h : PlainDef fd) : PlainItem fd.col := h.col

theorem PlainName.item {w : Str} (h : PlainName w) : PlainItem w := ⟨h.2.1, name_item h.2.2⟩

theorem PlainItem.ne {w : Str} (h : PlainItem w) : w ≠ [] := by
  intro e
  rw [e] at h
  cases h.2

theorem plain_columns {fd : FieldDef} (name : PlainIdent fd.fieldName) (table : fd.tableName = [] ∨ PlainName fd.tableName) :
    PlainName fd.col := by
  unfold FieldDef.col
  split
  · exact name.1
  · rename_i hn
    exact plain_qualified (table.resolve_left hn) name.1

/-- A field of plain identifiers. -/
theorem PlainDef.of {fd : FieldDef} (name : PlainIdent fd.fieldName) (table : fd.tableName = [] ∨ PlainName fd.tableName)
    (alias : fd.alias = [] ∨ PlainIdent fd.alias) : PlainDef fd := by
  refine ⟨(plain_columns name table).item, name.2, fun a ha => ⟨?_, fun e => ?_⟩⟩
  · unfold FieldDef.asName at ha
    split at ha
    · cases ha
    · unfold optStr at ha
      split at ha
      · cases ha
      · rename_i hne
        obtain rfl := Option.some.inj ha
        exact alias.resolve_left hne
  · have := (plain_columns name table).2.2
    rw [e] at this
    cases this

theorem KeyDef.of {fd : FieldDef} (name : PlainIdent fd.fieldName) (table : fd.tableName = [] ∨ PlainName fd.tableName)
    (alias : fd.alias = [] ∨ PlainIdent fd.alias) : KeyDef fd := by
  unfold KeyDef
  split
  · exact ⟨plain_columns name table, name.2⟩
  · rename_i h
    exact alias.resolve_left fun h0 => h (.inl h0)

theorem ColDef.of {fd : FieldDef} (name : PlainIdent fd.fieldName) (table : fd.tableName = [] ∨ PlainName fd.tableName)
    (alias : fd.alias = [] ∨ PlainIdent fd.alias) : ColDef fd :=
  ⟨plain_columns name table, name.2, fun a ha => ((PlainDef.of name table alias).alias a ha).1⟩

theorem ColDef.item {fd : FieldDef} (h : ColDef fd) : PlainDef fd :=
  ⟨h.col.item, h.dot, fun a ha => ⟨h.alias a ha, fun e => by have := h.col.2.2; rw [e] at this; cases this⟩⟩

theorem KeyDef.count {fd : FieldDef} (h : KeyDef fd) : CountDef fd := by
  unfold CountDef
  unfold KeyDef at h
  split at h
  · rw [if_pos ‹_›]; exact ⟨h.1.item, h.2⟩
  · rw [if_neg ‹_›]; exact ⟨h.1.item, h.2⟩

theorem SideDef.of {fd : FieldDef} (name : PlainIdent fd.fieldName) (table : fd.tableName = [] ∨ PlainName fd.tableName) :
    SideDef fd :=
  ⟨fun c hc => table.elim (fun h => by rw [h] at hc; cases hc) fun h => h.2.1 c hc, name.1.2.1, name.2, fun hn => (plain_qualified (table.resolve_left hn) name.1).2.2⟩

theorem PlainTable.of {t : TableIdent} (name : PlainName t.name) (alias : t.alias = [] ∨ PlainIdent t.alias) : PlainTable t := by
  refine ⟨name, fun a ha => ?_⟩
  unfold TableIdent.ref at ha
  simp only at ha
  split at ha
  · cases ha
  · unfold optStr at ha
    split at ha
    · cases ha
    · rename_i hne
      obtain rfl := Option.some.inj ha
      exact alias.resolve_left hne

theorem lex_name {w : Str} (h : PlainName w) : lex w = [.word w] := lex_word h.1 h.2.1

theorem lex_item {w : Str} (h : PlainItem w) : lex w = [.word w] := lex_word h.ne h.1

theorem takeWhile_nodot {n : Str} (h : '.' ∉ n) (r : Str) :
    (n ++ '.' :: r).takeWhile (· != '.') = n ∧ (n ++ '.' :: r).dropWhile (· != '.') = '.' :: r := by
  induction n with
  | nil => simp
  | cons c cs ih =>
    simp only [List.mem_cons, not_or] at h
    have hc : (c != '.') = true := by simpa using Ne.symm h.1
    simp [hc, ih h.2]

theorem takeWhile_dotfree {n : Str} (h : '.' ∉ n) :
    n.takeWhile (· != '.') = n ∧ n.dropWhile (· != '.') = [] := by
  induction n with
  | nil => simp
  | cons c cs ih =>
    simp only [List.mem_cons, not_or] at h
    have hc : (c != '.') = true := by simpa using Ne.symm h.1
    simp [hc, ih h.2]

theorem colRef_dot {t n : Str} (h : '.' ∉ n) : colRef (t ++ c!"." ++ n) = ⟨some t, n⟩ := by
  have hr : '.' ∉ n.reverse := by simpa using h
  have e : (t ++ c!"." ++ n).reverse = n.reverse ++ '.' :: t.reverse := by simp
  obtain ⟨h1, h2⟩ := takeWhile_nodot hr t.reverse
  unfold colRef
  simp only [e, h1, h2, List.reverse_reverse]

theorem colRef_plain {n : Str} (h : '.' ∉ n) : colRef n = ⟨none, n⟩ := by
  have hr : '.' ∉ n.reverse := by simpa using h
  obtain ⟨h1, h2⟩ := takeWhile_dotfree hr
  unfold colRef
  simp only [h1, h2, List.reverse_reverse]

theorem readCols_def {fd : FieldDef} (h : PlainDef fd) : readCols fd.col = some fd.ref := by
  unfold readCols
  rw [if_pos (plain_col h).2]
  congr 1
  unfold FieldDef.col FieldDef.ref optStr
  split
  · exact colRef_plain h.dot
  · exact colRef_dot h.dot

theorem readCol_ident {w : Str} (h : PlainIdent w) : readCol w = some ⟨none, w⟩ := by
  unfold readCol
  rw [if_pos h.1.2.2, colRef_plain h.2]

/-! ## Tokens of parts -/

/-- Tokens that can be in a list of a clause: no comma, no clause word. -/
def Inner (ts : List Tok) : Prop := .comma ∉ ts ∧ ∀ t ∈ ts, t.clause? = none

theorem as_clause : (Tok.word c!"AS").clause? = none := by decide

/-- The tokens of a field of a SELECT list. -/
def specToks (fd : FieldDef) : List Tok :=
  match fd.asName with
  | none => [.word fd.col]
  | some a => [.word fd.col, .word c!"AS", .word a]

theorem lex_as {w a : Str} (hw : PlainItem w) (ha : PlainName a) :
    lex (w ++ c!" AS " ++ a) = [.word w, .word c!"AS", .word a] := by
  have h1 := lex_space w (c!"AS" ++ ' ' :: a)
  have h2 := lex_space c!"AS" a
  simp only [List.append_assoc, List.cons_append, List.nil_append] at *
  rw [h1, h2, lex_item hw, lex_name ha]
  rfl

theorem optStr_some {s : Str} (h : s ≠ []) : optStr s = some s := if_neg h

theorem lex_spec {fd : FieldDef} (h : PlainDef fd) : lex fd.renderSpec = specToks fd := by
  rw [renderSpec_column]
  unfold specToks FieldDef.asName
  have hcol : fd.column = fd.col := rfl
  by_cases ha : fd.alias = []
  · rw [if_neg (fun hh => hh.1 ha), List.append_nil, hcol, lex_item (plain_col h)]
    split <;> simp_all [optStr]
  · by_cases hb : fd.alias = fd.fieldName ∧ fd.tableName = []
    · rw [if_neg (fun hh => hh.2.elim (fun x => x hb.1) (fun x => x hb.2)), List.append_nil, hcol, lex_item (plain_col h),
        if_pos hb]
    · rw [if_pos ⟨ha, by
        by_cases he : fd.alias = fd.fieldName
        · exact Or.inr fun ht => hb ⟨he, ht⟩
        · exact Or.inl he⟩, if_neg hb, optStr_some ha, hcol]
      have := lex_as (plain_col h) (h.alias _ (by rw [FieldDef.asName, if_neg hb, optStr_some ha])).1.1
      simpa using this

/-- A token list of names and the words inside clauses. -/
theorem inner_words {ts : List Tok} (h : ∀ t ∈ ts, ∃ w, t = .word w ∧ (Tok.word w).clause? = none) : Inner ts := by
  refine ⟨fun hc => ?_, fun t ht => ?_⟩
  · obtain ⟨w, hw, _⟩ := h _ hc
    cases hw
  · obtain ⟨w, rfl, hw⟩ := h t ht
    exact hw

theorem asName_plain {fd : FieldDef} (h : PlainDef fd) {a : Str} (ha : fd.asName = some a) : PlainIdent a := (h.alias a ha).1

theorem spec_inner {fd : FieldDef} (h : PlainDef fd) : Inner (specToks fd) := by
  apply inner_words
  unfold specToks
  split
  · simpa using item_clause (plain_col h).2
  · rename_i a ha
    have := asName_plain h ha
    intro t ht
    simp only [List.mem_cons, List.not_mem_nil, or_false] at ht
    rcases ht with rfl | rfl | rfl
    · exact ⟨_, rfl, item_clause (plain_col h).2⟩
    · exact ⟨_, rfl, as_clause⟩
    · exact ⟨_, rfl, name_clause this.1.2.2⟩

theorem read_spec {fd : FieldDef} (h : PlainDef fd) : readItem (specToks fd) = some (.col fd.ref fd.asName) := by
  unfold specToks
  split
  · rename_i ha
    simp only [readItem, readCols_def h, ha, Option.map_some]
  · rename_i a ha
    have := asName_plain h ha
    simp only [readItem, readCols_def h, ha, Option.map_some, isIdent_of this, ne_eq, (h.alias a ha).2, not_false_eq_true, and_self, if_true]

/-- The tokens of a table. -/
def tabToks (t : TableIdent) : List Tok :=
  match t.ref.alias with
  | none => [.word t.name]
  | some a => [.word t.name, .word c!"AS", .word a]

theorem tab_alias {t : TableIdent} (h : PlainTable t) {a : Str} (ha : t.ref.alias = some a) : PlainIdent a := h.alias a ha

theorem lex_tab {t : TableIdent} (h : PlainTable t) : lex t.renderFrom = tabToks t := by
  unfold TableIdent.renderFrom tabToks TableIdent.ref
  by_cases ha : t.alias = []
  · simp only [ha, List.length_nil, gt_iff_lt, Nat.lt_irrefl, false_and, if_false]
    rw [lex_name h.name]
    have : (if [] = t.name then none else optStr []) = none := by split <;> rfl
    rw [this]
  · have hl : t.alias.length > 0 := List.length_pos_iff.mpr ha
    by_cases hb : t.alias = t.name
    · rw [if_neg (fun x => x.2 hb)]
      simp only [hb, if_true]
      exact lex_name h.name
    · rw [if_pos ⟨hl, hb⟩]
      simp only [hb, if_false, optStr_some ha]
      exact lex_as h.name.item (h.alias _ (by simp only [TableIdent.ref, if_neg hb, optStr_some ha])).1

theorem tab_inner {t : TableIdent} (h : PlainTable t) : Inner (tabToks t) := by
  apply inner_words
  unfold tabToks
  split
  · simpa using name_clause h.name.2.2
  · rename_i a ha
    have := tab_alias h ha
    intro t ht
    simp only [List.mem_cons, List.not_mem_nil, or_false] at ht
    rcases ht with rfl | rfl | rfl
    · exact ⟨_, rfl, name_clause h.name.2.2⟩
    · exact ⟨_, rfl, as_clause⟩
    · exact ⟨_, rfl, name_clause this.1.2.2⟩

theorem read_tab {t : TableIdent} (h : PlainTable t) : readTable (tabToks t) = some t.ref := by
  unfold tabToks
  split
  · rename_i ha
    simp only [readTable, h.name.2.2, if_true]
    rw [← ha]; rfl
  · rename_i a ha
    have := tab_alias h ha
    simp only [readTable, h.name.2.2, isIdent_of this, and_self, if_true]
    rw [← ha]; rfl

/-! ## Joins -/

theorem lexRun_op_word {w o : Str} (hn : w ≠ []) (h : ∀ c ∈ w, isWordChar c = true) :
    lexRun (.op o) w = ([.op o], .word w) := by
  cases w with
  | nil => exact absurd rfl hn
  | cons c cs =>
    have hc := h c (by simp)
    simp [lexRun, lexChar_wordChar hc, lexRun_word_go cs (fun d hd => h d (by simp [hd])), Pend.flush]

theorem lex_equal {l r : Str} (hl0 : l ≠ []) (hl : ∀ c ∈ l, isWordChar c = true) (hr0 : r ≠ [])
    (hr : ∀ c ∈ r, isWordChar c = true) : lex (l ++ c!"=" ++ r) = [.word l, .op c!"=", .word r] := by
  simp only [lex, lexRun_append, lexRun_word hl0 hl]
  have e : lexRun (.word l) c!"=" = ([.word l], .op c!"=") := by simp [lexRun, lexChar_op, Pend.flush]
  simp [e, lexRun_op_word hr0 hr, Pend.flush]

/-- The tokens of a join after the word that begins it. -/
def joinBody (j : TableJoiner) : List Tok :=
  .word c!"JOIN" :: (tabToks j.rightTable ++
    [.word c!"ON", .word j.joinCondition.leftField.renderTableSpec, .op c!"=", .word j.joinCondition.rightField.renderTableSpec])

theorem joinKind_cases {n : Int} (h : joinKind n ≠ none) :
    ∃ k, joinKind n = some k ∧ k ∈ joinWords ∧ lex (joinTypeString n) = [.word k, .word c!"JOIN"] := by
  unfold joinKind at h ⊢
  split at h
  · exact ⟨_, rfl, by decide, by decide⟩
  · exact ⟨_, rfl, by decide, by decide⟩
  · exact ⟨_, rfl, by decide, by decide⟩
  · exact ⟨_, rfl, by decide, by decide⟩
  · exact absurd rfl h

theorem col_tableSpec {fd : FieldDef} (h : fd.tableName ≠ []) : fd.renderTableSpec = fd.col := by
  unfold FieldDef.renderTableSpec FieldDef.col
  rw [if_neg h]

theorem tableSpec_dot (fd : FieldDef) : '.' ∈ fd.renderTableSpec := by simp [FieldDef.renderTableSpec]

theorem tableSpec_ne (fd : FieldDef) : fd.renderTableSpec ≠ [] := by simp [FieldDef.renderTableSpec]

theorem tableSpec_chars {fd : FieldDef} (h : SideDef fd) : ∀ c ∈ fd.renderTableSpec, isWordChar c = true := by
  intro c hc
  simp only [FieldDef.renderTableSpec, List.mem_append, List.mem_cons, List.not_mem_nil, or_false] at hc
  rcases hc with (hc | rfl) | hc
  · exact h.table c hc
  · exact wordChar_dot
  · exact h.name c hc

theorem plain_tableSpec {fd : FieldDef} (h : SideDef fd) (ht : fd.tableName ≠ []) : PlainName fd.renderTableSpec :=
  ⟨tableSpec_ne fd, tableSpec_chars h, h.plain ht⟩

/-- Without a table, what is written is no name. -/
theorem tableSpec_no_name {fd : FieldDef} (ht : fd.tableName = []) : isItem fd.renderTableSpec = false := by
  unfold FieldDef.renderTableSpec
  rw [ht]
  generalize fd.fieldName = n
  have h1 : isName (c!"." ++ n) = false := rfl
  have h2 : isStar (c!"." ++ n) = false := by
    cases hs : isStar (c!"." ++ n) with
    | false => rfl
    | true =>
      unfold isStar at hs
      split at hs
      · rename_i h
        have := congrArg List.reverse h
        simp at this
      · rename_i t h
        have e := congrArg List.reverse h
        simp only [List.reverse_reverse, List.reverse_cons, List.append_assoc] at e
        generalize t.reverse = u at e hs
        cases u with
        | nil => cases hs
        | cons d u =>
          simp only [List.cons_append, List.nil_append, List.cons.injEq] at e
          rw [← e.1] at hs
          cases hs
      · cases hs
  simp only [List.nil_append]
  rw [isItem, h1, h2]
  rfl

theorem readCol_tableSpec {fd : FieldDef} (h : SideDef fd) (ht : fd.tableName ≠ []) : readCol fd.renderTableSpec = some fd.ref := by
  unfold readCol
  rw [if_pos (h.plain ht), FieldDef.ref, optStr_some ht]
  exact congrArg some (colRef_dot h.dot)

theorem lex_join {j : TableJoiner} (h : NamedJoin j) : lex j.renderFrom = .word j.ref.kind :: joinBody j := by
  obtain ⟨k, hk, _, hl⟩ := joinKind_cases h.kind
  unfold TableJoiner.renderFrom
  rw [lex_joinSpace]
  have hon : lex kwOn = [.word c!"ON"] := by decide
  have hc : lex j.joinCondition.render = [.word j.joinCondition.leftField.renderTableSpec, .op c!"=", .word j.joinCondition.rightField.renderTableSpec] := by
    unfold JoinCondition.render
    rw [lex_equal (tableSpec_ne _) (tableSpec_chars h.left) (tableSpec_ne _) (tableSpec_chars h.right)]
  simp only [List.flatMap_cons, List.flatMap_nil, hl, lex_tab h.table, hon, hc, TableJoiner.ref, hk, Option.getD_some, joinBody]
  simp

theorem join_free {j : TableJoiner} (h : NamedJoin j) : ∀ t ∈ joinBody j, t.clause? = none := by
  intro t ht
  simp only [joinBody, List.mem_cons, List.mem_append, List.not_mem_nil, or_false] at ht
  rcases ht with rfl | ht | rfl | rfl | rfl | rfl
  · decide
  · exact (tab_inner h.table).2 t ht
  · decide
  · exact dot_clause (tableSpec_dot _)
  · rfl
  · exact dot_clause (tableSpec_dot _)

theorem read_join {j : TableJoiner} (h : PlainJoin j) : readJoin j.ref.kind (joinBody j) = some j.ref := by
  have ht := read_tab h.table
  have hl := readCol_tableSpec h.left.1 h.left.2
  have hr := readCol_tableSpec h.right.1 h.right.2
  unfold joinBody tabToks at *
  split at ht
  · rename_i ha
    simp only [List.cons_append, List.nil_append, readJoin, and_self, if_true, ht, hl, hr]
    rfl
  · rename_i a ha
    simp only [List.cons_append, List.nil_append, readJoin, and_self, if_true, ht, hl, hr]
    rfl

theorem join_word_mem {j : TableJoiner} (h : NamedJoin j) : j.ref.kind ∈ joinWords := by
  obtain ⟨k, hk, hw, _⟩ := joinKind_cases h.kind
  simpa [TableJoiner.ref, hk] using hw

/-- A plain join is one over words. -/
theorem PlainJoin.named {j : TableJoiner} (h : PlainJoin j) : NamedJoin j := ⟨h.kind, h.table, h.left.1, h.right.1⟩

/-- The clauses of joins. -/
def joinSegs (js : List TableJoiner) : List (Str × List Tok) := js.map fun j => (j.ref.kind, joinBody j)

theorem read_joins (js : List TableJoiner) (h : ∀ j ∈ js, PlainJoin j) (rest : List (Str × List Tok))
    (hr : ∀ p ∈ rest.head?, p.1 ∉ joinWords) : readJoins (joinSegs js ++ rest) = some (js.map TableJoiner.ref, rest) := by
  induction js with
  | nil =>
    cases rest with
    | nil => rfl
    | cons p rest =>
      obtain ⟨k, ts⟩ := p
      exact if_neg (hr (k, ts) (by simp))
  | cons j js ih =>
    have hj := h j (by simp)
    have e : joinSegs (j :: js) ++ rest = (j.ref.kind, joinBody j) :: (joinSegs js ++ rest) := rfl
    rw [e]
    simp only [readJoins, join_word_mem hj.named, if_true, read_join hj, ih (fun x hx => h x (by simp [hx])), List.map_cons]

theorem PlainSelect.named {q : BaseSelect} (h : PlainSelect q) : NamedSelect q :=
  ⟨h.fields, h.table, fun j hj => (h.joins j hj).named, h.cond⟩

/-! ## Optional clauses -/

/-- A clause that may be left out. -/
def optSeg (kw : Str) : Option (List Tok) → List (Str × List Tok)
  | none => []
  | some b => [(kw, b)]

theorem read_opt {α : Type} (kw : Str) (f : List Tok → Option α) (o : Option (List Tok × α))
    (ho : ∀ p ∈ o, f p.1 = some p.2) (rest : List (Str × List Tok)) (hr : ∀ p ∈ rest.head?, p.1 ≠ kw) :
    readOpt kw f (optSeg kw (o.map (·.1)) ++ rest) = some (o.map (·.2), rest) := by
  cases o with
  | none =>
    cases rest with
    | nil => rfl
    | cons p rest =>
      obtain ⟨k, ts⟩ := p
      exact if_neg (hr (k, ts) (by simp))
  | some p =>
    have := ho p rfl
    simp only [Option.map_some, optSeg, List.cons_append, List.nil_append, readOpt, if_true, this]

theorem readAll_map {α β γ : Type} (f : α → Option β) (g : γ → α) (v : γ → β) (l : List γ) (h : ∀ x ∈ l, f (g x) = some (v x)) :
    readAll f (l.map g) = some (l.map v) := by
  induction l with
  | nil => rfl
  | cons x l ih =>
    simp only [List.map_cons, readAll, h x (by simp), ih (fun y hy => h y (by simp [hy]))]

theorem commaJoin_free {ls : List (List Tok)} (h : ∀ l ∈ ls, ∀ t ∈ l, t.clause? = none) :
    ∀ t ∈ commaJoin ls, t.clause? = none := by
  induction ls with
  | nil => intro t ht; simp [commaJoin] at ht
  | cons x r ih =>
    cases r with
    | nil => intro t ht; exact h x (by simp) t ht
    | cons y r =>
      intro t ht
      simp only [commaJoin, List.mem_append, List.mem_cons] at ht
      rcases ht with ht | rfl | ht
      · exact h x (by simp) t ht
      · rfl
      · exact ih (fun l hl => h l (by simp [hl])) t ht

/-! ## Conditions -/

theorem words_clause : ∀ w ∈ [c!"AND", c!"OR", c!"NOT", c!"LIKE", c!"ILIKE", c!"IN", c!"IS", c!"NULL"],
    (Tok.word w).clause? = none := by decide

theorem listToks_clause (ns : List Nat) : ∀ t ∈ listToks ns, t.clause? = none := by
  induction ns with
  | nil => intro t ht; simp [listToks] at ht
  | cons n r ih =>
    cases r with
    | nil => intro t ht; simp [listToks] at ht; subst ht; rfl
    | cons m r =>
      intro t ht
      simp only [listToks, List.mem_cons] at ht
      rcases ht with rfl | rfl | ht
      · rfl
      · rfl
      · exact ih t ht

/-- No token of a condition begins a clause. -/
theorem cond_clause {ts : List Tok} {e : BExp} (h : IsE ts e) : ∀ t ∈ ts, t.clause? = none := by
  have kw : ∀ w ∈ [c!"AND", c!"OR", c!"NOT", c!"LIKE", c!"ILIKE", c!"IN", c!"IS", c!"NULL"], (Tok.word w).clause? = none :=
    words_clause
  refine IsE.rec (motive_1 := fun ts _ _ => ∀ t ∈ ts, t.clause? = none) (motive_2 := fun ts _ _ => ∀ t ∈ ts, t.clause? = none)
    (motive_3 := fun ts _ _ => ∀ t ∈ ts, t.clause? = none) ?_ ?_ ?_ ?_ ?_ ?_ ?_ ?_ ?_ ?_ ?_ ?_ ?_ ?_ ?_ h
  · intro w o n hw _ t ht
    simp only [List.mem_cons, List.not_mem_nil, or_false] at ht
    rcases ht with rfl | rfl | rfl <;> first | exact name_clause hw | rfl
  · intro w n hw t ht
    simp only [List.mem_cons, List.not_mem_nil, or_false] at ht
    rcases ht with rfl | rfl | rfl <;> first | exact name_clause hw | rfl | exact kw _ (by simp)
  · intro w n hw t ht
    simp only [List.mem_cons, List.not_mem_nil, or_false] at ht
    rcases ht with rfl | rfl | rfl | rfl <;> first | exact name_clause hw | rfl | exact kw _ (by simp)
  · intro w n hw t ht
    simp only [List.mem_cons, List.not_mem_nil, or_false] at ht
    rcases ht with rfl | rfl | rfl <;> first | exact name_clause hw | rfl | exact kw _ (by simp)
  · intro w n hw t ht
    simp only [List.mem_cons, List.not_mem_nil, or_false] at ht
    rcases ht with rfl | rfl | rfl | rfl <;> first | exact name_clause hw | rfl | exact kw _ (by simp)
  · intro w ns hw _ t ht
    simp only [List.mem_cons, List.mem_append, List.not_mem_nil, or_false] at ht
    rcases ht with rfl | rfl | rfl | ht | rfl <;> first | exact name_clause hw | rfl | exact kw _ (by simp) | exact listToks_clause ns t ht
  · intro w ns hw _ t ht
    simp only [List.mem_cons, List.mem_append, List.not_mem_nil, or_false] at ht
    rcases ht with rfl | rfl | rfl | rfl | ht | rfl <;>
      first | exact name_clause hw | rfl | exact kw _ (by simp) | exact listToks_clause ns t ht
  · intro w hw t ht
    simp only [List.mem_cons, List.not_mem_nil, or_false] at ht
    rcases ht with rfl | rfl | rfl <;> first | exact name_clause hw | exact kw _ (by simp)
  · intro w hw t ht
    simp only [List.mem_cons, List.not_mem_nil, or_false] at ht
    rcases ht with rfl | rfl | rfl | rfl <;> first | exact name_clause hw | exact kw _ (by simp)
  · intro ts e _ ih t ht
    simp only [List.mem_cons, List.mem_append, List.not_mem_nil, or_false] at ht
    rcases ht with rfl | ht | rfl
    · rfl
    · exact ih t ht
    · rfl
  · intro ts e _ ih t ht
    rcases List.mem_cons.mp ht with rfl | ht
    · exact kw _ (by simp)
    · exact ih t ht
  · intro ts e _ ih; exact ih
  · intro ts us a b _ _ ih1 ih2 t ht
    simp only [List.mem_cons, List.mem_append] at ht
    rcases ht with ht | rfl | ht
    · exact ih1 t ht
    · exact kw _ (by simp)
    · exact ih2 t ht
  · intro ts e _ ih; exact ih
  · intro ts us a b _ _ ih1 ih2 t ht
    simp only [List.mem_cons, List.mem_append] at ht
    rcases ht with ht | rfl | ht
    · exact ih1 t ht
    · exact kw _ (by simp)
    · exact ih2 t ht

theorem bound_agree_mid (ps vs qs : List Val) : Agree (bound 0 (ps ++ vs ++ qs)) ps.length vs := by
  have h := bound_agree 0 (ps ++ vs ++ qs)
  have h1 := (agree_append (vs := ps ++ vs) h).1
  have h2 := (agree_append h1).2
  simpa using h2

/-- A readable condition inside a statement: values before and after it do not matter. -/
theorem cond_read (c : Cond) (ps qs : List Val) (h : c.Readable) :
    ∃ s vs e, c.render ps.length = .ok s ∧ c.values = .ok vs ∧ IsE (lex s) e ∧ CondRead c (ps ++ vs ++ qs) e ∧
      e.nums = numbersFrom ps.length vs.length := by
  obtain ⟨h1, h2⟩ := render_reads c ps.length h
  have hne := (flat_isF c ps.length h).1
  have ha := bound_agree_mid ps c.valuesP qs
  have hl := flat_leaves _ c ps.length h ha
  refine ⟨_, _, _, h1, readable_valuesP h, h2, ⟨⟨_, _, h1, h2⟩, ?_, ?_⟩, ?_⟩
  · rw [asm_leaves _ _ hne, hl.1]
  · intro row x hx
    rw [asm_eval _ _ _ hne, flat_ev row _ c _ h ha]
    exact (textMeans_iff c row x h).mp hx
  · rw [asm_nums _ hne, hl.2]

end Query
