import Verif.Props.KindProgram
/-!
# C81: programs that lose their query

`Fields` of a select of one row starts from an empty select (C21).  Whatever a program does after it, what it makes is no statement,
and writing through it is an error.
-/
namespace Query

/-- Nothing, or a clause word first. -/
def Clausal (ts : List Tok) : Prop := ts = [] ∨ ∃ w r, ts = .word w :: r ∧ w ∈ clauseWords

theorem Clausal.append {a b : List Tok} (ha : Clausal a) (hb : Clausal b) : Clausal (a ++ b) := by
  rcases ha with rfl | ⟨w, r, rfl, hw⟩
  · exact hb
  · exact .inr ⟨w, r ++ b, rfl, hw⟩

theorem Clausal.flatMap {α : Type} {f : α → List Tok} : ∀ {l : List α}, (∀ x ∈ l, Clausal (f x)) → Clausal (l.flatMap f)
  | [], _ => .inl rfl
  | x :: l, h => by
    rw [List.flatMap_cons]
    exact (h x (by simp)).append (Clausal.flatMap fun y hy => h y (by simp [hy]))

theorem Clausal.clauses {ts : List Tok} (h : Clausal ts) : (clauses ts).1 = [] := by
  rcases h with rfl | ⟨w, r, rfl, hw⟩
  · rfl
  · have : (Tok.word w).clause? = some w := if_pos hw
    simp only [Query.clauses, this]

/-- `SELECT items FROM` and then no table. -/
def NoFrom (items ts : List Tok) : Prop := ∃ rest, Clausal rest ∧ ts = .word c!"SELECT" :: (items ++ .word c!"FROM" :: rest)

theorem NoFrom.append {items ts more : List Tok} (h : NoFrom items ts) (hm : Clausal more) : NoFrom items (ts ++ more) := by
  obtain ⟨rest, hr, rfl⟩ := h
  exact ⟨rest ++ more, hr.append hm, by simp⟩

/-- That is no statement. -/
theorem NoFrom.read {items : List Tok} {sql : Str} (h : NoFrom items (lex sql)) (hi : ∀ t ∈ items, t.clause? = none) :
    readStmt sql = none := by
  obtain ⟨rest, hr, e⟩ := h
  have h1 : (Tok.word c!"SELECT").clause? = some c!"SELECT" := by decide
  have h2 : (Tok.word c!"FROM").clause? = some c!"FROM" := by decide
  have hc : clauses (lex sql) = ([], (c!"SELECT", items) :: (c!"FROM", []) :: (clauses rest).2) := by
    rw [e]
    simp only [clauses, h1, clauses_body hi, h2, hr.clauses, List.append_nil]
  unfold readStmt
  rw [hc]
  have ht : readTable [] = none := rfl
  simp only [readClauses, and_self, if_true, readSelect, ht]
  cases readAll readItem (commas items) <;> rfl

/-- The text of a join of one of the four kinds begins with a clause word. -/
theorem join_clausal {j : TableJoiner} (h : joinKind j.joinType ≠ none) : Clausal (lex j.renderFrom) := by
  obtain ⟨k, _, hk, hl⟩ := joinKind_cases h
  unfold TableJoiner.renderFrom
  rw [lex_joinSpace, List.flatMap_cons, hl]
  have : ∀ w ∈ joinWords, w ∈ clauseWords := by decide
  exact .inr ⟨k, _, rfl, this k hk⟩

theorem where_clausal (w : Str) : Clausal (lex (c!"WHERE " ++ w)) := by
  have e := lex_space c!"WHERE" w
  have k : lex c!"WHERE" = [.word c!"WHERE"] := by decide
  rw [k] at e
  exact .inr ⟨_, _, e, by decide⟩

theorem limits_clausal (n : Nat) (offset : Nat) (limit : Int) : Clausal (lex (spaced (limitTexts n (limitItems offset limit)))) := by
  have kO : ∀ s, Clausal (lex (c!"OFFSET" ++ ' ' :: s)) := fun s => by
    rw [lex_space, show lex c!"OFFSET" = [.word c!"OFFSET"] by decide]
    exact .inr ⟨_, _, rfl, by decide⟩
  have kL : ∀ s, Clausal (lex (c!"LIMIT" ++ ' ' :: s)) := fun s => by
    rw [lex_space, show lex c!"LIMIT" = [.word c!"LIMIT"] by decide]
    exact .inr ⟨_, _, rfl, by decide⟩
  have one : ∀ a b : Str, lex (' ' :: (a ++ b)) = lex (a ++ b) := fun a b => by
    have := lex_space [] (a ++ b)
    simpa [lex, lexRun, Pend.flush] using this
  have two : ∀ s : Str, lex (' ' :: s) = lex s := fun s => by
    have := one s []
    simpa using this
  unfold limitItems
  by_cases ho : offset > 0 <;> by_cases hl : limit > 0 <;>
    simp only [ho, hl, if_true, if_false, List.cons_append, List.nil_append, limitTexts, spaced, List.map_cons, List.map_nil,
      List.flatten_cons, List.flatten_nil, List.append_nil]
  · rw [two]
    have := kO ((c!"$" ++ itoa (n + 1)) ++ ' ' :: (c!"LIMIT" ++ c!" $" ++ itoa (n + 1 + 1)))
    simpa using this
  · rw [two]
    have := kO (c!"$" ++ itoa (n + 1))
    simpa using this
  · rw [two]
    have := kL (c!"$" ++ itoa (n + 1))
    simpa using this
  · exact .inl rfl

/-- A select without a table: its fields are plain, its joins of the four kinds. -/
structure NoTable (b : BaseSelect) : Prop where
  table : b.baseTable = ⟨[], []⟩
  fields : ∀ fd ∈ b.fields.specs, PlainDef fd
  joins : ∀ j ∈ b.joins, joinKind j.joinType ≠ none

theorem noTable_from {b : BaseSelect} (h : NoTable b) : Clausal (lex b.renderFrom) := by
  unfold BaseSelect.renderFrom
  rw [lex_joinSpace, List.flatMap_cons, h.table]
  refine Clausal.append (.inl rfl) (Clausal.flatMap fun s hs => ?_)
  obtain ⟨j, hj, rfl⟩ := List.mem_map.mp hs
  exact join_clausal (h.joins j hj)

theorem noTable_base {b : BaseSelect} (h : NoTable b) {sql : Str} {params : List Val} (hb : b.build = .ok (sql, params)) :
    NoFrom (commaJoin (itemToks b.fields)) (lex sql) := by
  have hh : NoFrom (commaJoin (itemToks b.fields)) (lex (joinWith c!" " b.headTokens)) := by
    have hs : lex (operationString doSelect) = [.word c!"SELECT"] := by decide
    have hf : lex kwFrom = [.word c!"FROM"] := by decide
    have ht : lex (TableIdent.renderFrom ⟨[], []⟩) = [] := by decide
    refine ⟨(b.joins.map TableJoiner.renderFrom).flatMap lex, Clausal.flatMap fun s hs => ?_, ?_⟩
    · obtain ⟨j, hj, rfl⟩ := List.mem_map.mp hs
      exact join_clausal (h.joins j hj)
    · unfold BaseSelect.headTokens
      rw [lex_joinSpace, h.table]
      simp only [List.cons_append, List.nil_append, List.flatMap_cons, hs, hf, ht, lex_fieldList h.fields]
  rcases base_build_shape b sql params hb with ⟨_, hs, _⟩ | ⟨_, w, _, _, hs⟩
  · rw [hs]; exact hh
  · have e := lex_space (joinWith c!" " b.headTokens) (c!"WHERE " ++ w)
    have e2 : sql = joinWith c!" " b.headTokens ++ ' ' :: (c!"WHERE " ++ w) := by rw [hs]; simp
    rw [e2, e]
    exact hh.append (where_clausal w)

/-- **C22**: without a table the text of a builder is no statement, whatever else the builder holds. -/
theorem C22_no_table (b : BaseSelect) (h : NoTable b) (fd : FieldDef) (hf : CountDef fd) (offset : Nat) (limit : Int)
    (order : List FieldSorting) (spec : Bool) (sql : Str) (params : List Val)
    (hb : b.build = .ok (sql, params) ∨ (SelectSingle.mk b).build = .ok (sql, params) ∨
      (SelectMany.mk b offset limit order spec).build = .ok (sql, params) ∨ (CountB.mk b fd).build = .ok (sql, params)) :
    readStmt sql = none := by
  have hi : ∀ t ∈ commaJoin (itemToks b.fields), t.clause? = none :=
    commaJoin_free fun l hl => (itemToks_inner h.fields l hl).2
  rcases hb with hb | hb | hb | hb
  · exact (noTable_base h hb).read hi
  · simp only [SelectSingle.build, Res.bind_eq_ok, Res.ok.injEq, Prod.mk.injEq, Prod.exists] at hb
    obtain ⟨s0, p0, h0, rfl, _⟩ := hb
    refine NoFrom.read (items := commaJoin (itemToks b.fields)) ?_ hi
    have e : lex (s0 ++ ' ' :: c!"LIMIT 1") = _ := lex_space s0 c!"LIMIT 1"
    have k : lex c!"LIMIT 1" = [.word c!"LIMIT", .word c!"1"] := by decide
    show NoFrom _ (lex (s0 ++ ' ' :: c!"LIMIT 1"))
    rw [e, k]
    exact (noTable_base h h0).append (.inr ⟨_, _, rfl, by decide⟩)
  · obtain ⟨s0, p0, h1, h2, _⟩ := C20_many_tail _ sql params hb
    refine NoFrom.read (items := commaJoin (itemToks b.fields)) ?_ hi
    have h3 := noTable_base h h1
    have tail : ∀ {a z : Str}, NoFrom (commaJoin (itemToks b.fields)) (lex a) → (z = [] ∨ ∃ c, z = ' ' :: c) → Clausal (lex z) →
        NoFrom (commaJoin (itemToks b.fields)) (lex (a ++ z)) := by
      rintro a z ha (rfl | ⟨c, rfl⟩) hz
      · rwa [List.append_nil]
      · have e1 := lex_space a c
        have e2 := lex_space [] c
        simp only [List.nil_append] at e2
        rw [e2] at hz
        rw [e1]
        exact ha.append hz
    rw [h2]
    refine tail (tail h3 ?_ ?_) ?_ (limits_clausal _ _ _)
    · split
      · exact .inl rfl
      · exact .inr ⟨_, rfl⟩
    · split
      · exact .inl rfl
      · generalize joinWith _ _ = s
        have e1 := lex_space [] (c!"ORDER BY " ++ s)
        have e2 := lex_space c!"ORDER" (c!"BY " ++ s)
        rw [show lex c!"ORDER" = [.word c!"ORDER"] by decide] at e2
        simp only [List.nil_append, List.cons_append] at e1 e2 ⊢
        rw [e1, e2]
        exact .inr ⟨_, _, rfl, by decide⟩
    · cases limitTexts p0.length (limitItems offset limit) with
      | nil => exact .inl rfl
      | cons x xs => exact .inr ⟨_, rfl⟩
  · have hk := plain_count hf
    have hcount : lex (kwCount ++ c!"(" ++ fd.renderField ++ c!")") = [.word c!"COUNT", .lpar, .word fd.renderField, .rpar] := by
      have e1 := lex_lpar c!"COUNT" (fd.renderField ++ c!")")
      have e2 := lex_rpar fd.renderField []
      have e3 : lex c!"COUNT" = [.word c!"COUNT"] := by decide
      show lex (c!"COUNT" ++ c!"(" ++ fd.renderField ++ c!")") = _
      simp only [List.cons_append, List.nil_append] at e1 ⊢
      rw [e1, e2, e3, lex_item hk]
      rfl
    have hi : ∀ t ∈ [Tok.word c!"COUNT", .lpar, .word fd.renderField, .rpar], t.clause? = none := by
      intro t ht
      simp only [List.mem_cons, List.not_mem_nil, or_false] at ht
      rcases ht with rfl | rfl | rfl | rfl
      · decide
      · rfl
      · exact item_clause hk.2
      · rfl
    refine NoFrom.read ?_ hi
    have hs : lex (operationString doSelect) = [.word c!"SELECT"] := by decide
    have hf : lex kwFrom = [.word c!"FROM"] := by decide
    have hw : lex kwWhere = [.word c!"WHERE"] := by decide
    unfold CountB.build at hb
    split at hb
    · simp only [Res.bind_eq_ok, Res.ok.injEq, Prod.mk.injEq] at hb
      obtain ⟨w, _, vs, _, rfl, _⟩ := hb
      rw [lex_joinSpace]
      simp only [List.cons_append, List.nil_append, List.flatMap_cons, List.flatMap_nil, hs, hf, hcount, hw]
      exact ⟨_, (noTable_from h).append (.inr ⟨_, _, rfl, by decide⟩), rfl⟩
    · simp only [Res.ok.injEq, Prod.mk.injEq] at hb
      obtain ⟨rfl, _⟩ := hb
      rw [lex_joinSpace]
      simp only [List.flatMap_cons, List.flatMap_nil, hs, hf, hcount, List.append_nil]
      exact ⟨_, noTable_from h, rfl⟩

/-- An empty select with a field, a join and a condition. -/
example :
    let b : BaseSelect := ⟨0, ⟨[], []⟩, [⟨⟨c!"u", []⟩, 1, ⟨⟨c!"id", c!"t", []⟩, ⟨c!"tid", c!"u", []⟩⟩⟩], ⟨[⟨c!"id", [], []⟩]⟩, zeroWhere⟩
    NoTable b ∧ b.build = .ok (c!"SELECT id FROM  LEFT JOIN u ON t.id=u.tid", []) :=
  ⟨⟨rfl, fun fd h => by
    simp only [List.mem_singleton] at h
    subst h
    exact fd_plain (c := ⟨none, c!"id"⟩) (a := none) ⟨exIdent (by decide), fun t ht => by cases ht⟩ (fun x hx => by cases hx),
    fun j h => by
      simp only [List.mem_singleton] at h
      subst h
      decide⟩, rfl⟩

/-! ## Programs -/

theorem fields_plain {l : List (ColRef × Option Str)} (h : (SCall.fields l).OK) : ∀ {fs : List FieldDef},
    Res.mapL (fun p : ColRef × Option Str => field (asText p.1.text p.2)) l = .ok fs → ∀ fd ∈ fs, PlainDef fd := by
  induction l with
  | nil =>
    intro fs e
    cases e
    simp
  | cons p l ih =>
    intro fs e
    simp only [Res.mapL, Res.bind_eq_ok, Res.ok.injEq] at e
    obtain ⟨fd, e1, fs', e2, rfl⟩ := e
    obtain ⟨h1, h2⟩ := h p (by simp)
    rw [field_as h1 fun a ha => (h2 a ha).1] at e1
    cases e1
    intro fd hfd
    rcases List.mem_cons.mp hfd with rfl | hfd
    · exact fd_item h1 fun a ha => ⟨(h2 a ha).1, fun hn => ((h2 a ha).2 hn).2⟩
    · exact ih (fun q hq => h q (by simp [hq])) e2 fd hfd

theorem joined_noTable {b b' : BaseSelect} (h : NoTable b) (t : TableIdent) {n : Int} (hn : joinKind n ≠ none) {l r : FieldDef}
    (e : (b.joinIdent t n).on l r = .ok b') : NoTable b' := by
  unfold BaseSelect.on BaseSelect.joinIdent at e
  simp only [List.reverse_append, List.reverse_cons, List.reverse_nil, List.nil_append, List.cons_append, Res.ok.injEq] at e
  subst e
  refine ⟨h.table, h.fields, fun j hj => ?_⟩
  simp only [List.reverse_reverse, List.mem_append, List.mem_singleton] at hj
  rcases hj with hj | rfl
  · exact h.joins j hj
  · exact hn

theorem type_kind (k : JoinKind) : joinKind k.type ≠ none := by cases k <;> decide

/-- Calls keep a select without a table so; `Fields` of a select of one row makes it so. -/
theorem call_noTable {c : KCall} (hc : c.OK) {q q' : SelB} (e : KCall.run q c = .ok q') :
    q'.kind = KCall.next q.kind c ∧
      (NoTable q.inner ∨ (q.kind = .single ∧ ∃ d, c = .call d ∧ d.isFields = true) → NoTable q'.inner) := by
  cases c with
  | single =>
    cases e
    refine ⟨by cases q <;> rfl, fun h => ?_⟩
    rcases h with h | ⟨_, d, h, _⟩
    · cases q <;> exact h
    · cases h
  | many =>
    cases e
    refine ⟨by cases q <;> rfl, fun h => ?_⟩
    rcases h with h | ⟨_, d, h, _⟩
    · cases q <;> exact h
    · cases h
  | call c =>
    cases c with
    | addWhere es =>
      have keep : ∀ (b : BaseSelect) cs, NoTable b → NoTable (b.addWhere cs) := fun b cs h => ⟨h.table, h.fields, h.joins⟩
      have no : ∀ {P : Prop}, (∃ d, KCall.call (.addWhere es) = .call d ∧ d.isFields = true) → P := by
        rintro P ⟨d, h, hd⟩
        cases h
        cases hd
      cases q <;>
        (simp only [KCall.run, KCall.runBase, KCall.runSingle, NSCall.run, Res.bind_eq_ok, Res.ok.injEq] at e
         first
          | (obtain ⟨cs, _, rfl⟩ := e
             exact ⟨rfl, fun h => h.elim (keep _ _) fun h => no h.2⟩)
          | (obtain ⟨q1, ⟨cs, _, rfl⟩, rfl⟩ := e
             exact ⟨rfl, fun h => h.elim (keep _ _) fun h => no h.2⟩))
    | other c =>
      have no : ∀ {P : Prop}, (NSCall.other c).isFields = false → (∃ d, KCall.call (.other c) = .call d ∧ d.isFields = true) → P := by
        rintro P hf ⟨d, h, hd⟩
        cases h
        rw [hf] at hd
        cases hd
      cases c with
      | fields l =>
        have hp := fun fs => fields_plain (fs := fs) hc.1
        cases q with
        | base q =>
          simp only [KCall.run, KCall.runBase, Res.bind_eq_ok, Res.ok.injEq] at e
          obtain ⟨fs, e1, rfl⟩ := e
          refine ⟨rfl, fun h => ?_⟩
          rcases h with h | ⟨h, _⟩
          · exact ⟨h.table, hp fs e1, h.joins⟩
          · cases h
        | single q =>
          simp only [KCall.run, KCall.runSingle, Res.bind_eq_ok, Res.ok.injEq] at e
          obtain ⟨fs, e1, rfl⟩ := e
          exact ⟨rfl, fun _ => ⟨rfl, hp fs e1, fun j hj => by cases hj⟩⟩
        | many q =>
          simp only [KCall.run, NSCall.run, SCall.run, Res.bind_eq_ok, Res.ok.injEq] at e
          obtain ⟨q1, ⟨fs, e1, rfl⟩, rfl⟩ := e
          refine ⟨rfl, fun h => ?_⟩
          rcases h with h | ⟨h, _⟩
          · exact ⟨h.table, hp fs e1, h.joins⟩
          · cases h
      | join k t l r =>
        cases q with
        | base q =>
          simp only [KCall.run, KCall.runBase, Res.bind_eq_ok, Res.ok.injEq] at e
          obtain ⟨t', _, l', _, r', _, b', e1, rfl⟩ := e
          exact ⟨rfl, fun h => h.elim (fun h => joined_noTable h t' (type_kind k) e1) fun h => no rfl h.2⟩
        | single q =>
          simp only [KCall.run, KCall.runSingle, SelectSingle.join, SelectSingle.on, Res.bind_eq_ok, Res.ok.injEq] at e
          obtain ⟨q1, ⟨t', _, rfl⟩, l', _, r', _, q2, ⟨b', e1, rfl⟩, rfl⟩ := e
          exact ⟨rfl, fun h => h.elim (fun h => joined_noTable (b := q.base) h t' (type_kind k) e1) fun h => no rfl h.2⟩
        | many q =>
          simp only [KCall.run, NSCall.run, SCall.run, SelectMany.join, SelectMany.on, Res.bind_eq_ok, Res.ok.injEq] at e
          obtain ⟨q2, ⟨q1, ⟨t', _, rfl⟩, l', _, r', _, b', e1, rfl⟩, rfl⟩ := e
          exact ⟨rfl, fun h => h.elim (fun h => joined_noTable (b := q.base) h t' (type_kind k) e1) fun h => no rfl h.2⟩
      | addWhere cs => cases hc.2
      | orderBy ks =>
        cases q <;>
          (simp only [KCall.run, KCall.runBase, KCall.runSingle, NSCall.run, SCall.run, Res.bind_eq_ok, Res.ok.injEq] at e
           first
            | (obtain ⟨os, _, rfl⟩ := e
               exact ⟨rfl, fun h => h.elim (fun h => h) fun h => no rfl h.2⟩)
            | (obtain ⟨q1, ⟨os, _, rfl⟩, rfl⟩ := e
               exact ⟨rfl, fun h => h.elim (fun h => h) fun h => no rfl h.2⟩))
      | offset n =>
        cases q <;>
          (simp only [KCall.run, KCall.runBase, KCall.runSingle, NSCall.run, SCall.run, Res.bind_ok, Res.ok.injEq] at e
           subst e
           exact ⟨rfl, fun h => h.elim (fun h => h) fun h => no rfl h.2⟩)
      | limit n =>
        cases q <;>
          (simp only [KCall.run, KCall.runBase, KCall.runSingle, NSCall.run, SCall.run, Res.bind_ok, Res.ok.injEq] at e
           subst e
           exact ⟨rfl, fun h => h.elim (fun h => h) fun h => no rfl h.2⟩)

/-- After all calls. -/
theorem calls_noTable : ∀ (cs : List KCall) (q q' : SelB), (∀ c ∈ cs, c.OK) → KCall.runAll q cs = .ok q' →
    NoTable q.inner ∨ ¬ KCall.noFields q.kind cs → NoTable q'.inner
  | [], q, q', _, e, h => by
    cases e
    exact h.elim id fun h => absurd trivial h
  | c :: cs, q, q', hc, e, h => by
    simp only [KCall.runAll, Res.bind_eq_ok] at e
    obtain ⟨q1, e1, e2⟩ := e
    obtain ⟨hk, hn⟩ := call_noTable (hc c (by simp)) e1
    refine calls_noTable cs q1 q' (fun d hd => hc d (by simp [hd])) e2 ?_
    rcases h with h | h
    · exact .inl (hn (.inl h))
    · by_cases h2 : KCall.noFields (KCall.next q.kind c) cs
      · refine .inl (hn (.inr ?_))
        cases c with
        | call d =>
          by_cases h3 : q.kind = .single ∧ d.isFields = true
          · exact ⟨h3.1, d, rfl, h3.2⟩
          · exact absurd ⟨h3, h2⟩ h
        | single => exact absurd ⟨trivial, h2⟩ h
        | many => exact absurd ⟨trivial, h2⟩ h
      · exact .inr (hk ▸ h2)

theorem delete_table : ∀ (more : List (List CondExp)) (d d' : DeleteB), NDeleteProg.runAll d more = .ok d' →
    d'.tableName = d.tableName
  | [], d, d', e => by cases e; rfl
  | c :: more, d, d', e => by
    simp only [NDeleteProg.runAll, Res.bind_eq_ok] at e
    obtain ⟨ds, _, e⟩ := e
    exact (delete_table more _ d' e).trans rfl

theorem update_table : ∀ (more : List NUCall) (u u' : UpdateB), NUCall.runAll u more = .ok u' → u'.tableName = u.tableName
  | [], u, u', e => by cases e; rfl
  | c :: more, u, u', e => by
    simp only [NUCall.runAll, Res.bind_eq_ok] at e
    obtain ⟨u1, e1, e⟩ := e
    rw [update_table more _ u' e]
    cases c with
    | set l =>
      simp only [NUCall.run, Res.bind_eq_ok, Res.ok.injEq] at e1
      obtain ⟨vs, _, rfl⟩ := e1
      rfl
    | addWhere es =>
      simp only [NUCall.run, Res.bind_eq_ok, Res.ok.injEq] at e1
      obtain ⟨vs, _, rfl⟩ := e1
      rfl

theorem insert_table : ∀ (more : List (List SetTo)) (i i' : InsertB), InsertProg.runCalls i more = .ok i' →
    i'.tableName = i.tableName
  | [], i, i', e => by cases e; rfl
  | c :: more, i, i', e => by
    simp only [InsertProg.runCalls, Res.bind_eq_ok] at e
    obtain ⟨vs, _, e⟩ := e
    exact (insert_table more _ i' e).trans rfl

/-- **C81**, the programs left: one that calls `Fields` on a select of one row, at any time and whatever it calls besides, makes a select
that is no statement, neither as it is nor counted (all rows or a column), and that no database answers; a DELETE, UPDATE or INSERT made through it, with any
calls after, is refused. -/
theorem C81_lost (p : KindProg) (ht : p.table.OK) (hc : ∀ c ∈ p.calls, c.OK) (hf : ¬ KCall.noFields p.start p.calls) (b : SelB)
    (hr : p.run = .ok b) :
    (∀ sql params, b.build = .ok (sql, params) → readStmt sql = none ∧ ∀ eng db, runQuery eng db sql params = none) ∧
    (∀ names c sql params, (∀ n ∈ names.head?, ∃ cr : ColRef, cr.OK ∧ n = cr.text) → b.countOf names = .ok c → c.build = .ok (sql, params) →
      readStmt sql = none ∧ ∀ eng db, runQuery eng db sql params = none) ∧
    (∀ more d, NDeleteProg.runAll b.delete more = .ok d → d.build = .err .noConditions ∨ d.build = .err .noTable) ∧
    (∀ vs more u, NUCall.runAll (b.update vs) more = .ok u →
      u.build = .err .noConditions ∨ u.build = .err .noSetFields ∨ u.build = .err .noTable) ∧
    (∀ vs more i, InsertProg.runCalls (b.insertInto vs) more = .ok i →
      i.build = .err .noInsertFields ∨ i.build = .err .noTable) := by
  have hn : NoTable b.inner := by
    have hs : selectFrom (.str p.table.text) = .ok ⟨0, p.table.ident, [], ⟨[]⟩, newWhere⟩ := by
      have := table_text ht
      simp only [table] at this
      simp [selectFrom, tableP, tableOrErrorP, this]
    have h1 : ∃ q, p.first = .ok q ∧ q.kind = p.start := by
      unfold KindProg.first
      cases p.start with
      | base => rw [hs]; exact ⟨_, rfl, rfl⟩
      | single => simp only [selectSingleFrom, hs]; exact ⟨_, rfl, rfl⟩
      | many => simp only [selectManyFrom, hs]; exact ⟨_, rfl, rfl⟩
    obtain ⟨q, e, hk⟩ := h1
    rw [KindProg.run, e, Res.bind_ok] at hr
    exact calls_noTable p.calls q b hc hr (.inr (hk ▸ hf))
  have none_run : ∀ {sql : Str} {params : List Val}, readStmt sql = none →
      readStmt sql = none ∧ ∀ eng db, runQuery eng db sql params = none := by
    intro sql params h
    exact ⟨h, fun eng db => by rw [runQuery, h]⟩
  have hstar : CountDef ⟨c!"*", [], []⟩ := by
    unfold CountDef
    rw [if_pos (.inl rfl)]
    exact ⟨⟨by decide, by decide⟩, by decide⟩
  have hname : b.inner.baseTable.name = [] := by rw [hn.table]
  refine ⟨fun sql params h => none_run ?_, fun names c sql params hn0 h1 h2 => none_run ?_, fun more d h => ?_, fun vs more u h => ?_,
    fun vs more i h => ?_⟩
  · cases b with
    | base q => exact C22_no_table q hn _ hstar 0 0 [] false sql params (.inl h)
    | single q => exact C22_no_table q.base hn _ hstar 0 0 [] false sql params (.inr (.inl h))
    | many q => exact C22_no_table q.base hn _ hstar q.offset q.limit q.order _ sql params (.inr (.inr (.inl h)))
  · have key : ∃ fd, CountDef fd ∧ c = ⟨b.inner, fd⟩ := by
      cases names with
      | nil =>
        have e : field c!"*" = .ok ⟨c!"*", [], []⟩ := by decide
        refine ⟨_, hstar, ?_⟩
        cases b <;> (simp only [SelB.countOf, count, e, Res.bind_ok, Res.ok.injEq] at h1; exact h1.symm)
      | cons n names =>
        obtain ⟨cr, hcr, rfl⟩ := hn0 n rfl
        refine ⟨cr.fd, (fd_key hcr).count, ?_⟩
        cases b <;> (simp only [SelB.countOf, count, field_col hcr, Res.bind_ok, Res.ok.injEq] at h1; exact h1.symm)
    obtain ⟨fd, hfd, rfl⟩ := key
    exact C22_no_table b.inner hn fd hfd 0 0 [] false sql params (.inr (.inr (.inr h2)))
  · have e := delete_table more _ d h
    have e2 : b.delete.tableName = [] := by cases b <;> exact hname
    rw [e2] at e
    unfold DeleteB.build
    rw [e]
    by_cases h0 : d.where_.conds.length = 0
    · exact .inl (if_pos h0)
    · exact .inr (by rw [if_neg h0]; rfl)
  · have e := update_table more _ u h
    have e2 : (b.update vs).tableName = [] := by cases b <;> exact hname
    rw [e2] at e
    unfold UpdateB.build
    rw [e]
    by_cases h0 : u.where_.conds.length = 0
    · exact .inl (if_pos h0)
    · rw [if_neg h0]
      by_cases h1 : u.setValues.length = 0
      · exact .inr (.inl (if_pos h1))
      · exact .inr (.inr (by rw [if_neg h1]; rfl))
  · have e := insert_table more _ i h
    have e2 : (b.insertInto vs).tableName = [] := by cases b <;> exact hname
    rw [e2] at e
    unfold InsertB.build
    rw [e]
    by_cases h0 : i.setValues.length = 0
    · exact .inl (if_pos h0)
    · exact .inr (by rw [if_neg h0]; rfl)

/-- `SelectManyFrom("t").Single().Fields("id").Where(a = 7).OrderBy(id DESC)`. -/
def exLost : KindProg := ⟨.many, ⟨c!"t", none⟩, [.single, .call (.other (.fields [(exCol [] c!"id", none)])),
  .call (.addWhere [exIs c!"a" 7]), .call (.other (.orderBy [(exCol [] c!"id", true)]))]⟩

example : exLost.table.OK ∧ (∀ c ∈ exLost.calls, c.OK) ∧ ¬ KCall.noFields exLost.start exLost.calls ∧
    exLost.run.bind SelB.build = .ok (c!"SELECT id FROM  WHERE a=$1 ORDER BY id DESC", [.other 7]) ∧
    (exLost.run.bind SelB.count).bind CountB.build = .ok (c!"SELECT COUNT(*) FROM  WHERE a=$1", [.other 7]) ∧
    (exLost.run.bind fun b => NDeleteProg.runAll b.delete []).bind DeleteB.build = .err .noTable := by
  refine ⟨⟨exIdent (by decide), fun a ha => by cases ha⟩, ?_, by simp [exLost, KCall.noFields, KCall.next, NSCall.isFields], rfl, rfl, rfl⟩
  intro c hc
  simp only [exLost, List.mem_cons, List.not_mem_nil, or_false] at hc
  rcases hc with rfl | rfl | rfl | rfl
  · exact trivial
  · exact exFields_ok (by decide)
  · exact ⟨exIs_ok (by decide) 7, trivial⟩
  · exact exOrder_ok (by decide) true

end Query
