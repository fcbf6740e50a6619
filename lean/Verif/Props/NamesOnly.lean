import Verif.Proof.NamesRead
import Verif.Props.ReadsExact
import Verif.Props.Rows
/-!
# C80: a name stands in a statement as a name only

Values are bound to placeholders, names are written into the text.  Here: the text of a builder reads back to what the builder holds just
if its names are plain (`PlainName`: words of the text that are no keywords), whatever else is in it; so a name that is not plain
always makes a text that is no statement or a statement that is not the builder's.
-/
namespace Query

/-! ## SELECT -/

/-- The joins of a builder are of the four kinds, and its condition has the shape of a SQL condition; nothing is asked of names. -/
structure ShapedSelect (b : BaseSelect) : Prop where
  joins : ∀ j ∈ b.joins, joinKind j.joinType ≠ none
  cond : b.where_.conditions = [] ∨ b.where_.group.toCond.Shaped

/-- The names of a builder are plain: fields, aliases, tables, join columns (with a table each) and the columns of its condition. -/
structure PlainNames (b : BaseSelect) : Prop where
  fields : ∀ fd ∈ b.fields.specs, PlainDef fd
  table : PlainTable b.baseTable
  joins : ∀ j ∈ b.joins, PlainTable j.rightTable ∧ SideDef j.joinCondition.leftField ∧ j.joinCondition.leftField.tableName ≠ [] ∧
    SideDef j.joinCondition.rightField ∧ j.joinCondition.rightField.tableName ≠ []
  cond : b.where_.conditions ≠ [] → b.where_.group.toCond.PlainCols

theorem PlainNames.select {b : BaseSelect} (h : PlainNames b) (hs : ShapedSelect b) : PlainSelect b :=
  ⟨h.fields, h.table, fun j hj => ⟨hs.joins j hj, (h.joins j hj).1, ⟨(h.joins j hj).2.1, (h.joins j hj).2.2.1⟩,
    ⟨(h.joins j hj).2.2.2.1, (h.joins j hj).2.2.2.2⟩⟩,
    if hn : b.where_.conditions = [] then .inl hn
    else .inr (shaped_readable _ (hs.cond.resolve_left hn) (h.cond hn))⟩

theorem NamedSelect.plainNames {b : BaseSelect} (h : NamedSelect b) (ht : b.JoinTables) : PlainNames b :=
  ⟨h.fields, h.table, fun j hm => ⟨(h.joins j hm).table, (h.joins j hm).left, (ht j hm).1, (h.joins j hm).right, (ht j hm).2⟩,
    fun hn => readable_cols _ (h.cond.resolve_left hn)⟩

/-- **C80, base builder.**  A builder of any names builds, and its text reads back to the fields, table, joins and condition it holds
just if its names are plain. -/
theorem C80_base (b : BaseSelect) (hs : ShapedSelect b) :
    ∃ sql params, b.build = .ok (sql, params) ∧
      ((∃ w, readStmt sql = some (.select ⟨b.fields.refs, b.baseTable.ref, b.joins.map TableJoiner.ref, w, [], none, none⟩) ∧
        WhereRead b params w) ↔ PlainNames b) := by
  obtain ⟨sql, params, hb⟩ := shaped_builds hs.cond
  refine ⟨sql, params, hb, ⟨fun ⟨w, h1, h2⟩ => ?_, fun h => ?_⟩⟩
  · have hp := readStmt_plain h1
    have hn := select_def hs.joins hs.cond (fields_def hp.1) hp h2
    exact hn.plainNames (joins_tabled hn.joins zeroFD 0 0 [] false (.inl hb) h1)
  · obtain ⟨sql', params', w, g1, g2, g3⟩ := C22_base_partial b (h.select hs)
    rw [hb] at g1
    cases g1
    exact ⟨w, g2, g3⟩

/-- **C80, single row.** -/
theorem C80_single (q : SelectSingle) (hs : ShapedSelect q.base) :
    ∃ sql params, q.build = .ok (sql, params) ∧
      ((∃ w, readStmt sql = some (.select ⟨q.base.fields.refs, q.base.baseTable.ref, q.base.joins.map TableJoiner.ref, w, [], none,
        some (.lit c!"1")⟩) ∧ WhereRead q.base params w) ↔ PlainNames q.base) := by
  obtain ⟨sql0, params, hb0⟩ := shaped_builds hs.cond
  have hb : q.build = .ok (sql0 ++ c!" LIMIT 1", params) := by simp [SelectSingle.build, hb0]
  generalize sql0 ++ c!" LIMIT 1" = sql at hb
  refine ⟨sql, params, hb, ⟨fun ⟨w, h1, h2⟩ => ?_, fun h => ?_⟩⟩
  · have hp := readStmt_plain h1
    have hn := select_def hs.joins hs.cond (fields_def hp.1) hp h2
    exact hn.plainNames (joins_tabled hn.joins zeroFD 0 0 [] false (.inr (.inl hb)) h1)
  · obtain ⟨sql', params', w, g1, g2, g3⟩ := C22_single_partial q (h.select hs)
    rw [hb] at g1
    cases g1
    exact ⟨w, g2, g3⟩

/-- **C80, many rows**: also the sort keys and their directions. -/
theorem C80_many (q : SelectMany) (hs : ShapedSelect q.base) :
    ∃ sql params, q.build = .ok (sql, params) ∧
      ((∃ w off lim, readStmt sql = some (.select ⟨q.base.fields.refs, q.base.baseTable.ref, q.base.joins.map TableJoiner.ref, w,
          q.order.map fun o => (o.fd.key, o.direction), off, lim⟩) ∧
        WhereRead q.base params w ∧ RowsRead params q.offset off ∧ RowsRead params q.limit.toNat lim) ↔
        PlainNames q.base ∧ ∀ o ∈ q.order, PlainKey o) := by
  obtain ⟨sql0, params0, hb0⟩ := shaped_builds hs.cond
  have hb : ∃ sql params, q.build = .ok (sql, params) := by
    unfold SelectMany.build
    rw [hb0]
    exact ⟨_, _, rfl⟩
  obtain ⟨sql, params, hb⟩ := hb
  refine ⟨sql, params, hb, ⟨fun ⟨w, off, lim, h1, h2, _⟩ => ?_, fun ⟨h, ho⟩ => ?_⟩⟩
  · have hp := readStmt_plain h1
    have hn := select_def hs.joins hs.cond (fields_def hp.1) hp h2
    have ho : ∀ o ∈ q.order, PlainKey o := fun o ho =>
      have hk := hp.2.2.2 _ (List.mem_map_of_mem (f := fun o : FieldSorting => (o.fd.key, o.direction)) ho)
      ⟨key_def hk.1, hk.2⟩
    exact ⟨hn.plainNames (joins_tabled hn.joins zeroFD q.offset q.limit q.order q.tableSpec (.inr (.inr (.inl hb))) h1), ho⟩
  · obtain ⟨sql', params', w, off, lim, g1, g2, g3⟩ := C22_many_partial q (h.select hs) ho
    rw [hb] at g1
    cases g1
    exact ⟨w, off, lim, g2, g3⟩

/-- **C80, count**: the fields of the builder do not matter, the counted field does. -/
theorem C80_count (q : CountB) (hs : ShapedSelect q.base) :
    ∃ sql params, q.build = .ok (sql, params) ∧
      ((∃ w, readStmt sql = some (.select ⟨[.count q.countField.key], q.base.baseTable.ref, q.base.joins.map TableJoiner.ref, w, [],
        none, none⟩) ∧ WhereRead q.base params w) ↔ PlainNames { q.base with fields := ⟨[]⟩ } ∧ CountDef q.countField) := by
  let q' : CountB := ⟨{ q.base with fields := ⟨[]⟩ }, q.countField⟩
  have hs' : ShapedSelect q'.base := ⟨hs.joins, hs.cond⟩
  obtain ⟨sql0, params, hb0⟩ := shaped_builds hs'.cond
  obtain ⟨tail, _, hb⟩ := C18_count_same_rows q'.base q'.countField sql0 params hb0
  have hb : q.build = .ok (_, params) := hb
  generalize c!"SELECT COUNT(" ++ q'.countField.renderField ++ c!") FROM " ++ tail = sql at hb
  have hb' : q'.build = .ok (sql, params) := hb
  refine ⟨sql, params, hb, ⟨fun ⟨w, h1, h2⟩ => ?_, fun ⟨h, hf⟩ => ?_⟩⟩
  · have hp := readStmt_plain h1
    have hf : CountDef q.countField := count_def (hp.1 _ (List.mem_cons_self ..))
    have hn : NamedSelect q'.base := select_def hs'.joins hs'.cond (fun fd h => nomatch h) hp h2
    exact ⟨hn.plainNames (joins_tabled hn.joins q'.countField 0 0 [] false (.inr (.inr (.inr hb'))) h1), hf⟩
  · obtain ⟨sql', params', w, g1, g2, g3⟩ := C22_count_partial q' (h.select hs') hf
    rw [hb'] at g1
    cases g1
    exact ⟨w, g2, g3⟩

/-! ## INSERT, UPDATE, DELETE -/

/-- **C80, INSERT.**  With values for its columns, its text reads back to its table and columns just if they are plain names. -/
theorem C80_insert (q : InsertB) (vs : List Val) (hs : q.setValues ≠ []) (ht : q.tableName ≠ [])
    (hone : q.setValues.map FieldValue.values = vs.map fun v => .ok [v]) :
    ∃ sql, q.build = .ok (sql, vs) ∧
      ((∃ ns, readStmt sql = some (.insert q.tableName (q.setValues.map fun fv => fv.fd.fieldName) ns) ∧ ns.map (bound 0 vs) = vs) ↔
        PlainName q.tableName ∧ ∀ fv ∈ q.setValues, PlainIdent fv.fd.fieldName) := by
  obtain ⟨hb, _⟩ := C05_insert_partial q vs hs ht hone
  refine ⟨_, hb, ⟨fun ⟨ns, h1, _⟩ => ?_, fun ⟨h1, h2⟩ => ?_⟩⟩
  · obtain ⟨p1, p2⟩ := readStmt_plain h1
    exact ⟨p1, fun fv hfv => p2 _ (List.mem_map_of_mem (f := fun fv : FieldValue => fv.fd.fieldName) hfv)⟩
  · obtain ⟨sql, ns, g1, g2, g3⟩ := C44_insert_partial q vs hs h1 h2 hone
    rw [hb] at g1
    cases g1
    exact ⟨ns, g2, g3⟩

/-- **C80, UPDATE.** -/
theorem C80_update (q : UpdateB) (vs : List Val) (hs : q.setValues ≠ []) (ht : q.tableName ≠ [])
    (hone : q.setValues.map FieldValue.values = vs.map fun v => .ok [v]) (hc : q.where_.toCond.Shaped) :
    ∃ sql params, q.build = .ok (sql, params) ∧
      ((∃ sets e, readStmt sql = some (.update q.tableName sets e) ∧
          sets.map (·.1) = q.setValues.map (fun fv => fv.fd.fieldName) ∧ sets.map (fun p => bound 0 params p.2) = vs ∧
          CondRead q.where_.toCond params e) ↔
        PlainName q.tableName ∧ (∀ fv ∈ q.setValues, PlainIdent fv.fd.fieldName) ∧ q.where_.toCond.PlainCols) := by
  obtain ⟨wv, hv⟩ := shaped_values _ hc
  have hne : q.where_.conds ≠ [] := (show ShapedNode q.where_.toCond from hc.1).1
  obtain ⟨w, hw, hb, _⟩ := C04_update_partial q vs wv hne hs ht hone hv
  refine ⟨_, _, hb, ⟨fun ⟨sets, e, h1, h2, _, h3⟩ => ?_, fun ⟨h1, h2, h3⟩ => ?_⟩⟩
  · obtain ⟨p1, p2⟩ := readStmt_plain h1
    refine ⟨p1, fun fv hfv => ?_, condRead_plain h3⟩
    have : fv.fd.fieldName ∈ sets.map (·.1) := by
      rw [h2]
      exact List.mem_map_of_mem (f := fun fv : FieldValue => fv.fd.fieldName) hfv
    obtain ⟨s, hs, he⟩ := List.mem_map.mp this
    exact he ▸ p2 s hs
  · obtain ⟨sql, params, sets, e, g1, g2⟩ := C45_update_partial q vs hs h1 h2 hone (shaped_readable _ hc h3)
    rw [hb] at g1
    cases g1
    exact ⟨sets, e, g2⟩

/-- **C80, DELETE.** -/
theorem C80_delete (q : DeleteB) (ht : q.tableName ≠ []) (hc : q.where_.toCond.Shaped) :
    ∃ sql params, q.build = .ok (sql, params) ∧
      ((∃ e, readStmt sql = some (.delete q.tableName e) ∧ CondRead q.where_.toCond params e) ↔
        PlainName q.tableName ∧ q.where_.toCond.PlainCols) := by
  obtain ⟨vs, hv⟩ := shaped_values _ hc
  have hne : q.where_.conds ≠ [] := (show ShapedNode q.where_.toCond from hc.1).1
  have hr : q.where_.render 0 = .ok (q.where_.toCond.renderP 0) := Cond.render_pure _ vs hv 0
  have hv' : q.where_.values = .ok vs := hv
  have hb : ∃ sql, q.build = .ok (sql, vs) := by
    have n1 : ¬ q.where_.conds.length = 0 := by simpa using hne
    have n2 : ¬ q.tableName.length = 0 := by simpa using ht
    simp only [DeleteB.build, n1, n2, if_false, hr, hv', Res.bind_ok]
    exact ⟨_, rfl⟩
  obtain ⟨sql, hb⟩ := hb
  refine ⟨sql, vs, hb, ⟨fun ⟨e, h1, h2⟩ => ⟨readStmt_plain h1, condRead_plain h2⟩, fun ⟨h1, h2⟩ => ?_⟩⟩
  obtain ⟨sql', params, e, g1, g2⟩ := C46_delete_partial q h1 (shaped_readable _ hc h2)
  rw [hb] at g1
  cases g1
  exact ⟨e, g2⟩

/-! ## Which names are plain -/

/-- A part of a name: not empty, no digit first, word characters, neither dot nor star. -/
structure NamePart (p : Str) : Prop where
  ne : p ≠ []
  first : ∀ c ∈ p.head?, c.isDigit = false
  chars : ∀ c ∈ p, isWordChar c = true ∧ c ≠ '.' ∧ c ≠ '*'

theorem dotted_parts (b : Bool) (s : Str) (hs : ∀ c ∈ s, isWordChar c = true) : dotted b s = true ↔
    ∃ p ps, s = joinWith c!"." (p :: ps) ∧ (b = true → NamePart p) ∧ (∀ c ∈ p, isWordChar c = true ∧ c ≠ '.' ∧ c ≠ '*') ∧
      ∀ q ∈ ps, NamePart q := by
  induction s generalizing b with
  | nil =>
    cases b
    · simp only [dotted, true_iff]
      exact ⟨[], [], rfl, by simp, by simp, by simp⟩
    · simp only [dotted, Bool.false_eq_true, false_iff]
      rintro ⟨p, ps, h1, h2, _⟩
      have hne := (h2 trivial).ne
      cases ps with
      | nil => exact hne (by simpa [joinWith] using h1.symm)
      | cons q ps =>
        have := congrArg List.length h1
        simp [joinWith] at this
  | cons c cs ih =>
    have hcs : ∀ d ∈ cs, isWordChar d = true := fun d hd => hs d (by simp [hd])
    have hc : isWordChar c = true := hs c (by simp)
    have cut : ∀ {p ps}, c :: cs = joinWith c!"." (p :: ps) → c ≠ '.' → ∃ p', p = c :: p' ∧ cs = joinWith c!"." (p' :: ps) := by
      intro p ps h hd
      cases p with
      | nil =>
        cases ps with
        | nil => cases h
        | cons q ps => simp only [joinWith, List.nil_append, List.cons_append, List.cons.injEq] at h; exact absurd h.1 hd
      | cons d p' =>
        refine ⟨p', ?_⟩
        cases ps with
        | nil => simp only [joinWith, List.cons.injEq] at h; exact ⟨by rw [h.1], h.2⟩
        | cons q ps =>
          simp only [joinWith, List.cons_append, List.cons.injEq] at h
          exact ⟨by rw [h.1], by simpa [joinWith] using h.2⟩
    have grow : ∀ p' ps, joinWith c!"." ((c :: p') :: ps) = c :: joinWith c!"." (p' :: ps) := by
      intro p' ps
      cases ps <;> simp [joinWith]
    cases b
    · by_cases hd : c = '.'
      · subst hd
        simp only [dotted, if_true]
        rw [ih true hcs]
        constructor
        · rintro ⟨p, ps, h1, h2, _, h4⟩
          refine ⟨[], p :: ps, by rw [h1]; simp [joinWith], by simp, by simp, ?_⟩
          intro q hq
          rcases List.mem_cons.mp hq with rfl | hq
          · exact h2 rfl
          · exact h4 q hq
        · rintro ⟨p, ps, h1, _, h3, h4⟩
          cases p with
          | cons d p' =>
            cases ps with
            | nil => simp only [joinWith, List.cons.injEq] at h1; exact absurd h1.1.symm (h3 d (by simp)).2.1
            | cons q ps => simp only [joinWith, List.cons_append, List.cons.injEq] at h1; exact absurd h1.1.symm (h3 d (by simp)).2.1
          | nil =>
            cases ps with
            | nil => cases h1
            | cons q ps =>
              simp only [joinWith, List.nil_append, List.cons_append, List.cons.injEq, true_and] at h1
              exact ⟨q, ps, h1, fun _ => h4 q (by simp), (h4 q (by simp)).chars, fun r hr => h4 r (by simp [hr])⟩
      · simp only [dotted, if_neg hd, Bool.and_eq_true, bne_iff_ne, ne_eq]
        rw [ih false hcs]
        constructor
        · rintro ⟨hst, p, ps, h1, _, h3, h4⟩
          refine ⟨c :: p, ps, by rw [grow, h1], by simp, ?_, h4⟩
          intro d hdm
          rcases List.mem_cons.mp hdm with rfl | hdm
          · exact ⟨hc, hd, hst⟩
          · exact h3 d hdm
        · rintro ⟨p, ps, h1, _, h3, h4⟩
          obtain ⟨p', rfl, h5⟩ := cut h1 hd
          exact ⟨(h3 c (by simp)).2.2, p', ps, h5, by simp, fun d hd => h3 d (by simp [hd]), h4⟩
    · simp only [dotted, Bool.and_eq_true, bne_iff_ne, ne_eq, Bool.not_eq_true']
      rw [ih false hcs]
      constructor
      · rintro ⟨⟨⟨hdg, hd⟩, hst⟩, p, ps, h1, _, h3, h4⟩
        have hch : ∀ d ∈ c :: p, isWordChar d = true ∧ d ≠ '.' ∧ d ≠ '*' := by
          intro d hdm
          rcases List.mem_cons.mp hdm with rfl | hdm
          · exact ⟨hc, hd, hst⟩
          · exact h3 d hdm
        exact ⟨c :: p, ps, by rw [grow, h1], fun _ => ⟨by simp, by simpa using hdg, hch⟩, hch, h4⟩
      · rintro ⟨p, ps, h1, h2, h3, h4⟩
        have hd : c ≠ '.' := by
          intro hd
          subst hd
          have hne := (h2 trivial).ne
          cases p with
          | nil => exact hne rfl
          | cons d p' =>
            cases ps with
            | nil => simp only [joinWith, List.cons.injEq] at h1; exact absurd h1.1.symm (h3 d (by simp)).2.1
            | cons q ps => simp only [joinWith, List.cons_append, List.cons.injEq] at h1; exact absurd h1.1.symm (h3 d (by simp)).2.1
        obtain ⟨p', rfl, h5⟩ := cut h1 hd
        exact ⟨⟨⟨(h2 trivial).first c rfl, hd⟩, (h3 c (by simp)).2.2⟩, p', ps, h5, by simp, fun d hd => h3 d (by simp [hd]), h4⟩

/-- **C80, exactly which names are plain**: parts with dots between them, each of word characters, not empty and with no digit first, the
first no keyword of SQL. -/
theorem C80_plain_exact (s : Str) : PlainName s ↔ ∃ p ps, s = joinWith c!"." (p :: ps) ∧ (∀ q ∈ p :: ps, NamePart q) ∧
    p.map Char.toUpper ∉ reserved := by
  have first : ∀ {p : Str} {ps : List Str}, NamePart p → (joinWith c!"." (p :: ps)).takeWhile (· != '.') = p := by
    intro p ps hp
    have all : p.takeWhile (· != '.') = p := by
      apply takeWhile_all
      intro c hc
      simpa using (hp.chars c hc).2.1
    cases ps with
    | nil => exact all
    | cons q ps =>
      have := takeWhile_first p (joinWith c!"." (q :: ps))
      rw [all] at this
      simpa [joinWith] using this
  constructor
  · rintro ⟨_, hw, hn⟩
    obtain ⟨h1, h2⟩ := Bool.and_eq_true_iff.mp hn
    obtain ⟨p, ps, rfl, hp, _, hps⟩ := (dotted_parts true s hw).mp h1
    rw [first (hp rfl)] at h2
    refine ⟨p, ps, rfl, ?_, by simpa using h2⟩
    intro q hq
    rcases List.mem_cons.mp hq with rfl | hq
    · exact hp rfl
    · exact hps q hq
  · rintro ⟨p, ps, rfl, hp, hk⟩
    have hw : ∀ c ∈ joinWith c!"." (p :: ps), isWordChar c = true := by
      clear hk first
      induction ps generalizing p with
      | nil => exact fun c hc => ((hp p (by simp)).chars c hc).1
      | cons q ps ih =>
        intro c hc
        simp only [joinWith, List.mem_append, List.mem_cons, List.not_mem_nil, or_false] at hc
        rcases hc with (hc | rfl) | hc
        · exact ((hp p (by simp)).chars c hc).1
        · exact wordChar_dot
        · exact ih q (fun r hr => hp r (List.mem_cons_of_mem _ hr)) c hc
    have hd : dotted true (joinWith c!"." (p :: ps)) = true :=
      (dotted_parts true _ hw).mpr ⟨p, ps, rfl, fun _ => hp p (by simp), (hp p (by simp)).chars, fun q hq => hp q (by simp [hq])⟩
    refine ⟨?_, hw, ?_⟩
    · intro h0
      rw [h0] at hd
      cases hd
    · rw [isName, hd, first (hp p (by simp))]
      simpa using hk

/-- ASCII letters, digits and underscores are word characters. -/
theorem alnum_word {c : Char} (hc : c.isAlphanum = true ∨ c = '_') : isWordChar c = true ∧ c ≠ '.' ∧ c ≠ '*' := by
  have ascii : ∀ n < 128, ((Char.ofNat n).isAlphanum = true ∨ Char.ofNat n = '_') →
      isWordChar (Char.ofNat n) = true ∧ Char.ofNat n ≠ '.' ∧ Char.ofNat n ≠ '*' := by decide +kernel
  have hlt : c.toNat < 128 := by
    rcases hc with h1 | rfl
    · simp only [Char.isAlphanum, Char.isAlpha, Char.isUpper, Char.isLower, Char.isDigit, Bool.or_eq_true, Bool.and_eq_true,
        decide_eq_true_eq, UInt32.le_iff_toNat_le] at h1
      have e : c.toNat = c.val.toNat := rfl
      rw [e]
      have k1 : ('Z'.val.toNat) = 90 := rfl
      have k2 : ('z'.val.toNat) = 122 := rfl
      have k3 : ('9'.val.toNat) = 57 := rfl
      omega
    · decide
  have := ascii c.toNat hlt
  rw [Char.ofNat_toNat] at this
  exact this hc

/-- **C80, what holds.**  A name of letters, digits and underscores that has no digit first and is no keyword is plain, so by the theorems
above it stands in every statement as the name it is.

Missing for the full claim: the other names `Validate` and the constructors accept, see `C80_false`. -/
theorem C80_plain_partial (s : Str) (hne : s ≠ []) (hd : ∀ c ∈ s.head?, c.isDigit = false)
    (hc : ∀ c ∈ s, c.isAlphanum = true ∨ c = '_') (hk : s.map Char.toUpper ∉ reserved) : PlainName s :=
  (C80_plain_exact s).mpr ⟨s, [], rfl, by simpa using ⟨hne, hd, fun c h => alnum_word (hc c h)⟩, hk⟩

/-- The name of `C80_false`. -/
def evilName : Str := c!"id=$1)OR(id"

/-- `Delete(t).Where(And(Or(id = 3, id = 1), a = 7))`, with `w` for the name of the first column. -/
def exOwned (w : Str) : Res DeleteB := do
  let x ← equalTo w (.other 3)
  let y ← equalTo c!"id" (.other 1)
  let z ← equalTo c!"a" (.other 7)
  .ok ((delete (.str c!"t")).addWhere [andC (orC x [y]) [z]])

/-- **C80 is false** for a name with brackets and an equals sign.  `Validate` and the constructors accept it.  With `id` for the name the
DELETE removes the one row that meets `a = 7` and has id 1 or 3; with the other name, and the same values, the text is another statement,
and it also removes the row with id 3, for which `a = 7` does not hold. -/
theorem C80_false :
    validate evilName = .ok () ∧ field evilName = .ok ⟨evilName, [], []⟩ ∧
    ((exOwned c!"id").bind fun q => q.build) =
      .ok (c!"DELETE FROM t WHERE (id=$1 OR id=$2) AND a=$3", [.other 3, .other 1, .other 7]) ∧
    ((exOwned evilName).bind fun q => q.build) =
      .ok (c!"DELETE FROM t WHERE (id=$1)OR(id=$1 OR id=$2) AND a=$3", [.other 3, .other 1, .other 7]) ∧
    readStmt c!"DELETE FROM t WHERE (id=$1)OR(id=$1 OR id=$2) AND a=$3" = some (.delete c!"t"
      (.or (.atom (.cmp c!"=" c!"id" 1)) (.and (.or (.atom (.cmp c!"=" c!"id" 1)) (.atom (.cmp c!"=" c!"id" 2)))
        (.atom (.cmp c!"=" c!"a" 3))))) ∧
    rowsAfter exEng exDb c!"t" ((exOwned c!"id").bind fun q => q.build) = some 2 ∧
    rowsAfter exEng exDb c!"t" ((exOwned evilName).bind fun q => q.build) = some 1 := by
  refine ⟨by decide, by decide, rfl, rfl, by decide, rfl, rfl⟩

/-- **C80 is false** for keywords, and for names with a comma, a semicolon, the beginning of a comment or a digit first: `Validate` and `Field` accept
them, and no text with them reads back (`C80_base`).  Names of tables are not checked at all. -/
theorem C80_accepted_false :
    (∀ w ∈ [c!"select", c!"a,b", c!"a;b", c!"a--b", c!"a/*b", c!"1", c!"2a"], validate w = .ok () ∧ field w = .ok ⟨w, [], []⟩ ∧ ¬ PlainName w) ∧
    (∀ w ∈ [c!"t;", c!"t,u", c!"t--", c!"where"], ((selectFrom (.str w)).bind fun q => q.build) = .ok (c!"SELECT * FROM " ++ w, []) ∧
      ((delete (.str w)).addWhere [exA7 []]).build = .ok (c!"DELETE FROM " ++ w ++ c!" WHERE a=$1", [.other 7]) ∧ ¬ PlainName w) := by
  refine ⟨fun w hw => ?_, fun w hw => ?_⟩
  · refine ⟨?_, ?_, fun h => ?_⟩
    · revert w; decide
    · revert w; decide
    · have : ¬ ∀ x ∈ [c!"select", c!"a,b", c!"a;b", c!"a--b", c!"a/*b", c!"1", c!"2a"], ¬ ((∀ c ∈ x, isWordChar c = true) ∧ isName x = true) :=
        fun hall => hall w hw h.2
      exact this (by decide)
  · refine ⟨?_, ?_, fun h => ?_⟩
    · simp only [List.mem_cons, List.not_mem_nil, or_false] at hw
      rcases hw with rfl | rfl | rfl | rfl <;> rfl
    · simp only [List.mem_cons, List.not_mem_nil, or_false] at hw
      rcases hw with rfl | rfl | rfl | rfl <;> rfl
    · have : ¬ ∀ x ∈ [c!"t;", c!"t,u", c!"t--", c!"where"], ¬ ((∀ c ∈ x, isWordChar c = true) ∧ isName x = true) :=
        fun hall => hall w hw h.2
      exact this (by decide)

/-! ## Examples -/

/-- The condition of the example. -/
def ownedCond (w : Str) : Cond :=
  .group ⟨lAND, false⟩ [.group ⟨lOR, false⟩ [.group ⟨lOR, false⟩ [.fieldc .eq ⟨lOR, false⟩ ⟨⟨w, [], []⟩, .other 3⟩,
    .fieldc .eq ⟨lOR, false⟩ ⟨⟨c!"id", [], []⟩, .other 1⟩] true, .fieldc .eq ⟨lAND, false⟩ ⟨⟨c!"a", [], []⟩, .other 7⟩] false] false

theorem ownedCond_shaped (w : Str) : (ownedCond w).Shaped := by
  have none : ∀ n, FieldDef.asName ⟨n, [], []⟩ = none := fun n => asName_none.mpr (.inl rfl)
  have leaf : ∀ n b v, ShapedNode (.fieldc .eq b ⟨⟨n, [], []⟩, .other v⟩) := fun n b v => ⟨none n, _, rfl⟩
  refine ⟨⟨by simp, by simp⟩, ⟨⟨by simp, ?_⟩, ⟨⟨by simp, ?_⟩, leaf _ ⟨lOR, false⟩ _, leaf _ ⟨lOR, false⟩ _, trivial⟩, leaf _ ⟨lAND, false⟩ _, trivial⟩,
    trivial⟩
  · intro c hc
    obtain rfl : c = _ := by simpa using hc
    exact .inl rfl
  · intro c hc
    obtain rfl : c = _ := by simpa using hc
    exact .inr rfl

/-- The builders of `C80_false` meet the hypotheses of `C80_delete`; the names of the first are plain, those of the second not. -/
example : ∃ q q', exOwned c!"id" = .ok q ∧ exOwned evilName = .ok q' ∧ q.tableName ≠ [] ∧ q'.tableName ≠ [] ∧
    q.where_.toCond.Shaped ∧ q'.where_.toCond.Shaped ∧ q.where_.toCond.PlainCols ∧ ¬ q'.where_.toCond.PlainCols := by
  refine ⟨_, _, rfl, rfl, by decide, by decide, ownedCond_shaped _, ownedCond_shaped _, ?_, fun h => ?_⟩
  · intro l hl
    have : l.col ∈ [c!"id", c!"id", c!"a"] := List.mem_map_of_mem (f := Leaf.col) hl
    generalize l.col = w at this
    refine C80_plain_partial w ?_ ?_ ?_ ?_ <;> revert w <;> decide
  · have h1 := (h ⟨_, evilName, _⟩ (List.mem_cons_self ..)).2.1
    exact absurd h1 (by decide)

/-- A select of any shape with the bad name among its fields. -/
example : ShapedSelect { exSel with fields := ⟨[⟨evilName, [], []⟩]⟩ } ∧ ¬ PlainNames { exSel with fields := ⟨[⟨evilName, [], []⟩]⟩ } ∧
    ShapedSelect exSel ∧ PlainNames exSel := by
  have sh : exSel.where_.group.toCond.Shaped :=
    ⟨⟨(fun h => by cases h), (fun c hc => by cases hc)⟩, ⟨asName_none.mpr (.inl rfl), _, rfl⟩, trivial⟩
  obtain ⟨hp, _⟩ := exSel_plain
  refine ⟨⟨(fun j hj => by cases hj), .inr sh⟩, fun h => ?_, ⟨(fun j hj => by cases hj), .inr sh⟩,
    ⟨hp.fields, hp.table, (fun j hj => by cases hj), fun hn => readable_cols _ (hp.cond.resolve_left hn)⟩⟩
  have h1 := (h.fields _ (List.mem_cons_self ..)).col.1
  exact absurd h1 (by decide)

end Query
