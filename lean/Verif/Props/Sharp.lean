import Verif.Props.WhereRows
import Verif.Props.Accepted
import Verif.Props.Errors
import Verif.Props.Access
import Verif.Props.Values
/-!
# Exact forms of claims that hold in part

For each claim below a `_false` theorem shows a case in which it fails and a `_partial` theorem one in which it holds.  Here is where
the line runs, and what happens on the other side of it.
-/
namespace Query

/-- **C14, exactly.**  `Or` panics for an IS NULL condition and for no other, whatever the arguments. -/
theorem C14_exact (c : Cond) (more : List Cond) :
    ((∃ p, c.or more = .panic p) ↔ ∃ b fd, c = .null b fd) ∧ ∀ e, c.or more ≠ .err e := by
  by_cases h : ∃ b fd, c = .null b fd
  · obtain ⟨b, fd, rfl⟩ := h
    rw [C14_isNull_or_panics]
    exact ⟨⟨fun _ => ⟨b, fd, rfl⟩, fun _ => ⟨_, rfl⟩⟩, by simp⟩
  · obtain ⟨d, hd⟩ := C14_or_partial c more fun b fd e => h ⟨b, fd, e⟩
    rw [hd]
    exact ⟨⟨fun ⟨p, hp⟩ => (by cases hp), fun h' => absurd h' h⟩, by simp⟩

example : (∃ b fd, Cond.null ⟨lAND, false⟩ ⟨c!"a", [], []⟩ = .null b fd) ∧ ¬ ∃ b fd, la 1 = .null b fd :=
  ⟨⟨_, _, rfl⟩, by rintro ⟨b, fd, h⟩; cases h⟩

/-- **C27, exactly.**  Of the names `Validate` accepts, `Field` takes for what they are exactly those without white space; the others
make it panic or give a definition that prints otherwise. -/
theorem C27_exact (s : Str) (hv : validate s = .ok ()) :
    (∃ fd : FieldDef, field s = .ok fd ∧ fd.renderSpec = s) ↔ NoSpace s := by
  constructor
  · rintro ⟨fd, hf, hr⟩
    have hsp := ((C27_validate s).mp hv).2.2.2
    obtain ⟨w, hw, hn⟩ := (C24_exact s fd).mp (((C24_field_panics s).1 fd).mp hf)
    rw [renderSpec_shape] at hr
    have ha : ¬ (fd.alias ≠ [] ∧ (fd.alias ≠ fd.fieldName ∨ fd.tableName ≠ [])) := by
      intro h
      rw [if_pos h] at hr
      exact hsp (by rw [← hr]; simp)
    rw [if_neg ha, List.append_nil] at hr
    have hww : w ≠ [] ∧ NoSpace w := by
      rcases hw with ⟨h1, _⟩ | ⟨as, h1, _⟩
      · exact words_mem h1 w (by simp)
      · exact words_mem h1 w (by simp)
    have hns : NoSpace (if fd.tableName = [] then fd.fieldName else fd.tableName ++ '.' :: fd.fieldName) := by
      intro c hc
      rcases hn with ⟨_, h2, h3⟩ | ⟨_, _, h4 | ⟨rest, h4⟩⟩
      · rw [if_pos h2, h3] at hc
        exact hww.2 c hc
      · refine hww.2 c ?_
        rw [h4]
        split at hc
        · rename_i h0; simp [h0, hc]
        · exact hc
      · refine hww.2 c ?_
        rw [h4]
        split at hc
        · simp [hc]
        · simp only [List.mem_append, List.mem_cons] at hc ⊢
          rcases hc with hc | hc | hc
          · exact .inl hc
          · exact .inr (.inl hc)
          · exact .inr (.inr (.inl hc))
    rw [hr] at hns
    exact hns
  · intro hs
    obtain ⟨fd, h1, h2, _⟩ := C27_safe_partial s hv hs
    exact ⟨fd, h2, h1⟩

/-- Validated, with tabs: one panics, one is taken as a name with an alias, one loses its tab. -/
example : validate c!"a\tb" = .ok () ∧ (∃ p, field c!"a\tb" = .panic p) ∧
    validate c!"a\tAS\tb" = .ok () ∧ field c!"a\tAS\tb" = .ok ⟨c!"a", [], c!"b"⟩ ∧
    validate c!"a\t" = .ok () ∧ field c!"a\t" = .ok ⟨c!"a", [], []⟩ :=
  ⟨by decide, ⟨.fromErr .badField, by decide⟩, by decide, by decide, by decide, by decide⟩

/-- An entry of a map that yields a field value: a valid name that `Field` takes. -/
def GoodEntry (e : Str × Val) (fv : FieldValue) : Prop :=
  validate e.1 = .ok () ∧ fieldOrError e.1 = .ok fv.fd ∧ fv.value = e.2

/-- The first of the entries, in the order visited, that yields none. -/
def FirstBad (es : List (Str × Val)) (e : Str × Val) : Prop :=
  ∃ pre post, es = pre ++ e :: post ∧ (∀ x ∈ pre, ∃ fv, GoodEntry x fv) ∧ ¬ ∃ fv, GoodEntry e fv

theorem mapEntry_cases (e : Str × Val) :
    (∃ fv, mapEntry e = .ok fv ∧ GoodEntry e fv) ∨
    ((¬ ∃ fv, GoodEntry e fv) ∧ validate e.1 ≠ .ok () ∧ mapEntry e = .err .badMapKey) ∨
    ((¬ ∃ fv, GoodEntry e fv) ∧ validate e.1 = .ok () ∧ ∃ p, mapEntry e = .panic p) := by
  unfold mapEntry
  cases hv : validate e.1 with
  | ok u =>
    have hp := C24_field_panics e.1
    unfold newFieldValue
    cases hf : field e.1 with
    | ok fd =>
      exact .inl ⟨⟨fd, e.2⟩, rfl, hv, (hp.1 fd).mp hf, rfl⟩
    | err x => exact absurd hf (hp.2.2 x)
    | panic p =>
      obtain ⟨x, hx⟩ := hp.2.1.mp ⟨p, hf⟩
      refine .inr (.inr ⟨?_, rfl, p, rfl⟩)
      rintro ⟨fv, _, h2, _⟩
      rw [hx] at h2; cases h2
  | err x =>
    refine .inr (.inl ⟨?_, by simp, rfl⟩)
    rintro ⟨fv, h1, _⟩
    rw [hv] at h1; cases h1
  | panic p =>
    exfalso
    revert hv
    unfold validate
    repeat' split
    all_goals simp

/-- **C29, exactly.**  With every entry a valid name that `Field` takes there is one field value for each, in the order visited.
Otherwise the first other entry decides: an error if its name is not valid, a panic if it is. -/
theorem C29_exact (es : List (Str × Val)) :
    (∀ fvs, mapFieldValues es = .ok fvs ↔
      fvs.length = es.length ∧ ∀ (i : Nat) (e : Str × Val), es[i]? = some e → ∃ fv, fvs[i]? = some fv ∧ GoodEntry e fv) ∧
    (∀ x, mapFieldValues es = .err x ↔ x = .badMapKey ∧ ∃ e, FirstBad es e ∧ validate e.1 ≠ .ok ()) ∧
    ((∃ p, mapFieldValues es = .panic p) ↔ ∃ e, FirstBad es e ∧ validate e.1 = .ok ()) := by
  have nil_bad : ∀ e, ¬ FirstBad [] e := by
    rintro e ⟨pre, post, h, _⟩
    cases pre <;> simp at h
  have cons_bad : ∀ (a : Str × Val) es e, FirstBad (a :: es) e ↔
      (a = e ∧ ¬ ∃ fv, GoodEntry a fv) ∨ ((∃ fv, GoodEntry a fv) ∧ FirstBad es e) := by
    intro a es e
    constructor
    · rintro ⟨pre, post, h, h1, h2⟩
      cases pre with
      | nil =>
        simp only [List.nil_append, List.cons.injEq] at h
        exact .inl ⟨h.1, h.1 ▸ h2⟩
      | cons b pre =>
        simp only [List.cons_append, List.cons.injEq] at h
        exact .inr ⟨h.1 ▸ h1 b (by simp), pre, post, h.2, fun x hx => h1 x (by simp [hx]), h2⟩
    · rintro (⟨rfl, h⟩ | ⟨h, pre, post, rfl, h1, h2⟩)
      · exact ⟨[], es, rfl, by simp, h⟩
      · refine ⟨a :: pre, post, rfl, ?_, h2⟩
        intro x hx
        simp only [List.mem_cons] at hx
        rcases hx with rfl | hx
        · exact h
        · exact h1 x hx
  have uniq : ∀ {e : Str × Val} {f g : FieldValue}, GoodEntry e f → GoodEntry e g → f = g := by
    rintro e ⟨f1, f2⟩ ⟨g1, g2⟩ ⟨_, h1, h2⟩ ⟨_, h3, h4⟩
    simp only at h1 h2 h3 h4
    rw [h1] at h3
    cases h3
    rw [h2, h4]
  unfold mapFieldValues
  induction es with
  | nil =>
    refine ⟨fun fvs => ?_, fun x => ?_, ?_⟩
    · simp only [Res.mapL, Res.ok.injEq, List.length_nil, List.length_eq_zero_iff]
      exact ⟨fun h => ⟨h.symm, fun i e he => by simp at he⟩, fun h => h.1.symm⟩
    · exact ⟨fun h => (by cases h), fun ⟨_, e, h, _⟩ => absurd h (nil_bad e)⟩
    · exact ⟨fun ⟨p, h⟩ => (by cases h), fun ⟨e, h, _⟩ => absurd h (nil_bad e)⟩
  | cons a es ih =>
    obtain ⟨ih1, ih2, ih3⟩ := ih
    simp only [Res.mapL]
    rcases mapEntry_cases a with ⟨fv, h1, h2⟩ | ⟨h1, h2, h3⟩ | ⟨h1, h2, p, h3⟩
    · rw [h1]
      refine ⟨fun fvs => ?_, fun x => ?_, ?_⟩
      · rw [Res.bind_eq_ok]
        constructor
        · rintro ⟨fv', h, h'⟩
          cases h
          obtain ⟨l, hl, he⟩ := Res.bind_eq_ok.mp h'
          cases he
          obtain ⟨k1, k2⟩ := (ih1 l).mp hl
          refine ⟨by simp [k1], fun i e hi => ?_⟩
          cases i with
          | zero =>
            simp only [List.getElem?_cons_zero, Option.some.injEq] at hi
            exact ⟨fv, rfl, hi ▸ h2⟩
          | succ i => exact k2 i e hi
        · rintro ⟨k1, k2⟩
          refine ⟨fv, rfl, ?_⟩
          cases fvs with
          | nil => simp at k1
          | cons f fvs =>
            obtain ⟨f', e1, e2⟩ := k2 0 a rfl
            simp only [List.getElem?_cons_zero, Option.some.injEq] at e1
            subst e1
            rw [uniq h2 e2, (ih1 fvs).mpr ⟨by simpa using k1, fun i e hi => k2 (i + 1) e hi⟩]
            rfl
      · have : ((Res.ok fv).bind fun y => (Res.mapL mapEntry es).bind fun ys => Res.ok (y :: ys)) = .err x ↔
            Res.mapL mapEntry es = .err x := by
          cases Res.mapL mapEntry es <;> simp
        rw [this, ih2 x]
        refine and_congr Iff.rfl (exists_congr fun e => and_congr ?_ Iff.rfl)
        rw [cons_bad]
        exact ⟨fun h => .inr ⟨⟨fv, h2⟩, h⟩, fun h => h.elim (fun h => absurd ⟨fv, h2⟩ h.2) (·.2)⟩
      · have : (∃ p, ((Res.ok fv).bind fun y => (Res.mapL mapEntry es).bind fun ys => Res.ok (y :: ys)) = .panic p) ↔
            ∃ p, Res.mapL mapEntry es = .panic p := by
          cases Res.mapL mapEntry es <;> simp
        rw [this, ih3]
        refine exists_congr fun e => and_congr ?_ Iff.rfl
        rw [cons_bad]
        exact ⟨fun h => .inr ⟨⟨fv, h2⟩, h⟩, fun h => h.elim (fun h => absurd ⟨fv, h2⟩ h.2) (·.2)⟩
    · rw [h3]
      refine ⟨fun fvs => ⟨fun h => (by cases h), fun ⟨_, k⟩ => ?_⟩, fun x => ⟨fun h => ?_, fun h => ?_⟩, ⟨fun ⟨p, h⟩ => (by cases h), ?_⟩⟩
      · obtain ⟨f, _, h⟩ := k 0 a rfl
        exact absurd ⟨f, h⟩ h1
      · simp only [Res.bind_err, Res.err.injEq] at h
        exact ⟨h.symm, a, (cons_bad _ _ _).mpr (.inl ⟨rfl, h1⟩), h2⟩
      · rw [h.1]; rfl
      · rintro ⟨e, h, hv⟩
        rcases (cons_bad _ _ _).mp h with ⟨rfl, _⟩ | ⟨h, _⟩
        · exact absurd hv h2
        · exact absurd h h1
    · rw [h3]
      refine ⟨fun fvs => ⟨fun h => (by cases h), fun ⟨_, k⟩ => ?_⟩, fun x => ⟨fun h => (by cases h), ?_⟩, ⟨fun _ => ?_, fun _ => ⟨p, rfl⟩⟩⟩
      · obtain ⟨f, _, h⟩ := k 0 a rfl
        exact absurd ⟨f, h⟩ h1
      · rintro ⟨_, e, h, hv⟩
        rcases (cons_bad _ _ _).mp h with ⟨rfl, _⟩ | ⟨h, _⟩
        · exact absurd h2 hv
        · exact absurd h h1
      · exact ⟨a, (cons_bad _ _ _).mpr (.inl ⟨rfl, h1⟩), h2⟩

/-- The second map of `C29_false`: its first bad entry is the one with the tab. -/
example : FirstBad [(c!"a\tb", .nil), (c!"c d", .nil)] (c!"a\tb", .nil) := by
  refine ⟨[], _, rfl, by simp, ?_⟩
  rintro ⟨fv, _, h, _⟩
  have : fieldOrError c!"a\tb" = .err .badField := by decide
  rw [this] at h
  cases h

/-- **C32, exactly.**  For every field and every value, `vs` being what its `Values()` returns: the condition has one placeholder for
each of `vs` and binds them in order; it is an SQL expression exactly when there is one at least, and then it means membership. -/
theorem C32_exact (fn : Str) (v : Val) (fd : FieldDef) (vs : List Val) (hf : field fn = .ok fd) (hd : ColDef fd)
    (ha : fd.asName = none) (hv : (⟨fd, v⟩ : FieldValue).values = .ok vs) :
    ∃ c, inC fn v = .ok c ∧ c.values = .ok vs ∧
      (∀ k, c.render k = .ok (fd.col ++ c!" IN (" ++
        joinWith c!"," ((numbersFrom k vs.length).map fun i => '$' :: itoa i) ++ c!")")) ∧
      (∀ k, (∃ s e, c.render k = .ok s ∧ Reads s e) ↔ vs ≠ []) ∧
      (vs ≠ [] → ∀ row, TextMeans c row (anyOf (vs.map fun y => row.cmp c!"=" fd.col y))) := by
  have hp : PlainField fd := (plainField_iff hd).mpr ha
  have hc : inC fn v = .ok (.fieldc .inn (newBase lAND false) ⟨fd, v⟩) := by simp [inC, mkField, newFieldValue, hf]
  have hren : ∀ k, (Cond.fieldc .inn (newBase lAND false) ⟨fd, v⟩).render k = .ok (fd.col ++ c!" IN (" ++
        joinWith c!"," ((numbersFrom k vs.length).map fun i => '$' :: itoa i) ++ c!")") := by
    intro k
    simp only [Cond.render, fieldcRender, hv, Res.bind_ok, renderIn, plain_renderSpec hp, inPlaceholders_eq, newBase,
      joinWith, cmpSym]
    simp
  refine ⟨_, hc, hv, hren, fun k => ?_, fun hne row => ?_⟩
  · obtain ⟨s, h1, h2⟩ := C66_condition (Cond.fieldc .inn (newBase lAND false) ⟨fd, v⟩) k ⟨hd, vs, hv⟩
    have h3 : (Cond.fieldc .inn (newBase lAND false) ⟨fd, v⟩).Every SoundNode ↔ vs ≠ [] := by
      show fd.asName = none ∧ (⟨fd, v⟩ : FieldValue).values ≠ .ok [] ↔ vs ≠ []
      rw [hv]
      simp [ha]
    rw [← h3, ← h2]
    exact ⟨fun ⟨s', e, k1, k2⟩ => ⟨e, by rw [h1] at k1; cases k1; exact k2⟩, fun ⟨e, k⟩ => ⟨s, e, h1, k⟩⟩
  · obtain ⟨x, xs, rfl⟩ := List.exists_cons_of_ne_nil hne
    obtain ⟨c, k1, _, _, k4⟩ := C32_in fn v fd x xs hf hp hv
    rw [hc] at k1
    cases k1
    exact (k4 row).1

example : field c!"t.id" = .ok ⟨c!"id", c!"t", []⟩ ∧ (⟨c!"id", c!"t", []⟩ : FieldDef).asName = none ∧
    (⟨⟨c!"id", c!"t", []⟩, .strs []⟩ : FieldValue).values = .ok [] ∧
    (⟨⟨c!"id", c!"t", []⟩, .strs [c!"x", c!"y"]⟩ : FieldValue).values = .ok [.str c!"x", .str c!"y"] :=
  ⟨by decide, by decide, rfl, rfl⟩

/-- **C33, exactly.**  The text of every condition on one field, in both dialects: possibly `NOT `, the column, an AS clause exactly if
the field has an alias other than its own bare name, and a part that does not depend on the field. -/
theorem C33_exact (T : FieldDef → Nat → Res Str) (h : LeafText T) :
    ∃ (pre : Str) (post : Nat → Res Str), pre ∈ [[], c!"NOT "] ∧
      ∀ (fd : FieldDef) n, T fd n = (post n).bind fun p => .ok (pre ++ fd.column ++
        (if fd.alias ≠ [] ∧ (fd.alias ≠ fd.fieldName ∨ fd.tableName ≠ []) then c!" AS " ++ fd.alias else []) ++ p) := by
  obtain ⟨pre, post, h1, h2⟩ := leafText_columnText h
  refine ⟨pre, post, h1, fun fd n => ?_⟩
  rw [h2, renderSpec_column]
  simp

/-- **C50, exactly.**  `Value` of a definition made by the API panics if the definition has no name, and otherwise keeps name and table
and drops the alias. -/
theorem C50_exact (f : FieldDef) (hf : f.Api) (v : Val) :
    ((∃ p, f.value v = .panic p) ↔ f.fieldName = []) ∧
    (∀ r, f.value v = .ok r ↔ f.fieldName ≠ [] ∧ r = ⟨⟨f.fieldName, f.tableName, []⟩, v⟩) := by
  by_cases hn : f.fieldName = []
  · have : f.value v = .panic (.fromErr .badField) := by
      unfold FieldDef.value
      rw [hn]
      rfl
    rw [this]
    simp [hn]
  · rw [C50_value_partial f hf hn v]
    simp [hn, eq_comm]

example : (⟨[], c!"a", []⟩ : FieldDef).Api := .parse (s := c!"a.") (by decide)

/-- A text has one meaning. -/
theorem means_once {c : Cond} {row : Row} {x y : Tri} (h : TextMeans c row x) (h' : TextMeans c row y) : x = y := by
  obtain ⟨s, vs, e, h1, h2, h3, h4⟩ := h 0
  obtain ⟨s', vs', e', h1', h2', h3', h4'⟩ := h' 0
  rw [h1] at h1'
  cases h1'
  rw [h2] at h2'
  cases h2'
  have := reader_finds h3
  rw [reader_finds h3'] at this
  cases this
  rw [← h4, ← h4']

/-- **C56, exactly.**  Conditions joined by AND or OR mean their factors outside brackets, the first of each joined by that word, AND
binding first; for OR this is that one of them holds, for AND that all hold if none has an OR outside brackets. -/
theorem C56_exact (o : Bool) (cs : List Cond) (hn : cs ≠ []) (hc : ∀ c ∈ cs, c.Readable) (row : Row) :
    ∃ d, joinAll (if o then c!"OR" else c!"AND") (cs.map some) = .ok d ∧
      ∀ x, TextMeans d row x ↔ x = joinTri (joinedBy row o cs) := by
  have hj : (if o then c!"OR" else c!"AND") = lAND ∨ (if o then c!"OR" else c!"AND") = lOR := by cases o <;> simp [lAND, lOR]
  have hs : (newGroup (if o then c!"OR" else c!"AND") cs).toCond.textSem row = joinTri (joinedBy row o cs) := by
    rw [toCond_sem row _ (by rfl)]
    congr 1
    exact sflatL_joined row _ o (by cases o <;> rfl) cs
  obtain ⟨_, d, h1, h2⟩ := joinAll_text _ hj cs hn row (joinTri (joinedBy row o cs)) hc hs (by
    rintro c rfl
    unfold Cond.textSem joinedBy
    simp)
  exact ⟨d, h1, fun x => ⟨fun h => means_once h h2, fun h => h ▸ h2⟩⟩

/-- The conditions of `C56_and_false`: the factors of `a OR b`, the first joined by AND, and `c`. -/
example : joinedBy (exRow [c!"a"]) false [orC (la 1) [lb 2], lc 3] = [(false, .t), (true, .f), (false, .f)] := rfl

/-! ## C60: counting a field -/

/-- **C60, exactly**, for a field with or without alias: `Count(f)` counts the rows that have a value in the column its key names,
which is its alias if it has one (`C60_alias_false`); the statement fails if no table has that column. -/
theorem C60_field_exact (eng : Engine) (db : Db) (q : BaseSelect) (h : PlainSelect q) (hs : q.InScope db) (y : Env → Tri)
    (hy : ∀ env ∈ q.tables eng db, q.Says (eng.row env) (y env)) (f : Str) (fs : List Str) (fd : FieldDef)
    (hf : field f = .ok fd) (hp : CountDef fd) :
    ∃ c csql cparams, count q (f :: fs) = .ok c ∧ c.build = .ok (csql, cparams) ∧
      runQuery eng db csql cparams =
        if fd.key = star ∨ (q.scope db).has fd.key = true then
          some [[(c!"count", some (.uint (countRows fd.key (q.matching eng db y))))]]
        else none := by
  obtain ⟨csql, cparams, w, c1, c2, c3⟩ := C22_count_partial ⟨q, fd⟩ h hp
  refine ⟨⟨q, fd⟩, csql, cparams, by simp [count, hf], c1, ?_⟩
  simp only [runQuery, c2]
  split
  · rename_i hk
    exact run_count eng db cparams q w _ y hs.tables hs.cond c3 hy hk
  · rename_i hk
    show SelectStmt.run eng db cparams _ = none
    unfold SelectStmt.run
    rw [if_neg]
    intro hok
    unfold SelectStmt.ok at hok
    simp only [Bool.and_eq_true, List.all_cons, List.all_nil, SelItem.ok, Bool.or_eq_true, beq_iff_eq] at hok
    exact hk hok.1.1.2.1

/-! ## C61, C62: statements derived from a select with joins, aliases or limits -/

theorem condRead_cols_iff {c : Cond} {params : List Val} {e : BExp} {sc : Scope} (h : CondRead c params e) :
    e.cols.all (fun w => sc.has (colRef w)) = c.leaves.all fun l => sc.has (colRef l.col) := by
  rw [bexp_cols (bound 0 params), h.leaves, List.all_map]
  rfl

/-- The condition names only columns of the table: what a DELETE or UPDATE of it can use. -/
def Cond.onlyOf (db : Db) (t : Str) (c : Cond) : Bool := c.leaves.all fun l => Scope.has [(t, (db t).cols)] (colRef l.col)

/-- **C61, exactly**, derived from a select with any joins, any table alias and any limits: the DELETE fails if its condition names
a column by an alias or of a joined table; otherwise it removes exactly the rows of the base table on which the condition holds, without
regard to joins and limits. -/
theorem C61_derived_exact (eng : Engine) (db : Db) (b : BaseSelect) (hb : b.Api) (h : PlainSelect b)
    (hc : b.where_.conditions ≠ []) (y : Env → Tri) (hy : ∀ env, b.Says (eng.row env) (y env)) :
    let t := b.baseTable.name
    ∃ dsql dparams, b.delete.build = .ok (dsql, dparams) ∧
      (∀ s : SelectSingle, s.base = b → s.delete.build = .ok (dsql, dparams)) ∧
      (∀ m : SelectMany, m.base = b → m.delete.build = .ok (dsql, dparams)) ∧
      runStmt eng db dsql dparams =
        if b.where_.group.toCond.onlyOf db t then
          some (db.set t ((db t).withRows ((db t).rows.filter fun r => !(y ((db t).env t r) == .t))))
        else none := by
  intro t
  have hpw := plainWhere_api hb
  obtain ⟨j, hd⟩ := derived_where _ hpw
  have hr : b.where_.group.toCond.Readable := h.cond.resolve_left hc
  have hw : b.delete.where_ = { b.where_.group with base := ⟨j, false⟩ } := hd
  obtain ⟨k1, k2, k3⟩ := toCond_base b.where_.group j b.delete.where_.toCond (by rw [hw]) hpw.1
  have hy' : ∀ env, TextMeans b.where_.group.toCond (eng.row env) (y env) := by
    intro env
    have := hy env
    rwa [BaseSelect.Says, if_neg hc] at this
  obtain ⟨sql, params, e, h1, h2, h3⟩ := C46_delete_partial b.delete h.table.name (k1 hr)
  refine ⟨sql, params, h1, fun s hs => by subst hs; exact h1, fun m hm => by subst hm; exact h1, ?_⟩
  have h2' : readStmt sql = some (.delete t e) := h2
  simp only [runStmt, h2', Stmt.run]
  rw [condRead_cols_iff h3, k2]
  show (if Cond.onlyOf db t b.where_.group.toCond = true then _ else _) = _
  split
  · congr 3
    refine List.filter_congr fun r _ => ?_
    rw [holdsOn, h3.means _ _ (k3 _ _ (hy' _))]
  · rfl

/-- **C62, exactly**, derived from a select with any joins, any table alias and any limits. -/
theorem C62_derived_exact (eng : Engine) (db : Db) (b : BaseSelect) (hb : b.Api) (h : PlainSelect b)
    (hc : b.where_.conditions ≠ []) (y : Env → Tri) (hy : ∀ env, b.Says (eng.row env) (y env)) (sets : List FieldValue)
    (vss : List (List Val)) (hne : sets ≠ []) (hf : ∀ fv ∈ sets, PlainIdent fv.fd.fieldName)
    (hv : sets.map FieldValue.values = vss.map .ok) (hev : [] ∉ vss) :
    let t := b.baseTable.name
    let cols := sets.map fun fv => fv.fd.fieldName
    ∃ usql uparams, (b.update sets).build = .ok (usql, uparams) ∧
      (∀ s : SelectSingle, s.base = b → (s.update sets).build = .ok (usql, uparams)) ∧
      (∀ m : SelectMany, m.base = b → (m.update sets).build = .ok (usql, uparams)) ∧
      runStmt eng db usql uparams =
        if cols.Nodup ∧ (∀ c ∈ cols, c ∈ (db t).cols) ∧ b.where_.group.toCond.onlyOf db t = true then
          some (db.set t ((db t).withRows ((db t).rows.map fun r =>
            if y ((db t).env t r) = .t then setCols cols (vss.filterMap List.head?) r else r)))
        else none := by
  intro t cols
  have hpw := plainWhere_api hb
  obtain ⟨j, hd⟩ := derived_where _ hpw
  have hr : b.where_.group.toCond.Readable := h.cond.resolve_left hc
  have hw : (b.update sets).where_ = { b.where_.group with base := ⟨j, false⟩ } := hd
  have hsv : (b.update sets).setValues = sets := rfl
  obtain ⟨k1, k2, k3⟩ := toCond_base b.where_.group j (b.update sets).where_.toCond (by rw [hw]) hpw.1
  have hy' : ∀ env, TextMeans b.where_.group.toCond (eng.row env) (y env) := by
    intro env
    have := hy env
    rwa [BaseSelect.Says, if_neg hc] at this
  obtain ⟨sql, params, ss, e, h1, h2, h3, h4, h5⟩ :=
    (C45_exact (b.update sets) vss (by rw [hsv]; exact hne) h.table.name (by rw [hsv]; exact hf) (by rw [hsv]; exact hv) (k1 hr)).2 hev
  refine ⟨sql, params, h1, fun s hs => by subst hs; exact h1, fun m hm => by subst hm; exact h1, ?_⟩
  have h2' : readStmt sql = some (.update t ss e) := h2
  have h3' : ss.map (·.1) = cols := h3
  simp only [runStmt, h2', Stmt.run]
  rw [condRead_cols_iff h5, k2]
  have hmem : (∀ s ∈ ss, s.1 ∈ (db t).cols) ↔ ∀ c ∈ cols, c ∈ (db t).cols := by
    rw [← h3']
    simp only [List.mem_map, forall_exists_index, and_imp, forall_apply_eq_imp_iff₂]
  rw [h3']
  by_cases hg : cols.Nodup ∧ (∀ c ∈ cols, c ∈ (db t).cols) ∧ b.where_.group.toCond.onlyOf db t = true
  · rw [if_pos hg, if_pos ⟨hg.1, hmem.mpr hg.2.1, hg.2.2⟩]
    congr 3
    refine List.map_congr_left fun r _ => ?_
    have hset : (ss.map fun s => (s.1, cellOf (bound 0 params s.2))) = cols.zip ((vss.filterMap List.head?).map cellOf) := by
      rw [← h3', ← h4, List.map_map, List.zip_map']
      rfl
    rw [hset, holdsOn, h5.means _ _ (k3 _ _ (hy' _))]
    simp only [beq_iff_eq]
    rfl
  · rw [if_neg hg, if_neg fun h => hg ⟨h.1, hmem.mp h.2.1, h.2.2⟩]

/-- The selects of `C61_join_false` and `C61_alias_false`: the first condition can be used by a DELETE, the second not. -/
example : (exA7 []).onlyOf exDb c!"t" = true ∧ (exA7 c!"x").onlyOf exDb c!"t" = false := by decide

/-! ## C69: which panics carry errors -/

/-- **C69, exactly.**  `ASC` and `DESC` panic with something that is no error of the package exactly for names that are not valid;
`OrderBy` so with a known direction; `NewFields` exactly if the first argument that is not fine is of another type. -/
theorem C69_exact (fn : Str) (dirs : List Str) (args : List FieldArg) :
    (∀ v, sortPanic fn = some v → (v.isQuery = false ↔ validate fn ≠ .ok ())) ∧
    (∀ v, orderByPanic fn dirs = some v → (v.isQuery = false ↔ validate fn ≠ .ok () ∧
      ∀ d, dirs.head? = some d → d = c!"ASC" ∨ d = c!"DESC")) ∧
    (∀ v, newFieldsPanic args = some v → (v.isQuery = false ↔
      ∃ pre post, args = pre ++ none :: post ∧ ∃ f, newFields pre = .ok f)) := by
  have hsort : ∀ v, sortPanic fn = some v → (v.isQuery = false ↔ validate fn ≠ .ok ()) := by
    intro v hv
    have h1 := (C68_validate fn).1
    unfold sortPanic at hv
    cases he : validateE fn with
    | some e =>
      rw [he] at hv
      obtain rfl := Option.some.inj hv
      simp only [PanicVal.isQuery, true_iff]
      intro h
      rw [h1.mpr h] at he
      cases he
    | none =>
      rw [he] at hv
      obtain ⟨e, rfl, h2, _⟩ := (C69_field_partial fn).2 v hv
      have := h2.is
      simp [PanicVal.isQuery, this, h1.mp he]
  refine ⟨hsort, fun v hv => ?_, ?_⟩
  · unfold orderByPanic at hv
    cases dirs with
    | nil => simpa using hsort v hv
    | cons d ds =>
      simp only at hv
      split at hv
      · rename_i hd
        rw [hsort v hv]
        have : ∀ d', (d :: ds).head? = some d' → d' = c!"ASC" ∨ d' = c!"DESC" := by
          intro d' h'
          simp only [List.head?_cons, Option.some.injEq] at h'
          exact h' ▸ hd
        exact ⟨fun h => ⟨h, this⟩, (·.1)⟩
      · rename_i hd
        obtain rfl := Option.some.inj hv
        constructor
        · intro h; cases h
        · rintro ⟨_, h⟩
          exact absurd (h d rfl) hd
  · have hnone : ∀ pre, (∃ f, newFields pre = .ok f) ↔ newFieldsPanic pre = none := by
      intro pre
      have h1 := (C69_newFields_partial pre).1
      have h2 : ∀ l : List FieldArg, ∀ e, Res.mapL newFieldsArg l ≠ .err e := by
        intro l
        induction l with
        | nil => intro e h; cases h
        | cons a l ih =>
          intro e h
          simp only [Res.mapL] at h
          have ha : ∀ e, newFieldsArg a ≠ .err e := by
            intro e
            match a with
            | none => simp [newFieldsArg]
            | some (.defn f) => simp [newFieldsArg]
            | some (.name s) => exact (C24_field_panics s).2.2 e
            | some (.str s) => exact (C24_field_panics s).2.2 e
          cases hx : newFieldsArg a with
          | ok f =>
            rw [hx] at h
            cases hy : Res.mapL newFieldsArg l with
            | ok fs => rw [hy] at h; cases h
            | err e' => exact ih e' hy
            | panic p => rw [hy] at h; cases h
          | err e' => exact ha e' hx
          | panic p => rw [hx] at h; cases h
      cases hp : newFieldsPanic pre with
      | none =>
        rw [hp] at h1
        simp only [iff_true]
        unfold newFields at h1 ⊢
        cases hx : Res.mapL newFieldsArg pre with
        | ok fs => exact ⟨⟨fs⟩, rfl⟩
        | err e => exact absurd hx (h2 pre e)
        | panic p => rw [hx] at h1; exact absurd rfl (h1.mp ⟨p, rfl⟩)
      | some v =>
        rw [hp] at h1
        obtain ⟨p, hq⟩ := h1.mpr (by simp)
        rw [hq]
        simp
    simp only [hnone]
    have step : ∀ (a : FieldArg) (args : List FieldArg) (p : Option PanicVal), a ≠ none →
        (∀ w, p = some w → w.isQuery = true) → (∀ l, newFieldsPanic (a :: l) = p.or (newFieldsPanic l)) →
        (∀ v, newFieldsPanic args = some v → (v.isQuery = false ↔ ∃ pre post, args = pre ++ none :: post ∧ newFieldsPanic pre = none)) →
        ∀ v, newFieldsPanic (a :: args) = some v →
          (v.isQuery = false ↔ ∃ pre post, a :: args = pre ++ none :: post ∧ newFieldsPanic pre = none) := by
      intro a args p ha hq hl ih v hv
      have hpre : ∀ pre post, a :: args = pre ++ none :: post → ∃ pre', pre = a :: pre' ∧ args = pre' ++ none :: post := by
        intro pre post h
        cases pre with
        | nil =>
          simp only [List.nil_append, List.cons.injEq] at h
          exact absurd h.1 ha
        | cons b pre =>
          simp only [List.cons_append, List.cons.injEq] at h
          exact ⟨pre, by rw [h.1], h.2⟩
      rw [hl] at hv
      cases p with
      | some w =>
        simp only [Option.some_or, Option.some.injEq] at hv
        subst hv
        constructor
        · intro h; rw [hq w rfl] at h; cases h
        · rintro ⟨pre, post, h1, h2⟩
          obtain ⟨pre', rfl, _⟩ := hpre pre post h1
          rw [hl] at h2
          simp at h2
      | none =>
        simp only [Option.none_or] at hv
        rw [ih v hv]
        constructor
        · rintro ⟨pre, post, h1, h2⟩
          exact ⟨a :: pre, post, by rw [h1]; rfl, by rw [hl]; simpa using h2⟩
        · rintro ⟨pre, post, h1, h2⟩
          obtain ⟨pre', rfl, h3⟩ := hpre pre post h1
          rw [hl] at h2
          exact ⟨pre', post, h3, by simpa using h2⟩
    have hfield : ∀ s w, fieldPanic s = some w → w.isQuery = true := by
      intro s w h
      obtain ⟨e, rfl, h2, _⟩ := (C69_field_partial s).2 w h
      exact h2.is
    induction args with
    | nil => intro v hv; cases hv
    | cons a args ih =>
      match a with
      | none =>
        intro v hv
        obtain rfl := Option.some.inj hv
        exact ⟨fun _ => ⟨[], args, rfl, rfl⟩, fun _ => rfl⟩
      | some (.defn f) => exact step _ args none (by simp) (by simp) (fun l => rfl) ih
      | some (.name s) => exact step _ args (fieldPanic s) (by simp) (hfield s) (fun l => rfl) ih
      | some (.str s) => exact step _ args (fieldPanic s) (by simp) (hfield s) (fun l => rfl) ih

/-- The arguments of `C69_false`, with a field before. -/
example : newFieldsPanic [some (.str c!"a"), none, some (.str c!"b c")] =
    some (.text c!"only string, FieldName or FieldDefinition types allowed") ∧
    sortPanic c!"a b" = some (.text c!"invalid field name: query: field name contains space character") ∧
    newFieldsPanic [some (.str c!"b c"), none] = fieldPanic c!"b c" := by
  refine ⟨by decide, by decide, by decide⟩

end Query
