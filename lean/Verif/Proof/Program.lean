import Verif.Spec.Program
import Verif.Props.Exec
import Verif.Props.Values
import Verif.Props.Ident
import Verif.Props.WhereRows
/-!
# Programs: lemmas
-/
namespace Query

/-! ## Names -/

theorem plain_noSpace {w : Str} (h : PlainName w) : NoSpace w := by
  intro c hc
  have := h.2.1 c hc
  unfold isWordChar at this
  simp only [Bool.and_eq_true, Bool.not_eq_true'] at this
  exact this.1.1.1.1.1.1

theorem Ident.ne {w : Str} (h : Ident w) : w ≠ [] := h.plain.1.1
theorem Ident.dot {w : Str} (h : Ident w) : '.' ∉ w := h.plain.2
theorem Ident.space {w : Str} (h : Ident w) : NoSpace w := plain_noSpace h.plain.1

/-- The field a column text parses to. -/
def ColRef.fd (c : ColRef) : FieldDef := ⟨c.name, c.table.getD [], []⟩

theorem ColRef.OK.item {c : ColRef} (h : c.OK) : c.OKItem := ⟨.inl h.name, h.table⟩

theorem ColRef.OKItem.ne {c : ColRef} (h : c.OKItem) : c.name ≠ [] := by
  rcases h.name with e | e
  · exact e.ne
  · rw [e]; decide

theorem ColRef.OKItem.dot {c : ColRef} (h : c.OKItem) : '.' ∉ c.name := by
  rcases h.name with e | e
  · exact e.dot
  · rw [e]; decide

theorem ColRef.OKItem.space {c : ColRef} (h : c.OKItem) : NoSpace c.name := by
  rcases h.name with e | e
  · exact e.space
  · rw [e]; unfold NoSpace; decide

theorem item_qualified {c : ColRef} (h : c.OKItem) : Qualified c.text (c.table.getD []) c.name := by
  obtain ⟨t, n⟩ := c
  refine ⟨h.ne, h.dot, ?_⟩
  cases t with
  | none => exact .inl ⟨rfl, rfl⟩
  | some t => exact .inr ⟨(h.table t rfl).ne, (h.table t rfl).dot, by simp [ColRef.text]⟩

theorem item_space {c : ColRef} (h : c.OKItem) : NoSpace c.text := by
  obtain ⟨t, n⟩ := c
  cases t with
  | none => exact h.space
  | some t =>
    have := noSpace_dot (h.table t rfl).space h.space
    simpa [ColRef.text] using this

theorem item_ne {c : ColRef} (h : c.OKItem) : c.text ≠ [] := by
  obtain ⟨t, n⟩ := c
  cases t with
  | none => exact h.ne
  | some t => simp [ColRef.text]

theorem field_item {c : ColRef} (h : c.OKItem) : field c.text = .ok c.fd := by
  rw [field, fieldOrError_qualified (item_qualified h) (item_space h)]
  rfl

theorem col_qualified {c : ColRef} (h : c.OK) : Qualified c.text (c.table.getD []) c.name := item_qualified h.item

theorem col_space {c : ColRef} (h : c.OK) : NoSpace c.text := item_space h.item

theorem col_ne {c : ColRef} (h : c.OK) : c.text ≠ [] := item_ne h.item

theorem field_col {c : ColRef} (h : c.OK) : field c.text = .ok c.fd := field_item h.item

theorem field_as {c : ColRef} (h : c.OKItem) {a : Option Str} (ha : ∀ x ∈ a, Ident x) :
    field (asText c.text a) = .ok { c.fd with alias := a.getD [] } := by
  cases a with
  | none => exact field_item h
  | some a =>
    have hi := ha a rfl
    rw [(C24_field_panics _).1, C24_exact]
    refine ⟨c.text, .inr ⟨c!"AS", ?_, by simp [IsAs]⟩, ?_⟩
    · have := words_cons (item_ne h) (item_space h) (words_cons (w := c!"AS") (by simp) (by unfold NoSpace; decide)
        (words_one hi.ne hi.space))
      simpa [asText] using this
    · obtain ⟨e1, e2, e3⟩ := item_qualified h
      rcases e3 with ⟨e4, e5⟩ | ⟨e4, e5, e6⟩
      · exact .inl ⟨e5 ▸ e2, e4, e5.symm⟩
      · exact .inr ⟨e5, e2, .inl e6⟩

theorem validate_col {c : ColRef} (h : c.OK) : validate c.text = .ok () := by
  rw [C27_validate]
  refine ⟨⟨_, _, col_qualified h⟩, ?_, ?_, ?_⟩
  · obtain ⟨t, n⟩ := c
    cases t with
    | none => exact h.name.quote
    | some t =>
      have h1 := h.name.quote
      have h2 := (h.table t rfl).quote
      simp only [ColRef.text, List.mem_append, not_or]
      exact ⟨⟨h2, by decide⟩, h1⟩
  · obtain ⟨t, n⟩ := c
    cases t with
    | none => exact h.name.dquote
    | some t =>
      have h1 := h.name.dquote
      have h2 := (h.table t rfl).dquote
      simp only [ColRef.text, List.mem_append, not_or]
      exact ⟨⟨h2, by decide⟩, h1⟩
  · intro hm
    have := col_space h _ hm
    revert this
    decide

theorem asc_col {c : ColRef} (h : c.OK) : asc c.text = .ok ⟨c.fd, c!"ASC"⟩ := by
  simp [asc, validate_col h, field_col h, Res.must, ascending]

theorem desc_col {c : ColRef} (h : c.OK) : desc c.text = .ok ⟨c.fd, c!"DESC"⟩ := by
  simp [desc, validate_col h, field_col h, Res.must, descending]

theorem optStr_getD {a : Option Str} (h : ∀ x ∈ a, x ≠ []) : optStr (a.getD []) = a := by
  cases a with
  | none => rfl
  | some a => simp [optStr, h a rfl]

theorem fd_plain {c : ColRef} (h : c.OK) {a : Option Str} (ha : ∀ x ∈ a, Ident x) :
    PlainDef { c.fd with alias := a.getD [] } := by
  refine .of h.name.plain ?_ ?_
  · obtain ⟨t, n⟩ := c
    cases t with
    | none => exact .inl rfl
    | some t => exact .inr (h.table t rfl).plain.1
  · cases a with
    | none => exact .inl rfl
    | some a => exact .inr (ha a rfl).plain

theorem isItem_star {t : Str} (h : Ident t) : PlainItem (t ++ c!".*") := by
  refine ⟨fun c hc => ?_, by rw [isItem, isStar_qual, h.plain.1.2.2, Bool.or_true]⟩
  rcases List.mem_append.1 hc with hc | hc
  · exact h.plain.1.2.1 c hc
  · have : ∀ c ∈ c!".*", isWordChar c = true := by decide
    exact this c hc

theorem fd_item {c : ColRef} (h : c.OKItem) {a : Option Str} (ha : ∀ x ∈ a, Ident x ∧ (c.table = none → c.name ≠ c!"*")) :
    PlainDef { c.fd with alias := a.getD [] } := by
  rcases h.name with e | e
  · exact fd_plain ⟨e, h.table⟩ fun x hx => (ha x hx).1
  · obtain ⟨t, n⟩ := c
    cases e
    cases t with
    | none =>
      have : a = none := by
        cases a with
        | none => rfl
        | some x => exact absurd rfl ((ha x rfl).2 rfl)
      subst this
      exact ⟨⟨by decide, by decide⟩, by decide, fun b hb => by cases hb⟩
    | some t =>
      have ht := h.table t rfl
      have e : FieldDef.col { (⟨some t, c!"*"⟩ : ColRef).fd with alias := a.getD [] } = t ++ c!".*" := by
        simp [FieldDef.col, ColRef.fd, ht.ne]
      refine ⟨e ▸ isItem_star ht, h.dot, fun b hb => ?_⟩
      rw [e]
      have hb' : a = some b := by
        rw [FieldDef.asName, if_neg fun e => ht.ne e.2] at hb
        cases a with
        | none => simp [optStr] at hb
        | some a => simpa [optStr, (ha a rfl).1.ne] using hb
      subst hb'
      refine ⟨(ha b rfl).1.plain, fun e => ht.ne ?_⟩
      cases t with
      | nil => rfl
      | cons x t =>
        have := congrArg List.length e
        simp at this

theorem fd_key {c : ColRef} (h : c.OK) : KeyDef c.fd := by
  refine .of h.name.plain ?_ (.inl rfl)
  obtain ⟨t, n⟩ := c
  cases t with
  | none => exact .inl rfl
  | some t => exact .inr (h.table t rfl).plain.1

theorem fd_side {c : ColRef} (h : c.OK) : SideDef c.fd := by
  refine .of h.name.plain ?_
  obtain ⟨t, n⟩ := c
  cases t with
  | none => exact .inl rfl
  | some t => exact .inr (h.table t rfl).plain.1

theorem fd_ref {c : ColRef} (h : c.OKItem) (a : Str) : FieldDef.ref { c.fd with alias := a } = c := by
  obtain ⟨t, n⟩ := c
  simp only [FieldDef.ref, ColRef.fd]
  rw [optStr_getD fun x hx => (h.table x hx).ne]

theorem fd_ref' {c : ColRef} (h : c.OK) : c.fd.ref = c := fd_ref h.item []

theorem fd_col {c : ColRef} (h : c.OK) : c.fd.col = c.text := by
  obtain ⟨t, n⟩ := c
  cases t with
  | none => rfl
  | some t => simp [FieldDef.col, ColRef.fd, ColRef.text, (h.table t rfl).ne]

theorem fd_plainField {c : ColRef} (h : c.OK) : PlainField c.fd := by
  have hp : PlainDef c.fd := fd_plain h (a := none) (by simp)
  refine ⟨.inl rfl, ?_⟩
  have := plain_key (fd_key h)
  rw [fd_col h]
  have e : c.fd.renderField = c.text := by
    obtain ⟨t, n⟩ := c
    cases t with
    | none => rfl
    | some t => simp [FieldDef.renderField, ColRef.fd, ColRef.text, List.length_pos_iff, (h.table t rfl).ne]
  rwa [e] at this

theorem colRef_text {c : ColRef} (h : c.OK) : colRef c.text = c := by
  obtain ⟨t, n⟩ := c
  cases t with
  | none => exact colRef_plain h.name.dot
  | some t => exact colRef_dot h.name.dot

/-- The identifier a table text parses to. -/
def TabRef.ident (t : TabRef) : TableIdent := ⟨t.name, t.alias.getD []⟩

theorem table_text {t : TabRef} (h : t.OK) : table t.text = .ok t.ident := by
  obtain ⟨n, a⟩ := t
  cases a with
  | none =>
    have := C26_round_trip ⟨n, []⟩ h.name.ne h.name.space (by intro c hc; cases hc) (by simpa using h.name.ne.symm)
    simpa [TableIdent.renderFrom, TabRef.text, asText, TabRef.ident] using this
  | some a =>
    obtain ⟨h1, h2⟩ := h.alias a rfl
    have := C26_round_trip ⟨n, a⟩ h.name.ne h.name.space h1.space h2
    simpa [TableIdent.renderFrom, List.length_pos_iff, h1.ne, h2, TabRef.text, asText, TabRef.ident] using this

theorem ident_ref {t : TabRef} (h : t.OK) : t.ident.ref = t := by
  obtain ⟨n, a⟩ := t
  cases a with
  | none => simp [TabRef.ident, TableIdent.ref, optStr]
  | some a =>
    obtain ⟨h1, h2⟩ := h.alias a rfl
    simp only [] at h2
    simp [TabRef.ident, TableIdent.ref, h2, optStr, h1.ne]

theorem ident_plain {t : TabRef} (h : t.OK) : PlainTable t.ident := by
  obtain ⟨n, a⟩ := t
  refine .of h.name.plain.1 ?_
  cases a with
  | none => exact .inl rfl
  | some a => exact .inr (h.alias a rfl).1.plain

/-! ## Conditions -/

/-- The leaf of a test. -/
def Test.leaf (t : Test) : Leaf := ⟨t.op, t.col.text, t.params⟩

/-- A condition that is what a literal asks for. -/
structure IsLit (l : Lit) (c : Cond) : Prop where
  leaf : c.isLeaf = true
  join : c.joinType = c!"AND"
  read : c.Readable
  means : ∀ row, c.textSem row = l.says row
  leaves : c.leaves = [l.test.leaf]
  null : ∀ b fd, c = .null b fd → l.test.isNullTest = true

theorem textSem_leaf (row : Row) {c : Cond} (h : c.isLeaf = true) : c.textSem row = c.means row := by
  cases c with
  | fieldc k b fv => simp [Cond.textSem, Cond.sflat, Cond.means, joinTri, joinFrom]
  | null b fd => simp [Cond.textSem, Cond.sflat, Cond.means, joinTri, joinFrom]
  | custom b x => cases h
  | group b cs br => cases h

theorem mkField_col {c : ColRef} (h : c.OK) (k : Kind) (v : Val) :
    mkField k c.text v = .ok (.fieldc k ⟨lAND, false⟩ ⟨c.fd, v⟩) := by
  simp [mkField, newFieldValue, field_col h, newBase]

theorem isLit_field {l : Lit} {k : Kind} {c : ColRef} {v : Val} (h : c.OK)
    (hr : ReadableNode (.fieldc k ⟨lAND, l.neg⟩ ⟨c.fd, v⟩)) (hp : fieldcValues k ⟨c.fd, v⟩ = .ok l.test.params)
    (hs : ∀ row, k.says row c.text l.test.params = l.test.says row) (ho : k.opText = l.test.op) (hc : l.test.col = c) :
    IsLit l (.fieldc k ⟨lAND, l.neg⟩ ⟨c.fd, v⟩) := by
  have hb : bindsOf k ⟨c.fd, v⟩ = l.test.params := by simp [bindsOf, hp]
  refine ⟨rfl, rfl, hr, fun row => ?_, ?_, fun b fd e => by cases e⟩
  · rw [textSem_leaf row rfl]
    simp only [Cond.means, fd_col h, hb, hs, Lit.says]
  · simp only [Cond.leaves, fd_col h, hb, Test.leaf, ho, hc]

theorem test_call (t : Test) (h : t.OK) (neg : Bool) : ∃ c, (⟨neg, t⟩ : Lit).call = .ok c ∧ IsLit ⟨neg, t⟩ c := by
  have hneg : ∀ (k : Kind) (fv : FieldValue), (if neg then notC (.fieldc k ⟨lAND, false⟩ fv) else .fieldc k ⟨lAND, false⟩ fv) =
      .fieldc k ⟨lAND, neg⟩ fv := by
    intro k fv
    cases neg <;> rfl
  cases t with
  | cmp op c v w =>
    obtain ⟨h1, h2⟩ := h
    have hv : (⟨c.fd, v⟩ : FieldValue).values = .ok [w] := (C38_values _ _).mpr h2
    have hpf := fd_plainField h1
    cases op
    · exact ⟨.fieldc .eq ⟨lAND, neg⟩ ⟨c.fd, v⟩, by simp only [Lit.call, Test.call, equalTo, mkField_col h1, Res.bind_ok, hneg],
        isLit_field h1 ⟨hpf, w, hv⟩ hv (fun _ => rfl) rfl rfl⟩
    · exact ⟨.fieldc .gt ⟨lAND, neg⟩ ⟨c.fd, v⟩, by simp only [Lit.call, Test.call, greaterThan, mkField_col h1, Res.bind_ok, hneg],
        isLit_field h1 ⟨hpf, w, hv⟩ hv (fun _ => rfl) rfl rfl⟩
    · exact ⟨.fieldc .gte ⟨lAND, neg⟩ ⟨c.fd, v⟩, by simp only [Lit.call, Test.call, greaterOrEqual, mkField_col h1, Res.bind_ok, hneg],
        isLit_field h1 ⟨hpf, w, hv⟩ hv (fun _ => rfl) rfl rfl⟩
    · exact ⟨.fieldc .lt ⟨lAND, neg⟩ ⟨c.fd, v⟩, by simp only [Lit.call, Test.call, less, mkField_col h1, Res.bind_ok, hneg],
        isLit_field h1 ⟨hpf, w, hv⟩ hv (fun _ => rfl) rfl rfl⟩
    · exact ⟨.fieldc .lte ⟨lAND, neg⟩ ⟨c.fd, v⟩, by simp only [Lit.call, Test.call, lessOrEqual, mkField_col h1, Res.bind_ok, hneg],
        isLit_field h1 ⟨hpf, w, hv⟩ hv (fun _ => rfl) rfl rfl⟩
  | isIn c v ws =>
    obtain ⟨h1, h2, h3⟩ := h
    have hv : (⟨c.fd, v⟩ : FieldValue).values = .ok ws := (C38_values _ _).mpr h2
    refine ⟨.fieldc .inn ⟨lAND, neg⟩ ⟨c.fd, v⟩, by simp only [Lit.call, Test.call, inC, mkField_col h1, Res.bind_ok, hneg],
      isLit_field h1 ⟨fd_plainField h1, ?_⟩ hv (fun _ => rfl) rfl rfl⟩
    cases ws with
    | nil => exact absurd rfl h3
    | cons w ws => exact ⟨w, ws, hv⟩
  | has c s =>
    exact ⟨.fieldc .like ⟨lAND, neg⟩ ⟨c.fd, .str s⟩, by simp only [Lit.call, Test.call, contains, mkField_col h, Res.bind_ok, hneg],
      isLit_field h ⟨fd_plainField h, s, rfl⟩ rfl (fun _ => rfl) rfl rfl⟩
  | ihas c s =>
    exact ⟨.fieldc .ilike ⟨lAND, neg⟩ ⟨c.fd, .str s⟩, by simp only [Lit.call, Test.call, iContains, mkField_col h, Res.bind_ok, hneg],
      isLit_field h ⟨fd_plainField h, s, rfl⟩ rfl (fun _ => rfl) rfl rfl⟩
  | null c =>
    have h : c.OK := h
    refine ⟨.null ⟨lAND, neg⟩ c.fd, ?_, ⟨rfl, rfl, fd_plainField h, fun row => ?_, ?_, fun _ _ _ => rfl⟩⟩
    · have : ((if neg then notC (.null (newBase lAND false) c.fd) else .null (newBase lAND false) c.fd) : Cond) =
          .null ⟨lAND, neg⟩ c.fd := by cases neg <;> rfl
      simp only [Lit.call, Test.call, isNull, field_col h, Res.bind_ok, this]
    · rw [textSem_leaf row rfl]
      simp only [Cond.means, fd_col h, Lit.says, Test.says]
    · simp only [Cond.leaves, fd_col h, Test.leaf, Test.op, Test.col, Test.params]

theorem lit_call (l : Lit) (h : l.test.OK) : ∃ c, l.call = .ok c ∧ IsLit l c := test_call l.test h l.neg

/-- A disjunction of two or more conditions. -/
def IsOrGroup (c : Cond) : Prop :=
  ∃ b cs br, c = .group b cs br ∧ cs.length ≥ 2 ∧ ∀ d ∈ cs.drop 1, d.joinType = c!"OR"

theorem orGroup_join {c : Cond} (h : IsOrGroup c) (j : Str) : IsOrGroup (c.join j) := by
  obtain ⟨b, cs, br, rfl, h1, h2⟩ := h
  exact ⟨b.join j, cs, br, rfl, h1, h2⟩

theorem leaf_join_type {d : Cond} (j : Str) : (d.join j).joinType = j := by cases d <;> rfl

/-- Adding a leaf by OR to one condition, or to a disjunction. -/
theorem groupOR_leaf (g : Group) (d : Cond) (hd : d.isLeaf = true)
    (hg : g.conds.length = 1 ∨ (g.conds.length ≥ 2 ∧ ∀ x ∈ g.conds.drop 1, x.joinType = c!"OR")) :
    IsOrGroup (g.groupOR [d]).toCond := by
  have hne : g.conds ≠ [] := by
    intro h
    rw [h] at hg
    simp at hg
  have hl : (d.join lOR).isLeaf = true := by cases d <;> first | exact hd | cases hd
  unfold Group.groupOR
  rw [addConditions_one g lOR d hne]
  unfold Group.addSingleCondition
  simp only [leaf_asGroup hl, leaf_join_type]
  have hmem : ∀ x ∈ [(d.join lOR).join lOR], x.joinType = c!"OR" := by
    intro x hx
    simp only [List.mem_singleton] at hx
    subst hx
    exact leaf_join_type _
  rcases hg with h1 | ⟨h1, h2⟩
  · obtain ⟨c, hc⟩ := List.length_eq_one_iff.mp h1
    simp only [hc]
    exact ⟨_, _, _, rfl, by simp, fun x hx => hmem x (by simpa using hx)⟩
  · have hall : g.hasAll lOR = true := by
      unfold Group.hasAll
      rw [List.all_eq_true]
      intro x hx
      have := h2 x hx
      rw [this]
      rfl
    have e0 : (g.conds.length == 0) = false := by simpa using hne
    have e1 : (g.conds.length == 1) = false := by simp; omega
    have e2 : decide (g.conds.length > 1) = true := by simp; omega
    have e3 : (lOR == lAND) = false := rfl
    simp only [e0, e1, e2, e3, hall, beq_self_eq_true, Bool.and_self, Bool.false_and, Bool.and_false, if_true, Bool.false_eq_true,
      if_false]
    refine ⟨_, _, _, rfl, by simp; omega, ?_⟩
    intro x hx
    rw [List.drop_append_of_le_length (by omega)] at hx
    rcases List.mem_append.mp hx with h | h
    · exact h2 x h
    · exact hmem x h

theorem or_leaf_shape {c d r : Cond} (hc : (c.isLeaf = true ∧ ∀ b fd, c ≠ .null b fd) ∨ IsOrGroup c) (hd : d.isLeaf = true)
    (h : c.or [d] = .ok r) : IsOrGroup r := by
  have hn : ∀ b fd, c ≠ .null b fd := by
    rcases hc with h | ⟨b, cs, br, rfl, _⟩
    · exact h.2
    · intro b fd h; cases h
  obtain ⟨r', h1, h2⟩ := or_method c [d] (by simp) hn
  rw [h] at h1
  cases h1
  have hg : IsOrGroup ((recvG lOR c).groupOR [d]).toCond := by
    refine groupOR_leaf _ d hd ?_
    rcases hc with h | ⟨b, cs, br, rfl, h3, h4⟩
    · rw [recvG_leaf h.1]
      exact .inl rfl
    · exact .inr ⟨h3, h4⟩
  rcases h2 with rfl | rfl
  · exact hg
  · exact orGroup_join hg _

theorem orGroup_narrows {c : Cond} (h : IsOrGroup c) : c.narrows = true := by
  obtain ⟨b, cs, br, rfl, h1, h2⟩ := h
  simp only [Cond.narrows, Bool.or_eq_true]
  left
  match cs, h1 with
  | x :: y :: cs, _ =>
    have := h2 y (by simp)
    simp [allAnd, Cond.isOr, this]

/-- A condition that is what a clause asks for. -/
structure IsClause (cl : Clause) (c : Cond) : Prop where
  read : c.Readable
  means : ∀ row, c.textSem row = cl.says row
  leaves : c.leaves = cl.lits.map fun l => l.test.leaf
  shape : (cl.more = [] ∧ c.isLeaf = true ∧ c.joinType = c!"AND") ∨ c.narrows = true

theorem anyOf_append_one (xs : List Tri) (x : Tri) : anyOf (xs ++ [x]) = (anyOf xs).or x := by
  rw [anyOf_append]; simp [anyOf]

/-- The state of a chain of `Or` calls after the literals `ls`. -/
structure OrState (ls : List Lit) (c : Cond) : Prop where
  chained : ∀ row, Chained row c (anyOf (ls.map (Lit.says row)))
  leaves : c.leaves = ls.map fun l => l.test.leaf
  shape : IsOrGroup c

theorem or_leaves {c d r : Cond} (h : c.or [d] = .ok r) : r.leaves = c.leaves ++ d.leaves := by
  have := (C58_method c [d]).2 r h
  rw [leaves_parts, this, leaves_parts c, leaves_parts d]
  simp

theorem orAll_run (more : List Lit) : ∀ (ls : List Lit) (c : Cond), OrState ls c → (∀ l ∈ more, l.test.OK) →
    ∃ r, orAll c more = .ok r ∧ OrState (ls ++ more) r := by
  induction more with
  | nil => intro ls c h _; exact ⟨c, rfl, by simpa using h⟩
  | cons l more ih =>
    intro ls c h hm
    obtain ⟨d, hd, hl⟩ := lit_call l (hm l (by simp))
    have hn : ∀ b fd, c ≠ .null b fd := by
      obtain ⟨b, cs, br, rfl, _⟩ := h.shape
      intro b fd h; cases h
    have hst : d.stepOr = true := by
      have := hl.leaf
      cases d <;> first | exact this | cases this
    obtain ⟨r, h1, _⟩ := or_method c [d] (by simp) hn
    have hc : ∀ row, Chained row r (anyOf ((ls ++ [l]).map (Lit.says row))) := by
      intro row
      obtain ⟨r', e1, e2, _⟩ := chained_or (h.chained row) hn hl.read hst
      rw [h1] at e1
      cases e1
      rw [hl.means row] at e2
      simpa [anyOf_append_one] using e2
    obtain ⟨r', h4, h5⟩ := ih (ls ++ [l]) r
      ⟨hc, by simp [or_leaves h1, h.leaves, hl.leaves], or_leaf_shape (.inr h.shape) hl.leaf h1⟩
      (fun x hx => hm x (by simp [hx]))
    refine ⟨r', ?_, by simpa using h5⟩
    simp only [orAll, hd, Res.bind_ok, h1, h4]

theorem clause_call (cl : Clause) (h : cl.OK) : ∃ c, cl.call = .ok c ∧ IsClause cl c := by
  obtain ⟨l, more⟩ := cl
  obtain ⟨c, hc, hl⟩ := lit_call l (h.tests l (by simp [Clause.lits]))
  cases more with
  | nil =>
    refine ⟨c, by simp [Clause.call, hc, orAll], ⟨hl.read, fun row => ?_, by simp [hl.leaves, Clause.lits], .inl ⟨rfl, hl.leaf, hl.join⟩⟩⟩
    simp [Clause.says, Clause.lits, anyOf, hl.means]
  | cons m more =>
    have hnull : ∀ b fd, c ≠ .null b fd := by
      intro b fd e
      have h1 := hl.null b fd e
      have h2 := h.null (by simp)
      rw [h1] at h2
      cases h2
    obtain ⟨d, hd, hm⟩ := lit_call m (h.tests m (by simp [Clause.lits]))
    have hst : d.stepOr = true := by
      have := hm.leaf
      cases d <;> first | exact this | cases this
    obtain ⟨r, h1, _⟩ := or_method c [d] (by simp) hnull
    have hch : ∀ row, Chained row r (anyOf ([l, m].map (Lit.says row))) := by
      intro row
      obtain ⟨r', e1, e2, _⟩ := chained_or (x := l.says row) ⟨hl.read, hl.means row, .inl hl.leaf⟩ hnull hm.read hst
      rw [h1] at e1
      cases e1
      rw [hm.means row] at e2
      simpa [anyOf] using e2
    obtain ⟨r', h4, h5⟩ := orAll_run more [l, m] r
      ⟨hch, by simp [or_leaves h1, hl.leaves, hm.leaves], or_leaf_shape (.inl ⟨hl.leaf, hnull⟩) hm.leaf h1⟩
      (fun x hx => h.tests x (by simp [Clause.lits, hx]))
    have hrow : Row := ⟨fun _ _ _ => .u, fun _ _ => .u, fun _ _ => .u, fun _ => false⟩
    refine ⟨r', ?_, ⟨(h5.chained hrow).read, fun row => (h5.chained row).sem, h5.leaves, .inr (orGroup_narrows h5.shape)⟩⟩
    simp only [Clause.call, hc, Res.bind_ok, orAll, hd, h1, h4]

/-- The condition of a clause. -/
def Clause.cond (cl : Clause) : Cond := cl.call.getD (.group ⟨[], false⟩ [] false)

theorem clause_cond {cl : Clause} (h : cl.OK) : cl.call = .ok cl.cond ∧ IsClause cl cl.cond := by
  obtain ⟨c, h1, h2⟩ := clause_call cl h
  have : cl.cond = c := by simp [Clause.cond, h1, Res.getD]
  rw [this]
  exact ⟨h1, h2⟩

theorem clauses_call {cs : List Clause} (h : ∀ c ∈ cs, c.OK) : Res.mapL Clause.call cs = .ok (cs.map Clause.cond) :=
  mapL_ok _ _ _ fun c hc => (clause_cond (h c hc)).1

theorem clause_leaf {cl : Clause} (h : cl.OK) (hm : cl.more = []) : cl.cond.isLeaf = true ∧ cl.cond.joinType = c!"AND" := by
  obtain ⟨c, hc, hl⟩ := lit_call cl.first (h.tests _ (by simp [Clause.lits]))
  have : cl.cond = c := by simp [Clause.cond, Clause.call, hc, hm, orAll, Res.getD]
  rw [this]
  exact ⟨hl.leaf, hl.join⟩

theorem clause_narrows {cl : Clause} (h : cl.OK) : cl.cond.narrows = true := by
  rcases (clause_cond h).2.shape with ⟨_, h1, _⟩ | h1
  · generalize cl.cond = c at h1
    cases c <;> first | exact h1 | cases h1
  · exact h1

/-- The conditions of the Where calls. -/
def condsOf (calls : List (List Clause)) : List (List Cond) := calls.map (·.map Clause.cond)

theorem condsOf_flatten (calls : List (List Clause)) : (condsOf calls).flatten = calls.flatten.map Clause.cond := by
  simp [condsOf, List.map_flatten]

theorem wheres_shape (calls : List (List Clause)) (hc : ∀ c ∈ calls.flatten, c.OK) (hw : wheresOK calls) :
    whereCalls (condsOf calls) = true := by
  induction calls with
  | nil => rfl
  | cons ds calls ih =>
    cases ds with
    | nil => exact ih (by simpa using hc) hw
    | cons d ds =>
      obtain ⟨h1, h2⟩ := hw
      have hfirst : ∀ c ∈ d :: ds, c.cond.isLeaf = true ∧ c.cond.joinType = c!"AND" := fun c hm =>
        clause_leaf (hc c (by simp only [List.flatten_cons, List.mem_append]; exact .inl hm)) (h1 c hm)
      simp only [condsOf, List.map_cons, whereCalls, whereFirst, Bool.and_eq_true, List.all_eq_true, beq_iff_eq]
      refine ⟨⟨?_, ?_⟩, ?_⟩
      · intro c hm
        rw [← List.map_cons] at hm
        obtain ⟨x, hx, rfl⟩ := List.mem_map.mp hm
        exact single_orFree _ (leaf_single (hfirst x hx).1)
      · intro c hm
        have hm := List.mem_of_mem_drop hm
        rw [← List.map_cons] at hm
        obtain ⟨x, hx, rfl⟩ := List.mem_map.mp hm
        exact (hfirst x hx).2
      · intro es hes
        obtain ⟨xs, hx, rfl⟩ := List.mem_map.mp hes
        have hxs : ∀ x ∈ xs, x.OK := fun x hm => hc x (by
          simp only [List.flatten_cons, List.mem_append]
          exact .inr (List.mem_flatten.mpr ⟨xs, hx, hm⟩))
        match xs, hxs, h2 xs hx with
        | [], _, _ => rfl
        | [x], hxs, _ => exact clause_narrows (hxs x (by simp))
        | x :: y :: xs, hxs, h3 =>
          have h4 : ∀ z ∈ x :: y :: xs, z.more = [] := h3.resolve_left (by simp)
          simp only [List.map_cons, whereNext, List.all_eq_true]
          intro c hm
          rw [← List.map_cons, ← List.map_cons] at hm
          obtain ⟨z, hz, rfl⟩ := List.mem_map.mp hm
          exact single_orFree _ (leaf_single (clause_leaf (hxs z hz) (h4 z hz)).1)

/-- What the Where calls leave in the group. -/
structure WhereIs (cs : List Clause) (S : Row → Tri) (g : Group) : Prop where
  none : cs = [] → g.conds = []
  read : cs ≠ [] → g.toCond.Readable
  means : cs ≠ [] → ∀ row, TextMeans g.toCond row (S row)
  leaves : g.toCond.leaves = (testsOf cs).map Test.leaf

theorem leaves_calls (calls : List (List Cond)) : (calls.foldl Group.groupAND newWhere.group).toCond.leaves =
    calls.flatten.flatMap Cond.leaves := by
  have hp := (C58_where calls ⟨0, ⟨[], []⟩, [], ⟨[]⟩, newWhere⟩ ⟨⟨0, ⟨[], []⟩, [], ⟨[]⟩, newWhere⟩⟩
    ⟨⟨0, ⟨[], []⟩, [], ⟨[]⟩, newWhere⟩, 0, 0, [], false⟩ (update (.str [])) (delete (.str []))).1
  rw [where_base] at hp
  rw [leaves_parts, hp]
  have : (newWhere.group.toCond).parts = [] := by
    simp [newWhere, newGroup, setToAll, Group.toCond, Cond.parts, Cond.partsL]
  rw [this, List.nil_append, List.flatMap_assoc]
  congr 1
  funext c
  exact (leaves_parts c).symm

/-- A list of tests as members of a group of alternatives. -/
structure OrList (ls : List Lit) (ds : List Cond) : Prop where
  leaf : ∀ d ∈ ds, d.isLeaf = true
  or : ∀ d ∈ ds, d.joinType = c!"OR"
  says : ∀ row, ds.map (·.means row) = ls.map (Lit.says row)

theorem groupOR_leaf_eq (g : Group) (d : Cond) (hd : d.isLeaf = true)
    (hg : g.conds.length = 1 ∨ (g.conds.length ≥ 2 ∧ ∀ x ∈ g.conds.drop 1, x.joinType = c!"OR")) :
    g.groupOR [d] = { g with conds := g.conds ++ [(d.join lOR).join lOR] } := by
  have hne : g.conds ≠ [] := by
    intro h
    rw [h] at hg
    simp at hg
  have hl : (d.join lOR).isLeaf = true := by cases d <;> first | exact hd | cases hd
  unfold Group.groupOR
  rw [addConditions_one g lOR d hne]
  unfold Group.addSingleCondition
  simp only [leaf_asGroup hl, leaf_join_type]
  rcases hg with h1 | ⟨h1, h2⟩
  · obtain ⟨c, hc⟩ := List.length_eq_one_iff.mp h1
    simp only [hc]
    rfl
  · have hall : g.hasAll lOR = true := by
      unfold Group.hasAll
      rw [List.all_eq_true]
      intro x hx
      have := h2 x hx
      rw [this]
      rfl
    have e0 : (g.conds.length == 0) = false := by simpa using hne
    have e1 : (g.conds.length == 1) = false := by simp; omega
    have e2 : decide (g.conds.length > 1) = true := by simp; omega
    have e3 : (lOR == lAND) = false := rfl
    simp [e0, e1, e2, hall, e3]

theorem leaf_join_means (row : Row) {d : Cond} (h : d.isLeaf = true) (j : Str) :
    (d.join j).isLeaf = true ∧ (d.join j).joinType = j ∧ (d.join j).means row = d.means row := by
  cases d <;> first | exact ⟨rfl, rfl, rfl⟩ | cases h

theorem lit_means {l : Lit} {c : Cond} (h : IsLit l c) (row : Row) : c.means row = l.says row := by
  rw [← textSem_leaf row h.leaf, h.means]

theorem orList_add {ls : List Lit} {ds : List Cond} (h : OrList ls ds) {l : Lit} {d : Cond} (hd : IsLit l d) :
    OrList (ls ++ [l]) (ds ++ [(d.join lOR).join lOR]) := by
  have hr : Row := ⟨fun _ _ _ => .u, fun _ _ => .u, fun _ _ => .u, fun _ => false⟩
  have h1 := fun row => leaf_join_means row hd.leaf lOR
  have h2 := fun row => leaf_join_means row (h1 row).1 lOR
  refine ⟨fun x hx => ?_, fun x hx => ?_, fun row => ?_⟩
  · rcases List.mem_append.mp hx with hx | hx
    · exact h.leaf x hx
    · rw [List.mem_singleton.mp hx]; exact (h2 hr).1
  · rcases List.mem_append.mp hx with hx | hx
    · exact h.or x hx
    · rw [List.mem_singleton.mp hx]; exact (h2 hr).2.1
  · simp only [List.map_append, h.says row, List.map_cons, List.map_nil, (h2 row).2.2, (h1 row).2.2, lit_means hd row]

theorem orAll_list (more : List Lit) : ∀ (ls : List Lit) (b : CondBase) (ds : List Cond), OrList ls ds → ds.length ≥ 2 →
    (∀ l ∈ more, l.test.OK) →
    ∃ ds', orAll (.group b ds false) more = .ok (.group b ds' false) ∧ OrList (ls ++ more) ds' ∧ ds'.length ≥ 2 := by
  induction more with
  | nil => intro ls b ds h h2 _; exact ⟨ds, rfl, by simpa using h, h2⟩
  | cons l more ih =>
    intro ls b ds h h2 hm
    obtain ⟨d, hd, hl⟩ := lit_call l (hm l (by simp))
    have e : (Cond.group b ds false).or [d] = .ok (.group b (ds ++ [(d.join lOR).join lOR]) false) := by
      show Res.ok ((⟨b, ds, false⟩ : Group).groupOR [d]).toCond = _
      rw [groupOR_leaf_eq _ _ hl.leaf (.inr ⟨h2, fun x hx => h.or x (List.mem_of_mem_drop hx)⟩)]
      rfl
    obtain ⟨ds', h3, h4, h5⟩ := ih (ls ++ [l]) b _ (orList_add h hl) (by simp; omega) (fun x hx => hm x (by simp [hx]))
    refine ⟨ds', ?_, by simpa using h4, h5⟩
    simp only [orAll, hd, Res.bind_ok, e, h3]

/-- The word of a kind of test as the first of alternatives. -/
def Test.orWord : Test → Bool
  | .cmp _ _ _ _ => true
  | .isIn _ _ _ => true
  | _ => false

/-- What `Or` makes of two tests. -/
theorem lit_or {l m : Lit} (hl : l.test.OK) (hn : l.test.isNullTest = false) {c d : Cond} (hc : l.call = .ok c) (hd : IsLit m d) :
    c.or [d] = .ok (.group ⟨if l.test.orWord then c!"OR" else c!"AND", false⟩ [c.join lOR, (d.join lOR).join lOR] false) := by
  have key : ((newGroup lOR [c]).groupOR [d]) = ⟨⟨c!"AND", false⟩, [c.join lOR, (d.join lOR).join lOR], false⟩ := by
    rw [groupOR_leaf_eq _ _ hd.leaf (.inl rfl)]
    rfl
  obtain ⟨neg, t⟩ := l
  have mk : ∀ (k : Kind) (fn : Str) (v : Val) (x : Cond), mkField k fn v = .ok x → ∃ fv, x = .fieldc k (newBase lAND false) fv := by
    intro k fn v x h
    simp only [mkField, Res.bind_eq_ok, Res.ok.injEq] at h
    obtain ⟨fv, _, h⟩ := h
    exact ⟨fv, h.symm⟩
  simp only [Lit.call, Res.bind_eq_ok, Res.ok.injEq] at hc
  obtain ⟨x, hx, hc⟩ := hc
  have fin : ∀ (k : Kind) (fv : FieldValue), x = .fieldc k (newBase lAND false) fv → ∃ b, c = .fieldc k b fv := by
    intro k fv h
    rw [← hc, h]
    split
    · exact ⟨_, rfl⟩
    · exact ⟨_, rfl⟩
  cases t with
  | cmp op cr v w =>
    have : ∃ k, (k = .eq ∨ k = .gt ∨ k = .gte ∨ k = .lt ∨ k = .lte) ∧ mkField k cr.text v = .ok x := by
      cases op
      · exact ⟨.eq, by simp, hx⟩
      · exact ⟨.gt, by simp, hx⟩
      · exact ⟨.gte, by simp, hx⟩
      · exact ⟨.lt, by simp, hx⟩
      · exact ⟨.lte, by simp, hx⟩
    obtain ⟨k, hk, hx⟩ := this
    obtain ⟨fv, e⟩ := mk _ _ _ _ hx
    obtain ⟨b, rfl⟩ := fin _ _ e
    have : (Cond.fieldc k b fv).or [d] = .ok (orC (Cond.fieldc k b fv) [d]) := by
      rcases hk with rfl | rfl | rfl | rfl | rfl <;> rfl
    rw [this]
    show Res.ok ((((newGroup lOR [Cond.fieldc k b fv]).groupOR [d]).toCond).join lOR) = _
    rw [key]
    rfl
  | isIn cr v ws =>
    obtain ⟨fv, e⟩ := mk .inn _ _ _ hx
    obtain ⟨b, rfl⟩ := fin _ _ e
    show Res.ok ((((newGroup lOR [Cond.fieldc .inn b fv]).groupOR [d]).toCond).join lOR) = _
    rw [key]
    rfl
  | has cr s =>
    obtain ⟨fv, e⟩ := mk .like _ _ _ hx
    obtain ⟨b, rfl⟩ := fin _ _ e
    show Res.ok (((newGroup lOR [Cond.fieldc .like b fv]).groupOR [d]).toCond) = _
    rw [key]
    rfl
  | ihas cr s =>
    obtain ⟨fv, e⟩ := mk .ilike _ _ _ hx
    obtain ⟨b, rfl⟩ := fin _ _ e
    show Res.ok (((newGroup lOR [Cond.fieldc .ilike b fv]).groupOR [d]).toCond) = _
    rw [key]
    rfl
  | null cr => cases hn

/-- What the calls of a clause make: a test, or a group of alternatives. -/
theorem clause_form {cl : Clause} (h : cl.OK) :
    (cl.more = [] ∧ IsLit cl.first cl.cond) ∨
    (cl.more ≠ [] ∧ ∃ ds, cl.cond = .group ⟨if cl.word then c!"OR" else c!"AND", false⟩ ds false ∧ OrList cl.lits ds ∧ ds.length ≥ 2) := by
  obtain ⟨l, more⟩ := cl
  obtain ⟨c, hc, hl⟩ := lit_call l (h.tests l (by simp [Clause.lits]))
  cases more with
  | nil =>
    refine .inl ⟨rfl, ?_⟩
    have : Clause.cond ⟨l, []⟩ = c := by simp [Clause.cond, Clause.call, hc, orAll, Res.getD]
    rw [this]
    exact hl
  | cons m more =>
    refine .inr ⟨by simp, ?_⟩
    obtain ⟨d, hd, hm⟩ := lit_call m (h.tests m (by simp [Clause.lits]))
    have e := lit_or (h.tests l (by simp [Clause.lits])) (h.null (by simp)) hc hm
    have h0 : OrList [l] [c.join lOR] := by
      refine ⟨fun x hx => ?_, fun x hx => ?_, fun row => ?_⟩
      · rw [List.mem_singleton.mp hx]; exact (leaf_join_means ⟨fun _ _ _ => .u, fun _ _ => .u, fun _ _ => .u, fun _ => false⟩ hl.leaf _).1
      · rw [List.mem_singleton.mp hx]; exact (leaf_join_means ⟨fun _ _ _ => .u, fun _ _ => .u, fun _ _ => .u, fun _ => false⟩ hl.leaf _).2.1
      · simp only [List.map_cons, List.map_nil, (leaf_join_means row hl.leaf lOR).2.2, lit_means hl row]
    obtain ⟨ds, h3, h4, h5⟩ := orAll_list more ([l] ++ [m]) ⟨if l.test.orWord then c!"OR" else c!"AND", false⟩ _ (orList_add h0 hm)
      (by simp) (fun x hx => h.tests x (by simp [Clause.lits, hx]))
    refine ⟨ds, ?_, by simpa [Clause.lits] using h4, h5⟩
    have : Clause.call ⟨l, m :: more⟩ = .ok (.group ⟨if l.test.orWord then c!"OR" else c!"AND", false⟩ ds false) := by
      simp only [Clause.call, hc, Res.bind_ok, orAll, hd, e]
      exact h3
    have hw : Clause.word ⟨l, m :: more⟩ = l.test.orWord := by
      cases hx : l.test <;> simp [Clause.word, hx, Test.orWord]
    rw [hw]
    simp [Clause.cond, this, Res.getD]

theorem orList_flat (row : Row) (ds : List Cond) (h1 : ∀ d ∈ ds, d.isLeaf = true) (h2 : ∀ d ∈ ds, d.joinType = c!"OR") :
    Cond.sflatL row ds = ds.map fun d => (true, d.means row) := by
  induction ds with
  | nil => rfl
  | cons d ds ih =>
    simp only [Cond.sflatL, List.map_cons]
    rw [ih (fun x hx => h1 x (by simp [hx])) (fun x hx => h2 x (by simp [hx]))]
    have e := h2 d (by simp)
    have l := h1 d (by simp)
    cases d with
    | fieldc k b fv =>
      have e : b.joinType = c!"OR" := e
      simp [Cond.sflat, Cond.means, e]
    | null b fd =>
      have e : b.joinType = c!"OR" := e
      simp [Cond.sflat, Cond.means, e]
    | custom b x => cases l
    | group b cs br => cases l

/-- The factors of a clause, the word before it, and what Where finds in it. -/
theorem clause_flat {cl : Clause} (h : cl.OK) (row : Row) :
    cl.cond.sflat row = cl.facs row ∧ cl.cond.isOr = cl.word ∧ cl.cond.Worded := by
  rcases clause_form h with ⟨hm, hl⟩ | ⟨hm, ds, hc, ho, hn⟩
  · have hw : cl.word = false := by simp [Clause.word, hm]
    have hj := hl.join
    have hs := lit_means hl row
    have hf := hl.leaf
    unfold Clause.facs
    rw [hw, hm, ← hs]
    generalize cl.cond = c at hj hf
    cases c with
    | fieldc k b fv =>
      have hj : b.joinType = c!"AND" := hj
      refine ⟨by simp [Cond.sflat, Cond.means, hj], by simp [Cond.isOr, Cond.joinType, Cond.base, hj], .inl hj⟩
    | null b fd =>
      have hj : b.joinType = c!"AND" := hj
      refine ⟨by simp [Cond.sflat, Cond.means, hj], by simp [Cond.isOr, Cond.joinType, Cond.base, hj], .inl hj⟩
    | custom b x => cases hf
    | group b cs br => cases hf
  · rw [hc]
    refine ⟨?_, ?_, ?_⟩
    · simp only [Cond.sflat, effBr, Bool.false_and, Bool.false_eq_true, if_false]
      rw [orList_flat row ds ho.leaf ho.or]
      have hs := ho.says row
      have hs2 := congrArg (List.map fun x : Tri => (true, x)) hs
      simp only [List.map_map] at hs2
      rw [show (ds.map fun d => (true, d.means row)) = cl.lits.map (fun l => (true, l.says row)) from hs2]
      unfold Clause.facs
      cases cl.word <;> simp [Clause.lits, snegHead, ssetHead, Tri.notIf]
    · cases cl.word <;> rfl
    · refine ⟨by cases cl.word <;> simp [IsWord], ?_⟩
      match ds, hn with
      | d :: ds, _ => exact .inr (ho.or d (by simp))

theorem clause_member {cl : Clause} (h : cl.OK) (row : Row) (s : List (Bool × Tri) × Bool) :
    whereStep row (some s) [cl.cond] = wheresStep row (some s) [cl] := by
  obtain ⟨fs, noOr⟩ := s
  rcases clause_form h with ⟨hm, hl⟩ | ⟨hm, ds, hc, ho, hn⟩
  · have hs := (clause_flat h row).1
    have hf := hl.leaf
    have hsay : cl.says row = cl.first.says row := by simp [Clause.says, Clause.lits, hm, anyOf]
    unfold Clause.facs at hs
    rw [hm] at hs
    simp only [wheresStep, hsay]
    generalize cl.cond = c at hs hf
    cases c with
    | fieldc k b fv => simp [whereStep, Held.addAnd, Held.andNoOr, hs, ssetHead, Held.box, Tri.notIf]
    | null b fd => simp [whereStep, Held.addAnd, Held.andNoOr, hs, ssetHead, Held.box, Tri.notIf]
    | custom b x => cases hf
    | group b cs br => cases hf
  · have hd : ∀ d ∈ ds.drop 1, d.isOr = true := fun d hd => by simp [Cond.isOr, ho.or d (List.mem_of_mem_drop hd)]
    have hall : allOr ds = true := by unfold allOr; rw [List.all_eq_true]; exact hd
    have hany : allAnd ds = false := by
      match ds, hn with
      | x :: y :: cs, _ =>
        have := hd y (by simp)
        simp [allAnd, this]
    have hsem := (clause_cond h).2.means row
    rw [hc] at hsem ⊢
    have hsem : joinTri (Cond.sflatL row ds) = cl.says row := by
      rw [← hsem]
      simp only [Cond.textSem, Cond.sflat, effBr, Bool.false_and, Bool.false_eq_true, if_false]
      rw [orList_flat row ds ho.leaf ho.or]
      cases ds <;> rfl
    simp only [wheresStep, whereStep, Held.addAnd, Held.andNoOr, Cond.held, hall, hany, Held.box, hsem, Tri.notIf]
    cases noOr <;> simp

theorem sflatL_clauses (row : Row) (ds : List Clause) (h : ∀ d ∈ ds, d.OK) :
    Cond.sflatL row (ds.map Clause.cond) = ds.flatMap (Clause.facs row) := by
  induction ds with
  | nil => rfl
  | cons d ds ih =>
    simp only [List.map_cons, Cond.sflatL, List.flatMap_cons, (clause_flat (h d (by simp)) row).1, ih fun x hx => h x (by simp [hx])]

theorem where_step (row : Row) (s : Option (List (Bool × Tri) × Bool)) (ds : List Clause) (h : ∀ d ∈ ds, d.OK) :
    whereStep row s (ds.map Clause.cond) = wheresStep row s ds := by
  cases s with
  | none =>
    cases ds with
    | nil => rfl
    | cons d ds =>
      show some (Cond.sflatL row ((d :: ds).map Clause.cond), allAnd ((d :: ds).map Clause.cond)) =
        some ((d :: ds).flatMap (Clause.facs row), ((d :: ds).drop 1).all fun d => !d.word)
      rw [sflatL_clauses row _ h]
      have : allAnd ((d :: ds).map Clause.cond) = ((d :: ds).drop 1).all fun d => !d.word := by
        simp only [allAnd, List.map_cons, List.drop_succ_cons, List.drop_zero, List.all_map]
        rw [Bool.eq_iff_iff, List.all_eq_true, List.all_eq_true]
        refine forall_congr' fun x => ?_
        constructor
        · intro hh hx
          have := hh hx
          simpa [(clause_flat (h x (by simp [hx])) row).2.1] using this
        · intro hh hx
          have := hh hx
          simpa [(clause_flat (h x (by simp [hx])) row).2.1] using this
      rw [this]
  | some s =>
    cases ds with
    | nil => rfl
    | cons d ds =>
      cases ds with
      | nil => exact clause_member (h d (by simp)) row s
      | cons e ds =>
        obtain ⟨fs, noOr⟩ := s
        have h1 : joinedBy row false ((d :: e :: ds).map Clause.cond) = (d :: e :: ds).flatMap fun d => ssetHead false (d.facs row) := by
          unfold joinedBy
          rw [List.flatMap_map]
          clear noOr
          generalize d :: e :: ds = l at h
          induction l with
          | nil => rfl
          | cons x l ih =>
            simp only [List.flatMap_cons, (clause_flat (h x (by simp)) row).1, ih fun y hy => h y (by simp [hy])]
        have h2 : (((d :: e :: ds).map Clause.cond).all fun d => !d.isOr) = (d :: e :: ds).all fun d => !d.word := by
          generalize d :: e :: ds = l at h
          induction l with
          | nil => rfl
          | cons x l ih =>
            simp only [List.map_cons, List.all_cons, (clause_flat (h x (by simp)) row).2.1, ih fun y hy => h y (by simp [hy])]
        have h3 := sflatL_clauses row _ h
        have h0 : whereStep row (some (fs, noOr)) ((d :: e :: ds).map Clause.cond) = some (Held.box ⟨fs, noOr, false, false, false⟩ false ::
            (if noOr then [(false, joinTri (joinedBy row false ((d :: e :: ds).map Clause.cond)))]
              else Cond.sflatL row ((d :: e :: ds).map Clause.cond)), noOr || ((d :: e :: ds).map Clause.cond).all fun d => !d.isOr) := by
          simp only [List.map_cons]
          cases d.cond <;> rfl
        rw [h0, h1, h2, h3]
        rfl

theorem where_sem (row : Row) (calls : List (List Clause)) (h : ∀ c ∈ calls.flatten, c.OK) :
    (whereSem row (condsOf calls)).getD .t = wheresSay row calls := by
  unfold whereSem wheresSay
  have : ∀ s, (condsOf calls).foldl (whereStep row) s = calls.foldl (wheresStep row) s := by
    induction calls with
    | nil => intro s; rfl
    | cons ds calls ih =>
      intro s
      simp only [List.flatten_cons, List.mem_append] at h
      simp only [condsOf, List.map_cons, List.foldl_cons]
      rw [where_step row s ds fun d hd => h d (.inl hd)]
      exact ih (fun d hd => h d (.inr hd)) _
  rw [this]

/-- What any Where calls leave in the group. -/
theorem where_any (calls : List (List Clause)) (hc : ∀ c ∈ calls.flatten, c.OK) :
    WhereIs calls.flatten (fun row => wheresSay row calls) ((condsOf calls).foldl Group.groupAND newWhere.group) := by
  have hrow : Row := ⟨fun _ _ _ => .u, fun _ _ => .u, fun _ _ => .u, fun _ => false⟩
  have hne : (condsOf calls).flatten = [] ↔ calls.flatten = [] := by
    rw [condsOf_flatten]; simp
  have hread : ∀ ds ∈ condsOf calls, ∀ d ∈ ds, d.Readable ∧ d.Worded := by
    intro ds hds d hd
    have : d ∈ (condsOf calls).flatten := List.mem_flatten.mpr ⟨ds, hds, hd⟩
    rw [condsOf_flatten] at this
    obtain ⟨x, hx, rfl⟩ := List.mem_map.mp this
    exact ⟨(clause_cond (hc x hx)).2.read, (clause_flat (hc x hx) hrow).2.2⟩
  have hg := fun row => where_group row (condsOf calls) hread
  refine ⟨fun h => ?_, fun h => ?_, fun h row => ?_, ?_⟩
  · have := hg hrow
    rw [if_pos (hne.mpr h)] at this
    exact this.1
  · have := hg hrow
    rw [if_neg fun k => h (hne.mp k)] at this
    exact this.1
  · have := hg row
    rw [if_neg fun k => h (hne.mp k)] at this
    obtain ⟨_, x, hx, ht⟩ := this
    have e := where_sem row calls hc
    rw [hx] at e
    show TextMeans _ row (wheresSay row calls)
    rw [← e]
    exact ht
  · rw [leaves_calls, condsOf_flatten, testsOf, List.flatMap_map, List.map_flatMap]
    have : ∀ l : List Clause, (∀ c ∈ l, c.OK) → (l.flatMap fun a => a.cond.leaves) =
        l.flatMap fun a => (a.lits.map (·.test)).map Test.leaf := by
      intro l hl
      induction l with
      | nil => rfl
      | cons a l ih =>
        simp only [List.flatMap_cons]
        rw [ih fun c hm => hl c (by simp [hm]), (clause_cond (hl a (by simp))).2.leaves]
        simp
    exact this _ hc

/-- Where alternatives do no harm, the text says what the clauses say. -/
theorem wheres_all (calls : List (List Clause)) (hc : ∀ c ∈ calls.flatten, c.OK) (hw : wheresOK calls) (row : Row) :
    wheresSay row calls = saysAll row calls.flatten := by
  have hshape := wheres_shape calls hc hw
  by_cases hn : calls.flatten = []
  · rw [hn]
    have : ∀ cs : List (List Clause), cs.flatten = [] → cs.foldl (wheresStep row) none = none := by
      intro cs
      induction cs with
      | nil => intro _; rfl
      | cons ds cs ih =>
        intro h
        simp only [List.flatten_cons, List.append_eq_nil_iff] at h
        obtain ⟨rfl, h⟩ := h
        exact ih h
    rw [wheresSay, this _ hn]
    rfl
  · have hne : (condsOf calls).flatten ≠ [] := by rw [condsOf_flatten]; simpa using hn
    have hread : ∀ d ∈ (condsOf calls).flatten, d.Readable := by
      rw [condsOf_flatten]
      intro d hd
      obtain ⟨x, hx, rfl⟩ := List.mem_map.mp hd
      exact (clause_cond (hc x hx)).2.read
    have := where_means (g := newWhere.group) (condsOf calls) row (·.textSem row) rfl rfl (fun ds hd d h =>
      have hr := hread d (List.mem_flatten.mpr ⟨ds, hd, h⟩)
      ⟨hr, (textMeans_iff d row _ hr).mpr rfl⟩) hshape hne
    rw [condsOf_flatten, List.map_map] at this
    have e : calls.flatten.map ((·.textSem row) ∘ Clause.cond) = calls.flatten.map (Clause.says row) :=
      List.map_congr_left fun c hm => (clause_cond (hc c hm)).2.means row
    rw [e] at this
    have h1 := (where_any calls hc).means hn row
    have h2 := (where_any calls hc).read hn
    exact ((textMeans_iff _ row _ h2).mp h1).symm.trans ((textMeans_iff _ row _ h2).mp this)

mutual
theorem leaves_vals (c : Cond) (h : c.Readable) : c.valuesP = c.leaves.flatMap (·.vals) := by
  cases c with
  | fieldc k b fv =>
    simp only [Cond.valuesP, Cond.leaves, List.flatMap_cons, List.flatMap_nil, List.append_nil, bindsOf]
    cases fieldcValues k fv <;> rfl
  | null b fd => rfl
  | custom b x => exact absurd h (by simp [Cond.Readable, Cond.Every, ReadableNode])
  | group b cs br =>
    simp only [Cond.valuesP, Cond.leaves]
    exact leaves_valsL cs fun c hc => (readable_group.mp h).2.2 c hc
theorem leaves_valsL (cs : List Cond) (h : ∀ c ∈ cs, c.Readable) : Cond.valuesPL cs = (Cond.leavesL cs).flatMap (·.vals) := by
  cases cs with
  | nil => rfl
  | cons c cs =>
    simp only [Cond.valuesPL, Cond.leavesL, List.flatMap_append]
    rw [leaves_vals c (h c (by simp)), leaves_valsL cs fun d hd => h d (by simp [hd])]
end

theorem whereIs_values {cs : List Clause} {S : Row → Tri} {g : Group} (h : WhereIs cs S g) (hne : cs ≠ []) :
    g.toCond.values = .ok (paramsOf cs) := by
  rw [readable_valuesP (h.read hne), leaves_vals _ (h.read hne), h.leaves, List.flatMap_map]
  rfl

theorem paramsOf_nil : paramsOf [] = [] := rfl

/-- What a readable condition reads as, in a statement, is what the clauses say. -/
theorem condIs_of {cs : List Clause} {S : Row → Tri} {g : Group} {params : List Val} {e : BExp} (h : WhereIs cs S g) (hne : cs ≠ [])
    (hr : CondRead g.toCond params e) : CondIs cs S params (some e) := by
  rw [CondIs, if_neg hne]
  exact ⟨e, rfl, fun row => hr.means _ _ (h.means hne row), hr.leaves.trans h.leaves⟩

/-! ## Calls on a select -/

attribute [local simp] List.filterMap_cons SCall.fields? SCall.join? SCall.where? SCall.keys? SCall.offset? SCall.limit?

/-- The join a call adds. -/
def SCall.joiner : SCall → Option TableJoiner
  | .join k t l r => some ⟨t.ident, k.type, joinFields l.fd r.fd⟩
  | _ => none

/-- The sort keys a call adds. -/
def keySort (p : ColRef × Bool) : FieldSorting := ⟨p.1.fd, if p.2 then c!"DESC" else c!"ASC"⟩

/-- The fields of an item. -/
def itemFd (p : ColRef × Option Str) : FieldDef := { p.1.fd with alias := p.2.getD [] }

theorem on_last (q : SelectMany) (t : TableIdent) (k : Int) (l r : FieldDef) :
    (q.joinIdent t k).on l r =
      .ok { q with base := { q.base with joins := q.base.joins ++ [⟨t, k, joinFields l r⟩] } } := by
  simp [SelectMany.joinIdent, SelectMany.on, BaseSelect.joinIdent, BaseSelect.on, TableJoiner.by', joinFields]

/-- What the calls have done. -/
structure After (t : TabRef) (calls : List SCall) (q q' : SelectMany) : Prop where
  table : q'.base.baseTable = q.base.baseTable
  joins : q'.base.joins = q.base.joins ++ calls.filterMap SCall.joiner
  fields : q'.base.fields.specs =
    ((calls.filterMap SCall.fields?).getLast?.map (·.map itemFd)).getD q.base.fields.specs
  where_ : q'.base.where_.group = (condsOf (SelectProg.wheres ⟨t, calls⟩)).foldl Group.groupAND q.base.where_.group
  order : q'.order = q.order ++ (calls.filterMap SCall.keys?).flatten.map keySort
  offset : q'.offset = (calls.filterMap SCall.offset?).getLast?.getD q.offset
  limit : q'.limit = (calls.filterMap SCall.limit?).getLast?.getD q.limit

theorem getLast_cons {α : Type} (x : α) (l : List α) (d : α) : (x :: l).getLast?.getD d = l.getLast?.getD x := by
  cases l with
  | nil => rfl
  | cons y l =>
    rw [List.getLast?_cons_cons]
    cases h : (y :: l).getLast? with
    | none => simp at h
    | some z => rfl

theorem getLast_cons_map {α β : Type} (f : α → β) (x : α) (l : List α) (d : β) :
    ((x :: l).getLast?.map f).getD d = (l.getLast?.map f).getD (f x) := by
  cases l with
  | nil => rfl
  | cons y l =>
    rw [List.getLast?_cons_cons]
    cases h : (y :: l).getLast? with
    | none => simp at h
    | some z => rfl

theorem calls_run (t : TabRef) (calls : List SCall) (h : ∀ c ∈ calls, c.OK) : ∀ q, ∃ q', runCalls q calls = .ok q' ∧ After t calls q q' := by
  induction calls with
  | nil => intro q; exact ⟨q, rfl, by constructor <;> simp [SelectProg.wheres, condsOf]⟩
  | cons c calls ih =>
    have ih := ih fun d hd => h d (by simp [hd])
    have hc := h c (by simp)
    intro q
    have step : ∀ q1, c.run q = .ok q1 → After t [c] q q1 → ∃ q', runCalls q (c :: calls) = .ok q' ∧ After t (c :: calls) q q' := by
      intro q1 h1 h2
      obtain ⟨q', h3, h4⟩ := ih q1
      refine ⟨q', by simp [runCalls, h1, h3], ?_⟩
      constructor
      · rw [h4.table, h2.table]
      · rw [h4.joins, h2.joins]
        cases c <;> simp [SCall.joiner, List.filterMap_cons]
      · rw [h4.fields, h2.fields]
        cases c <;> simp [getLast_cons_map]
      · rw [h4.where_, h2.where_]
        cases c <;> simp [SelectProg.wheres, condsOf]
      · rw [h4.order, h2.order]
        cases c <;> simp
      · rw [h4.offset, h2.offset]
        cases c <;> simp [getLast_cons]
      · rw [h4.limit, h2.limit]
        cases c <;> simp [getLast_cons]
    cases c with
    | fields l =>
      refine step (q.setFields (l.map itemFd)) ?_ ?_
      · have : Res.mapL (fun p : ColRef × Option Str => field (asText p.1.text p.2)) l = .ok (l.map itemFd) :=
          mapL_ok _ _ _ fun p hp => field_as (hc p hp).1 fun a ha => ((hc p hp).2 a ha).1
        simp [SCall.run, this]
      · constructor <;> simp [SelectMany.setFields, BaseSelect.setFields, Fields.setFields, SCall.joiner, SelectProg.wheres, condsOf]
    | join k tb l r =>
      obtain ⟨h1, h2, h3, _⟩ := hc
      refine step _ (by simp only [SCall.run, SelectMany.join, table_text h1, field_col h2, field_col h3, Res.bind_ok, on_last]; rfl) ?_
      constructor <;> simp [SCall.joiner, SelectProg.wheres, condsOf]
    | addWhere cs =>
      refine step (q.addWhere (cs.map Clause.cond)) (by simp [SCall.run, clauses_call hc]) ?_
      constructor <;> simp [SelectMany.addWhere, BaseSelect.addWhere, WhereClause.groupAND, SCall.joiner, SelectProg.wheres, condsOf]
    | orderBy ks =>
      refine step (q.addOrder (ks.map keySort)) ?_ ?_
      · have : Res.mapL (fun p : ColRef × Bool => if p.2 then desc p.1.text else asc p.1.text) ks = .ok (ks.map keySort) := by
          refine mapL_ok _ _ _ fun p hp => ?_
          obtain ⟨c, d⟩ := p
          have hp := hc _ hp
          cases d
          · simp [asc_col hp, keySort]
          · simp [desc_col hp, keySort]
        simp [SCall.run, this]
      · constructor <;> simp [SelectMany.addOrder, SCall.joiner, SelectProg.wheres, condsOf]
    | offset n =>
      refine step (q.setOffset n) rfl ?_
      constructor <;> simp [SelectMany.setOffset, SCall.joiner, SelectProg.wheres, condsOf]
    | limit n =>
      refine step (q.setLimit n) rfl ?_
      constructor <;> simp [SelectMany.setLimit, SCall.joiner, SelectProg.wheres, condsOf]

end Query
