import Verif.Proof.Alg
import Verif.Proof.Combine
/-!
# C08, C11, C32: the text of conditions as SQL
-/
namespace Query

/-! ## C08: the text reads back -/

/-- C08, reading: the text of every readable condition, at every offset, reads as exactly one boolean expression; its
comparisons are, in order, those the caller built (operator, column, values bound through the placeholders), and its
placeholders are numbered in order from the offset. -/
theorem C08_reads (c : Cond) (k : Nat) (h : c.Readable) :
    ∃ s vs e, c.render k = .ok s ∧ c.values = .ok vs ∧ Reads s e ∧ (∀ e', Reads s e' → e' = e) ∧
      e.leaves (bound k vs) = c.leaves ∧ e.nums = numbersFrom k vs.length := by
  obtain ⟨h1, h2⟩ := render_reads c k h
  have hne := (flat_isF c k h).1
  have hl := flat_leaves (bound k c.valuesP) c k h (bound_agree k _)
  refine ⟨_, _, _, h1, readable_valuesP h, h2, fun e' he' => reads_unique he' h2, ?_, ?_⟩
  · rw [asm_leaves _ _ hne, hl.1]
  · rw [asm_nums _ hne, hl.2]

/-- C08, meaning: where the brackets of the text agree with the tree (`Cond.safe`), the text with its values bound has on
every row the truth value of the tree, at every offset.  Missing: trees with unbracketed groups inside groups whose
brackets matter, for which the claim is false (`C08_meaning_false`). -/
theorem C08_meaning_partial (c : Cond) (k : Nat) (row : Row) (h : c.Readable) (hs : c.safe = true) :
    ∃ s vs e, c.render k = .ok s ∧ c.values = .ok vs ∧ Reads s e ∧ e.eval row (bound k vs) = c.means row := by
  obtain ⟨h1, h2⟩ := render_reads c k h
  refine ⟨_, _, _, h1, readable_valuesP h, h2, ?_⟩
  rw [render_means c k row h, safe_sem row c h hs]

/-- A comparison with a number, for examples. -/
def exLeaf (j : Str) (neg : Bool) (name : Str) (i : Nat) : Cond := .fieldc .eq ⟨j, neg⟩ ⟨⟨name, [], []⟩, .other i⟩

/-- A row on which the columns named have the value true and the others false, for examples. -/
def exRow (ts : List Str) : Row :=
  ⟨fun _ w _ => .ofBool (ts.contains w), fun w _ => .ofBool (ts.contains w), fun w _ => .ofBool (ts.contains w),
    fun w => ts.contains w⟩

theorem exLeaf_readable {j : Str} {neg : Bool} {name : Str} {i : Nat} (h : PlainName name) :
    (exLeaf j neg name i).Readable := by
  refine ⟨⟨Or.inl rfl, ?_⟩, ⟨.other i, rfl⟩⟩
  simpa [FieldDef.col] using h

theorem plainName_ex {name : Str} (h : name ∈ [c!"a", c!"b", c!"c", c!"d", c!"z", c!"p", c!"q"]) : PlainName name := by
  simp only [List.mem_cons, List.not_mem_nil, or_false] at h
  unfold PlainName
  rcases h with rfl | rfl | rfl | rfl | rfl | rfl | rfl <;> decide

/-- Names for examples. -/
theorem exA {j : Str} {neg : Bool} {i : Nat} : (exLeaf j neg c!"a" i).Readable := exLeaf_readable (plainName_ex (by simp))
theorem exB {j : Str} {neg : Bool} {i : Nat} : (exLeaf j neg c!"b" i).Readable := exLeaf_readable (plainName_ex (by simp))
theorem exC {j : Str} {neg : Bool} {i : Nat} : (exLeaf j neg c!"c" i).Readable := exLeaf_readable (plainName_ex (by simp))
theorem exD {j : Str} {neg : Bool} {i : Nat} : (exLeaf j neg c!"d" i).Readable := exLeaf_readable (plainName_ex (by simp))

/-- An example: `NOT (a=$1 OR NOT b=$2) AND c=$3`. -/
def exTree : Cond :=
  .group ⟨c!"AND", false⟩
    [.group ⟨c!"AND", true⟩ [exLeaf c!"AND" false c!"a" 1, exLeaf c!"OR" true c!"b" 2] false, exLeaf c!"AND" false c!"c" 3]
    false

example : exTree.render 0 = .ok c!"NOT (a=$1 OR NOT b=$2) AND c=$3" := rfl
example : exTree.Readable := by
  refine readable_group.mpr ⟨by simp, by simp [exLeaf, Cond.joinType, Cond.base], ?_⟩
  intro c hc
  simp only [List.mem_cons, List.not_mem_nil, or_false] at hc
  rcases hc with rfl | rfl
  · refine readable_group.mpr ⟨by simp, by simp [exLeaf, Cond.joinType, Cond.base], ?_⟩
    intro c hc
    simp only [List.mem_cons, List.not_mem_nil, or_false] at hc
    rcases hc with rfl | rfl
    · exact exA
    · exact exB
  · exact exC
example : exTree.safe = true := rfl

theorem pair_readable {b : CondBase} {br : Bool} {c d : Cond} (hc : c.Readable) (hd : d.Readable)
    (hj : d.joinType = c!"AND" ∨ d.joinType = c!"OR") : (Cond.group b [c, d] br).Readable := by
  refine readable_group.mpr ⟨by simp, by simpa using hj, ?_⟩
  intro x hx
  simp only [List.mem_cons, List.not_mem_nil, or_false] at hx
  rcases hx with rfl | rfl
  · exact hc
  · exact hd

theorem one_readable {b : CondBase} {br : Bool} {c : Cond} (hc : c.Readable) : (Cond.group b [c] br).Readable := by
  refine readable_group.mpr ⟨by simp, by simp, ?_⟩
  intro x hx
  simp only [List.mem_cons, List.not_mem_nil, or_false] at hx
  exact hx ▸ hc

/-- `Not(NewGroup(AND, Or(a, b)))`. -/
def exNotGroup : Cond := notC (newGroup lAND [orC (exLeaf lAND false c!"a" 1) [exLeaf lAND false c!"b" 2]]).toCond

/-- C08 fails for `Not(NewGroup(AND, Or(a, b)))`: the text is `NOT a=$1 OR b=$2`, which is true on rows where b holds,
where the negated group is false. -/
theorem C08_meaning_false :
    exNotGroup.Readable ∧ exNotGroup.render 0 = .ok c!"NOT a=$1 OR b=$2" ∧
      exNotGroup.means (exRow [c!"b"]) = .f ∧ TextMeans exNotGroup (exRow [c!"b"]) .t := by
  have h : exNotGroup.Readable := one_readable (pair_readable exA exB (Or.inr rfl))
  exact ⟨h, rfl, rfl, (textMeans_iff _ _ _ h).mpr rfl⟩

/-- **C08, exactly.**  For every readable condition, whatever its brackets: the text with its values bound has on every row the
truth value of the factors outside brackets joined by their join words, AND first, where a NOT before a group without brackets
binds to its first factor; and no other value. -/
theorem C08_exact (c : Cond) (row : Row) (x : Tri) (h : c.Readable) : TextMeans c row x ↔ x = c.textSem row :=
  (textMeans_iff c row x h).trans eq_comm

/-- `NOT a OR b`, where the tree says `NOT (a OR b)`. -/
example : exNotGroup.textSem (exRow [c!"b"]) = .t ∧ exNotGroup.means (exRow [c!"b"]) = .f ∧
    exNotGroup.textSem (exRow [c!"a"]) = .f := ⟨rfl, rfl, rfl⟩

/-! ## C11: Not -/

@[simp] theorem setNegate_same {c : Cond} {n : Bool} (h : c.isNegate = n) : c.setNegate n = c := by
  cases c <;> simp_all [Cond.setNegate, CondBase.setNegate, Cond.isNegate, Cond.base] <;> subst h <;> rfl

theorem readable_setNegate {c : Cond} (n : Bool) (h : c.Readable) : (c.setNegate n).Readable := by
  cases c with
  | fieldc k b fv => cases k <;> exact h
  | null b fd => exact h
  | custom b x => exact h
  | group b cs br => exact h

theorem readable_join {c : Cond} (j : Str) (h : c.Readable) : (c.join j).Readable := by
  cases c with
  | fieldc k b fv => cases k <;> exact h
  | null b fd => exact h
  | custom b x => exact h
  | group b cs br => exact h

/-- The condition is a leaf, or a group whose text Not puts in brackets or which is one factor. -/
def Cond.notable : Cond → Bool
  | .group _ cs br => br || cs.length > 1 || Cond.singleL cs
  | _ => true

theorem not_sem (c : Cond) (row : Row) (hr : c.Readable) (hn : c.isNegate = false) (h : c.notable = true) :
    (notC c).textSem row = (c.textSem row).not := by
  cases c with
  | fieldc k b fv =>
    have hb : b.negate = false := hn
    simp [notC, Cond.setNegate, CondBase.setNegate, Cond.textSem, Cond.sflat, joinTri_one, hb]
  | null b fd =>
    have hb : b.negate = false := hn
    simp [notC, Cond.setNegate, CondBase.setNegate, Cond.textSem, Cond.sflat, joinTri_one, hb]
  | custom b x => exact hr.elim
  | group b cs br =>
    have hb : b.negate = false := hn
    rw [textSem_group row b cs br hb]
    simp only [notC, Cond.setNegate, CondBase.setNegate, Cond.textSem, Cond.sflat, effBr_eq, Bool.true_and, Tri.notIf_true]
    by_cases he : (br || decide (cs.length > 1)) = true
    · rw [if_pos he, joinTri_one]
    · rw [if_neg he, joinTri_ssetHead]
      simp only [Cond.notable, Bool.or_eq_true] at h he
      have hs := h.resolve_left he
      obtain ⟨p, e⟩ := singleL_sflat row cs hr.2 hs
      rw [e]
      simp [snegHead, joinTri_one]

/-- C11: `Not(c)` is the negation of `c` on every row, for every readable condition that is not already negated and is a
leaf, a group with several members or brackets, or a group around one factor.  Missing: a group whose only member is an
unbracketed group, where it is false (`C11_not_false`). -/
theorem C11_not_partial (c : Cond) (row : Row) (x : Tri) (hr : c.Readable) (hn : c.isNegate = false)
    (h : c.notable = true) (hx : TextMeans c row x) : TextMeans (notC c) row x.not := by
  rw [textMeans_iff _ _ _ hr] at hx
  refine (textMeans_iff (notC c) row _ (readable_setNegate true hr)).mpr ?_
  rw [not_sem c row hr hn h, hx]

example : (orC (exLeaf lAND false c!"a" 1) [exLeaf lAND false c!"b" 2]).notable = true ∧
    (notC (orC (exLeaf lAND false c!"a" 1) [exLeaf lAND false c!"b" 2])).render 0 = .ok c!"NOT (a=$1 OR b=$2)" :=
  ⟨rfl, rfl⟩

/-- **C11, exactly.**  The text of `Not(c)` says the negation of `c`, except for a group around one unbracketed group, where
it negates the first factor only; `Not` of a negated condition is the condition. -/
theorem C11_exact (c : Cond) (row : Row) (x : Tri) (hr : c.Readable) : TextMeans (notC c) row x ↔
    x = if c.isNegate then c.textSem row
      else if c.notable then (c.textSem row).not
      else joinTri (snegHead true (c.sflat row)) := by
  refine (C08_exact (notC c) row x (readable_setNegate true hr)).trans ?_
  suffices h : (notC c).textSem row = if c.isNegate then c.textSem row
      else if c.notable then (c.textSem row).not else joinTri (snegHead true (c.sflat row)) by
    rw [h]
  cases hn : c.isNegate with
  | true => simp [notC, setNegate_same hn]
  | false =>
    cases hb : c.notable with
    | true => simpa using not_sem c row hr hn hb
    | false =>
      cases c with
      | fieldc k b fv => cases hb
      | null b fd => cases hb
      | custom b x => cases hb
      | group b cs br =>
        have hb' : b.negate = false := hn
        simp only [Cond.notable, Bool.or_eq_false_iff, decide_eq_false_iff_not] at hb
        obtain ⟨⟨rfl, hl⟩, -⟩ := hb
        simp only [notC, Cond.setNegate, CondBase.setNegate, Cond.textSem, Cond.sflat, effBr_eq, hb', hl, Bool.true_and,
          Bool.false_and, Bool.or_false, decide_false, Bool.false_eq_true, if_false]
        generalize Cond.sflatL row cs = l
        cases l with
        | nil => rfl
        | cons p l => rfl

example : Cond.notable (newGroup lAND [orC (exLeaf lAND false c!"a" 1) [exLeaf lAND false c!"b" 2]]).toCond = false := rfl

/-- Every leaf condition and every group of two or more members can be negated. -/
theorem C11_not_leaf (c : Cond) (hl : c.isLeaf = true) : c.notable = true := by
  cases c <;> simp_all [Cond.isLeaf, Cond.notable]

/-- C11 fails for a group around an unbracketed group: `NewGroup(AND, Or(a, b))` and its `Not` are both true on a row
where b holds. -/
theorem C11_not_false :
    let c := (newGroup lAND [orC (exLeaf lAND false c!"a" 1) [exLeaf lAND false c!"b" 2]]).toCond
    c.Readable ∧ c.isNegate = false ∧ TextMeans c (exRow [c!"b"]) .t ∧ TextMeans (notC c) (exRow [c!"b"]) .t := by
  have h : (newGroup lAND [orC (exLeaf lAND false c!"a" 1) [exLeaf lAND false c!"b" 2]]).toCond.Readable :=
    one_readable (pair_readable exA exB (Or.inr rfl))
  exact ⟨h, rfl, (textMeans_iff _ _ _ h).mpr rfl, (textMeans_iff _ _ _ (readable_setNegate true h)).mpr rfl⟩

/-- `Not` of a negated condition is that condition, not its negation. -/
theorem C11_twice (c : Cond) : notC (notC c) = notC c := by
  cases c <;> rfl

/-! ## C32: In -/

theorem inPlaceholders_eq (n count : Nat) : inPlaceholders n count = (numbersFrom n count).map fun i => '$' :: itoa i := by
  induction count generalizing n with
  | zero => rfl
  | succ m ih =>
    have e1 : inPlaceholders n (m + 1) = (c!"$" ++ itoa (n + 1)) :: inPlaceholders (n + 1) m := by
      simp only [inPlaceholders, List.range_succ_eq_map, List.map_cons, List.map_map]
      congr 1
      apply List.map_congr_left
      intro i _
      simp only [Function.comp]
      congr 2
      omega
    have e2 : numbersFrom n (m + 1) = (n + 1) :: numbersFrom (n + 1) m := by
      rw [Nat.add_comm m 1, numbersFrom_add, numbersFrom_one]
      rfl
    rw [e1, e2, ih]
    rfl

/-- C32: `In` on a field and a value that supplies one or more elements: one placeholder per element, the elements bound
in order, true exactly when the column equals one of them (three-valued), and `Not` of it its negation. -/
theorem C32_in (fn : Str) (v : Val) (fd : FieldDef) (x : Val) (xs : List Val) (hf : field fn = .ok fd)
    (hp : PlainField fd) (hv : (⟨fd, v⟩ : FieldValue).values = .ok (x :: xs)) :
    ∃ c, inC fn v = .ok c ∧ c.values = .ok (x :: xs) ∧
      (∀ k, c.render k = .ok (fd.col ++ c!" IN (" ++
        joinWith c!"," ((numbersFrom k (x :: xs).length).map fun i => '$' :: itoa i) ++ c!")")) ∧
      ∀ row, TextMeans c row (anyOf ((x :: xs).map fun y => row.cmp c!"=" fd.col y)) ∧
        TextMeans (notC c) row (anyOf ((x :: xs).map fun y => row.cmp c!"=" fd.col y)).not := by
  have hr : (Cond.fieldc .inn (newBase lAND false) ⟨fd, v⟩).Readable := ⟨hp, x, xs, hv⟩
  have hv' : (Cond.fieldc .inn (newBase lAND false) ⟨fd, v⟩).values = .ok (x :: xs) := hv
  have hb : bindsOf .inn ⟨fd, v⟩ = x :: xs := by simp only [bindsOf, fieldcValues, hv]
  have hm : ∀ row, (Cond.fieldc .inn (newBase lAND false) ⟨fd, v⟩).textSem row =
      anyOf ((x :: xs).map fun y => row.cmp c!"=" fd.col y) := by
    intro row
    simp only [Cond.textSem, Cond.sflat, joinTri_one, hb]
    rfl
  refine ⟨.fieldc .inn (newBase lAND false) ⟨fd, v⟩, ?_, hv', ?_, ?_⟩
  · simp [inC, mkField, newFieldValue, hf]
  · intro k
    simp only [Cond.render, fieldcRender, hv, Res.bind_ok, renderIn, plain_renderSpec hp, inPlaceholders_eq, newBase,
      joinWith, cmpSym]
    simp
  · intro row
    have h1 := (textMeans_iff _ row _ hr).mpr (hm row)
    exact ⟨h1, C11_not_partial _ row _ hr rfl rfl h1⟩

/-- C32 for strings: the elements are the strings of the slice. -/
theorem C32_strings (fn : Str) (ss : List Str) (fd : FieldDef) (hs : ss ≠ []) (hf : field fn = .ok fd)
    (hp : PlainField fd) :
    ∃ c, inC fn (.strs ss) = .ok c ∧ c.values = .ok (ss.map .str) ∧
      (∀ k, c.render k = .ok (fd.col ++ c!" IN (" ++
        joinWith c!"," ((numbersFrom k ss.length).map fun i => '$' :: itoa i) ++ c!")")) ∧
      ∀ row, TextMeans c row (anyOf (ss.map fun y => row.cmp c!"=" fd.col (.str y))) ∧
        TextMeans (notC c) row (anyOf (ss.map fun y => row.cmp c!"=" fd.col (.str y))).not := by
  obtain ⟨x, xs, rfl⟩ := List.exists_cons_of_ne_nil hs
  have := C32_in fn (.strs (x :: xs)) fd (.str x) (xs.map .str) hf hp rfl
  simpa [List.map_map, Function.comp_def] using this

example : field c!"id" = .ok ⟨c!"id", [], []⟩ ∧ PlainField ⟨c!"id", [], []⟩ := by
  refine ⟨rfl, Or.inl rfl, ?_⟩
  unfold PlainName
  decide

/-- C32 fails for slices the library does not take apart (such as `[]int`): one placeholder, bound to the slice itself. -/
theorem C32_slice_false (fn : Str) (i : Nat) (fd : FieldDef) (hf : field fn = .ok fd) (hp : PlainField fd) :
    ∃ c, inC fn (.other i) = .ok c ∧ c.values = .ok [.other i] ∧ ∀ k, c.render k = .ok (fd.col ++ c!" IN ($" ++
      itoa (k + 1) ++ c!")") := by
  obtain ⟨c, h1, h2, h3, _⟩ := C32_in fn (.other i) fd (.other i) [] hf hp rfl
  refine ⟨c, h1, h2, fun k => ?_⟩
  rw [h3]
  simp [numbersFrom, joinWith]

/-- C32 fails for empty lists: the text `id IN ()` is not SQL. -/
theorem C32_empty_false :
    ∃ c, inC c!"id" (.strs []) = .ok c ∧ c.render 0 = .ok c!"id IN ()" ∧ ¬ ∃ e, Reads c!"id IN ()" e := by
  refine ⟨_, rfl, rfl, ?_⟩
  rintro ⟨e, h⟩
  have := reader_finds h
  revert this
  have : readBool (lex c!"id IN ()") = none := by decide
  rw [this]
  simp

end Query
