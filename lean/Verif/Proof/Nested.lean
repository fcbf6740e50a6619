import Verif.Spec.Nested
import Verif.Proof.Adding
import Verif.Proof.Program
/-!
# What nested calls make, as factors
-/
namespace Query

set_option linter.unusedSimpArgs false

/-- How the conditions of the library take And and Or. -/
def Kind.takes : Kind → TestKind
  | .like => .like
  | .ilike => .like
  | _ => .plain

/-- Conditions side by side, as factors. -/
def membersOn (row : Row) (cs : List Cond) : Members :=
  ⟨Cond.sflatL row cs, headWord cs == c!"OR", allAnd cs, allOr cs, decide (cs.length > 1)⟩

/-- A group, as factors. -/
def Group.madeOn (row : Row) (g : Group) : MadeGroup :=
  ⟨membersOn row g.conds, g.base.negate, g.base.joinType == c!"OR", g.brackets⟩

/-- A condition, as factors. -/
def Cond.madeOn (row : Row) : Cond → Made
  | .fieldc k b fv => .test k.takes (k.says row fv.fd.col (bindsOf k fv)) b.negate (b.joinType == c!"OR")
  | .null b fd => .test .null (Tri.ofBool (row.isNull fd.col)) b.negate (b.joinType == c!"OR")
  | .custom b _ => .test .plain .t b.negate (b.joinType == c!"OR")
  | .group b cs br => .group ((⟨b, cs, br⟩ : Group).madeOn row)

/-- A condition whose text is SQL, with its words. -/
def Cond.Fine (c : Cond) : Prop := c.Readable ∧ c.Worded

theorem madeOn_word (row : Row) (c : Cond) : (c.madeOn row).word = (c.joinType == c!"OR") := by cases c <;> rfl

theorem madeOn_facs (row : Row) {c : Cond} (h : c.Readable) : (c.madeOn row).facs = c.sflat row := by
  cases c with
  | fieldc k b fv => rfl
  | null b fd => rfl
  | custom b x => exact h.elim
  | group b cs br =>
    have e : effBr b cs.length br = (br || (b.negate && decide (cs.length > 1))) := by
      unfold effBr
      generalize b.negate = n
      generalize decide (cs.length > 1) = m
      clear h
      revert n m br
      decide
    simp only [Cond.madeOn, Group.madeOn, Made.facs, membersOn, Cond.sflat, e]

theorem membersOn_one (row : Row) {c : Cond} (h : c.Readable) : membersOn row [c] = Members.one (c.madeOn row).word (c.madeOn row).facs := by
  rw [madeOn_word, madeOn_facs row h]
  simp [membersOn, Members.one, Cond.sflatL, headWord, allAnd, allOr]

theorem membersOn_append (row : Row) {cs ds : List Cond} (h : cs ≠ []) (hd : ds ≠ []) :
    membersOn row (cs ++ ds) = (membersOn row cs).then (membersOn row ds) := by
  obtain ⟨c, cs, rfl⟩ := List.exists_cons_of_ne_nil h
  obtain ⟨d, ds, rfl⟩ := List.exists_cons_of_ne_nil hd
  have hs := sflatL_append row (c :: cs) (d :: ds)
  simp only [List.cons_append] at hs
  simp only [membersOn, Members.then, headWord_append h, allAnd, allOr, List.cons_append, List.drop_one, List.tail_cons,
    List.all_append, List.all_cons, headWord, Members.mk.injEq, Cond.isOr, Bool.and_assoc, true_and, hs, and_self]
  simp
  omega

theorem membersOn_cons (row : Row) {c : Cond} {ds : List Cond} (h : c.Readable) (hd : ds ≠ []) :
    membersOn row (c :: ds) = (Members.one (c.madeOn row).word (c.madeOn row).facs).then (membersOn row ds) := by
  rw [← membersOn_one row h]; exact membersOn_append row (cs := [c]) (by simp) hd

theorem membersOn_row (row : Row) : ∀ ds : List Cond, (∀ d ∈ ds, d.Readable) → ds ≠ [] → membersOn row ds = Made.row (ds.map (Cond.madeOn row))
  | [], _, h => absurd rfl h
  | [d], h, _ => membersOn_one row (h d (by simp))
  | d :: e :: ds, h, _ => by
    rw [membersOn_cons row (h d (by simp)) (by simp), membersOn_row row (e :: ds) (fun x hx => h x (by simp [hx])) (by simp)]
    rfl

theorem wordOf_or (o : Bool) : (wordOf o == c!"OR") = o := by cases o <;> decide
theorem wordOf_word (o : Bool) : IsWord (wordOf o) := by cases o <;> simp [wordOf, IsWord, lAND, lOR]
theorem wordOf_cases (o : Bool) : wordOf o = lAND ∨ wordOf o = lOR := wordOf_word o

theorem madeOn_join (row : Row) (c : Cond) (o : Bool) : (c.join (wordOf o)).madeOn row = (c.madeOn row).withWord o := by
  cases c <;> simp [Cond.join, CondBase.join, Cond.madeOn, Made.withWord, Group.madeOn, wordOf_or]

theorem madeOn_setNegate (row : Row) (c : Cond) (n : Bool) : (c.setNegate n).madeOn row = (c.madeOn row).withNeg n := by
  cases c <;> rfl

theorem fine_join {c : Cond} (h : c.Fine) (o : Bool) : (c.join (wordOf o)).Fine := by
  refine ⟨readable_join _ h.1, ?_⟩
  have := h.2
  cases c with
  | group b cs br => exact ⟨wordOf_word o, this.2⟩
  | _ => exact wordOf_word o

theorem fine_setNegate {c : Cond} (h : c.Fine) (n : Bool) : (c.setNegate n).Fine := by
  refine ⟨readable_setNegate n h.1, ?_⟩
  have := h.2
  cases c <;> exact this

theorem fine_word {c : Cond} (h : c.Fine) : IsWord c.joinType := word_of h.2

theorem fine_group {g : Group} (hr : ReadL g.conds) (hb : IsWord g.base.joinType) (hw : IsWord (headWord g.conds)) : g.toCond.Fine :=
  ⟨readable_toCond.mpr hr, hb, hw⟩

theorem fine_readL {ds : List Cond} (hn : ds ≠ []) (h : ∀ d ∈ ds, d.Fine) : ReadL ds := readL_of_words hn h

theorem fine_head {ds : List Cond} (hn : ds ≠ []) (h : ∀ d ∈ ds, d.Fine) : IsWord (headWord ds) := by
  obtain ⟨d, ds, rfl⟩ := List.exists_cons_of_ne_nil hn
  exact fine_word (h d (by simp))

/-- A new group. -/
theorem newGroup_madeOn (row : Row) (o : Bool) {ds : List Cond} (hn : ds ≠ []) (h : ∀ d ∈ ds, d.Fine) :
    (newGroup (wordOf o) ds).madeOn row = Made.newGroup o (ds.map (Cond.madeOn row)) ∧ (newGroup (wordOf o) ds).toCond.Fine := by
  have hj : ∀ d ∈ setToAll (wordOf o) ds, d.Fine := by
    intro d hd
    obtain ⟨c, hc, rfl⟩ := setToAll_mem hd
    exact fine_join (h c hc) o
  have hne : setToAll (wordOf o) ds ≠ [] := by simpa [setToAll] using hn
  constructor
  · simp only [Group.madeOn, newGroup, Made.newGroup, newBase]
    rw [membersOn_row row _ (fun d hd => (hj d hd).1) hne]
    congr 1
    simp only [setToAll, List.map_map]
    congr 1
    apply List.map_congr_left
    intro d _
    exact madeOn_join row d o
  · exact fine_group (fine_readL hne hj) (Or.inl rfl) (fine_head hne hj)

/-- The group in brackets as a member. -/
theorem box_made (row : Row) (g : Group) (hg : g.toCond.Readable) (o : Bool) (ho : (g.base.joinType == c!"OR") = o) :
    membersOn row [g.withBrackets.toCond] = (g.madeOn row).box o := by
  rw [membersOn_one row (readable_brackets hg), madeOn_word, madeOn_facs row (readable_brackets hg), sflat_boxed]
  have : (g.withBrackets.toCond.joinType == c!"OR") = o := ho
  rw [this, ho]
  rfl

/-- The result of adding to a group. -/
structure GroupGrown (row : Row) (g r : Group) (mem : Members) : Prop where
  mem : membersOn row r.conds = mem
  base : r.base = g.base
  br : r.brackets = g.brackets
  read : ReadL r.conds
  head : IsWord (headWord r.conds)

theorem GroupGrown.made {row : Row} {g r : Group} {mem : Members} (h : GroupGrown row g r mem) :
    r.madeOn row = { g.madeOn row with mem := mem } := by
  simp only [Group.madeOn, h.mem, h.base, h.br]

theorem GroupGrown.fine {row : Row} {g r : Group} {mem : Members} (h : GroupGrown row g r mem) (hg : g.toCond.Fine) : r.toCond.Fine :=
  fine_group h.read (by rw [h.base]; exact hg.2.1) h.head

theorem grown_append {row : Row} {g r : Group} {ds : List Cond} (hg : g.toCond.Fine) (h1 : r.conds = g.conds ++ ds) (h2 : r.base = g.base)
    (h3 : r.brackets = g.brackets) (hd : ReadL ds) (hh : IsWord (headWord ds)) :
    GroupGrown row g r ((g.madeOn row).mem.then (membersOn row ds)) := by
  have hgR : ReadL g.conds := readable_toCond.mp hg.1
  refine ⟨?_, h2, h3, ?_, ?_⟩
  · rw [h1, membersOn_append row hgR.1 hd.1]; rfl
  · rw [h1]; exact readL_append hgR hd (head_words hh)
  · rw [h1, headWord_append hgR.1]; exact hg.2.2

theorem grown_box {row : Row} {g r : Group} {ds : List Cond} (hg : g.toCond.Fine) (h1 : r.conds = g.withBrackets.toCond :: ds) (h2 : r.base = g.base)
    (h3 : r.brackets = g.brackets) (hd : ReadL ds) (hh : IsWord (headWord ds)) :
    GroupGrown row g r (((g.madeOn row).box (g.madeOn row).word).then (membersOn row ds)) := by
  have hgR : ReadL g.conds := readable_toCond.mp hg.1
  refine ⟨?_, h2, h3, ?_, ?_⟩
  · have e := box_made row g hg.1 (g.madeOn row).word rfl
    rw [h1, ← e]; exact membersOn_append row (cs := [_]) (by simp) hd.1
  · rw [h1]; exact readL_bracket_cons g hgR _ hd (head_words hh)
  · rw [h1]; exact hg.2.1

theorem leaf_made (row : Row) {d : Cond} (h : d.asGroup = none) : ∃ k x neg w, d.madeOn row = .test k x neg w := by
  cases d <;> first | exact ⟨_, _, _, _, rfl⟩ | cases h

theorem group_made (row : Row) (a : Group) : a.toCond.madeOn row = .group (a.madeOn row) := rfl

/-- And with one condition. -/
theorem grown_and_one (row : Row) (g : Group) (d : Cond) (hg : g.toCond.Fine) (hd : d.Fine) :
    GroupGrown row g (g.groupAND [d]) ((g.madeOn row).addAnd [d.madeOn row]) := by
  have hgR : ReadL g.conds := readable_toCond.mp hg.1
  unfold Group.groupAND
  rw [addConditions_one g lAND d hgR.1]
  cases hdg : d.asGroup with
  | none =>
    obtain ⟨e1, e2, e3⟩ := addSingle_leaf g d lAND hgR hdg (Or.inl rfl)
    rw [hasAll_and hgR] at e1
    obtain ⟨k, x, neg, w, hm⟩ := leaf_made row hdg
    have hj := fine_join hd false
    have hmj := madeOn_join row d false
    rw [hm] at hmj
    have hmem : membersOn row [d.join lAND] = Made.row [.test k x neg false] := by
      rw [show d.join lAND = d.join (wordOf false) from rfl, membersOn_one row hj.1, hmj]; rfl
    rw [hm]
    simp only [MadeGroup.addAnd]
    rw [← hmem]
    rcases Bool.eq_false_or_eq_true (allAnd g.conds) with hA | hA
    · rw [hA, if_pos rfl] at e1
      rw [if_pos (show (g.madeOn row).mem.noOr = true from hA)]
      exact grown_append hg e1 e2 e3 (readL_one hj.1) (fine_word hj)
    · rw [hA, if_neg (by simp)] at e1
      rw [if_neg (show ¬ (g.madeOn row).mem.noOr = true by show ¬ allAnd g.conds = true; simp [hA])]
      exact grown_box hg e1 e2 e3 (readL_one hj.1) (fine_word hj)
  | some a =>
    obtain rfl := asGroup_some hdg
    have haR : ReadL a.conds := readable_toCond.mp hd.1
    have e0 : g.addSingleCondition (a.toCond.join lAND) = g.addGroup { a with base := a.base.join lAND } := rfl
    rw [e0]
    obtain ⟨e1, e2, e3⟩ := addGroup_and g { a with base := a.base.join lAND } hgR haR rfl
    simp only at e1
    have hbox : membersOn row [({ a with base := a.base.join lAND } : Group).withBrackets.toCond] = (a.madeOn row).box false :=
      box_made row { a with base := a.base.join lAND } hd.1 false (by show (lAND == c!"OR") = false; decide)
    have hbr : (({ a with base := a.base.join lAND } : Group).withBrackets.toCond).Readable := hd.1
    have hbw : IsWord (headWord [({ a with base := a.base.join lAND } : Group).withBrackets.toCond]) := Or.inl rfl
    show GroupGrown row g _ ((g.madeOn row).addAnd [.group (a.madeOn row)])
    simp only [MadeGroup.addAnd]
    rw [← hbox]
    have ha : (a.madeOn row).mem = membersOn row a.conds := rfl
    have n1 : (g.madeOn row).mem.noOr = allAnd g.conds := rfl
    have n2 : (a.madeOn row).mem.noOr = allAnd a.conds := rfl
    have n3 : (a.madeOn row).mem.noAnd = allOr a.conds := rfl
    have m2 : (membersOn row a.conds).noOr = allAnd a.conds := rfl
    have m3 : (membersOn row a.conds).noAnd = allOr a.conds := rfl
    simp only [n1, n2, n3, ha, m2, m3]
    rcases Bool.eq_false_or_eq_true (allAnd g.conds) with hA | hA
    · rcases Bool.eq_false_or_eq_true (allAnd a.conds) with hB | hB <;>
        simp only [hA, hB, Bool.false_eq_true, if_false, if_true] at e1 ⊢
      · exact grown_append hg e1 e2 e3 haR hd.2.2
      · exact grown_append hg e1 e2 e3 (readL_one hbr) hbw
    · rcases Bool.eq_false_or_eq_true (allOr a.conds) with hB | hB <;>
        simp only [hA, hB, Bool.false_eq_true, if_false, if_true] at e1 ⊢
      · exact grown_box hg e1 e2 e3 (readL_one hbr) hbw
      · exact grown_box hg e1 e2 e3 haR hd.2.2

/-- Or with one condition. -/
theorem grown_or_one (row : Row) (g : Group) (d : Cond) (hg : g.toCond.Fine) (hd : d.Fine) :
    GroupGrown row g (g.groupOR [d]) ((g.madeOn row).addOr [d.madeOn row]) := by
  have hgR : ReadL g.conds := readable_toCond.mp hg.1
  unfold Group.groupOR
  rw [addConditions_one g lOR d hgR.1]
  cases hdg : d.asGroup with
  | none =>
    obtain ⟨e1, e2, e3⟩ := addSingle_leaf g d lOR hgR hdg (Or.inr rfl)
    rw [hasAll_or] at e1
    obtain ⟨k, x, neg, w, hm⟩ := leaf_made row hdg
    have hj := fine_join hd true
    have hmj := madeOn_join row d true
    rw [hm] at hmj
    have hmem : membersOn row [d.join lOR] = Made.row [.test k x neg true] := by
      rw [show d.join lOR = d.join (wordOf true) from rfl, membersOn_one row hj.1, hmj]; rfl
    rw [hm]
    simp only [MadeGroup.addOr]
    rw [← hmem]
    rcases Bool.eq_false_or_eq_true (allOr g.conds) with hA | hA
    · rw [hA, if_pos rfl] at e1
      rw [if_pos (show (g.madeOn row).mem.noAnd = true from hA)]
      exact grown_append hg e1 e2 e3 (readL_one hj.1) (fine_word hj)
    · rw [hA, if_neg (by simp)] at e1
      rw [if_neg (show ¬ (g.madeOn row).mem.noAnd = true by show ¬ allOr g.conds = true; simp [hA])]
      exact grown_box hg e1 e2 e3 (readL_one hj.1) (fine_word hj)
  | some a =>
    obtain rfl := asGroup_some hdg
    have haR : ReadL a.conds := readable_toCond.mp hd.1
    have e0 : g.addSingleCondition (a.toCond.join lOR) = g.addGroup { a with base := a.base.join lOR } := rfl
    rw [e0]
    obtain ⟨e1, e2, e3⟩ := addGroup_or g { a with base := a.base.join lOR } hgR haR rfl
    simp only at e1
    have hbox : membersOn row [({ a with base := a.base.join lOR } : Group).withBrackets.toCond] = (a.madeOn row).box true :=
      box_made row { a with base := a.base.join lOR } hd.1 true (by show (lOR == c!"OR") = true; decide)
    have hbr : (({ a with base := a.base.join lOR } : Group).withBrackets.toCond).Readable := hd.1
    have hbw : IsWord (headWord [({ a with base := a.base.join lOR } : Group).withBrackets.toCond]) := Or.inr rfl
    show GroupGrown row g _ ((g.madeOn row).addOr [.group (a.madeOn row)])
    simp only [MadeGroup.addOr]
    rw [← hbox]
    have ha : (a.madeOn row).mem = membersOn row a.conds := rfl
    have n1 : (g.madeOn row).mem.noAnd = allOr g.conds := rfl
    have n3 : (a.madeOn row).mem.noAnd = allOr a.conds := rfl
    have m3 : (membersOn row a.conds).noAnd = allOr a.conds := rfl
    simp only [n1, n3, ha, m3]
    rcases Bool.eq_false_or_eq_true (allOr g.conds) with hA | hA <;> rcases Bool.eq_false_or_eq_true (allOr a.conds) with hB | hB <;>
      simp only [hA, hB, Bool.false_eq_true, if_false, if_true] at e1 ⊢
    · exact grown_append hg e1 e2 e3 haR hd.2.2
    · exact grown_append hg e1 e2 e3 (readL_one hbr) hbw
    · exact grown_box hg e1 e2 e3 haR hd.2.2
    · exact grown_box hg e1 e2 e3 (readL_one hbr) hbw

theorem addAnd_many (h : MadeGroup) (m n : Made) (ms : List Made) : h.addAnd (m :: n :: ms) =
    (h.box h.word).then (if h.mem.noOr then (Made.newGroup false (m :: n :: ms)).box false else Made.row (m :: n :: ms)) := by
  cases m <;> rfl

theorem addOr_many (h : MadeGroup) (m n : Made) (ms : List Made) : h.addOr (m :: n :: ms) =
    if h.mem.noAnd then (h.box h.word).then ((Made.newGroup false (m :: n :: ms)).box false)
    else h.mem.then (Made.row [.group { Made.newGroup true (m :: n :: ms) with word := true }]) := by
  cases m <;> rfl

/-- And with several conditions. -/
theorem grown_and_many (row : Row) (g : Group) (d e : Cond) (ds : List Cond) (hg : g.toCond.Fine) (hd : ∀ x ∈ d :: e :: ds, x.Fine) :
    GroupGrown row g (g.groupAND (d :: e :: ds)) ((g.madeOn row).addAnd ((d :: e :: ds).map (Cond.madeOn row))) := by
  have hgR : ReadL g.conds := readable_toCond.mp hg.1
  have hl : decide (g.conds.length > 0) = true := by simpa [List.length_pos_iff] using hgR.1
  have hAO : (lAND == lOR) = false := by decide
  obtain ⟨hN1, hN2⟩ := newGroup_madeOn row false (by simp) hd
  have hbox := box_made row (newGroup (wordOf false) (d :: e :: ds)) hN2.1 false (show (lAND == c!"OR") = false by decide)
  rw [hN1] at hbox
  have n1 : (g.madeOn row).mem.noOr = allAnd g.conds := rfl
  have e0 : (g.madeOn row).addAnd ((d :: e :: ds).map (Cond.madeOn row)) = ((g.madeOn row).box (g.madeOn row).word).then
      (if allAnd g.conds then membersOn row [(newGroup (wordOf false) (d :: e :: ds)).withBrackets.toCond] else membersOn row (d :: e :: ds)) := by
    rw [hbox, membersOn_row row (d :: e :: ds) (fun x hx => (hd x hx).1) (by simp)]
    simp only [List.map_cons, addAnd_many, n1]
  rw [e0]
  unfold Group.groupAND Group.addConditions
  simp only [hl, Bool.not_true, Bool.false_eq_true, if_false, List.length_cons, hasOne_or, hAO, Bool.and_false, beq_self_eq_true, Bool.and_true]
  rw [if_neg (by simp)]
  rcases Bool.eq_false_or_eq_true (allAnd g.conds) with hA | hA <;>
    simp only [hA, Bool.false_eq_true, if_false, if_true, Bool.not_true, Bool.not_false]
  · exact grown_box hg rfl rfl rfl (readL_one (readable_brackets hN2.1)) (Or.inl rfl)
  · exact grown_box hg rfl rfl rfl (fine_readL (by simp) hd) (fine_head (by simp) hd)

/-- Or with several conditions. -/
theorem grown_or_many (row : Row) (g : Group) (d e : Cond) (ds : List Cond) (hg : g.toCond.Fine) (hd : ∀ x ∈ d :: e :: ds, x.Fine) :
    GroupGrown row g (g.groupOR (d :: e :: ds)) ((g.madeOn row).addOr ((d :: e :: ds).map (Cond.madeOn row))) := by
  have hgR : ReadL g.conds := readable_toCond.mp hg.1
  have hl : decide (g.conds.length > 0) = true := by simpa [List.length_pos_iff] using hgR.1
  have hOA : (lOR == lAND) = false := by decide
  obtain ⟨hN1, hN2⟩ := newGroup_madeOn row false (by simp) hd
  obtain ⟨hO1, hO2⟩ := newGroup_madeOn row true (by simp) hd
  have hbox := box_made row (newGroup (wordOf false) (d :: e :: ds)) hN2.1 false (show (lAND == c!"OR") = false by decide)
  rw [hN1] at hbox
  have hOj := fine_join hO2 true
  have n1 : (g.madeOn row).mem.noAnd = allOr g.conds := rfl
  have e0 : (g.madeOn row).addOr ((d :: e :: ds).map (Cond.madeOn row)) =
      (if allOr g.conds then ((g.madeOn row).box (g.madeOn row).word).then (membersOn row [(newGroup (wordOf false) (d :: e :: ds)).withBrackets.toCond])
      else (g.madeOn row).mem.then (membersOn row [(newGroup (wordOf true) (d :: e :: ds)).toCond.join (wordOf true)])) := by
    rw [hbox, membersOn_one row hOj.1, madeOn_join, group_made, hO1]
    simp only [List.map_cons, addOr_many, n1]
    rfl
  rw [e0]
  unfold Group.groupOR Group.addConditions
  simp only [hl, Bool.not_true, Bool.false_eq_true, if_false, List.length_cons, hasOne_and hgR, hOA, Bool.and_false, beq_self_eq_true, Bool.and_true]
  rw [if_neg (by simp)]
  rcases Bool.eq_false_or_eq_true (allOr g.conds) with hA | hA <;>
    simp only [hA, Bool.false_eq_true, if_false, if_true, Bool.not_true, Bool.not_false]
  · exact grown_box hg rfl rfl rfl (readL_one (readable_brackets hN2.1)) (Or.inl rfl)
  · exact grown_append hg rfl rfl rfl (readL_one hOj.1) (fine_word hOj)

theorem grown_none (row : Row) (g : Group) (hg : g.toCond.Fine) : GroupGrown row g g (g.madeOn row).mem :=
  ⟨rfl, rfl, rfl, readable_toCond.mp hg.1, hg.2.2⟩

theorem grown_and (row : Row) (g : Group) (ds : List Cond) (hg : g.toCond.Fine) (hd : ∀ x ∈ ds, x.Fine) :
    GroupGrown row g (g.groupAND ds) ((g.madeOn row).addAnd (ds.map (Cond.madeOn row))) := by
  match ds, hd with
  | [], _ => exact grown_none row g hg
  | [d], hd => exact grown_and_one row g d hg (hd d (by simp))
  | d :: e :: ds, hd => exact grown_and_many row g d e ds hg hd

theorem grown_or (row : Row) (g : Group) (ds : List Cond) (hg : g.toCond.Fine) (hd : ∀ x ∈ ds, x.Fine) :
    GroupGrown row g (g.groupOR ds) ((g.madeOn row).addOr (ds.map (Cond.madeOn row))) := by
  match ds, hd with
  | [], _ => exact grown_none row g hg
  | [d], hd => exact grown_or_one row g d hg (hd d (by simp))
  | d :: e :: ds, hd => exact grown_or_many row g d e ds hg hd

/-! ## Functions and methods -/

/-- The group that And and Or add to. -/
theorem recv_made (row : Row) (o : Bool) {c : Cond} (h : c.Fine) :
    (recvG (wordOf o) c).madeOn row = (c.madeOn row).recv o ∧ (recvG (wordOf o) c).toCond.Fine := by
  cases hc : c.asGroup with
  | none =>
    have e : recvG (wordOf o) c = newGroup (wordOf o) [c] := by unfold recvG; rw [hc]
    rw [e]
    obtain ⟨h1, h2⟩ := newGroup_madeOn row o (ds := [c]) (by simp) (by simpa using h)
    refine ⟨?_, h2⟩
    rw [h1]
    obtain ⟨k, x, neg, w, hm⟩ := leaf_made row hc
    simp only [List.map_cons, List.map_nil, hm, Made.recv]
  | some a =>
    obtain rfl := asGroup_some hc
    exact ⟨rfl, h⟩

/-- What a call makes. -/
structure Makes (row : Row) (c : Cond) (m : Made) : Prop where
  made : c.madeOn row = m
  fine : c.Fine

theorem makes_and_group {row : Row} {c : Cond} {m : Made} {cs : List Cond} (h : Makes row c m) (hc : ∀ x ∈ cs, x.Fine) :
    Makes row ((recvG lAND c).groupAND cs).toCond
      (.group { m.recv false with mem := (m.recv false).addAnd (cs.map (Cond.madeOn row)) }) := by
  obtain ⟨h1, h2⟩ := recv_made row false h.fine
  have G := grown_and row (recvG (wordOf false) c) cs h2 hc
  refine ⟨?_, G.fine h2⟩
  rw [← h.made, ← h1]
  exact congrArg Made.group G.made

theorem makes_or_group {row : Row} {c : Cond} {m : Made} {cs : List Cond} (h : Makes row c m) (hc : ∀ x ∈ cs, x.Fine) :
    Makes row ((recvG lOR c).groupOR cs).toCond
      (.group { m.recv true with mem := (m.recv true).addOr (cs.map (Cond.madeOn row)) }) := by
  obtain ⟨h1, h2⟩ := recv_made row true h.fine
  have G := grown_or row (recvG (wordOf true) c) cs h2 hc
  refine ⟨?_, G.fine h2⟩
  rw [← h.made, ← h1]
  exact congrArg Made.group G.made

theorem makes_join {row : Row} {c : Cond} {m : Made} (h : Makes row c m) (o : Bool) : Makes row (c.join (wordOf o)) (m.withWord o) :=
  ⟨by rw [madeOn_join, h.made], fine_join h.fine o⟩

theorem makes_fn {row : Row} {c : Cond} {m : Made} {cs : List Cond} (o : Bool) (h : Makes row c m) (hc : ∀ x ∈ cs, x.Fine) :
    Makes row (if o then orC c cs else andC c cs) (m.fn o (cs.map (Cond.madeOn row))) := by
  cases cs with
  | nil =>
    have : (if o then orC c [] else andC c []) = c.join (wordOf o) := by cases o <;> rfl
    rw [this]
    exact makes_join h o
  | cons d ds =>
    cases o with
    | false =>
      simp only [Bool.false_eq_true, if_false]
      rw [and_function c _ (by simp)]
      exact makes_and_group h hc
    | true =>
      simp only [if_true]
      rw [or_function c _ (by simp)]
      exact makes_join (makes_or_group h hc) true

theorem made_kind_plain {row : Row} {c : Cond} {x : Tri} {neg w : Bool} (h : c.madeOn row = .test .plain x neg w) (ds : List Cond) :
    c.and ds = andC c ds ∧ c.or ds = .ok (orC c ds) := by
  cases c with
  | fieldc k b fv => cases k <;> first | exact ⟨rfl, rfl⟩ | (simp [Cond.madeOn, Kind.takes] at h)
  | null b fd => simp [Cond.madeOn] at h
  | custom b x => exact ⟨rfl, rfl⟩
  | group b cs br => simp [Cond.madeOn] at h

theorem made_kind_like {row : Row} {c : Cond} {x : Tri} {neg w : Bool} (h : c.madeOn row = .test .like x neg w) (ds : List Cond) :
    c.and ds = ((recvG lAND c).groupAND ds).toCond ∧ c.or ds = .ok ((recvG lOR c).groupOR ds).toCond := by
  cases c with
  | fieldc k b fv => cases k <;> first | exact ⟨rfl, rfl⟩ | (simp [Cond.madeOn, Kind.takes] at h)
  | null b fd => simp [Cond.madeOn] at h
  | custom b x => simp [Cond.madeOn] at h
  | group b cs br => simp [Cond.madeOn] at h

theorem made_kind_null {row : Row} {c : Cond} {x : Tri} {neg w : Bool} (h : c.madeOn row = .test .null x neg w) (ds : List Cond) :
    c.and ds = ((recvG lAND c).groupAND ds).toCond ∧ c.or ds = .panic .nilDeref := by
  cases c with
  | fieldc k b fv => cases k <;> simp [Cond.madeOn, Kind.takes] at h
  | null b fd => exact ⟨rfl, rfl⟩
  | custom b x => simp [Cond.madeOn] at h
  | group b cs br => simp [Cond.madeOn] at h

theorem made_kind_group {row : Row} {c : Cond} {g : MadeGroup} (h : c.madeOn row = .group g) (ds : List Cond) :
    c.and ds = ((recvG lAND c).groupAND ds).toCond ∧ c.or ds = .ok ((recvG lOR c).groupOR ds).toCond := by
  cases c <;> first | exact ⟨rfl, rfl⟩ | (simp [Cond.madeOn] at h)

/-- What a call gives: the condition, or the panic of Or on IS NULL. -/
def Gets (row : Row) (r : Res Cond) : Option Made → Prop
  | some m => ∃ c, r = .ok c ∧ Makes row c m
  | none => r = .panic .nilDeref

theorem gets_method {row : Row} {c : Cond} {m : Made} {cs : List Cond} (o : Bool) (h : Makes row c m) (hc : ∀ x ∈ cs, x.Fine) :
    Gets row (if o then c.or cs else .ok (c.and cs)) (m.method o (cs.map (Cond.madeOn row))) := by
  match m, h with
  | .test .plain x neg w, h =>
    obtain ⟨e1, e2⟩ := made_kind_plain h.made cs
    refine ⟨_, ?_, makes_fn o h hc⟩
    cases o with
    | false => simp only [Bool.false_eq_true, if_false, e1]
    | true => simp only [if_true, e2]
  | .test .like x neg w, h =>
    obtain ⟨e1, e2⟩ := made_kind_like h.made cs
    cases o with
    | false => exact ⟨_, by simp only [Bool.false_eq_true, if_false, e1], makes_and_group h hc⟩
    | true => exact ⟨_, by simp only [if_true, e2], makes_or_group h hc⟩
  | .test .null x neg w, h =>
    obtain ⟨e1, e2⟩ := made_kind_null h.made cs
    cases o with
    | false => exact ⟨_, by simp only [Bool.false_eq_true, if_false, e1], makes_and_group h hc⟩
    | true => exact e2
  | .group g, h =>
    obtain ⟨e1, e2⟩ := made_kind_group h.made cs
    cases o with
    | false => exact ⟨_, by simp only [Bool.false_eq_true, if_false, e1], makes_and_group h hc⟩
    | true => exact ⟨_, by simp only [if_true, e2], makes_or_group h hc⟩

/-- A test. -/
theorem makes_test (row : Row) (t : Test) (h : t.OK) : ∃ c, t.call = .ok c ∧ Makes row c (.test t.kind (t.says row) false false) := by
  obtain ⟨c, h1, h2⟩ := lit_call ⟨false, t⟩ h
  obtain ⟨d, h3, h4⟩ := Res.bind_eq_ok.mp h1
  simp only [Bool.false_eq_true, if_false, Res.ok.injEq] at h4
  subst h4
  have hsem := h2.means row
  have hj := h2.join
  refine ⟨d, h3, ?_, h2.read, ?_⟩
  · have hk : ∀ k b fv, d = .fieldc k b fv → k.takes = t.kind ∧ b.negate = false := by
      intro k b fv e
      subst e
      cases t with
      | cmp op c v w =>
        cases op <;>
          simp only [Test.call, equalTo, greaterThan, greaterOrEqual, less, lessOrEqual, mkField_col h.1, Res.ok.injEq, Cond.fieldc.injEq] at h3 <;>
          exact ⟨by rw [← h3.1]; rfl, by rw [← h3.2.1]⟩
      | isIn c v ws =>
        simp only [Test.call, inC, mkField_col h.1, Res.ok.injEq, Cond.fieldc.injEq] at h3
        exact ⟨by rw [← h3.1]; rfl, by rw [← h3.2.1]⟩
      | has c s =>
        simp only [Test.call, contains, mkField_col h, Res.ok.injEq, Cond.fieldc.injEq] at h3
        exact ⟨by rw [← h3.1]; rfl, by rw [← h3.2.1]⟩
      | ihas c s =>
        simp only [Test.call, iContains, mkField_col h, Res.ok.injEq, Cond.fieldc.injEq] at h3
        exact ⟨by rw [← h3.1]; rfl, by rw [← h3.2.1]⟩
      | null c =>
        simp only [Test.call, isNull, field_col h, Res.bind_ok, Res.ok.injEq] at h3
        cases h3
    cases d with
    | fieldc k b fv =>
      obtain ⟨k1, k2⟩ := hk k b fv rfl
      have hj : b.joinType = c!"AND" := hj
      simp only [Cond.textSem, Cond.sflat, joinTri_one, k2, Lit.says] at hsem
      have hsem : k.says row fv.fd.col (bindsOf k fv) = t.says row := hsem
      simp only [Cond.madeOn, k1, k2, hj, hsem]
      rfl
    | null b fd =>
      have hn := h2.null b fd rfl
      cases t with
      | null c =>
        simp only [Test.call, isNull, field_col h, Res.bind_ok, Res.ok.injEq, Cond.null.injEq] at h3
        rw [← h3.1, ← h3.2]
        simp only [Cond.madeOn, newBase, Test.kind, Test.says, fd_col h]
        rfl
      | _ => cases hn
    | custom b x => exact h2.read.elim
    | group b cs br => exact absurd h2.leaf (by simp [Cond.isLeaf])
  · have := h2.leaf
    cases d with
    | fieldc k b fv => exact Or.inl hj
    | null b fd => exact Or.inl hj
    | custom b x => cases this
    | group b cs br => cases this

theorem newGroupI_some (j : Str) (cs : List Cond) : newGroupI j (cs.map some) = .ok (newGroup j cs) := by
  have : ∀ cs : List Cond, setToAllI j (cs.map some) = .ok (setToAll j cs) := by
    intro cs
    induction cs with
    | nil => rfl
    | cons c cs ih =>
      simp only [setToAllI, setToAll] at ih ⊢
      simp only [List.map_cons, Res.mapL, joinOneI, Res.bind_ok, ih]
  unfold newGroupI
  rw [this]; rfl

/-- What the calls of several expressions give. -/
def GetsL (row : Row) (r : Res (List Cond)) : Option (List Made) → Prop
  | some ms => ∃ cs, r = .ok cs ∧ cs.map (Cond.madeOn row) = ms ∧ ∀ c ∈ cs, c.Fine
  | none => r = .panic .nilDeref

theorem gets_bind {row : Row} {r : Res Cond} {om : Option Made} {f : Cond → Res Cond} {k : Made → Option Made} (h : Gets row r om)
    (hf : ∀ c m, Makes row c m → Gets row (f c) (k m)) : Gets row (r.bind f) (om.bind k) := by
  cases om with
  | none =>
    have h : r = .panic .nilDeref := h
    rw [h]; rfl
  | some m =>
    obtain ⟨c, rfl, h2⟩ := h
    exact hf c m h2

theorem gets_map {row : Row} {r : Res Cond} {om : Option Made} {f : Cond → Cond} {k : Made → Made} (h : Gets row r om)
    (hf : ∀ c m, Makes row c m → Makes row (f c) (k m)) : Gets row (r.bind fun c => .ok (f c)) (om.map k) := by
  cases om with
  | none =>
    have h : r = .panic .nilDeref := h
    rw [h]; rfl
  | some m =>
    obtain ⟨c, rfl, h2⟩ := h
    exact ⟨f c, rfl, hf c m h2⟩

theorem getsL_bind {row : Row} {r : Res (List Cond)} {om : Option (List Made)} {f : List Cond → Res Cond} {k : List Made → Option Made}
    (h : GetsL row r om) (hf : ∀ cs : List Cond, (∀ c ∈ cs, c.Fine) → om = some (cs.map (Cond.madeOn row)) → Gets row (f cs) (k (cs.map (Cond.madeOn row)))) :
    Gets row (r.bind f) (om.bind k) := by
  cases om with
  | none =>
    have h : r = .panic .nilDeref := h
    rw [h]; rfl
  | some ms =>
    obtain ⟨cs, rfl, rfl, h3⟩ := h
    exact hf cs h3 rfl

namespace CondExp

theorem madeL_length (row : Row) : ∀ (es : List CondExp) (ms : List Made), madeL row es = some ms → ms.length = es.length
  | [], ms, h => by simp only [madeL, Option.some.injEq] at h; simp [← h]
  | e :: es, ms, h => by
    simp only [madeL, Option.bind_eq_some_iff, Option.map_eq_some_iff] at h
    obtain ⟨m, _, ms', h2, rfl⟩ := h
    simp [madeL_length row es ms' h2]

mutual
/-- The calls give what the rules say. -/
theorem gets (row : Row) : ∀ e : CondExp, e.OK → Gets row e.call (e.made row)
  | .test t, h => by
    obtain ⟨c, h1, h2⟩ := makes_test row t h
    exact ⟨c, h1, h2⟩
  | .not e, h => by
    simp only [call, made]
    exact gets_map (gets row e h) fun c m hm => ⟨by rw [← hm.made]; exact madeOn_setNegate row c true, fine_setNegate hm.fine true⟩
  | .unnot e, h => by
    simp only [call, made]
    exact gets_map (gets row e h) fun c m hm => ⟨by rw [← hm.made]; exact madeOn_setNegate row c false, fine_setNegate hm.fine false⟩
  | .fn o e es, h => by
    simp only [call, made]
    refine gets_bind (gets row e h.1) fun c m hm => ?_
    have := getsL_bind (f := fun cs => .ok (if o then orC c cs else andC c cs)) (k := fun ms => some (m.fn o ms)) (getsL row es h.2)
      fun cs hcs _ => ⟨_, rfl, makes_fn o hm hcs⟩
    rwa [Option.map_eq_bind]
  | .method o e es, h => by
    simp only [call, made]
    refine gets_bind (gets row e h.1) fun c m hm => ?_
    exact getsL_bind (getsL row es h.2) fun cs hcs _ => gets_method o hm hcs
  | .group o es, h => by
    simp only [call, made, Option.map_eq_bind]
    refine getsL_bind (getsL row es h.2) fun cs hcs he => ?_
    have hn : cs ≠ [] := by
      have := madeL_length row es _ he
      have := List.length_pos_iff.2 h.1
      rw [List.length_map] at *
      exact List.length_pos_iff.1 (by omega)
    obtain ⟨h1, h2⟩ := newGroup_madeOn row o hn hcs
    exact ⟨_, rfl, congrArg Made.group h1, h2⟩
  | .joinAll o es, h => by
    simp only [call, made, Option.map_eq_bind]
    refine getsL_bind (getsL row es h.2) fun cs hcs he => ?_
    have hn : cs ≠ [] := by
      have := madeL_length row es _ he
      have := List.length_pos_iff.2 h.1
      rw [List.length_map] at *
      exact List.length_pos_iff.1 (by omega)
    match cs, hn, hcs with
    | [c], _, hcs => exact ⟨_, rfl, makes_join ⟨rfl, hcs c (by simp)⟩ o⟩
    | c :: d :: cs, hn, hcs =>
      obtain ⟨h1, h2⟩ := newGroup_madeOn row o hn hcs
      have e : Query.joinAll (wordOf o) ((c :: d :: cs).map some) = .ok (newGroup (wordOf o) (c :: d :: cs)).toCond := by
        simp only [List.map_cons, Query.joinAll]
        rw [← List.map_cons, ← List.map_cons, newGroupI_some]; rfl
      exact ⟨_, e, congrArg Made.group h1, h2⟩
  | .join o e, h => by
    simp only [call, made]
    exact gets_map (gets row e h) fun c m hm => makes_join hm o
  | .brackets e, h => by
    simp only [call, made]
    refine gets_map (gets row e h) fun c m hm => ?_
    obtain ⟨hm, hf⟩ := hm
    cases c with
    | group b cs br => exact ⟨by rw [← hm]; rfl, hf.1, hf.2⟩
    | _ => exact ⟨by rw [← hm]; rfl, hf⟩
/-- The calls of several expressions give what the rules say. -/
theorem getsL (row : Row) : ∀ es : List CondExp, OKL es → GetsL row (callL es) (madeL row es)
  | [], _ => ⟨[], rfl, rfl, fun _ h => nomatch h⟩
  | e :: es, h => by
    simp only [callL, madeL]
    have h1 := gets row e h.1
    have h2 := getsL row es h.2
    cases hm : e.made row with
    | none =>
      rw [hm] at h1
      have h1 : e.call = .panic .nilDeref := h1
      rw [h1]; rfl
    | some m =>
      rw [hm] at h1
      obtain ⟨c, h3, h4⟩ := h1
      rw [h3]
      cases hms : madeL row es with
      | none =>
        rw [hms] at h2
        have h2 : callL es = .panic .nilDeref := h2
        rw [h2]; rfl
      | some ms =>
        rw [hms] at h2
        obtain ⟨cs, h5, h6, h7⟩ := h2
        rw [h5]
        refine ⟨c :: cs, rfl, by simp [h4.made, h6], ?_⟩
        intro d hd
        simp only [List.mem_cons] at hd
        rcases hd with rfl | hd
        · exact h4.fine
        · exact h7 d hd
end

end CondExp

end Query
