import Verif.Spec.Exact
import Verif.Proof.StmtRead
/-!
# Conditions whose text is not SQL

The reader fails on the text of a condition with an aliased column, an empty IN or an empty group, wherever it stands.
-/
namespace Query

/-- The reader reads the tokens as an operand or operands. -/
def RG (ts : List Tok) : Prop := ∀ (fr : Frame) (stk : List Frame) (rest : List Tok), ∃ fr' : Frame, fr'.ands ≠ none ∧
  readToks ⟨.operand, fr, stk⟩ (ts ++ rest) = readToks ⟨.after, fr', stk⟩ rest

/-- Where an operand ends. -/
def Stop (rest : List Tok) : Prop := ∀ t ∈ rest.head?, t = .rpar ∨ t = .word c!"AND" ∨ t = .word c!"OR"

/-- What the reader finds from a state. -/
def readEnd (st : RState) (ts : List Tok) : Option BExp := (readToks st ts).bind RState.finish

/-- The reader fails on the tokens, whatever follows where an operand ends. -/
def RB (ts : List Tok) : Prop := ∀ (fr : Frame) (stk : List Frame) (rest : List Tok), Stop rest →
  readEnd ⟨.operand, fr, stk⟩ (ts ++ rest) = none

theorem readEnd_append {st st' : RState} {ts us : List Tok} (h : readToks st ts = readToks st' us) :
    readEnd st ts = readEnd st' us := by rw [readEnd, h, readEnd]

theorem readEnd_bool (ts : List Tok) : readBool ts = readEnd ⟨.operand, .empty, []⟩ ts := by
  unfold readBool readEnd
  cases readToks ⟨.operand, .empty, []⟩ ts <;> rfl

theorem push_ands (fr : Frame) (e : BExp) : (fr.push e).ands ≠ none := by simp [Frame.push]

theorem rg_of_rf {ts : List Tok} {e : BExp} (h : RF ts e) : RG ts := fun fr stk rest =>
  ⟨fr.push e, push_ands fr e, h fr stk rest⟩

theorem rg_isF {ts : List Tok} {e : BExp} (h : IsF ts e) : RG ts := by
  refine rg_of_rf (e := e) ?_
  exact IsF.rec (motive_1 := fun ts e _ => RF ts e) (motive_2 := fun ts e _ => RT ts e) (motive_3 := fun ts e _ => RE ts e)
    rf_cmp rf_like rf_notLike rf_ilike rf_notIlike rf_inn rf_notInn rf_isNull rf_isNotNull
    (fun _ h => rf_paren h) (fun _ h => rf_neg h) (fun _ h => rt_one h) (fun _ _ h1 h2 => rt_and h1 h2)
    (fun _ h => re_one h) (fun _ _ h1 h2 => re_or h1 h2) h

theorem rg_neg {ts : List Tok} (h : RG ts) : RG (.word c!"NOT" :: ts) := by
  intro fr stk rest
  obtain ⟨fr', h1, h2⟩ := h { fr with nots := fr.nots + 1 } stk rest
  exact ⟨fr', h1, by simpa [readToks, readTok] using h2⟩

theorem rb_neg {ts : List Tok} (h : RB ts) : RB (.word c!"NOT" :: ts) := by
  intro fr stk rest hs
  have := h { fr with nots := fr.nots + 1 } stk rest hs
  simpa [readEnd, readToks, readTok] using this

theorem rg_paren {ts : List Tok} (h : RG ts) : RG (.lpar :: (ts ++ [.rpar])) := by
  intro fr stk rest
  obtain ⟨fr', h1, h2⟩ := h .empty (fr :: stk) (.rpar :: rest)
  obtain ⟨a, ha⟩ := Option.ne_none_iff_exists'.mp h1
  have hc : ∃ e, fr'.close = some e := by simp [Frame.close, ha]
  obtain ⟨e, hc⟩ := hc
  refine ⟨fr.push e, push_ands fr e, ?_⟩
  simp only [List.cons_append, List.append_assoc, List.nil_append, readToks, readTok] at h2 ⊢
  rw [h2]
  simp [hc]

theorem rb_paren {ts : List Tok} (h : RB ts) : RB (.lpar :: (ts ++ [.rpar])) := by
  intro fr stk rest _
  have := h .empty (fr :: stk) (.rpar :: rest) (by intro t ht; simp at ht; exact .inl ht.symm)
  simpa [readEnd, readToks, readTok] using this

theorem rb_nil : RB [] := by
  intro fr stk rest hs
  cases rest with
  | nil => rfl
  | cons t rest =>
    have := hs t rfl
    rcases this with rfl | rfl | rfl
    · rfl
    · have : isName c!"AND" = false := by decide
      simp [readEnd, readToks, readTok, this]
    · have : isName c!"OR" = false := by decide
      simp [readEnd, readToks, readTok, this]

theorem rb_as {w : Str} (hw : isName w = true) (ts : List Tok) : RB (.word w :: .word c!"AS" :: ts) := by
  intro fr stk rest _
  simp [readEnd, readToks, readTok, isName_not hw, hw]

theorem rb_in {w : Str} (hw : isName w = true) : RB [.word w, .word c!"IN", .lpar, .rpar] := by
  intro fr stk rest _
  simp [readEnd, readToks, readTok, isName_not hw, hw]

theorem rb_notIn {w : Str} (hw : isName w = true) : RB [.word w, .word c!"NOT", .word c!"IN", .lpar, .rpar] := by
  intro fr stk rest _
  simp [readEnd, readToks, readTok, isName_not hw, hw]

/-! ## Conditions on a field -/

theorem plainField_iff {fd : FieldDef} (h : ColDef fd) : PlainField fd ↔ fd.asName = none := by
  unfold PlainField FieldDef.asName optStr
  have hc := h.col
  constructor
  · rintro ⟨h1 | h1, _⟩
    · simp [h1]
    · simp [h1]
  · intro h1
    refine ⟨?_, hc⟩
    by_cases hb : fd.alias = fd.fieldName ∧ fd.tableName = []
    · exact .inr hb
    · rw [if_neg hb] at h1
      exact .inl (by by_cases ha : fd.alias = []; exact ha; simp [ha] at h1)

/-- Clause words are absent. -/
def Quiet (ts : List Tok) : Prop := ∀ t ∈ ts, t.clause? = none

theorem quiet_append {a b : List Tok} (ha : Quiet a) (hb : Quiet b) : Quiet (a ++ b) := by
  intro t ht
  exact (List.mem_append.mp ht).elim (ha t) (hb t)

theorem quiet_cons {t : Tok} {b : List Tok} (ha : t.clause? = none) (hb : Quiet b) : Quiet (t :: b) := by
  intro x hx
  rcases List.mem_cons.mp hx with rfl | hx
  · exact ha
  · exact hb x hx

theorem quiet_nil : Quiet [] := by simp [Quiet]

theorem quiet_isF {ts : List Tok} {e : BExp} (h : IsF ts e) : Quiet ts := cond_clause (.one (.one h))

theorem lex_as_rest {w : Str} (hw : PlainName w) (z : Str) :
    lex (w ++ c!" AS " ++ z) = .word w :: .word c!"AS" :: lex z := by
  have h1 := lex_space w (c!"AS" ++ ' ' :: z)
  have h2 := lex_space c!"AS" z
  simp only [List.append_assoc, List.cons_append, List.nil_append] at *
  rw [h1, h2, lex_name hw]
  rfl

theorem renderSpec_as {fd : FieldDef} {a : Str} (ha : fd.asName = some a) :
    fd.renderSpec = fd.col ++ c!" AS " ++ a := by
  rw [renderSpec_column]
  unfold FieldDef.asName optStr at ha
  by_cases hb : fd.alias = fd.fieldName ∧ fd.tableName = []
  · rw [if_pos hb] at ha; cases ha
  · rw [if_neg hb] at ha
    by_cases hz : fd.alias = []
    · rw [if_pos hz] at ha; cases ha
    · rw [if_neg hz] at ha
      cases ha
      rw [if_pos ⟨hz, by
        by_cases he : fd.alias = fd.fieldName
        · exact Or.inr fun ht => hb ⟨he, ht⟩
        · exact Or.inl he⟩]
      have hcol : fd.column = fd.col := rfl
      rw [hcol]
      simp

/-- The text of an aliased column and more. -/
theorem as_text {fd : FieldDef} (h : ColDef fd) {a : Str} (ha : fd.asName = some a) (z : Str)
    (hz : Quiet (lex (a ++ z))) : RB (lex (fd.renderSpec ++ z)) ∧ Quiet (lex (fd.renderSpec ++ z)) := by
  have hn := h.col
  have e := lex_as_rest hn (a ++ z)
  have e2 : fd.renderSpec ++ z = fd.col ++ c!" AS " ++ (a ++ z) := by rw [renderSpec_as ha]; simp
  rw [e2, e]
  exact ⟨rb_as hn.2.2 _, quiet_cons (name_clause hn.2.2) (quiet_cons as_clause hz)⟩

theorem quiet_placeholder (n : Nat) : Quiet (lex ('$' :: itoa n)) := by
  rw [lex_placeholder]
  exact quiet_cons rfl quiet_nil

theorem quiet_words : ∀ w ∈ [c!"LIKE", c!"ILIKE", c!"IN", c!"IS", c!"NOT", c!"NULL"], Quiet (lex w) := by
  intro w hw
  simp only [List.mem_cons, List.not_mem_nil, or_false] at hw
  rcases hw with rfl | rfl | rfl | rfl | rfl | rfl <;> (unfold Quiet; decide)

theorem quiet_not : (Tok.word c!"NOT").clause? = none := by decide

theorem quiet_listToks (ns : List Nat) : Quiet (listToks ns) := by
  induction ns with
  | nil => exact quiet_nil
  | cons n ns ih =>
    cases ns with
    | nil => exact quiet_cons rfl quiet_nil
    | cons m ns => exact quiet_cons rfl (quiet_cons rfl ih)

theorem lex_inEmpty (n : Nat) : lex (c!"(" ++ joinWith c!"," (inPlaceholders n 0) ++ c!")") = [.lpar, .rpar] := by
  have e : inPlaceholders n 0 = [] := rfl
  rw [e]
  decide

theorem quiet_inList (n count : Nat) : Quiet (lex (c!"(" ++ joinWith c!"," (inPlaceholders n count) ++ c!")")) := by
  cases count with
  | zero => rw [lex_inEmpty]; exact quiet_cons rfl (quiet_cons rfl quiet_nil)
  | succ k =>
    rw [lex_inList n (k + 1) (by simp)]
    exact quiet_cons rfl (quiet_append (quiet_listToks _) (quiet_cons rfl quiet_nil))

theorem joined_head (x : Str) (y : Str) (l : List Str) : joinWith c!" " (x :: y :: l) = x ++ (' ' :: joinWith c!" " (y :: l)) := by
  simp [joinWith]

theorem quiet_joined {l : List Str} (h : ∀ x ∈ l, Quiet (lex x)) : Quiet (lex (joinWith c!" " l)) := by
  rw [lex_joinSpace]
  intro t ht
  obtain ⟨x, hx, hx2⟩ := List.mem_flatMap.mp ht
  exact h x hx t hx2

/-- An aliased column followed by words. -/
theorem as_joined {fd : FieldDef} (h : ColDef fd) {a : Str} (ha : fd.asName = some a) (y : Str) (l : List Str)
    (hq : ∀ x ∈ y :: l, Quiet (lex x)) :
    RB (lex (joinWith c!" " (fd.renderSpec :: y :: l))) ∧ Quiet (lex (joinWith c!" " (fd.renderSpec :: y :: l))) := by
  rw [joined_head]
  refine as_text h ha _ ?_
  rw [lex_space, lex_name (h.alias a ha).1]
  exact quiet_cons (name_clause (h.alias a ha).1.2.2) (quiet_joined hq)

theorem as_cmp {fd : FieldDef} (h : ColDef fd) {a : Str} (ha : fd.asName = some a) (k : Kind) (ho : k.opText ∈ cmpOps)
    (b : CondBase) (n : Nat) : RB (lex (renderCmp k b fd n)) ∧ Quiet (lex (renderCmp k b fd n)) := by
  have hp := (h.alias a ha).1
  have base := as_text h ha (k.opText ++ '$' :: itoa (n + 1)) (by
    have := lex_word_op hp.1 hp.2.1 ho (itoa (n + 1))
    rw [List.append_assoc] at this
    rw [this, lex_placeholder]
    exact quiet_cons (name_clause hp.2.2) (quiet_cons rfl (quiet_cons rfl quiet_nil)))
  unfold renderCmp
  rw [cmpSym_opText]
  cases hb : b.negate
  · simpa [joinWith] using base
  · have e := lex_not (fd.renderSpec ++ (k.opText ++ '$' :: itoa (n + 1)))
    have := And.intro (rb_neg base.1) (quiet_cons quiet_not base.2)
    rw [← e] at this
    simpa [joinWith, CondBase.renderNegate, hb] using this

/-- A condition on a field over plain identifiers: the reader reads its text if it is sound and fails if not. -/
theorem fieldc_read (k : Kind) (b : CondBase) (fv : FieldValue) (n : Nat) (h : WritableNode (.fieldc k b fv)) :
    Quiet (lex (fieldcRenderP k b fv n)) ∧
    (SoundNode (.fieldc k b fv) → ReadableNode (.fieldc k b fv) ∧ RG (lex (fieldcRenderP k b fv n))) ∧
    (¬ SoundNode (.fieldc k b fv) → RB (lex (fieldcRenderP k b fv n))) := by
  have hp : ColDef fv.fd := by cases k <;> exact h.1
  have good : ReadableNode (.fieldc k b fv) → Quiet (lex (fieldcRenderP k b fv n)) ∧ RG (lex (fieldcRenderP k b fv n)) := by
    intro hr
    have hf := (readable_fieldc hr).1
    obtain ⟨v, vs, hb, _⟩ := readable_binds hr
    have := fieldcItem_isF k b fv.fd (bindsOf k fv).length n hf (by simp [hb])
    rw [← lex_fieldc k b fv n hr] at this
    exact ⟨quiet_isF this, rg_isF this⟩
  have hd : Quiet (lex (c!"$" ++ itoa (n + 1))) := quiet_placeholder (n + 1)
  cases hs : fv.fd.asName with
  | none =>
    have hf := (plainField_iff hp).mpr hs
    by_cases hi : k = .inn ∧ fv.values = .ok []
    · obtain ⟨rfl, hv⟩ := hi
      obtain ⟨h1, h2, h3⟩ := hf.2
      have hw := lex_word h1 h2
      have hz : Quiet (lex (fieldcRenderP .inn b fv n)) ∧ RB (lex (fieldcRenderP .inn b fv n)) := by
        simp only [fieldcRenderP, renderIn, hv, Res.getD_ok, List.length_nil, plain_renderSpec hf]
        split
        · rename_i hneg
          rw [lex_joined4, hw, lex_inEmpty]
          have e1 : lex b.renderNegate = [.word c!"NOT"] := by simp only [CondBase.renderNegate, hneg, if_true]; decide
          have e2 : lex (cmpSym .inn) = [.word c!"IN"] := by decide
          rw [e1, e2]
          refine ⟨?_, rb_notIn h3⟩
          exact quiet_cons (name_clause h3) (by unfold Quiet; decide)
        · rw [lex_joined3, hw, lex_inEmpty]
          have e2 : lex (cmpSym .inn) = [.word c!"IN"] := by decide
          rw [e2]
          refine ⟨?_, rb_in h3⟩
          exact quiet_cons (name_clause h3) (by unfold Quiet; decide)
      refine ⟨hz.1, fun h => absurd hv h.2, fun _ => hz.2⟩
    · have hr : ReadableNode (.fieldc k b fv) := by
        cases k with
        | inn =>
          obtain ⟨_, vs, hv⟩ := h
          cases vs with
          | nil => exact absurd ⟨rfl, hv⟩ hi
          | cons v vs => exact ⟨hf, v, vs, hv⟩
        | _ => exact ⟨hf, h.2⟩
      have hso : SoundNode (.fieldc k b fv) := by
        cases k with
        | inn => exact ⟨hs, fun h => hi ⟨rfl, h⟩⟩
        | _ => exact hs
      exact ⟨(good hr).1, fun _ => ⟨hr, (good hr).2⟩, fun hn => absurd hso hn⟩
  | some a =>
    have hns : ¬ SoundNode (.fieldc k b fv) := by
      intro h
      cases k with
      | inn => rw [h.1] at hs; cases hs
      | _ => exact absurd (h.symm.trans hs) (by simp)
    have hz : RB (lex (fieldcRenderP k b fv n)) ∧ Quiet (lex (fieldcRenderP k b fv n)) := by
      have hneg : Quiet (lex b.renderNegate) := by
        unfold CondBase.renderNegate
        split
        · exact quiet_words _ (by simp)
        · exact quiet_nil
      cases k with
      | like =>
        simp only [fieldcRenderP, renderLike]
        split
        · refine as_joined hp hs _ _ ?_
          simp only [List.mem_cons, List.not_mem_nil, or_false, forall_eq_or_imp, forall_eq]
          exact ⟨hneg, quiet_words c!"LIKE" (by simp), hd⟩
        · refine as_joined hp hs _ _ ?_
          simp only [List.mem_cons, List.not_mem_nil, or_false, forall_eq_or_imp, forall_eq]
          exact ⟨quiet_words c!"LIKE" (by simp), hd⟩
      | ilike =>
        simp only [fieldcRenderP, renderLike]
        split
        · refine as_joined hp hs _ _ ?_
          simp only [List.mem_cons, List.not_mem_nil, or_false, forall_eq_or_imp, forall_eq]
          exact ⟨hneg, quiet_words c!"ILIKE" (by simp), hd⟩
        · refine as_joined hp hs _ _ ?_
          simp only [List.mem_cons, List.not_mem_nil, or_false, forall_eq_or_imp, forall_eq]
          exact ⟨quiet_words c!"ILIKE" (by simp), hd⟩
      | inn =>
        simp only [fieldcRenderP, renderIn]
        split
        · refine as_joined hp hs _ _ ?_
          simp only [List.mem_cons, List.not_mem_nil, or_false, forall_eq_or_imp, forall_eq]
          exact ⟨hneg, quiet_words c!"IN" (by simp), quiet_inList n _⟩
        · refine as_joined hp hs _ _ ?_
          simp only [List.mem_cons, List.not_mem_nil, or_false, forall_eq_or_imp, forall_eq]
          exact ⟨quiet_words c!"IN" (by simp), quiet_inList n _⟩
      | eq => exact as_cmp hp hs _ (opText_mem _ (by simp) (by simp) (by simp)) b n
      | gt => exact as_cmp hp hs _ (opText_mem _ (by simp) (by simp) (by simp)) b n
      | gte => exact as_cmp hp hs _ (opText_mem _ (by simp) (by simp) (by simp)) b n
      | lt => exact as_cmp hp hs _ (opText_mem _ (by simp) (by simp) (by simp)) b n
      | lte => exact as_cmp hp hs _ (opText_mem _ (by simp) (by simp) (by simp)) b n
    exact ⟨hz.2, fun h => absurd h hns, fun _ => hz.1⟩

theorem null_read (b : CondBase) (fd : FieldDef) (hp : ColDef fd) :
    Quiet (lex (renderNull b fd)) ∧
    (fd.asName = none → PlainField fd ∧ RG (lex (renderNull b fd))) ∧
    (fd.asName ≠ none → RB (lex (renderNull b fd))) := by
  cases hs : fd.asName with
  | none =>
    have hf := (plainField_iff hp).mpr hs
    have := nullItem_isF b fd hf
    rw [← lex_null b fd hf] at this
    exact ⟨quiet_isF this, fun _ => ⟨hf, rg_isF this⟩, fun h => absurd rfl h⟩
  | some a =>
    have hz : RB (lex (renderNull b fd)) ∧ Quiet (lex (renderNull b fd)) := by
      unfold renderNull
      split
      · refine as_joined hp hs _ _ ?_
        simp only [List.mem_cons, List.not_mem_nil, or_false, forall_eq_or_imp, forall_eq]
        exact ⟨quiet_words c!"IS" (by simp), quiet_words c!"NOT" (by simp), quiet_words c!"NULL" (by simp)⟩
      · refine as_joined hp hs _ _ ?_
        simp only [List.mem_cons, List.not_mem_nil, or_false, forall_eq_or_imp, forall_eq]
        exact ⟨quiet_words c!"IS" (by simp), quiet_words c!"NULL" (by simp)⟩
    exact ⟨hz.2, (fun h => absurd h (by simp)), fun _ => hz.1⟩

/-! ## Groups -/

/-- The reader goes over the tokens after an operand. -/
def RGL (ts : List Tok) : Prop := ∀ (fr : Frame) (stk : List Frame) (rest : List Tok), fr.ands ≠ none →
  ∃ fr' : Frame, fr'.ands ≠ none ∧ readToks ⟨.after, fr, stk⟩ (ts ++ rest) = readToks ⟨.after, fr', stk⟩ rest

/-- The reader fails on the tokens after an operand. -/
def RBL (ts : List Tok) : Prop := ∀ (fr : Frame) (stk : List Frame) (rest : List Tok), fr.ands ≠ none → Stop rest →
  readEnd ⟨.after, fr, stk⟩ (ts ++ rest) = none

theorem joinTok_step (o : Bool) (fr : Frame) (stk : List Frame) (h : fr.ands ≠ none) :
    ∃ fr' : Frame, readTok ⟨.after, fr, stk⟩ (joinTok o) = some ⟨.operand, fr', stk⟩ := by
  obtain ⟨a, ha⟩ := Option.ne_none_iff_exists'.mp h
  cases o with
  | false => exact ⟨fr, by simp [joinTok, readTok]⟩
  | true =>
    have hc : ∃ e, fr.close = some e := by simp [Frame.close, ha]
    obtain ⟨e, hc⟩ := hc
    exact ⟨⟨some e, none, 0⟩, by simp [joinTok, readTok, hc]⟩

/-- The wrapping of a group. -/
theorem wrap_read (b : CondBase) (count : Nat) (br : Bool) (sql : Str) :
    (Quiet (lex sql) → Quiet (lex (wrapGroup b count br sql))) ∧
    (RG (lex sql) → RG (lex (wrapGroup b count br sql))) ∧
    (RB (lex sql) → RB (lex (wrapGroup b count br sql))) := by
  have hp : lex (c!"(" ++ sql ++ c!")") = .lpar :: (lex sql ++ [.rpar]) := by
    simp only [List.cons_append, List.nil_append]
    rw [lex_lpar', lex_rpar]; rfl
  have hbr : ∀ e : Bool, (Quiet (lex sql) → Quiet (lex (if e then c!"(" ++ sql ++ c!")" else sql))) ∧
      (RG (lex sql) → RG (lex (if e then c!"(" ++ sql ++ c!")" else sql))) ∧
      (RB (lex sql) → RB (lex (if e then c!"(" ++ sql ++ c!")" else sql))) := by
    intro e
    cases e
    · simp
    · simp only [if_true, hp]
      exact ⟨fun h => quiet_cons rfl (quiet_append h (quiet_cons rfl quiet_nil)), rg_paren, rb_paren⟩
  unfold wrapGroup
  change (Quiet (lex sql) → Quiet (lex (if b.negate then b.renderNegate ++ c!" " ++ (if effBr b count br then c!"(" ++ sql ++ c!")" else sql)
    else if effBr b count br then c!"(" ++ sql ++ c!")" else sql))) ∧
    (RG (lex sql) → RG (lex (if b.negate then b.renderNegate ++ c!" " ++ (if effBr b count br then c!"(" ++ sql ++ c!")" else sql)
    else if effBr b count br then c!"(" ++ sql ++ c!")" else sql))) ∧
    (RB (lex sql) → RB (lex (if b.negate then b.renderNegate ++ c!" " ++ (if effBr b count br then c!"(" ++ sql ++ c!")" else sql)
    else if effBr b count br then c!"(" ++ sql ++ c!")" else sql)))
  obtain ⟨h1, h2, h3⟩ := hbr (effBr b count br)
  cases hb : b.negate
  · simpa using ⟨h1, h2, h3⟩
  · simp only [CondBase.renderNegate, hb, if_true]
    have e := fun t => lex_not t
    simp only [List.cons_append, List.nil_append] at e ⊢
    rw [e]
    exact ⟨fun h => quiet_cons quiet_not (h1 h), fun h => rg_neg (h2 h), fun h => rb_neg (h3 h)⟩

theorem stop_tail (cs : List Cond) (n : Nat) (hj : ∀ d ∈ cs, d.joinType = c!"AND" ∨ d.joinType = c!"OR") (rest : List Tok)
    (hs : Stop rest) : Stop (lex (Cond.renderPL cs false n) ++ rest) := by
  cases cs with
  | nil => simpa [Cond.renderPL] using hs
  | cons c cs =>
    have := joinToken_lex c [] (c.renderP n ++ Cond.renderPL cs false (n + c.valuesP.length)) (hj c (by simp))
    simp only [Cond.renderPL, List.append_assoc, List.nil_append, lex_nil] at this ⊢
    rw [this]
    intro t ht
    simp only [List.cons_append, List.head?_cons, Option.mem_some_iff] at ht
    subst ht
    unfold joinTok
    split
    · exact .inr (.inr rfl)
    · exact .inr (.inl rfl)

theorem lex_tail (s : Str) (cs : List Cond) (n : Nat) (hj : ∀ d ∈ cs, d.joinType = c!"AND" ∨ d.joinType = c!"OR") :
    lex (s ++ Cond.renderPL cs false n) = lex s ++ lex (Cond.renderPL cs false n) := by
  cases cs with
  | nil => simp [Cond.renderPL]
  | cons c cs =>
    have h1 := joinToken_lex c s (c.renderP n ++ Cond.renderPL cs false (n + c.valuesP.length)) (hj c (by simp))
    have h2 := joinToken_lex c [] (c.renderP n ++ Cond.renderPL cs false (n + c.valuesP.length)) (hj c (by simp))
    simp only [Cond.renderPL, List.append_assoc, List.nil_append, lex_nil] at h1 h2 ⊢
    rw [h1, h2]

theorem lex_tail_cons (c : Cond) (cs : List Cond) (n : Nat) (hj : ∀ d ∈ c :: cs, d.joinType = c!"AND" ∨ d.joinType = c!"OR") :
    lex (Cond.renderPL (c :: cs) false n) =
      joinTok c.isOr :: (lex (c.renderP n) ++ lex (Cond.renderPL cs false (n + c.valuesP.length))) := by
  have h2 := joinToken_lex c [] (c.renderP n ++ Cond.renderPL cs false (n + c.valuesP.length)) (hj c (by simp))
  have h3 := lex_tail (c.renderP n) cs (n + c.valuesP.length) (fun d hd => hj d (by simp [hd]))
  simp only [Cond.renderPL, List.append_assoc, List.nil_append, lex_nil] at h2 h3 ⊢
  rw [h2, h3]

theorem joinTok_quiet (o : Bool) : (joinTok o).clause? = none := by cases o <;> decide

mutual
/-- The text of a condition over plain identifiers: read if sound, not read if not. -/
theorem cond_sound (c : Cond) (n : Nat) (h : c.Every WritableNode) :
    Quiet (lex (c.renderP n)) ∧ (c.Every SoundNode → c.Readable ∧ RG (lex (c.renderP n))) ∧
    (¬ c.Every SoundNode → RB (lex (c.renderP n))) := by
  cases c with
  | fieldc k b fv => exact fieldc_read k b fv n h
  | null b fd => exact null_read b fd h
  | custom b x => exact h.elim
  | group b cs br =>
    obtain ⟨hj, hcs⟩ := h
    cases cs with
    | nil =>
      simp only [Cond.renderP, List.length_nil, if_true]
      exact ⟨quiet_nil, fun h => absurd rfl h.1, fun _ => rb_nil⟩
    | cons c cs =>
      have hj : ∀ d ∈ cs, d.joinType = c!"AND" ∨ d.joinType = c!"OR" := by
        simpa [WritableNode] using hj
      have ih1 := cond_sound c n hcs.1
      have ih2 := cond_soundL cs (n + c.valuesP.length) hj hcs.2
      have hlex : lex (Cond.renderPL (c :: cs) true n) =
          lex (c.renderP n) ++ lex (Cond.renderPL cs false (n + c.valuesP.length)) := by
        have := lex_tail (c.renderP n) cs (n + c.valuesP.length) hj
        simpa [Cond.renderPL, joinToken_first] using this
      obtain ⟨w1, w2, w3⟩ := wrap_read b (c :: cs).length br (Cond.renderPL (c :: cs) true n)
      simp only [Cond.renderP]
      rw [if_neg (by simp)]
      rw [hlex] at w1 w2 w3
      refine ⟨w1 (quiet_append ih1.1 ih2.1), ?_, ?_⟩
      · rintro ⟨_, h1, h2⟩
        obtain ⟨r1, g1⟩ := ih1.2.1 h1
        obtain ⟨r2, g2⟩ := ih2.2.1 h2
        refine ⟨readable_group_cons.mpr ⟨r1, hj, r2⟩, w2 ?_⟩
        intro fr stk rest
        rw [List.append_assoc]
        obtain ⟨fr1, a1, e1⟩ := g1 fr stk (lex (Cond.renderPL cs false (n + c.valuesP.length)) ++ rest)
        obtain ⟨fr2, a2, e2⟩ := g2 fr1 stk rest a1
        exact ⟨fr2, a2, e1.trans e2⟩
      · intro hns
        refine w3 ?_
        intro fr stk rest hs
        rw [List.append_assoc]
        by_cases h1 : c.Every SoundNode
        · have h2 : ¬ Cond.EveryL SoundNode cs := fun h2 => hns ⟨by simp [SoundNode], h1, h2⟩
          obtain ⟨fr1, a1, e1⟩ := (ih1.2.1 h1).2 fr stk (lex (Cond.renderPL cs false (n + c.valuesP.length)) ++ rest)
          rw [readEnd_append e1]
          exact ih2.2.2 h2 fr1 stk rest a1 hs
        · exact ih1.2.2 h1 fr stk _ (stop_tail cs _ hj rest hs)
theorem cond_soundL (cs : List Cond) (n : Nat) (hj : ∀ d ∈ cs, d.joinType = c!"AND" ∨ d.joinType = c!"OR")
    (h : Cond.EveryL WritableNode cs) :
    Quiet (lex (Cond.renderPL cs false n)) ∧
    (Cond.EveryL SoundNode cs → Cond.EveryL ReadableNode cs ∧ RGL (lex (Cond.renderPL cs false n))) ∧
    (¬ Cond.EveryL SoundNode cs → RBL (lex (Cond.renderPL cs false n))) := by
  cases cs with
  | nil =>
    simp only [Cond.renderPL, lex_nil]
    exact ⟨quiet_nil, fun _ => ⟨trivial, fun fr stk rest ha => ⟨fr, ha, rfl⟩⟩, fun h => absurd trivial h⟩
  | cons c cs =>
    have hj' : ∀ d ∈ cs, d.joinType = c!"AND" ∨ d.joinType = c!"OR" := fun d hd => hj d (by simp [hd])
    have ih1 := cond_sound c n h.1
    have ih2 := cond_soundL cs (n + c.valuesP.length) hj' h.2
    rw [lex_tail_cons c cs n hj]
    refine ⟨quiet_cons (joinTok_quiet _) (quiet_append ih1.1 ih2.1), ?_, ?_⟩
    · rintro ⟨h1, h2⟩
      obtain ⟨r1, g1⟩ := ih1.2.1 h1
      obtain ⟨r2, g2⟩ := ih2.2.1 h2
      refine ⟨⟨r1, r2⟩, fun fr stk rest ha => ?_⟩
      obtain ⟨fr0, e0⟩ := joinTok_step c.isOr fr stk ha
      obtain ⟨fr1, a1, e1⟩ := g1 fr0 stk (lex (Cond.renderPL cs false (n + c.valuesP.length)) ++ rest)
      obtain ⟨fr2, a2, e2⟩ := g2 fr1 stk rest a1
      refine ⟨fr2, a2, ?_⟩
      simp only [List.cons_append, readToks, e0, List.append_assoc]
      exact e1.trans e2
    · intro hns fr stk rest ha hs
      obtain ⟨fr0, e0⟩ := joinTok_step c.isOr fr stk ha
      have step : readEnd ⟨.after, fr, stk⟩ (joinTok c.isOr :: (lex (c.renderP n) ++
          lex (Cond.renderPL cs false (n + c.valuesP.length))) ++ rest) =
          readEnd ⟨.operand, fr0, stk⟩ (lex (c.renderP n) ++ (lex (Cond.renderPL cs false (n + c.valuesP.length)) ++ rest)) := by
        simp only [readEnd, List.cons_append, readToks, e0, List.append_assoc]
      rw [step]
      by_cases h1 : c.Every SoundNode
      · have h2 : ¬ Cond.EveryL SoundNode cs := fun h2 => hns ⟨h1, h2⟩
        obtain ⟨fr1, a1, e1⟩ := (ih1.2.1 h1).2 fr0 stk (lex (Cond.renderPL cs false (n + c.valuesP.length)) ++ rest)
        rw [readEnd_append e1]
        exact ih2.2.2 h2 fr1 stk rest a1 hs
      · exact ih1.2.2 h1 fr0 stk _ (stop_tail cs _ hj' rest hs)
end

theorem unsound_read (c : Cond) (n : Nat) (h : c.Every WritableNode) (hn : ¬ c.Every SoundNode) :
    readBool (lex (c.renderP n)) = none := by
  have := (cond_sound c n h).2.2 hn .empty [] [] (by simp [Stop])
  rw [List.append_nil] at this
  rw [readEnd_bool]
  exact this

mutual
theorem writable_values (c : Cond) (h : c.Every WritableNode) : ∃ vs, c.values = .ok vs := by
  cases c with
  | fieldc k b fv =>
    cases k with
    | inn => exact h.2
    | like => obtain ⟨_, s, hs⟩ := h; exact ⟨[.str (c!"%" ++ s ++ c!"%")], by simp only [Cond.values, fieldcValues, likeValues, hs]⟩
    | ilike => obtain ⟨_, s, hs⟩ := h; exact ⟨[.str (c!"%" ++ s ++ c!"%")], by simp only [Cond.values, fieldcValues, likeValues, hs]⟩
    | _ => obtain ⟨_, v, hv⟩ := h; exact ⟨[v], hv⟩
  | null b fd => exact ⟨_, rfl⟩
  | custom b x => exact ⟨_, rfl⟩
  | group b cs br => exact writable_valuesL cs h.2
theorem writable_valuesL (cs : List Cond) (h : Cond.EveryL WritableNode cs) : ∃ vs, Cond.valuesL cs = .ok vs := by
  cases cs with
  | nil => exact ⟨_, rfl⟩
  | cons c cs =>
    obtain ⟨v1, h1⟩ := writable_values c h.1
    obtain ⟨v2, h2⟩ := writable_valuesL cs h.2
    exact ⟨v1 ++ v2, by simp [Cond.valuesL, h1, h2]⟩
end

end Query
