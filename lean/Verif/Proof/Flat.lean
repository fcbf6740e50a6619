import Verif.Proof.Lex
import Verif.Proof.Read
import Verif.Proof.Pure
import Verif.Props.Fields
/-!
# The text of a condition as a list of factors

`flat c n` lists the factors of the text of `c` at its outermost bracket level: join word in front, tokens, expression.
-/
namespace Query

structure Item where
  isOr : Bool
  toks : List Tok
  ast : BExp

def Item.neg (i : Item) : Item := { i with toks := .word c!"NOT" :: i.toks, ast := .not i.ast }

def Item.negIf (b : Bool) (i : Item) : Item := if b then i.neg else i

def setHead (o : Bool) : List Item → List Item
  | [] => []
  | i :: l => { i with isOr := o } :: l

def negHead (b : Bool) : List Item → List Item
  | [] => []
  | i :: l => i.negIf b :: l

/-- The join word. -/
def joinTok (isOr : Bool) : Tok := if isOr then .word c!"OR" else .word c!"AND"

/-- The tokens of later factors, with the join words. -/
def ttoks : List Item → List Tok
  | [] => []
  | i :: l => joinTok i.isOr :: (i.toks ++ ttoks l)

/-- The tokens of a list of factors. -/
def jtoks : List Item → List Tok
  | [] => []
  | i :: l => i.toks ++ ttoks l

def orWith : Option BExp → BExp → BExp
  | none, a => a
  | some o, a => .or o a

def asmFrom : Option BExp → BExp → List Item → BExp
  | o, a, [] => orWith o a
  | o, a, i :: l => if i.isOr then asmFrom (some (orWith o a)) i.ast l else asmFrom o (.and a i.ast) l

/-- The expression of a list of factors. -/
def asm : List Item → BExp
  | [] => .atom (.isNull [])
  | i :: l => asmFrom none i.ast l

/-- The factor of a condition on a field and a value with `count` values. -/
def fieldcItem (k : Kind) (b : CondBase) (fd : FieldDef) (count n : Nat) : Item :=
  let o := b.joinType == c!"OR"
  let w := fd.col
  let ns := numbersFrom n count
  match k with
  | .like => if b.negate then ⟨o, [.word w, .word c!"NOT", .word c!"LIKE", .dollar (n + 1)], .not (.atom (.like w (n + 1)))⟩
    else ⟨o, [.word w, .word c!"LIKE", .dollar (n + 1)], .atom (.like w (n + 1))⟩
  | .ilike => if b.negate then ⟨o, [.word w, .word c!"NOT", .word c!"ILIKE", .dollar (n + 1)], .not (.atom (.ilike w (n + 1)))⟩
    else ⟨o, [.word w, .word c!"ILIKE", .dollar (n + 1)], .atom (.ilike w (n + 1))⟩
  | .inn =>
    if b.negate then
      ⟨o, .word w :: .word c!"NOT" :: .word c!"IN" :: .lpar :: (listToks ns ++ [.rpar]), .not (.atom (.inn w ns))⟩
    else ⟨o, .word w :: .word c!"IN" :: .lpar :: (listToks ns ++ [.rpar]), .atom (.inn w ns)⟩
  | k => Item.negIf b.negate ⟨o, [.word w, .op k.opText, .dollar (n + 1)], .atom (.cmp k.opText w (n + 1))⟩

def nullItem (b : CondBase) (fd : FieldDef) : Item :=
  let o := b.joinType == c!"OR"
  if b.negate then ⟨o, [.word fd.col, .word c!"IS", .word c!"NOT", .word c!"NULL"], .not (.atom (.isNull fd.col))⟩
  else ⟨o, [.word fd.col, .word c!"IS", .word c!"NULL"], .atom (.isNull fd.col)⟩

/-- A factor in brackets. -/
def parenItem (b : CondBase) (l : List Item) : Item :=
  Item.negIf b.negate ⟨b.joinType == c!"OR", .lpar :: (jtoks l ++ [.rpar]), asm l⟩

mutual
def Cond.flat : Cond → Nat → List Item
  | .fieldc k b fv, n => [fieldcItem k b fv.fd (bindsOf k fv).length n]
  | .null b fd, _ => [nullItem b fd]
  | .custom _ _, _ => []
  | .group b cs br, n =>
    if effBr b cs.length br then [parenItem b (Cond.flatL cs n)]
    else setHead (b.joinType == c!"OR") (negHead b.negate (Cond.flatL cs n))
def Cond.flatL : List Cond → Nat → List Item
  | [], _ => []
  | c :: cs, n => c.flat n ++ Cond.flatL cs (n + c.valuesP.length)
end

/-! ## Grammar -/

theorem asmFrom_isE (l : List Item) (hl : ∀ i ∈ l, IsF i.toks i.ast) :
    (∀ ts a, IsT ts a → IsE (ts ++ ttoks l) (asmFrom none a l)) ∧
    (∀ us o ts a, IsE us o → IsT ts a → IsE (us ++ .word c!"OR" :: (ts ++ ttoks l)) (asmFrom (some o) a l)) := by
  induction l with
  | nil =>
    constructor
    · intro ts a h; simpa [ttoks, asmFrom, orWith] using IsE.one h
    · intro us o ts a h1 h2; simpa [ttoks, asmFrom, orWith] using IsE.or h1 h2
  | cons i l ih =>
    obtain ⟨ih1, ih2⟩ := ih (fun j hj => hl j (by simp [hj]))
    have hi := hl i (by simp)
    constructor
    · intro ts a h
      simp only [asmFrom, ttoks, joinTok]
      cases i.isOr
      · have := ih1 _ _ (IsT.and h hi)
        simpa using this
      · have := ih2 _ _ _ _ (IsE.one h) (IsT.one hi)
        simpa [orWith] using this
    · intro us o ts a h1 h2
      simp only [asmFrom, ttoks, joinTok]
      cases i.isOr
      · have := ih2 _ _ _ _ h1 (IsT.and h2 hi)
        simpa using this
      · have := ih2 _ _ _ _ (IsE.or h1 h2) (IsT.one hi)
        simpa [orWith] using this

theorem asm_isE (l : List Item) (hn : l ≠ []) (hl : ∀ i ∈ l, IsF i.toks i.ast) : IsE (jtoks l) (asm l) := by
  cases l with
  | nil => exact absurd rfl hn
  | cons i l => exact (asmFrom_isE l (fun j hj => hl j (by simp [hj]))).1 _ _ (IsT.one (hl i (by simp)))

theorem neg_isF {i : Item} (b : Bool) (h : IsF i.toks i.ast) : IsF (i.negIf b).toks (i.negIf b).ast := by
  cases b
  · exact h
  · exact IsF.neg h

theorem numbersFrom_ne {n count : Nat} (h : count ≠ 0) : numbersFrom n count ≠ [] := by
  intro e
  have := congrArg List.length e
  rw [numbersFrom_length] at this
  exact h this

theorem opText_mem (k : Kind) (h : k ≠ .like) (h2 : k ≠ .ilike) (h3 : k ≠ .inn) : k.opText ∈ cmpOps := by
  cases k <;> simp_all [Kind.opText, cmpOps]

theorem fieldcItem_isF (k : Kind) (b : CondBase) (fd : FieldDef) (count n : Nat) (hf : PlainField fd) (hc : count ≠ 0) :
    IsF (fieldcItem k b fd count n).toks (fieldcItem k b fd count n).ast := by
  have hw := hf.2.2.2
  cases k with
  | like => simp only [fieldcItem]; split; exact IsF.notLike hw; exact IsF.like hw
  | ilike => simp only [fieldcItem]; split; exact IsF.notIlike hw; exact IsF.ilike hw
  | inn =>
    simp only [fieldcItem]; split
    · exact IsF.notInn hw (numbersFrom_ne hc)
    · exact IsF.inn hw (numbersFrom_ne hc)
  | eq => exact neg_isF _ (IsF.cmp hw (opText_mem _ (by simp) (by simp) (by simp)))
  | gt => exact neg_isF _ (IsF.cmp hw (opText_mem _ (by simp) (by simp) (by simp)))
  | gte => exact neg_isF _ (IsF.cmp hw (opText_mem _ (by simp) (by simp) (by simp)))
  | lt => exact neg_isF _ (IsF.cmp hw (opText_mem _ (by simp) (by simp) (by simp)))
  | lte => exact neg_isF _ (IsF.cmp hw (opText_mem _ (by simp) (by simp) (by simp)))

theorem nullItem_isF (b : CondBase) (fd : FieldDef) (hf : PlainField fd) :
    IsF (nullItem b fd).toks (nullItem b fd).ast := by
  have hw := hf.2.2.2
  simp only [nullItem]; split
  · exact IsF.isNotNull hw
  · exact IsF.isNull hw

/-- A readable condition on a field and a value: its values, at least one, exactly one unless IN. -/
theorem readable_fieldc {k : Kind} {b : CondBase} {fv : FieldValue} (h : ReadableNode (.fieldc k b fv)) :
    PlainField fv.fd ∧ ∃ v vs, fieldcValues k fv = .ok (v :: vs) ∧ (k ≠ .inn → vs = []) := by
  cases k with
  | inn => obtain ⟨h1, v, vs, h2⟩ := h; exact ⟨h1, v, vs, h2, by simp⟩
  | like => obtain ⟨h1, s, h2⟩ := h; exact ⟨h1, .str (c!"%" ++ s ++ c!"%"), [], by simp [fieldcValues, likeValues, h2], by simp⟩
  | ilike => obtain ⟨h1, s, h2⟩ := h; exact ⟨h1, .str (c!"%" ++ s ++ c!"%"), [], by simp [fieldcValues, likeValues, h2], by simp⟩
  | eq => obtain ⟨h1, v, h2⟩ := h; exact ⟨h1, v, [], h2, by simp⟩
  | gt => obtain ⟨h1, v, h2⟩ := h; exact ⟨h1, v, [], h2, by simp⟩
  | gte => obtain ⟨h1, v, h2⟩ := h; exact ⟨h1, v, [], h2, by simp⟩
  | lt => obtain ⟨h1, v, h2⟩ := h; exact ⟨h1, v, [], h2, by simp⟩
  | lte => obtain ⟨h1, v, h2⟩ := h; exact ⟨h1, v, [], h2, by simp⟩

theorem readable_binds {k : Kind} {b : CondBase} {fv : FieldValue} (h : ReadableNode (.fieldc k b fv)) :
    ∃ v vs, bindsOf k fv = v :: vs ∧ fieldcValues k fv = .ok (v :: vs) ∧ (k ≠ .inn → vs = []) := by
  obtain ⟨_, v, vs, h2, h3⟩ := readable_fieldc h
  exact ⟨v, vs, by simp [bindsOf, h2], h2, h3⟩

theorem head_ne {l : List Item} (o b : Bool) (h : l ≠ []) : setHead o (negHead b l) ≠ [] := by
  cases l with
  | nil => exact absurd rfl h
  | cons i l => simp [setHead, negHead]

theorem readable_group_cons {b : CondBase} {c : Cond} {cs : List Cond} {br : Bool} :
    (Cond.group b (c :: cs) br).Readable ↔
      c.Readable ∧ (∀ d ∈ cs, d.joinType = c!"AND" ∨ d.joinType = c!"OR") ∧ Cond.EveryL ReadableNode cs := by
  constructor
  · rintro ⟨⟨_, h2⟩, h3, h4⟩; exact ⟨h3, by simpa using h2, h4⟩
  · rintro ⟨h1, h2, h3⟩; exact ⟨⟨by simp, by simpa using h2⟩, h1, h3⟩

theorem everyL_mem {p : Cond → Prop} {cs : List Cond} : Cond.EveryL p cs ↔ ∀ c ∈ cs, c.Every p := by
  induction cs with
  | nil => simp [Cond.EveryL]
  | cons c cs ih => simp [Cond.EveryL, ih]

theorem readable_group {b : CondBase} {cs : List Cond} {br : Bool} :
    (Cond.group b cs br).Readable ↔
      cs ≠ [] ∧ (∀ d ∈ cs.drop 1, d.joinType = c!"AND" ∨ d.joinType = c!"OR") ∧ ∀ c ∈ cs, c.Readable := by
  rw [Cond.Readable, Cond.Every, everyL_mem]
  exact and_assoc

mutual
theorem flat_isF (c : Cond) (n : Nat) (h : c.Readable) : c.flat n ≠ [] ∧ ∀ i ∈ c.flat n, IsF i.toks i.ast := by
  cases c with
  | fieldc k b fv =>
    obtain ⟨v, vs, hb, _⟩ := readable_binds h
    have hf := (readable_fieldc h).1
    simp only [Cond.flat, ne_eq, List.cons_ne_nil, not_false_eq_true, List.mem_singleton, true_and]
    rintro i rfl
    exact fieldcItem_isF k b fv.fd _ n hf (by simp [hb])
  | null b fd =>
    simp only [Cond.flat, ne_eq, List.cons_ne_nil, not_false_eq_true, List.mem_singleton, true_and]
    rintro i rfl
    exact nullItem_isF b fd h
  | custom b x => exact h.elim
  | group b cs br =>
    have hr := readable_group.mp h
    obtain ⟨h1, h2⟩ := flatL_isF cs n (everyL_mem.mpr hr.2.2)
    have h1 := h1 hr.1
    simp only [Cond.flat]
    split
    · refine ⟨by simp, ?_⟩
      simp only [List.mem_singleton]
      rintro i rfl
      exact neg_isF _ (IsF.paren (asm_isE _ h1 h2))
    · refine ⟨head_ne _ _ h1, ?_⟩
      cases hl : Cond.flatL cs n with
      | nil => exact absurd hl h1
      | cons i l =>
        rw [hl] at h2
        simp only [negHead, setHead, List.mem_cons]
        rintro j (rfl | hj)
        · exact neg_isF _ (h2 i (by simp))
        · exact h2 j (by simp [hj])
theorem flatL_isF (cs : List Cond) (n : Nat) (h : Cond.EveryL ReadableNode cs) :
    (cs ≠ [] → Cond.flatL cs n ≠ []) ∧ ∀ i ∈ Cond.flatL cs n, IsF i.toks i.ast := by
  cases cs with
  | nil => simp [Cond.flatL]
  | cons c cs =>
    obtain ⟨h1, h2⟩ := flat_isF c n h.1
    obtain ⟨_, h4⟩ := flatL_isF cs (n + c.valuesP.length) h.2
    simp only [Cond.flatL, List.mem_append]
    exact ⟨fun _ => by simp [h1], fun i hi => hi.elim (h2 i) (h4 i)⟩
end

theorem flat_head (c : Cond) (n : Nat) (h : c.Readable) : ∃ i l, c.flat n = i :: l ∧ i.isOr = c.isOr := by
  have hne := (flat_isF c n h).1
  cases c with
  | fieldc k b fv =>
    refine ⟨_, _, rfl, ?_⟩
    have hn : ∀ b i, (Item.negIf b i).isOr = i.isOr := by intro b i; cases b <;> rfl
    cases k <;> simp only [fieldcItem, hn] <;> (try split) <;> rfl
  | null b fd => refine ⟨_, _, rfl, ?_⟩; simp only [nullItem]; split <;> rfl
  | custom b x => exact h.elim
  | group b cs br =>
    simp only [Cond.flat] at hne ⊢
    split
    · refine ⟨_, _, rfl, ?_⟩
      simp only [parenItem]
      cases b.negate <;> rfl
    · cases hl : Cond.flatL cs n with
      | nil => rw [if_neg ‹_›, hl] at hne; exact absurd rfl hne
      | cons i l => exact ⟨_, _, rfl, rfl⟩

/-! ## Lexing -/

theorem jtoks_setHead (o : Bool) (l : List Item) : jtoks (setHead o l) = jtoks l := by cases l <;> rfl

theorem ttoks_append (l m : List Item) : ttoks (l ++ m) = ttoks l ++ ttoks m := by
  induction l with
  | nil => rfl
  | cons i l ih => simp [ttoks, ih]

theorem jtoks_append (l m : List Item) (h : l ≠ []) : jtoks (l ++ m) = jtoks l ++ ttoks m := by
  cases l with
  | nil => exact absurd rfl h
  | cons i l => simp [jtoks, ttoks_append]

theorem plain_renderSpec {fd : FieldDef} (h : PlainField fd) : fd.renderSpec = fd.col := by
  rw [renderSpec_column, if_neg, List.append_nil]
  · rfl
  · rintro ⟨h1, h2⟩
    rcases h.1 with h3 | ⟨h3, h4⟩
    · exact h1 h3
    · exact h2.elim (fun x => x h3) (fun x => x h4)

theorem lex_not (t : Str) : lex (c!"NOT " ++ t) = .word c!"NOT" :: lex t := lex_space c!"NOT" t

theorem cmpSym_opText (k : Kind) : cmpSym k = k.opText := by cases k <;> rfl

theorem lex_cmp (k : Kind) (b : CondBase) (fd : FieldDef) (n : Nat) (hf : PlainField fd) (ho : k.opText ∈ cmpOps)
    (o : Bool) :
    lex (renderCmp k b fd n) = (Item.negIf b.negate
      ⟨o, [.word fd.col, .op k.opText, .dollar (n + 1)], .atom (.cmp k.opText fd.col (n + 1))⟩).toks := by
  obtain ⟨h1, h2, _⟩ := hf.2
  have e : lex (fd.col ++ k.opText ++ '$' :: itoa (n + 1)) = [.word fd.col, .op k.opText, .dollar (n + 1)] := by
    rw [lex_word_op h1 h2 ho, lex_placeholder]
  unfold renderCmp
  rw [plain_renderSpec hf, cmpSym_opText]
  cases hb : b.negate
  · simpa [joinWith, Item.negIf] using e
  · have := lex_not (fd.col ++ k.opText ++ '$' :: itoa (n + 1))
    rw [e] at this
    simpa [joinWith, Item.negIf, Item.neg, CondBase.renderNegate, hb] using this

theorem lex_joined3 (x y z : Str) : lex (joinWith c!" " [x, y, z]) = lex x ++ lex y ++ lex z := by
  simp only [joinWith, List.append_assoc, List.cons_append, List.nil_append]
  rw [lex_space, lex_space]

theorem lex_joined4 (x y z w : Str) : lex (joinWith c!" " [x, y, z, w]) = lex x ++ lex y ++ lex z ++ lex w := by
  simp only [joinWith, List.append_assoc, List.cons_append, List.nil_append]
  rw [lex_space, lex_space, lex_space]

theorem lex_inList (n count : Nat) (hc : count ≠ 0) :
    lex (c!"(" ++ joinWith c!"," (inPlaceholders n count) ++ c!")") =
      .lpar :: (listToks (numbersFrom n count) ++ [.rpar]) := by
  have := lex_rpar (joinWith c!"," (inPlaceholders n count)) []
  simp only [List.cons_append, List.nil_append]
  rw [lex_lpar', this, lex_placeholders n count hc]
  rfl

theorem lex_fieldc (k : Kind) (b : CondBase) (fv : FieldValue) (n : Nat) (h : ReadableNode (.fieldc k b fv)) :
    lex (fieldcRenderP k b fv n) = (fieldcItem k b fv.fd (bindsOf k fv).length n).toks := by
  have hf := (readable_fieldc h).1
  obtain ⟨v, vs, hb, hv, _⟩ := readable_binds h
  obtain ⟨h1, h2, _⟩ := hf.2
  have hw := lex_word h1 h2
  have hd : lex (c!"$" ++ itoa (n + 1)) = [.dollar (n + 1)] := lex_placeholder (n + 1)
  cases k with
  | like =>
    simp only [fieldcRenderP, renderLike, fieldcItem, plain_renderSpec hf, CondBase.renderNegate]
    split
    · rw [lex_joined4, hw, hd]; rfl
    · rw [lex_joined3, hw, hd]; rfl
  | ilike =>
    simp only [fieldcRenderP, renderLike, fieldcItem, plain_renderSpec hf, CondBase.renderNegate]
    split
    · rw [lex_joined4, hw, hd]; rfl
    · rw [lex_joined3, hw, hd]; rfl
  | inn =>
    have hv' : fv.values = .ok (v :: vs) := hv
    simp only [fieldcRenderP, renderIn, fieldcItem, plain_renderSpec hf, CondBase.renderNegate, hb, hv', Res.getD_ok]
    have hl := lex_inList n (v :: vs).length (by simp)
    split
    · rw [lex_joined4, hw, hl]; rfl
    · rw [lex_joined3, hw, hl]; rfl
  | eq => exact lex_cmp _ b fv.fd n hf (opText_mem _ (by simp) (by simp) (by simp)) _
  | gt => exact lex_cmp _ b fv.fd n hf (opText_mem _ (by simp) (by simp) (by simp)) _
  | gte => exact lex_cmp _ b fv.fd n hf (opText_mem _ (by simp) (by simp) (by simp)) _
  | lt => exact lex_cmp _ b fv.fd n hf (opText_mem _ (by simp) (by simp) (by simp)) _
  | lte => exact lex_cmp _ b fv.fd n hf (opText_mem _ (by simp) (by simp) (by simp)) _

theorem lex_null (b : CondBase) (fd : FieldDef) (hf : PlainField fd) : lex (renderNull b fd) = (nullItem b fd).toks := by
  obtain ⟨h1, h2, _⟩ := hf.2
  have hw := lex_word h1 h2
  simp only [renderNull, nullItem, plain_renderSpec hf]
  split
  · rw [lex_joined4, hw]; rfl
  · rw [lex_joined3, hw]; rfl

theorem joinToken_lex (c : Cond) (s t : Str) (h : c.joinType = c!"AND" ∨ c.joinType = c!"OR") :
    lex (s ++ (joinToken c false ++ t)) = lex s ++ joinTok c.isOr :: lex t := by
  have e : joinToken c false = c!" " ++ c.joinType ++ c!" " := by
    unfold joinToken CondBase.renderJoin
    show (if c.joinType.length > 0 then _ else _) = _
    rw [if_pos (by rcases h with h | h <;> rw [h] <;> decide)]
    rfl
  rw [e]
  simp only [List.append_assoc, List.cons_append, List.nil_append]
  rw [lex_space, lex_space]
  unfold Cond.isOr
  rcases h with h | h <;> rw [h] <;> rfl

theorem lex_wrap (b : CondBase) (count : Nat) (br : Bool) (sql : Str) (l : List Item) (hn : l ≠ [])
    (h : lex sql = jtoks l) (o : Bool) :
    lex (wrapGroup b count br sql) =
      jtoks (if effBr b count br then [parenItem b l] else setHead o (negHead b.negate l)) := by
  have hp : lex (c!"(" ++ sql ++ c!")") = .lpar :: (jtoks l ++ [.rpar]) := by
    simp only [List.cons_append, List.nil_append]
    rw [lex_lpar', lex_rpar, h]; rfl
  unfold wrapGroup
  change lex (if b.negate then b.renderNegate ++ c!" " ++ (if effBr b count br then c!"(" ++ sql ++ c!")" else sql)
    else if effBr b count br then c!"(" ++ sql ++ c!")" else sql) = _
  obtain ⟨i, l', rfl⟩ := List.exists_cons_of_ne_nil hn
  cases hb : b.negate <;> cases he : effBr b count br
  · simpa [setHead, negHead, jtoks, Item.negIf] using h
  · simpa [parenItem, hb, Item.negIf, jtoks, ttoks] using hp
  · have := lex_not sql
    rw [h] at this
    simpa [setHead, negHead, jtoks, Item.negIf, Item.neg, CondBase.renderNegate, hb] using this
  · have := lex_not (c!"(" ++ sql ++ c!")")
    rw [hp] at this
    simpa [parenItem, jtoks, ttoks, Item.negIf, Item.neg, CondBase.renderNegate, hb] using this

mutual
theorem lex_render (c : Cond) (n : Nat) (h : c.Readable) : lex (c.renderP n) = jtoks (c.flat n) := by
  cases c with
  | fieldc k b fv => simpa [Cond.renderP, Cond.flat, jtoks, ttoks] using lex_fieldc k b fv n h
  | null b fd => simpa [Cond.renderP, Cond.flat, jtoks, ttoks] using lex_null b fd h
  | custom b x => exact h.elim
  | group b cs br =>
    have hr := readable_group.mp h
    simp only [Cond.renderP, Cond.flat]
    rw [if_neg (by simpa using hr.1)]
    refine lex_wrap b cs.length br _ _ ((flatL_isF cs n (everyL_mem.mpr hr.2.2)).1 hr.1) ?_ _
    cases cs with
    | nil => exact absurd rfl hr.1
    | cons c cs =>
      have hc := readable_group_cons.mp h
      simp only [Cond.renderPL, Cond.flatL, joinToken_first, List.nil_append]
      rw [lex_renderL cs (n + c.valuesP.length) hc.2.1 hc.2.2, lex_render c n hc.1,
        jtoks_append _ _ (flat_isF c n hc.1).1]
theorem lex_renderL (cs : List Cond) (n : Nat) (hj : ∀ d ∈ cs, d.joinType = c!"AND" ∨ d.joinType = c!"OR")
    (h : Cond.EveryL ReadableNode cs) (s : Str) :
    lex (s ++ Cond.renderPL cs false n) = lex s ++ ttoks (Cond.flatL cs n) := by
  cases cs with
  | nil => simp [Cond.renderPL, Cond.flatL, ttoks]
  | cons c cs =>
    simp only [Cond.renderPL, Cond.flatL, ttoks_append]
    rw [← List.append_assoc, ← List.append_assoc, List.append_assoc s, lex_renderL cs _ (fun d hd => hj d (by simp [hd])) h.2,
      joinToken_lex c _ _ (hj c (by simp)), lex_render c n h.1]
    obtain ⟨i, l, e1, e2⟩ := flat_head c n h.1
    rw [e1, ← e2]
    simp [ttoks, jtoks]
end

mutual
theorem readable_values (c : Cond) (h : c.Readable) : ∃ vs, c.values = .ok vs := by
  cases c with
  | fieldc k b fv => obtain ⟨v, vs, _, h2, _⟩ := readable_binds h; exact ⟨_, h2⟩
  | null b fd => exact ⟨_, rfl⟩
  | custom b x => exact ⟨_, rfl⟩
  | group b cs br => exact readable_valuesL cs h.2
theorem readable_valuesL (cs : List Cond) (h : Cond.EveryL ReadableNode cs) : ∃ vs, Cond.valuesL cs = .ok vs := by
  cases cs with
  | nil => exact ⟨_, rfl⟩
  | cons c cs =>
    obtain ⟨v, h1⟩ := readable_values c h.1
    obtain ⟨w, h2⟩ := readable_valuesL cs h.2
    exact ⟨v ++ w, by simp [Cond.valuesL, h1, h2]⟩
end

/-- The text of a readable condition reads as the expression of its factors. -/
theorem render_reads (c : Cond) (n : Nat) (h : c.Readable) :
    c.render n = .ok (c.renderP n) ∧ Reads (c.renderP n) (asm (c.flat n)) := by
  obtain ⟨vs, hv⟩ := readable_values c h
  refine ⟨c.render_pure vs hv n, ?_⟩
  obtain ⟨h1, h2⟩ := flat_isF c n h
  rw [Reads, lex_render c n h]
  exact asm_isE _ h1 h2

end Query
