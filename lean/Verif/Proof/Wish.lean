import Verif.Spec.Wish
import Verif.Props.Reads
import Verif.Proof.Program
/-!
# What the calls of a wish make

The calls of `Wish.call` succeed, and the text of the condition reads as the expression wished for.
-/
namespace Query

/-- A condition whose text is the expression, at every offset. -/
structure SaysExp (c : Cond) (ps : List Val) (x : Nat → BExp) : Prop where
  join : c.join lAND = c
  read : c.Readable
  params : c.valuesP = ps
  exp : ∀ k, asm (c.flat k) = x k

theorem says_test (t : Test) (h : t.OK) : ∃ c, t.call = .ok c ∧ SaysExp c t.params t.exp := by
  have key : ∀ (k : Kind) (c : ColRef) (v : Val) (ws : List Val), c.OK →
      ReadableNode (.fieldc k ⟨lAND, false⟩ ⟨c.fd, v⟩) → fieldcValues k ⟨c.fd, v⟩ = .ok ws → ∀ x : Nat → BExp,
      (∀ n, (fieldcItem k ⟨lAND, false⟩ c.fd ws.length n).ast = x n) →
      SaysExp (.fieldc k ⟨lAND, false⟩ ⟨c.fd, v⟩) ws x := by
    intro k c v ws _ hr hv x hx
    have hb : bindsOf k ⟨c.fd, v⟩ = ws := by simp [bindsOf, hv]
    refine ⟨rfl, hr, ?_, fun n => ?_⟩
    · have := readable_valuesP (c := .fieldc k ⟨lAND, false⟩ ⟨c.fd, v⟩) hr
      simp only [Cond.values, hv] at this
      cases this
      rfl
    · simp only [Cond.flat, asm, asmFrom, orWith, hb, hx]
  cases t with
  | cmp op c v w =>
    obtain ⟨h1, h2⟩ := h
    have hv : (⟨c.fd, v⟩ : FieldValue).values = .ok [w] := (C38_values _ _).mpr h2
    have hpf := fd_plainField h1
    have hc := fd_col h1
    cases op
    · exact ⟨_, mkField_col h1 .eq v, key .eq c v _ h1 ⟨hpf, w, hv⟩ hv _ fun n => by simp only [Test.exp]; rw [← hc]; rfl⟩
    · exact ⟨_, mkField_col h1 .gt v, key .gt c v _ h1 ⟨hpf, w, hv⟩ hv _ fun n => by simp only [Test.exp]; rw [← hc]; rfl⟩
    · exact ⟨_, mkField_col h1 .gte v, key .gte c v _ h1 ⟨hpf, w, hv⟩ hv _ fun n => by simp only [Test.exp]; rw [← hc]; rfl⟩
    · exact ⟨_, mkField_col h1 .lt v, key .lt c v _ h1 ⟨hpf, w, hv⟩ hv _ fun n => by simp only [Test.exp]; rw [← hc]; rfl⟩
    · exact ⟨_, mkField_col h1 .lte v, key .lte c v _ h1 ⟨hpf, w, hv⟩ hv _ fun n => by simp only [Test.exp]; rw [← hc]; rfl⟩
  | isIn c v ws =>
    obtain ⟨h1, h2, h3⟩ := h
    have hv : (⟨c.fd, v⟩ : FieldValue).values = .ok ws := (C38_values _ _).mpr h2
    refine ⟨_, mkField_col h1 .inn v, key .inn c v _ h1 ⟨fd_plainField h1, ?_⟩ hv _ fun n => ?_⟩
    · cases ws with
      | nil => exact absurd rfl h3
      | cons w ws => exact ⟨w, ws, hv⟩
    · simp only [Test.exp]; rw [← fd_col h1]; rfl
  | has c s =>
    exact ⟨_, mkField_col h .like _, key .like c (.str s) _ h ⟨fd_plainField h, s, rfl⟩ rfl _ fun n => by
      simp only [Test.exp]; rw [← fd_col h]; rfl⟩
  | ihas c s =>
    exact ⟨_, mkField_col h .ilike _, key .ilike c (.str s) _ h ⟨fd_plainField h, s, rfl⟩ rfl _ fun n => by
      simp only [Test.exp]; rw [← fd_col h]; rfl⟩
  | null c =>
    have h : c.OK := h
    refine ⟨.null ⟨lAND, false⟩ c.fd, ?_, rfl, fd_plainField h, rfl, fun n => ?_⟩
    · simp only [Test.call, isNull, field_col h, Res.bind_ok, newBase]
    · simp only [Test.exp]; rw [← fd_col h]; rfl

/-- A condition in brackets, joined by any word. -/
theorem brackets_flat {c : Cond} {ps : List Val} {x : Nat → BExp} (h : SaysExp c ps x) (j : Str) (b : Bool) (k : Nat) :
    ∃ ts, Cond.flat (.group ⟨j, b⟩ [c] true) k = [Item.negIf b ⟨j == c!"OR", ts, x k⟩] := by
  refine ⟨.lpar :: (jtoks (c.flat k) ++ [.rpar]), ?_⟩
  have he : effBr ⟨j, b⟩ [c].length true = true := by cases b <;> rfl
  rw [Cond.flat, if_pos he]
  simp only [parenItem, Cond.flatL, List.append_nil, h.exp]

theorem inBrackets_eq {c : Cond} {ps : List Val} {x : Nat → BExp} (h : SaysExp c ps x) :
    inBrackets c = .group ⟨lAND, false⟩ [c] true := by
  simp only [inBrackets, newGroup, setToAll, List.map_cons, List.map_nil, h.join, Group.withBrackets, Group.toCond, newBase]

theorem brackets_read {c : Cond} {ps : List Val} {x : Nat → BExp} (h : SaysExp c ps x) (b : CondBase) :
    (Cond.group b [c] true).Readable := by
  refine readable_group.mpr ⟨by simp, by simp, ?_⟩
  simpa using h.read

theorem brackets_params {c : Cond} {ps : List Val} {x : Nat → BExp} (h : SaysExp c ps x) (b : CondBase) :
    (Cond.group b [c] true).valuesP = ps := by
  simp [Cond.valuesP, Cond.valuesPL, h.params]

theorem says_not {c : Cond} {ps : List Val} {x : Nat → BExp} (h : SaysExp c ps x) :
    SaysExp (notC (inBrackets c)) ps fun k => .not (x k) := by
  have e : notC (inBrackets c) = .group ⟨lAND, true⟩ [c] true := by rw [inBrackets_eq h]; rfl
  rw [e]
  refine ⟨rfl, brackets_read h _, brackets_params h _, fun k => ?_⟩
  obtain ⟨ts, hf⟩ := brackets_flat h lAND true k
  rw [hf]; rfl

theorem says_both {c d : Cond} {ps qs : List Val} {x y : Nat → BExp} (hc : SaysExp c ps x) (hd : SaysExp d qs y) (j : Str)
    (hj : j = lAND ∨ j = lOR) :
    SaysExp (newGroup j [inBrackets c, inBrackets d]).toCond (ps ++ qs) fun k =>
      if j = lOR then .or (x k) (y (k + ps.length)) else .and (x k) (y (k + ps.length)) := by
  have e : (newGroup j [inBrackets c, inBrackets d]).toCond =
      .group ⟨lAND, false⟩ [.group ⟨j, false⟩ [c] true, .group ⟨j, false⟩ [d] true] false := by
    rw [inBrackets_eq hc, inBrackets_eq hd]; rfl
  rw [e]
  refine ⟨rfl, ?_, ?_, fun k => ?_⟩
  · refine readable_group.mpr ⟨by simp, ?_, ?_⟩
    · intro g hg
      simp only [List.drop_succ_cons, List.drop_zero, List.mem_cons, List.not_mem_nil, or_false] at hg
      subst hg
      exact hj
    · intro g hg
      simp only [List.mem_cons, List.not_mem_nil, or_false] at hg
      rcases hg with rfl | rfl
      · exact brackets_read hc _
      · exact brackets_read hd _
  · have h1 := brackets_params hc ⟨j, false⟩
    have h2 := brackets_params hd ⟨j, false⟩
    rw [Cond.valuesP, Cond.valuesPL, Cond.valuesPL, Cond.valuesPL, h1, h2, List.append_nil]
  · obtain ⟨t1, f1⟩ := brackets_flat hc j false k
    obtain ⟨t2, f2⟩ := brackets_flat hd j false (k + ps.length)
    rw [Cond.flat, if_neg (by simp [effBr]), Cond.flatL, Cond.flatL, Cond.flatL, brackets_params hc, f1, f2]
    rcases hj with rfl | rfl <;> rfl

/-- The calls of every wish succeed, and the condition says what is wished. -/
theorem wish_says : ∀ (w : Wish), w.OK → ∃ c, w.call = .ok c ∧ SaysExp c w.params w.exp
  | .test t, h => says_test t h
  | .not w, h => by
    obtain ⟨c, h1, h2⟩ := wish_says w h
    exact ⟨_, by simp only [Wish.call, h1, Res.bind_ok], says_not h2⟩
  | .and a b, h => by
    obtain ⟨c, h1, h2⟩ := wish_says a h.1
    obtain ⟨d, h3, h4⟩ := wish_says b h.2
    exact ⟨_, by simp only [Wish.call, h1, h3, Res.bind_ok], says_both h2 h4 lAND (.inl rfl)⟩
  | .or a b, h => by
    obtain ⟨c, h1, h2⟩ := wish_says a h.1
    obtain ⟨d, h3, h4⟩ := wish_says b h.2
    exact ⟨_, by simp only [Wish.call, h1, h3, Res.bind_ok], says_both h2 h4 lOR (.inr rfl)⟩

/-- The text of such a condition, and its values. -/
theorem says_text {c : Cond} {ps : List Val} {x : Nat → BExp} (h : SaysExp c ps x) (k : Nat) :
    ∃ s, c.render k = .ok s ∧ c.values = .ok ps ∧ Reads s (x k) := by
  obtain ⟨h1, h2⟩ := render_reads c k h.read
  rw [h.exp] at h2
  refine ⟨_, h1, ?_, h2⟩
  rw [readable_valuesP h.read, h.params]

/-- A condition alone in a group without brackets. -/
theorem says_alone {c : Cond} {ps : List Val} {x : Nat → BExp} (h : SaysExp c ps x) :
    SaysExp (.group ⟨lAND, false⟩ [c] false) ps x := by
  refine ⟨rfl, readable_group.mpr ⟨by simp, by simp, by simpa using h.read⟩, ?_, fun k => ?_⟩
  · simp [Cond.valuesP, Cond.valuesPL, h.params]
  · rw [← h.exp, Cond.flat, if_neg (by simp [effBr]), Cond.flatL, Cond.flatL, List.append_nil]
    cases c.flat k <;> rfl

/-! ### What a condition says can be wished for -/

theorem asmFrom_sayable (env : Nat → Val) (l : List Item) (h : ∀ i ∈ l, i.ast.Sayable env) (o : Option BExp) (a : BExp)
    (ho : ∀ x ∈ o, x.Sayable env) (ha : a.Sayable env) : (asmFrom o a l).Sayable env := by
  have hw : ∀ (o : Option BExp) (a : BExp), (∀ x ∈ o, x.Sayable env) → a.Sayable env → (orWith o a).Sayable env := by
    intro o a ho ha
    cases o with
    | none => exact ha
    | some x => exact ⟨ho x rfl, ha⟩
  induction l generalizing o a with
  | nil => exact hw o a ho ha
  | cons i l ih =>
    have hi := h i (by simp)
    have hl : ∀ j ∈ l, j.ast.Sayable env := fun j hj => h j (by simp [hj])
    simp only [asmFrom]
    split
    · refine ih hl _ _ (fun x hx => ?_) hi
      simp only [Option.mem_some_iff] at hx
      exact hx ▸ hw o a ho ha
    · exact ih hl _ _ ho ⟨ha, hi⟩

theorem asm_sayable (env : Nat → Val) (l : List Item) (hn : l ≠ []) (h : ∀ i ∈ l, i.ast.Sayable env) : (asm l).Sayable env := by
  cases l with
  | nil => exact absurd rfl hn
  | cons i l => exact asmFrom_sayable env l (fun j hj => h j (by simp [hj])) none _ (by simp) (h i (by simp))

theorem negIf_sayable (env : Nat → Val) (b : Bool) (i : Item) (h : i.ast.Sayable env) : (i.negIf b).ast.Sayable env := by
  cases b <;> exact h

theorem head_sayable (env : Nat → Val) (o b : Bool) (l : List Item) (h : ∀ i ∈ l, i.ast.Sayable env) :
    ∀ i ∈ setHead o (negHead b l), i.ast.Sayable env := by
  cases l with
  | nil => intro i hi; cases hi
  | cons i l =>
    intro j hj
    simp only [setHead, negHead, List.mem_cons] at hj
    rcases hj with rfl | hj
    · exact negIf_sayable env b i (h i (by simp))
    · exact h j (by simp [hj])

theorem fieldcItem_sayable (env : Nat → Val) (k : Kind) (b : CondBase) (fv : FieldValue) (n : Nat)
    (h : ReadableNode (.fieldc k b fv)) (ha : Agree env n (bindsOf k fv)) (hc : ColText fv.fd.col) :
    (fieldcItem k b fv.fd (bindsOf k fv).length n).ast.Sayable env := by
  have hlike : ∀ s, bindsOf k fv = [.str (c!"%" ++ s ++ c!"%")] → env (n + 1) = .str (c!"%" ++ s ++ c!"%") := by
    intro s hs
    rw [hs] at ha
    unfold Agree at ha
    simp only [List.length_cons, List.length_nil, numbersFrom_one, Nat.zero_add, List.map_cons, List.map_nil] at ha
    exact (List.cons.inj ha).1
  cases k with
  | like =>
    obtain ⟨_, s, hs⟩ := h
    have := hlike s (by simp [bindsOf, fieldcValues, likeValues, hs])
    simp only [fieldcItem]; split <;> exact ⟨hc, s, this⟩
  | ilike =>
    obtain ⟨_, s, hs⟩ := h
    have := hlike s (by simp [bindsOf, fieldcValues, likeValues, hs])
    simp only [fieldcItem]; split <;> exact ⟨hc, s, this⟩
  | inn =>
    obtain ⟨v, vs, hb, _⟩ := readable_binds h
    have hne : numbersFrom n (bindsOf .inn fv).length ≠ [] := numbersFrom_ne (by simp [hb])
    simp only [fieldcItem]; split <;> exact ⟨hc, hne⟩
  | eq => exact negIf_sayable env _ _ ⟨opText_mem _ (by simp) (by simp) (by simp), hc⟩
  | gt => exact negIf_sayable env _ _ ⟨opText_mem _ (by simp) (by simp) (by simp), hc⟩
  | gte => exact negIf_sayable env _ _ ⟨opText_mem _ (by simp) (by simp) (by simp), hc⟩
  | lt => exact negIf_sayable env _ _ ⟨opText_mem _ (by simp) (by simp) (by simp), hc⟩
  | lte => exact negIf_sayable env _ _ ⟨opText_mem _ (by simp) (by simp) (by simp), hc⟩

mutual
theorem flat_sayable (env : Nat → Val) (c : Cond) (n : Nat) (h : c.Readable) (ha : Agree env n c.valuesP)
    (hc : ∀ l ∈ c.leaves, ColText l.col) : ∀ i ∈ c.flat n, i.ast.Sayable env := by
  cases c with
  | fieldc k b fv =>
    rw [binds_valuesP] at ha
    intro i hi
    simp only [Cond.flat, List.mem_cons, List.not_mem_nil, or_false] at hi
    subst hi
    exact fieldcItem_sayable env k b fv n h ha (hc ⟨k.opText, fv.fd.col, bindsOf k fv⟩ (by simp [Cond.leaves]))
  | null b fd =>
    intro i hi
    simp only [Cond.flat, List.mem_cons, List.not_mem_nil, or_false] at hi
    subst hi
    have := hc _ (by simp [Cond.leaves]; rfl)
    simp only [nullItem]; split <;> exact this
  | custom b x => exact h.elim
  | group b cs br =>
    have hr := readable_group.mp h
    have hl := flatL_sayable env cs n h.2 ha hc
    have hne := (flatL_isF cs n h.2).1 hr.1
    simp only [Cond.flat]
    split
    · intro i hi
      simp only [List.mem_cons, List.not_mem_nil, or_false] at hi
      subst hi
      exact negIf_sayable env _ _ (asm_sayable env _ hne hl)
    · exact head_sayable env _ _ _ hl
theorem flatL_sayable (env : Nat → Val) (cs : List Cond) (n : Nat) (h : Cond.EveryL ReadableNode cs)
    (ha : Agree env n (Cond.valuesPL cs)) (hc : ∀ l ∈ Cond.leavesL cs, ColText l.col) : ∀ i ∈ Cond.flatL cs n, i.ast.Sayable env := by
  cases cs with
  | nil => intro i hi; cases hi
  | cons c cs =>
    simp only [Cond.valuesPL] at ha
    obtain ⟨h1, h2⟩ := agree_append ha
    intro i hi
    simp only [Cond.flatL, List.mem_append] at hi
    rcases hi with hi | hi
    · exact flat_sayable env c n h.1 h1 (fun l hl => hc l (by simp [Cond.leavesL, hl])) i hi
    · exact flatL_sayable env cs _ h.2 h2 (fun l hl => hc l (by simp [Cond.leavesL, hl])) i hi
end

theorem sayable_leaves {e : BExp} {env : Nat → Val} (h : e.Sayable env) : ∀ l ∈ e.leaves env, ColText l.col := by
  induction e with
  | atom a =>
    intro l hl
    simp only [BExp.leaves, List.mem_cons, List.not_mem_nil, or_false] at hl
    subst hl
    cases a with
    | cmp o w n => exact h.2
    | like w n => exact h.1
    | ilike w n => exact h.1
    | inn w ns => exact h.1
    | isNull w => exact h
  | not e ih => exact ih h
  | and a b iha ihb =>
    intro l hl
    simp only [BExp.leaves, List.mem_append] at hl
    exact hl.elim (iha h.1 l) (ihb h.2 l)
  | or a b iha ihb =>
    intro l hl
    simp only [BExp.leaves, List.mem_append] at hl
    exact hl.elim (iha h.1 l) (ihb h.2 l)

/-- The columns of the condition are those of the expression. -/
theorem says_cols {c : Cond} {ps : List Val} {x : Nat → BExp} (h : SaysExp c ps x) (k : Nat) (hs : (x k).Sayable (bound k ps)) :
    ∀ l ∈ c.leaves, ColText l.col := by
  have hne := (flat_isF c k h.read).1
  have hl := (flat_leaves (bound k c.valuesP) c k h.read (bound_agree k c.valuesP)).1
  rw [← asm_leaves _ _ hne, h.exp, h.params] at hl
  rw [← hl]
  exact sayable_leaves hs

end Query
