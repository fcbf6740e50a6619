import Verif.Proof.Flat
/-!
# The meaning of the text of a condition, computed on the tree
-/
namespace Query

/-! ## Three-valued logic -/

namespace Tri

theorem or_assoc (a b c : Tri) : (a.or b).or c = a.or (b.or c) := by cases a <;> cases b <;> cases c <;> rfl
theorem and_assoc (a b c : Tri) : (a.and b).and c = a.and (b.and c) := by cases a <;> cases b <;> cases c <;> rfl
theorem or_comm (a b : Tri) : a.or b = b.or a := by cases a <;> cases b <;> rfl
theorem and_comm (a b : Tri) : a.and b = b.and a := by cases a <;> cases b <;> rfl
@[simp] theorem f_or (a : Tri) : Tri.f.or a = a := rfl
@[simp] theorem or_f (a : Tri) : a.or .f = a := by cases a <;> rfl
@[simp] theorem t_and (a : Tri) : Tri.t.and a = a := rfl
@[simp] theorem and_t (a : Tri) : a.and .t = a := by cases a <;> rfl
@[simp] theorem not_not (a : Tri) : a.not.not = a := by cases a <;> rfl
@[simp] theorem notIf_false (a : Tri) : a.notIf false = a := rfl
@[simp] theorem notIf_true (a : Tri) : a.notIf true = a.not := rfl

end Tri

/-! ## Truth values of the factors -/

/-- Join word and truth value of a factor. -/
def Item.ev (row : Row) (env : Nat → Val) (i : Item) : Bool × Tri := (i.isOr, i.ast.eval row env)

theorem asmFrom_eval (row : Row) (env : Nat → Val) (l : List Item) (o : Option BExp) (a : BExp) :
    (asmFrom o a l).eval row env =
      joinFrom ((o.map (·.eval row env)).getD .f) (a.eval row env) (l.map (·.ev row env)) := by
  induction l generalizing o a with
  | nil => cases o <;> simp [asmFrom, orWith, joinFrom, BExp.eval]
  | cons i l ih =>
    simp only [asmFrom, List.map_cons, Item.ev]
    cases hi : i.isOr
    · simp [ih, joinFrom, BExp.eval, Item.ev]
    · simp only [if_true, ih, joinFrom]
      cases o <;> simp [orWith, BExp.eval, Item.ev]

theorem asm_eval (row : Row) (env : Nat → Val) (l : List Item) (hn : l ≠ []) :
    (asm l).eval row env = joinTri (l.map (·.ev row env)) := by
  cases l with
  | nil => exact absurd rfl hn
  | cons i l => simp [asm, asmFrom_eval, joinTri, Item.ev]

/-- The environment binds the placeholders from `n + 1` on to the values. -/
def Agree (env : Nat → Val) (n : Nat) (vs : List Val) : Prop := (numbersFrom n vs.length).map env = vs

theorem agree_append {env : Nat → Val} {n : Nat} {vs ws : List Val} (h : Agree env n (vs ++ ws)) :
    Agree env n vs ∧ Agree env (n + vs.length) ws := by
  unfold Agree at h ⊢
  rw [List.length_append, numbersFrom_add, List.map_append] at h
  exact List.append_inj h (by simp [numbersFrom_length])

theorem agree_one {env : Nat → Val} {n : Nat} {v : Val} (h : Agree env n [v]) : env (n + 1) = v := by
  simpa [Agree, numbersFrom_one] using h

theorem bound_agree (k : Nat) (vs : List Val) : Agree (bound k vs) k vs := by
  unfold Agree numbersFrom
  apply List.ext_getElem
  · simp
  · intro i h1 h2
    simp only [List.getElem_map, List.getElem_range', bound]
    have : k + 1 + 1 * i - k - 1 = i := by omega
    rw [this, List.getElem?_eq_getElem h2]
    rfl

theorem Item.ev_negIf (row : Row) (env : Nat → Val) (b : Bool) (i : Item) :
    (i.negIf b).ev row env = (i.isOr, (i.ast.eval row env).notIf b) := by
  cases b <;> rfl

theorem binds_valuesP (k : Kind) (b : CondBase) (fv : FieldValue) :
    (Cond.fieldc k b fv).valuesP = bindsOf k fv := by
  simp only [Cond.valuesP, bindsOf, Res.getD]
  cases fieldcValues k fv <;> rfl

theorem fieldcItem_ev (row : Row) (env : Nat → Val) (k : Kind) (b : CondBase) (fv : FieldValue) (n : Nat)
    (h : ReadableNode (.fieldc k b fv)) (ha : Agree env n (bindsOf k fv)) :
    (fieldcItem k b fv.fd (bindsOf k fv).length n).ev row env =
      (b.joinType == c!"OR", (k.says row fv.fd.col (bindsOf k fv)).notIf b.negate) := by
  obtain ⟨v, vs, hb, _, h1⟩ := readable_binds h
  have hin : ((numbersFrom n (bindsOf k fv).length).map fun j => row.cmp c!"=" fv.fd.col (env j)) =
      (bindsOf k fv).map fun v => row.cmp c!"=" fv.fd.col v := by
    conv => rhs; rw [← ha]
    rw [List.map_map]; rfl
  cases k with
  | inn =>
    simp only [fieldcItem, Kind.says]
    cases b.negate
    · simp only [Bool.false_eq_true, if_false, Item.ev, BExp.eval, Atom.eval, hin, Tri.notIf_false]
    · simp only [if_true, Item.ev, BExp.eval, Atom.eval, hin, Tri.notIf_true]
  | like =>
    have : vs = [] := h1 (by simp)
    subst this; rw [hb] at ha ⊢
    simp only [fieldcItem, Kind.says]
    cases b.negate <;> simp [Item.ev, BExp.eval, Atom.eval, agree_one ha]
  | ilike =>
    have : vs = [] := h1 (by simp)
    subst this; rw [hb] at ha ⊢
    simp only [fieldcItem, Kind.says]
    cases b.negate <;> simp [Item.ev, BExp.eval, Atom.eval, agree_one ha]
  | eq =>
    have : vs = [] := h1 (by simp)
    subst this; rw [hb] at ha ⊢
    simp [fieldcItem, Kind.says, Item.ev_negIf, BExp.eval, Atom.eval, agree_one ha]
  | gt =>
    have : vs = [] := h1 (by simp)
    subst this; rw [hb] at ha ⊢
    simp [fieldcItem, Kind.says, Item.ev_negIf, BExp.eval, Atom.eval, agree_one ha]
  | gte =>
    have : vs = [] := h1 (by simp)
    subst this; rw [hb] at ha ⊢
    simp [fieldcItem, Kind.says, Item.ev_negIf, BExp.eval, Atom.eval, agree_one ha]
  | lt =>
    have : vs = [] := h1 (by simp)
    subst this; rw [hb] at ha ⊢
    simp [fieldcItem, Kind.says, Item.ev_negIf, BExp.eval, Atom.eval, agree_one ha]
  | lte =>
    have : vs = [] := h1 (by simp)
    subst this; rw [hb] at ha ⊢
    simp [fieldcItem, Kind.says, Item.ev_negIf, BExp.eval, Atom.eval, agree_one ha]

theorem head_ev (row : Row) (env : Nat → Val) (o b : Bool) (l : List Item) :
    (setHead o (negHead b l)).map (·.ev row env) = ssetHead o (snegHead b (l.map (·.ev row env))) := by
  cases l with
  | nil => rfl
  | cons i l => cases b <;> rfl

mutual
theorem flat_ev (row : Row) (env : Nat → Val) (c : Cond) (n : Nat) (h : c.Readable) (ha : Agree env n c.valuesP) :
    (c.flat n).map (·.ev row env) = c.sflat row := by
  cases c with
  | fieldc k b fv =>
    rw [binds_valuesP] at ha
    simp [Cond.flat, Cond.sflat, fieldcItem_ev row env k b fv n h ha]
  | null b fd =>
    simp only [Cond.flat, Cond.sflat, List.map_cons, List.map_nil, nullItem]
    cases b.negate <;> rfl
  | custom b x => exact h.elim
  | group b cs br =>
    have hr := readable_group.mp h
    have hl := flatL_ev row env cs n h.2 ha
    have hne := (flatL_isF cs n h.2).1 hr.1
    simp only [Cond.flat, Cond.sflat]
    split
    · simp [parenItem, Item.ev_negIf, asm_eval row env _ hne, hl]
    · rw [head_ev, hl]
theorem flatL_ev (row : Row) (env : Nat → Val) (cs : List Cond) (n : Nat) (h : Cond.EveryL ReadableNode cs)
    (ha : Agree env n (Cond.valuesPL cs)) : (Cond.flatL cs n).map (·.ev row env) = Cond.sflatL row cs := by
  cases cs with
  | nil => rfl
  | cons c cs =>
    simp only [Cond.valuesPL] at ha
    obtain ⟨h1, h2⟩ := agree_append ha
    simp [Cond.flatL, Cond.sflatL, flat_ev row env c n h.1 h1, flatL_ev row env cs _ h.2 h2]
end

theorem readable_valuesP {c : Cond} (h : c.Readable) : c.values = .ok c.valuesP := by
  obtain ⟨vs, hv⟩ := readable_values c h
  rw [hv, c.values_pure vs hv]

/-- The text of a readable condition has, with its values bound, the truth value `textSem`, at every offset. -/
theorem render_means (c : Cond) (n : Nat) (row : Row) (h : c.Readable) :
    (asm (c.flat n)).eval row (bound n c.valuesP) = c.textSem row := by
  rw [asm_eval _ _ _ (flat_isF c n h).1, flat_ev row _ c n h (bound_agree n _)]
  rfl

theorem textMeans_iff (c : Cond) (row : Row) (x : Tri) (h : c.Readable) : TextMeans c row x ↔ c.textSem row = x := by
  have hv := readable_valuesP h
  constructor
  · intro hx
    obtain ⟨s, vs, e, hs, hvs, hr, rfl⟩ := hx 0
    obtain ⟨h1, h2⟩ := render_reads c 0 h
    rw [h1] at hs; rw [hv] at hvs
    obtain rfl := Res.ok.inj hs
    obtain rfl := Res.ok.inj hvs
    rw [reads_unique hr h2, render_means c 0 row h]
  · rintro rfl k
    obtain ⟨h1, h2⟩ := render_reads c k h
    exact ⟨_, _, _, h1, hv, h2, render_means c k row h⟩

/-! ## Leaves and placeholders -/

theorem asmFrom_leaves (env : Nat → Val) (l : List Item) (o : Option BExp) (a : BExp) :
    (asmFrom o a l).leaves env =
      ((o.map (·.leaves env)).getD []) ++ a.leaves env ++ l.flatMap (fun i => i.ast.leaves env) := by
  induction l generalizing o a with
  | nil => cases o <;> simp [asmFrom, orWith, BExp.leaves]
  | cons i l ih =>
    simp only [asmFrom]
    split
    · rw [ih]; cases o <;> simp [orWith, BExp.leaves]
    · rw [ih]; simp [BExp.leaves]

theorem asm_leaves (env : Nat → Val) (l : List Item) (hn : l ≠ []) :
    (asm l).leaves env = l.flatMap (fun i => i.ast.leaves env) := by
  cases l with
  | nil => exact absurd rfl hn
  | cons i l => simp [asm, asmFrom_leaves]

theorem asmFrom_nums (l : List Item) (o : Option BExp) (a : BExp) :
    (asmFrom o a l).nums = ((o.map (·.nums)).getD []) ++ a.nums ++ l.flatMap (fun i => i.ast.nums) := by
  induction l generalizing o a with
  | nil => cases o <;> simp [asmFrom, orWith, BExp.nums]
  | cons i l ih =>
    simp only [asmFrom]
    split
    · rw [ih]; cases o <;> simp [orWith, BExp.nums]
    · rw [ih]; simp [BExp.nums]

theorem asm_nums (l : List Item) (hn : l ≠ []) : (asm l).nums = l.flatMap (fun i => i.ast.nums) := by
  cases l with
  | nil => exact absurd rfl hn
  | cons i l => simp [asm, asmFrom_nums]

theorem negIf_leaves (env : Nat → Val) (b : Bool) (i : Item) : (i.negIf b).ast.leaves env = i.ast.leaves env := by
  cases b <;> rfl

theorem negIf_nums (b : Bool) (i : Item) : (i.negIf b).ast.nums = i.ast.nums := by
  cases b <;> rfl

theorem fieldcItem_leaves (env : Nat → Val) (k : Kind) (b : CondBase) (fv : FieldValue) (n : Nat)
    (h : ReadableNode (.fieldc k b fv)) (ha : Agree env n (bindsOf k fv)) :
    (fieldcItem k b fv.fd (bindsOf k fv).length n).ast.leaves env = [⟨k.opText, fv.fd.col, bindsOf k fv⟩] ∧
    (fieldcItem k b fv.fd (bindsOf k fv).length n).ast.nums = numbersFrom n (bindsOf k fv).length := by
  obtain ⟨v, vs, hb, _, h1⟩ := readable_binds h
  cases k with
  | inn =>
    simp only [fieldcItem]
    cases b.negate
    · simp only [Bool.false_eq_true, if_false, BExp.leaves, BExp.nums, Atom.leaf, Atom.nums]
      rw [ha]; exact ⟨rfl, trivial⟩
    · simp only [if_true, BExp.leaves, BExp.nums, Atom.leaf, Atom.nums]
      rw [ha]; exact ⟨rfl, trivial⟩
  | like =>
    have : vs = [] := h1 (by simp)
    subst this; rw [hb] at ha ⊢
    simp only [fieldcItem]
    cases b.negate <;> simp [BExp.leaves, Atom.leaf, BExp.nums, Atom.nums, agree_one ha, numbersFrom_one, Kind.opText]
  | ilike =>
    have : vs = [] := h1 (by simp)
    subst this; rw [hb] at ha ⊢
    simp only [fieldcItem]
    cases b.negate <;> simp [BExp.leaves, Atom.leaf, BExp.nums, Atom.nums, agree_one ha, numbersFrom_one, Kind.opText]
  | eq =>
    have : vs = [] := h1 (by simp)
    subst this; rw [hb] at ha ⊢
    simp [fieldcItem, negIf_leaves, negIf_nums, BExp.leaves, BExp.nums, Atom.leaf, Atom.nums, agree_one ha, numbersFrom_one]
  | gt =>
    have : vs = [] := h1 (by simp)
    subst this; rw [hb] at ha ⊢
    simp [fieldcItem, negIf_leaves, negIf_nums, BExp.leaves, BExp.nums, Atom.leaf, Atom.nums, agree_one ha, numbersFrom_one]
  | gte =>
    have : vs = [] := h1 (by simp)
    subst this; rw [hb] at ha ⊢
    simp [fieldcItem, negIf_leaves, negIf_nums, BExp.leaves, BExp.nums, Atom.leaf, Atom.nums, agree_one ha, numbersFrom_one]
  | lt =>
    have : vs = [] := h1 (by simp)
    subst this; rw [hb] at ha ⊢
    simp [fieldcItem, negIf_leaves, negIf_nums, BExp.leaves, BExp.nums, Atom.leaf, Atom.nums, agree_one ha, numbersFrom_one]
  | lte =>
    have : vs = [] := h1 (by simp)
    subst this; rw [hb] at ha ⊢
    simp [fieldcItem, negIf_leaves, negIf_nums, BExp.leaves, BExp.nums, Atom.leaf, Atom.nums, agree_one ha, numbersFrom_one]

theorem head_leaves (env : Nat → Val) (o b : Bool) (l : List Item) :
    (setHead o (negHead b l)).flatMap (fun i => i.ast.leaves env) = l.flatMap (fun i => i.ast.leaves env) ∧
    (setHead o (negHead b l)).flatMap (fun i => i.ast.nums) = l.flatMap (fun i => i.ast.nums) := by
  cases l with
  | nil => exact ⟨rfl, rfl⟩
  | cons i l => simp [setHead, negHead, negIf_leaves, negIf_nums]

mutual
theorem flat_leaves (env : Nat → Val) (c : Cond) (n : Nat) (h : c.Readable) (ha : Agree env n c.valuesP) :
    (c.flat n).flatMap (fun i => i.ast.leaves env) = c.leaves ∧
    (c.flat n).flatMap (fun i => i.ast.nums) = numbersFrom n c.valuesP.length := by
  cases c with
  | fieldc k b fv =>
    rw [binds_valuesP] at ha ⊢
    have := fieldcItem_leaves env k b fv n h ha
    simp [Cond.flat, Cond.leaves, this]
  | null b fd =>
    simp only [Cond.flat, Cond.leaves, nullItem, Cond.valuesP]
    cases b.negate <;> simp [BExp.leaves, BExp.nums, Atom.leaf, Atom.nums, numbersFrom]
  | custom b x => exact h.elim
  | group b cs br =>
    have hr := readable_group.mp h
    have hl := flatL_leaves env cs n h.2 ha
    have hne := (flatL_isF cs n h.2).1 hr.1
    simp only [Cond.flat, Cond.leaves, Cond.valuesP]
    split
    · simp [parenItem, negIf_leaves, negIf_nums, asm_leaves _ _ hne, asm_nums _ hne, hl]
    · rw [(head_leaves env _ _ _).1, (head_leaves env _ _ _).2]
      exact hl
theorem flatL_leaves (env : Nat → Val) (cs : List Cond) (n : Nat) (h : Cond.EveryL ReadableNode cs)
    (ha : Agree env n (Cond.valuesPL cs)) :
    (Cond.flatL cs n).flatMap (fun i => i.ast.leaves env) = Cond.leavesL cs ∧
    (Cond.flatL cs n).flatMap (fun i => i.ast.nums) = numbersFrom n (Cond.valuesPL cs).length := by
  cases cs with
  | nil => exact ⟨rfl, rfl⟩
  | cons c cs =>
    simp only [Cond.valuesPL] at ha ⊢
    obtain ⟨h1, h2⟩ := agree_append ha
    have e1 := flat_leaves env c n h.1 h1
    have e2 := flatL_leaves env cs _ h.2 h2
    simp [Cond.flatL, Cond.leavesL, e1, e2, numbersFrom_add]
end

end Query
