import Verif.Proof.HeapCond
/-!
# The invariant of histories
-/
namespace Query
open Store

/-- The slices a later call may append to. -/
structure Own where
  c : List Sl
  j : List Sl
  s : List Sl
  v : List Sl

def HCond.sl : HCond → List Sl
  | .leaf _ => []
  | .group _ s _ => [s]

def HV.own : HV → Own
  | .cond h => ⟨h.sl, [], [], []⟩
  | .base q | .single q | .joinB q | .joinS q => ⟨[q.where_.s], [q.joins], [], []⟩
  | .many q | .joinM q => ⟨[q.base.where_.s], [q.base.joins], [q.order], []⟩
  | .count _ _ => ⟨[], [], [], []⟩
  | .insert q => ⟨[], [], [], [q.setValues]⟩
  | .update q => ⟨[q.where_.s], [], [], [q.setValues]⟩
  | .delete q => ⟨[q.where_.s], [], [], []⟩

/-- The slice of joins of a value. -/
def HV.jsl : HV → List Sl
  | .base q | .single q | .joinB q | .joinS q | .count q _ => [q.joins]
  | .many q | .joinM q => [q.base.joins]
  | _ => []

structure OwnExt (tight : Bool) (m : Mem) (o : Own) : Prop where
  c : ∀ s ∈ o.c, Ext tight m.conds s
  j : ∀ s ∈ o.j, Ext tight m.joins s
  s : ∀ s ∈ o.s, Ext tight m.sorts s
  v : ∀ s ∈ o.v, Ext tight m.vals s

structure Disj (o o' : Own) : Prop where
  c : ∀ s ∈ o.c, ∀ s' ∈ o'.c, s.arr ≠ s'.arr
  j : ∀ s ∈ o.j, ∀ s' ∈ o'.j, s.arr ≠ s'.arr
  s : ∀ s ∈ o.s, ∀ s' ∈ o'.s, s.arr ≠ s'.arr
  v : ∀ s ∈ o.v, ∀ s' ∈ o'.v, s.arr ≠ s'.arr

structure TrM (tight : Bool) (m m' : Mem) (o o' : Own) : Prop where
  c : Tr tight m.conds m'.conds o.c o'.c
  j : Tr tight m.joins m'.joins o.j o'.j
  s : Tr tight m.sorts m'.sorts o.s o'.s
  v : Tr tight m.vals m'.vals o.v o'.v
  d : Le m.defs m'.defs

def PV.isJoiner : PV → Bool
  | .joinB _ | .joinS _ | .joinM _ => true
  | _ => false

structure Inv (tight : Bool) (used : List Nat) (m : Mem) (hs : List HV) (ps : List PV) : Prop where
  len : hs.length = ps.length
  kind : ∀ (i : Nat) (h : HV) (p : PV), hs[i]? = some h → ps[i]? = some p → h.isJoiner = p.isJoiner
  rep : ∀ (i : Nat) (h : HV) (p : PV), hs[i]? = some h → ps[i]? = some p → (h.isJoiner = true → i ∉ used) → RepV m h p
  ext : ∀ (i : Nat) (h : HV), hs[i]? = some h → (tight = true ∨ i ∉ used) → OwnExt tight m h.own
  disj : tight = false → ∀ (i k : Nat) (h h' : HV), i ≠ k → i ∉ used → k ∉ used → hs[i]? = some h → hs[k]? = some h' → Disj h.own h'.own
  below : ∀ (i k : Nat) (h h' : HV), hs[i]? = some h → hs[k]? = some h' → h.isJoiner = true → i ∉ used → h'.isJoiner = false →
    ∀ s ∈ h.own.j, ∀ s' ∈ h'.jsl, s'.arr = s.arr → s'.len < s.len
  apart : ∀ (i k : Nat) (h h' : HV), i ≠ k → hs[i]? = some h → hs[k]? = some h' → h.isJoiner = true → h'.isJoiner = true → i ∉ used →
    k ∉ used → ∀ s ∈ h.own.j, ∀ s' ∈ h'.own.j, s'.arr ≠ s.arr

theorem RepB.mono {m m' : Mem} {h : HBase} {q : BaseSelect} (r : RepB m h q) (c : Le m.conds m'.conds)
    (j : Le m.joins m'.joins) (d : Le m.defs m'.defs) : RepB m' h q :=
  ⟨r.op, r.tbl, r.joins.mono j, r.fields.mono d, r.cond.mono c⟩

theorem RepM.mono {m m' : Mem} {h : HMany} {q : SelectMany} (r : RepM m h q) (c : Le m.conds m'.conds)
    (j : Le m.joins m'.joins) (d : Le m.defs m'.defs) (s : Le m.sorts m'.sorts) : RepM m' h q :=
  ⟨r.base.mono c j d, r.offset, r.limit, r.order.mono s, r.spec⟩

theorem RepV.mono {m m' : Mem} {h : HV} {p : PV} (r : RepV m h p) (c : Le m.conds m'.conds)
    (j : Le m.joins m'.joins) (d : Le m.defs m'.defs) (s : Le m.sorts m'.sorts) (v : Le m.vals m'.vals) : RepV m' h p := by
  cases h <;> cases p <;> simp only [RepV] at r ⊢
  · exact Rep.mono c _ _ r
  · exact r.mono c j d
  · exact r.mono c j d
  · exact r.mono c j d s
  · exact ⟨r.1.mono c j d, r.2⟩
  · exact ⟨r.1, r.2.1, r.2.2.mono v⟩
  · exact ⟨r.1, r.2.1, r.2.2.1.mono c, r.2.2.2.mono v⟩
  · exact ⟨r.1, r.2.1, r.2.2.mono c⟩
  · exact r.mono c j d
  · exact r.mono c j d
  · exact r.mono c j d s

theorem RepV.kind {m : Mem} {h : HV} {p : PV} (r : RepV m h p) : h.isJoiner = p.isJoiner := by
  cases h <;> cases p <;> simp only [RepV] at r <;> rfl

theorem RepV.jsl {m : Mem} {h : HV} {p : PV} (r : RepV m h p) :
    ∀ s ∈ h.jsl, s.arr < m.joins.length ∧ s.len ≤ (m.joins.cells s.arr).length := by
  intro s hs
  cases h <;> cases p <;> simp only [RepV] at r <;> simp only [HV.jsl, List.mem_singleton, List.not_mem_nil] at hs <;> subst hs
  · exact ⟨r.joins.1, r.joins.2.1⟩
  · exact ⟨r.joins.1, r.joins.2.1⟩
  · exact ⟨r.base.joins.1, r.base.joins.2.1⟩
  · exact ⟨r.1.joins.1, r.1.joins.2.1⟩
  · exact ⟨r.joins.1, r.joins.2.1⟩
  · exact ⟨r.joins.1, r.joins.2.1⟩
  · exact ⟨r.base.joins.1, r.base.joins.2.1⟩

/-- A slice not touched by a step stays safe. -/
theorem Ext.frame {α : Type} {tight : Bool} {st st' : Store α} {O O' : List Sl} {s : Sl} (h : Ext tight st s)
    (t : Tr tight st st' O O') (hd : tight = false → ∀ x ∈ O, x.arr ≠ s.arr) : Ext tight st' s := by
  refine ⟨Nat.lt_of_lt_of_le h.arr t.le.size, Nat.le_trans h.len (t.le.pre _).length_le, h.full, fun hf => ?_⟩
  rw [t.frame s.arr h.arr (fun x hx _ => hd hf x hx)]; exact h.last hf

theorem OwnExt.frame {tight : Bool} {m m' : Mem} {o o' x : Own} (h : OwnExt tight m x) (t : TrM tight m m' o o')
    (hd : tight = false → Disj o x) : OwnExt tight m' x :=
  ⟨fun s hs => (h.c s hs).frame t.c fun hf y hy => (hd hf).c y hy s hs,
    fun s hs => (h.j s hs).frame t.j fun hf y hy => (hd hf).j y hy s hs,
    fun s hs => (h.s s hs).frame t.s fun hf y hy => (hd hf).s y hy s hs,
    fun s hs => (h.v s hs).frame t.v fun hf y hy => (hd hf).v y hy s hs⟩

theorem disj_src {α : Type} {tight : Bool} {st st' : Store α} {O O' X : List Sl} (t : Tr tight st st' O O')
    (hx : ∀ s ∈ X, s.arr < st.length) (hd : ∀ s ∈ O, ∀ s' ∈ X, s.arr ≠ s'.arr) :
    ∀ s ∈ O', ∀ s' ∈ X, s.arr ≠ s'.arr := by
  intro s hs s' hs' e
  rcases t.src s hs with ⟨o, ho, eo, _⟩ | hge
  · exact hd o ho s' hs' (eo.trans e)
  · have := hx s' hs'; omega

theorem Disj.src {tight : Bool} {m m' : Mem} {o o' x : Own} (t : TrM tight m m' o o') (hx : OwnExt tight m x)
    (hd : Disj o x) : Disj o' x :=
  ⟨disj_src t.c (fun s hs => (hx.c s hs).arr) hd.c, disj_src t.j (fun s hs => (hx.j s hs).arr) hd.j,
    disj_src t.s (fun s hs => (hx.s s hs).arr) hd.s, disj_src t.v (fun s hs => (hx.v s hs).arr) hd.v⟩

theorem Disj.symm {o o' : Own} (h : Disj o o') : Disj o' o :=
  ⟨fun s hs s' hs' e => h.c s' hs' s hs e.symm, fun s hs s' hs' e => h.j s' hs' s hs e.symm,
    fun s hs s' hs' e => h.s s' hs' s hs e.symm, fun s hs s' hs' e => h.v s' hs' s hs e.symm⟩

theorem Disj.empty (x : Own) : Disj ⟨[], [], [], []⟩ x :=
  ⟨fun _ h => (by cases h), fun _ h => (by cases h), fun _ h => (by cases h), fun _ h => (by cases h)⟩

theorem get_push {α : Type} {xs : List α} {y z : α} {i : Nat} (h : (xs ++ [y])[i]? = some z) :
    (i < xs.length ∧ xs[i]? = some z) ∨ (i = xs.length ∧ z = y) := by
  by_cases hi : i < xs.length
  · rw [List.getElem?_append_left hi] at h; exact .inl ⟨hi, h⟩
  · rw [List.getElem?_append_right (by omega)] at h
    have : i - xs.length = 0 := by
      rcases Nat.eq_zero_or_pos (i - xs.length) with e | e
      · exact e
      · rw [List.getElem?_eq_none (by simp; omega)] at h; cases h
    rw [this] at h; simp at h
    exact .inr ⟨by omega, h.symm⟩

/-- The operand of a call and its slices. -/
inductive Operand (tight : Bool) (used : List Nat) (hs : List HV) : Option Nat → Own → Prop
  | none : Operand tight used hs none ⟨[], [], [], []⟩
  | some (r : Nat) (h : HV) : hs[r]? = some h → h.isJoiner = false → (tight = false → r ∉ used) →
      Operand tight used hs (some r) h.own

/-- Adding the value made by a call other than `On`. -/
theorem Inv.push {tight : Bool} {used : List Nat} {m m' : Mem} {hs : List HV} {ps : List PV} {h' : HV} {p' : PV}
    {r : Option Nat} {o : Own} (inv : Inv tight used m hs ps) (ho : Operand tight used hs r o)
    (t : TrM tight m m' o h'.own) (rv : RepV m' h' p')
    (hj : h'.isJoiner = false → ∀ s' ∈ h'.jsl,
      (∃ (k : Nat) (hk : HV), hs[k]? = some hk ∧ hk.isJoiner = false ∧ s' ∈ hk.jsl) ∨ m.joins.length ≤ s'.arr)
    (hj' : h'.isJoiner = true → ∀ s ∈ h'.own.j,
      m.joins.length ≤ s.arr ∨
        (tight = false ∧ ∃ x ∈ o.j, x.arr = s.arr ∧ x.len < s.len ∧ (m.joins.cells x.arr).length = x.len)) :
    Inv tight (if tight = true then used else r.toList ++ used) m' (hs ++ [h']) (ps ++ [p']) := by
  have sub : ∀ i, i ∉ (if tight = true then used else r.toList ++ used) → i ∉ used := by
    intro i hi hc; apply hi; split
    · exact hc
    · exact List.mem_append_right _ hc
  have notr : tight = false → ∀ i x, i ∉ (if tight = true then used else r.toList ++ used) → r = some x → i ≠ x := by
    intro ht i x hi hx e
    subst hx; subst e; apply hi; simp [ht]
  -- slices of the operand and of other unused values are apart
  have dj : tight = false → ∀ (i : Nat) (h : HV), i ∉ (if tight = true then used else r.toList ++ used) → hs[i]? = some h → Disj o h.own := by
    intro ht i h hi hh
    cases ho with
    | none => exact Disj.empty _
    | some r0 h0 hr hjn hfr =>
      exact inv.disj ht r0 i h0 h (fun e => notr ht i r0 hi rfl e.symm) (hfr ht) (sub i hi) hr hh
  have repo : ∀ (k : Nat) (hk : HV), hs[k]? = some hk → hk.isJoiner = false → ∃ pk, RepV m hk pk := by
    intro k hk e1 e2
    have hlt : k < ps.length := by rw [← inv.len]; exact (List.getElem?_eq_some_iff.1 e1).1
    exact ⟨_, inv.rep k hk ps[k] e1 (List.getElem?_eq_getElem hlt) (by simp [e2])⟩
  refine ⟨by simp [inv.len], ?_, ?_, ?_, ?_, ?_, ?_⟩
  · intro i h p e1 e2
    rcases get_push e1 with ⟨hlt, e1⟩ | ⟨hi, rfl⟩
    · rw [List.getElem?_append_left (by rw [← inv.len]; exact hlt)] at e2
      exact inv.kind i h p e1 e2
    · rw [hi, inv.len, List.getElem?_append_right (Nat.le_refl _)] at e2
      simp at e2; subst e2; exact rv.kind
  · intro i h p e1 e2 e3
    rcases get_push e1 with ⟨hlt, e1⟩ | ⟨hi, rfl⟩
    · rw [List.getElem?_append_left (by rw [← inv.len]; exact hlt)] at e2
      exact (inv.rep i h p e1 e2 (fun e => sub i (e3 e))).mono t.c.le t.j.le t.d t.s.le t.v.le
    · rw [hi, inv.len, List.getElem?_append_right (Nat.le_refl _)] at e2
      simp at e2; subst e2; exact rv
  · intro i h e1 e2
    rcases get_push e1 with ⟨hlt, e1⟩ | ⟨hi, rfl⟩
    · refine (inv.ext i h e1 (e2.imp id (sub i))).frame t fun hf => dj hf i h ?_ e1
      rcases e2 with e2 | e2
      · rw [hf] at e2; cases e2
      · exact e2
    · exact ⟨t.c.ext, t.j.ext, t.s.ext, t.v.ext⟩
  · intro ht i k h h1 hne hi hk e1 e2
    rcases get_push e1 with ⟨hlt, f1⟩ | ⟨rfl, rfl⟩ <;> rcases get_push e2 with ⟨hlt', f2⟩ | ⟨rfl, rfl⟩ <;> clear e1 e2
    · exact inv.disj ht i k h h1 hne (sub i hi) (sub k hk) f1 f2
    · exact (Disj.src t (inv.ext i h f1 (.inr (sub i hi))) (dj ht i h hi f1)).symm
    · exact Disj.src t (inv.ext k h1 f2 (.inr (sub k hk))) (dj ht k h1 hk f2)
    · exact absurd rfl hne
  · intro i k h h1 e1 e2 j1 hi j2 s hs' s' hs'' he
    rcases get_push e1 with ⟨hlt, f1⟩ | ⟨rfl, rfl⟩ <;> rcases get_push e2 with ⟨hlt', f2⟩ | ⟨rfl, rfl⟩ <;> clear e1 e2
    · exact inv.below i k h h1 f1 f2 j1 (sub i hi) j2 s hs' s' hs'' he
    · -- the new value is a builder
      rcases hj j2 s' hs'' with ⟨k', hk', e3, j3, m3⟩ | hge
      · exact inv.below i k' h hk' f1 e3 j1 (sub i hi) j3 s hs' s' m3 he
      · have hp : i < ps.length := by rw [← inv.len]; exact hlt
        have rr := inv.rep i h ps[i] f1 (List.getElem?_eq_getElem hp) (fun _ => sub i hi)
        have : s ∈ h.jsl := by cases h <;> simp [HV.isJoiner] at j1 <;> exact hs'
        have := (rr.jsl s this).1
        omega
    · -- the new value is a join
      obtain ⟨pk, rk⟩ := repo k h1 f2 j2
      have b := rk.jsl s' hs''
      rcases hj' j1 s hs' with hge | ⟨ht, x, hx, ea, el, hl⟩
      · omega
      · cases ho with
        | none => cases hx
        | some r0 h0 hr hjn hfr =>
          rw [he, ← ea] at b
          omega
    · rw [j2] at j1; cases j1
  · intro i k h h1 hne e1 e2 j1 j2 hi hk s hs' s' hs''
    rcases get_push e1 with ⟨hlt, f1⟩ | ⟨rfl, rfl⟩ <;> rcases get_push e2 with ⟨hlt', f2⟩ | ⟨rfl, rfl⟩ <;> clear e1 e2
    · exact inv.apart i k h h1 hne f1 f2 j1 j2 (sub i hi) (sub k hk) s hs' s' hs''
    · have hp : i < ps.length := by rw [← inv.len]; exact hlt
      have rr := inv.rep i h ps[i] f1 (List.getElem?_eq_getElem hp) (fun _ => sub i hi)
      have hm : s ∈ h.jsl := by cases h <;> simp [HV.isJoiner] at j1 <;> exact hs'
      have := (rr.jsl s hm).1
      rcases hj' j2 s' hs'' with hge | ⟨ht, x, hx, ea, el, hl⟩
      · omega
      · have := (dj ht i h hi f1).j x hx s hs'
        rw [← ea]; exact this
    · have hp : k < ps.length := by rw [← inv.len]; exact hlt'
      have rr := inv.rep k h1 ps[k] f2 (List.getElem?_eq_getElem hp) (fun _ => sub k hk)
      have hm : s' ∈ h1.jsl := by cases h1 <;> simp [HV.isJoiner] at j2 <;> exact hs''
      have := (rr.jsl s' hm).1
      rcases hj' j1 s hs' with hge | ⟨ht, x, hx, ea, el, hl⟩
      · omega
      · have := (dj ht k h1 hk f2).j x hx s' hs''
        rw [← ea]; exact fun e => this e.symm
    · exact absurd rfl hne

end Query
