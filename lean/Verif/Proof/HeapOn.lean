import Verif.Proof.HeapInv
/-!
# Completing a join
-/
namespace Query
open Store

variable {α : Type}

theorem cells_write_ne (st : Store α) (s : Sl) (i : Nat) (x : α) (a : Nat) (h : s.arr ≠ a) :
    (st.write s i x).cells a = st.cells a := cells_set_ne _ _ _ _ h

theorem cells_write_self (st : Store α) (s : Sl) (i : Nat) (x : α) (h : s.arr < st.length) :
    (st.write s i x).cells s.arr = (st.cells s.arr).set i x := cells_set_self _ _ _ h

theorem cells_write_length (st : Store α) (s : Sl) (i : Nat) (x : α) (a : Nat) (h : s.arr < st.length) :
    ((st.write s i x).cells a).length = (st.cells a).length := by
  by_cases e : s.arr = a
  · subst e; rw [cells_write_self _ _ _ _ h]; simp
  · rw [cells_write_ne _ _ _ _ _ e]

theorem length_write (st : Store α) (s : Sl) (i : Nat) (x : α) : List.length (st.write s i x) = List.length st := by
  simp [Store.write]

theorem RepS.write {st : Store α} {s0 : Sl} {xs : List α} (h : RepS st s0 xs) (s : Sl) (i : Nat) (x : α)
    (ha : s.arr < st.length) (hd : s0.arr = s.arr → s0.len ≤ i) : RepS (st.write s i x) s0 xs := by
  refine ⟨by rw [length_write]; exact h.1, by rw [cells_write_length _ _ _ _ _ ha]; exact h.2.1, ?_⟩
  rw [← h.2.2]; simp only [Store.read]
  by_cases e : s.arr = s0.arr
  · rw [← e, cells_write_self _ _ _ _ ha, List.take_set_of_le (hd e.symm)]
  · rw [cells_write_ne _ _ _ _ _ e]

theorem Ext.write {tight : Bool} {st : Store α} {s0 : Sl} (h : Ext tight st s0) (s : Sl) (i : Nat) (x : α)
    (ha : s.arr < st.length) : Ext tight (st.write s i x) s0 :=
  ⟨by rw [length_write]; exact h.arr, by rw [cells_write_length _ _ _ _ _ ha]; exact h.len, h.full,
    by rw [cells_write_length _ _ _ _ _ ha]; exact h.last⟩

theorem RepV.joins {m : Mem} {h : HV} {p : PV} (J : Store TableJoiner)
    (r : RepV m h p) (k : ∀ s0 ∈ h.jsl, ∀ xs, RepS m.joins s0 xs → RepS J s0 xs) : RepV { m with joins := J } h p := by
  cases h <;> cases p <;> simp only [RepV] at r ⊢ <;> simp only [HV.jsl, List.mem_singleton, forall_eq] at k
  · exact r
  · exact ⟨r.op, r.tbl, k _ r.joins, r.fields, r.cond⟩
  · exact ⟨r.op, r.tbl, k _ r.joins, r.fields, r.cond⟩
  · exact ⟨⟨r.base.op, r.base.tbl, k _ r.base.joins, r.base.fields, r.base.cond⟩, r.offset, r.limit, r.order, r.spec⟩
  · exact ⟨⟨r.1.op, r.1.tbl, k _ r.1.joins, r.1.fields, r.1.cond⟩, r.2⟩
  · exact r
  · exact r
  · exact r
  · exact ⟨r.op, r.tbl, k _ r.joins, r.fields, r.cond⟩
  · exact ⟨r.op, r.tbl, k _ r.joins, r.fields, r.cond⟩
  · exact ⟨⟨r.base.op, r.base.tbl, k _ r.base.joins, r.base.fields, r.base.cond⟩, r.offset, r.limit, r.order, r.spec⟩

/-- Adding the value made by `On`. -/
theorem Inv.complete {tight : Bool} {used : List Nat} {m : Mem} {hs : List HV} {ps : List PV} {hr h' : HV} {p' : PV}
    {r : Nat} {s : Sl} {x : TableJoiner} (inv : Inv tight used m hs ps) (hg : hs[r]? = some hr) (hjr : hr.isJoiner = true)
    (hru : r ∉ used) (ho : h'.own = hr.own) (hs1 : hr.own.j = [s]) (hs2 : h'.jsl = [s]) (hn : h'.isJoiner = false)
    (rv : RepV { m with joins := m.joins.write s (s.len - 1) x } h' p') :
    Inv tight (r :: used) { m with joins := m.joins.write s (s.len - 1) x } (hs ++ [h']) (ps ++ [p']) := by
  have es := inv.ext r hr hg (.inr hru)
  have ha : s.arr < m.joins.length := (es.j s (by simp [hs1])).arr
  have oe : ∀ o, OwnExt tight m o → OwnExt tight { m with joins := m.joins.write s (s.len - 1) x } o :=
    fun o h => ⟨h.c, fun t ht => (h.j t ht).write s _ x ha, h.s, h.v⟩
  have sub : ∀ i, i ∉ r :: used → i ≠ r ∧ i ∉ used := fun i hi => ⟨fun e => hi (by simp [e]), fun e => hi (by simp [e])⟩
  refine ⟨by simp [inv.len], ?_, ?_, ?_, ?_, ?_, ?_⟩
  · intro i h p e1 e2
    rcases get_push e1 with ⟨hlt, e1⟩ | ⟨hi, rfl⟩
    · rw [List.getElem?_append_left (by rw [← inv.len]; exact hlt)] at e2
      exact inv.kind i h p e1 e2
    · rw [hi, inv.len, List.getElem?_append_right (Nat.le_refl _)] at e2
      simp at e2; subst e2; exact rv.kind
  · intro i h p e1 e2 e3
    rcases get_push e1 with ⟨hlt, e1⟩ | ⟨hi, rfl⟩
    · rw [List.getElem?_append_left (by rw [← inv.len]; exact hlt)] at e2
      refine (inv.rep i h p e1 e2 (fun e => (sub i (e3 e)).2)).joins _ fun s0 h0 xs hx => hx.write s _ x ha fun he => ?_
      cases hj : h.isJoiner with
      | true =>
        have hm : s0 ∈ h.own.j := by cases h <;> simp [HV.isJoiner] at hj <;> exact h0
        have := inv.apart r i hr h (fun e => (sub i (e3 hj)).1 e.symm) hg e1 hjr hj hru (sub i (e3 hj)).2 s (by simp [hs1]) s0 hm
        exact absurd he this
      | false =>
        have := inv.below r i hr h hg e1 hjr hru hj s (by simp [hs1]) s0 h0 he
        omega
    · rw [hi, inv.len, List.getElem?_append_right (Nat.le_refl _)] at e2
      simp at e2; subst e2; exact rv
  · intro i h e1 e2
    rcases get_push e1 with ⟨hlt, e1⟩ | ⟨hi, rfl⟩
    · exact oe _ (inv.ext i h e1 (e2.imp id fun e => (sub i e).2))
    · rw [ho]; exact oe _ es
  · intro ht i k h h1 hne hi hk e1 e2
    rcases get_push e1 with ⟨hlt, f1⟩ | ⟨rfl, rfl⟩ <;> rcases get_push e2 with ⟨hlt', f2⟩ | ⟨rfl, rfl⟩ <;> clear e1 e2
    · exact inv.disj ht i k h h1 hne (sub i hi).2 (sub k hk).2 f1 f2
    · rw [ho]; exact inv.disj ht i r h hr (sub i hi).1 (sub i hi).2 hru f1 hg
    · rw [ho]; exact inv.disj ht r k hr h1 (fun e => (sub k hk).1 e.symm) hru (sub k hk).2 hg f2
    · exact absurd rfl hne
  · intro i k h h1 e1 e2 j1 hi j2 t ht t' ht' he
    rcases get_push e1 with ⟨hlt, f1⟩ | ⟨rfl, rfl⟩ <;> rcases get_push e2 with ⟨hlt', f2⟩ | ⟨rfl, rfl⟩ <;> clear e1 e2
    · exact inv.below i k h h1 f1 f2 j1 (sub i hi).2 j2 t ht t' ht' he
    · rw [hs2] at ht'; simp only [List.mem_singleton] at ht'; subst ht'
      exact absurd he (inv.apart i r h hr (sub i hi).1 f1 hg j1 hjr (sub i hi).2 hru t ht t' (by simp [hs1]))
    · rw [hn] at j1; cases j1
    · rw [hn] at j1; cases j1
  · intro i k h h1 hne e1 e2 j1 j2 hi hk t ht t' ht'
    rcases get_push e1 with ⟨hlt, f1⟩ | ⟨rfl, rfl⟩ <;> rcases get_push e2 with ⟨hlt', f2⟩ | ⟨rfl, rfl⟩ <;> clear e1 e2
    · exact inv.apart i k h h1 hne f1 f2 j1 j2 (sub i hi).2 (sub k hk).2 t ht t' ht'
    · rw [hn] at j2; cases j2
    · rw [hn] at j1; cases j1
    · rw [hn] at j1; cases j1

end Query
