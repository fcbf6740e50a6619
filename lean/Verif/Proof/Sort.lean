import Verif.Spec.Intent
/-!
# Sorting by keys: lemmas
-/
namespace Query

theorem keysLe_total (eng : Engine) (ht : ∀ a b, eng.le a b = true ∨ eng.le b a = true) (ks : List (ColRef × Str))
    (a b : Env) : (keysLe eng ks a b || keysLe eng ks b a) = true := by
  induction ks with
  | nil => rfl
  | cons k ks ih =>
    obtain ⟨c, d⟩ := k
    simp only [keysLe]
    have := ht (a.get c) (b.get c)
    cases h1 : eng.le (a.get c) (b.get c) <;> cases h2 : eng.le (b.get c) (a.get c) <;> simp_all
    all_goals split <;> simp

theorem keysLe_trans (eng : Engine) (ht : ∀ a b, eng.le a b = true ∨ eng.le b a = true)
    (hr : ∀ a b c, eng.le a b = true → eng.le b c = true → eng.le a c = true) (ks : List (ColRef × Str)) (x y z : Env)
    (h1 : keysLe eng ks x y = true) (h2 : keysLe eng ks y z = true) : keysLe eng ks x z = true := by
  induction ks with
  | nil => rfl
  | cons k ks ih =>
    obtain ⟨c, d⟩ := k
    simp only [keysLe] at h1 h2 ⊢
    have a1 := ht (x.get c) (y.get c)
    have a2 := ht (y.get c) (z.get c)
    have a3 := ht (x.get c) (z.get c)
    have t1 := hr (x.get c) (y.get c) (z.get c)
    have t2 := hr (z.get c) (y.get c) (x.get c)
    have t3 := hr (y.get c) (x.get c) (z.get c)
    have t4 := hr (z.get c) (x.get c) (y.get c)
    have t5 := hr (x.get c) (z.get c) (y.get c)
    have t6 := hr (y.get c) (z.get c) (x.get c)
    cases e1 : eng.le (x.get c) (y.get c) <;> cases e2 : eng.le (y.get c) (x.get c) <;>
      cases e3 : eng.le (y.get c) (z.get c) <;> cases e4 : eng.le (z.get c) (y.get c) <;>
      cases e5 : eng.le (x.get c) (z.get c) <;> cases e6 : eng.le (z.get c) (x.get c) <;>
      simp_all

theorem perm_insert (le : Env → Env → Bool) (a : Env) (l : List Env) : (insertRow le a l).Perm (a :: l) := by
  induction l with
  | nil => exact List.Perm.refl _
  | cons b l ih =>
    unfold insertRow
    split
    · exact List.Perm.refl _
    · exact (List.Perm.cons b ih).trans (List.Perm.swap a b l)

theorem sorted_insert (le : Env → Env → Bool) (ht : ∀ a b, (le a b || le b a) = true)
    (hr : ∀ a b c, le a b = true → le b c = true → le a c = true) (a : Env) (l : List Env)
    (h : l.Pairwise fun x y => le x y = true) : (insertRow le a l).Pairwise fun x y => le x y = true := by
  induction l with
  | nil => simp [insertRow]
  | cons b l ih =>
    obtain ⟨h1, h2⟩ := List.pairwise_cons.mp h
    unfold insertRow
    split
    · rename_i hab
      refine List.pairwise_cons.mpr ⟨fun c hc => ?_, h⟩
      rcases List.mem_cons.mp hc with rfl | hc
      · exact hab
      · exact hr a b c hab (h1 c hc)
    · rename_i hab
      refine List.pairwise_cons.mpr ⟨fun c hc => ?_, ih h2⟩
      rcases List.mem_cons.mp ((perm_insert le a l).mem_iff.mp hc) with rfl | hc
      · have := ht c b
        simpa [hab] using this
      · exact h1 c hc

theorem sorted_sortRows (eng : Engine) (ht : ∀ a b, eng.le a b = true ∨ eng.le b a = true)
    (hr : ∀ a b c, eng.le a b = true → eng.le b c = true → eng.le a c = true) (ks : List (ColRef × Str)) (rows : List Env) :
    (sortRows eng ks rows).Pairwise fun a b => keysLe eng ks a b = true := by
  induction rows with
  | nil => exact List.Pairwise.nil
  | cons r rows ih =>
    exact sorted_insert _ (keysLe_total eng ht ks) (keysLe_trans eng ht hr ks) r _ ih

theorem perm_sortRows (eng : Engine) (ks : List (ColRef × Str)) (rows : List Env) : (sortRows eng ks rows).Perm rows := by
  induction rows with
  | nil => exact List.Perm.refl _
  | cons r rows ih => exact (perm_insert _ r _).trans (List.Perm.cons r ih)

theorem sortRows_nil (eng : Engine) (rows : List Env) : sortRows eng [] rows = rows := by
  induction rows with
  | nil => rfl
  | cons r rows ih =>
    show insertRow _ r (sortRows eng [] rows) = _
    rw [ih]
    cases rows <;> rfl

theorem page_append {α : Type} (off n m : Nat) (hn : n > 0) (hm : m > 0) (rows : List α) :
    page off n rows ++ page (off + n) m rows = page off ((n + m : Nat) : Int) rows := by
  have h1 : ((n : Nat) : Int) > 0 := by omega
  have h2 : ((m : Nat) : Int) > 0 := by omega
  have h3 : ((n + m : Nat) : Int) > 0 := by omega
  unfold page
  rw [if_pos h1, if_pos h2, if_pos h3]
  simp only [Int.toNat_natCast]
  rw [← List.drop_drop, List.take_add]

end Query
