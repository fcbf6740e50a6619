import Verif.Proof.HeapRun
import Verif.Spec.Lists
/-!
# Lists of one kind: extended at most once, they never get in each other's way
-/
namespace Query
open Store

variable {α : Type}

/-- What a call does to the memory of one kind of list; `sl r` are the slices of value `r`, `O'` those of the result. -/
def KTr (st st' : Store α) (sl : Nat → List Sl) (O' : List Sl) : Act → Prop
  | .none => O' = [] ∧ st' = st
  | .full => Tr false st st' [] O' ∧ ∀ s ∈ O', ¬ s.room
  | .fresh => Tr false st st' [] O'
  | .app r => Tr false st st' (sl r) O'
  | .copy r => (O' = sl r ∧ st'.length = st.length ∧ ∀ a, (st'.cells a).length = (st.cells a).length) ∨
      (Tr false st st' [] O' ∧ ∀ s ∈ O', ¬ s.room)

/-- The slices of the value with a number. -/
def slAt (sls : List (List Sl)) (r : Nat) : List Sl := (sls[r]?).getD []

/-- The list the value with a number holds. -/
def tokAt (ts : List (Option Nat)) (r : Nat) : Option Nat := (ts[r]?).join

/-- Not extended so far, as far as it is counted. -/
def Free (x : Option Nat) (used : List Nat) : Prop := ∀ t, x = some t → t ∉ used

structure KInv (st : Store α) (sls : List (List Sl)) (ts : List (Option Nat)) (used : List Nat) : Prop where
  len : sls.length = ts.length
  tok : ∀ i, ∀ s ∈ slAt sls i, s.room → ∃ t, tokAt ts i = some t
  small : ∀ i t, tokAt ts i = some t → t < ts.length
  ext : ∀ i, ∀ s ∈ slAt sls i, Free (tokAt ts i) used → Ext false st s
  disj : ∀ i k t u, ∀ s ∈ slAt sls i, ∀ s' ∈ slAt sls k, s.room → s'.room → tokAt ts i = some t → tokAt ts k = some u → t ≠ u →
    t ∉ used → u ∉ used → s.arr ≠ s'.arr

theorem slAt_push {sls : List (List Sl)} {O : List Sl} (i : Nat) :
    (i < sls.length ∧ slAt (sls ++ [O]) i = slAt sls i) ∨ (i = sls.length ∧ slAt (sls ++ [O]) i = O) ∨
      (sls.length < i ∧ slAt (sls ++ [O]) i = []) := by
  unfold slAt
  rcases Nat.lt_trichotomy i sls.length with h | h | h
  · exact .inl ⟨h, by rw [List.getElem?_append_left h]⟩
  · exact .inr (.inl ⟨h, by rw [h]; simp⟩)
  · exact .inr (.inr ⟨h, by rw [List.getElem?_eq_none (by simp; omega)]; rfl⟩)

theorem tokAt_lt {ts : List (Option Nat)} {x : Option Nat} {i : Nat} (h : i < ts.length) : tokAt (ts ++ [x]) i = tokAt ts i := by
  unfold tokAt; rw [List.getElem?_append_left h]

theorem tokAt_eq (ts : List (Option Nat)) (x : Option Nat) : tokAt (ts ++ [x]) ts.length = x := by
  simp [tokAt]

theorem tokAt_ge {ts : List (Option Nat)} {i : Nat} (h : ts.length ≤ i) : tokAt ts i = none := by
  unfold tokAt; rw [List.getElem?_eq_none h]; rfl

theorem slAt_mem_lt {sls : List (List Sl)} {i : Nat} {s : Sl} (h : s ∈ slAt sls i) : i < sls.length := by
  rcases Nat.lt_or_ge i sls.length with h' | h'
  · exact h'
  · unfold slAt at h; rw [List.getElem?_eq_none h'] at h; cases h

/-- Adding a value with slices `O` and list `x`. -/
theorem KInv.add {st st' : Store α} {sls : List (List Sl)} {ts : List (Option Nat)} {used used' : List Nat} {O : List Sl}
    {x : Option Nat} (inv : KInv st sls ts used) (hu : ∀ t, t ∉ used' → t ∉ used)
    (h1 : ∀ s ∈ O, s.room → ∃ t, x = some t) (h2 : ∀ t, x = some t → t < ts.length + 1)
    (h3 : Free x used' → ∀ s ∈ O, Ext false st' s)
    (h4 : ∀ i, ∀ s ∈ slAt sls i, Free (tokAt ts i) used' → Ext false st' s)
    (h5 : ∀ t, x = some t → t ∉ used' → ∀ s ∈ O, s.room → ∀ i u, ∀ s' ∈ slAt sls i, s'.room → tokAt ts i = some u → t ≠ u →
      u ∉ used' → s.arr ≠ s'.arr) :
    KInv st' (sls ++ [O]) (ts ++ [x]) used' := by
  have hl := inv.len
  refine ⟨by simp [hl], ?_, ?_, ?_, ?_⟩
  · intro i s hs
    rcases slAt_push (sls := sls) (O := O) i with ⟨hi, e⟩ | ⟨hi, e⟩ | ⟨_, e⟩ <;> rw [e] at hs
    · rw [tokAt_lt (by omega)]; exact inv.tok i s hs
    · rw [hi, hl, tokAt_eq]; exact h1 s hs
    · cases hs
  · intro i t ht
    rcases Nat.lt_trichotomy i ts.length with h | h | h
    · rw [tokAt_lt h] at ht; have := inv.small i t ht; simp; omega
    · rw [h, tokAt_eq] at ht; simpa using h2 t ht
    · rw [tokAt_ge (by simp; omega)] at ht; cases ht
  · intro i s hs hn
    rcases slAt_push (sls := sls) (O := O) i with ⟨hi, e⟩ | ⟨hi, e⟩ | ⟨_, e⟩ <;> rw [e] at hs
    · rw [tokAt_lt (by omega)] at hn; exact h4 i s hs hn
    · rw [hi, hl, tokAt_eq] at hn; exact h3 hn s hs
    · cases hs
  · intro i k t u s hs s' hs' r1 r2 ht hu' hne hn hn'
    rcases slAt_push (sls := sls) (O := O) i with ⟨hi, e⟩ | ⟨hi, e⟩ | ⟨_, e⟩ <;> rw [e] at hs <;>
    rcases slAt_push (sls := sls) (O := O) k with ⟨hk, f⟩ | ⟨hk, f⟩ | ⟨_, f⟩ <;> rw [f] at hs' <;> try (cases hs; done) <;> try (cases hs'; done)
    · rw [tokAt_lt (by omega)] at ht hu'; exact inv.disj i k t u s hs s' hs' r1 r2 ht hu' hne (hu t hn) (hu u hn')
    · rw [tokAt_lt (by omega)] at ht
      rw [hk, hl, tokAt_eq] at hu'
      exact fun e => h5 u hu' hn' s' hs' r2 i t s hs r1 ht (fun e => hne e.symm) hn e.symm
    · cases hs'
    · rw [hi, hl, tokAt_eq] at ht
      rw [tokAt_lt (by omega)] at hu'
      exact h5 t ht hn s hs r1 k u s' hs' r2 hu' hne hn'
    · rw [hi, hl, tokAt_eq] at ht
      rw [hk, hl, tokAt_eq] at hu'
      rw [ht] at hu'; exact absurd (Option.some.inj hu') hne
    · cases hs'

theorem Ext.shape {st st' : Store α} {s : Sl} (h : Ext false st s) (hl : st'.length = st.length)
    (hc : ∀ a, (st'.cells a).length = (st.cells a).length) : Ext false st' s :=
  ⟨by rw [hl]; exact h.arr, by rw [hc]; exact h.len, h.full, by rw [hc]; exact h.last⟩

theorem Ext.frame2 {st st' : Store α} {O O' : List Sl} {s : Sl} (h : Ext false st s)
    (t : Tr false st st' O O') (hd : s.room → ∀ x ∈ O, x.room → x.arr ≠ s.arr) : Ext false st' s := by
  refine ⟨Nat.lt_of_lt_of_le h.arr t.le.size, Nat.le_trans h.len (t.le.pre _).length_le, h.full, fun hf => ?_⟩
  by_cases hr : s.room
  · rw [t.frame s.arr h.arr (hd hr)]; exact h.last hf
  · exact .inr (Nat.le_of_not_lt hr)

/-- One more call keeps the invariant. -/
theorem KInv.step {st st' : Store α} {sls : List (List Sl)} {ts : List (Option Nat)} {used : List Nat} {O : List Sl} {a : Act}
    (inv : KInv st sls ts used) (k : KTr st st' (slAt sls) O a) (hu : ∀ t, a.extended ts = some t → t ∉ used) :
    KInv st' (sls ++ [O]) (a.push ts) ((a.extended ts).toList ++ used) := by
  have fresh : ∀ (P : List Sl) (used' : List Nat), (∀ t, t ∉ used' → t ∉ used) → Tr false st st' P O →
      (∀ i t, ∀ s ∈ slAt sls i, s.room → tokAt ts i = some t → t ∉ used' → ∀ x ∈ P, x.room → x.arr ≠ s.arr) →
      KInv st' (sls ++ [O]) (ts ++ [some ts.length]) used' := by
    intro P used' hu' t hP
    refine inv.add hu' (fun s _ _ => ⟨_, rfl⟩) (fun t ht => ?_) (fun _ => t.ext) (fun i s hs hn => ?_)
      (fun u hx hn s hs r1 i v s' hs' r2 hv hne hn' => ?_)
    · have := Option.some.inj ht; omega
    · refine (inv.ext i s hs (fun t ht => hu' t (hn t ht))).frame2 t fun hr x hx hxr => ?_
      obtain ⟨v, hv⟩ := inv.tok i s hs hr
      exact hP i v s hs hr hv (hn v hv) x hx hxr
    · rcases t.src s hs with ⟨o, ho, e, hor⟩ | hge
      · rw [← e]; exact hP i v s' hs' r2 hv hn' o ho (hor.elim id fun e => e ▸ r1)
      · have := (inv.ext i s' hs' (fun w hw => by rw [hv] at hw; cases hw; exact hu' v hn')).arr; omega
  cases a with
  | none =>
    obtain ⟨rfl, rfl⟩ := k
    exact inv.add (fun t h => by simpa [Act.extended] using h) (fun s hs => by cases hs) (fun t ht => by cases ht)
      (fun _ s hs => by cases hs) (fun i s hs hn => inv.ext i s hs (fun t ht => by simpa [Act.extended] using hn t ht))
      (fun t ht => by cases ht)
  | full =>
    obtain ⟨t, hf⟩ := k
    refine inv.add (fun t h => by simpa [Act.extended] using h) (fun s hs hr => absurd hr (hf s hs)) (fun t ht => by cases ht)
      (fun _ => t.ext) (fun i s hs hn => ?_) (fun t ht => by cases ht)
    exact (inv.ext i s hs (fun t ht => by simpa [Act.extended] using hn t ht)).frame2 t fun _ x hx => by cases hx
  | fresh =>
    exact fresh [] _ (fun t h => by simpa [Act.extended] using h) k (fun _ _ _ _ _ _ _ x hx => by cases hx)
  | app r =>
    have hx : (ts[r]?).join = tokAt ts r := rfl
    simp only [Act.extended, Act.push, hx] at hu ⊢
    refine fresh (slAt sls r) _ (fun t h => fun h' => h (List.mem_append_right _ h')) k fun i t s hs hr hi hn x hx hxr => ?_
    obtain ⟨u, hu'⟩ := inv.tok r x hx hxr
    rw [hu'] at hn
    have hne : t ≠ u := fun e => hn (by simp [e])
    exact inv.disj r i u t x hx s hs hxr hr hu' hi (fun e => hne e.symm) (hu u hu') (fun h' => hn (List.mem_append_right _ h'))
  | copy r =>
    have hx : (ts[r]?).join = tokAt ts r := rfl
    simp only [Act.extended, Act.push, hx, Option.toList_none, List.nil_append]
    rcases k with ⟨rfl, hl, hc⟩ | ⟨t, h0⟩
    · refine inv.add (fun _ h => h) (inv.tok r) (fun t ht => ?_) (fun hn s hs => (inv.ext r s hs hn).shape hl hc)
        (fun i s hs hn => (inv.ext i s hs hn).shape hl hc)
        (fun t ht hn s hs r1 i u s' hs' r2 hu' hne hn' => inv.disj r i t u s hs s' hs' r1 r2 ht hu' hne hn hn')
      have := inv.small r t ht; omega
    · refine inv.add (fun _ h => h) (fun s hs hr => absurd hr (h0 s hs)) (fun u hu' => ?_) (fun _ => t.ext) (fun i s hs hn => ?_)
        (fun u hx hn s hs r1 => absurd r1 (h0 s hs))
      · have := inv.small r u hu'; omega
      · exact (inv.ext i s hs hn).frame2 t fun _ x hx => by cases hx

theorem kinv_empty : KInv ([] : Store α) [] [] [] :=
  ⟨rfl, fun i s hs => by simp [slAt] at hs, fun i t h => by simp [tokAt] at h, fun i s hs => by simp [slAt] at hs,
    fun i k t u s hs => by simp [slAt] at hs⟩

end Query
