import Verif.Proof.FootCalls
import Verif.Proof.HeapOn
/-!
# ApplyFieldSpec and ApplyFieldTable on a condition that contains no array twice
-/
namespace Query
open Store

/-- Arrays keep their lengths. -/
structure Shape (st st' : Store HCond) : Prop where
  size : st'.length = st.length
  len : ∀ a, (st'.cells a).length = (st.cells a).length

theorem Shape.refl (st : Store HCond) : Shape st st := ⟨rfl, fun _ => rfl⟩

theorem Shape.trans {a b c : Store HCond} (h : Shape a b) (k : Shape b c) : Shape a c :=
  ⟨k.size.trans h.size, fun x => (k.len x).trans (h.len x)⟩

/-- The condition was replaced, with writes into its own arrays only. -/
structure Applied (st : Store HCond) (h : HCond) (c : Cond) (x : Store HCond × HCond) (c' : Cond) : Prop where
  shape : Shape st x.1
  frame : ∀ a, a ∉ foot st h c → x.1.cells a = st.cells a
  rep : Rep x.1 x.2 c'
  foot : Query.foot x.1 x.2 c' = Query.foot st h c
  sl : x.2.sl = h.sl

theorem Rep.same {st st' : Store HCond} {h : HCond} {c : Cond} (r : Rep st h c) (sh : Shape st st')
    (k : ∀ a ∈ foot st h c, st'.cells a = st.cells a) : Rep st' h c ∧ foot st' h c = foot st h c :=
  Rep.kept (Nat.le_of_eq sh.size.symm) c h r fun a ha => by rw [k a ha]; exact List.prefix_refl _

theorem RepL.same {st st' : Store HCond} {hs : List HCond} {cs : List Cond} (r : RepL st hs cs) (sh : Shape st st')
    (k : ∀ a ∈ footL st hs cs, st'.cells a = st.cells a) : RepL st' hs cs ∧ footL st' hs cs = footL st hs cs :=
  RepL.kept (Nat.le_of_eq sh.size.symm) cs hs r fun a ha => by rw [k a ha]; exact List.prefix_refl _

theorem shape_write (st : Store HCond) (s : Sl) (i : Nat) (x : HCond) (hs : s.arr < st.length) : Shape st (st.write s i x) :=
  ⟨length_write st s i x, fun a => cells_write_length st s i x a hs⟩

/-- The loop over the elements of a group from one element on. -/
theorem applied_loop (s : Sl) (F : Store HCond → HCond → Option (Store HCond × HCond)) (f : Cond → Cond) :
    ∀ (cs : List Cond) (hs : List HCond) (i : Nat) (st : Store HCond),
      (∀ c ∈ cs, ∀ (st : Store HCond) (h : HCond), Rep st h c → (foot st h c).Nodup → ∃ x, F st h = some x ∧ Applied st h c x (f c)) →
      s.arr < st.length → (∀ k, k < cs.length → (st.cells s.arr)[i + k]? = hs[k]?) → RepL st hs cs →
      s.arr ∉ footL st hs cs → (footL st hs cs).Nodup →
      ∃ (st' : Store HCond) (hs' : List HCond), applyLoop s F (List.range' i cs.length) st = some st' ∧ Shape st st' ∧
        (∀ a, a ≠ s.arr → a ∉ footL st hs cs → st'.cells a = st.cells a) ∧
        (∀ k, k < i → (st'.cells s.arr)[k]? = (st.cells s.arr)[k]?) ∧
        (∀ k, k < cs.length → (st'.cells s.arr)[i + k]? = hs'[k]?) ∧
        RepL st' hs' (cs.map f) ∧ footL st' hs' (cs.map f) = footL st hs cs
  | [], [], i, st, _, _, _, _, _, _ =>
    ⟨st, [], by simp [applyLoop], Shape.refl _, fun _ _ _ => rfl, fun _ _ => rfl, fun k hk => by simp at hk, by simp [RepL], by simp [footL]⟩
  | [], _ :: _, _, _, _, _, _, r, _, _ => by simp only [RepL] at r
  | _ :: _, [], _, _, _, _, _, r, _, _ => by simp only [RepL] at r
  | c :: cs, h :: hs, i, st, hF, hs0, hread, r, ho, nd => by
    simp only [RepL] at r
    simp only [footL, List.mem_append, not_or] at ho
    simp only [footL] at nd
    obtain ⟨nd1, nd2, nd3⟩ := List.nodup_append.1 nd
    obtain ⟨x, ex, ap⟩ := hF c (List.mem_cons_self ..) st h r.1 nd1
    have c0 : (st.cells s.arr)[i]? = some h := by simpa using hread 0 (by simp)
    have sx : s.arr < x.1.length := by rw [ap.shape.size]; exact hs0
    have ix : x.1.cells s.arr = st.cells s.arr := ap.frame _ ho.1
    -- the store after the first element
    have sh1 : Shape x.1 (x.1.write s i x.2) := shape_write _ _ _ _ sx
    have sh : Shape st (x.1.write s i x.2) := ap.shape.trans sh1
    have fr1 : ∀ a, a ≠ s.arr → (x.1.write s i x.2).cells a = x.1.cells a := fun a ha => cells_write_ne _ _ _ _ _ fun e => ha e.symm
    have hil : i < (st.cells s.arr).length := by
      obtain ⟨hl, _⟩ := List.getElem?_eq_some_iff.1 c0; exact hl
    have cw : (x.1.write s i x.2).cells s.arr = (st.cells s.arr).set i x.2 := by rw [cells_write_self _ _ _ _ sx, ix]
    have rest : ∀ a ∈ footL st hs cs, (x.1.write s i x.2).cells a = st.cells a := by
      intro a ha
      rw [fr1 a (fun e => ho.2 (e ▸ ha)), ap.frame a (fun hc => nd3 a hc a ha rfl)]
    obtain ⟨r2, f2⟩ := r.2.same sh rest
    have ih := applied_loop s F f cs hs (i + 1) (x.1.write s i x.2) (fun c hc => hF c (List.mem_cons_of_mem _ hc))
      (by rw [sh.size]; exact hs0)
      (fun k hk => by
        rw [cw, List.getElem?_set_ne (by omega)]
        have := hread (k + 1) (by simpa using hk)
        rw [show i + 1 + k = i + (k + 1) by omega, this]; simp)
      r2 (by rw [f2]; exact ho.2) (by rw [f2]; exact nd2)
    obtain ⟨st', hs', e1, e2, e3, e4, e5, e6, e7⟩ := ih
    -- the first element afterwards
    have k1 : ∀ a ∈ foot x.1 x.2 (f c), (x.1.write s i x.2).cells a = x.1.cells a := by
      intro a ha
      rw [ap.foot] at ha
      exact fr1 a fun e => ho.1 (e ▸ ha)
    obtain ⟨r3, f3⟩ := ap.rep.same sh1 k1
    have k2 : ∀ a ∈ foot (x.1.write s i x.2) x.2 (f c), st'.cells a = (x.1.write s i x.2).cells a := by
      intro a ha
      rw [f3, ap.foot] at ha
      exact e3 a (fun e => ho.1 (e ▸ ha)) (by rw [f2]; exact fun hc => nd3 a ha a hc rfl)
    obtain ⟨r4, f4⟩ := r3.same e2 k2
    refine ⟨st', x.2 :: hs', ?_, sh.trans e2, ?_, ?_, ?_, ?_, ?_⟩
    · simp only [List.length_cons, List.range'_succ, applyLoop, c0, ex, Option.bind_some]
      exact e1
    · intro a ha hn
      simp only [footL, List.mem_append, not_or] at hn
      rw [e3 a ha (by rw [f2]; exact hn.2), fr1 a ha, ap.frame a hn.1]
    · intro k hk
      rw [e4 k (by omega), cw, List.getElem?_set_ne (by omega)]
    · intro k hk
      cases k with
      | zero =>
        rw [Nat.add_zero, e4 i (by omega), cw]
        simp [hil]
      | succ k =>
        have := e5 k (by simpa using hk)
        rw [show i + (k + 1) = i + 1 + k by omega, this]; simp
    · simp only [List.map_cons, RepL]
      exact ⟨r4, e6⟩
    · simp only [List.map_cons, footL, e7, f4, f3, ap.foot, f2]

theorem applied_group {s : Sl} {b : CondBase} {br : Bool} {F : Store HCond → HCond → Option (Store HCond × HCond)} {f : Cond → Cond}
    {cs : List Cond} {st : Store HCond}
    (hF : ∀ c ∈ cs, ∀ (st : Store HCond) (h : HCond), Rep st h c → (foot st h c).Nodup → ∃ x, F st h = some x ∧ Applied st h c x (f c))
    (r : Rep st (.group b s br) (.group b cs br)) (nd : (foot st (.group b s br) (.group b cs br)).Nodup) :
    ∃ x, ((applyLoop s F (List.range s.len) st).map fun st => (st, HCond.group b s br)) = some x ∧
      Applied st (.group b s br) (.group b cs br) x (.group b (cs.map f) br) := by
  obtain ⟨_, _, h3, h4, h5⟩ := rep_group_iff.1 r
  simp only [foot, List.nodup_cons] at nd
  have hl : s.len = cs.length := by
    rw [← h5.length]; simp [Store.read, h4]
  obtain ⟨st', hs', e1, e2, e3, e4, e5, e6, e7⟩ := applied_loop s F f cs (st.read s) 0 st hF h3
    (fun k hk => by
      rw [Nat.zero_add]; simp only [Store.read, List.getElem?_take]
      rw [if_pos (by omega)])
    h5 nd.1 nd.2
  have hs'l : hs'.length = cs.length := by have := e6.length; simpa using this
  have rd : st'.read s = hs' := by
    apply List.ext_getElem?
    intro k
    simp only [Store.read, List.getElem?_take]
    by_cases hk : k < s.len
    · rw [if_pos hk]
      have := e5 k (by omega)
      rw [Nat.zero_add] at this; exact this
    · rw [if_neg hk, List.getElem?_eq_none (by omega)]
  refine ⟨(st', .group b s br), ?_, e2, ?_, ?_, ?_, rfl⟩
  · rw [List.range_eq_range', hl, e1]; rfl
  · intro a ha
    simp only [foot, List.mem_cons, not_or] at ha
    exact e3 a ha.1 ha.2
  · refine rep_group_iff.2 ⟨rfl, rfl, by rw [e2.size]; exact h3, by rw [e2.len]; exact h4, ?_⟩
    rw [rd]; exact e6
  · simp only [foot, rd, e7]

mutual
/-- How deep groups in groups go. -/
def Cond.height : Cond → Nat
  | .group _ cs _ => Cond.heightL cs + 1
  | .fieldc _ _ _ => 0
  | .null _ _ => 0
  | .custom _ _ => 0
def Cond.heightL : List Cond → Nat
  | [] => 0
  | c :: cs => max c.height (Cond.heightL cs)
end

theorem height_mem : ∀ {cs : List Cond} {c : Cond}, c ∈ cs → c.height ≤ Cond.heightL cs
  | x :: cs, c, h => by
    simp only [Cond.heightL]
    rcases List.mem_cons.1 h with rfl | h
    · omega
    · have := height_mem h; omega

theorem applyFieldSpecL_map (spec : FieldDef) : ∀ (cs : List Cond), Cond.applyFieldSpecL cs spec = cs.map (·.applyFieldSpec spec)
  | [] => by simp [Cond.applyFieldSpecL]
  | c :: cs => by simp [Cond.applyFieldSpecL, applyFieldSpecL_map spec cs]

theorem applyFieldTableL_map (t : Str) : ∀ (cs : List Cond), Cond.applyFieldTableL cs t = cs.map (·.applyFieldTable t)
  | [] => by simp [Cond.applyFieldTableL]
  | c :: cs => by simp [Cond.applyFieldTableL, applyFieldTableL_map t cs]

theorem asGroup_applySpec (c : Cond) (spec : FieldDef) (h : c.asGroup = none) : (c.applyFieldSpec spec).asGroup = none := by
  cases c <;> simp_all [Cond.applyFieldSpec, Cond.asGroup]

theorem asGroup_applyTable (c : Cond) (t : Str) (h : c.asGroup = none) : (c.applyFieldTable t).asGroup = none := by
  cases c <;> simp_all [Cond.applyFieldTable, Cond.asGroup]

theorem applied_spec (spec : FieldDef) : ∀ (d : Nat) (c : Cond), c.height ≤ d → ∀ (st : Store HCond) (h : HCond), Rep st h c →
    (foot st h c).Nodup → ∃ x, applySpecH d st spec h = some x ∧ Applied st h c x (c.applyFieldSpec spec) := by
  intro d
  induction d with
  | zero =>
    intro c hd st h r _
    rcases r.cases with ⟨g, G, rfl, rfl, rg⟩ | ⟨rfl, hn⟩
    · simp [Group.toCond, Cond.height] at hd
    · exact ⟨(st, .leaf (c.applyFieldSpec spec)), by simp only [applySpecH], Shape.refl _, fun _ _ => rfl, rep_leaf_iff.2 ⟨rfl, asGroup_applySpec c spec hn⟩,
        by simp only [foot], rfl⟩
  | succ d ih =>
    intro c hd st h r nd
    rcases r.cases with ⟨g, G, rfl, rfl, rg⟩ | ⟨rfl, hn⟩
    · simp only [HGroup.toCond, Group.toCond] at r nd hd ⊢
      obtain ⟨e1, e2, _⟩ := rep_group_iff.1 r
      rw [← e1, ← e2] at r nd hd ⊢
      simp only [applySpecH, Cond.applyFieldSpec, applyFieldSpecL_map]
      refine applied_group (fun c hc st h r nd => ih c ?_ st h r nd) r nd
      have := height_mem hc
      simp only [Cond.height] at hd
      omega
    · exact ⟨(st, .leaf (c.applyFieldSpec spec)), by simp only [applySpecH], Shape.refl _, fun _ _ => rfl, rep_leaf_iff.2 ⟨rfl, asGroup_applySpec c spec hn⟩,
        by simp only [foot], rfl⟩

theorem applied_table (t : Str) : ∀ (d : Nat) (c : Cond), c.height ≤ d → ∀ (st : Store HCond) (h : HCond), Rep st h c →
    (foot st h c).Nodup → ∃ x, applyTableH d st t h = some x ∧ Applied st h c x (c.applyFieldTable t) := by
  intro d
  induction d with
  | zero =>
    intro c hd st h r _
    rcases r.cases with ⟨g, G, rfl, rfl, rg⟩ | ⟨rfl, hn⟩
    · simp [Group.toCond, Cond.height] at hd
    · exact ⟨(st, .leaf (c.applyFieldTable t)), by simp only [applyTableH], Shape.refl _, fun _ _ => rfl, rep_leaf_iff.2 ⟨rfl, asGroup_applyTable c t hn⟩,
        by simp only [foot], rfl⟩
  | succ d ih =>
    intro c hd st h r nd
    rcases r.cases with ⟨g, G, rfl, rfl, rg⟩ | ⟨rfl, hn⟩
    · simp only [HGroup.toCond, Group.toCond] at r nd hd ⊢
      obtain ⟨e1, e2, _⟩ := rep_group_iff.1 r
      rw [← e1, ← e2] at r nd hd ⊢
      simp only [applyTableH, Cond.applyFieldTable, applyFieldTableL_map]
      refine applied_group (fun c hc st h r nd => ih c ?_ st h r nd) r nd
      have := height_mem hc
      simp only [Cond.height] at hd
      omega
    · exact ⟨(st, .leaf (c.applyFieldTable t)), by simp only [applyTableH], Shape.refl _, fun _ _ => rfl, rep_leaf_iff.2 ⟨rfl, asGroup_applyTable c t hn⟩,
        by simp only [foot], rfl⟩

/-! ## The bound for the depth is large enough -/

/-- The cells of these arrays. -/
def cellSum (st : Store HCond) (F : List Nat) : Nat := (F.map fun a => (st.cells a).length).sum

theorem cellSum_append (st : Store HCond) (F F' : List Nat) : cellSum st (F ++ F') = cellSum st F + cellSum st F' := by
  simp [cellSum]

mutual
theorem height_le {st : Store HCond} : ∀ (c : Cond) (h : HCond), Rep st h c → c.height ≤ cellSum st (foot st h c) + 1
  | .fieldc _ _ _, _, _ => by simp [Cond.height]
  | .null _ _, _, _ => by simp [Cond.height]
  | .custom _ _, _, _ => by simp [Cond.height]
  | .group _ cs _, .leaf _, r => by simp [Rep, Cond.asGroup] at r
  | .group _ cs _, .group _ s _, r => by
    simp only [Rep] at r
    have k := heightL_le cs _ r.2.2.2.2
    have hl : s.len = cs.length := by
      rw [← r.2.2.2.2.length]; simp [Store.read, r.2.2.2.1]
    have h4 := r.2.2.2.1
    simp only [Cond.height, foot, cellSum, List.map_cons, List.sum_cons] at k ⊢
    cases cs with
    | nil => simp only [Cond.heightL]; omega
    | cons c cs => simp only [List.length_cons] at hl; omega
theorem heightL_le {st : Store HCond} : ∀ (cs : List Cond) (hs : List HCond), RepL st hs cs → Cond.heightL cs ≤ cellSum st (footL st hs cs) + 1
  | [], _, _ => by simp [Cond.heightL]
  | c :: cs, [], r => by simp only [RepL] at r
  | c :: cs, h :: hs, r => by
    simp only [RepL] at r
    have k1 := height_le c h r.1
    have k2 := heightL_le cs hs r.2
    simp only [Cond.heightL, footL, cellSum_append]
    omega
end

theorem cellSum_le_aux (L : List (List HCond)) : ∀ (F : List Nat), F.Nodup → (∀ a ∈ F, a < L.length) →
    cellSum L F ≤ (L.map List.length).sum := by
  induction L with
  | nil =>
    intro F _ h
    cases F with
    | nil => simp [cellSum]
    | cons a F => have := h a (List.mem_cons_self ..); simp at this
  | cons x L ih =>
    intro F nd h
    -- array 0, and the others one lower
    have split : cellSum (x :: L) F ≤ F.count 0 * x.length + cellSum L ((F.filter (· != 0)).map (· - 1)) := by
      clear nd h ih
      induction F with
      | nil => simp [cellSum]
      | cons a F ihF =>
        cases a with
        | zero =>
          simp only [cellSum, List.map_cons, List.sum_cons, List.count_cons, Store.cells] at ihF ⊢
          simp [Nat.add_mul] at ihF ⊢
          omega
        | succ a =>
          simp only [cellSum, List.map_cons, List.sum_cons, List.count_cons, Store.cells] at ihF ⊢
          simp at ihF ⊢
          omega
    have c1 : F.count 0 ≤ 1 := List.nodup_iff_count.1 nd 0
    have rest := ih ((F.filter (· != 0)).map (· - 1)) (by
      have nf : (F.filter (· != 0)).Nodup := nd.filter _
      have pos : ∀ a ∈ F.filter (· != 0), a ≠ 0 := by intro a ha; simpa using (List.mem_filter.1 ha).2
      generalize F.filter (· != 0) = K at nf pos
      induction K with
      | nil => simp
      | cons a K ihK =>
        simp only [List.map_cons, List.nodup_cons, List.mem_map, not_exists, not_and] at nf ⊢
        refine ⟨fun b hb e => ?_, ihK nf.2 fun b hb => pos b (List.mem_cons_of_mem _ hb)⟩
        have := pos a (List.mem_cons_self ..)
        have := pos b (List.mem_cons_of_mem _ hb)
        exact nf.1 (by rw [show a = b by omega]; exact hb)) (by
      intro a ha
      simp only [List.mem_map, List.mem_filter] at ha
      obtain ⟨b, ⟨hb, hb0⟩, rfl⟩ := ha
      have := h b hb
      simp at this hb0
      omega)
    simp only [List.map_cons, List.sum_cons]
    have : F.count 0 * x.length ≤ 1 * x.length := Nat.mul_le_mul_right _ c1
    omega

theorem height_depth {m : Mem} {h : HCond} {c : Cond} (r : Rep m.conds h c) (nd : (foot m.conds h c).Nodup) : c.height ≤ m.depth := by
  have h1 := height_le c h r
  have h2 := cellSum_le_aux m.conds _ nd (Rep.foot_lt c h r)
  unfold Mem.depth
  omega

end Query
