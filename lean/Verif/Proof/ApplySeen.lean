import Verif.Proof.FootApply
import Verif.Proof.Seen
/-!
# What ApplyFieldSpec and ApplyFieldTable write, cell by cell
-/
namespace Query
open Store

mutual
/-- A cell that a condition is read from. -/
def Inside (st : Store HCond) (a i : Nat) : HCond → Cond → Prop
  | .leaf _, _ => False
  | .group _ s _, .group _ cs _ => (a = s.arr ∧ i < s.len) ∨ InsideL st a i (st.read s) cs
  | .group _ _ _, .fieldc _ _ _ => False
  | .group _ _ _, .null _ _ => False
  | .group _ _ _, .custom _ _ => False
def InsideL (st : Store HCond) (a i : Nat) : List HCond → List Cond → Prop
  | [], [] => False
  | h :: hs, c :: cs => Inside st a i h c ∨ InsideL st a i hs cs
  | [], _ :: _ => False
  | _ :: _, [] => False
end

mutual
theorem Inside.foot {st : Store HCond} {a i : Nat} : ∀ (c : Cond) (h : HCond), Rep st h c → Inside st a i h c →
    a ∈ foot st h c ∧ i < (st.cells a).length
  | .fieldc _ _ _, .leaf _, _, k => by simp only [Inside] at k
  | .null _ _, .leaf _, _, k => by simp only [Inside] at k
  | .custom _ _, .leaf _, _, k => by simp only [Inside] at k
  | .group _ _ _, .leaf _, _, k => by simp only [Inside] at k
  | .fieldc _ _ _, .group _ _ _, _, k => by simp only [Inside] at k
  | .null _ _, .group _ _ _, _, k => by simp only [Inside] at k
  | .custom _ _, .group _ _ _, _, k => by simp only [Inside] at k
  | .group _ cs _, .group _ s _, r, k => by
    simp only [Rep] at r
    simp only [Inside] at k
    obtain ⟨_, _, _, h4, h5⟩ := r
    simp only [Query.foot]
    rcases k with ⟨rfl, hi⟩ | k
    · exact ⟨List.mem_cons_self .., by omega⟩
    · obtain ⟨e1, e2⟩ := InsideL.foot cs _ h5 k
      exact ⟨List.mem_cons_of_mem _ e1, e2⟩
theorem InsideL.foot {st : Store HCond} {a i : Nat} : ∀ (cs : List Cond) (hs : List HCond), RepL st hs cs → InsideL st a i hs cs →
    a ∈ footL st hs cs ∧ i < (st.cells a).length
  | [], [], _, k => by simp only [InsideL] at k
  | [], _ :: _, _, k => by simp only [InsideL] at k
  | _ :: _, [], _, k => by simp only [InsideL] at k
  | c :: cs, h :: hs, r, k => by
    simp only [RepL] at r
    simp only [InsideL] at k
    simp only [footL, List.mem_append]
    rcases k with k | k
    · obtain ⟨e1, e2⟩ := Inside.foot c h r.1 k
      exact ⟨.inl e1, e2⟩
    · obtain ⟨e1, e2⟩ := InsideL.foot cs hs r.2 k
      exact ⟨.inr e1, e2⟩
end

mutual
theorem Rep.insideKept {st st' : Store HCond} {a i : Nat} : ∀ (c : Cond) (h : HCond), Rep st h c →
    (∀ a ∈ foot st h c, st.cells a <+: st'.cells a) → (Inside st' a i h c ↔ Inside st a i h c)
  | .fieldc _ _ _, .leaf _, _, _ => by simp only [Inside]
  | .null _ _, .leaf _, _, _ => by simp only [Inside]
  | .custom _ _, .leaf _, _, _ => by simp only [Inside]
  | .group _ _ _, .leaf _, _, _ => by simp only [Inside]
  | .fieldc _ _ _, .group _ _ _, _, _ => by simp only [Inside]
  | .null _ _, .group _ _ _, _, _ => by simp only [Inside]
  | .custom _ _, .group _ _ _, _, _ => by simp only [Inside]
  | .group _ cs _, .group _ s _, r, k => by
    simp only [Rep] at r
    simp only [foot] at k
    obtain ⟨_, _, _, h4, h5⟩ := r
    have e : st'.read s = st.read s := by
      obtain ⟨t, ht⟩ := k s.arr (List.mem_cons_self ..)
      simp only [Store.read]; rw [← ht, List.take_append_of_le_length h4]
    simp only [Inside, e, RepL.insideKept cs _ h5 fun a ha => k a (List.mem_cons_of_mem _ ha)]
theorem RepL.insideKept {st st' : Store HCond} {a i : Nat} : ∀ (cs : List Cond) (hs : List HCond), RepL st hs cs →
    (∀ a ∈ footL st hs cs, st.cells a <+: st'.cells a) → (InsideL st' a i hs cs ↔ InsideL st a i hs cs)
  | [], [], _, _ => by simp only [InsideL]
  | [], _ :: _, _, _ => by simp only [InsideL]
  | _ :: _, [], _, _ => by simp only [InsideL]
  | c :: cs, h :: hs, r, k => by
    simp only [RepL] at r
    simp only [footL, List.mem_append] at k
    simp only [InsideL, Rep.insideKept c h r.1 fun a ha => k a (.inl ha), RepL.insideKept cs hs r.2 fun a ha => k a (.inr ha)]
end

/-- Every cell the condition is read from was replaced, no other. -/
structure Exactly (ap : HCond → HCond) (st : Store HCond) (h : HCond) (c : Cond) (x : Store HCond × HCond) : Prop where
  val : x.2 = ap h
  inn : ∀ a i, Inside st a i h c → (x.1.cells a)[i]? = ((st.cells a)[i]?).map ap
  out : ∀ a i, ¬ Inside st a i h c → (x.1.cells a)[i]? = (st.cells a)[i]?

theorem exactly_loop (s : Sl) (F : Store HCond → HCond → Option (Store HCond × HCond)) (f : Cond → Cond) (ap : HCond → HCond) :
    ∀ (cs : List Cond) (hs : List HCond) (i : Nat) (st st' : Store HCond),
      (∀ c ∈ cs, ∀ (st : Store HCond) (h : HCond), Rep st h c → (foot st h c).Nodup →
        ∃ x, F st h = some x ∧ Applied st h c x (f c) ∧ Exactly ap st h c x) →
      s.arr < st.length → (∀ k, k < cs.length → (st.cells s.arr)[i + k]? = hs[k]?) → RepL st hs cs →
      s.arr ∉ footL st hs cs → (footL st hs cs).Nodup → applyLoop s F (List.range' i cs.length) st = some st' →
      (∀ a j, ((a = s.arr ∧ i ≤ j ∧ j < i + cs.length) ∨ InsideL st a j hs cs) → (st'.cells a)[j]? = ((st.cells a)[j]?).map ap) ∧
      (∀ a j, ¬ ((a = s.arr ∧ i ≤ j ∧ j < i + cs.length) ∨ InsideL st a j hs cs) → (st'.cells a)[j]? = (st.cells a)[j]?)
  | [], [], i, st, st', _, _, _, _, _, _, h => by
    simp only [List.length_nil, List.range'_zero, applyLoop, Option.some.injEq] at h
    subst h
    refine ⟨fun a j k => ?_, fun _ _ _ => rfl⟩
    simp only [InsideL, List.length_nil, or_false] at k
    obtain ⟨_, k1, k2⟩ := k
    exact absurd k1 (by omega)
  | [], _ :: _, _, _, _, _, _, _, r, _, _, _ => by simp only [RepL] at r
  | _ :: _, [], _, _, _, _, _, _, r, _, _, _ => by simp only [RepL] at r
  | c :: cs, h :: hs, i, st, st', hF, hs0, hread, r, ho, nd, hl => by
    simp only [RepL] at r
    simp only [footL, List.mem_append, not_or] at ho
    simp only [footL] at nd
    obtain ⟨nd1, nd2, nd3⟩ := List.nodup_append.1 nd
    obtain ⟨x, ex, app, exa⟩ := hF c (List.mem_cons_self ..) st h r.1 nd1
    have c0 : (st.cells s.arr)[i]? = some h := by simpa using hread 0 (by simp)
    have sx : s.arr < x.1.length := by rw [app.shape.size]; exact hs0
    have ix : x.1.cells s.arr = st.cells s.arr := app.frame _ ho.1
    have sh1 : Shape x.1 (x.1.write s i x.2) := shape_write _ _ _ _ sx
    have sh : Shape st (x.1.write s i x.2) := app.shape.trans sh1
    have fr1 : ∀ a, a ≠ s.arr → (x.1.write s i x.2).cells a = x.1.cells a := fun a ha => cells_write_ne _ _ _ _ _ fun e => ha e.symm
    have hil : i < (st.cells s.arr).length := (List.getElem?_eq_some_iff.1 c0).1
    have cw : (x.1.write s i x.2).cells s.arr = (st.cells s.arr).set i x.2 := by rw [cells_write_self _ _ _ _ sx, ix]
    have rest : ∀ a ∈ footL st hs cs, (x.1.write s i x.2).cells a = st.cells a := by
      intro a ha
      rw [fr1 a (fun e => ho.2 (e ▸ ha)), app.frame a (fun hc => nd3 a hc a ha rfl)]
    obtain ⟨r2, f2⟩ := r.2.same sh rest
    have ik : ∀ a j, InsideL (x.1.write s i x.2) a j hs cs ↔ InsideL st a j hs cs := fun a j =>
      RepL.insideKept cs hs r.2 fun a ha => by rw [rest a ha]; exact List.prefix_refl _
    simp only [List.length_cons, List.range'_succ, applyLoop, c0, ex, Option.bind_some] at hl
    obtain ⟨i1, i2⟩ := exactly_loop s F f ap cs hs (i + 1) (x.1.write s i x.2) st' (fun c hc => hF c (List.mem_cons_of_mem _ hc))
      (by rw [sh.size]; exact hs0)
      (fun k hk => by
        rw [cw, List.getElem?_set_ne (by omega)]
        have := hread (k + 1) (by simpa using hk)
        rw [show i + 1 + k = i + (k + 1) by omega, this]; simp)
      r2 (by rw [f2]; exact ho.2) (by rw [f2]; exact nd2) hl
    have noth : ∀ a j, Inside st a j h c → a ≠ s.arr ∧ ¬ InsideL st a j hs cs := fun a j k =>
      ⟨fun e => ho.1 (e ▸ (Inside.foot c h r.1 k).1), fun k' => nd3 a (Inside.foot c h r.1 k).1 a (InsideL.foot cs hs r.2 k').1 rfl⟩
    have notl : ∀ a j, InsideL st a j hs cs → a ≠ s.arr ∧ a ∈ footL st hs cs := fun a j k =>
      ⟨fun e => ho.2 (e ▸ (InsideL.foot cs hs r.2 k).1), (InsideL.foot cs hs r.2 k).1⟩
    refine ⟨fun a j k => ?_, fun a j k => ?_⟩
    · simp only [InsideL, List.length_cons] at k
      rcases k with ⟨rfl, h1, h2⟩ | k | k
      · by_cases hj : j = i
        · subst hj
          rw [i2 s.arr j (by
            rintro (⟨_, h3, _⟩ | h3)
            · omega
            · exact (notl _ _ ((ik _ _).1 h3)).1 rfl), cw, c0, List.getElem?_set_self hil, exa.val]
          rfl
        · rw [i1 s.arr j (.inl ⟨rfl, by omega, by omega⟩), cw, List.getElem?_set_ne (by omega)]
      · have n := noth a j k
        rw [i2 a j (by
          rintro (⟨h3, _⟩ | h3)
          · exact n.1 h3
          · exact n.2 ((ik _ _).1 h3)), fr1 a n.1, exa.inn a j k]
      · rw [i1 a j (.inr ((ik _ _).2 k)), rest a (notl a j k).2]
    · simp only [InsideL, List.length_cons, not_or] at k
      obtain ⟨k1, k2, k3⟩ := k
      rw [i2 a j (by
        rintro (⟨h3, h4, h5⟩ | h3)
        · exact k1 ⟨h3, by omega, by omega⟩
        · exact k3 ((ik _ _).1 h3))]
      by_cases ha : a = s.arr
      · subst ha
        rw [cw, List.getElem?_set_ne (fun e => k1 ⟨rfl, by omega, by omega⟩)]
      · rw [fr1 a ha, exa.out a j k2]

theorem exactly_group {s : Sl} {b : CondBase} {br : Bool} {F : Store HCond → HCond → Option (Store HCond × HCond)} {f : Cond → Cond}
    {ap : HCond → HCond} {cs : List Cond} {st : Store HCond} (hap : ap (.group b s br) = .group b s br)
    (hF : ∀ c ∈ cs, ∀ (st : Store HCond) (h : HCond), Rep st h c → (foot st h c).Nodup →
      ∃ x, F st h = some x ∧ Applied st h c x (f c) ∧ Exactly ap st h c x)
    (r : Rep st (.group b s br) (.group b cs br)) (nd : (foot st (.group b s br) (.group b cs br)).Nodup) :
    ∃ x, ((applyLoop s F (List.range s.len) st).map fun st => (st, HCond.group b s br)) = some x ∧
      Applied st (.group b s br) (.group b cs br) x (.group b (cs.map f) br) ∧ Exactly ap st (.group b s br) (.group b cs br) x := by
  obtain ⟨x, ex, app⟩ := applied_group (F := F) (f := f) (fun c hc st h r nd => by
    obtain ⟨x, e, a, _⟩ := hF c hc st h r nd
    exact ⟨x, e, a⟩) r nd
  refine ⟨x, ex, app, ?_⟩
  obtain ⟨_, _, h3, h4, h5⟩ := rep_group_iff.1 r
  simp only [foot, List.nodup_cons] at nd
  have hl : s.len = cs.length := by
    rw [← h5.length]; simp [Store.read, h4]
  cases el : applyLoop s F (List.range s.len) st with
  | none => rw [el] at ex; cases ex
  | some st' =>
    rw [el] at ex
    cases ex
    rw [List.range_eq_range', hl] at el
    obtain ⟨i1, i2⟩ := exactly_loop s F f ap cs (st.read s) 0 st st' hF h3
      (fun k hk => by
        rw [Nat.zero_add]; simp only [Store.read, List.getElem?_take]
        rw [if_pos (by omega)])
      h5 nd.1 nd.2 el
    have e : ∀ a j, Inside st a j (.group b s br) (.group b cs br) ↔
        ((a = s.arr ∧ 0 ≤ j ∧ j < 0 + cs.length) ∨ InsideL st a j (st.read s) cs) := fun a j => by
      simp only [Inside, hl, Nat.zero_le, true_and, Nat.zero_add]
    exact ⟨hap.symm, fun a j k => i1 a j ((e a j).1 k), fun a j k => i2 a j fun k' => k ((e a j).2 k')⟩

/-- What is written in place of a condition: a group stays the group it is. -/
def HCond.atLeaf (f : Cond → Cond) : HCond → HCond
  | .leaf c => .leaf (f c)
  | .group b s br => .group b s br

theorem exactly_leaf (f : Cond → Cond) (st : Store HCond) (c c' : Cond) : Exactly (HCond.atLeaf f) st (.leaf c) c' (st, .leaf (f c)) :=
  ⟨rfl, fun a j k => by simp only [Inside] at k, fun _ _ _ => rfl⟩

theorem exactly_spec (spec : FieldDef) : ∀ (d : Nat) (c : Cond), c.height ≤ d → ∀ (st : Store HCond) (h : HCond), Rep st h c →
    (foot st h c).Nodup → ∃ x, applySpecH d st spec h = some x ∧ Applied st h c x (c.applyFieldSpec spec) ∧
      Exactly (HCond.atLeaf (·.applyFieldSpec spec)) st h c x := by
  intro d
  induction d with
  | zero =>
    intro c hd st h r nd
    obtain ⟨x, ex, app⟩ := applied_spec spec 0 c hd st h r nd
    rcases r.cases with ⟨g, G, rfl, rfl, rg⟩ | ⟨rfl, hn⟩
    · simp [Group.toCond, Cond.height] at hd
    · refine ⟨x, ex, app, ?_⟩
      simp only [applySpecH, Option.some.injEq] at ex
      subst ex
      exact exactly_leaf _ _ _ _
  | succ d ih =>
    intro c hd st h r nd
    rcases r.cases with ⟨g, G, rfl, rfl, rg⟩ | ⟨rfl, hn⟩
    · simp only [HGroup.toCond, Group.toCond] at r nd hd ⊢
      obtain ⟨e1, e2, _⟩ := rep_group_iff.1 r
      rw [← e1, ← e2] at r nd hd ⊢
      simp only [applySpecH, Cond.applyFieldSpec, applyFieldSpecL_map]
      refine exactly_group rfl (fun c hc st h r nd => ih c ?_ st h r nd) r nd
      have := height_mem hc
      simp only [Cond.height] at hd
      omega
    · obtain ⟨x, ex, app⟩ := applied_spec spec (d + 1) c hd st _ r nd
      refine ⟨x, ex, app, ?_⟩
      simp only [applySpecH, Option.some.injEq] at ex
      subst ex
      exact exactly_leaf _ _ _ _

theorem exactly_table (t : Str) : ∀ (d : Nat) (c : Cond), c.height ≤ d → ∀ (st : Store HCond) (h : HCond), Rep st h c →
    (foot st h c).Nodup → ∃ x, applyTableH d st t h = some x ∧ Applied st h c x (c.applyFieldTable t) ∧
      Exactly (HCond.atLeaf (·.applyFieldTable t)) st h c x := by
  intro d
  induction d with
  | zero =>
    intro c hd st h r nd
    obtain ⟨x, ex, app⟩ := applied_table t 0 c hd st h r nd
    rcases r.cases with ⟨g, G, rfl, rfl, rg⟩ | ⟨rfl, hn⟩
    · simp [Group.toCond, Cond.height] at hd
    · refine ⟨x, ex, app, ?_⟩
      simp only [applyTableH, Option.some.injEq] at ex
      subst ex
      exact exactly_leaf _ _ _ _
  | succ d ih =>
    intro c hd st h r nd
    rcases r.cases with ⟨g, G, rfl, rfl, rg⟩ | ⟨rfl, hn⟩
    · simp only [HGroup.toCond, Group.toCond] at r nd hd ⊢
      obtain ⟨e1, e2, _⟩ := rep_group_iff.1 r
      rw [← e1, ← e2] at r nd hd ⊢
      simp only [applyTableH, Cond.applyFieldTable, applyFieldTableL_map]
      refine exactly_group rfl (fun c hc st h r nd => ih c ?_ st h r nd) r nd
      have := height_mem hc
      simp only [Cond.height] at hd
      omega
    · obtain ⟨x, ex, app⟩ := applied_table t (d + 1) c hd st _ r nd
      refine ⟨x, ex, app, ?_⟩
      simp only [applyTableH, Option.some.injEq] at ex
      subst ex
      exact exactly_leaf _ _ _ _

/-- Two memories that both hold an earlier condition: the same writes. -/
theorem Exactly.pair {ap : HCond → HCond} {st0 st R : Store HCond} {h : HCond} {c : Cond} {x y : Store HCond × HCond} {c' : Cond}
    (r : Rep st0 h c) (L : R.length = st.length) (k1 : ∀ a ∈ foot st0 h c, st0.cells a <+: st.cells a)
    (k2 : ∀ a ∈ foot st0 h c, st0.cells a <+: R.cells a) (ax : Applied st h c x c') (ay : Applied R h c y c')
    (ex : Exactly ap st h c x) (ey : Exactly ap R h c y) : y.2 = x.2 ∧ SameWrites st x.1 R y.1 := by
  refine ⟨by rw [ex.val, ey.val], by rw [ax.shape.size, ay.shape.size, L], fun a i => ?_⟩
  have i1 := Rep.insideKept (a := a) (i := i) c h r k1
  have i2 := Rep.insideKept (a := a) (i := i) c h r k2
  by_cases hi : Inside st0 a i h c
  · obtain ⟨f1, f2⟩ := Inside.foot c h r hi
    have get : ∀ {l : List HCond}, st0.cells a <+: l → l[i]? = some (st0.cells a)[i] := fun {l} k => by
      obtain ⟨t, rfl⟩ := k
      rw [List.getElem?_append_left f2, List.getElem?_eq_getElem f2]
    refine .inr ⟨ap (st0.cells a)[i], ?_, ?_⟩
    · rw [ex.inn a i (i1.2 hi), get (k1 a f1)]; rfl
    · rw [ey.inn a i (i2.2 hi), get (k2 a f1)]; rfl
  · exact .inl ⟨ex.out a i fun k => hi (i1.1 k), ey.out a i fun k => hi (i2.1 k)⟩

end Query
