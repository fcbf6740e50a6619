import Verif.Proof.SpillCalls
/-!
# Reading a value whose cells were not written
-/
namespace Query
open Store

section
variable {st st' : Store HCond}

/-- All slices the condition is read through hold the same. -/
def HCond.same (st st' : Store HCond) (h : HCond) : Prop := ∀ s, h.Through st s → st'.read s = st.read s

theorem HCond.same.mem {b : CondBase} {s : Sl} {br : Bool} (h : (HCond.group b s br).same st st') {c : HCond} (hc : c ∈ st.read s) :
    c.same st st' := fun t k => h t (.deep hc k)

theorem valuesP_same : ∀ (d : Nat) (h : HCond), h.same st st' → valuesP st' d h = valuesP st d h := by
  intro d
  induction d with
  | zero => intro h _; cases h <;> simp only [valuesP]
  | succ d ih =>
    intro h hu
    cases h with
    | leaf c => simp only [valuesP]
    | group b s br =>
      simp only [valuesP]
      rw [hu s .own]
      exact loopValuesP_congr fun c hc => ih c (hu.mem hc)

theorem renderP_same : ∀ (d : Nat) (h : HCond), h.same st st' → renderP st' d h = renderP st d h := by
  intro d
  induction d with
  | zero => intro h _; funext n; cases h <;> simp only [renderP]
  | succ d ih =>
    intro h hu
    funext n
    cases h with
    | leaf c => simp only [renderP]
    | group b s br =>
      simp only [renderP]
      rw [hu s .own, loopRenderP_congr true n fun c hc => ⟨ih c (hu.mem hc), valuesP_same d c (hu.mem hc)⟩]

theorem renderSQLP_same : ∀ (d : Nat) (h : HCond), h.same st st' → renderSQLP st' d h = renderSQLP st d h := by
  intro d
  induction d with
  | zero => intro h _; cases h <;> simp only [renderSQLP]
  | succ d ih =>
    intro h hu
    cases h with
    | leaf c => simp only [renderSQLP]
    | group b s br =>
      simp only [renderSQLP]
      rw [hu s .own, loopRenderSQLP_congr true fun c hc => ih c (hu.mem hc)]

theorem whereP_same (d : Nat) (g : HGroup) (hu : g.toCond.same st st')
    (n : Nat) (f : Str → Str) (ps : List Val) : whereP st' d g n f ps = whereP st d g n f ps := by
  simp only [whereP, renderP_same d _ hu, valuesP_same d _ hu]

end

/-- All slices a value is read through hold the same. -/
structure HV.Same (m m' : Mem) (h : HV) : Prop where
  conds : ∀ c, h.root = some c → c.same m.conds m'.conds
  joins : ∀ s, h.joinList = some s → m'.joins.read s = m.joins.read s
  sorts : ∀ s, h.sortsSl = some s → m'.sorts.read s = m.sorts.read s
  vals : ∀ s, h.valsSl = some s → m'.vals.read s = m.vals.read s
  defs : ∀ s, InB m.defs s → m'.defs.read s = m.defs.read s

/-- What a reading call gives depends only on the slices the value is read through. -/
theorem lookP_same {m m' : Mem} (d : Nat) (h : HV) (k : h.Same m m') (hb : h.bnd m) (l : Look) : h.lookP d m' l = h.lookP d m l := by
  have base : ∀ q : HBase, InB m.defs q.fields → q.where_.toCond.same m.conds m'.conds → m'.joins.read q.joins = m.joins.read q.joins →
      q.headP m' = q.headP m ∧ q.renderFromP m' = q.renderFromP m ∧
      q.buildP d m' = q.buildP d m ∧ ∀ b l, q.lookP d m' b l = q.lookP d m b l := by
    intro q r u j
    have e1 : q.headP m' = q.headP m := by simp only [HBase.headP]; rw [k.defs _ r, j]
    have e2 : q.renderFromP m' = q.renderFromP m := by simp only [HBase.renderFromP]; rw [j]
    have e3 : m'.conds.read q.where_.s = m.conds.read q.where_.s := u _ .own
    refine ⟨e1, e2, ?_, fun b l => ?_⟩
    · simp only [HBase.buildP, whereP_same d _ u, e3, e1]
    · cases l <;> simp only [HBase.lookP, HBase.textP, HBase.sqlP, HBase.valsP, e3, k.defs _ r, e1,
        renderP_same d _ u, renderSQLP_same d _ u, valuesP_same d _ u]
  cases h <;> simp only [HV.bnd] at hb
  · have u := k.conds _ rfl
    cases l <;> simp only [HV.lookP, renderP_same d _ u, renderSQLP_same d _ u, valuesP_same d _ u]
  · obtain ⟨e1, e2, e3, e4⟩ := base _ hb.fields (k.conds _ rfl) (k.joins _ rfl)
    simp only [HV.lookP, e3, e4]
  · obtain ⟨e1, e2, e3, e4⟩ := base _ hb.fields (k.conds _ rfl) (k.joins _ rfl)
    simp only [HV.lookP, buildSingleP, e3, e4]
  · obtain ⟨e1, e2, e3, e4⟩ := base _ hb.1.fields (k.conds _ rfl) (k.joins _ rfl)
    simp only [HV.lookP, buildManyP, e3, e4, k.sorts _ rfl]
  · obtain ⟨e1, e2, e3, e4⟩ := base _ hb.fields (k.conds _ rfl) (k.joins _ rfl)
    have u := k.conds _ rfl
    have e5 := u _ (HCond.Through.own)
    cases l <;> simp only [HV.lookP, buildCountP, e2, whereP_same d _ u, e5]
  · cases l <;> simp only [HV.lookP, k.vals _ rfl]
  · have u := k.conds _ rfl
    cases l <;> simp only [HV.lookP, buildUpdateP, k.vals _ rfl, whereP_same d _ u]
  · have u := k.conds _ rfl
    cases l <;> simp only [HV.lookP, buildDeleteP, whereP_same d _ u]
  · cases l <;> rfl
  · cases l <;> rfl
  · cases l <;> rfl

/-- Slices read through lie within their arrays. -/
theorem through_bnd {st : Store HCond} (hs : StB st) {c : HCond} {s : Sl} (h : c.Through st s) : c.bnd st → InB st s := by
  induction h with
  | own => exact id
  | deep m _ ih => exact fun _ => ih (read_mem_bnd hs m)

/-- A value none of whose cells is written reads through the same slices. -/
theorem same_of_apart {m m' : Mem} {hs : List HV} {c : Call} {h : HV}
    (k : SparM (c.outC m hs) (c.outJ m hs) (c.outS m hs) (c.outV m hs) m m') (sb : StB m.conds) (hb : h.bnd m)
    (hn : ¬ c.hits m hs h) : h.Same m m' where
  conds := by
    intro d hd s hs'
    have hbd : d.bnd m.conds := by
      cases h <;> simp only [HV.root, Option.some.injEq, reduceCtorEq] at hd <;> subst hd <;> simp only [HV.bnd] at hb
      · exact hb
      · exact hb.cond
      · exact hb.cond
      · exact hb.1.cond
      · exact hb.cond
      · exact hb.1
      · exact hb
      · exact hb.cond
      · exact hb.cond
      · exact hb.1.cond
    have ib := through_bnd sb hs' hbd
    refine k.conds.read ib fun a i cv w => ?_
    rcases w with w | w
    · exact hn ⟨a, i, .inl ⟨w, d, s, hd, hs', cv⟩⟩
    · exact absurd ib.1 (by rw [cv.1]; exact Nat.not_lt.2 w)
  joins := by
    intro s hj
    have ib : InB m.joins s := by
      cases h <;> simp only [HV.joinList, Option.some.injEq, reduceCtorEq] at hj <;> subst hj <;> simp only [HV.bnd] at hb <;>
        first | exact hb.joins | exact hb.1.joins
    refine k.joins.read ib fun a i cv w => ?_
    rcases w with w | w
    · exact hn ⟨a, i, .inr (.inl ⟨w, s, hj, cv⟩)⟩
    · exact absurd ib.1 (by rw [cv.1]; exact Nat.not_lt.2 w)
  sorts := by
    intro s hj
    have ib : InB m.sorts s := by
      cases h <;> simp only [HV.sortsSl, Option.some.injEq, reduceCtorEq] at hj <;> subst hj <;> simp only [HV.bnd] at hb <;> exact hb.2
    refine k.sorts.read ib fun a i cv w => ?_
    rcases w with w | w
    · exact hn ⟨a, i, .inr (.inr (.inl ⟨w, s, hj, cv⟩))⟩
    · exact absurd ib.1 (by rw [cv.1]; exact Nat.not_lt.2 w)
  vals := by
    intro s hj
    have ib : InB m.vals s := by
      cases h <;> simp only [HV.valsSl, Option.some.injEq, reduceCtorEq] at hj <;> subst hj <;> simp only [HV.bnd] at hb <;>
        first | exact hb | exact hb.2
    refine k.vals.read ib fun a i cv w => ?_
    rcases w with w | w
    · exact hn ⟨a, i, .inr (.inr (.inr ⟨w, s, hj, cv⟩))⟩
    · exact absurd ib.1 (by rw [cv.1]; exact Nat.not_lt.2 w)
  defs := fun s ib => k.defs.read ib fun _ _ _ w => w

theorem look_same (gr gr' : Grow) (d : Nat) {m m' : RMem} (h : HV) (k : h.Same m.mem m'.mem) (hs : StB m.mem.conds) (hb : h.bnd m.mem)
    (hs' : StB m'.mem.conds) (hb' : h.bnd m'.mem) (l : Look) :
    contentNow (h.look gr' d m' l) = contentNow (h.look gr d m l) := by
  rw [(same_look gr d m h (fine_kept (Kept.refl m) d hs hb) l).contentNow,
    (same_look gr' d m' h (fine_kept (Kept.refl m') d hs' hb') l).contentNow]
  exact lookP_same d h k hb l

/-! ## The same plain value -/

mutual
theorem rep_same {st st' : Store HCond} (hz : StB st) (hi : ∀ s, InB st s → InB st' s) : ∀ (h : HCond) (c : Cond), h.bnd st → h.same st st' →
    (Rep st' h c ↔ Rep st h c)
  | .leaf _, _, _, _ => by simp only [Rep]
  | .group b s br, .group b' cs br', hb, hu => by
    simp only [Rep]
    have ib : InB st s := hb
    have ib' := hi s ib
    rw [hu s .own]
    have := repL_same hz hi (st.read s) cs (fun c hc => read_mem_bnd hz hc) fun c hc => hu.mem hc
    constructor
    · rintro ⟨a, b, _, _, e⟩; exact ⟨a, b, ib.1, ib.2, this.1 e⟩
    · rintro ⟨a, b, _, _, e⟩; exact ⟨a, b, ib'.1, ib'.2, this.2 e⟩
  | .group _ _ _, .fieldc _ _ _, _, _ => by simp only [Rep]
  | .group _ _ _, .null _ _, _, _ => by simp only [Rep]
  | .group _ _ _, .custom _ _, _, _ => by simp only [Rep]
theorem repL_same {st st' : Store HCond} (hz : StB st) (hi : ∀ s, InB st s → InB st' s) : ∀ (hs : List HCond) (cs : List Cond),
    (∀ h ∈ hs, h.bnd st) → (∀ h ∈ hs, h.same st st') → (RepL st' hs cs ↔ RepL st hs cs)
  | [], [], _, _ => by simp only [RepL]
  | h :: hs, c :: cs, hb, hu => by
    simp only [RepL]
    rw [rep_same hz hi h c (hb h (List.mem_cons_self ..)) (hu h (List.mem_cons_self ..)),
      repL_same hz hi hs cs (fun x hx => hb x (List.mem_cons_of_mem _ hx)) fun x hx => hu x (List.mem_cons_of_mem _ hx)]
  | [], _ :: _, _, _ => by simp only [RepL]
  | _ :: _, [], _, _ => by simp only [RepL]
end

theorem same_pre {st st' : Store HCond} (hz : StB st) (p : st <+: st') {h : HCond} (hb : h.bnd st) : h.same st st' :=
  fun _ k => read_pre p (through_bnd hz k hb)

theorem inB_pre {α : Type} {st st' : Store α} (p : st <+: st') (s : Sl) (h : InB st s) : InB st' s := by
  refine ⟨Nat.lt_of_lt_of_le h.1 p.length_le, ?_⟩
  obtain ⟨t, ht⟩ := (le_prefix p).pre s.arr
  rw [← ht]; simp; exact Nat.le_trans h.2 (Nat.le_add_right _ _)

/-- A result with the elements of its slice stands for a plain result. -/
def RepC (st : Store HCond) : Content → POut → Prop
  | .query s vs, .query s' vs' => s = s' ∧ vs = vs'
  | .text s, .text s' => s = s'
  | .vals vs, .vals vs' => vs = vs'
  | .conds hs, .conds cs => RepL st hs cs
  | .defs fs, .defs fs' => fs = fs'
  | _, _ => False

/-- The conditions in a result satisfy `P`. -/
def Content.conds? : Content → List HCond
  | .conds hs => hs
  | _ => []

theorem repOut_content {m m' : RMem} (hz : StB m.mem.conds) (k : Kept m m') {o : HOut} (hi : o.inB m')
    (hc : ∀ h ∈ (o.content m').conds?, h.bnd m.mem.conds) (p : POut) : RepOut m' o p ↔ RepC m.mem.conds (o.content m') p := by
  cases o <;> cases p <;> simp only [RepOut, HOut.content, RepC, HOut.inB] at hi ⊢
  · simp only [RepS]; constructor
    · rintro ⟨a, _, _, b⟩; exact ⟨a, b⟩
    · rintro ⟨a, b⟩; exact ⟨a, hi.1, hi.2, b⟩
  · simp only [RepS]; constructor
    · rintro ⟨_, _, b⟩; exact b
    · exact fun b => ⟨hi.1, hi.2, b⟩
  · rw [repL_same hz (inB_pre k.conds) (m'.mem.conds.read _) _ hc fun h hh => same_pre hz k.conds (hc h hh)]
    exact ⟨fun h => h.2.2, fun h => ⟨hi.1, hi.2, h⟩⟩
  · simp only [RepS]; constructor
    · rintro ⟨_, _, b⟩; exact b
    · exact fun b => ⟨hi.1, hi.2, b⟩

theorem repRes_content {m : RMem} (hz : StB m.mem.conds) {r : Res (RMem × HOut)} {p : Res Content} (h : SimR r p (QC m))
    (hc : ∀ c, p = .ok c → ∀ h ∈ c.conds?, h.bnd m.mem.conds) (out : Res POut) :
    RepRes (fun a b => RepOut a.1 a.2 b) r out ↔ RepRes (RepC m.mem.conds) p out := by
  cases p with
  | ok b =>
    obtain ⟨a, rfl, k, i, rfl, _⟩ := h
    cases out with
    | ok o => exact repOut_content hz k i (hc _ rfl) o
    | err e => exact Iff.rfl
    | panic e => exact Iff.rfl
  | err e => simp only [SimR] at h; rw [h]; cases out <;> exact Iff.rfl
  | panic e => simp only [SimR] at h; rw [h]; cases out <;> exact Iff.rfl

/-- The conditions a reading call gives out are those of the value. -/
theorem lookP_conds {m : Mem} {d : Nat} {h : HV} {l : Look} {c : Content} (e : h.lookP d m l = .ok c) (x : HCond) (hx : x ∈ c.conds?) :
    ∃ b s br, h.root = some (.group b s br) ∧ x ∈ m.conds.read s := by
  have oq : ∀ r, Content.ofQuery r = .ok c → False := by
    intro r hr
    obtain ⟨y, _, e⟩ := Res.bind_eq_ok.1 hr
    cases e; cases hx
  have ot : ∀ r, Content.ofText r = .ok c → False := by
    intro r hr
    obtain ⟨y, _, e⟩ := Res.bind_eq_ok.1 hr
    cases e; cases hx
  have ov : ∀ r, Content.ofVals r = .ok c → False := by
    intro r hr
    obtain ⟨y, _, e⟩ := Res.bind_eq_ok.1 hr
    cases e; cases hx
  have base : ∀ (q : HBase) b, q.lookP d m b l = .ok c → x ∈ m.conds.read q.where_.s := by
    intro q b e
    cases l <;> simp only [HBase.lookP] at e
    · exact (oq _ e).elim
    · exact (ot _ e).elim
    · exact (ot _ e).elim
    · exact (ov _ e).elim
    · cases e; exact hx
    · cases e; cases hx
  cases h <;> simp only [HV.lookP] at e
  · cases l
    · cases e
    · exact (ot _ e).elim
    · exact (ot _ e).elim
    · exact (ov _ e).elim
    · cases e
    · cases e
  · exact ⟨_, _, _, rfl, base _ _ e⟩
  · exact ⟨_, _, _, rfl, base _ _ e⟩
  · exact ⟨_, _, _, rfl, base _ _ e⟩
  · cases l
    · exact (oq _ e).elim
    all_goals cases e
  · cases l
    · exact (oq _ e).elim
    all_goals cases e
  · cases l
    · exact (oq _ e).elim
    all_goals cases e
  · cases l
    · exact (oq _ e).elim
    all_goals cases e
  · cases l <;> cases e
  · cases l <;> cases e
  · cases l <;> cases e

/-- A value none of whose slices changed stands for the same plain results. -/
theorem reads_same (gr : Grow) (d : Nat) {m m' : RMem} (h : HV) (k : h.Same m.mem m'.mem) (hs : StB m.mem.conds) (hb : h.bnd m.mem)
    (hs' : StB m'.mem.conds) (hb' : h.bnd m'.mem) (hi : ∀ s, InB m.mem.conds s → InB m'.mem.conds s) (l : Look) (out : Res POut) :
    RepRes (fun a b => RepOut a.1 a.2 b) (h.look gr d m' l) out ↔ RepRes (fun a b => RepOut a.1 a.2 b) (h.look gr d m l) out := by
  have e := lookP_same d h k hb l
  have bd : ∀ c, h.lookP d m.mem l = .ok c → ∀ x ∈ c.conds?, x.bnd m.mem.conds := by
    intro c ec x hx
    obtain ⟨b, s, br, _, hm⟩ := lookP_conds ec x hx
    exact read_mem_bnd hs hm
  have bd' : ∀ c, h.lookP d m'.mem l = .ok c → ∀ x ∈ c.conds?, x.bnd m'.mem.conds := by
    intro c ec x hx
    obtain ⟨b, s, br, _, hm⟩ := lookP_conds ec x hx
    exact read_mem_bnd hs' hm
  rw [repRes_content hs (same_look gr d m h (fine_kept (Kept.refl m) d hs hb) l) bd,
    repRes_content hs' (same_look gr d m' h (fine_kept (Kept.refl m') d hs' hb') l) bd', e]
  cases ec : h.lookP d m.mem l with
  | err x => cases out <;> exact Iff.rfl
  | panic x => cases out <;> exact Iff.rfl
  | ok c =>
    cases out with
    | err x => exact Iff.rfl
    | panic x => exact Iff.rfl
    | ok o =>
      simp only [RepRes]
      cases c <;> cases o <;> simp only [RepC]
      refine repL_same hs hi _ _ (bd _ ec) fun x hx => ?_
      obtain ⟨b, s, br, hr, hm⟩ := lookP_conds ec x hx
      exact (k.conds _ hr).mem hm

end Query
