import Verif.Proof.HeapBound
import Verif.Proof.HeapHistory
/-!
# Reading the same value again

What a reading call gives, as a function of the memory alone, without a plain value to compare with; so also for groups that
contain themselves.
-/
namespace Query
open Store

/-- `loopValues` without memory. -/
def loopValuesP (f : HCond → Res (List Val)) : List HCond → Res (List Val)
  | [] => .ok []
  | c :: cs => (f c).bind fun v => (loopValuesP f cs).bind fun r => .ok (v ++ r)

/-- `valuesR` without allocating. -/
def valuesP (st : Store HCond) : Nat → HCond → Res (List Val)
  | _, .leaf c => c.values
  | 0, .group _ _ _ => tooDeep
  | d + 1, .group _ s _ => loopValuesP (valuesP st d) (st.read s)

/-- `loopRender` without memory. -/
def loopRenderP (f : HCond → Nat → Res Str) (g : HCond → Res (List Val)) : List HCond → Bool → Nat → Res Str
  | [], _, _ => .ok []
  | c :: cs, isFirst, n => (f c n).bind fun s => (g c).bind fun v => (loopRenderP f g cs false (n + v.length)).bind fun r =>
    .ok (joinTokenH c isFirst ++ s ++ r)

/-- `renderR` without allocating. -/
def renderP (st : Store HCond) : Nat → HCond → Nat → Res Str
  | _, .leaf c, n => c.render n
  | 0, .group _ _ _, _ => tooDeep
  | d + 1, .group b s br, n =>
    if s.len = 0 then .ok []
    else (loopRenderP (renderP st d) (valuesP st d) (st.read s) true n).bind fun r => .ok (wrapGroup b s.len br r)

/-- `loopRenderSQL` without memory. -/
def loopRenderSQLP (f : HCond → Res Str) : List HCond → Bool → Res Str
  | [], _ => .ok []
  | c :: cs, isFirst => (f c).bind fun s => (loopRenderSQLP f cs false).bind fun r => .ok (joinTokenH c isFirst ++ s ++ r)

/-- `renderSQLR` without allocating. -/
def renderSQLP (st : Store HCond) : Nat → HCond → Res Str
  | _, .leaf c => c.renderSQL
  | 0, .group _ _ _ => tooDeep
  | d + 1, .group b s br =>
    if s.len = 0 then .ok []
    else (loopRenderSQLP (renderSQLP st d) (st.read s) true).bind fun r => .ok (wrapGroup b s.len br r)

/-! ## They give what the reading functions give -/

theorem same_loopValues (gr : Grow) (f : RMem → HCond → Res (RMem × Sl)) (p : HCond → Res (List Val)) (M : Mem)
    (hf : ∀ m h, m.mem = M → SimR (f m h) (p h) (QV m)) :
    ∀ (hs : List HCond) (m : RMem) (acc : Sl) (xs : List Val), m.mem = M → Ext false m.par acc → RepS m.par acc xs →
      SimR (loopValues gr f hs m acc) (loopValuesP p hs) fun a vs =>
        a.1.mem = M ∧ Tr false m.par a.1.par [acc] [a.2] ∧ RepS a.1.par a.2 (xs ++ vs)
  | [], m, acc, xs, hm, he, hx => by
    simp only [loopValues, loopValuesP]
    exact .ok ⟨hm, Tr.same (fun s hs => by rw [List.mem_singleton.1 hs]; exact he), by simpa using hx⟩
  | h :: hs, m, acc, xs, hm, he, hx => by
    simp only [loopValues, loopValuesP]
    refine SimR.bind (hf m h hm) fun a v q => ?_
    obtain ⟨q1, q2, q3⟩ := q
    have k1 := q2.keep he
    have he' := ext_last k1
    have hx' : RepS a.1.par acc xs := hx.mono q2.le
    have k2 := tr_append gr (growOK_false gr) a.1.par acc (a.1.par.read a.2) he'
    have hx2 := rep_append gr a.1.par acc (a.1.par.read a.2) xs he'.arr hx'
    rw [q3.2.2] at hx2 k2 ⊢
    have ih := same_loopValues gr f p M hf hs { a.1 with par := (a.1.par.append gr acc v).1 }
      (a.1.par.append gr acc v).2 (xs ++ v) (q1.trans hm) (ext_last k2) hx2
    cases hp : loopValuesP p hs with
    | ok vs =>
      rw [hp] at ih
      obtain ⟨z, ez, z1, z2, z3⟩ := ih
      refine ⟨z, ez, z1, (k1.trans k2).trans z2, ?_⟩
      rw [← List.append_assoc]; exact z3
    | err e => rw [hp] at ih; exact ih
    | panic p => rw [hp] at ih; exact ih

theorem same_valuesR (gr : Grow) : ∀ (d : Nat) (m : RMem) (h : HCond), SimR (valuesR gr d m h) (valuesP m.mem.conds d h) (QV m) := by
  have leaf : ∀ (d : Nat) (m : RMem) (c : Cond), SimR (valuesR gr d m (.leaf c)) (valuesP m.mem.conds d (.leaf c)) (QV m) := by
    intro d m c
    simp only [valuesR, valuesP]
    cases hv : c.values with
    | ok vs => exact ⟨_, rfl, rfl, tr_make _ _, rep_make _ _⟩
    | err e => rfl
    | panic p => rfl
  intro d
  induction d with
  | zero =>
    intro m h
    cases h with
    | leaf c => exact leaf _ _ _
    | group b s br => simp only [valuesR, valuesP]; rfl
  | succ d ih =>
    intro m h
    cases h with
    | leaf c => exact leaf _ _ _
    | group b s br =>
      simp only [valuesR, valuesP]
      have t0 := tr_make (tight := false) m.par ([] : List Val)
      have r0 := rep_make m.par ([] : List Val)
      have := same_loopValues gr (valuesR gr d) (valuesP m.mem.conds d) m.mem (fun m' h' hm => by rw [← hm]; exact ih m' h')
        (m.mem.conds.read s) { m with par := (m.par.make []).1 } (m.par.make []).2 [] rfl (ext_last t0) r0
      exact this.imp fun a vs ⟨q1, q2, q3⟩ => ⟨q1, t0.trans q2, by simpa using q3⟩

theorem same_loopRender (f : RMem → HCond → Nat → Res (RMem × Str)) (g : RMem → HCond → Res (RMem × Sl))
    (p : HCond → Nat → Res Str) (v : HCond → Res (List Val)) (M : Mem)
    (hf : ∀ m h n, m.mem = M → SimR (f m h n) (p h n) (QR m)) (hg : ∀ m h, m.mem = M → SimR (g m h) (v h) (QV m)) :
    ∀ (hs : List HCond) (m : RMem) (b : Bool) (n : Nat), m.mem = M → SimR (loopRender f g hs b n m) (loopRenderP p v hs b n) (QR m)
  | [], m, b, n, hm => by
    simp only [loopRender, loopRenderP]
    exact .ok ⟨rfl, Tr.none _ _, rfl⟩
  | h :: hs, m, b, n, hm => by
    simp only [loopRender, loopRenderP]
    refine SimR.bind (hf m h n hm) fun a s q => ?_
    obtain ⟨q1, q2, rfl⟩ := q
    refine SimR.bind (hg a.1 h (q1.trans hm)) fun x vs w => ?_
    obtain ⟨w1, w2, w3⟩ := w
    rw [← w3.length]
    refine SimR.bind (same_loopRender f g p v M hf hg hs x.1 false (n + vs.length) (w1.trans (q1.trans hm))) fun z t y => ?_
    obtain ⟨y1, y2, rfl⟩ := y
    exact .ok ⟨y1.trans (w1.trans q1), (q2.trans w2.drop).trans y2, rfl⟩

theorem leaf_text (m : RMem) (r : Res Str) : SimR (r.bind fun s => .ok (m, s)) r (QR m) := by
  cases r with
  | ok s => exact ⟨_, rfl, rfl, Tr.none _ _, rfl⟩
  | err e => rfl
  | panic p => rfl

theorem same_renderR (gr : Grow) : ∀ (d : Nat) (m : RMem) (h : HCond) (n : Nat),
    SimR (renderR gr d m h n) (renderP m.mem.conds d h n) (QR m) := by
  intro d
  induction d with
  | zero =>
    intro m h n
    cases h with
    | leaf c => simp only [renderR, renderP]; exact leaf_text _ _
    | group b s br => simp only [renderR, renderP]; rfl
  | succ d ih =>
    intro m h n
    cases h with
    | leaf c => simp only [renderR, renderP]; exact leaf_text _ _
    | group b s br =>
      simp only [renderR, renderP]
      by_cases h0 : s.len = 0
      · simp only [h0, if_true]; exact .ok ⟨rfl, Tr.none _ _, rfl⟩
      · simp only [h0, if_false]
        refine SimR.bind (same_loopRender (renderR gr d) (valuesR gr d) (renderP m.mem.conds d) (valuesP m.mem.conds d) m.mem
          (fun m' h' n' hm => by rw [← hm]; exact ih m' h' n') (fun m' h' hm => by rw [← hm]; exact same_valuesR gr d m' h')
          _ m true n rfl) fun a s q => ?_
        obtain ⟨q1, q2, rfl⟩ := q
        exact .ok ⟨q1, q2, rfl⟩

theorem same_loopRenderSQL (f : RMem → HCond → Res (RMem × Str)) (p : HCond → Res Str) (M : Mem)
    (hf : ∀ m h, m.mem = M → SimR (f m h) (p h) (QR m)) :
    ∀ (hs : List HCond) (m : RMem) (b : Bool), m.mem = M → SimR (loopRenderSQL f hs b m) (loopRenderSQLP p hs b) (QR m)
  | [], m, b, hm => by
    simp only [loopRenderSQL, loopRenderSQLP]
    exact .ok ⟨rfl, Tr.none _ _, rfl⟩
  | h :: hs, m, b, hm => by
    simp only [loopRenderSQL, loopRenderSQLP]
    refine SimR.bind (hf m h hm) fun a s q => ?_
    obtain ⟨q1, q2, rfl⟩ := q
    refine SimR.bind (same_loopRenderSQL f p M hf hs a.1 false (q1.trans hm)) fun z t y => ?_
    obtain ⟨y1, y2, rfl⟩ := y
    exact .ok ⟨y1.trans q1, q2.trans y2, rfl⟩

theorem same_renderSQLR : ∀ (d : Nat) (m : RMem) (h : HCond), SimR (renderSQLR d m h) (renderSQLP m.mem.conds d h) (QR m) := by
  intro d
  induction d with
  | zero =>
    intro m h
    cases h with
    | leaf c => simp only [renderSQLR, renderSQLP]; exact leaf_text _ _
    | group b s br => simp only [renderSQLR, renderSQLP]; rfl
  | succ d ih =>
    intro m h
    cases h with
    | leaf c => simp only [renderSQLR, renderSQLP]; exact leaf_text _ _
    | group b s br =>
      simp only [renderSQLR, renderSQLP]
      by_cases h0 : s.len = 0
      · simp only [h0, if_true]; exact .ok ⟨rfl, Tr.none _ _, rfl⟩
      · simp only [h0, if_false]
        refine SimR.bind (same_loopRenderSQL (renderSQLR d) (renderSQLP m.mem.conds d) m.mem
          (fun m' h' hm => by rw [← hm]; exact ih m' h') _ m true rfl) fun a s q => ?_
        obtain ⟨q1, q2, rfl⟩ := q
        exact .ok ⟨q1, q2, rfl⟩

/-! ## They depend only on the arrays there were -/

variable {st st' : Store HCond}

theorem loopValuesP_congr {f g : HCond → Res (List Val)} : ∀ {hs : List HCond}, (∀ c ∈ hs, f c = g c) →
    loopValuesP f hs = loopValuesP g hs
  | [], _ => rfl
  | c :: cs, h => by
    simp only [loopValuesP]
    rw [h c (by simp), loopValuesP_congr fun x hx => h x (by simp [hx])]

theorem loopRenderP_congr {f g : HCond → Nat → Res Str} {v w : HCond → Res (List Val)} : ∀ {hs : List HCond} (b : Bool) (n : Nat),
    (∀ c ∈ hs, f c = g c ∧ v c = w c) → loopRenderP f v hs b n = loopRenderP g w hs b n
  | [], _, _, _ => rfl
  | c :: cs, b, n, h => by
    have e : ∀ n, loopRenderP f v cs false n = loopRenderP g w cs false n := fun n =>
      loopRenderP_congr false n fun x hx => h x (by simp [hx])
    simp only [loopRenderP, (h c (by simp)).1, (h c (by simp)).2, e]

theorem loopRenderSQLP_congr {f g : HCond → Res Str} : ∀ {hs : List HCond} (b : Bool), (∀ c ∈ hs, f c = g c) →
    loopRenderSQLP f hs b = loopRenderSQLP g hs b
  | [], _, _ => rfl
  | c :: cs, b, h => by
    simp only [loopRenderSQLP]
    rw [h c (by simp), loopRenderSQLP_congr false fun x hx => h x (by simp [hx])]

theorem read_mem_bnd (hs : StB st) {s : Sl} {c : HCond} (hc : c ∈ st.read s) : c.bnd st :=
  hs s.arr c (List.mem_of_mem_take hc)

theorem read_pre {α : Type} {st st' : Store α} (k : st <+: st') {s : Sl} (h : InB st s) : st'.read s = st.read s :=
  read_le (le_prefix k) s h.2

theorem valuesP_pre (k : st <+: st') (hs : StB st) : ∀ (d : Nat) (h : HCond), h.bnd st → valuesP st' d h = valuesP st d h := by
  intro d
  induction d with
  | zero => intro h _; cases h <;> simp only [valuesP]
  | succ d ih =>
    intro h hb
    cases h with
    | leaf c => simp only [valuesP]
    | group b s br =>
      simp only [valuesP]
      rw [read_pre k hb]
      exact loopValuesP_congr fun c hc => ih c (read_mem_bnd hs hc)

theorem renderP_pre (k : st <+: st') (hs : StB st) : ∀ (d : Nat) (h : HCond), h.bnd st → renderP st' d h = renderP st d h := by
  intro d
  induction d with
  | zero => intro h _; funext n; cases h <;> simp only [renderP]
  | succ d ih =>
    intro h hb
    funext n
    cases h with
    | leaf c => simp only [renderP]
    | group b s br =>
      simp only [renderP]
      rw [read_pre k hb, loopRenderP_congr true n fun c hc =>
        ⟨ih c (read_mem_bnd hs hc), valuesP_pre k hs d c (read_mem_bnd hs hc)⟩]

theorem renderSQLP_pre (k : st <+: st') (hs : StB st) : ∀ (d : Nat) (h : HCond), h.bnd st → renderSQLP st' d h = renderSQLP st d h := by
  intro d
  induction d with
  | zero => intro h _; cases h <;> simp only [renderSQLP]
  | succ d ih =>
    intro h hb
    cases h with
    | leaf c => simp only [renderSQLP]
    | group b s br =>
      simp only [renderSQLP]
      rw [read_pre k hb, loopRenderSQLP_congr true fun c hc => ih c (read_mem_bnd hs hc)]

/-- Arrays that are added do not change what the condition gives. -/
structure Fine (st : Store HCond) (d : Nat) (h : HCond) : Prop where
  values : ∀ st', st <+: st' → valuesP st' d h = valuesP st d h
  render : ∀ st', st <+: st' → renderP st' d h = renderP st d h
  sql : ∀ st', st <+: st' → renderSQLP st' d h = renderSQLP st d h

theorem fine_of_bnd (hs : StB st) (d : Nat) {h : HCond} (hb : h.bnd st) : Fine st d h :=
  ⟨fun _ k => valuesP_pre k hs d h hb, fun _ k => renderP_pre k hs d h hb, fun _ k => renderSQLP_pre k hs d h hb⟩

theorem Fine.mono {d : Nat} {h : HCond} (f : Fine st d h) (k : st <+: st') : Fine st' d h :=
  ⟨fun _ k' => (f.values _ (k.trans k')).trans (f.values _ k).symm, fun _ k' => (f.render _ (k.trans k')).trans (f.render _ k).symm,
    fun _ k' => (f.sql _ (k.trans k')).trans (f.sql _ k).symm⟩

/-! ## Builders -/

/-- `HBase.headTokensR` of a memory. -/
def HBase.headP (m : Mem) (q : HBase) : List Str :=
  [operationString doSelect, (Fields.mk (m.defs.read q.fields)).fieldList, kwFrom, q.baseTable.renderFrom] ++
    (m.joins.read q.joins).map TableJoiner.renderFrom

/-- `HBase.renderFromR` of a memory. -/
def HBase.renderFromP (m : Mem) (q : HBase) : Str :=
  joinWith c!" " (q.baseTable.renderFrom :: (m.joins.read q.joins).map TableJoiner.renderFrom)

/-- The text and the values of the conditions. -/
def whereP (st : Store HCond) (d : Nat) (g : HGroup) (n : Nat) (f : Str → Str) (ps : List Val) : Res (Str × List Val) :=
  (renderP st d g.toCond n).bind fun w => (valuesP st d g.toCond).bind fun vs => .ok (f w, ps ++ vs)

/-- `HBase.buildR`. -/
def HBase.buildP (d : Nat) (m : Mem) (q : HBase) : Res (Str × List Val) :=
  if (m.conds.read q.where_.s).length > 0 then whereP m.conds d q.where_ 0 (fun w => joinWith c!" " (q.headP m ++ [kwWhere, w])) []
  else .ok (joinWith c!" " (q.headP m), [])

/-- `buildSingleR`. -/
def buildSingleP (d : Nat) (m : Mem) (q : HBase) : Res (Str × List Val) :=
  (q.buildP d m).bind fun r => .ok (r.1 ++ c!" LIMIT 1", r.2)

/-- `buildManyR`. -/
def buildManyP (d : Nat) (m : Mem) (q : HMany) : Res (Str × List Val) :=
  (q.base.buildP d m).bind fun r =>
    let sql := if q.order.len > 0 then r.1 ++ c!" ORDER BY " ++ orderLoop (m.sorts.read q.order) 0 else r.1
    let a := if q.offset > 0 then r.2 ++ [.uint q.offset] else r.2
    let sql := if q.offset > 0 then sql ++ c!" OFFSET $" ++ itoa a.length else sql
    let b := if q.limit > 0 then a ++ [.uint q.limit.toNat] else a
    let sql := if q.limit > 0 then sql ++ c!" LIMIT $" ++ itoa b.length else sql
    .ok (sql, b)

/-- `buildCountR`. -/
def buildCountP (d : Nat) (m : Mem) (q : HBase) (fd : FieldDef) : Res (Str × List Val) :=
  let tokens := [operationString doSelect, kwCount ++ c!"(" ++ fd.renderField ++ c!")", kwFrom, q.renderFromP m]
  if (m.conds.read q.where_.s).length > 0 then whereP m.conds d q.where_ 0 (fun w => joinWith c!" " (tokens ++ [kwWhere, w])) []
  else .ok (joinWith c!" " tokens, [])

/-- `buildUpdateR`. -/
def buildUpdateP (d : Nat) (m : Mem) (q : HUpdate) : Res (Str × List Val) :=
  if q.where_.s.len = 0 then .err .noConditions
  else if q.setValues.len = 0 then .err .noSetFields
  else if q.tableName.length = 0 then .err .noTable
  else (UpdateB.loop (m.vals.read q.setValues) 0).bind fun r =>
    whereP m.conds d q.where_ r.2.length
      (fun w => joinWith c!" " [kwUpdate, q.tableName, kwSet, joinWith c!", " r.1, kwWhere, w]) r.2

/-- `buildDeleteR`. -/
def buildDeleteP (d : Nat) (m : Mem) (q : HDelete) : Res (Str × List Val) :=
  if q.where_.s.len = 0 then .err .noConditions
  else if q.tableName.length = 0 then .err .noTable
  else whereP m.conds d q.where_ 0 (fun w => joinWith c!" " [kwDelete, kwFrom, q.tableName, kwWhere, w]) []

/-- `HBase.renderSQLR`. -/
def HBase.sqlP (d : Nat) (m : Mem) (q : HBase) : Res Str :=
  if (m.conds.read q.where_.s).length > 0 then
    (renderSQLP m.conds d q.where_.toCond).bind fun w => .ok (joinWith c!" " (q.headP m ++ [kwWhere, w]))
  else .ok (joinWith c!" " (q.headP m))

/-- `HBase.renderR`. -/
def HBase.textP (d : Nat) (m : Mem) (q : HBase) (n : Nat) : Res Str :=
  if (m.conds.read q.where_.s).length > 0 then
    (renderP m.conds d q.where_.toCond n).bind fun w => .ok (joinWith c!" " (q.headP m ++ [kwWhere, w]))
  else .ok (joinWith c!" " (q.headP m))

/-- `HBase.valuesR`. -/
def HBase.valsP (d : Nat) (m : Mem) (q : HBase) : Res (List Val) :=
  if (m.conds.read q.where_.s).length > 0 then valuesP m.conds d q.where_.toCond else .ok []

/-- Text and parameters. -/
def Content.ofQuery (r : Res (Str × List Val)) : Res Content := r.bind fun r => .ok (.query r.1 r.2)
/-- Text. -/
def Content.ofText (r : Res Str) : Res Content := r.bind fun r => .ok (.text r)
/-- Parameters. -/
def Content.ofVals (r : Res (List Val)) : Res Content := r.bind fun r => .ok (.vals r)

/-- `HBase.look`. -/
def HBase.lookP (d : Nat) (m : Mem) (q : HBase) (b : Res (Str × List Val)) : Look → Res Content
  | .build => Content.ofQuery b
  | .render n => Content.ofText (q.textP d m n)
  | .renderSQL => Content.ofText (q.sqlP d m)
  | .values => Content.ofVals (q.valsP d m)
  | .conditions => .ok (.conds (m.conds.read q.where_.s))
  | .fieldDefinitions => .ok (.defs (m.defs.read q.fields))

/-- `HV.look`. -/
def HV.lookP (d : Nat) (m : Mem) : HV → Look → Res Content
  | .cond c, .render n => Content.ofText (renderP m.conds d c n)
  | .cond c, .renderSQL => Content.ofText (renderSQLP m.conds d c)
  | .cond c, .values => Content.ofVals (valuesP m.conds d c)
  | .base q, l => q.lookP d m (q.buildP d m) l
  | .single q, l => q.lookP d m (buildSingleP d m q) l
  | .many q, l => q.base.lookP d m (buildManyP d m q) l
  | .count q fd, .build => Content.ofQuery (buildCountP d m q fd)
  | .insert q, .build => Content.ofQuery (InsertB.build ⟨q.op, q.tableName, m.vals.read q.setValues⟩)
  | .update q, .build => Content.ofQuery (buildUpdateP d m q)
  | .delete q, .build => Content.ofQuery (buildDeleteP d m q)
  | _, _ => noMethod

/-! ## They give what the builders give -/

theorem same_where (gr : Grow) (d : Nat) (m : RMem) (g : HGroup) (n : Nat) (p : Sl) (ps : List Val) (he : Ext false m.par p)
    (hp : RepS m.par p ps) (f : Str → Str) :
    SimR ((renderR gr d m g.toCond n).bind fun w => (valuesR gr d w.1 g.toCond).bind fun v =>
        .ok (({ v.1 with par := (v.1.par.append gr p (v.1.par.read v.2)).1 } : RMem), f w.2,
          (v.1.par.append gr p (v.1.par.read v.2)).2))
      (whereP m.mem.conds d g n f ps)
      fun a b => a.1.mem = m.mem ∧ Tr false m.par a.1.par [p] [a.2.2] ∧ a.2.1 = b.1 ∧ RepS a.1.par a.2.2 b.2 := by
  unfold whereP
  refine SimR.bind (same_renderR gr d m g.toCond n) fun w s hw => ?_
  obtain ⟨w1, w2, rfl⟩ := hw
  refine SimR.bind (w1 ▸ same_valuesR gr d w.1 g.toCond) fun v vs hv => ?_
  obtain ⟨v1, v2, v3⟩ := hv
  have k1 := (w2.trans v2).keep he
  have he' := ext_last k1
  have k2 := tr_append gr (growOK_false gr) v.1.par p (v.1.par.read v.2) he'
  have r2 := rep_append gr v.1.par p (v.1.par.read v.2) ps he'.arr (hp.mono k1.le)
  refine .ok ⟨v1.trans w1, k1.trans k2, rfl, ?_⟩
  rw [v3.2.2] at r2 ⊢
  exact r2

theorem whereP_pre (k : st <+: st') (d : Nat) (g : HGroup) (hg : Fine st d g.toCond) (n : Nat) (f : Str → Str) (ps : List Val) :
    whereP st' d g n f ps = whereP st d g n f ps := by
  simp only [whereP, hg.render _ k, hg.values _ k]

theorem conditionsR_length (m : RMem) (q : HBase) : (q.conditionsR m).2.len = (m.mem.conds.read q.where_.s).length :=
  (conditionsR_spec m q).2.2.1.length.symm

section
variable {q : HBase}

theorem same_buildR (gr : Grow) (d : Nat) (m : RMem) (hf : Fine m.mem.conds d q.where_.toCond) :
    SimR (q.buildR gr d m) (q.buildP d m.mem) (QB m) := by
  have t0 := tr_make (tight := false) m.par ([] : List Val)
  have r0 := rep_make m.par ([] : List Val)
  obtain ⟨c1, c2, c3, _⟩ := conditionsR_spec { m with par := (m.par.make []).1 } q
  simp only [HBase.buildR, HBase.buildP, conditionsR_length]
  by_cases h0 : (m.mem.conds.read q.where_.s).length > 0
  · simp only [h0, if_true]
    have := same_where gr d (q.conditionsR { m with par := (m.par.make []).1 }).1 q.where_ 0 (m.par.make []).2 []
      (by rw [c2]; exact ext_last t0) (by rw [c2]; exact r0) (fun w => joinWith c!" " (q.headP m.mem ++ [kwWhere, w]))
    rw [whereP_pre c1.conds d _ hf] at this
    refine this.imp fun a b ⟨q1, q2, q3, q4⟩ => ⟨c1.trans (.of_eq q1), ?_, q3, q4⟩
    rw [c2] at q2
    exact t0.trans q2
  · simp only [h0, if_false]
    exact .ok ⟨c1, by rw [c2]; exact t0, rfl, by rw [c2]; exact r0⟩

theorem same_single (gr : Grow) (d : Nat) (m : RMem) (hf : Fine m.mem.conds d q.where_.toCond) :
    SimR (buildSingleR gr d m q) (buildSingleP d m.mem q) (QB m) := by
  simp only [buildSingleR, buildSingleP]
  refine SimR.bind (same_buildR gr d m hf) fun a b ⟨q1, q2, q3, q4⟩ => ?_
  exact .ok ⟨q1, q2, by rw [q3], q4⟩

theorem same_many (gr : Grow) (d : Nat) (m : RMem) {q : HMany} (hf : Fine m.mem.conds d q.base.where_.toCond) :
    SimR (buildManyR gr d m q) (buildManyP d m.mem q) (QB m) := by
  simp only [buildManyR, buildManyP]
  refine SimR.bind (same_buildR gr d m hf) fun a b ⟨q1, q2, q3, q4⟩ => ?_
  rw [q1.sorts, q3]
  have step : ∀ (st : Store Val) (s : Sl) (vs : List Val) (c : Prop) [Decidable c] (x : Val),
      Tr false m.par st [] [s] → RepS st s vs →
      Tr false m.par (if c then st.append gr s [x] else (st, s)).1 [] [(if c then st.append gr s [x] else (st, s)).2] ∧
        RepS (if c then st.append gr s [x] else (st, s)).1 (if c then st.append gr s [x] else (st, s)).2
          (if c then vs ++ [x] else vs) := by
    intro st s vs c _ x t rs
    by_cases hc : c
    · simp only [hc, if_true]
      exact ⟨t.trans (tr_append gr (growOK_false gr) st s [x] (ext_last t)), rep_append gr st s [x] vs (ext_last t).arr rs⟩
    · simp only [hc, if_false]; exact ⟨t, rs⟩
  obtain ⟨t1, s1⟩ := step a.1.par a.2.2 b.2 (q.offset > 0) (.uint q.offset) q2 q4
  obtain ⟨t2, s2⟩ := step _ _ _ (q.limit > 0) (.uint q.limit.toNat) t1 s1
  refine .ok ⟨q1, t2, ?_, s2⟩
  simp only []
  rw [← s1.length, ← s2.length]

theorem same_count (gr : Grow) (d : Nat) (m : RMem) (fd : FieldDef) (hf : Fine m.mem.conds d q.where_.toCond) :
    SimR (buildCountR gr d m q fd) (buildCountP d m.mem q fd) (QB m) := by
  obtain ⟨c1, c2, c3, _⟩ := conditionsR_spec m q
  simp only [buildCountR, buildCountP, conditionsR_length]
  by_cases h0 : (m.mem.conds.read q.where_.s).length > 0
  · simp only [h0, if_true]
    unfold whereP
    have e1 := same_renderR gr d (q.conditionsR m).1 q.where_.toCond 0
    rw [hf.render _ c1.conds] at e1
    refine SimR.bind e1 fun w s hw => ?_
    obtain ⟨w1, w2, rfl⟩ := hw
    have e2 := same_valuesR gr d w.1 q.where_.toCond
    rw [w1, hf.values _ c1.conds] at e2
    refine SimR.bind e2 fun v vs hv => ?_
    obtain ⟨v1, v2, v3⟩ := hv
    rw [c2] at w2
    exact .ok ⟨c1.trans (.of_eq (v1.trans w1)), w2.trans v2, rfl, by simpa using v3⟩
  · simp only [h0, if_false]
    exact .ok ⟨c1, by rw [c2]; exact tr_make _ _, rfl, by rw [c2]; exact rep_make _ _⟩

theorem same_insert (gr : Grow) (m : RMem) {q : HInsert} (h : InB m.mem.vals q.setValues) :
    SimR (buildInsertR gr m q) (InsertB.build ⟨q.op, q.tableName, m.mem.vals.read q.setValues⟩) (QB m) :=
  sim_insert gr m rfl ⟨h.1, h.2, rfl⟩

theorem same_update (gr : Grow) (d : Nat) (m : RMem) {q : HUpdate} :
    SimR (buildUpdateR gr d m q) (buildUpdateP d m.mem q) (QB m) := by
  simp only [buildUpdateR, buildUpdateP]
  by_cases h0 : q.where_.s.len = 0
  · simp only [h0, if_true]; rfl
  · simp only [h0, if_false]
    by_cases h1 : q.setValues.len = 0
    · simp only [h1, if_true]; rfl
    · simp only [h1, if_false]
      by_cases h2 : q.tableName.length = 0
      · simp only [h2, if_true]; rfl
      · simp only [h2, if_false]
        cases hl : UpdateB.loop (m.mem.vals.read q.setValues) 0 with
        | err e => rfl
        | panic x => rfl
        | ok x =>
          simp only [Res.bind_ok]
          have t0 := tr_make (tight := false) m.par x.2
          have r0 := rep_make m.par x.2
          rw [← r0.length]
          refine (same_where gr d { m with par := (m.par.make x.2).1 } q.where_ x.2.length _ x.2 (ext_last t0) r0
            (fun w => joinWith c!" " [kwUpdate, q.tableName, kwSet, joinWith c!", " x.1, kwWhere, w])).imp
            fun a b ⟨q1, q2, q3, q4⟩ => ?_
          exact ⟨.of_eq q1, t0.trans q2, q3, q4⟩

theorem same_delete (gr : Grow) (d : Nat) (m : RMem) {q : HDelete} :
    SimR (buildDeleteR gr d m q) (buildDeleteP d m.mem q) (QB m) := by
  simp only [buildDeleteR, buildDeleteP]
  by_cases h0 : q.where_.s.len = 0
  · simp only [h0, if_true]; rfl
  · simp only [h0, if_false]
    by_cases h2 : q.tableName.length = 0
    · simp only [h2, if_true]; rfl
    · simp only [h2, if_false]
      have t0 := tr_make (tight := false) m.par ([] : List Val)
      have r0 := rep_make m.par ([] : List Val)
      refine (same_where gr d { m with par := (m.par.make []).1 } q.where_ 0 _ [] (ext_last t0) r0
        (fun w => joinWith c!" " [kwDelete, kwFrom, q.tableName, kwWhere, w])).imp
        fun a b ⟨q1, q2, q3, q4⟩ => ?_
      exact ⟨.of_eq q1, t0.trans q2, q3, q4⟩

theorem same_baseSQL (d : Nat) (m : RMem) (hf : Fine m.mem.conds d q.where_.toCond) :
    SimR (q.renderSQLR d m) (q.sqlP d m.mem) fun a b => KeptM m.mem a.1.mem ∧ Tr false m.par a.1.par [] [] ∧ a.2 = b := by
  obtain ⟨c1, c2, c3, _⟩ := conditionsR_spec m q
  simp only [HBase.renderSQLR, HBase.sqlP, conditionsR_length]
  by_cases h0 : (m.mem.conds.read q.where_.s).length > 0
  · simp only [h0, if_true]
    have e := same_renderSQLR d (q.conditionsR m).1 q.where_.toCond
    rw [hf.sql _ c1.conds] at e
    refine SimR.bind e fun w s hw => ?_
    obtain ⟨w1, w2, rfl⟩ := hw
    rw [c2] at w2
    exact .ok ⟨c1.trans (.of_eq w1), w2, rfl⟩
  · simp only [h0, if_false]
    exact .ok ⟨c1, by rw [c2]; exact Tr.none _ _, rfl⟩

theorem same_baseRender (gr : Grow) (d : Nat) (m : RMem) (n : Nat) (hf : Fine m.mem.conds d q.where_.toCond) :
    SimR (q.renderR gr d m n) (q.textP d m.mem n) fun a b => KeptM m.mem a.1.mem ∧ Tr false m.par a.1.par [] [] ∧ a.2 = b := by
  obtain ⟨c1, c2, c3, _⟩ := conditionsR_spec m q
  simp only [HBase.renderR, HBase.textP, conditionsR_length]
  by_cases h0 : (m.mem.conds.read q.where_.s).length > 0
  · simp only [h0, if_true]
    have e := same_renderR gr d (q.conditionsR m).1 q.where_.toCond n
    rw [hf.render _ c1.conds] at e
    refine SimR.bind e fun w s hw => ?_
    obtain ⟨w1, w2, rfl⟩ := hw
    rw [c2] at w2
    exact .ok ⟨c1.trans (.of_eq w1), w2, rfl⟩
  · simp only [h0, if_false]
    exact .ok ⟨c1, by rw [c2]; exact Tr.none _ _, rfl⟩

theorem same_baseValues (gr : Grow) (d : Nat) (m : RMem) (hf : Fine m.mem.conds d q.where_.toCond) :
    SimR (q.valuesR gr d m) (q.valsP d m.mem) fun a b =>
      KeptM m.mem a.1.mem ∧ Tr false m.par a.1.par [] [a.2] ∧ RepS a.1.par a.2 b := by
  have t0 := tr_make (tight := false) m.par ([] : List Val)
  have r0 := rep_make m.par ([] : List Val)
  obtain ⟨c1, c2, c3, _⟩ := conditionsR_spec { m with par := (m.par.make []).1 } q
  simp only [HBase.valuesR, HBase.valsP, conditionsR_length]
  by_cases h0 : (m.mem.conds.read q.where_.s).length > 0
  · simp only [h0, if_true]
    have hv := same_valuesR gr d (q.conditionsR { m with par := (m.par.make []).1 }).1 q.where_.toCond
    rw [hf.values _ c1.conds] at hv
    cases hp : valuesP m.mem.conds d q.where_.toCond with
    | err e => rw [hp] at hv; rw [show valuesR gr d _ _ = _ from hv]; rfl
    | panic e => rw [hp] at hv; rw [show valuesR gr d _ _ = _ from hv]; rfl
    | ok vs =>
      rw [hp] at hv
      obtain ⟨v, ev, v1, v2, v3⟩ := hv
      rw [ev]
      rw [c2] at v2
      have k1 := v2.keep (ext_last t0)
      have k2 := tr_append gr (growOK_false gr) v.1.par (m.par.make []).2 (v.1.par.read v.2) (ext_last k1)
      have r2 := rep_append gr v.1.par (m.par.make []).2 (v.1.par.read v.2) [] (ext_last k1).arr (r0.mono k1.le)
      rw [v3.2.2] at k2 r2
      simp only [Res.bind_ok, v3.2.2]
      exact .ok ⟨c1.trans (.of_eq v1), (t0.trans k1).trans k2, by simpa using r2⟩
  · simp only [h0, if_false]
    exact .ok ⟨c1, by rw [c2]; exact t0, by rw [c2]; exact r0⟩

/-- The slice of a result lies within its array. -/
def HOut.inB (m : RMem) : HOut → Prop
  | .query _ p => InB m.par p
  | .text _ => True
  | .vals p => InB m.par p
  | .conds s => InB m.mem.conds s
  | .defs s => InB m.mem.defs s

/-- What a reading call does. -/
def QC (m : RMem) (a : RMem × HOut) (b : Content) : Prop := Kept m a.1 ∧ a.2.inB a.1 ∧ a.2.content a.1 = b ∧ NewOut m a.2

theorem RepS.inB {α : Type} {st : Store α} {s : Sl} {xs : List α} (h : RepS st s xs) : InB st s := ⟨h.1, h.2.1⟩

theorem same_ofQuery {m : RMem} {r : Res (RMem × Str × Sl)} {p : Res (Str × List Val)} (h : SimR r p (QB m)) :
    SimR (HOut.ofQuery r) (Content.ofQuery p) (QC m) :=
  SimR.bind h fun _ _ ⟨q1, q2, q3, q4⟩ => .ok ⟨q1.kept q2, q4.inB, by simp only [HOut.content]; rw [q3, q4.2.2], tr_new q2⟩

theorem same_ofText {m : RMem} {r : Res (RMem × Str)} {p : Res Str}
    (h : SimR r p fun a b => KeptM m.mem a.1.mem ∧ Tr false m.par a.1.par [] [] ∧ a.2 = b) :
    SimR (HOut.ofText r) (Content.ofText p) (QC m) :=
  SimR.bind h fun _ _ ⟨q1, q2, q3⟩ => .ok ⟨q1.kept q2, trivial, by simp only [HOut.content]; rw [q3], trivial⟩

theorem same_ofVals {m : RMem} {r : Res (RMem × Sl)} {p : Res (List Val)}
    (h : SimR r p fun a b => KeptM m.mem a.1.mem ∧ Tr false m.par a.1.par [] [a.2] ∧ RepS a.1.par a.2 b) :
    SimR (HOut.ofVals r) (Content.ofVals p) (QC m) :=
  SimR.bind h fun _ _ ⟨q1, q2, q3⟩ => .ok ⟨q1.kept q2, q3.inB, by simp only [HOut.content]; rw [q3.2.2], tr_new q2⟩

theorem same_baseLook (gr : Grow) (d : Nat) (m : RMem) (hf : Fine m.mem.conds d q.where_.toCond)
    (b : Res (RMem × Str × Sl)) (b' : Res (Str × List Val)) (hb : SimR b b' (QB m)) (l : Look) :
    SimR (q.look gr d m b l) (q.lookP d m.mem b' l) (QC m) := by
  cases l with
  | build => exact same_ofQuery hb
  | render n => exact same_ofText (same_baseRender gr d m n hf)
  | renderSQL => exact same_ofText (same_baseSQL d m hf)
  | values => exact same_ofVals (same_baseValues gr d m hf)
  | conditions =>
    obtain ⟨c1, c2, c3, c4⟩ := conditionsR_spec m q
    exact .ok ⟨c1.kept (P := []) (by rw [c2]; exact Tr.none _ _), c3.inB, by simp only [HOut.content]; rw [c3.2.2], c4⟩
  | fieldDefinitions =>
    have h := rep_make m.mem.defs (m.mem.defs.read q.fields)
    exact .ok ⟨⟨List.prefix_refl _, List.prefix_refl _, List.prefix_refl _, List.prefix_refl _, List.prefix_append _ _,
      List.prefix_refl _⟩, h.inB, by simp only [HOut.content, HBase.fieldDefinitionsR]; rw [h.2.2], Nat.le_refl _⟩

end

/-- Reading the value stays the same when arrays are added. -/
def HV.fine (d : Nat) (m : Mem) : HV → Prop
  | .cond c => Fine m.conds d c
  | .base q | .single q | .count q _ | .joinB q | .joinS q => Fine m.conds d q.where_.toCond
  | .many q | .joinM q => Fine m.conds d q.base.where_.toCond
  | .insert q => InB m.vals q.setValues
  | .update q => Fine m.conds d q.where_.toCond
  | .delete q => Fine m.conds d q.where_.toCond

theorem fine_kept {m m' : RMem} (k : Kept m m') (d : Nat) {h : HV} (hs : StB m.mem.conds) (hb : h.bnd m.mem) : h.fine d m'.mem := by
  cases h <;> simp only [HV.bnd] at hb <;> simp only [HV.fine]
  · exact (fine_of_bnd hs d hb).mono k.conds
  · exact (fine_of_bnd hs d (h := HGroup.toCond _) hb.cond).mono k.conds
  · exact (fine_of_bnd hs d (h := HGroup.toCond _) hb.cond).mono k.conds
  · exact (fine_of_bnd hs d (h := HGroup.toCond _) hb.1.cond).mono k.conds
  · exact (fine_of_bnd hs d (h := HGroup.toCond _) hb.cond).mono k.conds
  · exact ⟨Nat.lt_of_lt_of_le hb.1 k.vals.length_le, by
      obtain ⟨t, ht⟩ := (le_prefix k.vals).pre _; rw [← ht]; simp; exact Nat.le_trans hb.2 (Nat.le_add_right _ _)⟩
  · exact (fine_of_bnd hs d (h := HGroup.toCond _) hb.1).mono k.conds
  · exact (fine_of_bnd hs d (h := HGroup.toCond _) hb).mono k.conds
  · exact (fine_of_bnd hs d (h := HGroup.toCond _) hb.cond).mono k.conds
  · exact (fine_of_bnd hs d (h := HGroup.toCond _) hb.cond).mono k.conds
  · exact (fine_of_bnd hs d (h := HGroup.toCond _) hb.1.cond).mono k.conds

/-- Every reading call gives what the memory determines, and keeps every array. -/
theorem same_look (gr : Grow) (d : Nat) (m : RMem) (h : HV) (hf : h.fine d m.mem) (l : Look) :
    SimR (h.look gr d m l) (h.lookP d m.mem l) (QC m) := by
  have no : SimR (noMethod : Res (RMem × HOut)) (noMethod : Res Content) (QC m) := rfl
  cases h <;> simp only [HV.fine] at hf
  · cases l with
    | render n => exact same_ofText ((same_renderR gr d m _ n).imp fun _ _ ⟨a, b, c⟩ => ⟨.of_eq a, b, c⟩)
    | renderSQL => exact same_ofText ((same_renderSQLR d m _).imp fun _ _ ⟨a, b, c⟩ => ⟨.of_eq a, b, c⟩)
    | values => exact same_ofVals ((same_valuesR gr d m _).imp fun _ _ ⟨a, b, c⟩ => ⟨.of_eq a, b, c⟩)
    | _ => exact no
  · exact same_baseLook gr d m hf _ _ (same_buildR gr d m hf) l
  · exact same_baseLook gr d m hf _ _ (same_single gr d m hf) l
  · exact same_baseLook gr d m hf _ _ (same_many gr d m hf) l
  · cases l with
    | build => exact same_ofQuery (same_count gr d m _ hf)
    | _ => exact no
  · cases l with
    | build => exact same_ofQuery (same_insert gr m hf)
    | _ => exact no
  · cases l with
    | build => exact same_ofQuery (same_update gr d m)
    | _ => exact no
  · cases l with
    | build => exact same_ofQuery (same_delete gr d m)
    | _ => exact no
  · cases l <;> exact no
  · cases l <;> exact no
  · cases l <;> exact no

/-- What a reading call gives depends only on the arrays there were when the value was made. -/
theorem lookP_kept {m m' : Mem} (kc : m.conds <+: m'.conds) (kj : m.joins <+: m'.joins) (ks : m.sorts <+: m'.sorts)
    (kv : m.vals <+: m'.vals) (kd : m.defs <+: m'.defs) (d : Nat) (h : HV) (hs : StB m.conds) (hb : h.bnd m) (l : Look) :
    h.lookP d m' l = h.lookP d m l := by
  have base : ∀ q : HBase, BaseB m q → q.headP m' = q.headP m ∧ q.renderFromP m' = q.renderFromP m ∧
      q.buildP d m' = q.buildP d m ∧ ∀ b l, q.lookP d m' b l = q.lookP d m b l := by
    intro q r
    have e1 : q.headP m' = q.headP m := by simp only [HBase.headP]; rw [read_pre kd r.fields, read_pre kj r.joins]
    have e2 : q.renderFromP m' = q.renderFromP m := by simp only [HBase.renderFromP]; rw [read_pre kj r.joins]
    have hc : q.where_.toCond.bnd m.conds := r.cond
    refine ⟨e1, e2, ?_, fun b l => ?_⟩
    · simp only [HBase.buildP, whereP_pre kc d _ (fine_of_bnd hs d hc), read_pre kc r.cond, e1]
    · cases l <;> simp only [HBase.lookP, HBase.textP, HBase.sqlP, HBase.valsP, read_pre kc r.cond, read_pre kd r.fields, e1,
        renderP_pre kc hs d _ hc, renderSQLP_pre kc hs d _ hc, valuesP_pre kc hs d _ hc]
  cases h <;> simp only [HV.bnd] at hb
  · cases l <;> simp only [HV.lookP, renderP_pre kc hs d _ hb, renderSQLP_pre kc hs d _ hb, valuesP_pre kc hs d _ hb]
  · obtain ⟨e1, e2, e3, e4⟩ := base _ hb
    simp only [HV.lookP, e3, e4]
  · obtain ⟨e1, e2, e3, e4⟩ := base _ hb
    simp only [HV.lookP, buildSingleP, e3, e4]
  · obtain ⟨e1, e2, e3, e4⟩ := base _ hb.1
    simp only [HV.lookP, buildManyP, e3, e4, read_pre ks hb.2]
  · obtain ⟨e1, e2, e3, e4⟩ := base _ hb
    cases l <;> simp only [HV.lookP, buildCountP, e2, whereP_pre kc d _ (fine_of_bnd hs d (h := HGroup.toCond _) hb.cond), read_pre kc hb.cond]
  · cases l <;> simp only [HV.lookP, read_pre kv hb]
  · cases l <;> simp only [HV.lookP, buildUpdateP, read_pre kv hb.2, whereP_pre kc d _ (fine_of_bnd hs d (h := HGroup.toCond _) hb.1)]
  · cases l <;> simp only [HV.lookP, buildDeleteP, whereP_pre kc d _ (fine_of_bnd hs d (h := HGroup.toCond _) hb)]
  · cases l <;> rfl
  · cases l <;> rfl
  · cases l <;> rfl

theorem content_kept {m m' : RMem} (k : Kept m m') {o : HOut} (h : o.inB m) : o.content m' = o.content m := by
  cases o <;> simp only [HOut.inB] at h <;> simp only [HOut.content]
  · rw [read_pre k.par h]
  · rw [read_pre k.par h]
  · rw [read_pre k.conds h]
  · rw [read_pre k.defs h]

theorem SimR.contentNow {m : RMem} {r : Res (RMem × HOut)} {p : Res Content} (h : SimR r p (QC m)) : contentNow r = p := by
  cases p with
  | ok b => obtain ⟨a, rfl, _, _, e, _⟩ := h; simp only [Query.contentNow]; rw [e]
  | err e => simp only [SimR] at h; rw [h]; rfl
  | panic e => simp only [SimR] at h; rw [h]; rfl

/-- After any memory that keeps the arrays, the call gives what it gave. -/
theorem look_kept (gr gr' : Grow) (d : Nat) {m m' : RMem} (k : Kept m m') (h : HV) (hs : StB m.mem.conds) (hb : h.bnd m.mem) (l : Look) :
    contentNow (h.look gr' d m' l) = contentNow (h.look gr d m l) := by
  rw [(same_look gr d m h (fine_kept (Kept.refl m) d hs hb) l).contentNow, (same_look gr' d m' h (fine_kept k d hs hb) l).contentNow]
  exact lookP_kept k.conds k.joins k.sorts k.vals k.defs d h hs hb l

/-- A sequence of calls. -/
theorem lookAll_kept (gr : Grow) (d : Nat) (hs : List HV) {m0 : RMem} (sb : StB m0.mem.conds)
    (hb : ∀ (i : Nat) (h : HV), hs[i]? = some h → h.bnd m0.mem) : ∀ (ls : List (Nat × Look)) (m : RMem), Kept m0 m →
      Kept m (lookAll gr d hs m ls).1 ∧ (lookAll gr d hs m ls).2.map (contentIn (lookAll gr d hs m ls).1) =
        ls.map fun rl => match hs[rl.1]? with
          | none => noMethod
          | some h => contentNow (h.look gr d m0 rl.2)
  | [], m, _ => ⟨Kept.refl m, rfl⟩
  | (r, l) :: rest, m, k => by
    cases hr : hs[r]? with
    | none =>
      simp only [lookAll, hr, List.map_cons]
      obtain ⟨i1, i2⟩ := lookAll_kept gr d hs sb hb rest m k
      exact ⟨i1, by rw [i2]; rfl⟩
    | some h =>
      have e := look_kept gr gr d k h sb (hb r h hr) l
      have s := same_look gr d m h (fine_kept k d sb (hb r h hr)) l
      simp only [lookAll, hr, List.map_cons]
      cases hl : h.look gr d m l with
      | ok a =>
        obtain ⟨m', o⟩ := a
        rw [hl] at s e
        have : Kept m m' ∧ o.inB m' := by
          cases hp : h.lookP d m.mem l with
          | ok b => rw [hp] at s; obtain ⟨a, ea, s1, s2, _⟩ := s; cases ea; exact ⟨s1, s2⟩
          | err e => rw [hp] at s; simp [SimR] at s
          | panic e => rw [hp] at s; simp [SimR] at s
        obtain ⟨i1, i2⟩ := lookAll_kept gr d hs sb hb rest m' (k.trans this.1)
        simp only [List.map_cons]
        refine ⟨this.1.trans i1, ?_⟩
        rw [i2, ← e]
        simp only [contentIn, contentNow]
        rw [content_kept i1 this.2]
      | err x =>
        obtain ⟨i1, i2⟩ := lookAll_kept gr d hs sb hb rest m k
        rw [hl] at e
        simp only [List.map_cons]
        exact ⟨i1, by rw [i2, ← e]; rfl⟩
      | panic x =>
        obtain ⟨i1, i2⟩ := lookAll_kept gr d hs sb hb rest m k
        rw [hl] at e
        simp only [List.map_cons]
        exact ⟨i1, by rw [i2, ← e]; rfl⟩

end Query
