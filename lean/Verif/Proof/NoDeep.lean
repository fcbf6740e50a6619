import Verif.Heap.Read
/-!
# Plain values never run out of depth
-/
namespace Query

/-- Not the panic that says the bound was too small. -/
def Returns {α : Type} (r : Res α) : Prop := r ≠ .panic .deep

theorem Returns.ok {α : Type} (a : α) : Returns (.ok a) := by intro h; cases h
theorem Returns.err {α : Type} (e : GoErr) : Returns (.err e : Res α) := by intro h; cases h

theorem Returns.bind {α β : Type} {r : Res α} {f : α → Res β} (h : Returns r) (k : ∀ a, Returns (f a)) : Returns (r.bind f) := by
  cases r with
  | ok a => exact k a
  | err e => exact .err e
  | panic p => intro e; exact h (by simp only [Res.bind_panic] at e; cases e; rfl)

theorem Returns.mapL {α β : Type} {f : α → Res β} (h : ∀ a, Returns (f a)) : ∀ as, Returns (Res.mapL f as)
  | [] => .ok _
  | a :: as => .bind (h a) fun _ => .bind (Returns.mapL h as) fun _ => .ok _

theorem valuerElem_returns (e : Val) : Returns (valuerElem e) := by
  unfold valuerElem; split
  · exact .ok _
  · intro h; cases h

theorem providerElem_returns (e : Val) : Returns (providerElem e) := by
  unfold providerElem; split
  · exact .ok _
  · intro h; cases h

theorem reflElem_returns (e : Val) : Returns (reflElem e) := by
  unfold reflElem; split
  · exact .ok _
  · intro h; cases h
  · intro h; cases h

theorem fvValues_returns (fv : FieldValue) : Returns fv.values := by
  unfold FieldValue.values; split
  · exact .ok _
  · exact .ok _
  · exact .mapL valuerElem_returns _
  · exact .ok _
  · exact .mapL providerElem_returns _
  · exact .ok _
  · exact .mapL reflElem_returns _
  · exact .ok _

theorem likeValues_returns (fv : FieldValue) : Returns (likeValues fv) := by
  unfold likeValues; split
  · exact .ok _
  · intro h; cases h

theorem fieldcValues_returns (k : Kind) (fv : FieldValue) : Returns (fieldcValues k fv) := by
  unfold fieldcValues; split
  · exact likeValues_returns fv
  · exact likeValues_returns fv
  · exact fvValues_returns fv

mutual
theorem values_returns : ∀ c : Cond, Returns c.values
  | .fieldc k _ fv => by simp only [Cond.values]; exact fieldcValues_returns k fv
  | .null _ _ => by simp only [Cond.values]; exact .ok _
  | .custom _ x => by simp only [Cond.values]; exact .ok _
  | .group _ cs _ => by simp only [Cond.values]; exact valuesL_returns cs
theorem valuesL_returns : ∀ cs : List Cond, Returns (Cond.valuesL cs)
  | [] => by simp only [Cond.valuesL]; exact .ok _
  | c :: cs => by
    simp only [Cond.valuesL, Res.bind_def, Res.pure_def]
    exact .bind (values_returns c) fun _ => .bind (valuesL_returns cs) fun _ => .ok _
end

theorem fieldcRender_returns (k : Kind) (b : CondBase) (fv : FieldValue) (n : Nat) : Returns (fieldcRender k b fv n) := by
  unfold fieldcRender; split
  · exact .ok _
  · exact .ok _
  · exact .bind (fvValues_returns fv) fun _ => .ok _
  · exact .ok _

theorem fieldcRenderSQL_returns (k : Kind) (b : CondBase) (fv : FieldValue) : Returns (fieldcRenderSQL k b fv) := by
  unfold fieldcRenderSQL; split
  · exact .ok _
  · exact .ok _
  · exact .bind (fvValues_returns fv) fun _ => .ok _
  · exact .ok _

mutual
theorem render_returns : ∀ (c : Cond) (n : Nat), Returns (c.render n)
  | .fieldc k b fv, n => by simp only [Cond.render]; exact fieldcRender_returns k b fv n
  | .null _ _, _ => by simp only [Cond.render]; exact .ok _
  | .custom _ x, _ => by simp only [Cond.render]; exact .ok _
  | .group _ cs _, n => by
    simp only [Cond.render]
    split
    · exact .ok _
    · exact .bind (renderL_returns cs true n) fun _ => .ok _
theorem renderL_returns : ∀ (cs : List Cond) (f : Bool) (n : Nat), Returns (Cond.renderL cs f n)
  | [], _, _ => by simp only [Cond.renderL]; exact .ok _
  | c :: cs, f, n => by
    simp only [Cond.renderL, Res.bind_def, Res.pure_def]
    exact .bind (render_returns c n) fun _ => .bind (values_returns c) fun vs =>
      .bind (renderL_returns cs false (n + vs.length)) fun _ => .ok _
end

mutual
theorem renderSQL_returns : ∀ c : Cond, Returns c.renderSQL
  | .fieldc k b fv => by simp only [Cond.renderSQL]; exact fieldcRenderSQL_returns k b fv
  | .null _ _ => by simp only [Cond.renderSQL]; exact .ok _
  | .custom _ x => by simp only [Cond.renderSQL]; exact .ok _
  | .group _ cs _ => by
    simp only [Cond.renderSQL]
    split
    · exact .ok _
    · exact .bind (renderSQLL_returns cs true) fun _ => .ok _
theorem renderSQLL_returns : ∀ (cs : List Cond) (f : Bool), Returns (Cond.renderSQLL cs f)
  | [], _ => by simp only [Cond.renderSQLL]; exact .ok _
  | c :: cs, f => by
    simp only [Cond.renderSQLL, Res.bind_def, Res.pure_def]
    exact .bind (renderSQL_returns c) fun _ => .bind (renderSQLL_returns cs false) fun _ => .ok _
end

theorem base_build_returns (q : BaseSelect) : Returns q.build := by
  unfold BaseSelect.build; split
  · exact .bind (render_returns _ _) fun _ => .bind (values_returns _) fun _ => .ok _
  · exact .ok _

theorem base_look_returns (q : BaseSelect) (b : Res (Str × List Val)) (hb : Returns b) (l : Look) : Returns (q.look b l) := by
  cases l with
  | build => exact .bind hb fun _ => .ok _
  | render n =>
    refine .bind ?_ fun _ => .ok _
    unfold BaseSelect.render; split
    · exact .bind (render_returns _ _) fun _ => .ok _
    · exact .ok _
  | renderSQL =>
    refine .bind ?_ fun _ => .ok _
    unfold BaseSelect.renderSQL; split
    · exact .bind (renderSQL_returns _) fun _ => .ok _
    · exact .ok _
  | values =>
    refine .bind ?_ fun _ => .ok _
    unfold BaseSelect.values; split
    · exact values_returns _
    · exact .ok _
  | conditions => exact .ok _
  | fieldDefinitions => exact .ok _

theorem insert_loop_returns : ∀ (fvs : List FieldValue) (vs : List Val) (cs ps : List Str), Returns (InsertB.loop fvs vs cs ps)
  | [], _, _, _ => by simp only [InsertB.loop]; exact .ok _
  | fv :: fvs, vs, cs, ps => by
    simp only [InsertB.loop]
    exact .bind (fvValues_returns fv) fun _ => insert_loop_returns fvs _ _ _

theorem update_loop_returns : ∀ (fvs : List FieldValue) (n : Nat), Returns (UpdateB.loop fvs n)
  | [], _ => by simp only [UpdateB.loop]; exact .ok _
  | fv :: fvs, n => by
    simp only [UpdateB.loop]
    refine .bind ?_ fun v => .bind (update_loop_returns fvs _) fun _ => .ok _
    unfold firstValue
    refine .bind (fvValues_returns fv) fun vs => ?_
    cases vs with
    | nil => intro h; cases h
    | cons v vs => exact .ok _

/-- Reading a plain value returns. -/
theorem look_returns (p : PV) (l : Look) : Returns (p.look l) := by
  have no : Returns (noMethod : Res POut) := by intro h; cases h
  cases p with
  | cond c =>
    cases l with
    | render n => exact .bind (render_returns c n) fun _ => .ok _
    | renderSQL => exact .bind (renderSQL_returns c) fun _ => .ok _
    | values => exact .bind (values_returns c) fun _ => .ok _
    | _ => exact no
  | base q => exact base_look_returns q _ (base_build_returns q) l
  | single q => exact base_look_returns _ _ (.bind (base_build_returns q.base) fun _ => .ok _) l
  | many q => exact base_look_returns _ _ (.bind (base_build_returns q.base) fun _ => .ok _) l
  | count q =>
    cases l with
    | build =>
      refine .bind ?_ fun _ => .ok _
      unfold CountB.build; split
      · exact .bind (render_returns _ _) fun _ => .bind (values_returns _) fun _ => .ok _
      · exact .ok _
    | _ => exact no
  | insert q =>
    cases l with
    | build =>
      refine .bind ?_ fun _ => .ok _
      unfold InsertB.build; split
      · exact .err _
      · split
        · exact .err _
        · exact .bind (insert_loop_returns _ _ _ _) fun _ => .ok _
    | _ => exact no
  | update q =>
    cases l with
    | build =>
      refine .bind ?_ fun _ => .ok _
      unfold UpdateB.build; split
      · exact .err _
      · split
        · exact .err _
        · split
          · exact .err _
          · refine .bind ?_ fun _ => .bind (render_returns _ _) fun _ => .bind (values_returns _) fun _ => .ok _
            unfold UpdateB.fieldsAndValues
            exact .bind (update_loop_returns _ _) fun _ => .ok _
    | _ => exact no
  | delete q =>
    cases l with
    | build =>
      refine .bind ?_ fun _ => .ok _
      unfold DeleteB.build; split
      · exact .err _
      · split
        · exact .err _
        · exact .bind (render_returns _ _) fun _ => .bind (values_returns _) fun _ => .ok _
    | _ => exact no
  | joinB q => cases l <;> exact no
  | joinS q => cases l <;> exact no
  | joinM q => cases l <;> exact no

end Query
