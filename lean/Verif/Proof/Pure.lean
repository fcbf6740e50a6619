import Verif.Model.Write
/-!
# Pure versions of `Values` and `Render`

`Cond.valuesP`, `Cond.renderP` and `Cond.renderSQLP` are the same functions without the `Res` layer; they agree with the
model whenever `Values()` of the condition returns.
-/
namespace Query

/-- The value of a call, or a default. -/
def Res.getD {α : Type} (d : α) : Res α → α
  | .ok a => a
  | _ => d

@[simp] theorem Res.getD_ok {α : Type} (d a : α) : (Res.ok a).getD d = a := rfl

mutual
def Cond.valuesP : Cond → List Val
  | .fieldc k _ fv => (fieldcValues k fv).getD []
  | .null _ _ => []
  | .custom _ x => x.vals
  | .group _ cs _ => Cond.valuesPL cs
def Cond.valuesPL : List Cond → List Val
  | [] => []
  | c :: cs => c.valuesP ++ Cond.valuesPL cs
end

def fieldcRenderP (k : Kind) (b : CondBase) (fv : FieldValue) (n : Nat) : Str :=
  match k with
  | .like => renderLike .like b fv.fd n
  | .ilike => renderLike .ilike b fv.fd n
  | .inn => renderIn b fv.fd (fv.values.getD []).length n
  | k => renderCmp k b fv.fd n

def fieldcRenderSQLP (k : Kind) (b : CondBase) (fv : FieldValue) : Str :=
  match k with
  | .like => renderLikeSQL .like b fv.fd
  | .ilike => renderLikeSQL .ilike b fv.fd
  | .inn => renderInSQL b fv.fd (fv.values.getD []).length
  | k => renderCmpSQL k b fv.fd

mutual
def Cond.renderP : Cond → Nat → Str
  | .fieldc k b fv, n => fieldcRenderP k b fv n
  | .null b fd, _ => renderNull b fd
  | .custom b x, n => x.text x.fd b.negate n
  | .group b cs br, n => if cs.length = 0 then [] else wrapGroup b cs.length br (Cond.renderPL cs true n)
def Cond.renderPL : List Cond → Bool → Nat → Str
  | [], _, _ => []
  | c :: cs, isFirst, n =>
    joinToken c isFirst ++ c.renderP n ++ Cond.renderPL cs false (n + c.valuesP.length)
end

mutual
def Cond.renderSQLP : Cond → Str
  | .fieldc k b fv => fieldcRenderSQLP k b fv
  | .null b fd => renderNull b fd
  | .custom b x => x.textSQL x.fd b.negate
  | .group b cs br => if cs.length = 0 then [] else wrapGroup b cs.length br (Cond.renderSQLPL cs true)
def Cond.renderSQLPL : List Cond → Bool → Str
  | [], _ => []
  | c :: cs, isFirst => joinToken c isFirst ++ c.renderSQLP ++ Cond.renderSQLPL cs false
end

/-- `Values()` returns (does not panic). -/
def Cond.Evaluates (c : Cond) : Prop := ∃ vs, c.values = .ok vs

mutual
theorem Cond.values_pure (c : Cond) (vs : List Val) (h : c.values = .ok vs) : c.valuesP = vs := by
  cases c with
  | fieldc k b fv => simp only [Cond.values] at h; simp [Cond.valuesP, h]
  | null b fd => simp [Cond.values] at h; simp [Cond.valuesP, h]
  | custom b x => simp [Cond.values] at h; simp [Cond.valuesP, h]
  | group b cs br =>
    simp only [Cond.values] at h; simp only [Cond.valuesP]
    exact Cond.valuesL_pure cs vs h
theorem Cond.valuesL_pure (cs : List Cond) (vs : List Val) (h : Cond.valuesL cs = .ok vs) : Cond.valuesPL cs = vs := by
  cases cs with
  | nil => simp [Cond.valuesL] at h; simp [Cond.valuesPL, h]
  | cons c cs =>
    simp only [Cond.valuesL, Res.bind_def, Res.pure_def, Res.bind_eq_ok] at h
    obtain ⟨v1, h1, v2, h2, h3⟩ := h
    simp only [Res.ok.injEq] at h3
    simp only [Cond.valuesPL, Cond.values_pure c v1 h1, Cond.valuesL_pure cs v2 h2, h3]
end

theorem fieldc_render_ok {k : Kind} {b : CondBase} {fv : FieldValue} {vs : List Val} (n : Nat)
    (h : fieldcValues k fv = .ok vs) : fieldcRender k b fv n = .ok (fieldcRenderP k b fv n) := by
  cases k <;> simp_all [fieldcRender, fieldcRenderP, fieldcValues]

theorem fieldc_renderSQL_ok {k : Kind} {b : CondBase} {fv : FieldValue} {vs : List Val}
    (h : fieldcValues k fv = .ok vs) : fieldcRenderSQL k b fv = .ok (fieldcRenderSQLP k b fv) := by
  cases k <;> simp_all [fieldcRenderSQL, fieldcRenderSQLP, fieldcValues]

mutual
theorem Cond.render_pure (c : Cond) (vs : List Val) (h : c.values = .ok vs) (n : Nat) :
    c.render n = .ok (c.renderP n) := by
  cases c with
  | fieldc k b fv => exact fieldc_render_ok n h
  | null b fd => simp [Cond.render, Cond.renderP]
  | custom b x => simp [Cond.render, Cond.renderP]
  | group b cs br =>
    simp only [Cond.values] at h
    simp only [Cond.render, Cond.renderP, Cond.renderL_pure cs vs h true n, Res.bind_ok]
    split <;> rfl
theorem Cond.renderL_pure (cs : List Cond) (vs : List Val) (h : Cond.valuesL cs = .ok vs) (f : Bool) (n : Nat) :
    Cond.renderL cs f n = .ok (Cond.renderPL cs f n) := by
  cases cs with
  | nil => simp [Cond.renderL, Cond.renderPL]
  | cons c cs =>
    simp only [Cond.valuesL, Res.bind_def, Res.pure_def, Res.bind_eq_ok] at h
    obtain ⟨v1, h1, v2, h2, _⟩ := h
    have hp := Cond.values_pure c v1 h1
    simp [Cond.renderL, Cond.renderPL, Cond.render_pure c v1 h1 n, h1, hp, Cond.renderL_pure cs v2 h2 false]
end

mutual
theorem Cond.renderSQL_pure (c : Cond) (vs : List Val) (h : c.values = .ok vs) :
    c.renderSQL = .ok c.renderSQLP := by
  cases c with
  | fieldc k b fv => exact fieldc_renderSQL_ok h
  | null b fd => simp [Cond.renderSQL, Cond.renderSQLP]
  | custom b x => simp [Cond.renderSQL, Cond.renderSQLP]
  | group b cs br =>
    simp only [Cond.values] at h
    simp only [Cond.renderSQL, Cond.renderSQLP, Cond.renderSQLL_pure cs vs h true, Res.bind_ok]
    split <;> rfl
theorem Cond.renderSQLL_pure (cs : List Cond) (vs : List Val) (h : Cond.valuesL cs = .ok vs) (f : Bool) :
    Cond.renderSQLL cs f = .ok (Cond.renderSQLPL cs f) := by
  cases cs with
  | nil => simp [Cond.renderSQLL, Cond.renderSQLPL]
  | cons c cs =>
    simp only [Cond.valuesL, Res.bind_def, Res.pure_def, Res.bind_eq_ok] at h
    obtain ⟨v1, h1, v2, h2, _⟩ := h
    simp [Cond.renderSQLL, Cond.renderSQLPL, Cond.renderSQL_pure c v1 h1, Cond.renderSQLL_pure cs v2 h2 false]
end

theorem Cond.valuesL_append (xs ys : List Cond) :
    Cond.valuesL (xs ++ ys) = (Cond.valuesL xs).bind fun a => (Cond.valuesL ys).bind fun b => .ok (a ++ b) := by
  induction xs with
  | nil => cases h : Cond.valuesL ys <;> simp [Cond.valuesL, h]
  | cons x xs ih =>
    simp only [List.cons_append, Cond.valuesL, ih]
    cases x.values <;> simp
    cases Cond.valuesL xs <;> simp
    cases Cond.valuesL ys <;> simp

theorem Cond.valuesPL_append (xs ys : List Cond) :
    Cond.valuesPL (xs ++ ys) = Cond.valuesPL xs ++ Cond.valuesPL ys := by
  induction xs with
  | nil => simp [Cond.valuesPL]
  | cons x xs ih => simp [Cond.valuesPL, ih]

theorem joinWith_append_sep (sep : Str) (xs ys : List Str) (hx : xs ≠ []) (hy : ys ≠ []) :
    joinWith sep (xs ++ ys) = joinWith sep xs ++ sep ++ joinWith sep ys := by
  induction xs with
  | nil => exact absurd rfl hx
  | cons x xs ih =>
    cases xs with
    | nil =>
      cases ys with
      | nil => exact absurd rfl hy
      | cons y ys => simp [joinWith]
    | cons x' xs =>
      have h := ih (by simp)
      simp only [List.cons_append] at h ⊢
      simp only [joinWith, h, List.append_assoc]

end Query
