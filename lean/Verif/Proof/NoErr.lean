import Verif.Proof.Combine
import Verif.Spec.Hyp
/-!
# Which calls never return an error; texts that are not empty
-/
namespace Query

/-- The call does not return an error (it returns a value or panics). -/
def Res.NoErr {α : Type} (r : Res α) : Prop := ∀ e, r ≠ .err e

theorem noErr_ok {α : Type} (a : α) : (Res.ok a).NoErr := fun e h => by simp at h
theorem noErr_panic {α : Type} (p : GoPanic) : (Res.panic p : Res α).NoErr := fun e h => by simp at h

theorem noErr_bind {α β : Type} {r : Res α} {f : α → Res β} (h : r.NoErr) (hf : ∀ a, (f a).NoErr) : (r.bind f).NoErr := by
  cases r with
  | ok a => exact hf a
  | err e => exact absurd rfl (h e)
  | panic p => exact noErr_panic p

theorem noErr_mapL {α β : Type} {f : α → Res β} (h : ∀ a, (f a).NoErr) (as : List α) : (Res.mapL f as).NoErr := by
  induction as with
  | nil => exact noErr_ok _
  | cons a as ih => exact noErr_bind (h a) fun b => noErr_bind ih fun bs => noErr_ok _

theorem noErr_values (fv : FieldValue) : fv.values.NoErr := by
  unfold FieldValue.values
  split
  any_goals exact noErr_ok _
  · apply noErr_mapL; intro e; unfold valuerElem; split
    · exact noErr_ok _
    · exact noErr_panic _
  · apply noErr_mapL; intro e; unfold providerElem; split
    · exact noErr_ok _
    · exact noErr_panic _
  · apply noErr_mapL; intro e; unfold reflElem; split
    · exact noErr_ok _
    · exact noErr_panic _
    · exact noErr_panic _

theorem noErr_fieldcValues (k : Kind) (fv : FieldValue) : (fieldcValues k fv).NoErr := by
  have hl : (likeValues fv).NoErr := by
    unfold likeValues
    split
    · exact noErr_ok _
    · exact noErr_panic _
  cases k <;> simp only [fieldcValues] <;> first | exact hl | exact noErr_values fv

mutual
theorem noErr_condValues (c : Cond) : c.values.NoErr := by
  cases c with
  | fieldc k b fv => exact noErr_fieldcValues k fv
  | null b fd => exact noErr_ok _
  | custom b x => exact noErr_ok _
  | group b cs br => exact noErr_condValuesL cs
theorem noErr_condValuesL (cs : List Cond) : (Cond.valuesL cs).NoErr := by
  cases cs with
  | nil => exact noErr_ok _
  | cons c cs => exact noErr_bind (noErr_condValues c) fun _ => noErr_bind (noErr_condValuesL cs) fun _ => noErr_ok _
end

theorem noErr_fieldcRender (k : Kind) (b : CondBase) (fv : FieldValue) (n : Nat) : (fieldcRender k b fv n).NoErr := by
  cases k <;> simp only [fieldcRender] <;>
    first | exact noErr_ok _ | exact noErr_bind (noErr_values fv) fun _ => noErr_ok _

mutual
theorem noErr_render (c : Cond) (n : Nat) : (c.render n).NoErr := by
  cases c with
  | fieldc k b fv => exact noErr_fieldcRender k b fv n
  | null b fd => exact noErr_ok _
  | custom b x => exact noErr_ok _
  | group b cs br =>
    simp only [Cond.render]
    split
    · exact noErr_ok _
    · exact noErr_bind (noErr_renderL cs true n) fun _ => noErr_ok _
theorem noErr_renderL (cs : List Cond) (f : Bool) (n : Nat) : (Cond.renderL cs f n).NoErr := by
  cases cs with
  | nil => exact noErr_ok _
  | cons c cs =>
    simp only [Cond.renderL]
    exact noErr_bind (noErr_render c n) fun _ => noErr_bind (noErr_condValues c) fun _ =>
      noErr_bind (noErr_renderL cs false _) fun _ => noErr_ok _
end

theorem noErr_insertLoop (fvs : List FieldValue) (p : List Val) (cs ps : List Str) :
    (InsertB.loop fvs p cs ps).NoErr := by
  induction fvs generalizing p cs ps with
  | nil => exact noErr_ok _
  | cons fv fvs ih => exact noErr_bind (noErr_values fv) fun _ => ih _ _ _

theorem noErr_updateLoop (fvs : List FieldValue) (i : Nat) : (UpdateB.loop fvs i).NoErr := by
  induction fvs generalizing i with
  | nil => exact noErr_ok _
  | cons fv fvs ih =>
    refine noErr_bind ?_ fun _ => noErr_bind (ih _) fun _ => noErr_ok _
    unfold firstValue
    refine noErr_bind (noErr_values fv) fun vs => ?_
    cases vs with
    | nil => exact noErr_panic _
    | cons v vs => exact noErr_ok _

theorem wrapGroup_ne (b : CondBase) (n : Nat) (br : Bool) (sql : Str) (h : sql ≠ []) : wrapGroup b n br sql ≠ [] := by
  unfold wrapGroup
  simp only
  repeat' split
  all_goals simp_all

theorem fieldcRenderP_ne (k : Kind) (b : CondBase) (fv : FieldValue) (n : Nat) : fieldcRenderP k b fv n ≠ [] := by
  cases k <;> simp only [fieldcRenderP, renderCmp, renderLike, renderIn] <;> split <;> simp [joinWith]

theorem renderP_ne (c : Cond) (n : Nat) (h : c.Every NonEmptyNode) : c.renderP n ≠ [] := by
  cases c with
  | fieldc k b fv => exact fieldcRenderP_ne k b fv n
  | null b fd => simp only [Cond.renderP, renderNull]; split <;> simp [joinWith]
  | custom b x => simp only [Cond.Every, NonEmptyNode] at h; exact h n
  | group b cs br =>
    simp only [Cond.Every, NonEmptyNode] at h
    simp only [Cond.renderP]
    cases cs with
    | nil => exact absurd rfl h.1
    | cons c cs =>
      simp only [Cond.EveryL] at h
      rw [if_neg (by simp)]
      apply wrapGroup_ne
      have := renderP_ne c n h.2.1
      simp [Cond.renderPL, this]

end Query
