import Verif.Props.Select
import Verif.Props.Errors
/-!
# C20: chains of Offset and Limit
-/
namespace Query

/-- A call on a limiter. -/
inductive LimCall where
  | offset (n : Nat)
  | limit (n : Nat)

/-- The call on a limiter. -/
def LimCall.run (l : Limiter) : LimCall → Limiter
  | .offset n => l.setOffset n
  | .limit n => l.setLimit n

/-- The same call on a select of many rows. -/
def LimCall.runMany (q : SelectMany) : LimCall → SelectMany
  | .offset n => q.setOffset n
  | .limit n => q.setLimit n

/-- The offsets called for. -/
def LimCall.offsets (cs : List LimCall) : List Nat := cs.filterMap fun | .offset n => some n | _ => none

/-- The limits called for. -/
def LimCall.limits (cs : List LimCall) : List Nat := cs.filterMap fun | .limit n => some n | _ => none

/-- The last of the numbers, 0 if there is none. -/
def lastOr0 (ns : List Nat) : Nat := ns.getLast?.getD 0

theorem limiter_run (cs : List LimCall) (l : Limiter) :
    (cs.foldl LimCall.run l).offset = (LimCall.offsets cs).getLast?.getD l.offset ∧
    (cs.foldl LimCall.run l).limit = (LimCall.limits cs).getLast?.getD l.limit := by
  induction cs generalizing l with
  | nil => exact ⟨rfl, rfl⟩
  | cons c cs ih =>
    obtain ⟨h1, h2⟩ := ih (c.run l)
    simp only [List.foldl_cons]
    rw [h1, h2]
    cases c <;> simp [LimCall.run, Limiter.setOffset, Limiter.setLimit, LimCall.offsets, LimCall.limits, List.filterMap_cons,
      List.getLast?_cons]

theorem many_run (cs : List LimCall) (q : SelectMany) :
    (cs.foldl LimCall.runMany q).offset = (LimCall.offsets cs).getLast?.getD q.offset ∧
    (cs.foldl LimCall.runMany q).limit = ((LimCall.limits cs).getLast?.map Int.ofNat).getD q.limit ∧
    (cs.foldl LimCall.runMany q).base = q.base ∧ (cs.foldl LimCall.runMany q).order = q.order := by
  induction cs generalizing q with
  | nil => exact ⟨rfl, rfl, rfl, rfl⟩
  | cons c cs ih =>
    obtain ⟨h1, h2, h3, h4⟩ := ih (c.runMany q)
    simp only [List.foldl_cons]
    rw [h1, h2, h3, h4]
    cases c
    · simp [LimCall.runMany, SelectMany.setOffset, LimCall.offsets, LimCall.limits, List.filterMap_cons, List.getLast?_cons]
    · simp only [LimCall.runMany, SelectMany.setLimit, LimCall.offsets, LimCall.limits, List.filterMap_cons, List.getLast?_cons,
        Option.map_some, Option.getD_some, and_self, true_and, and_true]
      cases (List.filterMap (fun x => match x with | .limit n => some n | _ => none) cs).getLast? <;> rfl

/-- **C20**, for chains of calls: after any calls of Offset and Limit on a new limiter, it prints and returns the last offset and the
last limit, and a select of many rows with the same calls ends in the same text and the same parameters. -/
theorem C20_calls (cs : List LimCall) (k : Nat) (b : BaseSelect) (sql : Str) (params : List Val) (hb : b.build = .ok (sql, params)) :
    let l := cs.foldl LimCall.run ⟨0, 0⟩
    let items := limitItems (lastOr0 (LimCall.offsets cs)) (lastOr0 (LimCall.limits cs))
    l.render k = joinWith c!" " (limitTexts k items) ∧
    l.renderSQL = joinWith c!" " (items.map fun p => p.1 ++ c!" ?") ∧
    l.values = items.map (fun p => .uint p.2) ∧
    (cs.foldl LimCall.runMany (selectManyFromBase b)).build =
      .ok (sql ++ (if l.render params.length = [] then [] else ' ' :: l.render params.length), params ++ l.values) := by
  intro l items
  obtain ⟨h1, h2⟩ := limiter_run cs ⟨0, 0⟩
  have hl : ∀ k, l.render k = joinWith c!" " (limitTexts k items) ∧ l.renderSQL = joinWith c!" " (items.map fun p => p.1 ++ c!" ?") ∧
      l.values = items.map fun p => .uint p.2 := by
    intro k
    have := C20_limiter l k
    rw [h1, h2] at this
    exact this
  refine ⟨(hl k).1, (hl k).2.1, (hl k).2.2, ?_⟩
  obtain ⟨m1, m2, m3, m4⟩ := many_run cs (selectManyFromBase b)
  have hbuild : ∃ s p, (cs.foldl LimCall.runMany (selectManyFromBase b)).build = .ok (s, p) := by
    unfold SelectMany.build
    rw [m3]
    simp only [selectManyFromBase, hb, Res.bind_ok]
    exact ⟨_, _, rfl⟩
  obtain ⟨s, p, hsp⟩ := hbuild
  obtain ⟨sql0, params0, e1, e2, e3⟩ := C20_many_tail _ s p hsp
  rw [m3] at e1
  have e1 : b.build = .ok (sql0, params0) := e1
  rw [hb] at e1
  cases e1
  rw [m4] at e2
  have hitems : limitItems (cs.foldl LimCall.runMany (selectManyFromBase b)).offset (cs.foldl LimCall.runMany (selectManyFromBase b)).limit =
      items := by
    rw [m1, m2]
    show limitItems _ _ = limitItems (lastOr0 (LimCall.offsets cs)) (lastOr0 (LimCall.limits cs))
    unfold lastOr0
    generalize (LimCall.limits cs).getLast? = x
    cases x <;> simp [noLimit, limitItems, selectManyFromBase]
  rw [hitems] at e2 e3
  rw [hsp, e2, e3, (hl params.length).1, (hl 0).2.2]
  have : selectManyFromBase b = ⟨b, 0, noLimit, [], false⟩ := rfl
  rw [this]
  simp only [if_true, List.append_nil, Res.ok.injEq, Prod.mk.injEq, and_true, List.append_cancel_left_eq]
  cases hi : limitTexts params.length items with
  | nil => rfl
  | cons x xs =>
    have hx : joinWith c!" " (x :: xs) ≠ [] := by
      cases xs with
      | cons y ys => exact joinWith_pair_ne x y ys
      | nil =>
        cases hj : items with
        | nil => rw [hj] at hi; cases hi
        | cons a l =>
          obtain ⟨kw, _⟩ := a
          rw [hj] at hi
          simp only [limitTexts, List.cons.injEq] at hi
          rw [← hi.1]
          simp [joinWith]
    rw [if_neg hx]
    clear hx hi
    induction xs generalizing x with
    | nil => simp [spaced, joinWith]
    | cons y ys ih =>
      have := ih y
      simp only [spaced, List.map_cons, List.flatten_cons, joinWith] at this ⊢
      rw [this]
      simp

example : ([.limit 3, .offset 4, .limit 10, .offset 5].foldl LimCall.run ⟨0, 0⟩).render 3 = c!"OFFSET $4 LIMIT $5" := by decide

end Query
