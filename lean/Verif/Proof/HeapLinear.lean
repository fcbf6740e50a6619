import Verif.Proof.HeapKind
import Verif.Proof.HeapHistory
/-!
# A history in which no value is extended twice extends no list twice
-/
namespace Query

/-- Which values have been extended, and the lists they hold. -/
structure LInv (ts : List (Option Nat)) (gone : List Nat) (ext : List Nat) : Prop where
  small : ∀ i t, tokAt ts i = some t → t < ts.length
  one : ∀ i k t, tokAt ts i = some t → tokAt ts k = some t → i ∉ gone → k ∉ gone → i = k
  dead : ∀ t ∈ ext, ∀ i, tokAt ts i = some t → i ∈ gone
  low : ∀ t ∈ ext, t < ts.length

theorem tokAt_some {ts : List (Option Nat)} {i t : Nat} (h : tokAt ts i = some t) : i < ts.length := by
  rcases Nat.lt_or_ge i ts.length with h' | h'
  · exact h'
  · rw [tokAt_ge h'] at h; cases h

theorem tokAt_push {ts : List (Option Nat)} {x : Option Nat} {i t : Nat} (h : tokAt (ts ++ [x]) i = some t) :
    (i < ts.length ∧ tokAt ts i = some t) ∨ (i = ts.length ∧ x = some t) := by
  rcases Nat.lt_trichotomy i ts.length with h' | h' | h'
  · rw [tokAt_lt h'] at h; exact .inl ⟨h', h⟩
  · subst h'; rw [tokAt_eq] at h; exact .inr ⟨rfl, h⟩
  · rw [tokAt_ge (by simp; omega)] at h; cases h

/-- The operand an action works on. -/
def Act.reuses : Act → Option Nat
  | .copy r | .app r => some r
  | _ => Option.none

theorem linear_lists : ∀ (cs : List (Act × Option Nat)) (ts : List (Option Nat)) (gone ext : List Nat), LInv ts gone ext →
    (∀ c ∈ cs, ∀ r, c.1.reuses = some r → c.2 = some r) → (cs.filterMap (·.2)).Nodup → (∀ r ∈ cs.filterMap (·.2), r ∉ gone) →
    (extendedLists ts (cs.map (·.1))).Nodup ∧ ∀ t ∈ extendedLists ts (cs.map (·.1)), t ∉ ext
  | [], _, _, _, _, _, _, _ => ⟨List.nodup_nil, fun _ h => by cases h⟩
  | (a, o) :: cs, ts, gone, ext, inv, hr, hn, hg => by
    have hn' : (cs.filterMap (·.2)).Nodup ∧ ∀ r, o = some r → r ∉ cs.filterMap (·.2) := by
      cases o with
      | none => exact ⟨by simpa using hn, fun r h => by cases h⟩
      | some y =>
        rw [show ((a, some y) :: cs).filterMap (·.2) = y :: cs.filterMap (·.2) from rfl, List.nodup_cons] at hn
        exact ⟨hn.2, fun r h => by cases h; exact hn.1⟩
    have ho : ∀ r, o = some r → r ∉ gone := fun r h => hg r (by subst h; simp)
    have hgo : ∀ r ∈ cs.filterMap (·.2), r ∉ o.toList ++ gone := by
      intro r h1 h2
      rcases List.mem_append.1 h2 with h3 | h3
      · exact hn'.2 r (by simpa using h3) h1
      · refine hg r ?_ h3
        cases o <;> simp [h1]
    have hre : ∀ r, a.reuses = some r → o = some r := fun r h => hr (a, o) (by simp) r h
    -- the invariant after this action
    have key : LInv (a.push ts) (o.toList ++ gone) ((a.extended ts).toList ++ ext) := by
      have lowe : ∀ t ∈ (a.extended ts).toList ++ ext, t < ts.length := by
        intro t ht
        rcases List.mem_append.1 ht with h | h
        · cases a <;> simp only [Act.extended, Option.mem_toList, Option.toList_none, List.not_mem_nil] at h
          exact inv.small _ t h
        · exact inv.low t h
      have deado : ∀ t ∈ (a.extended ts).toList ++ ext, ∀ i, i < ts.length → tokAt ts i = some t → i ∈ o.toList ++ gone := by
        intro t ht i _ hi
        rcases List.mem_append.1 ht with h | h
        · cases a <;> simp only [Act.extended, Option.mem_toList, Option.toList_none, List.not_mem_nil] at h
          rename_i r
          have e := hre r rfl
          by_cases hig : i ∈ gone
          · exact List.mem_append_right _ hig
          · have := inv.one i r t hi h hig (ho r e)
            subst this; rw [e]; simp
        · exact List.mem_append_right _ (inv.dead t h i hi)
      have fr : ∀ {x : Option Nat}, x = none ∨ x = some ts.length → LInv (ts ++ [x]) (o.toList ++ gone) ((a.extended ts).toList ++ ext) := by
        intro x hx
        refine ⟨fun i t h => ?_, fun i k t j1 j2 g1 g2 => ?_, fun t ht i hi => ?_, fun t ht => ?_⟩
        · rcases tokAt_push h with ⟨_, h⟩ | ⟨_, h⟩
          · have := inv.small i t h; simp; omega
          · rcases hx with rfl | rfl
            · cases h
            · cases h; simp
        · rcases tokAt_push j1 with ⟨_, h1⟩ | ⟨e1, h1⟩ <;> rcases tokAt_push j2 with ⟨_, h2⟩ | ⟨e2, h2⟩ <;> clear j1 j2
          · exact inv.one i k t h1 h2 (fun h => g1 (List.mem_append_right _ h)) (fun h => g2 (List.mem_append_right _ h))
          · rcases hx with rfl | rfl
            · cases h2
            · cases h2; have := inv.small i _ h1; omega
          · rcases hx with rfl | rfl
            · cases h1
            · cases h1; have := inv.small k _ h2; omega
          · omega
        · rcases tokAt_push hi with ⟨h0, h⟩ | ⟨_, h⟩
          · exact deado t ht i h0 h
          · rcases hx with rfl | rfl
            · cases h
            · cases h; have := lowe _ ht; omega
        · have := lowe t ht; simp; omega
      cases a with
      | none => exact fr (.inl rfl)
      | full => exact fr (.inl rfl)
      | fresh => exact fr (.inr rfl)
      | app r => exact fr (.inr rfl)
      | copy r =>
        have e := hre r rfl
        have hrg := ho r e
        simp only [Act.push, Act.extended, Option.toList_none, List.nil_append]
        have hx : (ts[r]?).join = tokAt ts r := rfl
        rw [hx]
        refine ⟨fun i t h => ?_, fun i k t j1 j2 g1 g2 => ?_, fun t ht i hi => ?_, fun t ht => ?_⟩
        · rcases tokAt_push h with ⟨_, h⟩ | ⟨_, h⟩
          · have := inv.small i t h; simp; omega
          · have := inv.small r t h; simp; omega
        · have g1' : i ∉ gone := fun h => g1 (List.mem_append_right _ h)
          have g2' : k ∉ gone := fun h => g2 (List.mem_append_right _ h)
          rcases tokAt_push j1 with ⟨_, h1⟩ | ⟨e1, h1⟩ <;> rcases tokAt_push j2 with ⟨_, h2⟩ | ⟨e2, h2⟩ <;> clear j1 j2
          · exact inv.one i k t h1 h2 g1' g2'
          · have := inv.one i r t h1 h2 g1' hrg
            exact absurd (by rw [e, this]; simp) g1
          · have := inv.one k r t h2 h1 g2' hrg
            exact absurd (by rw [e, this]; simp) g2
          · omega
        · rcases tokAt_push hi with ⟨_, h⟩ | ⟨_, h⟩
          · exact List.mem_append_right _ (inv.dead t ht i h)
          · exact absurd (inv.dead t ht r h) hrg
        · have := inv.low t ht; simp; omega
    obtain ⟨i1, i2⟩ := linear_lists cs _ _ _ key (fun c hc => hr c (List.mem_cons_of_mem _ hc)) hn'.1 hgo
    simp only [List.map_cons, extendedLists]
    refine ⟨List.nodup_append.2 ⟨?_, i1, fun x hx y hy e => ?_⟩, fun t ht he => ?_⟩
    · cases a.extended ts <;> simp
    · subst e; exact i2 x hy (List.mem_append_left _ hx)
    · rcases List.mem_append.1 ht with h | h
      · cases a <;> simp only [Act.extended, Option.mem_toList, Option.toList_none, List.not_mem_nil] at h
        rename_i r
        exact ho r (hre r rfl) (inv.dead t he r h)
      · exact i2 t h (List.mem_append_right _ he)

theorem linear_kind (cs : List Call) (f : Call → Act) (hf : ∀ c r, (f c).reuses = some r → c.extends = some r) (h : Linear cs) :
    (extendedLists [] (cs.map f)).Nodup := by
  have inv : LInv [] [] [] :=
    ⟨(fun i t h => by simp [tokAt] at h), (fun i k t h => by simp [tokAt] at h), (fun _ h => by cases h), (fun _ h => by cases h)⟩
  have k := linear_lists (cs.map fun c => (f c, c.extends)) [] [] [] inv (by
      intro c hc r hr
      obtain ⟨d, _, rfl⟩ := List.mem_map.1 hc
      exact hf d r hr) (by
      rw [List.filterMap_map]; exact h) (fun _ _ h => by cases h)
  have e : (cs.map fun c => (f c, c.extends)).map (·.1) = cs.map f := by simp [Function.comp_def]
  rw [e] at k; exact k.1

theorem Linear.listsOnce {cs : List Call} (h : Linear cs) : ListsOnce cs := by
  refine ⟨linear_kind cs _ ?_ h, linear_kind cs _ ?_ h, linear_kind cs _ ?_ h, linear_kind cs _ ?_ h⟩ <;>
    intro c r <;> cases c <;> simp [Call.condsAct, Call.joinsAct, Call.sortsAct, Call.valsAct, Act.reuses, Call.extends]

end Query
