import Verif.Proof.LaterHeap
import Verif.Props.Immutable
/-!
# C84: values are looked at when a query is read

Between the call that is given a value and the call that reads the query nothing looks at the value.  So what reads is the value as it is
then, in every builder that has it, whatever was done with the builders in between.
-/
namespace Query
open Later

/-- **C84**, plain values: a history of calls with other values makes the same builders and conditions with these values in their
places, and fails only if the first fails. -/
theorem C84_values_partial (φ : Val → Val) (cs : List Call) :
    runPure [] (cs.map (Call.given φ)) = (runPure [] cs).map (List.map (PV.given φ)) := given_runPure φ cs []

/-- **C84**, shared memory: the same, whatever the builders share and whatever capacities `append` chooses: the same arrays, headers and
failures. -/
theorem C84_memory_partial (φ : Val → Val) (pol : Policy) (cs : List Call) :
    runHeap pol Mem.empty [] (cs.map (Call.given φ)) =
      (runHeap pol Mem.empty [] cs).map fun x => (x.1.given φ, x.2.map (HV.given φ)) := hgiven_runHeap φ pol cs Mem.empty []

/-- **C84**, reading: after any history, a reading call made when the values have changed gives exactly what it would give had the
history been given the changed values in the first place. -/
theorem C84_later_partial (φ : Val → Val) (pol : Policy) (gr : Grow) (cs : List Call) (r : Nat) (l : Look) (out : Res POut) :
    ReadsLater pol gr cs φ r l out ↔ ReadsAs pol gr (cs.map (Call.given φ)) r l out := by
  constructor
  · rintro ⟨m, hs, h, h1, h2, h3⟩
    refine ⟨m.given φ, hs.map (HV.given φ), h.given φ, ?_, ?_, h3⟩
    · rw [C84_memory_partial, h1]; rfl
    · rw [List.getElem?_map, h2]; rfl
  · rintro ⟨m, hs, h, h1, h2, h3⟩
    rw [C84_memory_partial] at h1
    obtain ⟨⟨m0, hs0⟩, e1, e2⟩ := Option.map_eq_some_iff.1 h1
    cases e2
    rw [List.getElem?_map] at h2
    obtain ⟨h0, e3, e4⟩ := Option.map_eq_some_iff.1 h2
    cases e4
    exact ⟨m0, hs0, h0, e1, e3, h3⟩

/-- **C84**, linear histories: the builder reads as the plain builder with the values of now. -/
theorem C84_linear_partial (φ : Val → Val) (pol : Policy) (gr : Grow) (cs : List Call) (hna : ∀ c ∈ cs, c.noApply = true)
    (hl : Linear cs) (ps : List PV) (h : runPure [] cs = some ps) (r : Nat) (p : PV) (hr : ps[r]? = some p) (l : Look) :
    ReadsLater pol gr cs φ r l ((p.given φ).look l) := by
  have ex : ∀ c : Call, (c.given φ).extends = c.extends := fun c => by cases c <;> rfl
  have na : ∀ c : Call, (c.given φ).noApply = c.noApply := fun c => by cases c <;> rfl
  have hl' : Linear (cs.map (Call.given φ)) := by
    unfold Linear at hl ⊢
    rw [List.filterMap_map]
    have : Call.extends ∘ Call.given φ = Call.extends := funext ex
    rw [this]; exact hl
  have hna' : ∀ c ∈ cs.map (Call.given φ), c.noApply = true := by
    intro c hc
    obtain ⟨c0, h0, rfl⟩ := List.mem_map.1 hc
    rw [na]; exact hna c0 h0
  have h' : runPure [] (cs.map (Call.given φ)) = some (ps.map (PV.given φ)) := by rw [C84_values_partial, h]; rfl
  have hlt : r < (cs.map (Call.given φ)).length := by
    have := (List.getElem?_eq_some_iff.1 hr).1
    have len := (runPure_prefix _ _ _ h).2
    simp at len
    rw [List.length_map]; omega
  have := C35_linear_partial pol gr (cs.map (Call.given φ)) [] (by rw [List.append_nil]; exact hna') (by rw [List.append_nil]; exact hl')
    (ps.map (PV.given φ)) (by rw [List.append_nil]; exact h') r hlt l
  obtain ⟨q, hq, hR, _⟩ := this
  rw [List.getElem?_map, hr] at hq
  cases hq
  exact (C84_later_partial φ pol gr cs r l _).2 hR

/-- **C84**, the calls that take a value keep it: constructors of conditions, `NewFieldValue`, `FieldDefinition.Value` and
`ValuesMap.FieldValues`. -/
theorem C84_kept_partial (φ : Val → Val) (fn : Str) (v : Val) :
    (∀ k, mkField k fn (φ v) = (mkField k fn v).bind fun c => .ok (c.given φ)) ∧
    newFieldValue fn (φ v) = (newFieldValue fn v).bind (fun fv => .ok (fv.given φ)) ∧
    (∀ f : FieldDef, f.value (φ v) = (f.value v).bind fun fv => .ok (fv.given φ)) ∧
    (v.callDatabaseValue = none → (φ v).callDatabaseValue = none →
      fieldNameValue fn (φ v) = (fieldNameValue fn v).bind fun fv => .ok (fv.given φ)) ∧
    ∀ es : List (Str × Val), mapFieldValues (es.map fun e => (e.1, φ e.2)) =
      (mapFieldValues es).bind fun fvs => .ok (fvs.map (FieldValue.given φ)) := by
  have e : ∀ fn v, newFieldValue fn (φ v) = (newFieldValue fn v).bind (fun fv => .ok (fv.given φ)) := fun fn v => by
    simp only [newFieldValue]
    cases field fn <;> rfl
  refine ⟨fun k => ?_, e fn v, fun f => ?_, fun h1 h2 => ?_, fun es => ?_⟩
  · simp only [mkField, e]
    cases newFieldValue fn v <;> rfl
  · simp only [FieldDef.value, e]
    cases newFieldValue f.fieldName v <;> rfl
  · simp only [fieldNameValue, h1, h2, e]
  · induction es with
    | nil => rfl
    | cons x es ih =>
      have hx : mapEntry (x.1, φ x.2) = (mapEntry x).bind fun fv => .ok (fv.given φ) := by
        simp only [mapEntry]
        cases validate x.1 with
        | ok _ => exact e x.1 x.2
        | err _ => rfl
        | panic _ => rfl
      simp only [mapFieldValues, List.map_cons, Res.mapL] at ih ⊢
      rw [hx]
      cases mapEntry x with
      | ok fv =>
        simp only [Res.bind_ok]
        rw [ih]
        cases Res.mapL mapEntry es <;> rfl
      | err _ => rfl
      | panic _ => rfl

/-- **C84** does not hold for `FieldName.Value`: it calls `DatabaseValue` of a value that has it at once, so a change after the call
does not show. -/
theorem C84_false : ∃ (φ : Val → Val) (fn : Str) (v : Val) (a b : FieldValue), fieldNameValue fn v = .ok a ∧
    fieldNameValue fn (φ v) = .ok b ∧ (a.given φ).values = .ok [.other 1] ∧ b.values = .ok [.other 2] :=
  ⟨fun v => match v with
    | .provider (.other 1) => .provider (.other 2)
    | v => v, c!"a", .provider (.other 1), _, _, rfl, rfl, rfl, rfl⟩

/-- **C84**, slices: a comparison given the `n`-th slice the program keeps reads as what the slice holds at the time of reading
(`Verif/Heap/Values.lean`). -/
theorem C84_slice_partial (kept : List RVal) (vm : VMem) (n : Nat) (v : RVal) (hn : kept[n]? = some v) (k : Kind) (b : CondBase)
    (fd : FieldDef) :
    (∀ i, ((Cond.fieldc k b ⟨fd, .other n⟩).given (Val.held kept vm)).render i = (RCmp.mk k b ⟨fd, v⟩).render vm i) ∧
    (k ≠ .like → k ≠ .ilike →
      ((Cond.fieldc k b ⟨fd, .other n⟩).given (Val.held kept vm)).values = (RCmp.mk k b ⟨fd, v⟩).values vm) := by
  have e : (Cond.fieldc k b ⟨fd, .other n⟩).given (Val.held kept vm) = .fieldc k b ⟨fd, v.now vm⟩ := by
    simp only [Cond.given, FieldValue.given, Val.held, hn]
  have f : (RFieldValue.mk fd v).values vm = (FieldValue.mk fd (v.now vm)).values := by cases v <;> rfl
  rw [e]
  refine ⟨fun i => ?_, fun h1 h2 => ?_⟩
  · cases k <;> simp only [Cond.render, fieldcRender, RCmp.render, f]
  · cases k <;> first | exact absurd rfl h1 | exact absurd rfl h2 | simp only [Cond.values, fieldcValues, RCmp.values, f]

/-! ## An example -/

/-- `In("a", list)`; a select with it and then another test; an update through the select. -/
def wLater : List Call := [.leaf (.fieldc .inn (newBase lAND false) ⟨⟨c!"a", [], []⟩, .other 0⟩),
  .leaf (.fieldc .eq (newBase lAND false) ⟨⟨c!"b", [], []⟩, .other 7⟩),
  .selectFrom (.str c!"t"), .where_ 2 [0], .where_ 3 [1], .updateFrom 4 [wVal c!"z"]]

/-- The list holds `x` at one time and `y` at another. -/
example : Linear wLater ∧ (∀ c ∈ wLater, c.noApply = true) ∧ ∃ ps p, runPure [] wLater = some ps ∧ ps[4]? = some p ∧
    (p.given (Val.held [.strs ⟨0, 1, 1⟩] ⟨[], [[c!"x"]]⟩)).look .build =
      .ok (.query c!"SELECT * FROM t WHERE a IN ($1) AND b=$2" [.str c!"x", .other 7]) ∧
    (p.given (Val.held [.strs ⟨0, 1, 1⟩] ⟨[], [[c!"y"]]⟩)).look .build =
      .ok (.query c!"SELECT * FROM t WHERE a IN ($1) AND b=$2" [.str c!"y", .other 7]) := by
  refine ⟨?_, ?_, _, _, rfl, rfl, ?_, ?_⟩
  · unfold Linear; decide
  · decide
  · rfl
  · rfl

end Query
