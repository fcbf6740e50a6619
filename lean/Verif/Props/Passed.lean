import Verif.Heap.Values
import Verif.Proof.PassedSpell
import Verif.Props.Immutable
/-!
# C73: the lists a program passes stay its own

Programs that make lists, pass them as `f(list...)`, and write into them before and after.
-/
namespace Query

theorem OnlyLists.agr {ls : List Lst} {m m' : Mem} (h : OnlyLists ls m m') : AgrM (listsOf ls) m m' :=
  ⟨fun a ha _ => h.conds a ha, h.joins, fun a ha _ => h.defs a ha, fun a ha _ => h.sorts a ha, fun a ha _ => h.vals a ha⟩

/-- **C73**, no call changes a list: whatever the program did before, a step that is not an assignment to an element leaves the
arrays of all lists as they are, however the values made are shared. -/
theorem C73_kept_partial (pol : Policy) (steps : List PStep) (s s' : Prog) (p : PStep) (h : runProg pol Prog.empty steps = some s)
    (hs : p.run pol s = some s') (hp : p.isPut = false) : ∀ l ∈ s.ls, l.Same s.mem s'.mem := by
  obtain ⟨L, inv⟩ := PInv.runProg pol steps PInv.empty h
  exact inv.keeps pol p hs hp

/-- **C73**, the lists do not matter to what was built: whatever the program did before, memories that differ only in what the lists
hold give every reading call on every value the same result.  Missing from the property: slices given as values
(`C73_value_slice_false`). -/
theorem C73_apart_partial (pol : Policy) (steps : List PStep) (s : Prog) (h : runProg pol Prog.empty steps = some s) (m' : Mem)
    (hm : OnlyLists s.ls s.mem m') (i : Nat) (x : HV) (hx : s.hs[i]? = some x) (gr gr' : Grow) (d : Nat) (par par' : Store Val)
    (l : Look) : contentNow (x.look gr' d ⟨m', par'⟩ l) = contentNow (x.look gr d ⟨s.mem, par⟩ l) := by
  obtain ⟨L, inv⟩ := PInv.runProg pol steps PInv.empty h
  exact look_agr gr gr' d hm.agr x inv.stb inv.away.conds.2 (inv.bnd i x hx) (inv.off i x hx) l

/-- **C73**, an assignment to an element of a list changes no value made before. -/
theorem C73_put_partial (pol : Policy) (steps : List PStep) (s s' : Prog) (p : PStep) (h : runProg pol Prog.empty steps = some s)
    (hs : p.run pol s = some s') (hp : p.isPut = true) (i : Nat) (x : HV) (hx : s.hs[i]? = some x) (gr gr' : Grow) (d : Nat)
    (par par' : Store Val) (l : Look) :
    s'.hs = s.hs ∧ contentNow (x.look gr' d ⟨s'.mem, par'⟩ l) = contentNow (x.look gr d ⟨s.mem, par⟩ l) := by
  have key : s'.hs = s.hs ∧ OnlyLists s.ls s.mem s'.mem := by
    have set : ∀ {α : Type} (st : Store α) (sl : Sl) (k : Nat) (y : α) (a : Nat), sl.arr ≠ a → (st.write sl k y)[a]? = st[a]? :=
      fun st sl k y a ha => by simp only [Store.write, List.getElem?_set_ne ha]
    cases p <;> simp only [PStep.isPut] at hp <;> first | cases hp | skip
    · simp only [PStep.run] at hs
      split at hs
      · rename_i sl c el ec
        split at hs
        · cases hs
          exact ⟨rfl, fun a ha => set _ _ _ _ _ fun e => ha ⟨sl, List.mem_of_getElem? el, e⟩, fun _ _ => rfl, fun _ _ => rfl,
            fun _ _ => rfl, rfl⟩
        · cases hs
      · cases hs
    · simp only [PStep.run] at hs
      split at hs
      · rename_i sl el
        split at hs
        · cases hs
          exact ⟨rfl, fun _ _ => rfl, fun a ha => set _ _ _ _ _ fun e => ha ⟨sl, List.mem_of_getElem? el, e⟩, fun _ _ => rfl,
            fun _ _ => rfl, rfl⟩
        · cases hs
      · cases hs
    · simp only [PStep.run] at hs
      split at hs
      · rename_i sl el
        split at hs
        · cases hs
          exact ⟨rfl, fun _ _ => rfl, fun _ _ => rfl, fun a ha => set _ _ _ _ _ fun e => ha ⟨sl, List.mem_of_getElem? el, e⟩,
            fun _ _ => rfl, rfl⟩
        · cases hs
      · cases hs
    · simp only [PStep.run] at hs
      split at hs
      · rename_i sl el
        split at hs
        · cases hs
          exact ⟨rfl, fun _ _ => rfl, fun _ _ => rfl, fun _ _ => rfl,
            fun a ha => set _ _ _ _ _ fun e => ha ⟨sl, List.mem_of_getElem? el, e⟩, rfl⟩
        · cases hs
      · cases hs
  exact ⟨key.1, C73_apart_partial pol steps s h _ key.2 i x hx gr gr' d par par' l⟩

/-- **C73**, the meaning of passing a list: if no list of a value is extended twice and no join completed twice, every value of the
program reads as in the program with the elements the lists held at the time of each call written out, and at the end every list
holds what the program itself has put in. -/
theorem C73_spelled_partial (pol : Policy) (steps : List PStep) (cs : List Call) (ps : List PV) (ls : List PLst)
    (h : spellOut [] [] steps = some (cs, ps, ls)) (hna : ∀ c ∈ cs, c.noApply = true) (hl : ListsOnce cs) (hj : JoinsOnce cs) :
    ∃ s, runProg pol Prog.empty steps = some s ∧
      (∀ (gr : Grow) (r : Nat) (p : PV), ps[r]? = some p → ∀ l, s.ReadsAs gr r l (p.look l)) ∧
      s.ls.length = ls.length ∧ ∀ (u : Nat) (l : Lst) (pl : PLst), s.ls[u]? = some l → ls[u]? = some pl → l.Holds s pl := by
  obtain ⟨s, used, hr, si, pi⟩ := run_spelled pol steps Prog.empty [] [] [] cs ps ls h sinv_empty PInv.empty (Fresh4.empty hl) hna hj
    (fun _ _ h => by cases h)
  exact ⟨s, hr, fun gr r p hp l => prog_reads gr si hp l, pi.len, pi.holds⟩

/-! ## Slices given as values -/

/-- **C73**, slices given as values, every type of slice: the parameters and the text are those of the condition given, at the time of
reading, what the slice then holds. -/
theorem C73_value_slice_now_partial (m : VMem) (c : RCmp) :
    c.values m = (FieldValue.mk c.fv.fd (c.fv.value.now m)).values ∧
      ∀ n, c.render m n = fieldcRender c.kind c.base ⟨c.fv.fd, c.fv.value.now m⟩ n := by
  have e : c.fv.values m = (FieldValue.mk c.fv.fd (c.fv.value.now m)).values := by
    cases hv : c.fv.value <;> simp only [RFieldValue.values, hv] <;> rfl
  refine ⟨e, fun n => ?_⟩
  cases hk : c.kind <;> simp only [RCmp.render, hk, fieldcRender, e]

/-- **C73**, slices given as values: an assignment to an element shows in every condition given a slice of the array, at its place,
and in no other. -/
theorem C73_value_slice_put_partial (m : VMem) (v : RVal) (sl : Sl) (i : Nat) (x : Val)
    (ha : sl.arr < m.elems.length) :
    v.now { m with elems := m.elems.write sl i x } = match v with
      | .valuers s => .valuers (if s.arr = sl.arr then ((m.elems.cells sl.arr).set i x).take s.len else m.elems.read s)
      | .providers s => .providers (if s.arr = sl.arr then ((m.elems.cells sl.arr).set i x).take s.len else m.elems.read s)
      | .reflSlice s => .reflSlice (if s.arr = sl.arr then ((m.elems.cells sl.arr).set i x).take s.len else m.elems.read s)
      | .strs s => .strs (m.strs.read s)
      | .plain v => v := by
  have key : ∀ s : Sl, Store.read (m.elems.write sl i x) s =
      if s.arr = sl.arr then ((m.elems.cells sl.arr).set i x).take s.len else m.elems.read s := by
    intro s
    by_cases h : s.arr = sl.arr
    · simp [Store.read, Store.cells, Store.write, h, ha]
    · simp [Store.read, Store.cells, Store.write, h, List.getElem?_set_ne (Ne.symm h)]
  cases v <;> simp only [RVal.now, key]

/-- **C73**, slices given as values: the text of a condition does not change when an element of the list is assigned. -/
theorem C73_value_slice_text_partial (m : VMem) (c : RCmp) (sl : Sl) (h : c.fv.value = .strs sl) (i : Nat) (x : Str) (n : Nat) :
    c.render { m with strs := m.strs.write sl i x } n = c.render m n := by
  have e : (Store.read (m.strs.write sl i x) sl).length = (m.strs.read sl).length := by
    by_cases hi : sl.arr < m.strs.length
    · simp [Store.read, Store.cells, Store.write, hi]
    · simp [Store.read, Store.cells, Store.write, List.set_eq_of_length_le (Nat.le_of_not_lt hi), List.getElem?_eq_none (Nat.le_of_not_lt hi)]
  have v : ∀ m' : VMem, c.fv.values m' = .ok ((m'.strs.read sl).map Val.str) := fun m' => by simp only [RFieldValue.values, h]
  cases hk : c.kind <;> simp only [RCmp.render, hk, v, Res.bind_ok, List.length_map, e]

/-- **C73**, slices given as values: the parameters are the elements at the time of reading, not those at the time of the call. -/
theorem C73_value_slice_partial (fn : Str) (ss : List Str) (m : VMem) (c : RCmp)
    (h : RCmp.inC fn (.strs (m.strs.make ss).2) = .ok c) (i : Nat) (x : Str) :
    c.values { m with strs := (m.strs.make ss).1 } = .ok (ss.map Val.str) ∧
    c.values { m with strs := (m.strs.make ss).1.write (m.strs.make ss).2 i x } = .ok ((ss.set i x).map Val.str) := by
  obtain ⟨f, _, h⟩ := Res.bind_eq_ok.1 h
  cases h
  simp [RCmp.values, RFieldValue.values, Store.make, Store.alloc, Store.read, Store.cells, Store.write, List.take_of_length_le]

/-- **C73** does not hold for a slice given as a value: assigning to the list after `In("id", list)` changes the parameters of the
condition. -/
theorem C73_value_slice_false : ∃ (c : RCmp) (st : Store Str) (sl : Sl), Store.make [] [c!"a", c!"b"] = (st, sl) ∧
    RCmp.inC c!"id" (.strs sl) = .ok c ∧ c.values ⟨[], st⟩ = .ok [.str c!"a", .str c!"b"] ∧
    c.values ⟨[], st.write sl 0 c!"z"⟩ = .ok [.str c!"z", .str c!"b"] := ⟨_, _, _, rfl, rfl, rfl, rfl⟩

/-! ## An example -/

/-- Three conditions; a list of two of them; `Where(list...)` on a select; then the third is assigned to the first element, and the
list is passed again to `Where` of another select and to `NewGroup`. -/
def wPassed : List PStep :=
  [.call (.leaf (.fieldc .eq (newBase lAND false) ⟨⟨c!"a", [], []⟩, .other 1⟩)),
   .call (.leaf (.fieldc .eq (newBase lAND false) ⟨⟨c!"b", [], []⟩, .other 2⟩)),
   .call (.leaf (.fieldc .eq (newBase lAND false) ⟨⟨c!"c", [], []⟩, .other 3⟩)),
   .listConds [0, 1],
   .call (.selectFrom (.str c!"t")),
   .where_ 3 0,
   .putCond 0 0 2,
   .where_ 3 0,
   .newGroup lOR 0,
   .putCond 0 1 0]

/-- The text of a value of a program. -/
def progText (steps : List PStep) (r : Nat) (l : Look) (d : Nat) : Option Str :=
  (runProg goPolicy Prog.empty steps).bind fun s => s.hs[r]?.bind fun h => outText (h.look goGrow d ⟨s.mem, []⟩ l)

/-- Not the hypotheses of `C73_spelled_partial` (number 3 is extended twice), but those of the other three: the select made first
has the conditions the list held then. -/
example : progText wPassed 4 .build 9 = some c!"SELECT * FROM t WHERE a=$1 AND b=$2" ∧
    progText wPassed 5 .build 9 = some c!"SELECT * FROM t WHERE c=$1 AND b=$2" ∧
    ((runProg goPolicy Prog.empty wPassed).map fun s => s.ls) = some [.conds ⟨0, 2, 2⟩] := ⟨rfl, rfl, rfl⟩

/-- A program that meets the hypotheses of `C73_spelled_partial`. -/
def wSpelled : List PStep :=
  wPassed.take 6 ++ [.putCond 0 0 2, .call (.selectFrom (.str c!"u")), .where_ 5 0, .listDefs [⟨c!"x", [], []⟩, ⟨c!"y", [], []⟩], .fields 6 1,
    .putDef 1 0 ⟨c!"z", [], []⟩]

example : ∃ cs ps ls, spellOut [] [] wSpelled = some (cs, ps, ls) ∧ (∀ c ∈ cs, c.noApply = true) ∧ ListsOnce cs ∧ JoinsOnce cs := by
  refine ⟨_, _, _, rfl, ?_, ⟨?_, ?_, ?_, ?_⟩, ?_⟩
  · intro c hc
    simp only [List.mem_cons, List.not_mem_nil, or_false] at hc
    rcases hc with rfl | rfl | rfl | rfl | rfl | rfl | rfl | rfl <;> rfl
  all_goals first | decide | (unfold JoinsOnce; decide)

example : progText wSpelled 4 .build 9 = some c!"SELECT * FROM t WHERE a=$1 AND b=$2" ∧
    progText wSpelled 7 .build 9 = some c!"SELECT x, y FROM u WHERE c=$1 AND b=$2" := by decide +kernel

/-- Steps as in `C73_kept_partial` and `C73_put_partial`. -/
example : ∃ s s' s'', runProg goPolicy Prog.empty (wPassed.take 5) = some s ∧ (PStep.where_ 3 0).run goPolicy s = some s' ∧
    (PStep.putCond 0 0 2).run goPolicy s' = some s'' ∧ s.ls.length = 1 ∧ s''.mem.conds.read ⟨0, 2, 2⟩ ≠ s.mem.conds.read ⟨0, 2, 2⟩ := by
  refine ⟨_, _, _, rfl, rfl, rfl, rfl, fun h => ?_⟩
  have : (HCond.leaf (.fieldc .eq (newBase lAND false) ⟨⟨c!"c", [], []⟩, .other 3⟩)) =
    (HCond.leaf (.fieldc .eq (newBase lAND false) ⟨⟨c!"a", [], []⟩, .other 1⟩)) := (List.cons.inj h).1
  injection this with h
  injection h with _ _ h
  injection h with h
  injection h with h
  exact absurd h (by decide)

/-- Two conditions given slices of one array of valuers, one a part of the other. -/
example : let m : VMem := ⟨[[.valuer (.other 1) false, .valuer (.other 2) false]], []⟩
    let m' : VMem := { m with elems := m.elems.write ⟨0, 1, 2⟩ 0 (.valuer (.other 9) false) }
    (RVal.valuers ⟨0, 2, 2⟩).now m' = .valuers [.valuer (.other 9) false, .valuer (.other 2) false] ∧
    (RCmp.mk .inn (newBase lAND false) ⟨⟨c!"id", [], []⟩, .valuers ⟨0, 1, 2⟩⟩).values m' = .ok [.other 9] ∧
    (RCmp.mk .inn (newBase lAND false) ⟨⟨c!"id", [], []⟩, .valuers ⟨0, 1, 2⟩⟩).render m' 0 = .ok c!"id IN ($1)" := ⟨rfl, rfl, rfl⟩

/-- A condition as in the theorems on slices given as values. -/
example : ∃ c, RCmp.inC c!"u.id" (.strs (Store.make [] [c!"a", c!"b"]).2) = .ok c ∧ c.fv.value = .strs ⟨0, 2, 2⟩ ∧
    c.render ⟨[], [[c!"a", c!"b"]]⟩ 4 = .ok c!"u.id IN ($5,$6)" := ⟨_, rfl, rfl, rfl⟩

end Query
