import Verif.Props.Later
import Verif.Props.Once
import Verif.Props.Runs
/-!
# C84 with Apply calls, and in any history
-/
namespace Query

theorem given_used (φ : Val → Val) (cs : List Call) : usedIn (cs.map (Call.given φ)) = usedIn cs := by
  have ops : (cs.map (Call.given φ)).flatMap Call.operands = cs.flatMap Call.operands := by
    rw [List.flatMap_map]
    have : (fun a => (Call.given φ a).operands) = Call.operands := funext fun c => by cases c <;> rfl
    rw [this]
  unfold usedIn
  rw [ops]
  refine List.filter_congr fun i _ => congrArg Bool.not ?_
  simp only [madeAsLeaf, List.getElem?_map]
  cases cs[i]? with
  | none => rfl
  | some c => cases c <;> rfl

/-- **C84**, every value used once, with `ApplyFieldSpec` and `ApplyFieldTable` among the calls: what was not used up reads as the plain value
with the values of now.  What is missing: `FieldName.Value` of a value with `DatabaseValue` (`C84_false`). -/
theorem C84_once_partial (φ : Val → Val) (pol : Policy) (gr : Grow) (cs : List Call) (once : UsedOnce cs) (ps : List PV)
    (h : runPure [] cs = some ps) (r : Nat) (p : PV) (hr : ps[r]? = some p) (hu : r ∉ usedIn cs) (l : Look) :
    ReadsLater pol gr cs φ r l ((p.given φ).look l) := by
  have h' : runPure [] (cs.map (Call.given φ)) = some (ps.map (PV.given φ)) := by rw [C84_values_partial, h]; rfl
  have e := given_used φ cs
  refine (C84_later_partial φ pol gr cs r l _).2 (once_reads pol gr _ _ (by unfold UsedOnce; rw [e]; exact once) h' r _ (by rw [e]; exact hu) ?_ l)
  rw [List.getElem?_map, hr]
  rfl

/-- **C84**, any history whatsoever: what was not spoilt, nor made from something spoilt, in the history with the values of now reads as the
plain value with these values. -/
theorem C84_untainted_partial (φ : Val → Val) (pol : Policy) (gr : Grow) (cs : List Call) (ps : List PV) (h : runPure [] cs = some ps)
    (hr' : (runHeap pol Mem.empty [] cs).isSome = true) (r : Nat) (p : PV) (hr : ps[r]? = some p)
    (ht : ¬ Taint pol (cs.map (Call.given φ)) r) (l : Look) : ReadsLater pol gr cs φ r l ((p.given φ).look l) := by
  have h' : runPure [] (cs.map (Call.given φ)) = some (ps.map (PV.given φ)) := by rw [C84_values_partial, h]; rfl
  obtain ⟨⟨m, hs⟩, e⟩ := Option.isSome_iff_exists.1 hr'
  have e' : runHeap pol Mem.empty [] (cs.map (Call.given φ)) = some (m.given φ, hs.map (HV.given φ)) := by rw [C84_memory_partial, e]; rfl
  refine (C84_later_partial φ pol gr cs r l _).2 (C35_untainted pol gr _ _ _ e' _ h' r _ ?_ ht l)
  rw [List.getElem?_map, hr]
  rfl

/-- A history with Apply calls, whose values become nil afterwards: the group has the tables of the calls and the four new values. -/
example : UsedOnce (wOnce.take 10) ∧ 9 ∉ usedIn (wOnce.take 10) ∧
    ((runPure [] (wOnce.take 10)).bind fun ps => ps[9]?).map (fun p => (match (p.given fun _ => .nil).look (.render 0) with
      | .ok (.text s) => s
      | _ => [], match (p.given fun _ => .nil).look .values with
      | .ok (.vals vs) => (vs.filter fun v => match v with | .nil => true | _ => false).length
      | _ => 0)) = some (c!"v.a=$1 AND v.b=$2 AND (v.c=$3 OR v.d=$4)", 4) := by
  refine ⟨by decide, by decide, ?_⟩
  decide +kernel

/-- One insert extended twice, whose values become nil afterwards: the first extension was not spoilt. -/
example : (runHeap goPolicy Mem.empty [] [.insertInto (.str c!"t"), .values 0 [wVal c!"a"], .values 0 [wVal c!"b"]]).isSome = true ∧
    ((runPure [] [.insertInto (.str c!"t"), .values 0 [wVal c!"a"], .values 0 [wVal c!"b"]]).bind fun ps => ps[1]?).isSome = true ∧
    ¬ Taint goPolicy ([.insertInto (.str c!"t"), .values 0 [wVal c!"a"], .values 0 [wVal c!"b"]].map (Call.given fun _ => .nil)) 1 := by
  refine ⟨rfl, rfl, ?_⟩
  have h0 := clean_snoc (pol := goPolicy) (cs := []) (c := .insertInto (.str c!"t")) rfl (clean_nil goPolicy) (fun x => by
    rintro ((⟨_, _, _, k', _⟩ | ⟨_, _, _, _, _, _, k', _⟩) | (⟨_, _, k', _⟩ | ⟨_, _, _, _, _, _, _, _, k', _⟩) | ⟨_, _, k', _⟩ | ⟨s, t, k', _⟩) <;>
      cases k')
  have h1 := clean_snoc (pol := goPolicy) (cs := [.insertInto (.str c!"t")]) (c := (Call.values 0 [wVal c!"a"]).given fun _ => .nil) rfl h0
    (values_clean fun s e => by cases e; decide)
  exact clean_snoc (pol := goPolicy) (cs := [.insertInto (.str c!"t"), (Call.values 0 [wVal c!"a"]).given fun _ => .nil])
    (c := (Call.values 0 [wVal c!"b"]).given fun _ => .nil) rfl h1 (values_clean fun s e => by cases e; decide) 1

end Query
