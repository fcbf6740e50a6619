import Verif.Proof.Memory
import Verif.Proof.MemoryFrame
import Verif.Proof.Room
import Verif.Props.NestedProgram
import Verif.Props.KindProgram
import Verif.Props.CountColumn
import Verif.Props.Immutable
/-!
# C79: programs in memory

Programs of calls as Go runs them, one call after another, with slices that share arrays: after anything that happened before,
each program gives the statement it describes, and what was made before reads as before.
-/
namespace Query
open Store

/-- The builder a program makes, and what its text and parameters say. -/
theorem progs_say (eng : Engine) (db : Db) (p : AnyProg) (ok : p.OK) (sd : p.Sound) :
    ∃ x sql params, p.Gives x ∧ x.look .build = .ok (.query sql params) ∧ p.Says eng db sql params := by
  cases p with
  | select p =>
    have h1 := C78_select_exact p ok
    have h2 := C78_rows_exact eng db p ok
    rw [if_pos (show wheresSound p.wheres = true from sd)] at h1 h2
    obtain ⟨q, sql, s, e1, e2, h⟩ := h1
    obtain ⟨q', sql', params, k1, k2, k⟩ := h2
    rw [e1] at k1; cases k1
    rw [e2] at k2; cases k2
    exact ⟨.many q, sql, _, .select e1, by simp only [PV.look, BaseSelect.look, e2, POut.ofQuery]; rfl, rfl, ⟨s, h⟩, k⟩
  | count p =>
    have h := C78_count_exact eng db p ok
    rw [if_pos (show wheresSound p.wheres = true from sd)] at h
    obtain ⟨q, c, sql, params, e1, e2, e3, h⟩ := h
    exact ⟨.count c, sql, params, .count e1 e2, by simp only [PV.look, e3, POut.ofQuery]; rfl, h⟩
  | insert p =>
    obtain ⟨q, sql, ns, e1, e2, h1, h2, h3⟩ := C67_insert eng db p ok
    exact ⟨.insert q, sql, _, .insert e1, by simp only [PV.look, e2, POut.ofQuery]; rfl, rfl, ⟨ns, h1, h2⟩, h3⟩
  | update p =>
    have h := C78_update_exact eng db p ok
    rw [if_pos (show wheresSound p.wheres = true from sd)] at h
    obtain ⟨q, sql, sets, e, e1, e2, h1, h2, h3, h4⟩ := h
    exact ⟨.update q, sql, _, .update e1, by simp only [PV.look, e2, POut.ofQuery]; rfl, rfl, ⟨sets, e, h1, h2, h3⟩, h4⟩
  | delete p =>
    have h := C78_delete_exact eng db p ok
    rw [if_pos (show wheresSound p.wheres = true from sd)] at h
    obtain ⟨q, sql, e, e1, e2, h1, h2, h3⟩ := h
    exact ⟨.delete q, sql, _, .delete e1, by simp only [PV.look, e2, POut.ofQuery]; rfl, rfl, ⟨e, h1, h2⟩, h3⟩
  | kind p e =>
    obtain ⟨ok, oke⟩ := ok
    cases e with
    | read =>
      have h := C81_rows_exact eng db p ok
      rw [if_pos (show wheresSound p.wheres = true from sd)] at h
      obtain ⟨b, sql, params, e1, e2, h⟩ := h
      refine ⟨b.pv, sql, params, .kind e1 rfl, ?_, h⟩
      cases b <;> (simp only [SelB.build] at e2; simp only [SelB.pv, PV.look, BaseSelect.look, e2, POut.ofQuery]; rfl)
    | count =>
      have h := C81_count_exact eng db p ok
      rw [if_pos (show wheresSound p.wheres = true from sd)] at h
      obtain ⟨b, c, sql, params, e1, e2, e3, h⟩ := h
      exact ⟨.count c, sql, params, .kind e1 (by simp only [KEnd.run, e2, Res.bind_ok]), by simp only [PV.look, e3, POut.ofQuery]; rfl, h⟩
    | countCol y more =>
      have h := C81_count_column_exact eng db p ok y oke more
      rw [if_pos (show wheresSound p.wheres = true from sd)] at h
      obtain ⟨b, c, sql, params, e1, e2, e3, h⟩ := h
      exact ⟨.count c, sql, params, .kind e1 (by simp only [KEnd.run, e2, Res.bind_ok]), by simp only [PV.look, e3, POut.ofQuery]; rfl, h⟩
    | delete more =>
      have h := C78_delete_exact eng db (p.deleteProg more) oke
      rw [if_pos (show wheresSound (p.deleteProg more).wheres = true from sd)] at h
      obtain ⟨q, sql, e, e1, e2, h1, h2, h3⟩ := h
      obtain ⟨b, k1, k2⟩ := Res.bind_eq_ok.1 ((C81_delete p ok more).trans e1)
      exact ⟨.delete q, sql, _, .kind k1 (by simp only [KEnd.run, k2, Res.bind_ok]),
        by simp only [PV.look, e2, POut.ofQuery]; rfl, rfl, ⟨e, h1, h2⟩, h3⟩
    | update sets more =>
      have h := C78_update_exact eng db (p.updateProg sets more) oke
      rw [if_pos (show wheresSound (p.updateProg sets more).wheres = true from sd)] at h
      obtain ⟨q, sql, ss, e, e1, e2, h1, h2, h3, h4⟩ := h
      have hs : ∀ s ∈ sets, s.OK := oke.calls (.set sets) (List.mem_append_right _ (List.mem_cons_self ..))
      have hm : ∀ c ∈ more, c.OK := fun c hc => oke.calls c (List.mem_append_right _ (List.mem_cons_of_mem _ hc))
      obtain ⟨b, k1, k2⟩ := Res.bind_eq_ok.1 ((C81_update p ok sets hs more hm).trans e1)
      obtain ⟨vs, k2, k3⟩ := Res.bind_eq_ok.1 k2
      exact ⟨.update q, sql, _, .kind k1 (by simp only [KEnd.run, k2, k3, Res.bind_ok]),
        by simp only [PV.look, e2, POut.ofQuery]; rfl, rfl, ⟨ss, e, h1, h2, h3⟩, h4⟩
    | insert sets more =>
      obtain ⟨q, sql, ns, e1, e2, h1, h2, h3⟩ := C67_insert eng db (p.insertProg sets more) oke
      have k := C81_insert p ok sets more
      rw [if_pos (show wheresSound p.wheres = true from sd)] at k
      obtain ⟨b, k1, k2⟩ := Res.bind_eq_ok.1 (k.trans e1)
      obtain ⟨vs, k2, k3⟩ := Res.bind_eq_ok.1 k2
      exact ⟨.insert q, sql, _, .kind k1 (by simp only [KEnd.run, k2, k3, Res.bind_ok]),
        by simp only [PV.look, e2, POut.ofQuery]; rfl, rfl, ⟨ns, h1, h2⟩, h3⟩

/-- What a program gives, it gives always. -/
theorem gives_unique {p : AnyProg} {x y : PV} (h : p.Gives x) (k : p.Gives y) : x = y := by
  cases h with
  | select h => cases k with | select k => rw [h] at k; cases k; rfl
  | count h h' => cases k with | count k k' => rw [h] at k; cases k; rw [h'] at k'; cases k'; rfl
  | insert h => cases k with | insert k => rw [h] at k; cases k; rfl
  | update h => cases k with | update k => rw [h] at k; cases k; rfl
  | delete h => cases k with | delete k => rw [h] at k; cases k; rfl
  | kind h h' => cases k with | kind k k' => rw [h] at k; cases k; rw [h'] at k'; cases k'; rfl

/-- **C79.**  Programs of calls one after another, starting from any memory and any values (after any history: branching, Apply
calls, groups that contain themselves), with `append` choosing any capacities: all calls return, and when all are done the builder
of every program builds the statement the program describes, each time it is built. -/
theorem C79_programs (pol : Policy) (gr : Grow) (eng : Engine) (db : Db) (m : Mem) (hs : List HV) (l : List AnyProg)
    (ok : ∀ p ∈ l, p.OK ∧ p.Sound) :
    ∃ m' hs', runHeap pol m hs (AnyProg.traceAll hs.length l).1 = some (m', hs ++ hs') ∧
      ∀ (i : Nat) (p : AnyProg), l[i]? = some p →
        ∃ r x, (AnyProg.traceAll hs.length l).2[i]? = some r ∧ (hs ++ hs')[r]? = some x ∧ x.Builds gr m' (p.Says eng db) := by
  obtain ⟨ps, h1, h2, h3⟩ := AnyProg.traceAll_gives l 0 [] rfl fun p hp => by
    obtain ⟨x, _, _, h, _⟩ := progs_say eng db p (ok p hp).1 (ok p hp).2
    exact ⟨(ok p hp).1, x, h⟩
  have fr := AnyProg.traceAll_fresh l 0
  obtain ⟨m', hs', h4, h5, h6⟩ := linear_anywhere pol m hs _ ps fr.plain fr.own.1 h1
  have up : AnyProg.traceAll hs.length l = upMany hs.length (AnyProg.traceAll 0 l) := AnyProg.traceAll_up hs.length l 0
  refine ⟨m', hs', by rw [up]; exact h4, fun i p hp => ?_⟩
  obtain ⟨r, x, k1, k2, k3⟩ := h3 i p hp
  have hr : r < hs'.length := by rw [h5]; exact (List.getElem?_eq_some_iff.1 k2).1
  refine ⟨hs.length + r, hs'[r], by rw [up]; simp [upMany, k1], by rw [up_get]; exact List.getElem?_eq_getElem hr, ?_⟩
  obtain ⟨y, sql, params, g1, g2, g3⟩ := progs_say eng db p (ok p (List.mem_of_getElem? hp)).1 (ok p (List.mem_of_getElem? hp)).2
  cases gives_unique g1 k3
  refine ⟨sql, params, g3, x.depth, fun d hd par => ?_⟩
  have sv : Serves m' d hs'[r] x := (h6 r _ x (List.getElem?_eq_getElem hr) k2).imp (fun y => ⟨y, hd⟩) id
  have := (look_serves gr d ⟨m', par⟩ _ x sv .build).imp fun a b q => q.2.1
  rw [g2] at this
  generalize HV.look gr d ⟨m', par⟩ hs'[r] .build = res at this ⊢
  match res with
  | .ok (m1, .query s sl) => exact ⟨m1, sl, by rw [this.1], this.2.2.2⟩
  | .ok (_, .text _) => exact this.elim
  | .ok (_, .vals _) => exact this.elim
  | .ok (_, .conds _) => exact this.elim
  | .ok (_, .defs _) => exact this.elim
  | .err _ => exact this.elim
  | .panic _ => exact this.elim

/-- **C79, what was there before.**  After any history, and whatever programs are run then: every reading call on every value made
before gives what it gave. -/
theorem C79_others (pol : Policy) (cs : List Call) (m : Mem) (hs : List HV) (h : runHeap pol Mem.empty [] cs = some (m, hs))
    (l : List AnyProg) (m' : Mem) (hs' : List HV) (hl : runHeap pol m hs (AnyProg.traceAll hs.length l).1 = some (m', hs'))
    (r : Nat) (x : HV) (hx : hs[r]? = some x) (gr gr' : Grow) (d : Nat) (par par' : Store Val) (k : Look) :
    hs'[r]? = some x ∧ contentNow (x.look gr' d ⟨m', par'⟩ k) = contentNow (x.look gr d ⟨m, par⟩ k) := by
  obtain ⟨sb, hb⟩ := run_bnd0 pol cs (m, hs) h
  have fr := AnyProg.traceAll_fresh l 0
  have up : AnyProg.traceAll hs.length l = upMany hs.length (AnyProg.traceAll 0 l) := AnyProg.traceAll_up hs.length l 0
  have run := up_run pol hs (AnyProg.traceAll 0 l).1 m []
  rw [List.append_nil] at run
  rw [up] at hl
  simp only [upMany] at hl
  rw [run] at hl
  obtain ⟨y, e, ey⟩ := Option.map_eq_some_iff.1 hl
  cases ey
  have kp := keeps_run pol m _ m [] y.1 y.2 ⟨Nat.le_refl _, Nat.le_refl _, Nat.le_refl _, Nat.le_refl _⟩ (fun i v hv => by cases hv) fr.plain e
  have hb0 := run_bnd0 pol (cs ++ (AnyProg.traceAll hs.length l).1) (y.1, hs ++ y.2) (by
    rw [runHeap_append, h, up]
    show runHeap pol m hs ((AnyProg.traceAll 0 l).1.map (Call.up hs.length)) = _
    rw [run, e]
    rfl)
  have hr := (List.getElem?_eq_some_iff.1 hx).1
  have hx' : (hs ++ y.2)[r]? = some x := by rw [List.getElem?_append_left hr]; exact hx
  exact ⟨hx', look_same (m := ⟨m, par⟩) (m' := ⟨y.1, par'⟩) gr gr' d x (kp.same sb (hb r x hx)) sb (hb r x hx) hb0.1 (hb0.2 r x hx') k⟩

/-! ## A case -/

/-- `Delete("t").Where(a = 7).Where(Or(id = 3, id = 2))`, then the same conditions made again for a select. -/
def exTwoProgs : List AnyProg :=
  [.delete ⟨c!"t", [[exIs c!"a" 7], [.fn true (exIs c!"id" 3) [exIs c!"id" 2]]]⟩,
    .select ⟨⟨c!"t", none⟩, [.addWhere [exIs c!"a" 7], .addWhere [.fn true (exIs c!"id" 3) [exIs c!"id" 2]]]⟩]

theorem exTwoProgs_ok : ∀ p ∈ exTwoProgs, p.OK ∧ p.Sound := by
  have ok : ∀ n ∈ [c!"a", c!"id"], ∀ v, (exIs n v).OK := fun n hn v => exIs_ok (by revert n; decide) v
  intro p hp
  simp only [exTwoProgs, List.mem_cons, List.not_mem_nil, or_false] at hp
  rcases hp with rfl | rfl
  · refine ⟨⟨exIdent (by decide), ?_, by simp⟩, rfl⟩
    intro es he
    simp only [List.mem_cons, List.not_mem_nil, or_false] at he
    rcases he with rfl | rfl
    · exact ⟨ok _ (by decide) 7, trivial⟩
    · exact ⟨⟨ok _ (by decide) 3, ok _ (by decide) 2, trivial⟩, trivial⟩
  · refine ⟨⟨⟨exIdent (by decide), fun a ha => by cases ha⟩, ?_⟩, rfl⟩
    intro c hc
    simp only [List.mem_cons, List.not_mem_nil, or_false] at hc
    rcases hc with rfl | rfl
    · exact ⟨ok _ (by decide) 7, trivial⟩
    · exact ⟨⟨ok _ (by decide) 3, ok _ (by decide) 2, trivial⟩, trivial⟩

/-- The text a value builds. -/
def exText : Option HV → Mem → Str
  | some x, m => match x.look goGrow 5 ⟨m, []⟩ .build with
    | .ok (_, .query s _) => s
    | _ => []
  | none, _ => []

/-- The calls, after two values made before; and what both programs build in memory when they are done. -/
example : (AnyProg.traceAll 2 exTwoProgs).2 = [8, 16] ∧ (AnyProg.traceAll 2 exTwoProgs).1.length = 15 ∧
    (match runHeap goPolicy Mem.empty [] ([.selectFrom (.str c!"t"), .many 0] ++ (AnyProg.traceAll 2 exTwoProgs).1) with
      | some (m, hs) => [exText hs[8]? m, exText hs[16]? m]
      | none => []) =
      [c!"DELETE FROM t WHERE a=$1 AND (id=$2 OR id=$3)", c!"SELECT * FROM t WHERE a=$1 AND (id=$2 OR id=$3)"] := by
  refine ⟨by decide, by decide, by decide +kernel⟩

/-- The program of `C81` read, then written through with one more condition. -/
def exKindProgs : List AnyProg := [.kind exKindProg .read, .kind exKindProg (.delete [[exIs c!"id" 2]]), .kind exKindProg .count,
  .kind exKindProg (.countCol (exCol [] c!"a") [])]

theorem exKindProgs_ok : ∀ p ∈ exKindProgs, p.OK ∧ p.Sound := by
  intro p hp
  simp only [exKindProgs, List.mem_cons, List.not_mem_nil, or_false] at hp
  rcases hp with rfl | rfl | rfl | rfl
  · exact ⟨⟨exKindProg_ok, trivial⟩, rfl⟩
  · refine ⟨⟨exKindProg_ok, exIdent (by decide), ?_, by simp [KindProg.deleteProg]⟩, rfl⟩
    intro es he
    simp only [KindProg.deleteProg, KindProg.wheres, KindProg.said, KCall.said, NSelectProg.wheres, exKindProg, List.filterMap_cons,
      NSCall.where?, List.filterMap_nil, List.cons_append, List.nil_append, List.mem_cons, List.not_mem_nil, or_false] at he
    rcases he with rfl | rfl
    · exact ⟨⟨exIs_ok (by decide) 7, exIs_ok (by decide) 3, trivial⟩, trivial⟩
    · exact ⟨exIs_ok (by decide) 2, trivial⟩
  · exact ⟨⟨exKindProg_ok, trivial⟩, rfl⟩
  · exact ⟨⟨exKindProg_ok, exCol_ok (by decide)⟩, rfl⟩

example : (AnyProg.traceAll 1 exKindProgs).2 = [9, 21, 31, 41] ∧
    (match runHeap goPolicy Mem.empty [] (.selectFrom (.str c!"t") :: (AnyProg.traceAll 1 exKindProgs).1) with
      | some (m, hs) => [exText hs[9]? m, exText hs[21]? m, exText hs[31]? m, exText hs[41]? m]
      | none => []) =
      [c!"SELECT id FROM t WHERE a=$1 OR id=$2 ORDER BY id DESC LIMIT $3", c!"DELETE FROM t WHERE a=$1 OR id=$2 AND id=$3",
        c!"SELECT COUNT(*) FROM t WHERE a=$1 OR id=$2", c!"SELECT COUNT(a) FROM t WHERE a=$1 OR id=$2"] := by
  refine ⟨by decide, by decide +kernel⟩

end Query
