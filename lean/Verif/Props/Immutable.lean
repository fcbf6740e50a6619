import Verif.Proof.HeapHistory
import Verif.Proof.NoDeep
import Verif.Proof.HeapSame
/-!
# C34, C35, C36, C47: sharing

Builders are Go structs holding slices.  Copying a struct shares the array behind its slices, and `append` writes into that
array when it has spare capacity.
-/
namespace Query

/-! ## Histories that show the trouble, with Go's growth policy -/

/-- `EqualTo(f, 0)`. -/
def wEq (f : Str) : Cond := .fieldc .eq (newBase lAND false) ⟨⟨f, [], []⟩, .other 0⟩

/-- The text of a result. -/
def outText : Res (RMem × HOut) → Option Str
  | .ok (_, .query s _) => some s
  | .ok (_, .text s) => some s
  | _ => none

/-- The text a reading call gives after a history. -/
def textAt (cs : List Call) (r : Nat) (l : Look) (d : Nat) : Option Str :=
  match runHeap goPolicy Mem.empty [] cs with
  | some (m, hs) =>
    match hs[r]? with
    | some h => outText (h.look goGrow d ⟨m, []⟩ l)
    | none => none
  | none => none

theorem outText_of {m : Mem} {hs : List HV} {h : HV} {cs : List Call} {r : Nat} {l : Look} {d : Nat}
    (h1 : runHeap goPolicy Mem.empty [] cs = some (m, hs)) (h2 : hs[r]? = some h) :
    textAt cs r l d = outText (h.look goGrow d ⟨m, []⟩ l) := by
  simp only [textAt, h1, h2]

/-- The text of a plain result. -/
def poutText : Res POut → Option Str
  | .ok (.query s _) => some s
  | .ok (.text s) => some s
  | _ => none

theorem text_rep {a : Res (RMem × HOut)} {b : Res POut} (h : RepRes (fun a b => RepOut a.1 a.2 b) a b) : outText a = poutText b := by
  cases a with
  | ok a =>
    obtain ⟨m, o⟩ := a
    cases b with
    | ok p =>
      cases o <;> cases p <;> simp only [RepRes, RepOut] at h <;> first
        | exact h.elim
        | rfl
        | (simp only [outText, poutText]; rw [h.1])
        | (simp only [outText, poutText]; rw [h])
    | err e => exact h.elim
    | panic p => exact h.elim
  | err e =>
    cases b with
    | ok p => exact h.elim
    | err e => rfl
    | panic p => exact h.elim
  | panic e =>
    cases b with
    | ok p => exact h.elim
    | err e => exact h.elim
    | panic p => rfl

theorem readsAs_text {cs : List Call} {r : Nat} {l : Look} {out : Res POut} {t : Option Str} (h : ReadsAs goPolicy goGrow cs r l out)
    (ht : ∀ D, textAt cs r l (D + 12) = t) : poutText out = t := by
  obtain ⟨m, hs, x, h1, h2, D, h3⟩ := h
  rw [← ht D, outText_of h1 h2]
  exact (text_rep (h3 (D + 12) (by omega) [])).symm

/-- The history before is linear, and the text differs afterwards. -/
theorem changes_of (cs cs' : List Call) (r : Nat) (l : Look) (ps : List PV) (p : PV) (t t' : Str)
    (hna : ∀ c ∈ cs, c.noApply = true) (hl : Linear cs) (hp : runPure [] cs = some ps) (hr : ps[r]? = some p)
    (ht : poutText (p.look l) = some t)
    (h' : ∀ D, textAt (cs ++ cs') r l (D + 12) = some t') (hne : t ≠ t') : Changes goPolicy goGrow cs cs' r l := by
  have a := history_reads false goGrow (polOK_false goPolicy) cs ps hna (fun _ => hl) hl.joinsOnce hp r p hr l
  refine ⟨_, a, fun b => hne ?_⟩
  have := (readsAs_text b h').symm.trans ht
  exact (Option.some.inj this).symm

/-- Five conditions, `g := a.And(b).And(c)` (number 6) and `x := g.And(d)` (number 7). -/
def wAnd : List Call := [.leaf (wEq c!"a"), .leaf (wEq c!"b"), .leaf (wEq c!"c"), .leaf (wEq c!"d"), .leaf (wEq c!"e"),
  .and 0 [1], .and 5 [2], .and 6 [3]]

/-- `q := Select("t").Where(a).Where(b).Where(c)` (number 8), `x := q.Where(d)` (number 9). -/
def wWhere : List Call := [.leaf (wEq c!"a"), .leaf (wEq c!"b"), .leaf (wEq c!"c"), .leaf (wEq c!"d"), .leaf (wEq c!"e"),
  .selectFrom (.str c!"t"), .where_ 5 [0], .where_ 6 [1], .where_ 7 [2], .where_ 8 [3]]

/-- `ASC(f)`. -/
def wSort (f : Str) : FieldSorting := ⟨⟨f, [], []⟩, ascending⟩

/-- `q := SelectManyFrom("t").OrderBy(a).OrderBy(b).OrderBy(c)` (number 4), `x := q.OrderBy(d)` (number 5). -/
def wOrder : List Call := [.selectFrom (.str c!"t"), .many 0, .orderBy 1 [wSort c!"a"], .orderBy 2 [wSort c!"b"],
  .orderBy 3 [wSort c!"c"], .orderBy 4 [wSort c!"d"]]

/-- A value for a field. -/
def wVal (f : Str) : FieldValue := ⟨⟨f, [], []⟩, .other 0⟩

/-- `q := InsertInto("t").Values(a).Values(b).Values(c)` (number 3), `x := q.Values(d)` (number 4). -/
def wValues : List Call := [.insertInto (.str c!"t"), .values 0 [wVal c!"a"], .values 1 [wVal c!"b"], .values 2 [wVal c!"c"],
  .values 3 [wVal c!"d"]]

/-- `q := Update("t").Where(w).Set(a).Set(b).Set(c)` (number 5), `x := q.Set(d)` (number 6). -/
def wSet : List Call := [.leaf (wEq c!"w"), .update (.str c!"t"), .where_ 1 [0], .set 2 [wVal c!"a"], .set 3 [wVal c!"b"],
  .set 4 [wVal c!"c"], .set 5 [wVal c!"d"]]

/-- Three joins, completed (number 6), a fourth one completed (number 8). -/
def wJoin : List Call := [.selectFrom (.str c!"t"), .joinTable 0 ⟨c!"a", []⟩ innerJoin, .on 1 ⟨c!"x", c!"t", []⟩ ⟨c!"y", c!"a", []⟩,
  .joinTable 2 ⟨c!"b", []⟩ innerJoin, .on 3 ⟨c!"x", c!"t", []⟩ ⟨c!"y", c!"b", []⟩,
  .joinTable 4 ⟨c!"c", []⟩ innerJoin, .on 5 ⟨c!"x", c!"t", []⟩ ⟨c!"y", c!"c", []⟩,
  .joinTable 6 ⟨c!"d", []⟩ innerJoin, .on 7 ⟨c!"x", c!"t", []⟩ ⟨c!"y", c!"d", []⟩]

/-- One join, completed (number 2). -/
def wOn : List Call := [.selectFrom (.str c!"t"), .joinTable 0 ⟨c!"a", []⟩ innerJoin, .on 1 ⟨c!"x", c!"t", []⟩ ⟨c!"y", c!"a", []⟩]

/-- `g := a.And(b)` (number 2). -/
def wApply : List Call := [.leaf (wEq c!"a"), .leaf (wEq c!"b"), .and 0 [1]]

/-- **C34, false.**  `g.And(e)` changes `x`, which was made by `g.And(d)`: the fourth member becomes `e`. -/
theorem C34_and_false : Changes goPolicy goGrow wAnd [.and 6 [4]] 7 (.render 0) := by
  refine changes_of _ _ _ _ _ _ c!"a=$1 AND b=$2 AND c=$3 AND d=$4" c!"a=$1 AND b=$2 AND c=$3 AND e=$4" ?_ ?_ rfl rfl rfl
    (fun D => rfl) (by decide)
  · decide
  · unfold Linear; decide

set_option maxHeartbeats 2000000 in
/-- **C34, false.**  `q.Where(e)` changes the query made by `q.Where(d)`. -/
theorem C34_where_false : Changes goPolicy goGrow wWhere [.where_ 8 [4]] 9 .build := by
  refine changes_of _ _ _ _ _ _ c!"SELECT * FROM t WHERE a=$1 AND b=$2 AND c=$3 AND d=$4"
    c!"SELECT * FROM t WHERE a=$1 AND b=$2 AND c=$3 AND e=$4" ?_ ?_ rfl rfl rfl (fun D => by rfl) (by decide)
  · decide
  · unfold Linear; decide

/-- **C34, false.**  `q.OrderBy(e)` changes the query made by `q.OrderBy(d)`. -/
theorem C34_orderBy_false : Changes goPolicy goGrow wOrder [.orderBy 4 [wSort c!"e"]] 5 .build := by
  refine changes_of _ _ _ _ _ _ c!"SELECT * FROM t ORDER BY a ASC, b ASC, c ASC, d ASC"
    c!"SELECT * FROM t ORDER BY a ASC, b ASC, c ASC, e ASC" ?_ ?_ rfl rfl rfl (fun D => rfl) (by decide)
  · decide
  · unfold Linear; decide

/-- **C34, false.**  `q.Values(e)` changes the query made by `q.Values(d)`. -/
theorem C34_values_false : Changes goPolicy goGrow wValues [.values 3 [wVal c!"e"]] 4 .build := by
  refine changes_of _ _ _ _ _ _ c!"INSERT INTO t(a, b, c, d) VALUES ($1, $2, $3, $4)"
    c!"INSERT INTO t(a, b, c, e) VALUES ($1, $2, $3, $4)" ?_ ?_ rfl rfl rfl (fun D => rfl) (by decide)
  · decide
  · unfold Linear; decide

/-- **C34, false.**  `q.Set(e)` changes the query made by `q.Set(d)`. -/
theorem C34_set_false : Changes goPolicy goGrow wSet [.set 5 [wVal c!"e"]] 6 .build := by
  refine changes_of _ _ _ _ _ _ c!"UPDATE t SET a=$1, b=$2, c=$3, d=$4 WHERE w=$5"
    c!"UPDATE t SET a=$1, b=$2, c=$3, e=$4 WHERE w=$5" ?_ ?_ rfl rfl rfl (fun D => rfl) (by decide)
  · decide
  · unfold Linear; decide

/-- **C34, false.**  A join on `q` changes the query made by an earlier join on `q`. -/
theorem C34_join_false : Changes goPolicy goGrow wJoin [.joinTable 6 ⟨c!"e", []⟩ innerJoin] 8 .build := by
  refine changes_of _ _ _ _ _ _
    c!"SELECT * FROM t INNER JOIN a ON t.x=a.y INNER JOIN b ON t.x=b.y INNER JOIN c ON t.x=c.y INNER JOIN d ON t.x=d.y"
    c!"SELECT * FROM t INNER JOIN a ON t.x=a.y INNER JOIN b ON t.x=b.y INNER JOIN c ON t.x=c.y INNER JOIN e ON .=." ?_ ?_ rfl rfl rfl
    (fun D => rfl) (by decide)
  · decide
  · unfold Linear; decide

/-- **C34, false.**  A second `On` on the same unfinished join changes the query the first one made; no spare capacity is
needed for this. -/
theorem C34_on_false : Changes goPolicy goGrow wOn [.on 1 ⟨c!"u", c!"t", []⟩ ⟨c!"v", c!"a", []⟩] 2 .build := by
  refine changes_of _ _ _ _ _ _ c!"SELECT * FROM t INNER JOIN a ON t.x=a.y" c!"SELECT * FROM t INNER JOIN a ON t.u=a.v" ?_ ?_
    rfl rfl rfl (fun D => rfl) (by decide)
  · decide
  · unfold Linear; decide

/-- **C34, false.**  `ApplyFieldTable` on a group changes the group itself. -/
theorem C34_applyTable_false : Changes goPolicy goGrow wApply [.applyTable 2 c!"t"] 2 (.render 0) := by
  refine changes_of _ _ _ _ _ _ c!"a=$1 AND b=$2" c!"t.a=$1 AND t.b=$2" ?_ ?_ rfl rfl rfl (fun D => rfl) (by decide)
  · decide
  · unfold Linear; decide

/-- **C34, false.**  `ApplyFieldSpec` on a group changes the group itself. -/
theorem C34_applySpec_false : Changes goPolicy goGrow wApply [.applySpec 2 ⟨c!"a", c!"t", []⟩] 2 (.render 0) := by
  refine changes_of _ _ _ _ _ _ c!"a=$1 AND b=$2" c!"t.a=$1 AND b=$2" ?_ ?_ rfl rfl rfl (fun D => rfl) (by decide)
  · decide
  · unfold Linear; decide

/-- **C34 where it holds.**  If `append` never left spare capacity, if `ApplyFieldSpec` and `ApplyFieldTable` are not called and
no join is completed twice, then no call changes what reading any earlier value gives, in any history, with any branching.
Missing: Go's `append` does leave spare capacity, and the two Apply calls write into their receiver (see the witnesses). -/
theorem C34_partial (pol : Policy) (gr : Grow) (hp : NoSpare pol) (cs cs' : List Call)
    (hna : ∀ c ∈ cs ++ cs', c.noApply = true) (hj : JoinsOnce (cs ++ cs')) (ps : List PV)
    (h : runPure [] (cs ++ cs') = some ps) (r : Nat) (hr : r < cs.length) (l : Look) :
    ∃ p, ps[r]? = some p ∧ ReadsAs pol gr cs r l (p.look l) ∧ ReadsAs pol gr (cs ++ cs') r l (p.look l) := by
  have len := (runPure_prefix _ _ _ h).2
  have hr' : r < ps.length := by rw [len]; simp; omega
  refine ⟨ps[r], List.getElem?_eq_getElem hr', ?_⟩
  exact history_stable true gr ⟨fun _ => hp.1, fun _ => hp.2.1, fun _ => hp.2.2.1, fun _ => hp.2.2.2⟩ cs cs' ps hna
    (fun h => by cases h) hj h r hr ps[r] (List.getElem?_eq_getElem hr') l

/-- The witness against C34 meets the hypotheses of `C34_partial` except for the spare capacity. -/
example : (∀ c ∈ wAnd ++ [.and 6 [4]], c.noApply = true) ∧ JoinsOnce (wAnd ++ [.and 6 [4]]) ∧
    (runPure [] (wAnd ++ [.and 6 [4]])).isSome = true ∧ ¬ Linear (wAnd ++ [.and 6 [4]]) := by
  refine ⟨by decide, ?_, rfl, ?_⟩
  · unfold JoinsOnce; decide
  · unfold Linear; decide

/-! ## C35 -/

/-- **C35.**  In every history in which no value is extended twice, with `append` choosing any capacities, every value reads at
once and after any further calls as the plain immutable value.  Missing: `ApplyFieldSpec` and `ApplyFieldTable`, which change
their receiver even when it is used once (`C35_apply_false`). -/
theorem C35_linear_partial (pol : Policy) (gr : Grow) (cs cs' : List Call) (hna : ∀ c ∈ cs ++ cs', c.noApply = true)
    (hl : Linear (cs ++ cs')) (ps : List PV) (h : runPure [] (cs ++ cs') = some ps) (r : Nat) (hr : r < cs.length) (l : Look) :
    ∃ p, ps[r]? = some p ∧ ReadsAs pol gr cs r l (p.look l) ∧ ReadsAs pol gr (cs ++ cs') r l (p.look l) := by
  have len := (runPure_prefix _ _ _ h).2
  have hr' : r < ps.length := by rw [len]; simp; omega
  refine ⟨ps[r], List.getElem?_eq_getElem hr', ?_⟩
  exact history_stable false gr (polOK_false pol) cs cs' ps hna (fun _ => hl) hl.joinsOnce h r hr ps[r]
    (List.getElem?_eq_getElem hr') l

/-- Every linear history of plain calls runs in memory too. -/
theorem C35_runs_partial (pol : Policy) (cs : List Call) (hna : ∀ c ∈ cs, c.noApply = true) (hl : Linear cs) (ps : List PV)
    (h : runPure [] cs = some ps) : ∃ m hs, runHeap pol Mem.empty [] cs = some (m, hs) ∧ hs.length = ps.length := by
  obtain ⟨m, hs, h1, h2, _⟩ := history false (polOK_false pol) cs ps hna (fun _ => hl) hl.joinsOnce h
  exact ⟨m, hs, h1, h2⟩

/-- A linear history with joins, conditions, ordering and a derived update, split in the middle. -/
def wLinear : List Call := [.leaf (wEq c!"a"), .leaf (wEq c!"b"), .leaf (wEq c!"c"), .and 0 [1], .or 3 [2],
  .selectFrom (.str c!"t"), .joinTable 5 ⟨c!"u", []⟩ leftJoin, .on 6 ⟨c!"x", c!"t", []⟩ ⟨c!"y", c!"u", []⟩, .where_ 7 [4],
  .many 8, .orderBy 9 [wSort c!"a"], .orderBy 10 [wSort c!"b"], .orderBy 11 [wSort c!"c"], .limit 12 5, .updateFrom 13 [wVal c!"z"],
  .set 14 [wVal c!"y"]]

example : (∀ c ∈ wLinear.take 8 ++ wLinear.drop 8, c.noApply = true) ∧ Linear (wLinear.take 8 ++ wLinear.drop 8) ∧
    (runPure [] (wLinear.take 8 ++ wLinear.drop 8)).isSome = true := by
  refine ⟨by decide, ?_, rfl⟩
  unfold Linear; decide

/-- **C35, false for the Apply calls.**  The history with the one further call is linear, and the call changes what its
receiver reads as. -/
theorem C35_apply_false : Linear (wApply ++ [.applyTable 2 c!"t"]) ∧ (runPure [] (wApply ++ [.applyTable 2 c!"t"])).isSome = true ∧
    Changes goPolicy goGrow wApply [.applyTable 2 c!"t"] 2 (.render 0) := by
  refine ⟨?_, rfl, C34_applyTable_false⟩
  unfold Linear; decide

/-! ## C36 -/

instance nestedDec (st : Store HCond) : ∀ (d : Nat) (h : HCond), Decidable (h.nested st d)
  | 0, .leaf _ => .isTrue (by simp [HCond.nested])
  | _ + 1, .leaf _ => .isTrue (by simp [HCond.nested])
  | 0, .group _ _ _ => .isFalse (by simp [HCond.nested])
  | d + 1, .group _ s _ =>
    have : ∀ c, Decidable (HCond.nested st d c) := nestedDec st d
    decidable_of_iff (∀ c ∈ st.read s, c.nested st d) (by simp [HCond.nested])

instance (m : Mem) (d : Nat) (h : HV) : Decidable (h.nested m d) := by
  cases h <;> simp only [HV.nested] <;> infer_instance

theorem pick_ps (m : Mem) (d : Nat) : ∀ hs : List HV, (∀ h ∈ hs, h.nested m d → ∃ p, RepV m h p ∧ p.depth ≤ d) →
    ∃ ps : List PV, hs.length = ps.length ∧ ∀ (i : Nat) (h : HV) (p : PV), hs[i]? = some h → ps[i]? = some p → h.nested m d →
      RepV m h p ∧ p.depth ≤ d
  | [], _ => ⟨[], rfl, fun i h p a => by simp at a⟩
  | h :: hs, k => by
    obtain ⟨ps, l, hps⟩ := pick_ps m d hs fun x hx => k x (by simp [hx])
    by_cases hn : h.nested m d
    · obtain ⟨p, hp⟩ := k h (by simp) hn
      refine ⟨p :: ps, by simp [l], fun i x y a b c => ?_⟩
      cases i with
      | zero => simp at a b; subst a; subst b; exact hp
      | succ i => exact hps i x y (by simpa using a) (by simpa using b) c
    · refine ⟨.cond (.null ⟨[], false⟩ zeroFD) :: ps, by simp [l], fun i x y a b c => ?_⟩
      cases i with
      | zero => simp at a; subst a; exact (hn c).elim
      | succ i => exact hps i x y (by simpa using a) (by simpa using b) c

/-- **C36.**  After *any* history (branching, shared arrays, Apply calls, groups that contain themselves) any sequence of reading
calls on the values, in any order and any number, gives for each call what the call would have given first, also if looked at
only after all the calls; and it keeps every cell of every array.  A call that fails or panics does so every time. -/
theorem C36_reading_only_reads (pol : Policy) (cs : List Call) (m : Mem) (hs : List HV)
    (h : runHeap pol Mem.empty [] cs = some (m, hs)) (d : Nat) (gr : Grow) (par : Store Val) (ls : List (Nat × Look)) :
    Kept ⟨m, par⟩ (lookAll gr d hs ⟨m, par⟩ ls).1 ∧
      (lookAll gr d hs ⟨m, par⟩ ls).2.map (contentIn (lookAll gr d hs ⟨m, par⟩ ls).1) =
        ls.map fun rl => match hs[rl.1]? with
          | none => noMethod
          | some x => contentNow (x.look gr d ⟨m, par⟩ rl.2) := by
  obtain ⟨sb, hb⟩ := run_bnd0 pol cs (m, hs) h
  exact lookAll_kept gr d hs (m0 := ⟨m, par⟩) sb hb ls ⟨m, par⟩ (Kept.refl _)

/-- Reading a value, a missing value, and the value again. -/
example : (match runHeap goPolicy Mem.empty [] [.leaf (wEq c!"a"), .leaf (wEq c!"b"), .and 0 [1]] with
    | some (m, hs) => (lookAll goGrow 3 hs ⟨m, []⟩ [(2, .render 0), (9, .values), (2, .render 0)]).2.map
        fun r => match r with | .ok (.text s) => some s | _ => none
    | none => []) = [some c!"a=$1 AND b=$2", none, some c!"a=$1 AND b=$2"] := by rfl

/-- **C36, in terms of values.**  After any history take the values whose groups nest to some depth `d`.  Each stands for a plain
value, and any sequence of reading calls on them gives for each call the result determined by that plain value alone. -/
theorem C36_reads_plain (pol : Policy) (cs : List Call) (m : Mem) (hs : List HV) (h : runHeap pol Mem.empty [] cs = some (m, hs))
    (d : Nat) :
    ∃ ps : List PV, hs.length = ps.length ∧
      (∀ (i : Nat) (x : HV) (p : PV), hs[i]? = some x → ps[i]? = some p → x.nested m d → RepV m x p) ∧
      ∀ (gr : Grow) (par : Store Val) (ls : List (Nat × Look)), (∀ rl ∈ ls, ∀ x, hs[rl.1]? = some x → x.nested m d) →
        Kept ⟨m, par⟩ (lookAll gr d hs ⟨m, par⟩ ls).1 ∧
          RepOuts (lookAll gr d hs ⟨m, par⟩ ls).1 (lookAll gr d hs ⟨m, par⟩ ls).2 (lookAllPure ps ls) := by
  obtain ⟨sb, hb⟩ := run_bnd0 pol cs (m, hs) h
  obtain ⟨ps, l, hps⟩ := pick_ps m d hs fun x hx hn => by
    obtain ⟨i, hi⟩ := List.getElem?_of_mem hx
    exact repV_of_nested sb d x (hb i x hi) hn
  refine ⟨ps, l, fun i x p a b c => (hps i x p a b c).1, fun gr par ls hn => ?_⟩
  exact sim_lookAll gr d hs ps ls ⟨m, par⟩ l fun rl hrl x p a b => .inl (hps rl.1 x p a b (hn rl hrl x a))

/-- After the branching history of `C34_and_false` the changed value and the value it was made from both nest to depth 2, and
reading either, in any order, gives the same again. -/
example : ∃ x y m hs, runHeap goPolicy Mem.empty [] (wAnd ++ [.and 6 [4]]) = some (m, hs) ∧ hs[6]? = some x ∧ hs[7]? = some y ∧
    x.nested m 2 ∧ y.nested m 2 := by
  exact ⟨_, _, _, _, rfl, rfl, rfl, by decide, by decide⟩

/-! ## C47 -/

/-- `g := a.And(b).And(c)` (number 6), `x := g.Or(d, e)` (number 7), `y := g.And(x)` (number 8). -/
def wCycle : List Call := [.leaf (wEq c!"a"), .leaf (wEq c!"b"), .leaf (wEq c!"c"), .leaf (wEq c!"d"), .leaf (wEq c!"e"),
  .and 0 [1], .and 5 [2], .or 6 [3, 4], .and 6 [7]]

/-- **C47 where it holds.**  In linear histories without Apply calls, and in all histories without Apply calls if `append` left
no spare capacity, every reading call on every value returns: for all bounds large enough the bound does not matter.  Missing:
branching histories (`C47_cycle_false`). -/
theorem C47_partial (pol : Policy) (gr : Grow) (cs : List Call) (hna : ∀ c ∈ cs, c.noApply = true)
    (hh : Linear cs ∨ (NoSpare pol ∧ JoinsOnce cs)) (ps : List PV) (h : runPure [] cs = some ps) (r : Nat) (hr : r < cs.length)
    (l : Look) : ∃ m hs x, runHeap pol Mem.empty [] cs = some (m, hs) ∧ hs[r]? = some x ∧
      ∃ D, ∀ d ≥ D, ∀ par, x.look gr d ⟨m, par⟩ l ≠ tooDeep := by
  have len := (runPure_prefix _ _ _ h).2
  have hr' : r < ps.length := by rw [len]; simp; omega
  have key : ReadsAs pol gr cs r l (ps[r].look l) := by
    rcases hh with hl | ⟨hp, hj⟩
    · exact history_reads false gr (polOK_false pol) cs ps hna (fun _ => hl) hl.joinsOnce h r _ (List.getElem?_eq_getElem hr') l
    · exact history_reads true gr ⟨fun _ => hp.1, fun _ => hp.2.1, fun _ => hp.2.2.1, fun _ => hp.2.2.2⟩ cs ps hna
        (fun h => by cases h) hj h r _ (List.getElem?_eq_getElem hr') l
  obtain ⟨m, hs, x, h1, h2, D, h3⟩ := key
  refine ⟨m, hs, x, h1, h2, D, fun d hd par e => ?_⟩
  have k := h3 d hd par
  rw [e] at k
  have nr := look_returns ps[r] l
  cases hp : ps[r].look l with
  | ok a => rw [hp] at k; exact k
  | err a => rw [hp] at k; exact k
  | panic a => rw [hp] at k nr; simp only [tooDeep, RepRes] at k; subst k; exact nr rfl

/-- `EqualTo(f, 0)` as the cell holds it, with the join word `j`. -/
def wLeaf (f : Str) : HCond := .leaf (wEq f)

/-- A group one of whose members is a group over the same array. -/
theorem cycle_exists : ∃ m hs b S br b' br', runHeap goPolicy Mem.empty [] wCycle = some (m, hs) ∧
    hs[8]? = some (.cond (.group b S br)) ∧ S.len ≠ 0 ∧
    m.conds.read S = [wLeaf c!"a", wLeaf c!"b", wLeaf c!"c", .group b' S br'] :=
  ⟨_, _, _, _, _, _, _, rfl, rfl, by decide, rfl⟩

theorem cycle_values (gr : Grow) (m : Mem) (S : Sl) (b' : CondBase) (br' : Bool)
    (hc : m.conds.read S = [wLeaf c!"a", wLeaf c!"b", wLeaf c!"c", .group b' S br']) :
    ∀ (d : Nat) (par : Store Val) (b : CondBase) (br : Bool), valuesR gr d ⟨m, par⟩ (.group b S br) = tooDeep
  | 0, _, _, _ => by simp only [valuesR]
  | d + 1, par, b, br => by
    simp only [valuesR, hc, loopValues, wLeaf, wEq, Cond.values, fieldcValues, FieldValue.values, Res.bind_ok,
      cycle_values gr m S b' br' hc d]
    rfl

theorem cycle_render (gr : Grow) (m : Mem) (S : Sl) (h0 : S.len ≠ 0) (b' : CondBase) (br' : Bool)
    (hc : m.conds.read S = [wLeaf c!"a", wLeaf c!"b", wLeaf c!"c", .group b' S br']) :
    ∀ (d : Nat) (par : Store Val) (b : CondBase) (br : Bool) (n : Nat), renderR gr d ⟨m, par⟩ (.group b S br) n = tooDeep
  | 0, _, _, _, _ => by simp only [renderR]
  | d + 1, par, b, br, n => by
    simp only [renderR, h0, if_false, hc, loopRender, wLeaf, wEq, Cond.render, fieldcRender, valuesR, Cond.values, fieldcValues,
      FieldValue.values, Res.bind_ok, cycle_render gr m S h0 b' br' hc d]
    rfl

theorem cycle_renderSQL (m : Mem) (S : Sl) (h0 : S.len ≠ 0) (b' : CondBase) (br' : Bool)
    (hc : m.conds.read S = [wLeaf c!"a", wLeaf c!"b", wLeaf c!"c", .group b' S br']) :
    ∀ (d : Nat) (par : Store Val) (b : CondBase) (br : Bool), renderSQLR d ⟨m, par⟩ (.group b S br) = tooDeep
  | 0, _, _, _ => by simp only [renderSQLR]
  | d + 1, par, b, br => by
    simp only [renderSQLR, h0, if_false, hc, loopRenderSQL, wLeaf, wEq, Cond.renderSQL, fieldcRenderSQL, Res.bind_ok,
      cycle_renderSQL m S h0 b' br' hc d]
    rfl

/-- **C47, false.**  After four calls `And` and `Or` with Go's growth policy a condition contains itself: `Render`, `RenderSQL` and
`Values` on it exceed every bound on the depth, that is, they recurse without end. -/
theorem C47_cycle_false : ∃ m hs x, runHeap goPolicy Mem.empty [] wCycle = some (m, hs) ∧ hs[8]? = some x ∧
    ∀ (gr : Grow) (d n : Nat) (par : Store Val), x.look gr d ⟨m, par⟩ (.render n) = tooDeep ∧
      x.look gr d ⟨m, par⟩ .renderSQL = tooDeep ∧ x.look gr d ⟨m, par⟩ .values = tooDeep := by
  obtain ⟨m, hs, b, S, br, b', br', h1, h2, h0, hc⟩ := cycle_exists
  refine ⟨m, hs, _, h1, h2, fun gr d n par => ⟨?_, ?_, ?_⟩⟩
  · simp only [HV.look, cycle_render gr m S h0 b' br' hc]; rfl
  · simp only [HV.look, cycle_renderSQL m S h0 b' br' hc]; rfl
  · simp only [HV.look, cycle_values gr m S b' br' hc]; rfl

/-- The plain model of the same calls returns a condition that renders. -/
example : ((runPure [] wCycle).bind fun ps => ps[8]?.bind fun p => poutText (p.look (.render 0))) =
    some c!"a=$1 AND b=$2 AND c=$3 AND (a=$4 AND b=$5 AND c=$6 OR d=$7 OR e=$8)" := by rfl

end Query
