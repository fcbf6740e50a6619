import Verif.Proof.LogicChain
import Verif.Props.Meaning
import Verif.Model.Write
/-!
# C09, C10, C12: And, Or and Where as SQL
-/
namespace Query

theorem texts_sem {ds : List Cond} {row : Row} {y : Cond → Tri} (hd : ∀ d ∈ ds, d.Readable)
    (hy : ∀ d ∈ ds, TextMeans d row (y d)) : ds.map (·.textSem row) = ds.map y :=
  List.map_congr_left fun d h => (textMeans_iff d row _ (hd d h)).mp (hy d h)

theorem gives_means {row : Row} {r : Cond} {x : Tri} (h : Gives row r x) : TextMeans r row x :=
  (textMeans_iff r row x h.read).mpr h.sem

/-! ## C09: And -/

theorem and_none (row : Row) (c : Cond) (hc : c.Readable) : Gives row (c.and []) (c.textSem row) ∧
    Gives row (andC c []) (c.textSem row) := by
  have hj : Gives row (c.join lAND) (c.textSem row) := ⟨readable_join _ hc, textSem_join row c lAND⟩
  have hn : Gives row ((newGroup lAND [c]).groupAND []).toCond (c.textSem row) := by
    refine ⟨readable_toCond.mpr (readL_one (readable_join _ hc)), ?_⟩
    have : (newGroup lAND [c]).groupAND [] = newGroup lAND [c] := rfl
    rw [this, toCond_sem row _ rfl]
    exact (sem_one row _).trans (textSem_join row c lAND)
  refine ⟨?_, hj⟩
  cases c with
  | fieldc k b fv => cases k <;> first | exact hj | exact hn
  | null b fd => exact hn
  | custom b x => exact hj
  | group b cs br => exact ⟨hc, rfl⟩

/-- C09: `a.And(b...)` and `And(a, b...)` hold on a row exactly when a and all of b hold (three-valued), for receivers and
arguments of the shapes `Cond.andRecv` and `Cond.andArgs`.  Missing: negated groups as receiver or flattened argument,
groups whose first member carries the join word OR, and several arguments with an OR outside brackets, for which it is
false (`C09_and_false`). -/
theorem C09_and_partial (c : Cond) (ds : List Cond) (row : Row) (x : Tri) (y : Cond → Tri) (hc : c.Readable)
    (hd : ∀ d ∈ ds, d.Readable) (hr : c.andRecv = true) (ha : c.andArgs ds = true)
    (hx : TextMeans c row x) (hy : ∀ d ∈ ds, TextMeans d row (y d)) :
    TextMeans (c.and ds) row (x.and (allOf (ds.map y))) ∧ TextMeans (andC c ds) row (x.and (allOf (ds.map y))) := by
  have hx' := (textMeans_iff c row x hc).mp hx
  rw [← texts_sem hd hy, ← hx']
  by_cases hn : ds = []
  · subst hn
    have := and_none row c hc
    simp only [List.map_nil, allOf, List.foldr_nil, Tri.and_t]
    exact ⟨gives_means this.1, gives_means this.2⟩
  · have := gives_means (and_gives row c ds hc hd hr ha hn)
    rw [and_method c ds hn, and_function c ds hn]
    exact ⟨this, this⟩

/-- C09 for plain conditions: And of leaves, in any number, is their conjunction. -/
theorem C09_leaves (c : Cond) (ds : List Cond) (row : Row) (x : Tri) (y : Cond → Tri) (hc : c.Readable)
    (hd : ∀ d ∈ ds, d.Readable) (hl : c.isLeaf = true) (hls : ∀ d ∈ ds, d.isLeaf = true)
    (hx : TextMeans c row x) (hy : ∀ d ∈ ds, TextMeans d row (y d)) :
    TextMeans (c.and ds) row (x.and (allOf (ds.map y))) ∧ TextMeans (andC c ds) row (x.and (allOf (ds.map y))) := by
  refine C09_and_partial c ds row x y hc hd ?_ ?_ hx hy
  · cases c <;> first | exact hl | simp [Cond.isLeaf] at hl
  · have hall : c.recvAllAnd = true := by cases c <;> first | rfl | simp [Cond.isLeaf] at hl
    match ds, hls with
    | [], _ => rfl
    | [d], hls =>
      have := hls d (by simp)
      cases d <;> first | exact this | simp [Cond.isLeaf] at this
    | d :: e :: ds, hls =>
      simp only [Cond.andArgs, hall, Bool.true_or, Bool.and_true, List.all_eq_true]
      exact fun z hz => single_orFree z (leaf_single (hls z hz))

/-- Conditions for examples. -/
abbrev la (i : Nat) : Cond := exLeaf lAND false c!"a" i
/-- Conditions for examples. -/
abbrev lb (i : Nat) : Cond := exLeaf lAND false c!"b" i
/-- Conditions for examples. -/
abbrev lc (i : Nat) : Cond := exLeaf lAND false c!"c" i
/-- Conditions for examples. -/
abbrev ld (i : Nat) : Cond := exLeaf lAND false c!"d" i

example : (orC (la 1) [lb 2]).andRecv = true ∧ (orC (la 1) [lb 2]).andArgs [orC (lc 3) [ld 4]] = true ∧
    (andC (orC (la 1) [lb 2]) [orC (lc 3) [ld 4]]).render 0 = .ok c!"(a=$1 OR b=$2) AND (c=$3 OR d=$4)" := ⟨rfl, rfl, rfl⟩
example : (la 1).andArgs [lb 2, lc 3] = true ∧ (andC (la 1) [lb 2, lc 3]).render 0 = .ok c!"(a=$1) AND (b=$2 AND c=$3)" :=
  ⟨rfl, rfl⟩

/-- The text of a readable condition means what it computes to. -/
theorem means_of {c : Cond} {row : Row} {x : Tri} (h : c.Readable) (e : c.textSem row = x) : TextMeans c row x :=
  (textMeans_iff c row x h).mpr e

/-- `a AND b` and `a OR b` for examples. -/
theorem exAnd : (andC (la 1) [lb 2]).Readable := pair_readable exA exB (Or.inl rfl)
theorem exOr : (orC (la 1) [lb 2]).Readable := pair_readable exA exB (Or.inr rfl)

theorem three_readable {b : CondBase} {br : Bool} {c d e : Cond} (hc : c.Readable) (hd : d.Readable) (he : e.Readable)
    (hj : d.joinType = c!"AND" ∨ d.joinType = c!"OR") (hj' : e.joinType = c!"AND" ∨ e.joinType = c!"OR") :
    (Cond.group b [c, d, e] br).Readable := by
  refine readable_group.mpr ⟨by simp, by simpa using ⟨hj, hj'⟩, ?_⟩
  intro x hx
  simp only [List.mem_cons, List.not_mem_nil, or_false] at hx
  rcases hx with rfl | rfl | rfl
  · exact hc
  · exact hd
  · exact he

/-- C09 fails: `And(c, Not(And(a, b)))` is `c AND a AND b`, without the Not; it is false on a row where c holds and
neither a nor b. -/
theorem C09_lost_not_false :
    let d := notC (andC (la 1) [lb 2])
    (andC (lc 3) [d]).render 0 = .ok c!"c=$1 AND a=$2 AND b=$3" ∧ TextMeans (lc 3) (exRow [c!"c"]) .t ∧
      TextMeans d (exRow [c!"c"]) .t ∧ TextMeans (andC (lc 3) [d]) (exRow [c!"c"]) .f :=
  ⟨rfl, means_of exC rfl, means_of (c := notC (andC (la 1) [lb 2])) (readable_setNegate true exAnd) rfl,
    means_of (c := andC (lc 3) [notC (andC (la 1) [lb 2])]) (three_readable exC exA exB (Or.inl rfl) (Or.inl rfl)) rfl⟩

/-- C09 fails: `Not(And(a, b)).And(c)` is `NOT (a AND b AND c)`; it is true on a row where c does not hold. -/
theorem C09_inside_not_false :
    let d := notC (andC (la 1) [lb 2])
    (d.and [lc 3]).render 0 = .ok c!"NOT (a=$1 AND b=$2 AND c=$3)" ∧ TextMeans (lc 3) (exRow []) .f ∧
      TextMeans (d.and [lc 3]) (exRow []) .t :=
  ⟨rfl, means_of exC rfl,
    means_of (c := (notC (andC (la 1) [lb 2])).and [lc 3]) (three_readable exA exB exC (Or.inl rfl) (Or.inl rfl)) rfl⟩

/-- C09 fails: `And(d, And(Or(a, b), c))` is `d OR (a OR b) AND c`; it is true on a row where only d holds. -/
theorem C09_join_word_false :
    let e := andC (orC (la 1) [lb 2]) [lc 3]
    (andC (ld 4) [e]).render 0 = .ok c!"d=$1 OR (a=$2 OR b=$3) AND c=$4" ∧ TextMeans e (exRow [c!"d"]) .f ∧
      TextMeans (andC (ld 4) [e]) (exRow [c!"d"]) .t :=
  ⟨rfl, means_of (c := andC (orC (la 1) [lb 2]) [lc 3]) (pair_readable exOr exC (Or.inl rfl)) rfl,
    means_of (c := andC (ld 4) [andC (orC (la 1) [lb 2]) [lc 3]])
      (three_readable exD exOr exC (Or.inr rfl) (Or.inl rfl)) rfl⟩

/-- C09 fails: `And(a, b, Or(c, d))` is `(a) AND (b AND c OR d)`; it is true on a row where b does not hold. -/
theorem C09_brackets_false :
    let e := orC (lc 3) [ld 4]
    (andC (la 1) [lb 2, e]).render 0 = .ok c!"(a=$1) AND (b=$2 AND c=$3 OR d=$4)" ∧
      TextMeans (lb 2) (exRow [c!"a", c!"d"]) .f ∧ TextMeans (andC (la 1) [lb 2, e]) (exRow [c!"a", c!"d"]) .t :=
  ⟨rfl, means_of exB rfl,
    means_of (c := andC (la 1) [lb 2, orC (lc 3) [ld 4]])
      (pair_readable (one_readable exA) (pair_readable exB (pair_readable exC exD (Or.inr rfl)) (Or.inl rfl)) (Or.inl rfl)) rfl⟩

/-! ## C10: Or -/

/-- C10: `Or(a, b)` and, unless a is IS NULL, `a.Or(b)` hold exactly when a or b holds (three-valued), for receivers and
arguments of the shapes `Cond.orRecv` and `Cond.orArg`.  Missing: negated groups, groups whose first member carries the
join word AND (flattened as they are), IS NULL as receiver of the method (it panics, C14), and several arguments, for which
it is false (`C10_exact`). -/
theorem C10_or_partial (c d : Cond) (row : Row) (x y : Tri) (hc : c.Readable) (hd : d.Readable) (hr : c.orRecv = true)
    (ha : d.orArg = true) (hx : TextMeans c row x) (hy : TextMeans d row y) :
    TextMeans (orC c [d]) row (x.or y) ∧
      ((∀ b fd, c ≠ .null b fd) → ∃ r, c.or [d] = .ok r ∧ TextMeans r row (x.or y)) := by
  rw [← (textMeans_iff c row x hc).mp hx, ← (textMeans_iff d row y hd).mp hy]
  have h := or_gives row c d lOR (Or.inr rfl) hc hd hr ha
  refine ⟨?_, ?_⟩
  · rw [or_function c [d] (by simp)]; exact gives_means (gives_join h lOR)
  · intro hn
    obtain ⟨r, h1, h2⟩ := or_method c [d] (by simp) hn
    refine ⟨r, h1, ?_⟩
    rcases h2 with rfl | rfl
    · exact gives_means h
    · exact gives_means (gives_join h lOR)

example : (andC (la 1) [lb 2]).orRecv = true ∧ (andC (lc 3) [ld 4]).orArg = true ∧
    (orC (andC (la 1) [lb 2]) [andC (lc 3) [ld 4]]).render 0 = .ok c!"(a=$1 AND b=$2) OR (c=$3 AND d=$4)" :=
  ⟨rfl, rfl, rfl⟩

/-- C10 and C09 for a `WhereClause` used by itself: `GroupOR(d)` is the disjunction of what it held and d, as `GroupAND` is the
conjunction (`C12_where_partial`), for the shapes of `C10_or_partial`. -/
theorem C10_where_partial (w : WhereClause) (d : Cond) (row : Row) (x y : Tri) (hc : w.group.toCond.Readable) (hd : d.Readable)
    (hr : w.group.toCond.orRecv = true) (ha : d.orArg = true) (hx : TextMeans w.group.toCond row x) (hy : TextMeans d row y) :
    TextMeans (w.groupOR [d]).group.toCond row (x.or y) := by
  obtain ⟨r, h, m⟩ := (C10_or_partial _ d row x y hc hd hr ha hx hy).2 fun b fd h => by
    simp only [Group.toCond] at h; cases h
  simp only [Group.toCond, Cond.or] at h
  cases h
  exact m

example : ∃ w : WhereClause, w = newWhere.groupAND [andC (la 1) [lb 2]] ∧ w.group.toCond.orRecv = true ∧ (lc 3).orArg = true ∧
    (w.groupOR [lc 3]).render 0 = .ok c!"a=$1 AND b=$2 OR c=$3" := ⟨_, rfl, rfl, rfl, rfl⟩

/-- C10 for plain conditions: Or of two leaves is their disjunction. -/
theorem C10_leaves (c d : Cond) (row : Row) (x y : Tri) (hc : c.Readable) (hd : d.Readable) (hl : c.isLeaf = true)
    (hl' : d.isLeaf = true) (hx : TextMeans c row x) (hy : TextMeans d row y) :
    TextMeans (orC c [d]) row (x.or y) ∧
      ((∀ b fd, c ≠ .null b fd) → ∃ r, c.or [d] = .ok r ∧ TextMeans r row (x.or y)) := by
  refine C10_or_partial c d row x y hc hd ?_ ?_ hx hy
  · cases c <;> first | exact hl | simp [Cond.isLeaf] at hl
  · cases d <;> first | exact hl' | simp [Cond.isLeaf] at hl'

/-- What Or with two or more additional conditions means: with a receiver that has an AND between members, the disjunction
of all; otherwise the conjunction of all.  Neither is documented (the receiver or the conjunction of the others). -/
theorem C10_exact (c d e : Cond) (ds : List Cond) (row : Row) (x : Tri) (y : Cond → Tri) (hc : c.Readable)
    (hd : ∀ z ∈ d :: e :: ds, z.Readable) (hr : c.orRecv = true) (hf : ∀ z ∈ d :: e :: ds, z.orFree = true)
    (hx : TextMeans c row x) (hy : ∀ z ∈ d :: e :: ds, TextMeans z row (y z)) :
    TextMeans (orC c (d :: e :: ds)) row
      (if c.recvAllOr then x.and (allOf ((d :: e :: ds).map y)) else x.or (anyOf ((d :: e :: ds).map y))) := by
  rw [← texts_sem hd hy, ← (textMeans_iff c row x hc).mp hx]
  have hg := recvG_read (j := lOR) (Or.inr rfl) hc
  have hn := orRecv_negate (recvG_orRecv (j := lOR) hc hr)
  have h := added_gives (or_many row (recvG lOR c) d e ds hg hd hn (fun _ => hf)) hn
  rw [recvG_sem, recvG_allOr hc] at h
  rw [or_function c _ (by simp)]
  exact gives_means (gives_join h lOR)

/-- C10 fails: `Or(a, b, c)` is `(a) AND (b AND c)`; it is false on a row where a holds and b does not. -/
theorem C10_many_false :
    (orC (la 1) [lb 2, lc 3]).render 0 = .ok c!"(a=$1) AND (b=$2 AND c=$3)" ∧ TextMeans (la 1) (exRow [c!"a"]) .t ∧
      TextMeans (orC (la 1) [lb 2, lc 3]) (exRow [c!"a"]) .f :=
  ⟨rfl, means_of exA rfl,
    means_of (c := orC (la 1) [lb 2, lc 3]) (pair_readable (one_readable exA) (pair_readable exB exC (Or.inl rfl)) (Or.inl rfl)) rfl⟩

/-- C10 fails: `Or(And(a, d), b, c)` is `a AND d OR b OR c`; it is true on a row where b holds but neither c nor d. -/
theorem C10_many_or_false :
    let g := andC (la 1) [ld 4]
    (orC g [lb 2, lc 3]).render 0 = .ok c!"a=$1 AND d=$2 OR b=$3 OR c=$4" ∧ TextMeans g (exRow [c!"b"]) .f ∧
      TextMeans (lc 3) (exRow [c!"b"]) .f ∧ TextMeans (orC g [lb 2, lc 3]) (exRow [c!"b"]) .t :=
  ⟨rfl, means_of (c := andC (la 1) [ld 4]) (pair_readable exA exD (Or.inl rfl)) rfl, means_of exC rfl,
    means_of (c := orC (andC (la 1) [ld 4]) [lb 2, lc 3])
      (three_readable exA exD (pair_readable exB exC (Or.inr rfl)) (Or.inl rfl) (Or.inr rfl)) rfl⟩

/-- C10 fails: `Or(a, Not(Or(b, c)))` is `a OR b OR c`, without the Not. -/
theorem C10_lost_not_false :
    let d := notC (orC (lb 2) [lc 3])
    (orC (la 1) [d]).render 0 = .ok c!"a=$1 OR b=$2 OR c=$3" ∧ TextMeans d (exRow []) .t ∧
      TextMeans (orC (la 1) [d]) (exRow []) .f :=
  ⟨rfl, means_of (c := notC (orC (lb 2) [lc 3])) (readable_setNegate (c := orC (lb 2) [lc 3]) true (pair_readable exB exC (Or.inr rfl))) rfl,
    means_of (c := orC (la 1) [notC (orC (lb 2) [lc 3])]) (three_readable exA exB exC (Or.inr rfl) (Or.inr rfl)) rfl⟩

/-! ## Chains -/

/-- C09 and C10 for chains of method calls of any length: starting from a leaf, each And or Or with one argument (a leaf, or
a group of the shapes `Cond.stepAnd`, `Cond.stepOr`) combines the meaning of everything before with that argument, so the
brackets in the text are those of the calls.  IS NULL must not receive the first Or (C14). -/
theorem C10_chain (c : Cond) (steps : List (Bool × Cond)) (row : Row) (x : Tri) (y : Cond → Tri) (hc : c.Readable)
    (hl : c.isLeaf = true) (hs : ∀ p ∈ steps, p.2.Readable ∧ (if p.1 then p.2.stepOr else p.2.stepAnd) = true)
    (hnull : ∀ b fd, c = .null b fd → ∀ p ∈ steps.head?, p.1 = false)
    (hx : TextMeans c row x) (hy : ∀ p ∈ steps, TextMeans p.2 row (y p.2)) :
    ∃ r, callChain c steps = .ok r ∧ TextMeans r row (chainMeans y x steps) := by
  obtain ⟨r, h1, h2⟩ := chain_run row y steps c x ⟨hc, (textMeans_iff c row x hc).mp hx, Or.inl hl⟩
    (fun p hp => ⟨(hs p hp).1, (textMeans_iff _ row _ (hs p hp).1).mp (hy p hp), (hs p hp).2⟩) hnull
  exact ⟨r, h1, means_of h2.read h2.sem⟩

example : (callChain (la 1) [(true, lb 2), (false, lc 3), (true, andC (la 4) [lb 5]), (true, ld 6)]).bind (·.render 0) =
    .ok c!"((a=$1 OR b=$2) AND c=$3) OR (a=$4 AND b=$5) OR d=$6" := rfl
example : (andC (la 4) [lb 5]).stepOr = true ∧ (lc 3).stepAnd = true := ⟨rfl, rfl⟩

/-! ## C12: Where -/

theorem where_base (q : BaseSelect) (calls : List (List Cond)) :
    (calls.foldl BaseSelect.addWhere q).where_.group = calls.foldl Group.groupAND q.where_.group := by
  induction calls generalizing q with
  | nil => rfl
  | cons ds calls ih => exact ih _

theorem where_update (q : UpdateB) (calls : List (List Cond)) :
    (calls.foldl UpdateB.addWhere q).where_ = calls.foldl Group.groupAND q.where_ := by
  induction calls generalizing q with
  | nil => rfl
  | cons ds calls ih => exact ih _

theorem where_delete (q : DeleteB) (calls : List (List Cond)) :
    (calls.foldl DeleteB.addWhere q).where_ = calls.foldl Group.groupAND q.where_ := by
  induction calls generalizing q with
  | nil => rfl
  | cons ds calls ih => exact ih _

theorem where_many_base (q : SelectMany) (calls : List (List Cond)) :
    (calls.foldl SelectMany.addWhere q).base = calls.foldl BaseSelect.addWhere q.base := by
  induction calls generalizing q with
  | nil => rfl
  | cons ds calls ih => exact ih _

theorem where_single_base (q : SelectSingle) (calls : List (List Cond)) :
    (calls.foldl SelectSingle.addWhere q).base = calls.foldl BaseSelect.addWhere q.base := by
  induction calls generalizing q with
  | nil => rfl
  | cons ds calls ih => exact ih _

theorem where_means {g : Group} (calls : List (List Cond)) (row : Row) (y : Cond → Tri) (h0 : g.conds = [])
    (h1 : g.base.negate = false) (hc : ∀ ds ∈ calls, ∀ d ∈ ds, d.Readable ∧ TextMeans d row (y d))
    (hw : whereCalls calls = true) (hne : calls.flatten ≠ []) :
    TextMeans (calls.foldl Group.groupAND g).toCond row (allOf (calls.flatten.map y)) := by
  have h := where_calls row calls g h0 h1 (fun ds hd c h => (hc ds hd c h).1) hw hne
  have e : calls.flatten.map (·.textSem row) = calls.flatten.map y := by
    refine texts_sem ?_ ?_
    all_goals
      intro d hd
      obtain ⟨ds, h1, h2⟩ := List.mem_flatten.mp hd
    · exact (hc ds h1 d h2).1
    · exact (hc ds h1 d h2).2
  rw [e] at h
  exact means_of (readable_toCond.mpr h.read) (by rw [toCond_sem row _ h.neg]; exact h.sem)

/-- C12: a chain of Where calls of any length on a new builder (SELECT, single SELECT, many SELECT, UPDATE, DELETE) is the
conjunction of all its conditions, for calls of the shapes `whereCalls`.  Missing: an Or in the first Where, several
conditions with an Or outside brackets, negated groups, and groups whose first member carries the join word OR, for which
it is false (`C12_or_false`, `C12_not_false`). -/
theorem C12_where_partial (calls : List (List Cond)) (row : Row) (y : Cond → Tri)
    (hc : ∀ ds ∈ calls, ∀ d ∈ ds, d.Readable ∧ TextMeans d row (y d)) (hw : whereCalls calls = true)
    (hne : calls.flatten ≠ []) (t : TableParam) :
    (∀ q, selectFrom t = .ok q →
      TextMeans (calls.foldl BaseSelect.addWhere q).where_.group.toCond row (allOf (calls.flatten.map y))) ∧
    (∀ q, selectManyFrom t = .ok q →
      TextMeans (calls.foldl SelectMany.addWhere q).base.where_.group.toCond row (allOf (calls.flatten.map y))) ∧
    (∀ q, selectSingleFrom t = .ok q →
      TextMeans (calls.foldl SelectSingle.addWhere q).base.where_.group.toCond row (allOf (calls.flatten.map y))) ∧
    TextMeans (calls.foldl UpdateB.addWhere (update t)).where_.toCond row (allOf (calls.flatten.map y)) ∧
    TextMeans (calls.foldl DeleteB.addWhere (delete t)).where_.toCond row (allOf (calls.flatten.map y)) := by
  have h : ∀ g : Group, g = newGroup lAND [] →
      TextMeans (calls.foldl Group.groupAND g).toCond row (allOf (calls.flatten.map y)) := by
    rintro g rfl
    exact where_means calls row y rfl rfl hc hw hne
  have hb : ∀ q, selectFrom t = .ok q → q.where_.group = newGroup lAND [] := by
    intro q hq
    unfold selectFrom at hq
    obtain ⟨_, _, h2⟩ := Res.bind_eq_ok.mp hq
    obtain rfl := Res.ok.inj h2
    rfl
  refine ⟨fun q hq => ?_, fun q hq => ?_, fun q hq => ?_, ?_, ?_⟩
  · rw [where_base]; exact h _ (hb q hq)
  · obtain ⟨b, h1, h2⟩ := Res.bind_eq_ok.mp hq
    obtain rfl := Res.ok.inj h2
    rw [where_many_base, where_base]; exact h _ (hb b h1)
  · obtain ⟨b, h1, h2⟩ := Res.bind_eq_ok.mp hq
    obtain rfl := Res.ok.inj h2
    rw [where_single_base, where_base]; exact h _ (hb b h1)
  · rw [where_update]; exact h _ rfl
  · rw [where_delete]; exact h _ rfl

/-- C12 for plain conditions: any chain of Where calls with leaves, each with join word AND as the constructors make them. -/
theorem C12_leaves (calls : List (List Cond)) (h : ∀ ds ∈ calls, ∀ d ∈ ds, d.isLeaf = true ∧ d.joinType = c!"AND") :
    whereCalls calls = true := by
  induction calls with
  | nil => rfl
  | cons ds calls ih =>
    cases ds with
    | nil => exact ih fun es he => h es (by simp [he])
    | cons d ds =>
      simp only [whereCalls, whereFirst, Bool.and_eq_true, List.all_eq_true, beq_iff_eq]
      refine ⟨⟨fun c hc => single_orFree c (leaf_single (h _ (by simp) c hc).1),
        fun c hc => (h _ (by simp) c (List.mem_of_mem_drop hc)).2⟩, fun es he => ?_⟩
      have hes := h es (by simp [he])
      match es, hes with
      | [], _ => rfl
      | [e], hes =>
        have := (hes e (by simp)).1
        cases e <;> first | exact this | simp [Cond.isLeaf] at this
      | e :: e' :: es, hes =>
        simp only [whereNext, List.all_eq_true]
        exact fun c hc => single_orFree c (leaf_single (hes c hc).1)

example : whereCalls [[la 1], [], [orC (lb 2) [lc 3]], [ld 4]] = true ∧
    ([[la 1], [], [orC (lb 2) [lc 3]], [ld 4]].foldl Group.groupAND newWhere.group).render 0 =
      .ok c!"a=$1 AND (b=$2 OR c=$3) AND d=$4" := ⟨rfl, rfl⟩

/-- C12 fails: `Where(Or(a, b)).Where(c)` is `a OR b AND c`; it selects rows on which c does not hold. -/
theorem C12_or_false :
    let g := ([[orC (la 1) [lb 2]], [lc 3]].foldl Group.groupAND newWhere.group).toCond
    g.render 0 = .ok c!"a=$1 OR b=$2 AND c=$3" ∧ TextMeans (lc 3) (exRow [c!"a"]) .f ∧ TextMeans g (exRow [c!"a"]) .t := by
  refine ⟨rfl, means_of exC rfl, ?_⟩
  refine means_of (c := ([[orC (la 1) [lb 2]], [lc 3]].foldl Group.groupAND newWhere.group).toCond) ?_ rfl
  exact pair_readable exOr exC (Or.inl rfl)

/-- C12 fails: `Where(a).Where(Not(And(b, c)))` is `a AND b AND c`, without the Not. -/
theorem C12_not_false :
    let d := notC (andC (lb 2) [lc 3])
    let g := ([[la 1], [d]].foldl Group.groupAND newWhere.group).toCond
    g.render 0 = .ok c!"a=$1 AND b=$2 AND c=$3" ∧ TextMeans (la 1) (exRow [c!"a"]) .t ∧
      TextMeans d (exRow [c!"a"]) .t ∧ TextMeans g (exRow [c!"a"]) .f := by
  refine ⟨rfl, means_of exA rfl, means_of (c := notC (andC (lb 2) [lc 3])) ?_ rfl, ?_⟩
  · exact readable_setNegate (c := andC (lb 2) [lc 3]) true (pair_readable exB exC (Or.inl rfl))
  · refine means_of (c := ([[la 1], [notC (andC (lb 2) [lc 3])]].foldl Group.groupAND newWhere.group).toCond) ?_ rfl
    exact three_readable exA exB exC (Or.inl rfl) (Or.inl rfl)

end Query
