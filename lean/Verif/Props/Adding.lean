import Verif.Proof.Adding
import Verif.Props.Logic
/-!
# C09, C10 and C12 exactly: And, Or and Where on any conditions
-/
namespace Query

theorem gives_group {row : Row} {g r : Group} {facs : List (Bool × Tri)} (h1 : ReadL r.conds) (h2 : r.base = g.base) (h3 : r.conds.length > 1)
    (h4 : Cond.sflatL row r.conds = facs) : Gives row r.toCond ((joinTri facs).notIf g.base.negate) :=
  ⟨readable_toCond.mpr h1, by rw [textSem_two row r h3, h4, h2]⟩

/-- **C09, exactly.**  For all readable conditions, negated or not, with or without brackets, one or several: the texts of
`c.And(ds...)` and `And(c, ds...)` have on every row the truth value of their factors as `andSem` says, and no other.  (In the shapes
of `C09_and_partial` this is the conjunction.) -/
theorem C09_exact (c : Cond) (ds : List Cond) (row : Row) (x : Tri) (hc : c.Readable) (hd : ∀ d ∈ ds, d.Readable ∧ d.Worded) :
    (TextMeans (c.and ds) row x ↔ x = andSem row c ds) ∧ (TextMeans (andC c ds) row x ↔ x = andSem row c ds) := by
  have key : Gives row (c.and ds) (andSem row c ds) ∧ Gives row (andC c ds) (andSem row c ds) := by
    cases ds with
    | nil => exact and_none row c hc
    | cons d ds =>
      have H := adds_and row (recvG lAND c) (d :: ds) (recvG_read (Or.inl rfl) hc) (by simp) hd
      have G := gives_group H.read H.base H.two H.facs
      rw [and_method c _ (by simp), and_function c _ (by simp)]
      have e : (recvG lAND c).base.negate = ((recvG lAND c).held row).neg := rfl
      rw [e, recvG_held row lAND false (by decide) c] at G
      exact ⟨G, G⟩
  constructor
  · rw [C08_exact _ row x key.1.read, key.1.sem]
  · rw [C08_exact _ row x key.2.read, key.2.sem]

/-- A negated disjunction takes the new condition inside its NOT, and in front of it stands its own text, NOT and all: the two NOTs. -/
example : ((notC (orC (la 1) [lb 2])).and [lc 3]).render 0 = .ok c!"NOT (NOT (a=$1 OR b=$2) AND c=$3)" ∧
    andSem (exRow []) (notC (orC (la 1) [lb 2])) [lc 3] = .t ∧ andSem (exRow [c!"c"]) (notC (orC (la 1) [lb 2])) [lc 3] = .f := ⟨rfl, rfl, rfl⟩
example : (notC (orC (la 1) [lb 2])).Readable ∧ (∀ d ∈ [lc 3], d.Readable ∧ d.Worded) := by
  refine ⟨readable_setNegate true exOr, fun d hd => ?_⟩
  simp only [List.mem_singleton] at hd
  subst hd
  exact ⟨exC, Or.inl rfl⟩

/-- **C10, exactly.**  For all readable conditions: the text of `Or(c, ds...)`, and unless `c` is IS NULL that of `c.Or(ds...)`, has on
every row the truth value `orSem` says, and no other. -/
theorem C10_or_exact (c : Cond) (ds : List Cond) (row : Row) (x : Tri) (hc : c.Readable) (hd : ∀ d ∈ ds, d.Readable ∧ d.Worded) :
    (TextMeans (orC c ds) row x ↔ x = orSem row c ds) ∧
    (ds ≠ [] → (∀ b fd, c ≠ .null b fd) → ∃ r, c.or ds = .ok r ∧ (TextMeans r row x ↔ x = orSem row c ds)) := by
  cases ds with
  | nil =>
    refine ⟨?_, fun h => absurd rfl h⟩
    have e : orC c [] = c.join lOR := rfl
    rw [e, C08_exact _ row x (readable_join _ hc), textSem_join]
    rfl
  | cons d ds =>
    obtain ⟨H1, H2, H3, H4⟩ := adds_or row (recvG lOR c) (d :: ds) (recvG_read (Or.inr rfl) hc) (by simp) hd
    have G := gives_group H1 H2 H3 H4
    have e : (recvG lOR c).base.negate = ((recvG lOR c).held row).neg := rfl
    rw [e, recvG_held row lOR true (by decide) c] at G
    have G' := gives_join G lOR
    constructor
    · rw [or_function c _ (by simp), C08_exact _ row x G'.read, G'.sem]; rfl
    · intro _ hnull
      obtain ⟨r, h1, h2 | h2⟩ := or_method c (d :: ds) (by simp) hnull
      · exact ⟨r, h1, by rw [h2, C08_exact _ row x G.read, G.sem]; rfl⟩
      · exact ⟨r, h1, by rw [h2, C08_exact _ row x G'.read, G'.sem]; rfl⟩

example : (orC (notC (andC (la 1) [lb 2])) [lc 3]).render 0 = .ok c!"NOT (NOT (a=$1 AND b=$2) OR c=$3)" ∧
    orSem (exRow [c!"c"]) (notC (andC (la 1) [lb 2])) [lc 3] = .f := ⟨rfl, rfl⟩

/-- **C12, exactly.**  For any chain of Where calls with any readable conditions on a new builder of any kind: the WHERE clause has on
every row the truth value `whereSem` says, and no other. -/
theorem C12_exact (calls : List (List Cond)) (row : Row) (x : Tri) (hc : ∀ ds ∈ calls, ∀ d ∈ ds, d.Readable ∧ d.Worded)
    (hne : calls.flatten ≠ []) (t : TableParam) :
    (∀ q, selectFrom t = .ok q →
      (TextMeans (calls.foldl BaseSelect.addWhere q).where_.group.toCond row x ↔ some x = whereSem row calls)) ∧
    (∀ q, selectManyFrom t = .ok q →
      (TextMeans (calls.foldl SelectMany.addWhere q).base.where_.group.toCond row x ↔ some x = whereSem row calls)) ∧
    (∀ q, selectSingleFrom t = .ok q →
      (TextMeans (calls.foldl SelectSingle.addWhere q).base.where_.group.toCond row x ↔ some x = whereSem row calls)) ∧
    (TextMeans (calls.foldl UpdateB.addWhere (update t)).where_.toCond row x ↔ some x = whereSem row calls) ∧
    (TextMeans (calls.foldl DeleteB.addWhere (delete t)).where_.toCond row x ↔ some x = whereSem row calls) := by
  have h : ∀ g : Group, g = newGroup lAND [] →
      (TextMeans (calls.foldl Group.groupAND g).toCond row x ↔ some x = whereSem row calls) := by
    rintro g rfl
    have H := whereHolds_calls row calls (newGroup lAND []) none ⟨rfl, rfl⟩ hc
    unfold whereSem
    cases e : calls.foldl (whereStep row) none with
    | none =>
      exfalso
      rw [e] at H
      have := whereStep_some row calls none (Or.inl hne)
      rw [e] at this; cases this
    | some s =>
      rw [e] at H
      obtain ⟨facs, noOr⟩ := s
      obtain ⟨h1, h2, h3, _⟩ := H
      rw [C08_exact _ row x (readable_toCond.mpr h1), toCond_sem row _ (by rw [h2]), h3]
      simp
  have hb : ∀ q, selectFrom t = .ok q → q.where_.group = newGroup lAND [] := by
    intro q hq
    unfold selectFrom at hq
    obtain ⟨_, _, h2⟩ := Res.bind_eq_ok.mp hq
    obtain rfl := Res.ok.inj h2
    rfl
  refine ⟨fun q hq => ?_, fun q hq => ?_, fun q hq => ?_, ?_, ?_⟩
  · rw [where_base]; exact h _ (hb q hq)
  · obtain ⟨b, h1, h2⟩ := Res.bind_eq_ok.mp hq
    obtain rfl := Res.ok.inj h2
    rw [where_many_base, where_base]; exact h _ (hb b h1)
  · obtain ⟨b, h1, h2⟩ := Res.bind_eq_ok.mp hq
    obtain rfl := Res.ok.inj h2
    rw [where_single_base, where_base]; exact h _ (hb b h1)
  · rw [where_update]; exact h _ rfl
  · rw [where_delete]; exact h _ rfl

/-- The chains of `C12_or_false` and `C12_not_false`, and one with several conditions after an OR. -/
example : whereSem (exRow [c!"a"]) [[orC (la 1) [lb 2]], [lc 3]] = some .t ∧
    whereSem (exRow [c!"a"]) [[la 1], [notC (andC (lb 2) [lc 3])]] = some .f ∧
    whereSem (exRow [c!"d"]) [[orC (la 1) [lb 2]], [], [lc 3, ld 4], [andC (la 5) [lb 6]]] = some .f := ⟨rfl, rfl, rfl⟩
example : (∀ ds ∈ [[orC (la 1) [lb 2]], [lc 3]], ∀ d ∈ ds, d.Readable ∧ d.Worded) ∧ [[orC (la 1) [lb 2]], [lc 3]].flatten ≠ [] := by
  refine ⟨fun ds hds d hd => ?_, by simp⟩
  simp only [List.mem_cons, List.not_mem_nil, or_false] at hds
  rcases hds with rfl | rfl <;> simp only [List.mem_cons, List.not_mem_nil, or_false] at hd <;> subst hd
  · exact ⟨exOr, Or.inr rfl, Or.inr rfl⟩
  · exact ⟨exC, Or.inl rfl⟩

end Query
