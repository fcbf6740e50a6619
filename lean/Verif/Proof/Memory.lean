import Verif.Spec.Memory
import Verif.Proof.HeapHistory
import Verif.Proof.Program
import Verif.Proof.Nested
/-!
# Programs as histories of calls: they run and extend no value twice
-/
namespace Query

/-! ## No value is extended twice -/

/-- Distinct numbers from `n` up to `n + k`. -/
def OwnNos (n k : Nat) (l : List Nat) : Prop := l.Nodup ∧ ∀ i ∈ l, n ≤ i ∧ i < n + k

theorem OwnNos.nil (n k : Nat) : OwnNos n k [] := ⟨List.nodup_nil, fun _ h => by cases h⟩

theorem OwnNos.append {n k k' : Nat} {l l' : List Nat} (h : OwnNos n k l) (h' : OwnNos (n + k) k' l') : OwnNos n (k + k') (l ++ l') := by
  refine ⟨List.nodup_append.2 ⟨h.1, h'.1, fun a ha b hb e => ?_⟩, fun i hi => ?_⟩
  · have := h.2 a ha
    have := h'.2 b hb
    omega
  · rcases List.mem_append.1 hi with hi | hi
    · have := h.2 i hi; omega
    · have := h'.2 i hi; omega

theorem OwnNos.snoc {n k i : Nat} {l : List Nat} (h : OwnNos n k l) (hi : n ≤ i ∧ i < n + k) (hn : i ∉ l) : OwnNos n (k + 1) (l ++ [i]) := by
  refine ⟨List.nodup_append.2 ⟨h.1, List.nodup_cons.2 ⟨by simp, List.nodup_nil⟩, fun a ha b hb e => ?_⟩, fun j hj => ?_⟩
  · rw [List.mem_singleton.1 hb] at e
    exact hn (e ▸ ha)
  · rcases List.mem_append.1 hj with hj | hj
    · have := h.2 j hj; omega
    · rw [List.mem_singleton.1 hj]; omega

theorem OwnNos.more {n k k' : Nat} {l : List Nat} (h : OwnNos n k l) (l' : k ≤ k') : OwnNos n k' l :=
  ⟨h.1, fun i hi => by have := h.2 i hi; omega⟩

/-- The values the calls extend. -/
def extNos (cs : List Call) : List Nat := cs.filterMap Call.extends

theorem extNos_append (cs cs' : List Call) : extNos (cs ++ cs') = extNos cs ++ extNos cs' := List.filterMap_append

/-- Calls from `n` on that extend only values of their own, each once, and the numbers `rs` not yet. -/
structure FreshCalls (n : Nat) (cs : List Call) (rs : List Nat) : Prop where
  own : OwnNos n cs.length (extNos cs)
  range : ∀ r ∈ rs, n ≤ r ∧ r < n + cs.length
  free : ∀ r ∈ rs, r ∉ extNos cs
  plain : ∀ c ∈ cs, c.noApply = true

/-- One more call on a free value, or on none. -/
theorem FreshCalls.call {n : Nat} {cs : List Call} {rs : List Nat} (h : FreshCalls n cs rs) (c : Call) (hp : c.noApply = true)
    (he : ∀ i, c.extends = some i → i ∈ rs) : FreshCalls n (cs ++ [c]) [n + cs.length] := by
  have e : extNos (cs ++ [c]) = extNos cs ++ (c.extends).toList := by
    rw [extNos_append]
    cases hc : c.extends <;> simp [extNos, hc]
  refine ⟨?_, ?_, ?_, ?_⟩
  · rw [e, List.length_append]
    cases hc : c.extends with
    | none => simpa using h.own.more (Nat.le_succ _)
    | some i => exact h.own.snoc (h.range i (he i hc)) (h.free i (he i hc))
  · intro r hr
    rw [List.mem_singleton.1 hr, List.length_append]
    simp
  · intro r hr hm
    rw [List.mem_singleton.1 hr, e] at hm
    rcases List.mem_append.1 hm with hm | hm
    · have := h.own.2 _ hm; omega
    · cases hc : c.extends with
      | none => rw [hc] at hm; cases hm
      | some i =>
        rw [hc] at hm
        have := h.range i (he i hc)
        simp at hm
        omega
  · intro x hx
    rcases List.mem_append.1 hx with hx | hx
    · exact h.plain x hx
    · rw [List.mem_singleton.1 hx]; exact hp

theorem FreshCalls.append {n : Nat} {cs cs' : List Call} {rs rs' : List Nat} (h : FreshCalls n cs rs) (h' : FreshCalls (n + cs.length) cs' rs') :
    FreshCalls n (cs ++ cs') (rs ++ rs') := by
  refine ⟨?_, ?_, ?_, ?_⟩
  · rw [extNos_append, List.length_append]
    exact h.own.append h'.own
  · intro r hr
    rw [List.length_append]
    rcases List.mem_append.1 hr with hr | hr
    · have := h.range r hr; omega
    · have := h'.range r hr; omega
  · intro r hr hm
    rw [extNos_append] at hm
    rcases List.mem_append.1 hr with hr | hr <;> rcases List.mem_append.1 hm with hm | hm
    · exact h.free r hr hm
    · have := h.range r hr; have := h'.own.2 _ hm; omega
    · have := h'.range r hr; have := h.own.2 _ hm; omega
    · exact h'.free r hr hm
  · intro c hc
    rcases List.mem_append.1 hc with hc | hc
    · exact h.plain c hc
    · exact h'.plain c hc

theorem FreshCalls.nil (n : Nat) : FreshCalls n [] [] :=
  ⟨.nil _ _, fun _ h => (by cases h), fun _ h => (by cases h), fun _ h => (by cases h)⟩

theorem FreshCalls.less {n : Nat} {cs : List Call} {rs rs' : List Nat} (h : FreshCalls n cs rs) (k : ∀ r ∈ rs', r ∈ rs) : FreshCalls n cs rs' :=
  ⟨h.own, fun r hr => h.range r (k r hr), fun r hr => h.free r (k r hr), h.plain⟩

mutual
theorem CondExp.trace_fresh : (e : CondExp) → (n : Nat) → FreshCalls n (e.trace n).1 [(e.trace n).2]
  | .test t, n => by
    simp only [CondExp.trace]
    exact (FreshCalls.nil n).call _ rfl (fun i h => by cases h)
  | .not e, n => by
    simp only [CondExp.trace]
    exact (e.trace_fresh n).call _ rfl fun i h => by cases h; exact List.mem_singleton.2 rfl
  | .unnot e, n => by
    simp only [CondExp.trace]
    exact (e.trace_fresh n).call _ rfl fun i h => by cases h; exact List.mem_singleton.2 rfl
  | .fn o e es, n => by
    simp only [CondExp.trace]
    have := ((e.trace_fresh n).append (CondExp.traceL_fresh es _)).call (if o then .orF (e.trace n).2 (CondExp.traceL (n + (e.trace n).1.length) es).2
      else .andF (e.trace n).2 (CondExp.traceL (n + (e.trace n).1.length) es).2) (by cases o <;> rfl)
      (fun i h => by cases o <;> cases h <;> exact List.mem_cons_self ..)
    rw [List.append_assoc, List.length_append, ← Nat.add_assoc] at this
    exact this
  | .method o e es, n => by
    simp only [CondExp.trace]
    have := ((e.trace_fresh n).append (CondExp.traceL_fresh es _)).call (if o then .or (e.trace n).2 (CondExp.traceL (n + (e.trace n).1.length) es).2
      else .and (e.trace n).2 (CondExp.traceL (n + (e.trace n).1.length) es).2) (by cases o <;> rfl)
      (fun i h => by cases o <;> cases h <;> exact List.mem_cons_self ..)
    rw [List.append_assoc, List.length_append, ← Nat.add_assoc] at this
    exact this
  | .group o es, n => by
    simp only [CondExp.trace]
    exact (CondExp.traceL_fresh es n).call _ rfl fun i h => by cases h
  | .joinAll o es, n => by
    simp only [CondExp.trace]
    refine (CondExp.traceL_fresh es n).call _ ?_ fun i h => ?_
    · split <;> rfl
    · split at h
      · rename_i j hj; cases h; rw [hj]; exact List.mem_singleton.2 rfl
      · cases h
  | .join o e, n => by
    simp only [CondExp.trace]
    exact (e.trace_fresh n).call _ rfl fun i h => by cases h; exact List.mem_singleton.2 rfl
  | .brackets e, n => by
    simp only [CondExp.trace]
    split
    · exact (e.trace_fresh n).call _ rfl fun i h => by cases h; exact List.mem_singleton.2 rfl
    · exact e.trace_fresh n
theorem CondExp.traceL_fresh : (es : List CondExp) → (n : Nat) → FreshCalls n (CondExp.traceL n es).1 (CondExp.traceL n es).2
  | [], n => by simp only [CondExp.traceL]; exact FreshCalls.nil n
  | e :: es, n => by
    simp only [CondExp.traceL]
    exact (e.trace_fresh n).append (CondExp.traceL_fresh es _)
end

/-! ## The calls run -/

theorem runPure_app {cs cs' : List Call} {ps ps1 ps' : List PV} (h : runPure ps cs = some ps1) (h' : runPure ps1 cs' = some ps') :
    runPure ps (cs ++ cs') = some ps' := by
  induction cs generalizing ps with
  | nil => cases h; exact h'
  | cons c cs ih =>
    simp only [List.cons_append, runPure] at h ⊢
    cases e : c.pure ps with
    | none => rw [e] at h; cases h
    | some p => rw [e] at h; exact ih h

/-- The calls run on `ps` and give `x` as the value with number `r`. -/
def GivesV (ps : List PV) (cs : List Call) (r : Nat) (x : PV) : Prop := ∃ ps', runPure ps cs = some ps' ∧ ps'[r]? = some x

/-- The calls run and give the conditions. -/
def GivesConds (ps : List PV) (cs : List Call) (rs : List Nat) (xs : List Cond) : Prop := ∃ ps', runPure ps cs = some ps' ∧ getConds ps' rs = some xs

theorem get_prefix {α : Type} {ps ps' : List α} (h : ps <+: ps') {i : Nat} {x : α} (e : ps[i]? = some x) : ps'[i]? = some x := by
  obtain ⟨t, rfl⟩ := h
  rw [List.getElem?_append_left (List.getElem?_eq_some_iff.1 e).1]
  exact e

theorem getConds_prefix {ps ps' : List PV} (h : ps <+: ps') : ∀ {rs : List Nat} {xs : List Cond}, getConds ps rs = some xs → getConds ps' rs = some xs
  | [], xs, e => e
  | r :: rs, xs, e => by
    simp only [getConds] at e ⊢
    split at e
    · rename_i h1 h2
      rw [get_prefix h h1, getConds_prefix h h2]
      exact e
    · cases e

theorem runPure_one {ps : List PV} {c : Call} {x : PV} (h : c.pure ps = some x) : runPure ps [c] = some (ps ++ [x]) := by
  simp only [runPure, h]

theorem last_get {ps : List PV} {n : Nat} {x : PV} (h : ps.length = n) : (ps ++ [x])[n]? = some x := by
  subst h; simp

/-- One more call. -/
theorem gives_call {ps : List PV} {cs : List Call} {c : Call} {ps' : List PV} {x : PV} {n : Nat} (hn : ps.length = n)
    (h : runPure ps cs = some ps') (hc : c.pure ps' = some x) : GivesV ps (cs ++ [c]) (n + cs.length) x :=
  ⟨ps' ++ [x], runPure_app h (runPure_one hc), last_get (by rw [(runPure_prefix _ _ _ h).2, hn])⟩

theorem test_leaf {t : Test} {c : Cond} (h : t.call = .ok c) : c.asGroup = none := by
  cases t with
  | cmp op x v w =>
    cases op <;> simp only [Test.call, equalTo, greaterThan, greaterOrEqual, less, lessOrEqual, mkField] at h <;>
      (obtain ⟨_, _, h⟩ := Res.bind_eq_ok.1 h; cases h; rfl)
  | isIn x v ws => simp only [Test.call, inC, mkField] at h; obtain ⟨_, _, h⟩ := Res.bind_eq_ok.1 h; cases h; rfl
  | has x s => simp only [Test.call, contains, mkField] at h; obtain ⟨_, _, h⟩ := Res.bind_eq_ok.1 h; cases h; rfl
  | ihas x s => simp only [Test.call, iContains, mkField] at h; obtain ⟨_, _, h⟩ := Res.bind_eq_ok.1 h; cases h; rfl
  | null x => simp only [Test.call, isNull] at h; obtain ⟨_, _, h⟩ := Res.bind_eq_ok.1 h; cases h; rfl


/-- The call `and` and `or` make. -/
def joinCall (o : Bool) (rs : List Nat) : Call :=
  match rs with
  | [i] => .join i (wordOf o)
  | is => .newGroup (wordOf o) is

theorem joinAll_pure {ps : List PV} {rs : List Nat} {ds : List Cond} {o : Bool} {c : Cond} (h : getConds ps rs = some ds)
    (hc : Query.joinAll (wordOf o) (ds.map some) = .ok c) : Call.pure ps (joinCall o rs) = some (.cond c) := by
  have len : ∀ {rs : List Nat} {ds : List Cond}, getConds ps rs = some ds → rs.length = ds.length := by
    intro rs
    induction rs with
    | nil => intro ds h; cases h; rfl
    | cons i is ih =>
      intro ds h
      simp only [getConds] at h
      split at h
      · rename_i e
        cases h
        simp only [List.length_cons, ih e]
      · cases h
  have hl := len h
  match rs, ds with
  | [], [] => simp [Query.joinAll] at hc
  | [], _ :: _ => simp at hl
  | [i], [] => simp at hl
  | [i], [d] =>
    simp only [getConds] at h
    split at h
    · rename_i e _
      cases h
      simp only [List.map, Query.joinAll, joinOneI, Res.ok.injEq] at hc
      simp only [joinCall, Call.pure, e, hc]
    · cases h
  | [i], _ :: _ :: _ => simp at hl
  | i :: j :: is, [] => simp at hl
  | i :: j :: is, [_] => simp at hl
  | i :: j :: is, d :: d' :: ds =>
    have e : Query.joinAll (wordOf o) ((d :: d' :: ds).map some) = (newGroupI (wordOf o) ((d :: d' :: ds).map some)).bind fun g => .ok g.toCond := rfl
    rw [e, newGroupI_some] at hc
    cases hc
    simp only [joinCall, Call.pure, h, Option.map_some]

mutual
theorem CondExp.trace_gives : (e : CondExp) → (n : Nat) → (ps : List PV) → ps.length = n → (c : Cond) → e.call = .ok c →
    GivesV ps (e.trace n).1 (e.trace n).2 (.cond c)
  | .test t, n, ps, hn, c, h => by
    simp only [CondExp.call] at h
    have hl := test_leaf h
    simp only [CondExp.trace, h, Res.gave]
    exact gives_call (cs := []) hn rfl (by simp only [Call.pure, hl]; rfl)
  | .not e, n, ps, hn, c, h => by
    simp only [CondExp.call] at h
    obtain ⟨d, hd, h⟩ := Res.bind_eq_ok.1 h
    cases h
    obtain ⟨ps', h1, h2⟩ := e.trace_gives n ps hn d hd
    simp only [CondExp.trace]
    exact gives_call hn h1 (by simp only [Call.pure, h2]; rfl)
  | .unnot e, n, ps, hn, c, h => by
    simp only [CondExp.call] at h
    obtain ⟨d, hd, h⟩ := Res.bind_eq_ok.1 h
    cases h
    obtain ⟨ps', h1, h2⟩ := e.trace_gives n ps hn d hd
    simp only [CondExp.trace]
    exact gives_call hn h1 (by simp only [Call.pure, h2])
  | .fn o e es, n, ps, hn, c, h => by
    simp only [CondExp.call] at h
    obtain ⟨d, hd, h⟩ := Res.bind_eq_ok.1 h
    obtain ⟨ds, hds, h⟩ := Res.bind_eq_ok.1 h
    cases h
    obtain ⟨ps1, h1, h2⟩ := e.trace_gives n ps hn d hd
    have hl1 := (runPure_prefix _ _ _ h1).2
    rw [hn] at hl1
    obtain ⟨ps2, h3, h4⟩ := CondExp.traceL_gives es _ ps1 hl1 ds hds
    have h2 := get_prefix (runPure_prefix _ _ _ h3).1 h2
    simp only [CondExp.trace]
    have := gives_call (c := if o then .orF (e.trace n).2 (CondExp.traceL (n + (e.trace n).1.length) es).2
      else .andF (e.trace n).2 (CondExp.traceL (n + (e.trace n).1.length) es).2) (x := .cond (if o then orC d ds else andC d ds)) hn
      (runPure_app h1 h3) (by cases o <;> simp [Call.pure, h2, h4])
    rw [List.append_assoc, List.length_append, ← Nat.add_assoc] at this
    exact this
  | .method o e es, n, ps, hn, c, h => by
    simp only [CondExp.call] at h
    obtain ⟨d, hd, h⟩ := Res.bind_eq_ok.1 h
    obtain ⟨ds, hds, h⟩ := Res.bind_eq_ok.1 h
    obtain ⟨ps1, h1, h2⟩ := e.trace_gives n ps hn d hd
    have hl1 := (runPure_prefix _ _ _ h1).2
    rw [hn] at hl1
    obtain ⟨ps2, h3, h4⟩ := CondExp.traceL_gives es _ ps1 hl1 ds hds
    have h2 := get_prefix (runPure_prefix _ _ _ h3).1 h2
    simp only [CondExp.trace]
    have := gives_call (c := if o then .or (e.trace n).2 (CondExp.traceL (n + (e.trace n).1.length) es).2
      else .and (e.trace n).2 (CondExp.traceL (n + (e.trace n).1.length) es).2) (x := .cond c) hn
      (runPure_app h1 h3) (by
        cases o
        · simp only [Bool.false_eq_true, if_false, Res.ok.injEq] at h
          subst h
          simp [Call.pure, h2, h4]
        · simp only [if_true] at h
          simp [Call.pure, h2, h4, h, Res.toOption])
    rw [List.append_assoc, List.length_append, ← Nat.add_assoc] at this
    exact this
  | .group o es, n, ps, hn, c, h => by
    simp only [CondExp.call] at h
    obtain ⟨ds, hds, h⟩ := Res.bind_eq_ok.1 h
    cases h
    obtain ⟨ps1, h1, h2⟩ := CondExp.traceL_gives es n ps hn ds hds
    simp only [CondExp.trace]
    exact gives_call hn h1 (by simp only [Call.pure, h2]; rfl)
  | .joinAll o es, n, ps, hn, c, h => by
    simp only [CondExp.call] at h
    obtain ⟨ds, hds, h⟩ := Res.bind_eq_ok.1 h
    obtain ⟨ps1, h1, h2⟩ := CondExp.traceL_gives es n ps hn ds hds
    simp only [CondExp.trace]
    exact gives_call hn h1 (joinAll_pure h2 h)
  | .join o e, n, ps, hn, c, h => by
    simp only [CondExp.call] at h
    obtain ⟨d, hd, h⟩ := Res.bind_eq_ok.1 h
    cases h
    obtain ⟨ps', h1, h2⟩ := e.trace_gives n ps hn d hd
    simp only [CondExp.trace]
    exact gives_call hn h1 (by simp only [Call.pure, h2])
  | .brackets e, n, ps, hn, c, h => by
    simp only [CondExp.call] at h
    obtain ⟨d, hd, h⟩ := Res.bind_eq_ok.1 h
    cases h
    have ih := e.trace_gives n ps hn d hd
    simp only [CondExp.trace, hd]
    cases d with
    | group b cs br =>
      obtain ⟨ps', h1, h2⟩ := ih
      exact gives_call hn h1 (by simp only [Call.pure, h2]; rfl)
    | _ => exact ih
theorem CondExp.traceL_gives : (es : List CondExp) → (n : Nat) → (ps : List PV) → ps.length = n → (cs : List Cond) → CondExp.callL es = .ok cs →
    GivesConds ps (CondExp.traceL n es).1 (CondExp.traceL n es).2 cs
  | [], n, ps, hn, cs, h => by
    simp only [CondExp.callL] at h
    cases h
    simp only [CondExp.traceL]
    exact ⟨ps, rfl, rfl⟩
  | e :: es, n, ps, hn, cs, h => by
    simp only [CondExp.callL] at h
    obtain ⟨d, hd, h⟩ := Res.bind_eq_ok.1 h
    obtain ⟨ds, hds, h⟩ := Res.bind_eq_ok.1 h
    cases h
    obtain ⟨ps1, h1, h2⟩ := e.trace_gives n ps hn d hd
    have hl1 := (runPure_prefix _ _ _ h1).2
    rw [hn] at hl1
    obtain ⟨ps2, h3, h4⟩ := CondExp.traceL_gives es _ ps1 hl1 ds hds
    simp only [CondExp.traceL]
    exact ⟨ps2, runPure_app h1 h3, by simp only [getConds, get_prefix (runPure_prefix _ _ _ h3).1 h2, h4]⟩
end


/-! ## Builders -/

/-- Calls from `n` on that extend the value `r` made before and values of their own, each once; the result `r'` is not extended, and
is `r` if there are no calls. -/
structure FreshOn (n r : Nat) (cs : List Call) (r' : Nat) : Prop where
  own : (extNos cs).Nodup ∧ ∀ i ∈ extNos cs, i = r ∨ n ≤ i ∧ i < n + cs.length
  range : r' = r ∨ n ≤ r' ∧ r' < n + cs.length
  free : r' ∉ extNos cs
  plain : ∀ c ∈ cs, c.noApply = true

theorem FreshOn.nil (n r : Nat) : FreshOn n r [] r := ⟨⟨List.nodup_nil, (fun _ h => by cases h)⟩, .inl rfl, (fun h => by cases h), (fun _ h => by cases h)⟩

/-- Arguments, then the call on the builder. -/
theorem FreshCalls.on {n r : Nat} {cs : List Call} {rs : List Nat} (h : FreshCalls n cs rs) (hr : r < n) (c : Call) (hp : c.noApply = true)
    (he : c.extends = some r) : FreshOn n r (cs ++ [c]) (n + cs.length) := by
  have e : extNos (cs ++ [c]) = extNos cs ++ [r] := by rw [extNos_append]; simp [extNos, he]
  refine ⟨⟨?_, ?_⟩, .inr (by simp), ?_, ?_⟩
  · rw [e]
    refine List.nodup_append.2 ⟨h.own.1, List.nodup_cons.2 ⟨by simp, List.nodup_nil⟩, fun a ha b hb k => ?_⟩
    have := h.own.2 a ha
    rw [List.mem_singleton.1 hb] at k
    omega
  · intro i hi
    rw [e] at hi
    rw [List.length_append]
    rcases List.mem_append.1 hi with hi | hi
    · have := h.own.2 i hi; right; omega
    · exact .inl (List.mem_singleton.1 hi)
  · intro hm
    rw [e] at hm
    rcases List.mem_append.1 hm with hm | hm
    · have := h.own.2 _ hm; omega
    · have := List.mem_singleton.1 hm; omega
  · intro x hx
    rcases List.mem_append.1 hx with hx | hx
    · exact h.plain x hx
    · rw [List.mem_singleton.1 hx]; exact hp

theorem FreshOn.then {n r r' r'' : Nat} {cs cs' : List Call} (hr : r < n) (h : FreshOn n r cs r') (h' : FreshOn (n + cs.length) r' cs' r'') :
    FreshOn n r (cs ++ cs') r'' := by
  have len : (cs ++ cs').length = cs.length + cs'.length := List.length_append
  refine ⟨⟨?_, ?_⟩, ?_, ?_, ?_⟩
  · rw [extNos_append]
    refine List.nodup_append.2 ⟨h.own.1, h'.own.1, fun a ha b hb k => ?_⟩
    subst k
    rcases h'.own.2 a hb with rfl | hb
    · exact h.free ha
    · rcases h.own.2 a ha with rfl | ha <;> omega
  · intro i hi
    rw [extNos_append] at hi
    rcases List.mem_append.1 hi with hi | hi
    · rcases h.own.2 i hi with e | e
      · exact .inl e
      · right; omega
    · rcases h'.own.2 i hi with e | e
      · rcases h.range with k | k
        · exact .inl (e.trans k)
        · right; omega
      · right; omega
  · rcases h'.range with e | e
    · rcases h.range with k | k
      · exact .inl (e.trans k)
      · right; omega
    · right; omega
  · intro hm
    rw [extNos_append] at hm
    rcases List.mem_append.1 hm with hm | hm
    · rcases h'.range with e | e
      · exact h.free (e ▸ hm)
      · rcases h.own.2 _ hm with k | k <;> omega
    · exact h'.free hm
  · intro x hx
    rcases List.mem_append.1 hx with hx | hx
    · exact h.plain x hx
    · exact h'.plain x hx

theorem NSCall.trace_fresh {n r : Nat} (hr : r < n) : ∀ c : NSCall, FreshOn n r (c.trace n r).1 (c.trace n r).2
  | .addWhere es => by simp only [NSCall.trace]; exact (CondExp.traceL_fresh es n).on hr _ rfl rfl
  | .other (.fields l) => (FreshCalls.nil n).on hr _ rfl rfl
  | .other (.join k t x y) => ((FreshCalls.nil n).on hr _ rfl rfl).then (cs' := [_]) hr ((FreshCalls.nil (n + 1)).on (Nat.lt_succ_self n) _ rfl rfl)
  | .other (.orderBy ks) => (FreshCalls.nil n).on hr _ rfl rfl
  | .other (.offset k) => (FreshCalls.nil n).on hr _ rfl rfl
  | .other (.limit k) => (FreshCalls.nil n).on hr _ rfl rfl
  | .other (.addWhere _) => FreshOn.nil n r

theorem FreshOn.lt {n r r' : Nat} {cs : List Call} (hr : r < n) (h : FreshOn n r cs r') : r' < n + cs.length := by
  rcases h.range with e | e <;> omega

theorem NSCall.traceAll_fresh : ∀ (cs : List NSCall) (n r : Nat), r < n → FreshOn n r (NSCall.traceAll n r cs).1 (NSCall.traceAll n r cs).2
  | [], n, r, _ => FreshOn.nil n r
  | c :: cs, n, r, hr => by
    simp only [NSCall.traceAll]
    have k := c.trace_fresh hr
    exact k.then hr (NSCall.traceAll_fresh cs _ _ (k.lt hr))

theorem NUCall.trace_fresh {n r : Nat} (hr : r < n) : ∀ c : NUCall, FreshOn n r (c.trace n r).1 (c.trace n r).2
  | .addWhere es => by simp only [NUCall.trace]; exact (CondExp.traceL_fresh es n).on hr _ rfl rfl
  | .set l => (FreshCalls.nil n).on hr _ rfl rfl

theorem NUCall.traceAll_fresh : ∀ (cs : List NUCall) (n r : Nat), r < n → FreshOn n r (NUCall.traceAll n r cs).1 (NUCall.traceAll n r cs).2
  | [], n, r, _ => FreshOn.nil n r
  | c :: cs, n, r, hr => by
    simp only [NUCall.traceAll]
    have k := c.trace_fresh hr
    exact k.then hr (NUCall.traceAll_fresh cs _ _ (k.lt hr))

theorem NDeleteProg.traceAll_fresh : ∀ (cs : List (List CondExp)) (n r : Nat), r < n →
    FreshOn n r (NDeleteProg.traceAll n r cs).1 (NDeleteProg.traceAll n r cs).2
  | [], n, r, _ => FreshOn.nil n r
  | es :: cs, n, r, hr => by
    simp only [NDeleteProg.traceAll]
    have k := (CondExp.traceL_fresh es n).on hr (.where_ r (CondExp.traceL n es).2) rfl rfl
    have := k.then hr (by
      rw [List.length_append]
      exact NDeleteProg.traceAll_fresh cs _ _ (Nat.lt_succ_self _))
    rw [List.append_assoc] at this
    exact this

theorem InsertProg.traceAll_fresh : ∀ (cs : List (List SetTo)) (n r : Nat), r < n →
    FreshOn n r (InsertProg.traceAll n r cs).1 (InsertProg.traceAll n r cs).2
  | [], n, r, _ => FreshOn.nil n r
  | l :: cs, n, r, hr => by
    simp only [InsertProg.traceAll]
    exact ((FreshCalls.nil n).on hr (.values r (setsOf l)) rfl rfl).then hr (InsertProg.traceAll_fresh cs _ _ (Nat.lt_succ_self n))

theorem FreshOn.free_call {n r : Nat} (c : Call) (hp : c.noApply = true) (he : c.extends = none) : FreshOn n r [c] n := by
  have e : extNos [c] = [] := by simp [extNos, he]
  refine ⟨⟨?_, ?_⟩, .inr ⟨Nat.le_refl _, by simp⟩, ?_, ?_⟩
  · rw [e]; exact List.nodup_nil
  · rw [e]; exact fun _ h => (by cases h)
  · rw [e]; exact fun h => (by cases h)
  · intro x hx
    rw [List.mem_singleton.1 hx]
    exact hp

theorem SelKind.toBase_fresh {n r : Nat} (hr : r < n) : ∀ k : SelKind, FreshOn n r (k.toBase n r).1 (k.toBase n r).2
  | .base => FreshOn.nil n r
  | .single => (FreshCalls.nil n).on hr _ rfl rfl
  | .many => (FreshCalls.nil n).on hr _ rfl rfl

/-- The base select, then a call that extends it. -/
theorem SelKind.toBase_then {n r : Nat} (hr : r < n) (k : SelKind) (c : Call) (hp : c.noApply = true)
    (he : c.extends = some (k.toBase n r).2) : FreshOn n r ((k.toBase n r).1 ++ [c]) (n + (k.toBase n r).1.length) :=
  (k.toBase_fresh hr).then hr ((FreshCalls.nil _).on ((k.toBase_fresh hr).lt hr) _ hp he)

theorem KCall.trace_fresh {n r : Nat} (hr : r < n) (k : SelKind) : ∀ c : KCall, FreshOn n r (c.trace k n r).1 (c.trace k n r).2
  | .single => SelKind.toBase_then hr k _ rfl rfl
  | .many => SelKind.toBase_then hr k _ rfl rfl
  | .call c => by
    simp only [KCall.trace]
    split
    · have h1 := SelKind.toBase_then hr k (.many (k.toBase n r).2) rfl rfl
      have h2 := h1.then hr (cs' := (c.trace (n + (k.toBase n r).1.length + 1) (n + (k.toBase n r).1.length)).1)
        (r'' := (c.trace (n + (k.toBase n r).1.length + 1) (n + (k.toBase n r).1.length)).2) (by
          rw [List.length_append]
          exact c.trace_fresh (Nat.lt_succ_self _))
      rw [List.append_assoc] at h2
      exact h2
    · exact c.trace_fresh hr

theorem KCall.traceAll_fresh : ∀ (cs : List KCall) (k : SelKind) (n r : Nat), r < n →
    FreshOn n r (KCall.traceAll k n r cs).1 (KCall.traceAll k n r cs).2
  | [], _, n, r, _ => FreshOn.nil n r
  | c :: cs, k, n, r, hr => by
    simp only [KCall.traceAll]
    have f := c.trace_fresh hr k
    exact f.then hr (KCall.traceAll_fresh cs _ _ _ (f.lt hr))

theorem KEnd.trace_fresh {n r : Nat} (hr : r < n) (k : SelKind) : ∀ e : KEnd, FreshOn n r (e.trace k n r).1 (e.trace k n r).2
  | .read => FreshOn.nil n r
  | .count => by
    cases k
    · exact FreshOn.free_call _ rfl rfl
    · exact ((FreshCalls.nil n).on hr (.embedded r) rfl rfl).then (cs' := [_]) hr (FreshOn.free_call (.count n []) rfl rfl)
    · exact FreshOn.free_call _ rfl rfl
  | .countCol c more => by
    cases k
    · exact FreshOn.free_call _ rfl rfl
    · exact ((FreshCalls.nil n).on hr (.embedded r) rfl rfl).then (cs' := [_]) hr (FreshOn.free_call (.count n (c.text :: more)) rfl rfl)
    · exact FreshOn.free_call _ rfl rfl
  | .delete more => (FreshOn.free_call (.deleteFrom r) rfl rfl).then (cs := [_]) hr (NDeleteProg.traceAll_fresh more _ _ (Nat.lt_succ_self n))
  | .update sets more => (FreshOn.free_call (.updateFrom r (setsOf sets)) rfl rfl).then (cs := [_]) hr (NUCall.traceAll_fresh more _ _ (Nat.lt_succ_self n))
  | .insert sets more => by
    have h1 := (k.toBase_fresh hr).then hr (FreshOn.free_call (.insertFrom (k.toBase n r).2 (setsOf sets)) rfl rfl)
    have h2 := h1.then hr (cs' := (InsertProg.traceAll (n + (k.toBase n r).1.length + 1) (n + (k.toBase n r).1.length) more).1)
      (r'' := (InsertProg.traceAll (n + (k.toBase n r).1.length + 1) (n + (k.toBase n r).1.length) more).2) (by
        rw [List.length_append]
        exact InsertProg.traceAll_fresh more _ _ (Nat.lt_succ_self _))
    rw [List.append_assoc] at h2
    exact h2

/-! ## They run -/

theorem gave_ok {α : Type} {r : Res α} {a d : α} (h : r = .ok a) : r.gave d = a := by rw [h]; rfl

theorem NSCall.trace_gives {n r : Nat} {ps : List PV} {q q' : SelectMany} (hn : ps.length = n) (hr : ps[r]? = some (.many q)) :
    ∀ (c : NSCall), c.OK → c.run q = .ok q' → GivesV ps (c.trace n r).1 (c.trace n r).2 (.many q')
  | .addWhere es, _, h => by
    simp only [NSCall.run] at h
    obtain ⟨ds, hds, h⟩ := Res.bind_eq_ok.1 h
    cases h
    obtain ⟨ps1, h1, h2⟩ := CondExp.traceL_gives es n ps hn ds hds
    simp only [NSCall.trace]
    exact gives_call hn h1 (by simp only [Call.pure, get_prefix (runPure_prefix _ _ _ h1).1 hr, h2])
  | .other (.fields l), _, h => by
    simp only [NSCall.run, SCall.run] at h
    obtain ⟨ds, hds, h⟩ := Res.bind_eq_ok.1 h
    cases h
    exact gives_call (cs := []) hn rfl (by simp only [Call.pure, hr, fieldsOf, gave_ok hds])
  | .other (.join k t x y), _, h => by
    simp only [NSCall.run, SCall.run, SelectMany.join] at h
    obtain ⟨q1, h1, h⟩ := Res.bind_eq_ok.1 h
    obtain ⟨t', ht, h1⟩ := Res.bind_eq_ok.1 h1
    cases h1
    obtain ⟨x', hx, h⟩ := Res.bind_eq_ok.1 h
    obtain ⟨y', hy, h⟩ := Res.bind_eq_ok.1 h
    have e1 := runPure_one (ps := ps) (c := .joinTable r t' k.type) (x := .joinM (q.joinIdent t' k.type)) (by simp only [Call.pure, hr])
    have := gives_call (c := .on n x' y') (x := .many q') hn e1 (by simp only [Call.pure, last_get hn, h, Res.toOption, Option.map_some])
    simp only [NSCall.trace, gave_ok ht, gave_ok hx, gave_ok hy]
    exact this
  | .other (.orderBy ks), _, h => by
    simp only [NSCall.run, SCall.run] at h
    obtain ⟨ds, hds, h⟩ := Res.bind_eq_ok.1 h
    cases h
    exact gives_call (cs := []) hn rfl (by simp only [Call.pure, hr, keysOf, gave_ok hds])
  | .other (.offset k), _, h => by
    cases h
    exact gives_call (cs := []) hn rfl (by simp only [Call.pure, hr])
  | .other (.limit k), _, h => by
    cases h
    exact gives_call (cs := []) hn rfl (by simp only [Call.pure, hr])
  | .other (.addWhere cs), hok, _ => by cases hok.2

theorem GivesV.then {ps : List PV} {cs cs' : List Call} {r r' n : Nat} {x y : PV} (hn : ps.length = n) (h : GivesV ps cs r x)
    (h' : ∀ ps', ps'.length = n + cs.length → ps'[r]? = some x → GivesV ps' cs' r' y) : GivesV ps (cs ++ cs') r' y := by
  obtain ⟨ps1, h1, h2⟩ := h
  obtain ⟨ps2, h3, h4⟩ := h' ps1 (by rw [(runPure_prefix _ _ _ h1).2, hn]) h2
  exact ⟨ps2, runPure_app h1 h3, h4⟩

theorem NSCall.traceAll_gives : ∀ (cs : List NSCall) (n r : Nat) (ps : List PV) (q q' : SelectMany), ps.length = n → ps[r]? = some (.many q) →
    (∀ c ∈ cs, c.OK) → NSCall.runAll q cs = .ok q' → GivesV ps (NSCall.traceAll n r cs).1 (NSCall.traceAll n r cs).2 (.many q')
  | [], n, r, ps, q, q', hn, hr, _, h => by cases h; exact ⟨ps, rfl, hr⟩
  | c :: cs, n, r, ps, q, q', hn, hr, ok, h => by
    simp only [NSCall.runAll] at h
    obtain ⟨q1, h1, h⟩ := Res.bind_eq_ok.1 h
    simp only [NSCall.traceAll]
    exact (NSCall.trace_gives hn hr c (ok c (List.mem_cons_self ..)) h1).then hn fun ps' hn' hr' =>
      NSCall.traceAll_gives cs _ _ ps' q1 q' hn' hr' (fun x hx => ok x (List.mem_cons_of_mem _ hx)) h

theorem NUCall.trace_gives {n r : Nat} {ps : List PV} {q q' : UpdateB} (hn : ps.length = n) (hr : ps[r]? = some (.update q)) :
    ∀ (c : NUCall), c.run q = .ok q' → GivesV ps (c.trace n r).1 (c.trace n r).2 (.update q')
  | .addWhere es, h => by
    simp only [NUCall.run] at h
    obtain ⟨ds, hds, h⟩ := Res.bind_eq_ok.1 h
    cases h
    obtain ⟨ps1, h1, h2⟩ := CondExp.traceL_gives es n ps hn ds hds
    simp only [NUCall.trace]
    exact gives_call hn h1 (by simp only [Call.pure, get_prefix (runPure_prefix _ _ _ h1).1 hr, h2])
  | .set l, h => by
    simp only [NUCall.run] at h
    obtain ⟨ds, hds, h⟩ := Res.bind_eq_ok.1 h
    cases h
    exact gives_call (cs := []) hn rfl (by simp only [Call.pure, hr, setsOf, gave_ok hds])

theorem NUCall.traceAll_gives : ∀ (cs : List NUCall) (n r : Nat) (ps : List PV) (q q' : UpdateB), ps.length = n → ps[r]? = some (.update q) →
    NUCall.runAll q cs = .ok q' → GivesV ps (NUCall.traceAll n r cs).1 (NUCall.traceAll n r cs).2 (.update q')
  | [], n, r, ps, q, q', hn, hr, h => by cases h; exact ⟨ps, rfl, hr⟩
  | c :: cs, n, r, ps, q, q', hn, hr, h => by
    simp only [NUCall.runAll] at h
    obtain ⟨q1, h1, h⟩ := Res.bind_eq_ok.1 h
    simp only [NUCall.traceAll]
    exact (NUCall.trace_gives hn hr c h1).then hn fun ps' hn' hr' => NUCall.traceAll_gives cs _ _ ps' q1 q' hn' hr' h

theorem NDeleteProg.traceAll_gives : ∀ (cs : List (List CondExp)) (n r : Nat) (ps : List PV) (q q' : DeleteB), ps.length = n →
    ps[r]? = some (.delete q) → NDeleteProg.runAll q cs = .ok q' →
    GivesV ps (NDeleteProg.traceAll n r cs).1 (NDeleteProg.traceAll n r cs).2 (.delete q')
  | [], n, r, ps, q, q', hn, hr, h => by cases h; exact ⟨ps, rfl, hr⟩
  | es :: cs, n, r, ps, q, q', hn, hr, h => by
    simp only [NDeleteProg.runAll] at h
    obtain ⟨ds, hds, h⟩ := Res.bind_eq_ok.1 h
    obtain ⟨ps1, h1, h2⟩ := CondExp.traceL_gives es n ps hn ds hds
    simp only [NDeleteProg.traceAll]
    have := (gives_call (c := .where_ r (CondExp.traceL n es).2) (x := .delete (q.addWhere ds)) hn h1
      (by simp only [Call.pure, get_prefix (runPure_prefix _ _ _ h1).1 hr, h2])).then hn fun ps' hn' hr' =>
      NDeleteProg.traceAll_gives cs (n + (CondExp.traceL n es).1.length + 1) _ ps' _ q' (by rw [hn', List.length_append]; rfl) hr' h
    rw [List.append_assoc] at this
    exact this

theorem InsertProg.traceAll_gives : ∀ (cs : List (List SetTo)) (n r : Nat) (ps : List PV) (q q' : InsertB), ps.length = n →
    ps[r]? = some (.insert q) → InsertProg.runCalls q cs = .ok q' →
    GivesV ps (InsertProg.traceAll n r cs).1 (InsertProg.traceAll n r cs).2 (.insert q')
  | [], n, r, ps, q, q', hn, hr, h => by cases h; exact ⟨ps, rfl, hr⟩
  | l :: cs, n, r, ps, q, q', hn, hr, h => by
    simp only [InsertProg.runCalls] at h
    obtain ⟨ds, hds, h⟩ := Res.bind_eq_ok.1 h
    simp only [InsertProg.traceAll]
    exact (gives_call (cs := []) (c := .values r (setsOf l)) (x := .insert (q.addValues ds)) hn rfl
      (by simp only [Call.pure, hr, setsOf, gave_ok hds])).then hn fun ps' hn' hr' =>
      InsertProg.traceAll_gives cs _ _ ps' _ q' hn' hr' h

/-- A select of any kind as a value. -/
def SelB.pv : SelB → PV
  | .base q => .base q
  | .single q => .single q
  | .many q => .many q

/-- The builder it embeds. -/
def SelB.core : SelB → BaseSelect
  | .base q => q
  | .single q => q.base
  | .many q => q.base

theorem SelB.toBase_gives {n r : Nat} {ps : List PV} {b : SelB} (hn : ps.length = n) (hr : ps[r]? = some b.pv) :
    GivesV ps (b.kind.toBase n r).1 (b.kind.toBase n r).2 (.base b.core) := by
  cases b with
  | base q => exact ⟨ps, rfl, hr⟩
  | single q => exact gives_call (cs := []) (c := .embedded r) hn rfl (by simp only [Call.pure, hr, SelB.pv]; rfl)
  | many q => exact gives_call (cs := []) (c := .embedded r) hn rfl (by simp only [Call.pure, hr, SelB.pv]; rfl)

/-- A call on the embedded builder. -/
theorem SelB.onBase_gives {n r : Nat} {ps : List PV} {b : SelB} {x : PV} (hn : ps.length = n) (hr : ps[r]? = some b.pv) (c : Call)
    (hc : ∀ ps' : List PV, ps'[(b.kind.toBase n r).2]? = some (.base b.core) → c.pure ps' = some x) :
    GivesV ps ((b.kind.toBase n r).1 ++ [c]) (n + (b.kind.toBase n r).1.length) x := by
  obtain ⟨ps1, h1, h2⟩ := SelB.toBase_gives hn hr
  exact gives_call hn h1 (hc ps1 h2)

/-- A call other than one of ordering and page, on the embedded builder. -/
theorem SelB.inner_gives {n r : Nat} {ps : List PV} {b b' : SelB} (hn : ps.length = n) (hr : ps[r]? = some b.pv) (c : NSCall) (hok : c.OK)
    (hs : c.isSetting = false) (h : KCall.run b (.call c) = .ok b') : GivesV ps (c.trace n r).1 (c.trace n r).2 b'.pv ∧ b'.kind = b.kind := by
  cases b with
  | many q =>
    simp only [KCall.run] at h
    obtain ⟨q', h1, h⟩ := Res.bind_eq_ok.1 h
    cases h
    exact ⟨NSCall.trace_gives hn hr c hok h1, rfl⟩
  | base q =>
    match c with
    | .addWhere es =>
      simp only [KCall.run, KCall.runBase] at h
      obtain ⟨ds, hds, h⟩ := Res.bind_eq_ok.1 h
      cases h
      obtain ⟨ps1, h1, h2⟩ := CondExp.traceL_gives es n ps hn ds hds
      simp only [NSCall.trace]
      exact ⟨gives_call hn h1 (by simp only [Call.pure, get_prefix (runPure_prefix _ _ _ h1).1 hr, h2, SelB.pv]), rfl⟩
    | .other (.fields l) =>
      simp only [KCall.run, KCall.runBase] at h
      obtain ⟨ds, hds, h⟩ := Res.bind_eq_ok.1 h
      cases h
      exact ⟨gives_call (cs := []) hn rfl (by simp only [Call.pure, hr, fieldsOf, gave_ok hds, SelB.pv]), rfl⟩
    | .other (.join k t x y) =>
      simp only [KCall.run, KCall.runBase] at h
      obtain ⟨t', ht, h⟩ := Res.bind_eq_ok.1 h
      obtain ⟨x', hx, h⟩ := Res.bind_eq_ok.1 h
      obtain ⟨y', hy, h⟩ := Res.bind_eq_ok.1 h
      obtain ⟨q', hq, h⟩ := Res.bind_eq_ok.1 h
      cases h
      have e1 := runPure_one (ps := ps) (c := .joinTable r t' k.type) (x := .joinB (q.joinIdent t' k.type)) (by simp only [Call.pure, hr, SelB.pv])
      have := gives_call (c := .on n x' y') (x := .base q') hn e1 (by simp only [Call.pure, last_get hn, hq, Res.toOption, Option.map_some])
      simp only [NSCall.trace, gave_ok ht, gave_ok hx, gave_ok hy]
      exact ⟨this, rfl⟩
    | .other (.addWhere cs) => cases hok.2
    | .other (.orderBy _) => cases hs
    | .other (.offset _) => cases hs
    | .other (.limit _) => cases hs
  | single q =>
    match c with
    | .addWhere es =>
      simp only [KCall.run, KCall.runSingle] at h
      obtain ⟨ds, hds, h⟩ := Res.bind_eq_ok.1 h
      cases h
      obtain ⟨ps1, h1, h2⟩ := CondExp.traceL_gives es n ps hn ds hds
      simp only [NSCall.trace]
      exact ⟨gives_call hn h1 (by simp only [Call.pure, get_prefix (runPure_prefix _ _ _ h1).1 hr, h2, SelB.pv]), rfl⟩
    | .other (.fields l) =>
      simp only [KCall.run, KCall.runSingle] at h
      obtain ⟨ds, hds, h⟩ := Res.bind_eq_ok.1 h
      cases h
      exact ⟨gives_call (cs := []) hn rfl (by simp only [Call.pure, hr, fieldsOf, gave_ok hds, SelB.pv]), rfl⟩
    | .other (.join k t x y) =>
      simp only [KCall.run, KCall.runSingle, SelectSingle.join] at h
      obtain ⟨q1, h1, h⟩ := Res.bind_eq_ok.1 h
      obtain ⟨t', ht, h1⟩ := Res.bind_eq_ok.1 h1
      cases h1
      obtain ⟨x', hx, h⟩ := Res.bind_eq_ok.1 h
      obtain ⟨y', hy, h⟩ := Res.bind_eq_ok.1 h
      obtain ⟨q', hq, h⟩ := Res.bind_eq_ok.1 h
      cases h
      have e1 := runPure_one (ps := ps) (c := .joinTable r t' k.type) (x := .joinS (q.joinIdent t' k.type)) (by simp only [Call.pure, hr, SelB.pv])
      have := gives_call (c := .on n x' y') (x := .single q') hn e1 (by simp only [Call.pure, last_get hn, hq, Res.toOption, Option.map_some])
      simp only [NSCall.trace, gave_ok ht, gave_ok hx, gave_ok hy]
      exact ⟨this, rfl⟩
    | .other (.addWhere cs) => cases hok.2
    | .other (.orderBy _) => cases hs
    | .other (.offset _) => cases hs
    | .other (.limit _) => cases hs

/-- Ordering and page on a base select or one of one row are those of the select of many rows made of it. -/
theorem setting_run {b b' : SelB} {c : NSCall} (hk : b.kind ≠ .many) (hs : c.isSetting = true) (h : KCall.run b (.call c) = .ok b') :
    ∃ q', c.run (selectManyFromBase b.core) = .ok q' ∧ b' = .many q' := by
  match b, c with
  | .many q, _ => exact absurd rfl hk
  | .base q, .other (.orderBy ks) | .single q, .other (.orderBy ks) =>
    simp only [KCall.run, KCall.runBase, KCall.runSingle] at h
    obtain ⟨ds, hds, h⟩ := Res.bind_eq_ok.1 h
    cases h
    exact ⟨_, by simp only [NSCall.run, SCall.run, hds]; rfl, rfl⟩
  | .base q, .other (.offset n) | .single q, .other (.offset n) => cases h; exact ⟨_, rfl, rfl⟩
  | .base q, .other (.limit n) | .single q, .other (.limit n) => cases h; exact ⟨_, rfl, rfl⟩
  | .base _, .addWhere _ | .single _, .addWhere _ => cases hs
  | .base _, .other (.fields _) | .single _, .other (.fields _) => cases hs
  | .base _, .other (.join ..) | .single _, .other (.join ..) => cases hs
  | .base _, .other (.addWhere _) | .single _, .other (.addWhere _) => cases hs

theorem KCall.trace_gives {n r : Nat} {ps : List PV} {b b' : SelB} (hn : ps.length = n) (hr : ps[r]? = some b.pv) :
    ∀ c : KCall, c.OK → KCall.run b c = .ok b' → GivesV ps (c.trace b.kind n r).1 (c.trace b.kind n r).2 b'.pv ∧ b'.kind = KCall.next b.kind c
  | .single, _, h => by
    cases h
    refine ⟨SelB.onBase_gives hn hr (.single _) fun ps' h => ?_, by cases b <;> rfl⟩
    simp only [Call.pure, h]
    cases b <;> rfl
  | .many, _, h => by
    cases h
    refine ⟨SelB.onBase_gives hn hr (.many _) fun ps' h => ?_, by cases b <;> rfl⟩
    simp only [Call.pure, h]
    cases b <;> rfl
  | .call c, hok, h => by
    simp only [KCall.trace, KCall.next]
    split
    · rename_i hs
      have hk : b.kind ≠ .many := by simpa using (Bool.and_eq_true_iff.1 hs).2
      have hs := (Bool.and_eq_true_iff.1 hs).1
      obtain ⟨q', h1, rfl⟩ := setting_run hk hs h
      have := SelB.onBase_gives (x := .many (selectManyFromBase b.core)) hn hr (.many (b.kind.toBase n r).2) fun ps' h => by simp only [Call.pure, h]
      have := this.then hn fun ps' hn' hr' => NSCall.trace_gives (n := n + (b.kind.toBase n r).1.length + 1)
        (by rw [hn', List.length_append]; rfl) hr' c hok h1
      rw [List.append_assoc] at this
      exact ⟨this, by rw [if_pos hs]; rfl⟩
    · rename_i hs
      cases hs' : c.isSetting with
      | false => exact SelB.inner_gives hn hr c hok hs' h
      | true =>
        rw [hs'] at hs
        cases b with
        | many q =>
          simp only [KCall.run] at h
          obtain ⟨q', h1, h⟩ := Res.bind_eq_ok.1 h
          cases h
          exact ⟨NSCall.trace_gives hn hr c hok h1, rfl⟩
        | base q => exact absurd rfl hs
        | single q => exact absurd rfl hs

theorem KCall.traceAll_gives : ∀ (cs : List KCall) (n r : Nat) (ps : List PV) (b b' : SelB), ps.length = n → ps[r]? = some b.pv →
    (∀ c ∈ cs, c.OK) → KCall.runAll b cs = .ok b' →
    GivesV ps (KCall.traceAll b.kind n r cs).1 (KCall.traceAll b.kind n r cs).2 b'.pv ∧ b'.kind = KCall.ends b.kind cs
  | [], n, r, ps, b, b', hn, hr, _, h => by cases h; exact ⟨⟨ps, rfl, hr⟩, rfl⟩
  | c :: cs, n, r, ps, b, b', hn, hr, ok, h => by
    simp only [KCall.runAll] at h
    obtain ⟨b1, h1, h⟩ := Res.bind_eq_ok.1 h
    simp only [KCall.traceAll]
    obtain ⟨g, hk⟩ := KCall.trace_gives hn hr c (ok c (List.mem_cons_self ..)) h1
    have ih := fun n r ps hn hr => KCall.traceAll_gives cs n r ps b1 b' hn hr (fun x hx => ok x (List.mem_cons_of_mem _ hx)) h
    rw [hk] at ih
    obtain ⟨ps1, g1, g2⟩ := g
    obtain ⟨k1, k2⟩ := ih (n + (c.trace b.kind n r).1.length) _ ps1 (by rw [(runPure_prefix _ _ _ g1).2, hn]) g2
    obtain ⟨ps2, g3, g4⟩ := k1
    exact ⟨⟨ps2, runPure_app g1 g3, g4⟩, k2⟩

/-- What the end makes of the select. -/
def KEnd.run (b : SelB) : KEnd → Res PV
  | .read => .ok b.pv
  | .count => b.count.bind fun c => .ok (.count c)
  | .countCol x more => (b.countOf (x.text :: more)).bind fun c => .ok (.count c)
  | .delete more => (NDeleteProg.runAll b.delete more).bind fun d => .ok (.delete d)
  | .update sets more => (Res.mapL SetTo.call sets).bind fun vs => (NUCall.runAll (b.update vs) more).bind fun u => .ok (.update u)
  | .insert sets more => (Res.mapL SetTo.call sets).bind fun vs => (InsertProg.runCalls (b.insertInto vs) more).bind fun u => .ok (.insert u)

theorem KEnd.trace_gives {n r : Nat} {ps : List PV} {b : SelB} {x : PV} (hn : ps.length = n) (hr : ps[r]? = some b.pv) :
    ∀ e : KEnd, e.run b = .ok x → GivesV ps (e.trace b.kind n r).1 (e.trace b.kind n r).2 x
  | .read, h => by cases h; exact ⟨ps, rfl, hr⟩
  | .count, h => by
    obtain ⟨c, hc, h⟩ := Res.bind_eq_ok.1 h
    cases h
    cases b with
    | base q => exact gives_call (cs := []) (c := .count r []) hn rfl (by simp only [Call.pure, hr, SelB.pv]; rw [show Query.count q [] = .ok c from hc]; rfl)
    | many q => exact gives_call (cs := []) (c := .count r []) hn rfl (by simp only [Call.pure, hr, SelB.pv]; rw [show Query.count q.base [] = .ok c from hc]; rfl)
    | single q =>
      have e1 := runPure_one (ps := ps) (c := .embedded r) (x := .base q.base) (by simp only [Call.pure, hr, SelB.pv])
      exact gives_call (c := .count n []) (x := .count c) hn e1
        (by simp only [Call.pure, last_get hn]; rw [show Query.count q.base [] = .ok c from hc]; rfl)
  | .countCol y more, h => by
    obtain ⟨c, hc, h⟩ := Res.bind_eq_ok.1 h
    cases h
    cases b with
    | base q =>
      exact gives_call (cs := []) (c := .count r (y.text :: more)) hn rfl
        (by simp only [Call.pure, hr, SelB.pv]; rw [show Query.count q (y.text :: more) = .ok c from hc]; rfl)
    | many q =>
      exact gives_call (cs := []) (c := .count r (y.text :: more)) hn rfl
        (by simp only [Call.pure, hr, SelB.pv]; rw [show Query.count q.base (y.text :: more) = .ok c from hc]; rfl)
    | single q =>
      have e1 := runPure_one (ps := ps) (c := .embedded r) (x := .base q.base) (by simp only [Call.pure, hr, SelB.pv])
      exact gives_call (c := .count n (y.text :: more)) (x := .count c) hn e1
        (by simp only [Call.pure, last_get hn]; rw [show Query.count q.base (y.text :: more) = .ok c from hc]; rfl)
  | .delete more, h => by
    obtain ⟨d, hd, h⟩ := Res.bind_eq_ok.1 h
    cases h
    have := gives_call (cs := []) (c := .deleteFrom r) (x := .delete b.delete) hn rfl (by simp only [Call.pure, hr]; cases b <;> rfl)
    exact this.then hn fun ps' hn' hr' => NDeleteProg.traceAll_gives more (n + 1) n ps' _ d hn' hr' hd
  | .update sets more, h => by
    obtain ⟨vs, hv, h⟩ := Res.bind_eq_ok.1 h
    obtain ⟨d, hd, h⟩ := Res.bind_eq_ok.1 h
    cases h
    have := gives_call (cs := []) (c := .updateFrom r (setsOf sets)) (x := .update (b.update vs)) hn rfl
      (by simp only [Call.pure, hr, setsOf, gave_ok hv]; cases b <;> rfl)
    exact this.then hn fun ps' hn' hr' => NUCall.traceAll_gives more (n + 1) n ps' _ d hn' hr' hd
  | .insert sets more, h => by
    obtain ⟨vs, hv, h⟩ := Res.bind_eq_ok.1 h
    obtain ⟨d, hd, h⟩ := Res.bind_eq_ok.1 h
    cases h
    have := SelB.onBase_gives (x := .insert (b.insertInto vs)) hn hr (.insertFrom (b.kind.toBase n r).2 (setsOf sets)) fun ps' h => by
      simp only [Call.pure, h, setsOf, gave_ok hv]
      cases b <;> rfl
    have := this.then hn fun ps' hn' hr' => InsertProg.traceAll_gives more (n + (b.kind.toBase n r).1.length + 1) _ ps' _ d
      (by rw [hn', List.length_append]; rfl) hr' hd
    rw [List.append_assoc] at this
    exact this

/-! ## In any memory -/

/-- The call with the numbers of its values moved up by `k`. -/
def Call.up (k : Nat) : Call → Call
  | .leaf c => .leaf c
  | .newGroup j args => .newGroup j (args.map (k + ·))
  | .andF r args => .andF (k + r) (args.map (k + ·))
  | .orF r args => .orF (k + r) (args.map (k + ·))
  | .and r args => .and (k + r) (args.map (k + ·))
  | .or r args => .or (k + r) (args.map (k + ·))
  | .negate r n => .negate (k + r) n
  | .join r j => .join (k + r) j
  | .withBrackets r => .withBrackets (k + r)
  | .applySpec r spec => .applySpec (k + r) spec
  | .applyTable r t => .applyTable (k + r) t
  | .selectFrom p => .selectFrom p
  | .fields r fs => .fields (k + r) fs
  | .where_ r args => .where_ (k + r) (args.map (k + ·))
  | .joinTable r t j => .joinTable (k + r) t j
  | .on r l x => .on (k + r) l x
  | .single r => .single (k + r)
  | .many r => .many (k + r)
  | .embedded r => .embedded (k + r)
  | .offset r n => .offset (k + r) n
  | .limit r n => .limit (k + r) n
  | .orderBy r os => .orderBy (k + r) os
  | .count r fs => .count (k + r) fs
  | .insertInto p => .insertInto p
  | .insertFrom r vs => .insertFrom (k + r) vs
  | .values r vs => .values (k + r) vs
  | .update p => .update p
  | .updateFrom r vs => .updateFrom (k + r) vs
  | .set r vs => .set (k + r) vs
  | .delete p => .delete p
  | .deleteFrom r => .deleteFrom (k + r)

theorem up_get (hs0 hs : List HV) (r : Nat) : (hs0 ++ hs)[hs0.length + r]? = hs[r]? := by
  rw [List.getElem?_append_right (Nat.le_add_right ..), Nat.add_sub_cancel_left]

theorem up_getConds (hs0 hs : List HV) : ∀ rs : List Nat, getCondsH (hs0 ++ hs) (rs.map (hs0.length + ·)) = getCondsH hs rs
  | [] => rfl
  | r :: rs => by simp only [List.map, getCondsH, up_get, up_getConds hs0 hs rs]

theorem up_heap (pol : Policy) (m : Mem) (hs0 hs : List HV) (c : Call) : (c.up hs0.length).heap pol m (hs0 ++ hs) = c.heap pol m hs := by
  cases c <;> simp only [Call.up, Call.heap, up_get, up_getConds]

theorem up_run (pol : Policy) (hs0 : List HV) : ∀ (cs : List Call) (m : Mem) (hs : List HV),
    runHeap pol m (hs0 ++ hs) (cs.map (Call.up hs0.length)) = (runHeap pol m hs cs).map fun x => (x.1, hs0 ++ x.2)
  | [], m, hs => rfl
  | c :: cs, m, hs => by
    simp only [List.map, runHeap, up_heap]
    cases c.heap pol m hs with
    | none => rfl
    | some x => simp only [List.append_assoc]; exact up_run pol hs0 cs x.1 (hs ++ [x.2])

/-- Calls and a number moved up. -/
def upOne (k : Nat) (x : List Call × Nat) : List Call × Nat := (x.1.map (Call.up k), k + x.2)
/-- Calls and numbers moved up. -/
def upMany (k : Nat) (x : List Call × List Nat) : List Call × List Nat := (x.1.map (Call.up k), x.2.map (k + ·))

mutual
theorem CondExp.trace_up (k : Nat) : ∀ (e : CondExp) (n : Nat), e.trace (k + n) = upOne k (e.trace n)
  | .test t, n => rfl
  | .not e, n => by simp [CondExp.trace, CondExp.trace_up k e n, upOne, Call.up, Nat.add_assoc]
  | .unnot e, n => by simp [CondExp.trace, CondExp.trace_up k e n, upOne, Call.up, Nat.add_assoc]
  | .fn o e es, n => by
    have h := CondExp.traceL_up k es (n + (e.trace n).1.length)
    rw [← Nat.add_assoc] at h
    simp only [CondExp.trace, CondExp.trace_up k e n, upOne, List.length_map, h, upMany]
    cases o <;> simp [Call.up, Nat.add_assoc]
  | .method o e es, n => by
    have h := CondExp.traceL_up k es (n + (e.trace n).1.length)
    rw [← Nat.add_assoc] at h
    simp only [CondExp.trace, CondExp.trace_up k e n, upOne, List.length_map, h, upMany]
    cases o <;> simp [Call.up, Nat.add_assoc]
  | .group o es, n => by simp [CondExp.trace, CondExp.traceL_up k es n, upOne, upMany, Call.up, Nat.add_assoc]
  | .joinAll o es, n => by
    have h : ∀ rs : List Nat, joinCall o (rs.map (k + ·)) = (joinCall o rs).up k := by
      intro rs
      match rs with
      | [] => rfl
      | [_] => rfl
      | _ :: _ :: _ => rfl
    have h1 : ∀ n, (CondExp.joinAll o es).trace n =
        ((CondExp.traceL n es).1 ++ [joinCall o (CondExp.traceL n es).2], n + (CondExp.traceL n es).1.length) := fun _ => rfl
    rw [h1, h1, CondExp.traceL_up k es n]
    simp only [upOne, upMany, h, List.map_append, List.map, List.length_map, Nat.add_assoc]
  | .join o e, n => by simp [CondExp.trace, CondExp.trace_up k e n, upOne, Call.up, Nat.add_assoc]
  | .brackets e, n => by
    simp only [CondExp.trace, CondExp.trace_up k e n]
    split <;> simp [upOne, Call.up, Nat.add_assoc]
theorem CondExp.traceL_up (k : Nat) : ∀ (es : List CondExp) (n : Nat), CondExp.traceL (k + n) es = upMany k (CondExp.traceL n es)
  | [], n => rfl
  | e :: es, n => by
    have h := CondExp.traceL_up k es (n + (e.trace n).1.length)
    rw [← Nat.add_assoc] at h
    simp only [CondExp.traceL, CondExp.trace_up k e n, upOne, List.length_map, h, upMany, List.map_append, List.map]
end

theorem NSCall.trace_up (k n r : Nat) : ∀ c : NSCall, c.trace (k + n) (k + r) = upOne k (c.trace n r)
  | .addWhere es => by simp [NSCall.trace, CondExp.traceL_up k es n, upOne, upMany, Call.up, Nat.add_assoc]
  | .other (.fields _) => rfl
  | .other (.join _ _ _ _) => rfl
  | .other (.orderBy _) => rfl
  | .other (.offset _) => rfl
  | .other (.limit _) => rfl
  | .other (.addWhere _) => rfl

theorem NSCall.traceAll_up (k : Nat) : ∀ (cs : List NSCall) (n r : Nat), NSCall.traceAll (k + n) (k + r) cs = upOne k (NSCall.traceAll n r cs)
  | [], n, r => rfl
  | c :: cs, n, r => by
    have h := NSCall.traceAll_up k cs (n + (c.trace n r).1.length) (c.trace n r).2
    rw [← Nat.add_assoc] at h
    simp only [NSCall.traceAll, NSCall.trace_up, upOne, List.length_map, h, List.map_append]

theorem NUCall.trace_up (k n r : Nat) : ∀ c : NUCall, c.trace (k + n) (k + r) = upOne k (c.trace n r)
  | .addWhere es => by simp [NUCall.trace, CondExp.traceL_up k es n, upOne, upMany, Call.up, Nat.add_assoc]
  | .set _ => rfl

theorem NUCall.traceAll_up (k : Nat) : ∀ (cs : List NUCall) (n r : Nat), NUCall.traceAll (k + n) (k + r) cs = upOne k (NUCall.traceAll n r cs)
  | [], n, r => rfl
  | c :: cs, n, r => by
    have h := NUCall.traceAll_up k cs (n + (c.trace n r).1.length) (c.trace n r).2
    rw [← Nat.add_assoc] at h
    simp only [NUCall.traceAll, NUCall.trace_up, upOne, List.length_map, h, List.map_append]

theorem NDeleteProg.traceAll_up (k : Nat) : ∀ (cs : List (List CondExp)) (n r : Nat),
    NDeleteProg.traceAll (k + n) (k + r) cs = upOne k (NDeleteProg.traceAll n r cs)
  | [], n, r => rfl
  | es :: cs, n, r => by
    have h := NDeleteProg.traceAll_up k cs (n + (CondExp.traceL n es).1.length + 1) (n + (CondExp.traceL n es).1.length)
    rw [← Nat.add_assoc, ← Nat.add_assoc] at h
    simp only [NDeleteProg.traceAll, CondExp.traceL_up, upOne, upMany, List.length_map, h, List.map_append, List.map, Call.up]

theorem InsertProg.traceAll_up (k : Nat) : ∀ (cs : List (List SetTo)) (n r : Nat),
    InsertProg.traceAll (k + n) (k + r) cs = upOne k (InsertProg.traceAll n r cs)
  | [], n, r => rfl
  | l :: cs, n, r => by
    have h := InsertProg.traceAll_up k cs (n + 1) n
    rw [← Nat.add_assoc] at h
    simp only [InsertProg.traceAll, upOne, h, List.map, Call.up]

theorem SelKind.toBase_up (k n r : Nat) (s : SelKind) : s.toBase (k + n) (k + r) = upOne k (s.toBase n r) := by
  cases s <;> rfl

theorem KCall.trace_up (k n r : Nat) (s : SelKind) : ∀ c : KCall, c.trace s (k + n) (k + r) = upOne k (c.trace s n r)
  | .single => by simp [KCall.trace, SelKind.toBase_up, upOne, Call.up, Nat.add_assoc]
  | .many => by simp [KCall.trace, SelKind.toBase_up, upOne, Call.up, Nat.add_assoc]
  | .call c => by
    simp only [KCall.trace]
    split
    · have h := NSCall.trace_up k (n + (s.toBase n r).1.length + 1) (n + (s.toBase n r).1.length) c
      rw [← Nat.add_assoc, ← Nat.add_assoc] at h
      simp only [SelKind.toBase_up, upOne, List.length_map, h, List.map_append, List.map, Call.up]
    · exact NSCall.trace_up k n r c

theorem KCall.traceAll_up (k : Nat) : ∀ (cs : List KCall) (s : SelKind) (n r : Nat),
    KCall.traceAll s (k + n) (k + r) cs = upOne k (KCall.traceAll s n r cs)
  | [], s, n, r => rfl
  | c :: cs, s, n, r => by
    have h := KCall.traceAll_up k cs (KCall.next s c) (n + (c.trace s n r).1.length) (c.trace s n r).2
    rw [← Nat.add_assoc] at h
    simp only [KCall.traceAll, KCall.trace_up, upOne, List.length_map, h, List.map_append]

theorem KindProg.traceFirst_up (k n : Nat) (p : KindProg) : p.traceFirst (k + n) = upOne k (p.traceFirst n) := by
  unfold KindProg.traceFirst
  cases p.start <;> rfl

theorem KindProg.trace_up (k n : Nat) (p : KindProg) : p.trace (k + n) = upOne k (p.trace n) := by
  have h := KCall.traceAll_up k p.calls p.start (n + (p.traceFirst n).1.length) (p.traceFirst n).2
  rw [← Nat.add_assoc] at h
  simp only [KindProg.trace, KindProg.traceFirst_up, upOne, List.length_map, h, List.map_append]

theorem KEnd.trace_up (k n r : Nat) (s : SelKind) : ∀ e : KEnd, e.trace s (k + n) (k + r) = upOne k (e.trace s n r)
  | .read => rfl
  | .count => by cases s <;> rfl
  | .countCol _ _ => by cases s <;> rfl
  | .delete more => by
    have h := NDeleteProg.traceAll_up k more (n + 1) n
    rw [← Nat.add_assoc] at h
    simp only [KEnd.trace, h, upOne, List.map, Call.up]
  | .update sets more => by
    have h := NUCall.traceAll_up k more (n + 1) n
    rw [← Nat.add_assoc] at h
    simp only [KEnd.trace, h, upOne, List.map, Call.up]
  | .insert sets more => by
    have h := InsertProg.traceAll_up k more (n + (s.toBase n r).1.length + 1) (n + (s.toBase n r).1.length)
    rw [← Nat.add_assoc, ← Nat.add_assoc] at h
    simp only [KEnd.trace, SelKind.toBase_up, upOne, List.length_map, h, List.map_append, List.map, Call.up]

theorem AnyProg.trace_up (k n : Nat) : ∀ p : AnyProg, p.trace (k + n) = upOne k (p.trace n)
  | .select p => by
    have h := NSCall.traceAll_up k p.calls (n + 2) (n + 1)
    rw [← Nat.add_assoc, ← Nat.add_assoc] at h
    simp [AnyProg.trace, NSelectProg.trace, h, upOne, Call.up]
  | .count p => by
    have h := NSCall.traceAll_up k p.calls (n + 2) (n + 1)
    rw [← Nat.add_assoc, ← Nat.add_assoc] at h
    simp only [AnyProg.trace, NSelectProg.traceCount, NSelectProg.trace, h, upOne]
    simp [Call.up, Nat.add_assoc]
  | .insert p => by
    have h := InsertProg.traceAll_up k p.calls (n + 1) n
    rw [← Nat.add_assoc] at h
    simp [AnyProg.trace, InsertProg.trace, h, upOne, Call.up]
  | .update p => by
    have h := NUCall.traceAll_up k p.calls (n + 1) n
    rw [← Nat.add_assoc] at h
    simp [AnyProg.trace, NUpdateProg.trace, h, upOne, Call.up]
  | .delete p => by
    have h := NDeleteProg.traceAll_up k p.wheres (n + 1) n
    rw [← Nat.add_assoc] at h
    simp [AnyProg.trace, NDeleteProg.trace, h, upOne, Call.up]
  | .kind p e => by
    have h := KEnd.trace_up k (n + (p.trace n).1.length) (p.trace n).2 p.kind e
    rw [← Nat.add_assoc] at h
    simp only [AnyProg.trace, KindProg.traceTo, KindProg.trace_up, upOne, List.length_map, h, List.map_append]

theorem AnyProg.traceAll_up (k : Nat) : ∀ (ps : List AnyProg) (n : Nat), AnyProg.traceAll (k + n) ps = upMany k (AnyProg.traceAll n ps)
  | [], n => rfl
  | p :: ps, n => by
    have h := AnyProg.traceAll_up k ps (n + (p.trace n).1.length)
    rw [← Nat.add_assoc] at h
    simp only [AnyProg.traceAll, AnyProg.trace_up, upOne, List.length_map, h, upMany, List.map_append, List.map]

/-! ## Whole programs -/

/-- Calls that make a value, then calls on it. -/
theorem FreshOn.whole {n r r' : Nat} {cs cs' : List Call} (h : FreshCalls n cs [r]) (h' : FreshOn (n + cs.length) r cs' r') :
    FreshCalls n (cs ++ cs') [r'] := by
  have hr := h.range r (List.mem_singleton.2 rfl)
  have hf := h.free r (List.mem_singleton.2 rfl)
  have len : (cs ++ cs').length = cs.length + cs'.length := List.length_append
  refine ⟨⟨?_, ?_⟩, List.forall_mem_singleton.2 ?_, List.forall_mem_singleton.2 ?_, ?_⟩
  · rw [extNos_append]
    refine List.nodup_append.2 ⟨h.own.1, h'.own.1, fun a ha b hb k => ?_⟩
    subst k
    rcases h'.own.2 a hb with rfl | hb
    · exact hf ha
    · have := h.own.2 a ha; omega
  · intro i hi
    rw [extNos_append] at hi
    rcases List.mem_append.1 hi with hi | hi
    · have := h.own.2 i hi; omega
    · rcases h'.own.2 i hi with e | e <;> omega
  · rcases h'.range with e | e <;> omega
  · intro hm
    rw [extNos_append] at hm
    rcases List.mem_append.1 hm with hm | hm
    · rcases h'.range with e | e
      · exact hf (e ▸ hm)
      · have := h.own.2 _ hm; omega
    · exact h'.free hm
  · intro x hx
    rcases List.mem_append.1 hx with hx | hx
    · exact h.plain x hx
    · exact h'.plain x hx

theorem NSelectProg.trace_fresh (p : NSelectProg) (n : Nat) : FreshCalls n (p.trace n).1 [(p.trace n).2] :=
  FreshOn.whole ((((FreshCalls.nil n).call (.selectFrom (.str p.table.text)) rfl (fun _ h => by cases h))).call (.many n) rfl
    (fun i h => by cases h; simp)) (NSCall.traceAll_fresh p.calls (n + 2) (n + 1) (Nat.lt_succ_self _))

theorem KindProg.trace_fresh (p : KindProg) (n : Nat) : FreshCalls n (p.trace n).1 [(p.trace n).2] := by
  have f : FreshCalls n (p.traceFirst n).1 [(p.traceFirst n).2] := by
    have h0 := (FreshCalls.nil n).call (.selectFrom (.str p.table.text)) rfl (fun _ h => by cases h)
    unfold KindProg.traceFirst
    cases p.start
    · exact h0
    · exact h0.call (.single n) rfl (fun i h => by cases h; simp)
    · exact h0.call (.many n) rfl (fun i h => by cases h; simp)
  exact FreshOn.whole f (KCall.traceAll_fresh p.calls p.start _ _ (f.range _ (List.mem_singleton.2 rfl)).2)

theorem AnyProg.trace_fresh (n : Nat) : ∀ p : AnyProg, FreshCalls n (p.trace n).1 [(p.trace n).2]
  | .select p => p.trace_fresh n
  | .count p => (p.trace_fresh n).call (.count (p.trace n).2 []) rfl (fun _ h => by cases h)
  | .insert p => FreshOn.whole ((FreshCalls.nil n).call (.insertInto (.str p.table)) rfl (fun _ h => by cases h))
      (InsertProg.traceAll_fresh p.calls (n + 1) n (Nat.lt_succ_self _))
  | .update p => FreshOn.whole ((FreshCalls.nil n).call (.update (.str p.table)) rfl (fun _ h => by cases h))
      (NUCall.traceAll_fresh p.calls (n + 1) n (Nat.lt_succ_self _))
  | .delete p => FreshOn.whole ((FreshCalls.nil n).call (.delete (.str p.table)) rfl (fun _ h => by cases h))
      (NDeleteProg.traceAll_fresh p.wheres (n + 1) n (Nat.lt_succ_self _))
  | .kind p e =>
    have f := p.trace_fresh n
    FreshOn.whole f (e.trace_fresh (f.range _ (List.mem_singleton.2 rfl)).2 p.kind)

theorem AnyProg.traceAll_fresh : ∀ (ps : List AnyProg) (n : Nat), FreshCalls n (AnyProg.traceAll n ps).1 (AnyProg.traceAll n ps).2
  | [], n => FreshCalls.nil n
  | p :: ps, n => (p.trace_fresh n).append (AnyProg.traceAll_fresh ps _)

/-- What the calls of a program give. -/
inductive AnyProg.Gives : AnyProg → PV → Prop
  | select {p : NSelectProg} {q : SelectMany} (h : p.run = .ok q) : Gives (.select p) (.many q)
  | count {p : NSelectProg} {q : SelectMany} {c : CountB} (h : p.run = .ok q) (h' : Query.count q.base [] = .ok c) : Gives (.count p) (.count c)
  | insert {p : InsertProg} {q : InsertB} (h : p.run = .ok q) : Gives (.insert p) (.insert q)
  | update {p : NUpdateProg} {q : UpdateB} (h : p.run = .ok q) : Gives (.update p) (.update q)
  | delete {p : NDeleteProg} {q : DeleteB} (h : p.run = .ok q) : Gives (.delete p) (.delete q)
  | kind {p : KindProg} {e : KEnd} {b : SelB} {x : PV} (h : p.run = .ok b) (h' : e.run b = .ok x) : Gives (.kind p e) x

theorem NSelectProg.trace_gives {p : NSelectProg} {q : SelectMany} (ok : p.OK) (h : p.run = .ok q) (n : Nat) (ps : List PV)
    (hn : ps.length = n) : GivesV ps (p.trace n).1 (p.trace n).2 (.many q) := by
  simp only [NSelectProg.run, selectManyFrom] at h
  obtain ⟨q0, h0, h⟩ := Res.bind_eq_ok.1 h
  obtain ⟨b, hb, h0⟩ := Res.bind_eq_ok.1 h0
  cases h0
  have e1 := runPure_one (ps := ps) (c := .selectFrom (.str p.table.text)) (x := .base b) (by simp only [Call.pure, hb, Res.toOption, Option.map_some])
  have := gives_call (c := .many n) (x := .many (selectManyFromBase b)) hn e1 (by simp only [Call.pure, last_get hn])
  exact this.then hn fun ps' hn' hr' => NSCall.traceAll_gives p.calls (n + 2) (n + 1) ps' _ q hn' hr' ok.calls h

theorem KindProg.trace_gives {p : KindProg} {b : SelB} (ok : p.OK) (h : p.run = .ok b) (n : Nat) (ps : List PV)
    (hn : ps.length = n) : GivesV ps (p.trace n).1 (p.trace n).2 b.pv ∧ b.kind = p.kind := by
  simp only [KindProg.run] at h
  obtain ⟨b0, h0, h⟩ := Res.bind_eq_ok.1 h
  have first : GivesV ps (p.traceFirst n).1 (p.traceFirst n).2 b0.pv ∧ b0.kind = p.start := by
    have one : ∀ q, selectFrom (.str p.table.text) = .ok q → runPure ps [.selectFrom (.str p.table.text)] = some (ps ++ [.base q]) :=
      fun q hq => runPure_one (by simp only [Call.pure, hq, Res.toOption, Option.map_some])
    unfold KindProg.first at h0
    unfold KindProg.traceFirst
    split at h0
    · rename_i hs
      obtain ⟨q, hq, h0⟩ := Res.bind_eq_ok.1 h0
      cases h0
      rw [hs]
      exact ⟨⟨_, one q hq, last_get hn⟩, rfl⟩
    · rename_i hs
      obtain ⟨q, hq, h0⟩ := Res.bind_eq_ok.1 h0
      cases h0
      simp only [selectSingleFrom] at hq
      obtain ⟨b, hb, hq⟩ := Res.bind_eq_ok.1 hq
      cases hq
      rw [hs]
      exact ⟨gives_call (c := .single n) hn (one b hb) (by simp only [Call.pure, last_get hn]; rfl), rfl⟩
    · rename_i hs
      obtain ⟨q, hq, h0⟩ := Res.bind_eq_ok.1 h0
      cases h0
      simp only [selectManyFrom] at hq
      obtain ⟨b, hb, hq⟩ := Res.bind_eq_ok.1 hq
      cases hq
      rw [hs]
      exact ⟨gives_call (c := .many n) hn (one b hb) (by simp only [Call.pure, last_get hn]; rfl), rfl⟩
  obtain ⟨⟨ps1, g1, g2⟩, hk⟩ := first
  obtain ⟨⟨ps2, g3, g4⟩, hk'⟩ := KCall.traceAll_gives p.calls (n + (p.traceFirst n).1.length) _ ps1 b0 b
    (by rw [(runPure_prefix _ _ _ g1).2, hn]) g2 ok.calls h
  rw [hk] at g3 g4 hk'
  exact ⟨⟨ps2, runPure_app g1 g3, g4⟩, hk'⟩

theorem AnyProg.trace_gives {p : AnyProg} {x : PV} (ok : p.OK) (h : p.Gives x) (n : Nat) (ps : List PV) (hn : ps.length = n) :
    GivesV ps (p.trace n).1 (p.trace n).2 x := by
  cases h with
  | select h => exact NSelectProg.trace_gives ok h n ps hn
  | @count p q c h h' =>
    obtain ⟨ps1, h1, h2⟩ := NSelectProg.trace_gives ok h n ps hn
    exact gives_call hn h1 (by simp only [Call.pure, h2, h', Res.toOption, Option.map_some])
  | @insert p q h =>
    have := gives_call (cs := []) (c := .insertInto (.str p.table)) (x := .insert (Query.insertInto (.str p.table))) hn rfl rfl
    exact this.then hn fun ps' hn' hr' => InsertProg.traceAll_gives p.calls (n + 1) n ps' _ q hn' hr' h
  | @update p q h =>
    have := gives_call (cs := []) (c := .update (.str p.table)) (x := .update (Query.update (.str p.table))) hn rfl rfl
    exact this.then hn fun ps' hn' hr' => NUCall.traceAll_gives p.calls (n + 1) n ps' _ q hn' hr' h
  | @delete p q h =>
    have := gives_call (cs := []) (c := .delete (.str p.table)) (x := .delete (Query.delete (.str p.table))) hn rfl rfl
    exact this.then hn fun ps' hn' hr' => NDeleteProg.traceAll_gives p.wheres (n + 1) n ps' _ q hn' hr' h
  | @kind p e b x h h' =>
    obtain ⟨g, hk⟩ := KindProg.trace_gives ok.1 h n ps hn
    have k := g.then hn fun ps' hn' hr' => KEnd.trace_gives hn' hr' e h'
    rw [hk] at k
    exact k

/-- Several programs. -/
theorem AnyProg.traceAll_gives : ∀ (l : List AnyProg) (n : Nat) (ps : List PV), ps.length = n → (∀ p ∈ l, p.OK ∧ ∃ x, p.Gives x) →
    ∃ ps', runPure ps (AnyProg.traceAll n l).1 = some ps' ∧ (AnyProg.traceAll n l).2.length = l.length ∧
      ∀ (i : Nat) (p : AnyProg), l[i]? = some p → ∃ r x, (AnyProg.traceAll n l).2[i]? = some r ∧ ps'[r]? = some x ∧ p.Gives x
  | [], n, ps, hn, _ => ⟨ps, rfl, rfl, fun i p h => by cases h⟩
  | p :: l, n, ps, hn, ok => by
    obtain ⟨ok1, x, hx⟩ := ok p (List.mem_cons_self ..)
    obtain ⟨ps1, h1, h2⟩ := AnyProg.trace_gives ok1 hx n ps hn
    obtain ⟨ps2, h3, h4, h5⟩ := AnyProg.traceAll_gives l (n + (p.trace n).1.length) ps1 (by rw [(runPure_prefix _ _ _ h1).2, hn])
      fun q hq => ok q (List.mem_cons_of_mem _ hq)
    refine ⟨ps2, runPure_app h1 h3, by simp [AnyProg.traceAll, h4], fun i q hq => ?_⟩
    cases i with
    | zero =>
      cases hq
      exact ⟨_, x, rfl, get_prefix (runPure_prefix _ _ _ h3).1 h2, hx⟩
    | succ i =>
      obtain ⟨r, y, k⟩ := h5 i q (by simpa using hq)
      exact ⟨r, y, k⟩

/-- Calls that extend no value twice, in any memory. -/
theorem linear_anywhere (pol : Policy) (m : Mem) (hs0 : List HV) (cs : List Call) (ps : List PV) (hna : ∀ c ∈ cs, c.noApply = true)
    (hl : Linear cs) (h : runPure [] cs = some ps) :
    ∃ m' hs, runHeap pol m hs0 (cs.map (Call.up hs0.length)) = some (m', hs0 ++ hs) ∧ hs.length = ps.length ∧
      ∀ (i : Nat) (x : HV) (p : PV), hs[i]? = some x → ps[i]? = some p → RepV m' x p ∨ (x.isJoiner = true ∧ p.isJoiner = true) := by
  have inv0 : Inv false [] m [] [] :=
    ⟨rfl, fun _ _ _ h => by simp at h, fun _ _ _ h => by simp at h, fun _ _ h => by simp at h,
      fun _ _ _ _ _ _ _ _ h => by simp at h, fun _ _ _ _ h => by simp at h, fun _ _ _ _ _ h => by simp at h⟩
  obtain ⟨m', hs, used, h1, inv, _⟩ := run_sim (polOK_false pol) cs [] m [] [] ps inv0 hna (fun _ => hl) hl.joinsOnce
    (fun _ _ _ h => by cases h) (fun _ _ h => by cases h) h
  refine ⟨m', hs, ?_, inv.len, fun i x p hx hpx => ?_⟩
  · have := up_run pol hs0 cs m []
    rw [List.append_nil] at this
    rw [this, h1]
    rfl
  · have k := inv.kind i x p hx hpx
    cases hxj : x.isJoiner with
    | true => exact .inr ⟨rfl, by rw [← k]; exact hxj⟩
    | false => exact .inl (inv.rep i x p hx hpx (fun h => by rw [hxj] at h; cases h))

end Query
