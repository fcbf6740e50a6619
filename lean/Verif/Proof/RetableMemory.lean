import Verif.Spec.RetableMemory
import Verif.Proof.Memory
import Verif.Proof.FootRun
/-!
# Programs with Apply calls as histories: they run and use no value twice
-/
namespace Query

/-- The values the calls use. -/
def opNos (cs : List Call) : List Nat := cs.flatMap Call.operands

theorem opNos_append (cs cs' : List Call) : opNos (cs ++ cs') = opNos cs ++ opNos cs' := List.flatMap_append

/-- Calls from `n` on that use only values of their own, each once, and the values `rs` not yet. -/
structure OnceCalls (n : Nat) (cs : List Call) (rs : List Nat) : Prop where
  own : OwnNos n cs.length (opNos cs)
  left : OwnNos n cs.length rs
  free : ∀ r ∈ rs, r ∉ opNos cs

theorem OnceCalls.nil (n : Nat) : OnceCalls n [] [] := ⟨.nil _ _, .nil _ _, fun _ h => by cases h⟩

/-- One more call on values that are left. -/
theorem OnceCalls.call {n : Nat} {cs : List Call} {rs : List Nat} (h : OnceCalls n cs rs) (c : Call) (hn : c.operands.Nodup)
    (ho : ∀ i ∈ c.operands, i ∈ rs) : OnceCalls n (cs ++ [c]) [n + cs.length] := by
  have e : opNos (cs ++ [c]) = opNos cs ++ c.operands := by rw [opNos_append]; simp [opNos]
  have lt : ∀ i ∈ opNos (cs ++ [c]), n ≤ i ∧ i < n + cs.length := by
    intro i hi
    rw [e] at hi
    rcases List.mem_append.1 hi with hi | hi
    · exact h.own.2 i hi
    · exact h.left.2 i (ho i hi)
  refine ⟨⟨?_, fun i hi => ?_⟩, ⟨List.nodup_cons.2 ⟨by simp, List.nodup_nil⟩, fun i hi => ?_⟩, fun r hr hm => ?_⟩
  · rw [e]
    refine List.nodup_append.2 ⟨h.own.1, hn, fun a ha b hb k => ?_⟩
    subst k
    exact h.free a (ho a hb) ha
  · have := lt i hi
    rw [List.length_append]
    omega
  · rw [List.mem_singleton.1 hi, List.length_append]
    simp
  · have := lt r hm
    rw [List.mem_singleton.1 hr] at this
    omega

/-- A call on all values that are left. -/
theorem OnceCalls.all {n : Nat} {cs : List Call} {rs : List Nat} (h : OnceCalls n cs rs) (c : Call) (hc : c.operands = rs) :
    OnceCalls n (cs ++ [c]) [n + cs.length] := h.call c (hc ▸ h.left.1) fun _ hi => hc ▸ hi

theorem OnceCalls.one {n r : Nat} {cs : List Call} (h : OnceCalls n cs [r]) (c : Call) (hc : c.operands = [r]) :
    OnceCalls n (cs ++ [c]) [n + cs.length] := h.all c hc

theorem OnceCalls.append {n : Nat} {cs cs' : List Call} {rs rs' : List Nat} (h : OnceCalls n cs rs) (h' : OnceCalls (n + cs.length) cs' rs') :
    OnceCalls n (cs ++ cs') (rs ++ rs') := by
  refine ⟨?_, ?_, ?_⟩
  · rw [opNos_append, List.length_append]
    exact h.own.append h'.own
  · rw [List.length_append]
    exact h.left.append h'.left
  · intro r hr hm
    rw [opNos_append] at hm
    rcases List.mem_append.1 hr with hr | hr <;> rcases List.mem_append.1 hm with hm | hm
    · exact h.free r hr hm
    · have := h.left.2 r hr; have := h'.own.2 _ hm; omega
    · have := h'.left.2 r hr; have := h.own.2 _ hm; omega
    · exact h'.free r hr hm

mutual
theorem CondExp.trace_once : (e : CondExp) → (n : Nat) → OnceCalls n (e.trace n).1 [(e.trace n).2]
  | .test t, n => by
    simp only [CondExp.trace]
    exact (OnceCalls.nil n).call _ List.nodup_nil (fun i h => by cases h)
  | .not e, n => by
    simp only [CondExp.trace]
    exact (e.trace_once n).one _ rfl
  | .unnot e, n => by
    simp only [CondExp.trace]
    exact (e.trace_once n).one _ rfl
  | .fn o e es, n => by
    simp only [CondExp.trace]
    have := ((e.trace_once n).append (CondExp.traceL_once es _)).all (if o then .orF (e.trace n).2 (CondExp.traceL (n + (e.trace n).1.length) es).2
      else .andF (e.trace n).2 (CondExp.traceL (n + (e.trace n).1.length) es).2) (by cases o <;> rfl)
    rw [List.append_assoc, List.length_append, ← Nat.add_assoc] at this
    exact this
  | .method o e es, n => by
    simp only [CondExp.trace]
    have := ((e.trace_once n).append (CondExp.traceL_once es _)).all (if o then .or (e.trace n).2 (CondExp.traceL (n + (e.trace n).1.length) es).2
      else .and (e.trace n).2 (CondExp.traceL (n + (e.trace n).1.length) es).2) (by cases o <;> rfl)
    rw [List.append_assoc, List.length_append, ← Nat.add_assoc] at this
    exact this
  | .group o es, n => by
    simp only [CondExp.trace]
    exact (CondExp.traceL_once es n).all _ rfl
  | .joinAll o es, n => by
    simp only [CondExp.trace]
    refine (CondExp.traceL_once es n).all _ ?_
    split
    · rename_i j hj; rw [hj]; rfl
    · rfl
  | .join o e, n => by
    simp only [CondExp.trace]
    exact (e.trace_once n).one _ rfl
  | .brackets e, n => by
    simp only [CondExp.trace]
    split
    · exact (e.trace_once n).one _ rfl
    · exact e.trace_once n
theorem CondExp.traceL_once : (es : List CondExp) → (n : Nat) → OnceCalls n (CondExp.traceL n es).1 (CondExp.traceL n es).2
  | [], n => by simp only [CondExp.traceL]; exact OnceCalls.nil n
  | e :: es, n => by
    simp only [CondExp.traceL]
    exact (e.trace_once n).append (CondExp.traceL_once es _)
end

mutual
theorem ApExp.trace_once : (e : ApExp) → (n : Nat) → OnceCalls n (e.trace n).1 [(e.trace n).2]
  | .test t, n => by
    simp only [ApExp.trace]
    exact (OnceCalls.nil n).call _ List.nodup_nil (fun i h => by cases h)
  | .not e, n => by
    simp only [ApExp.trace]
    exact (e.trace_once n).one _ rfl
  | .unnot e, n => by
    simp only [ApExp.trace]
    exact (e.trace_once n).one _ rfl
  | .fn o e es, n => by
    simp only [ApExp.trace]
    have := ((e.trace_once n).append (ApExp.traceL_once es _)).all (if o then .orF (e.trace n).2 (ApExp.traceL (n + (e.trace n).1.length) es).2
      else .andF (e.trace n).2 (ApExp.traceL (n + (e.trace n).1.length) es).2) (by cases o <;> rfl)
    rw [List.append_assoc, List.length_append, ← Nat.add_assoc] at this
    exact this
  | .method o e es, n => by
    simp only [ApExp.trace]
    have := ((e.trace_once n).append (ApExp.traceL_once es _)).all (if o then .or (e.trace n).2 (ApExp.traceL (n + (e.trace n).1.length) es).2
      else .and (e.trace n).2 (ApExp.traceL (n + (e.trace n).1.length) es).2) (by cases o <;> rfl)
    rw [List.append_assoc, List.length_append, ← Nat.add_assoc] at this
    exact this
  | .group o es, n => by
    simp only [ApExp.trace]
    exact (ApExp.traceL_once es n).all _ rfl
  | .joinAll o es, n => by
    simp only [ApExp.trace]
    refine (ApExp.traceL_once es n).all _ ?_
    split
    · rename_i j hj; rw [hj]; rfl
    · rfl
  | .join o e, n => by
    simp only [ApExp.trace]
    exact (e.trace_once n).one _ rfl
  | .brackets e, n => by
    simp only [ApExp.trace]
    split
    · exact (e.trace_once n).one _ rfl
    · exact e.trace_once n
  | .table t e, n => by
    simp only [ApExp.trace]
    exact (e.trace_once n).one _ rfl
  | .spec d e, n => by
    simp only [ApExp.trace]
    exact (e.trace_once n).one _ rfl
theorem ApExp.traceL_once : (es : List ApExp) → (n : Nat) → OnceCalls n (ApExp.traceL n es).1 (ApExp.traceL n es).2
  | [], n => by simp only [ApExp.traceL]; exact OnceCalls.nil n
  | e :: es, n => by
    simp only [ApExp.traceL]
    exact (e.trace_once n).append (ApExp.traceL_once es _)
end

/-- Calls from `n` on that use the value `r` made before and values of their own, each once; the result `r'` is not used, and is `r` if
there are no calls. -/
structure OnceOn (n r : Nat) (cs : List Call) (r' : Nat) : Prop where
  own : (opNos cs).Nodup ∧ ∀ i ∈ opNos cs, i = r ∨ n ≤ i ∧ i < n + cs.length
  range : r' = r ∨ n ≤ r' ∧ r' < n + cs.length
  free : r' ∉ opNos cs

theorem OnceOn.nil (n r : Nat) : OnceOn n r [] r := ⟨⟨List.nodup_nil, (fun _ h => by cases h)⟩, .inl rfl, (fun h => by cases h)⟩

theorem OnceOn.lt {n r r' : Nat} {cs : List Call} (hr : r < n) (h : OnceOn n r cs r') : r' < n + cs.length := by
  rcases h.range with e | e <;> omega

/-- Arguments, then the call on the builder. -/
theorem OnceCalls.on {n r : Nat} {cs : List Call} {rs : List Nat} (h : OnceCalls n cs rs) (hr : r < n) (c : Call)
    (he : c.operands = r :: rs) : OnceOn n r (cs ++ [c]) (n + cs.length) := by
  have e : opNos (cs ++ [c]) = opNos cs ++ r :: rs := by rw [opNos_append]; simp [opNos, he]
  have lt : ∀ i ∈ opNos (cs ++ [c]), i = r ∨ n ≤ i ∧ i < n + cs.length := by
    intro i hi
    rw [e] at hi
    rcases List.mem_append.1 hi with hi | hi
    · exact .inr (h.own.2 i hi)
    · rcases List.mem_cons.1 hi with hi | hi
      · exact .inl hi
      · exact .inr (h.left.2 i hi)
  refine ⟨⟨?_, fun i hi => ?_⟩, .inr (by simp), fun hm => ?_⟩
  · rw [e]
    refine List.nodup_append.2 ⟨h.own.1, List.nodup_cons.2 ⟨fun hm => ?_, h.left.1⟩, fun a ha b hb k => ?_⟩
    · have := h.left.2 r hm; omega
    · subst k
      rcases List.mem_cons.1 hb with rfl | hb
      · have := h.own.2 _ ha; omega
      · exact h.free a hb ha
  · rw [List.length_append]
    rcases lt i hi with k | k
    · exact .inl k
    · right; omega
  · rcases lt _ hm with k | k <;> omega

theorem OnceOn.then {n r r' r'' : Nat} {cs cs' : List Call} (hr : r < n) (h : OnceOn n r cs r') (h' : OnceOn (n + cs.length) r' cs' r'') :
    OnceOn n r (cs ++ cs') r'' := by
  have len : (cs ++ cs').length = cs.length + cs'.length := List.length_append
  refine ⟨⟨?_, ?_⟩, ?_, ?_⟩
  · rw [opNos_append]
    refine List.nodup_append.2 ⟨h.own.1, h'.own.1, fun a ha b hb k => ?_⟩
    subst k
    rcases h'.own.2 a hb with rfl | hb
    · exact h.free ha
    · rcases h.own.2 a ha with rfl | ha <;> omega
  · intro i hi
    rw [opNos_append] at hi
    rcases List.mem_append.1 hi with hi | hi
    · rcases h.own.2 i hi with e | e
      · exact .inl e
      · right; omega
    · rcases h'.own.2 i hi with e | e
      · rcases h.range with k | k
        · exact .inl (e.trans k)
        · right; omega
      · right; omega
  · rcases h'.range with e | e
    · rcases h.range with k | k
      · exact .inl (e.trans k)
      · right; omega
    · right; omega
  · intro hm
    rw [opNos_append] at hm
    rcases List.mem_append.1 hm with hm | hm
    · rcases h'.range with e | e
      · exact h.free (e ▸ hm)
      · rcases h.own.2 _ hm with k | k <;> omega
    · exact h'.free hm

theorem OnceOn.whole {n r r' : Nat} {cs cs' : List Call} (h : OnceCalls n cs [r]) (h' : OnceOn (n + cs.length) r cs' r') :
    OnceCalls n (cs ++ cs') [r'] := by
  have hr := h.left.2 r (List.mem_singleton.2 rfl)
  have hf := h.free r (List.mem_singleton.2 rfl)
  have len : (cs ++ cs').length = cs.length + cs'.length := List.length_append
  refine ⟨⟨?_, ?_⟩, ⟨List.nodup_cons.2 ⟨by simp, List.nodup_nil⟩, List.forall_mem_singleton.2 ?_⟩, List.forall_mem_singleton.2 ?_⟩
  · rw [opNos_append]
    refine List.nodup_append.2 ⟨h.own.1, h'.own.1, fun a ha b hb k => ?_⟩
    subst k
    rcases h'.own.2 a hb with rfl | hb
    · exact hf ha
    · have := h.own.2 a ha; omega
  · intro i hi
    rw [opNos_append] at hi
    rcases List.mem_append.1 hi with hi | hi
    · have := h.own.2 i hi; omega
    · rcases h'.own.2 i hi with e | e <;> omega
  · rcases h'.range with e | e <;> omega
  · intro hm
    rw [opNos_append] at hm
    rcases List.mem_append.1 hm with hm | hm
    · rcases h'.range with e | e
      · exact hf (e ▸ hm)
      · have := h.own.2 _ hm; omega
    · exact h'.free hm

theorem NSCall.trace_once {n r : Nat} (hr : r < n) : ∀ c : NSCall, OnceOn n r (c.trace n r).1 (c.trace n r).2
  | .addWhere es => by simp only [NSCall.trace]; exact (CondExp.traceL_once es n).on hr _ rfl
  | .other (.fields l) => (OnceCalls.nil n).on hr _ rfl
  | .other (.join k t x y) => ((OnceCalls.nil n).on hr _ rfl).then (cs' := [_]) hr ((OnceCalls.nil (n + 1)).on (Nat.lt_succ_self n) _ rfl)
  | .other (.orderBy ks) => (OnceCalls.nil n).on hr _ rfl
  | .other (.offset k) => (OnceCalls.nil n).on hr _ rfl
  | .other (.limit k) => (OnceCalls.nil n).on hr _ rfl
  | .other (.addWhere _) => OnceOn.nil n r

theorem SelKind.toBase_once {n r : Nat} (hr : r < n) : ∀ k : SelKind, OnceOn n r (k.toBase n r).1 (k.toBase n r).2
  | .base => OnceOn.nil n r
  | .single => (OnceCalls.nil n).on hr _ rfl
  | .many => (OnceCalls.nil n).on hr _ rfl

theorem SelKind.toBase_once_then {n r : Nat} (hr : r < n) (k : SelKind) (c : Call)
    (he : c.operands = [(k.toBase n r).2]) : OnceOn n r ((k.toBase n r).1 ++ [c]) (n + (k.toBase n r).1.length) :=
  (k.toBase_once hr).then hr ((OnceCalls.nil _).on ((k.toBase_once hr).lt hr) _ he)

theorem KCall.trace_once {n r : Nat} (hr : r < n) (k : SelKind) : ∀ c : KCall, OnceOn n r (c.trace k n r).1 (c.trace k n r).2
  | .single => SelKind.toBase_once_then hr k _ rfl
  | .many => SelKind.toBase_once_then hr k _ rfl
  | .call c => by
    simp only [KCall.trace]
    split
    · have h1 := SelKind.toBase_once_then hr k (.many (k.toBase n r).2) rfl
      have h2 := h1.then hr (cs' := (c.trace (n + (k.toBase n r).1.length + 1) (n + (k.toBase n r).1.length)).1)
        (r'' := (c.trace (n + (k.toBase n r).1.length + 1) (n + (k.toBase n r).1.length)).2) (by
          rw [List.length_append]
          exact c.trace_once (Nat.lt_succ_self _))
      rw [List.append_assoc] at h2
      exact h2
    · exact c.trace_once hr

theorem ApCall.trace_once {n r : Nat} (hr : r < n) (k : SelKind) : ∀ c : ApCall, OnceOn n r (c.trace k n r).1 (c.trace k n r).2
  | .addWhere es => by simp only [ApCall.trace]; exact (ApExp.traceL_once es n).on hr _ rfl
  | .other c => c.trace_once hr k

theorem ApCall.traceAll_once : ∀ (cs : List ApCall) (k : SelKind) (n r : Nat), r < n →
    OnceOn n r (ApCall.traceAll k n r cs).1 (ApCall.traceAll k n r cs).2
  | [], _, n, r, _ => OnceOn.nil n r
  | c :: cs, k, n, r, hr => by
    simp only [ApCall.traceAll]
    have f := c.trace_once hr k
    exact f.then hr (ApCall.traceAll_once cs _ _ _ (f.lt hr))

theorem KindProg.traceFirst_once (p : KindProg) (n : Nat) : OnceCalls n (p.traceFirst n).1 [(p.traceFirst n).2] := by
  have h0 := (OnceCalls.nil n).call (.selectFrom (.str p.table.text)) List.nodup_nil (fun _ h => by cases h)
  unfold KindProg.traceFirst
  cases p.start
  · exact h0
  · exact h0.one (.single n) rfl
  · exact h0.one (.many n) rfl

theorem ApProg.trace_once (p : ApProg) (n : Nat) : OnceCalls n (p.trace n).1 [(p.trace n).2] := by
  have f := p.plain.traceFirst_once n
  exact OnceOn.whole f (ApCall.traceAll_once p.calls p.start _ _ (f.left.2 _ (List.mem_singleton.2 rfl)).2)

theorem ApProg.traceAll_once : ∀ (ps : List ApProg) (n : Nat), OnceCalls n (ApProg.traceAll n ps).1 (ApProg.traceAll n ps).2
  | [], n => OnceCalls.nil n
  | p :: ps, n => (p.trace_once n).append (ApProg.traceAll_once ps _)

/-! ## They run -/

mutual
theorem ApExp.trace_gives : (e : ApExp) → (n : Nat) → (ps : List PV) → ps.length = n → (c : Cond) → e.call = .ok c →
    GivesV ps (e.trace n).1 (e.trace n).2 (.cond c)
  | .test t, n, ps, hn, c, h => by
    simp only [ApExp.call] at h
    have hl := test_leaf h
    simp only [ApExp.trace, h, Res.gave]
    exact gives_call (cs := []) hn rfl (by simp only [Call.pure, hl]; rfl)
  | .not e, n, ps, hn, c, h => by
    simp only [ApExp.call] at h
    obtain ⟨d, hd, h⟩ := Res.bind_eq_ok.1 h
    cases h
    obtain ⟨ps', h1, h2⟩ := e.trace_gives n ps hn d hd
    simp only [ApExp.trace]
    exact gives_call hn h1 (by simp only [Call.pure, h2]; rfl)
  | .unnot e, n, ps, hn, c, h => by
    simp only [ApExp.call] at h
    obtain ⟨d, hd, h⟩ := Res.bind_eq_ok.1 h
    cases h
    obtain ⟨ps', h1, h2⟩ := e.trace_gives n ps hn d hd
    simp only [ApExp.trace]
    exact gives_call hn h1 (by simp only [Call.pure, h2])
  | .fn o e es, n, ps, hn, c, h => by
    simp only [ApExp.call] at h
    obtain ⟨d, hd, h⟩ := Res.bind_eq_ok.1 h
    obtain ⟨ds, hds, h⟩ := Res.bind_eq_ok.1 h
    cases h
    obtain ⟨ps1, h1, h2⟩ := e.trace_gives n ps hn d hd
    have hl1 := (runPure_prefix _ _ _ h1).2
    rw [hn] at hl1
    obtain ⟨ps2, h3, h4⟩ := ApExp.traceL_gives es _ ps1 hl1 ds hds
    have h2 := get_prefix (runPure_prefix _ _ _ h3).1 h2
    simp only [ApExp.trace]
    have := gives_call (c := if o then .orF (e.trace n).2 (ApExp.traceL (n + (e.trace n).1.length) es).2
      else .andF (e.trace n).2 (ApExp.traceL (n + (e.trace n).1.length) es).2) (x := .cond (if o then orC d ds else andC d ds)) hn
      (runPure_app h1 h3) (by cases o <;> simp [Call.pure, h2, h4])
    rw [List.append_assoc, List.length_append, ← Nat.add_assoc] at this
    exact this
  | .method o e es, n, ps, hn, c, h => by
    simp only [ApExp.call] at h
    obtain ⟨d, hd, h⟩ := Res.bind_eq_ok.1 h
    obtain ⟨ds, hds, h⟩ := Res.bind_eq_ok.1 h
    obtain ⟨ps1, h1, h2⟩ := e.trace_gives n ps hn d hd
    have hl1 := (runPure_prefix _ _ _ h1).2
    rw [hn] at hl1
    obtain ⟨ps2, h3, h4⟩ := ApExp.traceL_gives es _ ps1 hl1 ds hds
    have h2 := get_prefix (runPure_prefix _ _ _ h3).1 h2
    simp only [ApExp.trace]
    have := gives_call (c := if o then .or (e.trace n).2 (ApExp.traceL (n + (e.trace n).1.length) es).2
      else .and (e.trace n).2 (ApExp.traceL (n + (e.trace n).1.length) es).2) (x := .cond c) hn
      (runPure_app h1 h3) (by
        cases o
        · simp only [Bool.false_eq_true, if_false, Res.ok.injEq] at h
          subst h
          simp [Call.pure, h2, h4]
        · simp only [if_true] at h
          simp [Call.pure, h2, h4, h, Res.toOption])
    rw [List.append_assoc, List.length_append, ← Nat.add_assoc] at this
    exact this
  | .group o es, n, ps, hn, c, h => by
    simp only [ApExp.call] at h
    obtain ⟨ds, hds, h⟩ := Res.bind_eq_ok.1 h
    cases h
    obtain ⟨ps1, h1, h2⟩ := ApExp.traceL_gives es n ps hn ds hds
    simp only [ApExp.trace]
    exact gives_call hn h1 (by simp only [Call.pure, h2]; rfl)
  | .joinAll o es, n, ps, hn, c, h => by
    simp only [ApExp.call] at h
    obtain ⟨ds, hds, h⟩ := Res.bind_eq_ok.1 h
    obtain ⟨ps1, h1, h2⟩ := ApExp.traceL_gives es n ps hn ds hds
    simp only [ApExp.trace]
    exact gives_call hn h1 (joinAll_pure h2 h)
  | .join o e, n, ps, hn, c, h => by
    simp only [ApExp.call] at h
    obtain ⟨d, hd, h⟩ := Res.bind_eq_ok.1 h
    cases h
    obtain ⟨ps', h1, h2⟩ := e.trace_gives n ps hn d hd
    simp only [ApExp.trace]
    exact gives_call hn h1 (by simp only [Call.pure, h2])
  | .brackets e, n, ps, hn, c, h => by
    simp only [ApExp.call] at h
    obtain ⟨d, hd, h⟩ := Res.bind_eq_ok.1 h
    cases h
    have ih := e.trace_gives n ps hn d hd
    simp only [ApExp.trace, hd]
    cases d with
    | group b cs br =>
      obtain ⟨ps', h1, h2⟩ := ih
      exact gives_call hn h1 (by simp only [Call.pure, h2]; rfl)
    | _ => exact ih
  | .table t e, n, ps, hn, c, h => by
    simp only [ApExp.call] at h
    obtain ⟨d, hd, h⟩ := Res.bind_eq_ok.1 h
    cases h
    obtain ⟨ps', h1, h2⟩ := e.trace_gives n ps hn d hd
    simp only [ApExp.trace]
    exact gives_call hn h1 (by simp only [Call.pure, h2])
  | .spec x e, n, ps, hn, c, h => by
    simp only [ApExp.call] at h
    obtain ⟨d, hd, h⟩ := Res.bind_eq_ok.1 h
    obtain ⟨fd, hf, h⟩ := Res.bind_eq_ok.1 h
    cases h
    obtain ⟨ps', h1, h2⟩ := e.trace_gives n ps hn d hd
    simp only [ApExp.trace, gave_ok hf]
    exact gives_call hn h1 (by simp only [Call.pure, h2])
theorem ApExp.traceL_gives : (es : List ApExp) → (n : Nat) → (ps : List PV) → ps.length = n → (cs : List Cond) → ApExp.callL es = .ok cs →
    GivesConds ps (ApExp.traceL n es).1 (ApExp.traceL n es).2 cs
  | [], n, ps, hn, cs, h => by
    simp only [ApExp.callL] at h
    cases h
    simp only [ApExp.traceL]
    exact ⟨ps, rfl, rfl⟩
  | e :: es, n, ps, hn, cs, h => by
    simp only [ApExp.callL] at h
    obtain ⟨d, hd, h⟩ := Res.bind_eq_ok.1 h
    obtain ⟨ds, hds, h⟩ := Res.bind_eq_ok.1 h
    cases h
    obtain ⟨ps1, h1, h2⟩ := e.trace_gives n ps hn d hd
    have hl1 := (runPure_prefix _ _ _ h1).2
    rw [hn] at hl1
    obtain ⟨ps2, h3, h4⟩ := ApExp.traceL_gives es _ ps1 hl1 ds hds
    simp only [ApExp.traceL]
    exact ⟨ps2, runPure_app h1 h3, by simp only [getConds, get_prefix (runPure_prefix _ _ _ h3).1 h2, h4]⟩
end

theorem ApCall.trace_gives {n r : Nat} {ps : List PV} {b b' : SelB} (hn : ps.length = n) (hr : ps[r]? = some b.pv) :
    ∀ c : ApCall, c.OK → c.run b = .ok b' → GivesV ps (c.trace b.kind n r).1 (c.trace b.kind n r).2 b'.pv ∧ b'.kind = c.next b.kind
  | .other c, hok, h => KCall.trace_gives hn hr c hok h
  | .addWhere es, _, h => by
    have mk : ∀ (ds : List Cond) (x : PV), ApExp.callL es = .ok ds →
        (∀ ps' : List PV, ps'[r]? = some b.pv → getConds ps' (ApExp.traceL n es).2 = some ds →
          (Call.where_ r (ApExp.traceL n es).2).pure ps' = some x) →
        GivesV ps ((ApExp.traceL n es).1 ++ [.where_ r (ApExp.traceL n es).2]) (n + (ApExp.traceL n es).1.length) x := by
      intro ds x hds hx
      obtain ⟨ps1, h1, h2⟩ := ApExp.traceL_gives es n ps hn ds hds
      exact gives_call hn h1 (hx ps1 (get_prefix (runPure_prefix _ _ _ h1).1 hr) h2)
    cases b with
    | base q =>
      simp only [ApCall.run] at h
      obtain ⟨ds, hds, h⟩ := Res.bind_eq_ok.1 h
      cases h
      exact ⟨mk ds _ hds fun ps' h1 h2 => by simp only [Call.pure, h1, h2, SelB.pv], rfl⟩
    | single q =>
      simp only [ApCall.run] at h
      obtain ⟨ds, hds, h⟩ := Res.bind_eq_ok.1 h
      cases h
      exact ⟨mk ds _ hds fun ps' h1 h2 => by simp only [Call.pure, h1, h2, SelB.pv], rfl⟩
    | many q =>
      simp only [ApCall.run] at h
      obtain ⟨ds, hds, h⟩ := Res.bind_eq_ok.1 h
      cases h
      exact ⟨mk ds _ hds fun ps' h1 h2 => by simp only [Call.pure, h1, h2, SelB.pv], rfl⟩

theorem ApCall.traceAll_gives : ∀ (cs : List ApCall) (n r : Nat) (ps : List PV) (b b' : SelB), ps.length = n → ps[r]? = some b.pv →
    (∀ c ∈ cs, c.OK) → ApCall.runAll b cs = .ok b' →
    GivesV ps (ApCall.traceAll b.kind n r cs).1 (ApCall.traceAll b.kind n r cs).2 b'.pv
  | [], n, r, ps, b, b', hn, hr, _, h => by cases h; exact ⟨ps, rfl, hr⟩
  | c :: cs, n, r, ps, b, b', hn, hr, ok, h => by
    simp only [ApCall.runAll] at h
    obtain ⟨b1, h1, h⟩ := Res.bind_eq_ok.1 h
    simp only [ApCall.traceAll]
    obtain ⟨g, hk⟩ := ApCall.trace_gives hn hr c (ok c (List.mem_cons_self ..)) h1
    have ih := fun n r ps hn hr => ApCall.traceAll_gives cs n r ps b1 b' hn hr (fun x hx => ok x (List.mem_cons_of_mem _ hx)) h
    rw [hk] at ih
    obtain ⟨ps1, g1, g2⟩ := g
    obtain ⟨ps2, g3, g4⟩ := ih (n + (c.trace b.kind n r).1.length) _ ps1 (by rw [(runPure_prefix _ _ _ g1).2, hn]) g2
    exact ⟨ps2, runPure_app g1 g3, g4⟩

/-- The first call of a program. -/
theorem KindProg.traceFirst_gives {p : KindProg} {b0 : SelB} (ht : p.table.OK) (h0 : p.first = .ok b0) (n : Nat) (ps : List PV)
    (hn : ps.length = n) : GivesV ps (p.traceFirst n).1 (p.traceFirst n).2 b0.pv ∧ b0.kind = p.start := by
  obtain ⟨s, t, cs⟩ := p
  have h : (KindProg.mk s t []).run = .ok b0 := by
    have : (KindProg.mk s t []).first = .ok b0 := h0
    simp only [KindProg.run, this]
    rfl
  have ok : (KindProg.mk s t []).OK := ⟨ht, fun _ h => (by cases h), by cases s <;> simp [KCall.noFields]⟩
  obtain ⟨⟨ps', g1, g2⟩, g3⟩ := KindProg.trace_gives ok h n ps hn
  refine ⟨⟨ps', ?_, g2⟩, g3⟩
  have e : ((KindProg.mk s t []).trace n).1 = ((KindProg.mk s t []).traceFirst n).1 := List.append_nil _
  rw [e] at g1
  exact g1

theorem ApProg.trace_gives {p : ApProg} {b : SelB} (ok : p.OK) (h : p.run = .ok b) (n : Nat) (ps : List PV) (hn : ps.length = n) :
    GivesV ps (p.trace n).1 (p.trace n).2 b.pv := by
  simp only [ApProg.run] at h
  obtain ⟨b0, h0, h⟩ := Res.bind_eq_ok.1 h
  obtain ⟨⟨ps1, g1, g2⟩, hk⟩ := KindProg.traceFirst_gives (p := p.plain) ok.table h0 n ps hn
  obtain ⟨ps2, g3, g4⟩ := ApCall.traceAll_gives p.calls (n + (p.plain.traceFirst n).1.length) _ ps1 b0 b
    (by rw [(runPure_prefix _ _ _ g1).2, hn]) g2 ok.calls h
  rw [hk] at g3 g4
  exact ⟨ps2, runPure_app g1 g3, g4⟩

theorem ApProg.traceAll_gives : ∀ (l : List ApProg) (n : Nat) (ps : List PV), ps.length = n → (∀ p ∈ l, p.OK ∧ ∃ b, p.run = .ok b) →
    ∃ ps', runPure ps (ApProg.traceAll n l).1 = some ps' ∧
      ∀ (i : Nat) (p : ApProg), l[i]? = some p → ∃ r b, (ApProg.traceAll n l).2[i]? = some r ∧ ps'[r]? = some b.pv ∧ p.run = .ok b
  | [], n, ps, hn, _ => ⟨ps, rfl, fun i p h => by cases h⟩
  | p :: l, n, ps, hn, ok => by
    obtain ⟨ok1, b, hb⟩ := ok p (List.mem_cons_self ..)
    obtain ⟨ps1, h1, h2⟩ := ApProg.trace_gives ok1 hb n ps hn
    obtain ⟨ps2, h3, h5⟩ := ApProg.traceAll_gives l (n + (p.trace n).1.length) ps1 (by rw [(runPure_prefix _ _ _ h1).2, hn])
      fun q hq => ok q (List.mem_cons_of_mem _ hq)
    refine ⟨ps2, runPure_app h1 h3, fun i q hq => ?_⟩
    cases i with
    | zero =>
      cases hq
      exact ⟨_, b, rfl, get_prefix (runPure_prefix _ _ _ h3).1 h2, hb⟩
    | succ i =>
      obtain ⟨r, y, k⟩ := h5 i q (by simpa using hq)
      exact ⟨r, y, k⟩

/-! ## What comes in the end -/

theorem NUCall.trace_once {n r : Nat} (hr : r < n) : ∀ c : NUCall, OnceOn n r (c.trace n r).1 (c.trace n r).2
  | .set l => (OnceCalls.nil n).on hr _ rfl
  | .addWhere es => by simp only [NUCall.trace]; exact (CondExp.traceL_once es n).on hr _ rfl

theorem NUCall.traceAll_once : ∀ (cs : List NUCall) (n r : Nat), r < n → OnceOn n r (NUCall.traceAll n r cs).1 (NUCall.traceAll n r cs).2
  | [], n, r, _ => OnceOn.nil n r
  | c :: cs, n, r, hr => by
    simp only [NUCall.traceAll]
    have k := c.trace_once hr
    exact k.then hr (NUCall.traceAll_once cs _ _ (k.lt hr))

theorem NDeleteProg.traceAll_once : ∀ (cs : List (List CondExp)) (n r : Nat), r < n →
    OnceOn n r (NDeleteProg.traceAll n r cs).1 (NDeleteProg.traceAll n r cs).2
  | [], n, r, _ => OnceOn.nil n r
  | es :: cs, n, r, hr => by
    simp only [NDeleteProg.traceAll]
    have k := (CondExp.traceL_once es n).on hr (.where_ r (CondExp.traceL n es).2) rfl
    have := k.then hr (by
      rw [List.length_append]
      exact NDeleteProg.traceAll_once cs _ _ (Nat.lt_succ_self _))
    rw [List.append_assoc] at this
    exact this

theorem InsertProg.traceAll_once : ∀ (cs : List (List SetTo)) (n r : Nat), r < n →
    OnceOn n r (InsertProg.traceAll n r cs).1 (InsertProg.traceAll n r cs).2
  | [], n, r, _ => OnceOn.nil n r
  | l :: cs, n, r, hr => by
    simp only [InsertProg.traceAll]
    exact ((OnceCalls.nil n).on hr (.values r (setsOf l)) rfl).then hr (InsertProg.traceAll_once cs _ _ (Nat.lt_succ_self n))

theorem KEnd.trace_once {n r : Nat} (hr : r < n) (k : SelKind) : ∀ e : KEnd, OnceOn n r (e.trace k n r).1 (e.trace k n r).2
  | .read => OnceOn.nil n r
  | .count => by
    have one := (OnceCalls.nil n).on hr (.count r []) rfl
    cases k
    · exact one
    · exact ((OnceCalls.nil n).on hr (.embedded r) rfl).then (cs' := [_]) hr ((OnceCalls.nil (n + 1)).on (Nat.lt_succ_self n) (.count n []) rfl)
    · exact one
  | .countCol c more => by
    have one := (OnceCalls.nil n).on hr (.count r (c.text :: more)) rfl
    cases k
    · exact one
    · exact ((OnceCalls.nil n).on hr (.embedded r) rfl).then (cs' := [_]) hr
        ((OnceCalls.nil (n + 1)).on (Nat.lt_succ_self n) (.count n (c.text :: more)) rfl)
    · exact one
  | .delete more => ((OnceCalls.nil n).on hr (.deleteFrom r) rfl).then (cs := [_]) hr (NDeleteProg.traceAll_once more _ _ (Nat.lt_succ_self n))
  | .update sets more =>
    ((OnceCalls.nil n).on hr (.updateFrom r (setsOf sets)) rfl).then (cs := [_]) hr (NUCall.traceAll_once more _ _ (Nat.lt_succ_self n))
  | .insert sets more => by
    have h1 := SelKind.toBase_once_then hr k (.insertFrom (k.toBase n r).2 (setsOf sets)) rfl
    have h2 := h1.then hr (cs' := (InsertProg.traceAll (n + (k.toBase n r).1.length + 1) (n + (k.toBase n r).1.length) more).1)
      (r'' := (InsertProg.traceAll (n + (k.toBase n r).1.length + 1) (n + (k.toBase n r).1.length) more).2) (by
        rw [List.length_append]
        exact InsertProg.traceAll_once more _ _ (Nat.lt_succ_self _))
    rw [List.append_assoc] at h2
    exact h2

theorem ApProg.traceTo_once (x : ApProg × KEnd) (n : Nat) : OnceCalls n (ApProg.traceTo n x).1 [(ApProg.traceTo n x).2] := by
  have f := x.1.trace_once n
  exact OnceOn.whole f (x.2.trace_once (f.left.2 _ (List.mem_singleton.2 rfl)).2 _)

theorem ApProg.traceEnds_once : ∀ (ps : List (ApProg × KEnd)) (n : Nat), OnceCalls n (ApProg.traceEnds n ps).1 (ApProg.traceEnds n ps).2
  | [], n => OnceCalls.nil n
  | p :: ps, n => (ApProg.traceTo_once p n).append (ApProg.traceEnds_once ps _)

theorem ApProg.traceTo_gives {p : ApProg} {e : KEnd} {b : SelB} {x : PV} (ok : p.OK) (h : p.run = .ok b) (hk : b.kind = p.plain.kind)
    (h' : e.run b = .ok x) (n : Nat) (ps : List PV) (hn : ps.length = n) :
    GivesV ps (ApProg.traceTo n (p, e)).1 (ApProg.traceTo n (p, e)).2 x := by
  have k := (ApProg.trace_gives ok h n ps hn).then hn fun ps' hn' hr' => KEnd.trace_gives hn' hr' e h'
  rw [hk] at k
  exact k

theorem ApProg.traceEnds_gives : ∀ (l : List (ApProg × KEnd)) (n : Nat) (ps : List PV), ps.length = n →
    (∀ p ∈ l, p.1.OK ∧ ∃ b x, p.1.run = .ok b ∧ b.kind = p.1.plain.kind ∧ p.2.run b = .ok x) →
    ∃ ps', runPure ps (ApProg.traceEnds n l).1 = some ps' ∧
      ∀ (i : Nat) (p : ApProg × KEnd), l[i]? = some p → ∃ r b x, (ApProg.traceEnds n l).2[i]? = some r ∧ ps'[r]? = some x ∧
        p.1.run = .ok b ∧ p.2.run b = .ok x
  | [], n, ps, hn, _ => ⟨ps, rfl, fun i p h => by cases h⟩
  | p :: l, n, ps, hn, ok => by
    obtain ⟨ok1, b, x, hb, hk, hx⟩ := ok p (List.mem_cons_self ..)
    obtain ⟨ps1, h1, h2⟩ := ApProg.traceTo_gives ok1 hb hk hx n ps hn
    obtain ⟨ps2, h3, h5⟩ := ApProg.traceEnds_gives l (n + (ApProg.traceTo n p).1.length) ps1 (by rw [(runPure_prefix _ _ _ h1).2, hn])
      fun q hq => ok q (List.mem_cons_of_mem _ hq)
    refine ⟨ps2, runPure_app h1 h3, fun i q hq => ?_⟩
    cases i with
    | zero =>
      cases hq
      exact ⟨_, b, x, rfl, get_prefix (runPure_prefix _ _ _ h3).1 h2, hb, hx⟩
    | succ i =>
      obtain ⟨r, y, k⟩ := h5 i q (by simpa using hq)
      exact ⟨r, y, k⟩

end Query
