import Verif.Spec.Threads
import Verif.Proof.HeapSafe
/-!
# Goroutines: any order of their calls
-/
namespace Query

/-! ## Renumbered calls -/

theorem getConds_rename {f : Nat → Nat} {ps qs : List PV} (h : ∀ i v, qs[i]? = some v → ps[f i]? = some v) :
    ∀ (args : List Nat) (cs : List Cond), getConds qs args = some cs → getConds ps (args.map f) = some cs
  | [], cs, e => e
  | i :: is, cs, e => by
    simp only [getConds, List.map_cons] at e ⊢
    split at e
    · rename_i c cs' e1 e2
      cases e
      rw [h _ _ e1, getConds_rename h is _ e2]
    · cases e

theorem pure_rename {f : Nat → Nat} {ps qs : List PV} (h : ∀ i v, qs[i]? = some v → ps[f i]? = some v) (c : Call) (v : PV)
    (e : c.pure qs = some v) : (c.rename f).pure ps = some v := by
  have two : ∀ (r : Nat) (args : List Nat) (p : PV) (cs : List Cond), qs[r]? = some p → getConds qs args = some cs →
      ps[f r]? = some p ∧ getConds ps (args.map f) = some cs := fun r args p cs h1 h2 => ⟨h _ _ h1, getConds_rename h _ _ h2⟩
  cases c <;> simp only [Call.rename, Call.pure] at e ⊢
  case newGroup j args =>
    cases hc : getConds qs args with
    | none => rw [hc] at e; cases e
    | some cs => rw [hc] at e; rw [getConds_rename h _ _ hc]; exact e
  all_goals first
    | exact e
    | (split at e
       all_goals first
         | cases e; done
         | (rename_i h1 h2; obtain ⟨k1, k2⟩ := two _ _ _ _ h1 h2; simp only [k1, k2]; exact e)
         | (rename_i h1; simp only [h _ _ h1]; exact e))

/-- The operand a call extends or copies. -/
def Call.recv : Call → Option Nat
  | .andF r _ | .orF r _ | .and r _ | .or r _ | .negate r _ | .join r _ | .withBrackets r | .applySpec r _ | .applyTable r _
  | .fields r _ | .where_ r _ | .joinTable r _ _ | .on r _ _ | .single r | .many r | .embedded r | .offset r _ | .limit r _ | .orderBy r _
  | .count r _ | .insertFrom r _ | .values r _ | .updateFrom r _ | .set r _ | .deleteFrom r => some r
  | .leaf _ | .newGroup _ _ | .selectFrom _ | .insertInto _ | .update _ | .delete _ => none

theorem recv_lt {qs : List PV} {c : Call} {v : PV} (e : c.pure qs = some v) {r : Nat} (hr : c.recv = some r) : r < qs.length := by
  have key : ∀ p, qs[r]? = some p → r < qs.length := fun p h => (List.getElem?_eq_some_iff.1 h).1
  cases hq : qs[r]? with
  | some p => exact key p hq
  | none =>
    exfalso
    cases c <;> simp only [Call.recv, reduceCtorEq, Option.some.injEq] at hr <;> subst hr <;> simp only [Call.pure, hq] at e <;> cases e

/-- The act with its operand renumbered. -/
def Act.rename (f : Nat → Nat) : Act → Act
  | .none => .none
  | .full => .full
  | .fresh => .fresh
  | .copy r => .copy (f r)
  | .app r => .app (f r)

/-- Completing a join as if it were extending a list, so that both are followed alike. -/
def Call.completesAct (c : Call) : Act :=
  match c.completes with
  | some r => .app r
  | none => .fresh

/-- What is followed: a kind of act that belongs to the operand. -/
structure Followed (act : Call → Act) : Prop where
  rename : ∀ f c, act (c.rename f) = (act c).rename f
  recv : ∀ c r, act c = .copy r ∨ act c = .app r → c.recv = some r

theorem followed_conds : Followed Call.condsAct :=
  ⟨fun f c => by cases c <;> rfl, fun c r h => by cases c <;> rcases h with h | h <;> cases h <;> rfl⟩
theorem followed_joins : Followed Call.joinsAct :=
  ⟨fun f c => by cases c <;> rfl, fun c r h => by cases c <;> rcases h with h | h <;> cases h <;> rfl⟩
theorem followed_sorts : Followed Call.sortsAct :=
  ⟨fun f c => by cases c <;> rfl, fun c r h => by cases c <;> rcases h with h | h <;> cases h <;> rfl⟩
theorem followed_vals : Followed Call.valsAct :=
  ⟨fun f c => by cases c <;> rfl, fun c r h => by cases c <;> rcases h with h | h <;> cases h <;> rfl⟩
theorem followed_completes : Followed Call.completesAct :=
  ⟨fun f c => by cases c <;> rfl, fun c r h => by cases c <;> rcases h with h | h <;> cases h <;> rfl⟩

/-! ## Tracks -/

theorem push_length (ts : List (Option Nat)) (a : Act) : (a.push ts).length = ts.length + 1 := by
  cases a <;> simp [Act.push]

theorem tracks_snoc (as : List Act) (a : Act) : tracks (as ++ [a]) = a.push (tracks as) := by
  simp [tracks, List.foldl_append]

theorem foldl_push_length : ∀ (as : List Act) (ts : List (Option Nat)), (as.foldl Act.push ts).length = ts.length + as.length
  | [], ts => rfl
  | a :: as, ts => by simp only [List.foldl_cons, foldl_push_length as, push_length, List.length_cons]; omega

theorem tracks_length (as : List Act) : (tracks as).length = as.length := by simp [tracks, foldl_push_length]

/-- Entries of the new value. -/
def Act.entry (ts : List (Option Nat)) : Act → Option Nat
  | .none | .full => Option.none
  | .fresh | .app _ => some ts.length
  | .copy r => (ts[r]?).join

theorem push_eq (ts : List (Option Nat)) (a : Act) : a.push ts = ts ++ [a.entry ts] := by cases a <;> rfl

/-- Lists are named by numbers of calls made. -/
def NamesB (ts : List (Option Nat)) : Prop := ∀ (i j : Nat), ts[i]? = some (some j) → j < ts.length

theorem namesB_push {ts : List (Option Nat)} (h : NamesB ts) (a : Act) : NamesB (a.push ts) := by
  intro i j e
  rw [push_eq] at e ⊢
  rw [List.length_append]
  by_cases hi : i < ts.length
  · rw [List.getElem?_append_left hi] at e
    have := h i j e; simp; omega
  · rw [List.getElem?_append_right (Nat.le_of_not_lt hi)] at e
    have : i - ts.length = 0 := by
      have := (List.getElem?_eq_some_iff.1 e).1; simp at this; omega
    rw [this] at e
    simp only [List.getElem?_cons_zero, Option.some.injEq] at e
    cases a <;> simp only [Act.entry] at e
    · cases e
    · cases e
    · cases e; simp
    · rename_i r
      cases hr : ts[r]? with
      | none => rw [hr] at e; cases e
      | some o => rw [hr] at e; cases o with
        | none => cases e
        | some y => cases e; have := h r _ hr; simp; omega
    · cases e; simp

theorem namesB_foldl : ∀ (as : List Act) (ts : List (Option Nat)), NamesB ts → NamesB (as.foldl Act.push ts)
  | [], ts, h => h
  | a :: as, ts, h => namesB_foldl as _ (namesB_push h a)

theorem namesB_tracks (as : List Act) : NamesB (tracks as) := namesB_foldl as [] fun i j e => by cases e

theorem ext_snoc : ∀ (as : List Act) (a : Act) (ts : List (Option Nat)),
    extendedLists ts (as ++ [a]) = extendedLists ts as ++ (a.extended (as.foldl Act.push ts)).toList
  | [], a, ts => by simp [extendedLists]
  | b :: as, a, ts => by simp only [List.cons_append, extendedLists, List.foldl_cons, ext_snoc as, List.append_assoc]

theorem ext_split : ∀ (as bs : List Act) (ts : List (Option Nat)),
    extendedLists ts (as ++ bs) = extendedLists ts as ++ extendedLists (as.foldl Act.push ts) bs
  | [], bs, ts => rfl
  | b :: as, bs, ts => by simp only [List.cons_append, extendedLists, List.foldl_cons, ext_split as bs, List.append_assoc]

theorem ext_cs (act : Call → Act) (cs p : List Call) :
    extendedLists [] ((cs ++ p).map act) = extendedLists [] (cs.map act) ++ extends_ act cs p := by
  rw [List.map_append, ext_split]; rfl

theorem extends_snoc (act : Call → Act) (cs p : List Call) (c : Call) :
    extends_ act cs (p ++ [c]) = extends_ act cs p ++ ((act c).extended (tracks ((cs ++ p).map act))).toList := by
  simp only [extends_, List.map_append, List.map_cons, List.map_nil, ext_snoc, tracks, List.foldl_append]

theorem extended_lt {ts : List (Option Nat)} (h : NamesB ts) {a : Act} {x : Nat} (e : a.extended ts = some x) : x < ts.length := by
  cases a with
  | app r =>
    simp only [Act.extended] at e
    cases hr : ts[r]? with
    | none => rw [hr] at e; cases e
    | some o => rw [hr] at e; cases o with
      | none => cases e
      | some y => cases e; exact h r x hr
  | _ => cases e

theorem ext_lt : ∀ (as : List Act) (ts : List (Option Nat)), NamesB ts → ∀ x ∈ extendedLists ts as, x < ts.length + as.length
  | [], ts, h, x, hx => by cases hx
  | a :: as, ts, h, x, hx => by
    simp only [extendedLists, List.mem_append, Option.mem_toList] at hx
    rcases hx with hx | hx
    · have := extended_lt h hx; simp; omega
    · have := ext_lt as _ (namesB_push h a) x hx; rw [push_length] at this; simp; omega

/-! ## Numbers of a goroutine -/

/-- The numbers of the goroutines' values: of values made, not shared, each once. -/
structure OwnInv (n : Nat) (w : Weave) : Prop where
  low : ∀ t, ∀ g ∈ w.own t, n ≤ g ∧ g < n + w.calls.length
  once : ∀ t, (w.own t).Nodup
  apart : ∀ t u, t ≠ u → ∀ g ∈ w.own t, g ∉ w.own u

theorem place_shared (n : Nat) (own : List Nat) {i : Nat} (h : i < n) : place n own i = i := by simp [place, h]

theorem place_own {n : Nat} {own : List Nat} {i : Nat} (h : ¬ i < n) (hi : i < n + own.length) : place n own i ∈ own := by
  have : i - n < own.length := by omega
  simp [place, h, this]

theorem place_snoc {n : Nat} {own : List Nat} {i g : Nat} (hi : i < n + own.length) : place n (own ++ [g]) i = place n own i := by
  by_cases h : i < n
  · simp [place, h]
  · have : i - n < own.length := by omega
    simp [place, h, List.getElem?_append_left this]

theorem place_last {n : Nat} {own : List Nat} {g : Nat} : place n (own ++ [g]) (n + own.length) = g := by
  have h : ¬ n + own.length < n := by omega
  simp [place, h]

theorem OwnInv.bound {n : Nat} {w : Weave} (o : OwnInv n w) {t i : Nat} (hi : i < n + (w.own t).length) :
    place n (w.own t) i < n + w.calls.length := by
  by_cases h : i < n
  · rw [place_shared n _ h]; omega
  · exact (o.low t _ (place_own h hi)).2

/-- The numbering of a goroutine mixes nothing up. -/
theorem OwnInv.inj {n : Nat} {w : Weave} (o : OwnInv n w) {t u i j : Nat} (hi : i < n + (w.own t).length) (hj : j < n + (w.own u).length)
    (e : place n (w.own t) i = place n (w.own u) j) : i = j ∧ (i < n ∨ t = u) := by
  by_cases h : i < n
  · by_cases h' : j < n
    · rw [place_shared n _ h, place_shared n _ h'] at e; exact ⟨e, .inl h⟩
    · rw [place_shared n _ h] at e
      have := (o.low u _ (place_own h' hj)).1; omega
  · by_cases h' : j < n
    · rw [place_shared n _ h'] at e
      have := (o.low t _ (place_own h hi)).1; omega
    · have htu : t = u := by
        cases Nat.decEq t u with
        | isTrue h => exact h
        | isFalse hne => exact absurd (e ▸ place_own h' hj) (o.apart t u hne _ (place_own h hi))
      subst htu
      have hi' : i - n < (w.own t).length := by omega
      have hj' : j - n < (w.own t).length := by omega
      simp only [place, h, h', if_false, List.getElem?_eq_getElem hi', List.getElem?_eq_getElem hj', Option.getD_some] at e
      have := (List.getElem_inj (h₀ := hi') (h₁ := hj') (o.once t)).1 e
      exact ⟨by omega, .inr rfl⟩

theorem OwnInv.empty (n : Nat) : OwnInv n ⟨[], fun _ => []⟩ :=
  ⟨(fun _ _ h => absurd h List.not_mem_nil), (fun _ => List.nodup_nil), (fun _ _ _ _ h => absurd h List.not_mem_nil)⟩

/-- Goroutine `t` makes a call. -/
def Weave.add (n : Nat) (w : Weave) (t : Nat) (c : Call) : Weave :=
  ⟨w.calls ++ [c.rename (place n (w.own t))], fun u => if u = t then w.own t ++ [n + w.calls.length] else w.own u⟩

theorem OwnInv.add {n : Nat} {w : Weave} (o : OwnInv n w) (t : Nat) (c : Call) : OwnInv n (w.add n t c) := by
  have new : ∀ u, n + w.calls.length ∉ w.own u := fun u h => by have := (o.low u _ h).2; omega
  refine ⟨fun u g hg => ?_, fun u => ?_, fun u v hne g hg => ?_⟩
  · simp only [Weave.add] at hg ⊢
    rw [List.length_append, List.length_singleton]
    split at hg
    · rcases List.mem_append.1 hg with hg | hg
      · have := o.low t g hg; omega
      · have := List.mem_singleton.1 hg; omega
    · have := o.low u g hg; omega
  · simp only [Weave.add]
    split
    · refine List.nodup_append.2 ⟨o.once t, by simp, fun a ha b hb => ?_⟩
      rw [List.mem_singleton.1 hb]
      exact fun e => new t (e ▸ ha)
    · exact o.once u
  · simp only [Weave.add] at hg ⊢
    by_cases hu : u = t <;> by_cases hv : v = t <;> simp only [hu, hv, if_true, if_false] at hg ⊢
    · exact absurd (hu.trans hv.symm) hne
    · rcases List.mem_append.1 hg with hg | hg
      · exact o.apart t v (fun e => hv e.symm) g hg
      · rw [List.mem_singleton.1 hg]; exact new v
    · intro h
      rcases List.mem_append.1 h with h | h
      · exact o.apart u t hu g hg h
      · exact new u (List.mem_singleton.1 h ▸ hg)
    · exact o.apart u v hne g hg

/-! ## Following one kind of list -/

/-- What is known after some turns about the lists of one kind. -/
structure Tracked (act : Call → Act) (cs : List Call) (prog : Nat → List Call) (w : Weave) : Prop where
  nod : (extendedLists [] ((cs ++ w.calls).map act)).Nodup
  src : ∀ x ∈ extends_ act cs w.calls, ∃ t y, y ∈ extends_ act cs ((prog t).take (w.own t).length) ∧
    x = place cs.length (w.own t) y ∧ y < cs.length + (w.own t).length
  trk : ∀ t i, i < cs.length + (w.own t).length → ((tracks ((cs ++ w.calls).map act))[place cs.length (w.own t) i]?).join =
    (((tracks ((cs ++ (prog t).take (w.own t).length).map act))[i]?).join).map (place cs.length (w.own t))

theorem Tracked.empty {act : Call → Act} {cs : List Call} {prog : Nat → List Call}
    (h : (extendedLists [] (cs.map act)).Nodup) : Tracked act cs prog ⟨[], fun _ => []⟩ := by
  refine ⟨by simpa using h, fun x hx => by simp [extends_, extendedLists] at hx, fun t i hi => ?_⟩
  have hi' : i < cs.length := by simpa using hi
  simp only [List.append_nil, List.length_nil, List.take_zero, place_shared _ _ hi']
  cases e : (tracks (cs.map act))[i]? with
  | none => rfl
  | some o =>
    cases o with
    | none => rfl
    | some j =>
      have := namesB_tracks _ i j e
      rw [tracks_length, List.length_map] at this
      simp [Option.join, place_shared _ _ this]

theorem take_snoc {p : List Call} {k : Nat} {c : Call} (h : p[k]? = some c) : p.take (k + 1) = p.take k ++ [c] := by
  rw [List.take_add_one, h]; rfl

theorem Tracked.add {act : Call → Act} (fo : Followed act) {cs : List Call} {prog : Nat → List Call} {w : Weave}
    (k : Tracked act cs prog w) (o : OwnInv cs.length w)
    (alone : ∀ t, (extendedLists [] ((cs ++ prog t).map act)).Nodup)
    (shared : ∀ t u, t ≠ u → ∀ x < cs.length, x ∈ extends_ act cs (prog t) → x ∉ extends_ act cs (prog u))
    {t : Nat} {c : Call} (hc : (prog t)[(w.own t).length]? = some c)
    (hr : ∀ r, c.recv = some r → r < cs.length + (w.own t).length) :
    Tracked act cs prog (w.add cs.length t c) := by
  have hk : (w.own t).length < (prog t).length := (List.getElem?_eq_some_iff.1 hc).1
  have lenG : (tracks ((cs ++ w.calls).map act)).length = cs.length + w.calls.length := by rw [tracks_length]; simp
  have lenL : (tracks ((cs ++ (prog t).take (w.own t).length).map act)).length = cs.length + (w.own t).length := by
    rw [tracks_length]; simp; omega
  have nbL := namesB_tracks ((cs ++ (prog t).take (w.own t).length).map act)
  -- the new call
  have hG : tracks ((cs ++ (w.add cs.length t c).calls).map act) =
      ((act c).rename (place cs.length (w.own t))).push (tracks ((cs ++ w.calls).map act)) := by
    simp only [Weave.add, ← List.append_assoc]
    rw [List.map_append, List.map_cons, List.map_nil, fo.rename, tracks_snoc]
  have hL : tracks ((cs ++ (prog t).take ((w.own t).length + 1)).map act) =
      (act c).push (tracks ((cs ++ (prog t).take (w.own t).length).map act)) := by
    rw [take_snoc hc, ← List.append_assoc, List.map_append, List.map_cons, List.map_nil, tracks_snoc]
  -- the list it extends
  have hext : ((act c).rename (place cs.length (w.own t))).extended (tracks ((cs ++ w.calls).map act)) =
      ((act c).extended (tracks ((cs ++ (prog t).take (w.own t).length).map act))).map (place cs.length (w.own t)) := by
    cases ha : act c with
    | app r => exact k.trk t r (hr r (fo.recv c r (.inr ha)))
    | _ => rfl
  have hextL : extends_ act cs ((prog t).take ((w.own t).length + 1)) = extends_ act cs ((prog t).take (w.own t).length) ++
      ((act c).extended (tracks ((cs ++ (prog t).take (w.own t).length).map act))).toList := by
    rw [take_snoc hc, extends_snoc]
  have pre : ∀ u m, (extends_ act cs ((prog u).take m)).Sublist (extends_ act cs (prog u)) := by
    intro u m
    have := extendedLists_append (((prog u).take m).map act) (((prog u).drop m).map act) (tracks (cs.map act))
    rw [← List.map_append, List.take_append_drop] at this
    exact this
  have hextG : extends_ act cs (w.add cs.length t c).calls = extends_ act cs w.calls ++
      (((act c).extended (tracks ((cs ++ (prog t).take (w.own t).length).map act))).map (place cs.length (w.own t))).toList := by
    simp only [Weave.add]
    rw [extends_snoc, fo.rename, hext]
  -- it was not extended before
  have fresh : ∀ y, (act c).extended (tracks ((cs ++ (prog t).take (w.own t).length).map act)) = some y →
      place cs.length (w.own t) y ∉ extendedLists [] ((cs ++ w.calls).map act) := by
    intro y hy
    have hyl : y < cs.length + (w.own t).length := by rw [← lenL]; exact extended_lt nbL hy
    have hyt : y ∈ extends_ act cs (prog t) := (pre t ((w.own t).length + 1)).subset (by rw [hextL, hy]; simp)
    have al := alone t
    rw [ext_cs] at al
    have alt : (extends_ act cs ((prog t).take ((w.own t).length + 1))).Nodup := (pre t _).nodup (List.nodup_append.1 al).2.1
    rw [hextL, hy] at alt
    rw [ext_cs]
    intro hm
    rcases List.mem_append.1 hm with hm | hm
    · have hlt := ext_lt _ [] (fun i j e => by cases e) _ hm
      simp only [List.length_nil, List.length_map, Nat.zero_add] at hlt
      have hyn : y < cs.length := by
        cases Nat.lt_or_ge y cs.length with
        | inl h => exact h
        | inr h => have := (o.low t _ (place_own (Nat.not_lt.2 h) hyl)).1; omega
      rw [place_shared _ _ hyn] at hm
      exact (List.nodup_append.1 al).2.2 y hm y hyt rfl
    · obtain ⟨u, z, hz, e, hzl⟩ := k.src _ hm
      obtain ⟨rfl, h2⟩ := o.inj hyl hzl e
      cases Nat.decEq t u with
      | isTrue h =>
        subst h
        exact (List.nodup_append.1 alt).2.2 y hz y (by simp) rfl
      | isFalse hne =>
        rcases h2 with h2 | h2
        · exact shared t u hne y h2 hyt ((pre u _).subset hz)
        · exact hne h2
  refine ⟨?_, ?_, ?_⟩
  · rw [ext_cs, hextG, ← List.append_assoc, ← ext_cs]
    cases hy : (act c).extended (tracks ((cs ++ (prog t).take (w.own t).length).map act)) with
    | none => simpa using k.nod
    | some y =>
      refine List.nodup_append.2 ⟨k.nod, by simp, fun a ha b hb e => ?_⟩
      simp only [Option.map_some, Option.toList_some, List.mem_singleton] at hb
      exact fresh y hy (hb ▸ e ▸ ha)
  · intro x hx
    rw [hextG] at hx
    rcases List.mem_append.1 hx with hx | hx
    · obtain ⟨u, z, hz, e, hzl⟩ := k.src x hx
      by_cases hu : u = t
      · subst hu
        refine ⟨u, z, ?_, ?_, ?_⟩
        · simp only [Weave.add, if_true, List.length_append, List.length_singleton]
          rw [hextL]; exact List.mem_append_left _ hz
        · simp only [Weave.add, if_true]; rw [place_snoc hzl]; exact e
        · simp only [Weave.add, if_true, List.length_append, List.length_singleton]; omega
      · exact ⟨u, z, by simpa only [Weave.add, hu, if_false] using hz, by simpa only [Weave.add, hu, if_false] using e,
          by simpa only [Weave.add, hu, if_false] using hzl⟩
    · cases hy : (act c).extended (tracks ((cs ++ (prog t).take (w.own t).length).map act)) with
      | none => rw [hy] at hx; cases hx
      | some y =>
        rw [hy] at hx
        simp only [Option.map_some, Option.toList_some, List.mem_singleton] at hx
        have hyl : y < cs.length + (w.own t).length := by rw [← lenL]; exact extended_lt nbL hy
        refine ⟨t, y, ?_, ?_, ?_⟩
        · simp only [Weave.add, if_true, List.length_append, List.length_singleton]
          rw [hextL, hy]; simp
        · simp only [Weave.add, if_true]; rw [place_snoc hyl]; exact hx
        · simp only [Weave.add, if_true, List.length_append, List.length_singleton]; omega
  · intro u i hi
    rw [hG, push_eq]
    by_cases hu : u = t
    · subst hu
      simp only [Weave.add, if_true, List.length_append, List.length_singleton] at hi ⊢
      rw [hL, push_eq]
      by_cases hlt : i < cs.length + (w.own u).length
      · rw [place_snoc hlt, List.getElem?_append_left (by rw [lenG]; exact o.bound hlt), List.getElem?_append_left (by rw [lenL]; exact hlt),
          k.trk u i hlt]
        cases e : (tracks ((cs ++ (prog u).take (w.own u).length).map act))[i]? with
        | none => rfl
        | some q =>
          cases q with
          | none => rfl
          | some j =>
            have := nbL i j e
            rw [lenL] at this
            simp [Option.join, place_snoc this]
      · have : i = cs.length + (w.own u).length := by omega
        subst this
        rw [place_last, List.getElem?_append_right (by rw [lenG]; exact Nat.le_refl _), lenG, Nat.sub_self,
          List.getElem?_append_right (by rw [lenL]; exact Nat.le_refl _), lenL, Nat.sub_self]
        simp only [List.getElem?_cons_zero]
        cases ha : act c with
        | none => rfl
        | full => rfl
        | fresh => simp only [Act.rename, Act.entry, lenG, lenL, Option.join_some, Option.map_some, place_last]
        | app r => simp only [Act.rename, Act.entry, lenG, lenL, Option.join_some, Option.map_some, place_last]
        | copy r =>
          have hrl := hr r (fo.recv c r (.inl ha))
          simp only [Act.rename, Act.entry, Option.join_some]
          rw [k.trk u r hrl]
          cases e : (tracks ((cs ++ (prog u).take (w.own u).length).map act))[r]? with
          | none => rfl
          | some q =>
            cases q with
            | none => rfl
            | some j =>
              have := nbL r j e
              rw [lenL] at this
              simp [Option.join, place_snoc this]
    · simp only [Weave.add, hu, if_false] at hi ⊢
      rw [List.getElem?_append_left (by rw [lenG]; exact o.bound hi)]
      exact k.trk u i hi

/-! ## All goroutines -/

/-- What is known after some turns. -/
structure WeaveInv (cs : List Call) (prog : Nat → List Call) (P : Nat → List PV) (w : Weave) : Prop where
  own : OwnInv cs.length w
  le : ∀ t, (w.own t).length ≤ (prog t).length
  conds : Tracked Call.condsAct cs prog w
  joins : Tracked Call.joinsAct cs prog w
  sorts : Tracked Call.sortsAct cs prog w
  vals : Tracked Call.valsAct cs prog w
  done : Tracked Call.completesAct cs prog w
  pure : ∃ ps, runPure [] (cs ++ w.calls) = some ps ∧
    ∀ t i v, ((P t).take (cs.length + (w.own t).length))[i]? = some v → ps[place cs.length (w.own t) i]? = some v

theorem runPure_snoc {cs : List Call} {ps qs : List PV} {c : Call} {v : PV} (h : runPure qs cs = some ps) (hc : c.pure ps = some v) :
    runPure qs (cs ++ [c]) = some (ps ++ [v]) := by
  induction cs generalizing qs with
  | nil => cases h; simp [runPure, hc]
  | cons d ds ih =>
    simp only [List.cons_append, runPure] at h ⊢
    split at h
    · exact ih h
    · cases h

/-- A goroutine by itself, up to one of its calls. -/
theorem alone_at {cs p : List Call} {qs : List PV} (h : runPure [] (cs ++ p) = some qs) {k : Nat} {c : Call} (hc : p[k]? = some c) :
    ∃ v, c.pure (qs.take (cs.length + k)) = some v ∧ qs[cs.length + k]? = some v := by
  have hk : k < p.length := (List.getElem?_eq_some_iff.1 hc).1
  have e : cs ++ p = (cs ++ p.take k) ++ (c :: p.drop (k + 1)) := by
    rw [List.append_assoc]
    congr 1
    have := List.take_append_drop k p
    rw [List.drop_eq_getElem_cons hk, (List.getElem?_eq_some_iff.1 hc).2] at this
    exact this.symm
  rw [e] at h
  obtain ⟨ps1, h1, h2⟩ := runPure_append _ _ _ _ h
  have l1 : ps1.length = cs.length + k := by
    rw [(runPure_prefix _ _ _ h1).2]; simp; omega
  simp only [runPure] at h2
  split at h2
  · rename_i v ev
    obtain ⟨t, ht⟩ := (runPure_prefix _ _ _ h2).1
    refine ⟨v, ?_, ?_⟩
    · rw [← ht, List.append_assoc, List.take_append_of_le_length (by omega), List.take_of_length_le (by omega)]; exact ev
    · rw [← ht, List.append_assoc, List.getElem?_append_right (by omega), l1]; simp
  · cases h2

/-- Joins completed, as lists extended. -/
theorem completes_ext : ∀ (cs : List Call) (qs ps : List PV) (ts : List (Option Nat)), runPure qs cs = some ps → ts.length = qs.length →
    (∀ i, i < ts.length → ts[i]? = some (some i)) → extendedLists ts (cs.map Call.completesAct) = cs.filterMap Call.completes
  | [], qs, ps, ts, h, hl, hi => rfl
  | c :: cs, qs, ps, ts, h, hl, hi => by
    simp only [runPure] at h
    split at h
    · rename_i v hv
      have push : c.completesAct.push ts = ts ++ [some ts.length] := by
        simp only [Call.completesAct]; cases c.completes <;> rfl
      have ih := completes_ext cs (qs ++ [v]) ps (c.completesAct.push ts) h (by rw [push]; simp [hl]) (by
        rw [push]
        intro i hlt
        rw [List.length_append, List.length_singleton] at hlt
        by_cases h' : i < ts.length
        · rw [List.getElem?_append_left h']; exact hi i h'
        · have : i = ts.length := by omega
          subst this; simp)
      simp only [List.map_cons, extendedLists, ih]
      cases hc : c.completes with
      | none => simp only [Call.completesAct, hc, List.filterMap_cons]; rfl
      | some r =>
        have hr : r < ts.length := by
          rw [hl]; exact recv_lt hv (followed_completes.recv c r (.inr (by simp only [Call.completesAct, hc])))
        simp only [Call.completesAct, hc, List.filterMap_cons, Act.extended, hi r hr]; rfl
    · cases h

theorem tracks_completes (cs : List Call) : ∀ i, i < cs.length → (tracks (cs.map Call.completesAct))[i]? = some (some i) := by
  have key : ∀ (cs : List Call) (ts : List (Option Nat)), (∀ i, i < ts.length → ts[i]? = some (some i)) →
      ∀ i, i < ts.length + cs.length → ((cs.map Call.completesAct).foldl Act.push ts)[i]? = some (some i) := by
    intro cs
    induction cs with
    | nil => intro ts h i hi; exact h i hi
    | cons c cs ih =>
      intro ts h i hi
      have push : c.completesAct.push ts = ts ++ [some ts.length] := by
        simp only [Call.completesAct]; cases c.completes <;> rfl
      simp only [List.map_cons, List.foldl_cons]
      refine ih _ (fun i hlt => ?_) i (by rw [push_length]; simp at hi; omega)
      rw [push] at hlt ⊢
      rw [List.length_append, List.length_singleton] at hlt
      by_cases h' : i < ts.length
      · rw [List.getElem?_append_left h']; exact h i h'
      · have : i = ts.length := by omega
        subst this; simp
  intro i hi
  exact key cs [] (fun i h => by cases h) i (by simpa using hi)

theorem extends_completes {cs p : List Call} {qs : List PV} (h : runPure [] (cs ++ p) = some qs) :
    extends_ Call.completesAct cs p = p.filterMap Call.completes := by
  obtain ⟨ps1, h1, h2⟩ := runPure_append _ _ _ _ h
  have l1 := (runPure_prefix _ _ _ h1).2
  refine completes_ext p ps1 qs _ h2 (by rw [tracks_length, l1]; simp) fun i hi => tracks_completes cs i ?_
  rw [tracks_length] at hi; simpa using hi

theorem WeaveInv.empty {cs : List Call} {prog : Nat → List Call} {P : Nat → List PV} (ka : KeepApart cs prog)
    (h : ∀ t, runPure [] (cs ++ prog t) = some (P t)) : WeaveInv cs prog P ⟨[], fun _ => []⟩ := by
  have left : ∀ (act : Call → Act), (extendedLists [] ((cs ++ prog 0).map act)).Nodup → (extendedLists [] (cs.map act)).Nodup :=
    fun act h => by rw [ext_cs] at h; exact (List.nodup_append.1 h).1
  obtain ⟨ps, h0, h1⟩ := runPure_append _ _ _ _ (h 0)
  refine ⟨.empty _, fun t => Nat.zero_le _, .empty (left _ (ka.lists 0).conds), .empty (left _ (ka.lists 0).joins),
    .empty (left _ (ka.lists 0).sorts), .empty (left _ (ka.lists 0).vals), .empty ?_, ps, by simpa using h0, fun t i v e => ?_⟩
  · rw [completes_ext cs [] ps [] h0 rfl fun i h => by cases h]
    exact (ka.joins 0).left
  · obtain ⟨ps', h0', h1'⟩ := runPure_append _ _ _ _ (h t)
    rw [h0] at h0'; cases h0'
    obtain ⟨x, hx⟩ := (runPure_prefix _ _ _ h1').1
    have l1 : ps.length = cs.length := by have := (runPure_prefix _ _ _ h0).2; simpa using this
    simp only [List.length_nil, Nat.add_zero] at e
    rw [← hx, List.take_append_of_le_length (by omega), List.take_of_length_le (by omega)] at e
    have hi := (List.getElem?_eq_some_iff.1 e).1
    rw [place_shared _ _ (by omega)]; exact e

theorem WeaveInv.step {cs : List Call} {prog : Nat → List Call} {P : Nat → List PV} {w : Weave} (ka : KeepApart cs prog)
    (h : ∀ t, runPure [] (cs ++ prog t) = some (P t)) (inv : WeaveInv cs prog P w) (t : Nat) :
    WeaveInv cs prog P (w.step cs.length prog t) := by
  simp only [Weave.step]
  split
  · exact inv
  · rename_i c hc
    have hk : (w.own t).length < (prog t).length := (List.getElem?_eq_some_iff.1 hc).1
    obtain ⟨v, hv, hat⟩ := alone_at (h t) hc
    have lenP : (P t).length = cs.length + (prog t).length := by rw [(runPure_prefix _ _ _ (h t)).2]; simp
    have hr : ∀ r, c.recv = some r → r < cs.length + (w.own t).length := fun r e => by
      have := recv_lt hv e; rw [List.length_take] at this; omega
    obtain ⟨ps, hp, hread⟩ := inv.pure
    have lenps : ps.length = cs.length + w.calls.length := by rw [(runPure_prefix _ _ _ hp).2]; simp
    refine ⟨inv.own.add t c, fun u => ?_,
      inv.conds.add followed_conds inv.own (fun t => (ka.lists t).conds) (ka.shared _ (by simp)) hc hr,
      inv.joins.add followed_joins inv.own (fun t => (ka.lists t).joins) (ka.shared _ (by simp)) hc hr,
      inv.sorts.add followed_sorts inv.own (fun t => (ka.lists t).sorts) (ka.shared _ (by simp)) hc hr,
      inv.vals.add followed_vals inv.own (fun t => (ka.lists t).vals) (ka.shared _ (by simp)) hc hr,
      inv.done.add followed_completes inv.own (fun t => ?_) (fun t u hne x hx => ?_) hc hr,
      ps ++ [v], ?_, ?_⟩
    · simp only
      split
      · rename_i hu; subst hu; simp; omega
      · exact inv.le u
    · rw [completes_ext _ [] _ [] (h t) rfl fun i h => by cases h]; exact ka.joins t
    · rw [extends_completes (h t), extends_completes (h u)]; exact ka.completed t u hne x hx
    · simp only [← List.append_assoc]
      exact runPure_snoc hp (pure_rename (fun i v e => hread t i v e) c v hv)
    · intro u i x hx
      by_cases hu : u = t
      · subst hu
        simp only [if_true, List.length_append, List.length_singleton] at hx ⊢
        by_cases hi : i < cs.length + (w.own u).length
        · rw [place_snoc hi]
          have e := hread u i x (by
            rw [List.getElem?_take] at hx ⊢
            rw [if_pos hi]; rw [if_pos (by omega)] at hx; exact hx)
          rw [List.getElem?_append_left (List.getElem?_eq_some_iff.1 e).1]; exact e
        · have hi' : i < cs.length + (w.own u).length + 1 := by
            have := (List.getElem?_eq_some_iff.1 hx).1; rw [List.length_take] at this; omega
          have : i = cs.length + (w.own u).length := by omega
          subst this
          rw [List.getElem?_take, if_pos (by omega), hat] at hx
          cases hx
          rw [place_last, ← lenps]; simp
      · simp only [hu, if_false] at hx ⊢
        have e := hread u i x hx
        rw [List.getElem?_append_left (List.getElem?_eq_some_iff.1 e).1]; exact e

theorem weave_inv {cs : List Call} {prog : Nat → List Call} {P : Nat → List PV} (ka : KeepApart cs prog)
    (h : ∀ t, runPure [] (cs ++ prog t) = some (P t)) (sched : List Nat) : WeaveInv cs prog P (weave cs.length prog sched) := by
  have key : ∀ (sched : List Nat) (w : Weave), WeaveInv cs prog P w → WeaveInv cs prog P (sched.foldl (Weave.step cs.length prog) w) := by
    intro sched
    induction sched with
    | nil => exact fun w i => i
    | cons t ts ih => exact fun w i => ih _ (i.step ka h t)
  exact key sched _ (.empty ka h)

theorem WeaveInv.once {cs : List Call} {prog : Nat → List Call} {P : Nat → List PV} {w : Weave} (inv : WeaveInv cs prog P w) :
    ListsOnce (cs ++ w.calls) ∧ JoinsOnce (cs ++ w.calls) := by
  refine ⟨⟨inv.conds.nod, inv.joins.nod, inv.sorts.nod, inv.vals.nod⟩, ?_⟩
  obtain ⟨ps, hp, _⟩ := inv.pure
  have := inv.done.nod
  rw [completes_ext _ [] ps [] hp rfl fun i h => by cases h] at this
  exact this

theorem rename_noApply (f : Nat → Nat) (c : Call) : (c.rename f).noApply = c.noApply := by cases c <;> rfl

theorem weave_noApply {n : Nat} {prog : Nat → List Call} (h : ∀ t, ∀ c ∈ prog t, c.noApply = true) (sched : List Nat) :
    ∀ c ∈ (weave n prog sched).calls, c.noApply = true := by
  have key : ∀ (sched : List Nat) (w : Weave), (∀ c ∈ w.calls, c.noApply = true) →
      ∀ c ∈ (sched.foldl (Weave.step n prog) w).calls, c.noApply = true := by
    intro sched
    induction sched with
    | nil => exact fun w i => i
    | cons t ts ih =>
      intro w i
      refine ih _ ?_
      simp only [Weave.step]
      split
      · exact i
      · rename_i c hc
        intro d hd
        rcases List.mem_append.1 hd with hd | hd
        · exact i d hd
        · rw [List.mem_singleton.1 hd, rename_noApply]
          exact h t c (List.mem_of_getElem? hc)
  exact key sched _ fun c h => by cases h

/-- A history up to one of its calls. -/
theorem pure_at {cs : List Call} {ps : List PV} (h : runPure [] cs = some ps) {k : Nat} {c : Call} (hc : cs[k]? = some c) :
    ∃ qs v, runPure [] (cs.take k) = some qs ∧ c.pure qs = some v := by
  have hk : k < cs.length := (List.getElem?_eq_some_iff.1 hc).1
  have e : cs = cs.take k ++ (c :: cs.drop (k + 1)) := by
    have := List.take_append_drop k cs
    rw [List.drop_eq_getElem_cons hk, (List.getElem?_eq_some_iff.1 hc).2] at this
    exact this.symm
  rw [e] at h
  obtain ⟨qs, h1, h2⟩ := runPure_append _ _ _ _ h
  simp only [runPure] at h2
  split at h2
  · rename_i v ev
    exact ⟨qs, v, h1, ev⟩
  · cases h2

/-- What a goroutine has done after some turns. -/
structure TurnInv (n : Nat) (prog : Nat → List Call) (w : Weave) (sched : List Nat) : Prop where
  len : ∀ t, (w.own t).length = min (sched.count t) (prog t).length
  made : ∀ t k g, (w.own t)[k]? = some g → n ≤ g ∧
    ∃ c : Call, (prog t)[k]? = some c ∧ w.calls[g - n]? = some (c.rename (place n ((w.own t).take k)))

theorem turn_inv (n : Nat) (prog : Nat → List Call) (done sched : List Nat) (w : Weave) (i : TurnInv n prog w done) :
    TurnInv n prog (sched.foldl (Weave.step n prog) w) (done ++ sched) := by
  induction sched generalizing done w with
  | nil => simpa using i
  | cons t ts ih =>
    have := ih (done ++ [t]) (w.step n prog t) ?_
    · simpa using this
    simp only [Weave.step]
    split
    · rename_i e
      rw [List.getElem?_eq_none_iff] at e
      refine ⟨fun u => ?_, i.made⟩
      have h1 := i.len u
      by_cases hu : u = t
      · subst hu
        have : (done ++ [u]).count u = done.count u + 1 := by simp
        omega
      · have : (done ++ [t]).count u = done.count u := by simp [List.count_cons, Ne.symm hu]
        omega
    · rename_i c e
      have hk := (List.getElem?_eq_some_iff.1 e).1
      refine ⟨fun u => ?_, fun u k g hg => ?_⟩
      · have h1 := i.len u
        by_cases hu : u = t
        · subst hu
          have : (done ++ [u]).count u = done.count u + 1 := by simp
          simp only [if_true, List.length_append, List.length_singleton]
          omega
        · have : (done ++ [t]).count u = done.count u := by simp [List.count_cons, Ne.symm hu]
          simp only [hu, if_false]; omega
      · have old : ∀ g', g' - n < w.calls.length → ∀ x, w.calls[g' - n]? = some x →
            (w.calls ++ [c.rename (place n (w.own t))])[g' - n]? = some x := fun g' h x hx => by
          rw [List.getElem?_append_left h]; exact hx
        by_cases hu : u = t
        · subst hu
          simp only [if_true] at hg ⊢
          rcases Nat.lt_or_ge k (w.own u).length with hlt | hge
          · rw [List.getElem?_append_left hlt] at hg
            obtain ⟨h1, d, h2, h3⟩ := i.made u k g hg
            refine ⟨h1, d, h2, ?_⟩
            rw [List.take_append_of_le_length (Nat.le_of_lt hlt)]
            exact old g (List.getElem?_eq_some_iff.1 h3).1 _ h3
          · rw [List.getElem?_append_right hge] at hg
            have hk0 : k - (w.own u).length = 0 := by
              have := (List.getElem?_eq_some_iff.1 hg).1
              simp only [List.length_singleton] at this; omega
            rw [hk0] at hg
            simp only [List.getElem?_cons_zero, Option.some.injEq] at hg
            subst hg
            have : k = (w.own u).length := by omega
            subst this
            refine ⟨by omega, c, e, ?_⟩
            rw [Nat.add_sub_cancel_left, List.getElem?_append_right (Nat.le_refl _)]
            simp
        · simp only [hu, if_false] at hg ⊢
          obtain ⟨h1, d, h2, h3⟩ := i.made u k g hg
          exact ⟨h1, d, h2, old g (List.getElem?_eq_some_iff.1 h3).1 _ h3⟩

end Query
