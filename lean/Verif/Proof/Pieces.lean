import Verif.Proof.Build
import Verif.Spec.Pieces
/-!
# Conditions and selects as pieces
-/
namespace Query

def Piece.shift (m : Nat) : Piece → Piece
  | .txt s => .txt s
  | .hole i => .hole (m + i)

theorem numberedText_append (k : Nat) (ps qs : List Piece) :
    numberedText k (ps ++ qs) = numberedText k ps ++ numberedText k qs := by simp [numberedText]

theorem questionText_append (ps qs : List Piece) : questionText (ps ++ qs) = questionText ps ++ questionText qs := by
  simp [questionText]

theorem holes_append (ps qs : List Piece) : holes (ps ++ qs) = holes ps ++ holes qs := by
  induction ps with
  | nil => rfl
  | cons p ps ih => cases p <;> simp [holes, ih]

theorem numberedText_shift (k m : Nat) (ps : List Piece) :
    numberedText k (ps.map (Piece.shift m)) = numberedText (k + m) ps := by
  induction ps with
  | nil => rfl
  | cons p ps ih =>
    simp only [numberedText, List.map_cons, List.flatMap_cons] at ih ⊢
    rw [ih]
    cases p <;> simp [Piece.shift, Piece.numbered, Nat.add_assoc]

theorem questionText_shift (m : Nat) (ps : List Piece) : questionText (ps.map (Piece.shift m)) = questionText ps := by
  induction ps with
  | nil => rfl
  | cons p ps ih =>
    simp only [questionText, List.map_cons, List.flatMap_cons] at ih ⊢
    rw [ih]
    cases p <;> simp [Piece.shift, Piece.question]

theorem holes_shift (m : Nat) (ps : List Piece) : holes (ps.map (Piece.shift m)) = (holes ps).map (m + ·) := by
  induction ps with
  | nil => rfl
  | cons p ps ih => cases p <;> simp [holes, Piece.shift, ih]

theorem head_append_of {s t : Str} {p : Char → Prop} (hs : ∀ c ∈ s.head?, p c) (ht : ∀ c ∈ t.head?, p c) :
    ∀ c ∈ (s ++ t).head?, p c := by
  cases s with
  | nil => exact ht
  | cons a s => exact hs

theorem Ended.append {ps qs : List Piece} (h : Ended ps) (h' : Ended qs)
    (hq : ∀ k, ∀ c ∈ (numberedText k qs).head?, c.isDigit = false) : Ended (ps ++ qs) := by
  induction ps with
  | nil => exact h'
  | cons p ps ih =>
    cases p with
    | txt s => exact ih h
    | hole i =>
      refine ⟨fun k => ?_, ih h.2⟩
      show ∀ c ∈ (numberedText k (ps ++ qs)).head?, c.isDigit = false
      rw [numberedText_append]
      exact head_append_of (h.1 k) (hq k)

theorem Ended.shift {ps : List Piece} (m : Nat) (h : Ended ps) : Ended (ps.map (Piece.shift m)) := by
  induction ps with
  | nil => exact h
  | cons p ps ih =>
    cases p with
    | txt s => exact ih h
    | hole i =>
      refine ⟨fun k => ?_, ih h.2⟩
      rw [numberedText_shift]
      exact h.1 (k + m)

theorem Ended.around {ps : List Piece} (h : Ended ps) (a b : Str) (hb : ∀ c ∈ b.head?, c.isDigit = false) :
    Ended (.txt a :: ps ++ [.txt b]) :=
  Ended.append (qs := [.txt b]) h trivial (fun k => by simpa [numberedText, Piece.numbered] using hb)

/-- Fixed words, a text, fixed words. -/
theorem Says.around {ps : List Piece} {q : Str} {r : Nat → Str} (a b : Str) (h : Says ps q r) :
    Says (.txt a :: ps ++ [.txt b]) (a ++ q ++ b) (fun k => a ++ r k ++ b) := by
  obtain ⟨h1, h2⟩ := h
  constructor
  · simp [h1, questionText, Piece.question]
  · intro k; simp [h2, numberedText, Piece.numbered]

theorem holes_around (a b : Str) (ps : List Piece) : holes (.txt a :: ps ++ [.txt b]) = holes ps := by
  simp [holes, holes_append]

/-- One text after another, the second counting on after `m` parameters. -/
theorem Says.then {ps qs : List Piece} {q q' : Str} {r r' : Nat → Str} (m : Nat) (h : Says ps q r) (h' : Says qs q' r') :
    Says (ps ++ qs.map (Piece.shift m)) (q ++ q') (fun k => r k ++ r' (k + m)) := by
  constructor
  · rw [questionText_append, questionText_shift, h.1, h'.1]
  · intro k; show r k ++ r' (k + m) = _; rw [numberedText_append, numberedText_shift, h.2, h'.2]

theorem holes_then {ps qs : List Piece} {m n : Nat} (h : holes ps = List.range m) (h' : holes qs = List.range n) :
    holes (ps ++ qs.map (Piece.shift m)) = List.range (m + n) := by
  rw [holes_append, holes_shift, h, h', List.range_add]

theorem Says.fixed (s : Str) : Says [.txt s] s (fun _ => s) := by
  simp [Says, questionText, numberedText, Piece.question, Piece.numbered]

theorem Says.one (a : Str) : Says [.txt a, .hole 0] (a ++ c!"?") (fun k => a ++ (c!"$" ++ itoa (k + 1))) := by
  constructor
  · simp [questionText, Piece.question]
  · intro k; simp [numberedText, Piece.numbered]

/-- Placeholders with commas. -/
def commaHoles : List Nat → List Piece
  | [] => []
  | [i] => [.hole i]
  | i :: j :: is => .hole i :: .txt c!"," :: commaHoles (j :: is)

theorem commaHoles_numbered (k : Nat) : ∀ is : List Nat,
    numberedText k (commaHoles is) = joinWith c!"," (is.map fun i => c!"$" ++ itoa (k + i + 1))
  | [] => rfl
  | [i] => by simp [commaHoles, numberedText, Piece.numbered, joinWith]
  | i :: j :: is => by
    have ih := commaHoles_numbered k (j :: is)
    simp only [numberedText, List.map_cons] at ih
    simp only [commaHoles, numberedText, List.flatMap_cons, List.map_cons, joinWith, ih, Piece.numbered]
    simp

theorem commaHoles_question : ∀ is : List Nat,
    questionText (commaHoles is) = joinWith c!"," (List.replicate is.length c!"?")
  | [] => rfl
  | [i] => by simp [commaHoles, questionText, Piece.question, joinWith]
  | i :: j :: is => by
    have ih := commaHoles_question (j :: is)
    simp only [questionText, List.length_cons, List.replicate_succ] at ih
    simp only [commaHoles, questionText, List.flatMap_cons, List.length_cons, List.replicate_succ, joinWith, ih,
      Piece.question]
    simp

theorem holes_commaHoles : ∀ is : List Nat, holes (commaHoles is) = is
  | [] => rfl
  | [i] => rfl
  | i :: j :: is => by simp [commaHoles, holes, holes_commaHoles (j :: is)]

theorem ended_one (a : Str) : Ended [.txt a, .hole 0] := ⟨fun k c hc => by simp [numberedText] at hc, trivial⟩

theorem ended_commas : ∀ is : List Nat, Ended (commaHoles is)
  | [] => trivial
  | [_] => ⟨fun k c hc => by simp [numberedText] at hc, trivial⟩
  | _ :: j :: is => ⟨fun k c hc => by simp [numberedText, Piece.numbered] at hc; subst hc; decide, ended_commas (j :: is)⟩

theorem Says.commas (m : Nat) : Says (commaHoles (List.range m)) (joinWith c!"," (List.replicate m c!"?"))
    (fun k => joinWith c!"," (inPlaceholders k m)) := by
  constructor
  · rw [commaHoles_question, List.length_range]
  · intro k; rw [commaHoles_numbered]; rfl

theorem Says.cast {ps : List Piece} {q q' : Str} {r r' : Nat → Str} (h : Says ps q r) (hq : q' = q) (hr : ∀ k, r' k = r k) :
    Says ps q' r' := ⟨hq.trans h.1, fun k => (hr k).trans (h.2 k)⟩

theorem says_cmp (k : Kind) (b : CondBase) (fd : FieldDef) :
    ∃ ps, Says ps (renderCmpSQL k b fd) (renderCmp k b fd) ∧ holes ps = [0] ∧ Ended ps := by
  cases hb : b.negate
  · exact ⟨_, (Says.one (fd.renderSpec ++ cmpSym k)).cast (by simp [renderCmpSQL, hb, joinWith])
      (fun n => by simp [renderCmp, hb, joinWith]), rfl, ended_one _⟩
  · exact ⟨_, (Says.one (b.renderNegate ++ c!" " ++ fd.renderSpec ++ cmpSym k)).cast
      (by simp [renderCmpSQL, hb, joinWith]) (fun n => by simp [renderCmp, hb, joinWith]), rfl, ended_one _⟩

theorem says_like (k : Kind) (b : CondBase) (fd : FieldDef) :
    ∃ ps, Says ps (renderLikeSQL k b fd) (renderLike k b fd) ∧ holes ps = [0] ∧ Ended ps := by
  cases hb : b.negate
  · exact ⟨_, (Says.one (fd.renderSpec ++ c!" " ++ cmpSym k ++ c!" ")).cast (by simp [renderLikeSQL, hb, joinWith])
      (fun n => by simp [renderLike, hb, joinWith]), rfl, ended_one _⟩
  · exact ⟨_, (Says.one (fd.renderSpec ++ c!" " ++ b.renderNegate ++ c!" " ++ cmpSym k ++ c!" ")).cast
      (by simp [renderLikeSQL, hb, joinWith]) (fun n => by simp [renderLike, hb, joinWith]), rfl, ended_one _⟩

theorem says_in (b : CondBase) (fd : FieldDef) (m : Nat) :
    ∃ ps, Says ps (renderInSQL b fd m) (renderIn b fd m) ∧ holes ps = List.range m ∧ Ended ps := by
  cases hb : b.negate
  · exact ⟨_, ((Says.commas m).around (fd.renderSpec ++ c!" " ++ cmpSym .inn ++ c!" (") c!")").cast
      (by simp [renderInSQL, hb, joinWith]) (fun n => by simp [renderIn, hb, joinWith]),
      by rw [holes_around, holes_commaHoles], (ended_commas _).around _ _ (by simp)⟩
  · exact ⟨_, ((Says.commas m).around (fd.renderSpec ++ c!" " ++ b.renderNegate ++ c!" " ++ cmpSym .inn ++ c!" (") c!")").cast
      (by simp [renderInSQL, hb, joinWith]) (fun n => by simp [renderIn, hb, joinWith]),
      by rw [holes_around, holes_commaHoles], (ended_commas _).around _ _ (by simp)⟩

/-- What follows a member of a group begins with a space or is nothing. -/
theorem renderPL_head (cs : List Cond) (k : Nat) (h : ∀ c ∈ cs, c.joinType ≠ []) :
    ∀ c ∈ (Cond.renderPL cs false k).head?, c.isDigit = false := by
  cases cs with
  | nil => intro c hc; simp [Cond.renderPL] at hc
  | cons d ds =>
    have := joinToken_head d (d.renderP k ++ Cond.renderPL ds false (k + d.valuesP.length)) (h d (by simp))
    simp only [Cond.renderPL, List.append_assoc]
    revert this
    generalize joinToken d false ++ _ = s
    cases s with
    | nil => intro _ c hc; simp at hc
    | cons a s => intro h c hc; simp at hc; subst hc; simpa [noDigitHead] using h

theorem says_wrap (b : CondBase) (count : Nat) (br : Bool) {ps : List Piece} {q : Str} {r : Nat → Str} (h : Says ps q r) :
    ∃ ps', Says ps' (wrapGroup b count br q) (fun k => wrapGroup b count br (r k)) ∧ holes ps' = holes ps ∧
      (Ended ps → Ended ps') := by
  have key : ∃ a z : Str, (∀ s, wrapGroup b count br s = a ++ s ++ z) ∧ ∀ c ∈ z.head?, c.isDigit = false := by
    unfold wrapGroup
    cases hb : b.negate <;> cases hc : decide (count > 1) <;> cases br <;> simp
    · exact ⟨[], [], by simp, by simp⟩
    · exact ⟨c!"(", c!")", by simp, by simp⟩
    · exact ⟨[], [], by simp, by simp⟩
    · exact ⟨c!"(", c!")", by simp, by simp⟩
    · simp at hc
      exact ⟨b.renderNegate ++ c!" ", [], by simp, by simp⟩
    · exact ⟨b.renderNegate ++ c!" (", c!")", by simp, by simp⟩
    · simp at hc
      exact ⟨b.renderNegate ++ c!" (", c!")", by simp, by simp⟩
    · exact ⟨b.renderNegate ++ c!" (", c!")", by simp, by simp⟩
  obtain ⟨a, z, hk, hz⟩ := key
  exact ⟨_, (h.around a z).cast (hk q) (fun k => hk (r k)), holes_around a z ps, fun he => he.around a z hz⟩

private theorem likeValues_one {fv : FieldValue} {vs : List Val} (h : likeValues fv = .ok vs) : vs.length = 1 := by
  unfold likeValues at h
  split at h
  · cases h; rfl
  · cases h

theorem says_fieldc (k : Kind) (b : CondBase) (fv : FieldValue) (vs : List Val) (hv : fieldcValues k fv = .ok vs) :
    ∃ ps, Says ps (fieldcRenderSQLP k b fv) (fieldcRenderP k b fv) ∧
      ((Cond.fieldc k b fv).Every OneEach → holes ps = List.range vs.length ∧ Ended ps) := by
  cases k <;> simp only [fieldcRenderSQLP, Cond.Every, OneEach]
  case like =>
    obtain ⟨ps, h, hh, he⟩ := says_like .like b fv.fd
    refine ⟨ps, h, fun _ => ?_⟩
    exact ⟨by rw [hh, likeValues_one hv]; rfl, he⟩
  case ilike =>
    obtain ⟨ps, h, hh, he⟩ := says_like .ilike b fv.fd
    refine ⟨ps, h, fun _ => ?_⟩
    exact ⟨by rw [hh, likeValues_one hv]; rfl, he⟩
  case inn =>
    simp only [fieldcValues] at hv
    obtain ⟨ps, h, hh, he⟩ := says_in b fv.fd (fv.values.getD []).length
    refine ⟨ps, h, fun _ => ?_⟩
    exact ⟨by rw [hh, hv]; rfl, he⟩
  all_goals
    obtain ⟨ps, h, hh, he⟩ := says_cmp _ b fv.fd
    refine ⟨ps, h, fun ⟨v, h1⟩ => ?_⟩
    simp only [fieldcValues] at hv
    rw [h1] at hv
    cases hv
    exact ⟨hh, he⟩

mutual
theorem says_cond (c : Cond) (vs : List Val) (hv : c.values = .ok vs) (hc : c.Every KeepsContract) :
    ∃ ps, Says ps c.renderSQLP c.renderP ∧
      (c.Every OneEach → holes ps = List.range vs.length ∧ (c.Every SpacedNode → Ended ps)) := by
  cases c with
  | fieldc k b fv =>
    obtain ⟨ps, h, hh⟩ := says_fieldc k b fv vs hv
    exact ⟨ps, h, fun ho => ⟨(hh ho).1, fun _ => (hh ho).2⟩⟩
  | null b fd =>
    simp only [Cond.values] at hv
    cases hv
    exact ⟨_, Says.fixed (renderNull b fd), fun _ => ⟨rfl, fun _ => trivial⟩⟩
  | custom b x =>
    simp only [Cond.values] at hv
    cases hv
    by_cases ho : (Cond.custom b x).Every OneEach
    · obtain ⟨ps, h, hh, he⟩ := ho
      exact ⟨ps, h, fun _ => ⟨hh, fun _ => he⟩⟩
    · obtain ⟨ps, h⟩ := hc
      exact ⟨ps, h, fun h' => absurd h' ho⟩
  | group b cs br =>
    simp only [Cond.values] at hv
    by_cases h0 : cs.length = 0
    · have : cs = [] := List.length_eq_zero_iff.1 h0
      subst this
      simp only [Cond.valuesL] at hv
      cases hv
      exact ⟨[], ⟨rfl, fun _ => rfl⟩, fun _ => ⟨rfl, fun _ => trivial⟩⟩
    · obtain ⟨ps, h, hh⟩ := says_condL cs true vs hv hc.2
      obtain ⟨ps', h', hh', he'⟩ := says_wrap b cs.length br h
      refine ⟨ps', h'.cast ?_ ?_, fun ho => ⟨by rw [hh']; exact (hh ho.2).1, fun hs => he' ((hh ho.2).2 hs.2 hs.1)⟩⟩
      · simp [Cond.renderSQLP, h0]
      · intro k; simp [Cond.renderP, h0]
theorem says_condL (cs : List Cond) (f : Bool) (vs : List Val) (hv : Cond.valuesL cs = .ok vs)
    (hc : Cond.EveryL KeepsContract cs) :
    ∃ ps, Says ps (Cond.renderSQLPL cs f) (Cond.renderPL cs f) ∧
      (Cond.EveryL OneEach cs → holes ps = List.range vs.length ∧
        (Cond.EveryL SpacedNode cs → (∀ c ∈ cs.drop 1, c.joinType ≠ []) → Ended ps)) := by
  cases cs with
  | nil =>
    simp only [Cond.valuesL] at hv
    cases hv
    exact ⟨[], ⟨rfl, fun _ => rfl⟩, fun _ => ⟨rfl, fun _ _ => trivial⟩⟩
  | cons c cs =>
    simp only [Cond.valuesL, Res.bind_def, Res.pure_def, Res.bind_eq_ok] at hv
    obtain ⟨v1, h1, v2, h2, h3⟩ := hv
    simp only [Res.ok.injEq] at h3
    subst h3
    obtain ⟨ps, h, hh⟩ := says_cond c v1 h1 hc.1
    obtain ⟨qs, h', hh'⟩ := says_condL cs false v2 h2 hc.2
    refine ⟨_, (((h.around (joinToken c f) []).then v1.length h').cast ?_ ?_), fun ho => ⟨?_, fun hs hj => ?_⟩⟩
    · simp [Cond.renderSQLPL]
    · intro k; simp [Cond.renderPL, Cond.values_pure c v1 h1]
    · rw [holes_then (m := v1.length) (n := v2.length) (by rw [holes_around]; exact (hh ho.1).1) (hh' ho.2).1,
        List.length_append]
    · refine Ended.append (((hh ho.1).2 hs.1).around _ _ (by simp)) ?_ ?_
      · exact ((hh' ho.2).2 hs.2 (fun d hd => hj d (List.mem_of_mem_drop hd))).shift v1.length
      · intro k
        rw [numberedText_shift, ← h'.2]
        exact renderPL_head cs _ (fun d hd => hj d (by simpa using hd))
end

/-- `Cond.Every` for a weaker claim. -/
theorem OneEach.keeps {c : Cond} (h : OneEach c) : KeepsContract c := by
  cases c with
  | custom b x => obtain ⟨ps, h, _⟩ := h; exact ⟨ps, h⟩
  | _ => trivial

theorem every_mono {p q : Cond → Prop} (hpq : ∀ c, p c → q c) : ∀ (n : Nat) (c : Cond), sizeOf c < n → c.Every p → c.Every q
  | 0, _, hn, _ => absurd hn (Nat.not_lt_zero _)
  | n + 1, c, hn, h => by
    cases c with
    | fieldc k b fv => exact hpq _ h
    | null b fd => exact hpq _ h
    | custom b x => exact hpq _ h
    | group b cs br =>
      refine ⟨hpq _ h.1, ?_⟩
      have hl : ∀ cs : List Cond, sizeOf cs < n → Cond.EveryL p cs → Cond.EveryL q cs := by
        intro cs
        induction cs with
        | nil => intro _ _; trivial
        | cons c cs ih =>
          intro hs h
          simp only [List.cons.sizeOf_spec] at hs
          exact ⟨every_mono hpq n c (by omega) h.1, ih (by omega) h.2⟩
      simp only [Cond.group.sizeOf_spec] at hn
      exact hl cs (by omega) h.2

theorem Cond.Every.keeps {c : Cond} (h : c.Every OneEach) : c.Every KeepsContract :=
  every_mono (fun _ => OneEach.keeps) _ c (Nat.lt_succ_self _) h

theorem cond_pieces {c : Cond} {vs : List Val} (hv : c.values = .ok vs) (hc : c.Every KeepsContract) :
    ∃ ps, c.renderSQL = .ok (questionText ps) ∧ (∀ k, c.render k = .ok (numberedText k ps)) ∧
      (c.Every OneEach → holes ps = List.range vs.length ∧ (c.Every SpacedNode → Ended ps)) := by
  obtain ⟨ps, ⟨h1, h2⟩, h3⟩ := says_cond c vs hv hc
  exact ⟨ps, by rw [Cond.renderSQL_pure c vs hv, h1], fun k => by rw [Cond.render_pure c vs hv, h2], h3⟩

/-- A select statement around its where clause. -/
theorem select_pieces {q : BaseSelect} {vs : List Val} (hv : q.values = .ok vs)
    (hc : q.where_.group.toCond.Every KeepsContract) :
    ∃ ps, q.renderSQL = .ok (questionText ps) ∧ (∀ k, q.render k = .ok (numberedText k ps)) ∧
      (q.where_.group.toCond.Every OneEach → holes ps = List.range vs.length ∧
        (q.where_.group.toCond.Every SpacedNode → Ended ps)) := by
  unfold BaseSelect.values at hv
  by_cases hl : q.where_.conditions.length > 0
  · rw [if_pos hl] at hv
    obtain ⟨ps, h1, h2, h3⟩ := cond_pieces (c := q.where_.group.toCond) hv hc
    refine ⟨.txt (joinWith c!" " q.headTokens ++ c!" WHERE ") :: ps, ?_, fun k => ?_, h3⟩
    · unfold BaseSelect.renderSQL
      rw [if_pos hl]
      show (q.where_.group.toCond.renderSQL).bind _ = _
      rw [h1, Res.bind_ok, join_where _ _ (headTokens_ne q)]
      rfl
    · unfold BaseSelect.render
      rw [if_pos hl]
      show (q.where_.group.toCond.render k).bind _ = _
      rw [h2, Res.bind_ok, join_where _ _ (headTokens_ne q)]
      rfl
  · rw [if_neg hl] at hv
    cases hv
    refine ⟨[.txt (joinWith c!" " q.headTokens)], ?_, fun k => ?_, fun _ => ⟨rfl, fun _ => trivial⟩⟩
    · unfold BaseSelect.renderSQL; rw [if_neg hl]; simp [questionText, Piece.question]
    · unfold BaseSelect.render; rw [if_neg hl]; simp [numberedText, Piece.numbered]

/-- The build is the rendering from 0 with the values. -/
theorem build_render_values {q : BaseSelect} {sql : Str} {params : List Val} (h : q.build = .ok (sql, params)) :
    q.render 0 = .ok sql ∧ q.values = .ok params := by
  unfold BaseSelect.build at h
  unfold BaseSelect.render BaseSelect.values
  by_cases hl : q.where_.conditions.length > 0
  · rw [if_pos hl] at h
    simp only [Res.bind_eq_ok, Res.ok.injEq, Prod.mk.injEq] at h
    obtain ⟨w, hw, vs, hvs, hs, hp⟩ := h
    rw [if_pos hl, if_pos hl, hw, hvs, Res.bind_ok, hs, hp]
    exact ⟨rfl, rfl⟩
  · rw [if_neg hl] at h
    simp only [Res.ok.injEq, Prod.mk.injEq] at h
    rw [if_neg hl, if_neg hl, h.1, h.2]
    exact ⟨rfl, rfl⟩

private theorem le_sum_mem : ∀ {l : List Nat} {a : Nat}, a ∈ l → a ≤ l.sum
  | [], _, h => by simp at h
  | b :: l, a, h => by
    simp only [List.mem_cons] at h
    simp only [List.sum_cons]
    rcases h with rfl | h
    · omega
    · have := le_sum_mem h
      omega

private theorem map_add_inj (k : Nat) : ∀ {xs ys : List Nat}, xs.map (k + · + 1) = ys.map (k + · + 1) → xs = ys
  | [], [], _ => rfl
  | [], _ :: _, h => by simp at h
  | _ :: _, [], h => by simp at h
  | x :: xs, y :: ys, h => by
    simp only [List.map_cons, List.cons.injEq] at h
    rw [map_add_inj k h.2, show x = y by omega]

theorem filter_all_small {l : List Nat} {k : Nat} (h : l.sum ≤ k) : l.filter (fun x => decide (k < x)) = [] := by
  rw [List.filter_eq_nil_iff]
  intro a ha
  have : a ≤ l.sum := le_sum_mem ha
  simp only [decide_eq_true_eq]
  omega

theorem noDigitHead_of {s : Str} (h : ∀ c ∈ s.head?, c.isDigit = false) : noDigitHead s = true := by
  cases s with
  | nil => rfl
  | cons a s => simp [noDigitHead, h a (by simp)]

/-- Read in the numbered text, from some offset on: the numbers above the offset are those of the placeholders. -/
theorem read_off (ps : List Piece) : ∀ (s : Str), Ended ps → ∃ N, ∀ k, N ≤ k →
    (dollars (s ++ numberedText k ps)).filter (fun x => decide (k < x)) = (holes ps).map (k + · + 1) := by
  induction ps with
  | nil =>
    intro s _
    refine ⟨(dollars s).sum, fun k hk => ?_⟩
    simp only [numberedText, List.flatMap_nil, List.append_nil, holes, List.map_nil]
    exact filter_all_small hk
  | cons p ps ih =>
    intro s h
    cases p with
    | txt t =>
      obtain ⟨N, hN⟩ := ih (s ++ t) h
      refine ⟨N, fun k hk => ?_⟩
      have := hN k hk
      simpa [numberedText, Piece.numbered, holes] using this
    | hole i =>
      obtain ⟨N, hN⟩ := ih [] h.2
      refine ⟨N + (dollars s).sum, fun k hk => ?_⟩
      have h1 := hN k (by omega)
      have e : numberedText k (.hole i :: ps) = '$' :: (itoa (k + i + 1) ++ numberedText k ps) := by
        simp [numberedText, Piece.numbered]
      rw [e, dollars_append _ _ (by rfl), dollars_placeholder_append _ _ (noDigitHead_of (h.1 k)), List.filter_append,
        filter_all_small (by omega), List.filter_cons]
      simp only [List.nil_append] at h1
      rw [h1, if_pos (by simp; omega)]
      rfl

/-- A family of texts has one sequence of placeholders: two lists of pieces that print the same at every offset have the same. -/
theorem pieces_determined (ps qs : List Piece) (hp : Ended ps) (hq : Ended qs)
    (h : ∀ k, numberedText k ps = numberedText k qs) : holes ps = holes qs := by
  obtain ⟨M, hM⟩ := read_off ps [] hp
  obtain ⟨N, hN⟩ := read_off qs [] hq
  have h1 := hM (M + N) (by omega)
  have h2 := hN (M + N) (by omega)
  rw [h (M + N), h2] at h1
  exact (map_add_inj _ h1).symm

end Query
