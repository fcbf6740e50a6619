import Verif.Spec.Sql
/-!
# The grammar of boolean expressions is unambiguous: the reader finds what the grammar derives
-/
namespace Query

theorem negTimes_not (n : Nat) (e : BExp) : negTimes n (.not e) = .not (negTimes n e) := by
  induction n with
  | zero => rfl
  | succ n ih => simp [negTimes, ih]

theorem push_neg (fr : Frame) (e : BExp) :
    Frame.push { fr with nots := fr.nots + 1 } e = fr.push (.not e) := by
  simp [Frame.push, negTimes, negTimes_not]

theorem isName_not {w : Str} (h : isName w = true) : w ≠ c!"NOT" := by
  intro e; subst e; revert h; decide

theorem readToks_append (st : RState) (ts us : List Tok) :
    readToks st (ts ++ us) = (readToks st ts).bind fun st' => readToks st' us := by
  induction ts generalizing st with
  | nil => rfl
  | cons t ts ih =>
    simp only [List.cons_append, readToks]
    cases readTok st t with
    | none => rfl
    | some st' => exact ih st'

theorem read_col {w : Str} (h : isName w = true) (fr : Frame) (stk : List Frame) (rest : List Tok) :
    readToks ⟨.operand, fr, stk⟩ (.word w :: rest) = readToks ⟨.col w, fr, stk⟩ rest := by
  simp [readToks, readTok, isName_not h, h]

theorem read_list (w : Str) (neg : Bool) (ns acc : List Nat) (hn : ns ≠ []) (fr : Frame) (stk : List Frame)
    (rest : List Tok) :
    readToks ⟨.inItem w neg acc, fr, stk⟩ (listToks ns ++ .rpar :: rest) =
      readToks ⟨.after, fr.push (negIf neg (.atom (.inn w (acc ++ ns)))), stk⟩ rest := by
  induction ns generalizing acc with
  | nil => exact absurd rfl hn
  | cons n ns ih =>
    cases ns with
    | nil => simp [listToks, readToks, readTok]
    | cons m ns =>
      have := ih (acc ++ [n]) (by simp)
      simp only [listToks, List.cons_append, readToks, readTok] at this ⊢
      rw [this]
      simp

/-- The reader reads the tokens as a factor. -/
def RF (ts : List Tok) (e : BExp) : Prop := ∀ (fr : Frame) (stk : List Frame) (rest : List Tok),
  readToks ⟨.operand, fr, stk⟩ (ts ++ rest) = readToks ⟨.after, fr.push e, stk⟩ rest

/-- The reader reads the tokens as a term. -/
def RT (ts : List Tok) (e : BExp) : Prop := ∀ (o : Option BExp) (stk : List Frame) (rest : List Tok),
  readToks ⟨.operand, ⟨o, none, 0⟩, stk⟩ (ts ++ rest) = readToks ⟨.after, ⟨o, some e, 0⟩, stk⟩ rest

/-- The reader reads the tokens as an expression. -/
def RE (ts : List Tok) (e : BExp) : Prop := ∀ (stk : List Frame) (rest : List Tok), ∃ fr : Frame, fr.close = some e ∧
  readToks ⟨.operand, .empty, stk⟩ (ts ++ rest) = readToks ⟨.after, fr, stk⟩ rest

theorem rf_cmp {w o : Str} {n : Nat} (hw : isName w = true) (ho : o ∈ cmpOps) :
    RF [.word w, .op o, .dollar n] (.atom (.cmp o w n)) := by
  intro fr stk rest
  rw [List.cons_append, read_col hw]
  simp [readToks, readTok, ho]

theorem rf_like {w : Str} {n : Nat} (hw : isName w = true) : RF [.word w, .word c!"LIKE", .dollar n] (.atom (.like w n)) := by
  intro fr stk rest
  rw [List.cons_append, read_col hw]; simp [readToks, readTok, negIf]

theorem rf_notLike {w : Str} {n : Nat} (hw : isName w = true) :
    RF [.word w, .word c!"NOT", .word c!"LIKE", .dollar n] (.not (.atom (.like w n))) := by
  intro fr stk rest
  rw [List.cons_append, read_col hw]; simp [readToks, readTok, negIf]

theorem rf_ilike {w : Str} {n : Nat} (hw : isName w = true) :
    RF [.word w, .word c!"ILIKE", .dollar n] (.atom (.ilike w n)) := by
  intro fr stk rest
  rw [List.cons_append, read_col hw]; simp [readToks, readTok, negIf]

theorem rf_notIlike {w : Str} {n : Nat} (hw : isName w = true) :
    RF [.word w, .word c!"NOT", .word c!"ILIKE", .dollar n] (.not (.atom (.ilike w n))) := by
  intro fr stk rest
  rw [List.cons_append, read_col hw]; simp [readToks, readTok, negIf]

theorem rf_inn {w : Str} {ns : List Nat} (hw : isName w = true) (hn : ns ≠ []) :
    RF (.word w :: .word c!"IN" :: .lpar :: (listToks ns ++ [.rpar])) (.atom (.inn w ns)) := by
  intro fr stk rest
  rw [List.cons_append, read_col hw]
  have := read_list w false ns [] hn fr stk rest
  simp only [List.nil_append, negIf] at this
  simpa [readToks, readTok] using this

theorem rf_notInn {w : Str} {ns : List Nat} (hw : isName w = true) (hn : ns ≠ []) :
    RF (.word w :: .word c!"NOT" :: .word c!"IN" :: .lpar :: (listToks ns ++ [.rpar])) (.not (.atom (.inn w ns))) := by
  intro fr stk rest
  rw [List.cons_append, read_col hw]
  have := read_list w true ns [] hn fr stk rest
  simp only [List.nil_append, negIf] at this
  simpa [readToks, readTok] using this

theorem rf_isNull {w : Str} (hw : isName w = true) : RF [.word w, .word c!"IS", .word c!"NULL"] (.atom (.isNull w)) := by
  intro fr stk rest
  rw [List.cons_append, read_col hw]; simp [readToks, readTok]

theorem rf_isNotNull {w : Str} (hw : isName w = true) :
    RF [.word w, .word c!"IS", .word c!"NOT", .word c!"NULL"] (.not (.atom (.isNull w))) := by
  intro fr stk rest
  rw [List.cons_append, read_col hw]; simp [readToks, readTok]

theorem rf_paren {ts : List Tok} {e : BExp} (he : RE ts e) : RF (.lpar :: (ts ++ [.rpar])) e := by
  intro fr stk rest
  obtain ⟨fr', hc, hr⟩ := he (fr :: stk) (.rpar :: rest)
  simp only [List.cons_append, List.append_assoc, List.nil_append, readToks, readTok] at hr ⊢
  rw [hr]
  simp [hc]

theorem rf_neg {ts : List Tok} {e : BExp} (hf : RF ts e) : RF (.word c!"NOT" :: ts) (.not e) := by
  intro fr stk rest
  have := hf { fr with nots := fr.nots + 1 } stk rest
  rw [push_neg] at this
  simpa [readToks, readTok] using this

theorem rt_one {ts : List Tok} {e : BExp} (hf : RF ts e) : RT ts e := by
  intro o stk rest
  rw [hf]; rfl

theorem rt_and {ts us : List Tok} {a b : BExp} (ht : RT ts a) (hf : RF us b) :
    RT (ts ++ .word c!"AND" :: us) (.and a b) := by
  intro o stk rest
  rw [List.append_assoc, ht]
  simp only [List.cons_append, readToks, readTok]
  simp only [if_true]
  rw [hf]
  rfl

theorem re_one {ts : List Tok} {e : BExp} (ht : RT ts e) : RE ts e := fun stk rest =>
  ⟨⟨none, some e, 0⟩, rfl, ht none stk rest⟩

theorem re_or {ts us : List Tok} {a b : BExp} (he : RE ts a) (ht : RT us b) :
    RE (ts ++ .word c!"OR" :: us) (.or a b) := by
  intro stk rest
  obtain ⟨fr, hc, hr⟩ := he stk (.word c!"OR" :: us ++ rest)
  refine ⟨⟨some a, some b, 0⟩, rfl, ?_⟩
  have e1 : ts ++ Tok.word c!"OR" :: us ++ rest = ts ++ (.word c!"OR" :: us ++ rest) := by simp
  rw [e1, hr]
  have e2 : readTok ⟨.after, fr, stk⟩ (.word c!"OR") = some ⟨.operand, ⟨some a, none, 0⟩, stk⟩ := by
    simp [readTok, hc]
  simp only [List.cons_append, readToks, e2]
  exact ht (some a) stk rest

theorem read_E {ts : List Tok} {e : BExp} (h : IsE ts e) : RE ts e :=
  IsE.rec (motive_1 := fun ts e _ => RF ts e) (motive_2 := fun ts e _ => RT ts e) (motive_3 := fun ts e _ => RE ts e)
    rf_cmp rf_like rf_notLike rf_ilike rf_notIlike rf_inn rf_notInn rf_isNull rf_isNotNull
    (fun _ h => rf_paren h) (fun _ h => rf_neg h) (fun _ h => rt_one h) (fun _ _ h1 h2 => rt_and h1 h2)
    (fun _ h => re_one h) (fun _ _ h1 h2 => re_or h1 h2) h

/-- What the grammar derives is what the reader reads. -/
theorem reader_finds {ts : List Tok} {e : BExp} (h : IsE ts e) : readBool ts = some e := by
  obtain ⟨fr, hc, hr⟩ := read_E h [] []
  rw [List.append_nil] at hr
  simp [readBool, hr, readToks, RState.finish, hc]

/-- A text reads as at most one boolean expression. -/
theorem reads_unique {s : Str} {e e' : BExp} (h : Reads s e) (h' : Reads s e') : e = e' := by
  have h1 := reader_finds h
  have h2 := reader_finds h'
  rw [h1] at h2
  exact Option.some.inj h2

end Query
