import Verif.Proof.StmtRead
import Verif.Props.Select
import Verif.Props.Write
import Verif.Props.Logic
/-!
# Reading the texts of select builders

The readings of C22.
-/
namespace Query

theorem base_read (q : BaseSelect) (h : PlainSelect q) :
    ∃ sql params w, q.build = .ok (sql, params) ∧
      readStmt sql = some (.select ⟨q.fields.refs, q.baseTable.ref, q.joins.map TableJoiner.ref, w, [], none, none⟩) ∧
      WhereRead q params w := by
  obtain ⟨sql, params, h1, w, h2, h3, h4, _⟩ := base_segs h.named []
  refine ⟨sql, params, w.map (·.2), h1, ?_, by simpa using h4⟩
  exact read_select _ _ _ _ w none none none (itemToks_ne _) (itemToks_inner h.fields) (read_items h.fields) h.table h.joins
    h2 (by simp) (by simp) (by simp) sql h3

/-- One row, with the condition named. -/
theorem single_read_at (q : SelectSingle) (h : PlainSelect q.base) :
    ∃ sql params w, q.build = .ok (sql, params) ∧ (∃ sql0, q.base.build = .ok (sql0, params)) ∧
      (q.base.where_.conditions ≠ [] → ∃ s e, q.base.where_.render 0 = .ok s ∧ Reads s e ∧ w = some e) ∧
      readStmt sql = some (.select ⟨q.base.fields.refs, q.base.baseTable.ref, q.base.joins.map TableJoiner.ref, w, [], none,
        some (.lit c!"1")⟩) ∧ WhereRead q.base params w := by
  obtain ⟨sql, params, h1, w, h2, h3, h4, _, h5⟩ := base_segs h.named []
  refine ⟨sql ++ c!" LIMIT 1", params, w.map (·.2), by simp [SelectSingle.build, h1], ⟨_, h1⟩, (fun hn => by
    obtain ⟨s, e, g1, rfl⟩ := h5 hn
    exact ⟨s, e, g1, h2 _ rfl, rfl⟩), ?_, by simpa using h4⟩
  refine read_select _ _ _ _ w none none (some ([.word c!"1"], .lit c!"1")) (itemToks_ne _) (itemToks_inner h.fields)
    (read_items h.fields) h.table h.joins h2 (by simp) (by simp) ?_ _ ?_
  · intro p hp
    simp only [Option.mem_some_iff] at hp
    subst hp
    exact ⟨by decide, by decide⟩
  · have h6 : lex c!"LIMIT 1" = [.word c!"LIMIT", .word c!"1"] := by decide
    refine (lex_space sql c!"LIMIT 1").trans ?_
    rw [h6, h3, segs_tail, List.append_assoc]
    refine Eq.trans ?_ (segs_tail _ _ _ _ _ _ _).symm
    congr 1
    cases w <;> simp [tailSegs, optSeg, segToks]

theorem single_read (q : SelectSingle) (h : PlainSelect q.base) :
    ∃ sql params w, q.build = .ok (sql, params) ∧
      readStmt sql = some (.select ⟨q.base.fields.refs, q.base.baseTable.ref, q.base.joins.map TableJoiner.ref, w, [], none,
        some (.lit c!"1")⟩) ∧ WhereRead q.base params w := by
  obtain ⟨sql, params, w, h1, _, _, h2⟩ := single_read_at q h
  exact ⟨sql, params, w, h1, h2⟩

/-- A count, with the condition named. -/
theorem count_read_at (q : CountB) (h : PlainSelect q.base) (hf : CountDef q.countField) :
    ∃ sql params w, q.build = .ok (sql, params) ∧ (∃ sql0, q.base.build = .ok (sql0, params)) ∧
      (q.base.where_.conditions ≠ [] → ∃ s e, q.base.where_.render 0 = .ok s ∧ Reads s e ∧ w = some e) ∧
      readStmt sql = some (.select ⟨[.count q.countField.key], q.base.baseTable.ref, q.base.joins.map TableJoiner.ref, w, [],
        none, none⟩) ∧ WhereRead q.base params w := by
  obtain ⟨sql, params, h1, w, h2, h3, h4, _, h5⟩ := base_segs h.named []
  obtain ⟨tail, ht, hb⟩ := C18_count_same_rows q.base q.countField sql params h1
  have hk := plain_count hf
  have hcount : lex (c!"COUNT(" ++ q.countField.renderField ++ c!")") =
      [.word c!"COUNT", .lpar, .word q.countField.renderField, .rpar] := by
    have e1 := lex_lpar c!"COUNT" (q.countField.renderField ++ c!")")
    have e2 := lex_rpar q.countField.renderField []
    have e3 : lex c!"COUNT" = [.word c!"COUNT"] := by decide
    simp only [List.append_assoc, List.cons_append, List.nil_append] at e1 ⊢
    rw [e1, e2, e3, lex_item hk]
    rfl
  refine ⟨_, params, w.map (·.2), hb, ⟨_, h1⟩, (fun hn => by
    obtain ⟨s, e, g1, rfl⟩ := h5 hn
    exact ⟨s, e, g1, h2 _ rfl, rfl⟩), ?_, by simpa using h4⟩
  refine read_select [[.word c!"COUNT", .lpar, .word q.countField.renderField, .rpar]] _ _ _ w none none none (by simp) ?_ ?_
    h.table h.joins h2 (by simp) (by simp) (by simp) _ ?_
  · intro l hl
    simp only [List.mem_cons, List.not_mem_nil, or_false] at hl
    subst hl
    refine ⟨by simp, fun t ht => ?_⟩
    simp only [List.mem_cons, List.not_mem_nil, or_false] at ht
    rcases ht with rfl | rfl | rfl | rfl
    · decide
    · rfl
    · exact item_clause hk.2
    · rfl
  · simp [readAll, readItem, read_count hf]
  · have e0 : lex sql = .word c!"SELECT" :: (lex q.base.fields.fieldList ++ .word c!"FROM" :: lex tail) := by
      have s0 := lex_joinSpace [c!"SELECT", q.base.fields.fieldList, c!"FROM", tail]
      have k1 : lex c!"SELECT" = [.word c!"SELECT"] := by decide
      have k2 : lex c!"FROM" = [.word c!"FROM"] := by decide
      simp only [joinWith, List.flatMap_cons, List.flatMap_nil, List.append_nil, k1, k2] at s0
      rw [ht]
      simpa using s0
    have e1 : lex (c!"SELECT COUNT(" ++ q.countField.renderField ++ c!") FROM " ++ tail) =
        .word c!"SELECT" :: ([.word c!"COUNT", .lpar, .word q.countField.renderField, .rpar] ++ .word c!"FROM" :: lex tail) := by
      have s0 := lex_joinSpace [c!"SELECT", c!"COUNT(" ++ q.countField.renderField ++ c!")", c!"FROM", tail]
      have k1 : lex c!"SELECT" = [.word c!"SELECT"] := by decide
      have k2 : lex c!"FROM" = [.word c!"FROM"] := by decide
      simp only [joinWith, List.flatMap_cons, List.flatMap_nil, List.append_nil, k1, k2, hcount] at s0
      simpa using s0
    rw [e0, lex_fieldList h.fields] at h3
    rw [e1]
    simp only [selectSegs, segToks, List.flatMap_cons, List.cons_append, List.cons.injEq, true_and,
      List.append_cancel_left_eq] at h3
    simp [selectSegs, segToks, commaJoin, h3]

theorem count_read (q : CountB) (h : PlainSelect q.base) (hf : CountDef q.countField) :
    ∃ sql params w, q.build = .ok (sql, params) ∧
      readStmt sql = some (.select ⟨[.count q.countField.key], q.base.baseTable.ref, q.base.joins.map TableJoiner.ref, w, [],
        none, none⟩) ∧ WhereRead q.base params w := by
  obtain ⟨sql, params, w, h1, _, _, h2⟩ := count_read_at q h hf
  exact ⟨sql, params, w, h1, h2⟩

/-- Many rows, with the placeholders named. -/
theorem many_read_at (q : SelectMany) (h : PlainSelect q.base) (ho : ∀ o ∈ q.order, PlainKey o) :
    ∃ sql params w off lim, q.build = .ok (sql, params) ∧
      (∃ sql0 params0, q.base.build = .ok (sql0, params0) ∧
        params = params0 ++ (limitItems q.offset q.limit).map (fun p => .uint p.2) ∧
        off = (if q.offset > 0 then some (.param (params0.length + 1)) else none) ∧
        lim = if q.limit > 0 then some (.param (params0.length + (if q.offset > 0 then 1 else 0) + 1)) else none) ∧
      (q.base.where_.conditions ≠ [] → ∃ s e, q.base.where_.render 0 = .ok s ∧ Reads s e ∧ w = some e) ∧
      readStmt sql = some (.select ⟨q.base.fields.refs, q.base.baseTable.ref, q.base.joins.map TableJoiner.ref, w,
        q.order.map fun o => (o.fd.key, o.direction), off, lim⟩) ∧
      WhereRead q.base params w ∧ RowsRead params q.offset off ∧ RowsRead params q.limit.toNat lim := by
  obtain ⟨sql0, params0, h1, w, h2, h3, h4, _, h5⟩ :=
    base_segs h.named ((limitItems q.offset q.limit).map fun p => .uint p.2)
  have hq : ∃ r, q.build = .ok r := by
    unfold SelectMany.build
    rw [h1]
    exact ⟨_, rfl⟩
  obtain ⟨⟨sql, params⟩, hb⟩ := hq
  obtain ⟨sql0', params0', h1', hs, hp⟩ := C20_many_tail q sql params hb
  rw [h1] at h1'
  cases h1'
  let no := params0.length + 1
  let nl := params0.length + (if q.offset > 0 then 1 else 0) + 1
  refine ⟨sql, params, w.map (·.2), (rowsSeg no (q.offset > 0)).map (·.2), (rowsSeg nl (q.limit > 0)).map (·.2), hb,
    ⟨sql0, params0, h1, hp, ?_, ?_⟩, ?_, ?_, ?_, ?_, ?_⟩
  · unfold rowsSeg; split <;> rfl
  · unfold rowsSeg; split <;> rfl
  · intro hn
    obtain ⟨s, e, g1, rfl⟩ := h5 hn
    exact ⟨s, e, g1, h2 _ rfl, rfl⟩
  · have key := read_select (itemToks q.base.fields) q.base.fields.refs q.base.baseTable q.base.joins w (orderSeg q.order)
      (rowsSeg no (q.offset > 0)) (rowsSeg nl (q.limit > 0)) (itemToks_ne _) (itemToks_inner h.fields)
      (read_items h.fields) h.table h.joins h2 (order_read ho) (rows_read _ _) (rows_read _ _) sql ?_
    · rw [key]
      have : ((orderSeg q.order).map (·.2)).getD [] = q.order.map fun o => (o.fd.key, o.direction) := by
        unfold orderSeg
        split
        · rename_i hn; simp [hn]
        · rfl
      rw [this]
    · have hOrd : lex (if q.order = [] then [] else c!" ORDER BY " ++
          joinWith c!", " (q.order.map fun o => o.fd.renderField ++ c!" " ++ o.direction)) =
          segToks (optSeg c!"ORDER" ((orderSeg q.order).map (·.1))) := by
        unfold orderSeg
        split
        · rfl
        · have e1 := lex_joinSpace [[], c!"ORDER", c!"BY",
            joinWith c!", " (q.order.map fun o => o.fd.renderField ++ c!" " ++ o.direction)]
          have k1 : lex c!"ORDER" = [.word c!"ORDER"] := by decide
          have k2 : lex c!"BY" = [.word c!"BY"] := by decide
          have k3 : (q.order.map fun o => o.fd.renderField ++ c!" " ++ o.direction).map lex =
              q.order.map fun o => [Tok.word o.fd.renderField, .word o.direction] := by
            rw [List.map_map]
            exact List.map_congr_left fun o hm => (key_read (ho o hm)).2.2
          simp only [joinWith, List.flatMap_cons, List.flatMap_nil, List.append_nil, k1, k2, lex_joinComma, k3,
            lex_nil, List.nil_append] at e1
          simpa [optSeg, segToks] using e1
      rw [hs, segs_tail]
      have hsplit : ∀ a b : Str, (b = [] ∨ ∃ c, b = ' ' :: c) → lex (a ++ b) = lex a ++ lex b := by
        rintro a b (rfl | ⟨c, rfl⟩)
        · simp
        · rw [lex_space, show ' ' :: c = [] ++ ' ' :: c from rfl, lex_space]; rfl
      have hlim : lex (spaced (limitTexts params0.length (limitItems q.offset q.limit))) =
          segToks (optSeg c!"OFFSET" ((rowsSeg no (q.offset > 0)).map (·.1)) ++
            optSeg c!"LIMIT" ((rowsSeg nl (q.limit > 0)).map (·.1))) := by
        have one : ∀ (kw : Str) (n : Nat), lex (' ' :: (kw ++ c!" $" ++ itoa n)) = lex kw ++ [.dollar n] := by
          intro kw n
          have := lex_joinSpace [[], kw, '$' :: itoa n]
          simp only [joinWith, List.flatMap_cons, List.flatMap_nil, List.append_nil, lex_placeholder, lex_nil,
            List.nil_append] at this
          simpa using this
        have k1 : lex c!"OFFSET" = [.word c!"OFFSET"] := by decide
        have k2 : lex c!"LIMIT" = [.word c!"LIMIT"] := by decide
        have o1 := one c!"OFFSET"
        have o2 := one c!"LIMIT"
        rw [k1] at o1
        rw [k2] at o2
        unfold limitItems rowsSeg
        by_cases c1 : q.offset > 0 <;> by_cases c2 : q.limit > 0
        · have e := hsplit (' ' :: (c!"OFFSET" ++ c!" $" ++ itoa (params0.length + 1)))
            (' ' :: (c!"LIMIT" ++ c!" $" ++ itoa (params0.length + 1 + 1))) (.inr ⟨_, rfl⟩)
          rw [o1, o2] at e
          simpa [c1, c2, limitTexts, spaced, optSeg, segToks, no, nl] using e
        · have o1' := o1 (params0.length + 1)
          simp only [List.cons_append, List.nil_append, List.append_assoc] at o1'
          simp [c1, c2, limitTexts, spaced, o1', optSeg, segToks, no]
        · have o2' := o2 (params0.length + 1)
          simp only [List.cons_append, List.nil_append, List.append_assoc] at o2'
          simp [c1, c2, limitTexts, spaced, o2', optSeg, segToks, nl]
        · simp [c1, c2, limitTexts, spaced, optSeg, segToks]
      have sp1 : ∀ xs, spaced xs = [] ∨ ∃ c, spaced xs = ' ' :: c := by
        intro xs
        cases xs with
        | nil => exact .inl rfl
        | cons x xs => exact .inr ⟨_, rfl⟩
      rw [hsplit _ _ (sp1 _), hsplit _ _ (by split; exact .inl rfl; exact .inr ⟨_, rfl⟩), hOrd, hlim, h3, segs_tail]
      simp [tailSegs, segToks, optSeg]
  · rw [hp]; exact h4
  · unfold RowsRead rowsSeg
    by_cases c1 : q.offset = 0
    · simp [c1]
    · have c1' : q.offset > 0 := by omega
      rw [if_neg c1, if_pos c1']
      refine ⟨no, rfl, ?_⟩
      rw [hp]
      simp [bound, no, limitItems, c1']
  · unfold RowsRead rowsSeg
    by_cases c2 : q.limit > 0
    · rw [if_neg (by omega), if_pos c2]
      refine ⟨nl, rfl, ?_⟩
      rw [hp]
      by_cases c1 : q.offset > 0 <;> simp [bound, nl, limitItems, c1, c2]
    · rw [if_pos (by omega), if_neg c2]
      rfl

theorem many_read (q : SelectMany) (h : PlainSelect q.base) (ho : ∀ o ∈ q.order, PlainKey o) :
    ∃ sql params w off lim, q.build = .ok (sql, params) ∧
      readStmt sql = some (.select ⟨q.base.fields.refs, q.base.baseTable.ref, q.base.joins.map TableJoiner.ref, w,
        q.order.map fun o => (o.fd.key, o.direction), off, lim⟩) ∧
      WhereRead q.base params w ∧ RowsRead params q.offset off ∧ RowsRead params q.limit.toNat lim := by
  obtain ⟨sql, params, w, off, lim, h1, _, _, h2⟩ := many_read_at q h ho
  exact ⟨sql, params, w, off, lim, h1, h2⟩

end Query
