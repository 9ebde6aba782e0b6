import Verif.Complete

/-! # Lemmas for the text level properties -/

namespace Verif

open PExp

/-! ## Syntax errors -/

/-- The result is a syntax error. -/
def SyntaxError (s : Str) : Prop := ∃ b e, parse s = .err (.syntax b e)

theorem parse_none {s : Str} (h : No (.call .Grammar) s) : SyntaxError s := by
  rcases parse_cases s with ⟨ev, hb, _⟩ | ⟨_, b, e, hp, _⟩
  · exact absurd (Big.det hb h) (by simp)
  · exact ⟨b, e, hp⟩

/-- After a clearly spaced expression, a text that starts no operator and is not empty is a syntax error. -/
theorem stuck {w1 u w2 x n} (hw1 : WS w1) (h : Sp .logic u n) (hw2 : WS w2) (hs : Solid x) (hg : Glue u w2 x) (hne : x ≠ [])
    (h1 : NoB x) (h2 : NoP x) (h3 : NoI x) (h4 : NoC x) (h5 : NoL x) : SyntaxError (w1 ++ (u ++ (w2 ++ x))) := by
  have hf : FLog u n := h.fwd
  obtain ⟨ev, r, hr, he, ho⟩ := hf.2 w2 x hw2 hs hg h1 h2 h3 h4
  have := ho [] r (.starNil (or_no hw2 h5 hr))
  refine parse_none (.call (.seqFail2 (sp_ok hw1 (hf.1.solid _).no) (.seqFail2 (.call this) (.seqFail2 (sp_or hw2 hs hr) (.call ?_)))))
  cases x with
  | nil => exact absurd rfl hne
  | cons c t => exact .notFail .anyOk

/-- A query that starts neither an expression nor a negation is a syntax error. -/
theorem no_start {w s : Str} (hw : WS w) (hs : Solid s) (h : No (.call .NotExpression) s) : SyntaxError (w ++ s) :=
  parse_none (.call (.seqFail2 (sp_ok hw hs.no) (.seqFail1 (.call (.call (.seqFail1 h))))))

theorem noL_of_hd {x : Str} (hs : Solid x) (h : Hd logH x) : NoL x := fun _ hw => logT_no hw hs h
theorem noC_of_hd {x : Str} (hs : Solid x) (h : Hd cmpH x) : NoC x := fun _ hw => cmpT_no hw hs h

/-- No comparison can be read from `<>`. -/
theorem noC_ltgt (y : Str) : NoC ('<' :: '>' :: y) := by
  intro w hw
  have hs : Solid ('<' :: '>' :: y) := Solid.cons (by decide)
  have hsym : Ok gCmpSym ('<' :: '>' :: y) [] ('>' :: y) :=
    .alt2 (.seqFail1 (.chrFail (by decide))) (.alt2 (.seqFail2 .chrOk (.chrFail (by decide))) (.alt2 (.seqFail1 (.chrFail (by decide))) (.alt1 .chrOk)))
  have ht : Ok (.txt gCmpSym) ('<' :: '>' :: y) [.text c!"<"] ('>' :: y) := op_text (ob := c!"<") hsym
  have hs2 : Solid ('>' :: y) := Solid.cons (by decide)
  refine .seqFail2 (.call (.alt1 (.seqOk (sp_ok hw hs.no) (.seqOk ht (.seqOk (sp_nil hs2.no) .act))))) (.seqFail1 ?_)
  exact big_none_cons (by decide) (by decide) (by decide)

/-! ## NormalizeOperation is idempotent -/

theorem goIsSpace_toLower (c : Char) : goIsSpace c.toLower = goIsSpace c := by
  by_cases h : 65 ≤ c.toNat ∧ c.toNat ≤ 90
  · have := toLower_upper h
    unfold goIsSpace
    rw [this]
    have a : ∀ n : Nat, (65 ≤ n ∧ n ≤ 122) → (decide (n ∈ [0x09, 0x0a, 0x0b, 0x0c, 0x0d, 0x20, 0x85, 0xa0, 0x1680, 0x2028, 0x2029, 0x202f, 0x205f, 0x3000]) ||
        (decide (0x2000 ≤ n) && decide (n ≤ 0x200a))) = false := by
      intro n hn
      simp
      omega
    rw [a _ (by omega), a _ (by omega)]
  · rw [toLower_of_not_upper h]

theorem goIsSpace_lower (c : Char) : goIsSpace (lowerChar c) = goIsSpace c := by
  unfold lowerChar
  split
  · exact goIsSpace_toLower c
  · exact unicodeLower.space c

theorem toLower_idem (c : Char) : c.toLower.toLower = c.toLower := by
  by_cases h : 65 ≤ c.toNat ∧ c.toNat ≤ 90
  · have := toLower_upper h
    exact toLower_of_not_upper (by omega)
  · rw [toLower_of_not_upper h, toLower_of_not_upper h]

theorem lowerChar_idem (c : Char) : lowerChar (lowerChar c) = lowerChar c := by
  by_cases h : c.toNat < 128
  · have e : lowerChar c = c.toLower := if_pos h
    have h2 : c.toLower.toNat < 128 := by
      by_cases hu : 65 ≤ c.toNat ∧ c.toNat ≤ 90
      · have := toLower_upper hu; omega
      · rwa [toLower_of_not_upper hu]
    rw [e, lowerChar, if_pos h2, toLower_idem]
  · have e : lowerChar c = unicodeLower.map c := if_neg h
    rw [e]
    rcases unicodeLower.result c (by omega) with ⟨h3, h4⟩ | ⟨h3, h4⟩
    · have h3 : 97 ≤ (unicodeLower.map c).toNat := h3
      have h4 : (unicodeLower.map c).toNat ≤ 122 := h4
      rw [lowerChar, if_pos (by omega), toLower_of_not_upper (by omega)]
    · rw [lowerChar, if_neg (by omega), h4]

theorem reSpace_space {c : Char} (h : reSpace c = true) : goIsSpace c = true := by
  simp [reSpace] at h
  rcases h with (rfl | rfl | rfl | rfl) | h
  · decide
  · decide
  · decide
  · decide
  · unfold goIsSpace; rw [h]; decide

theorem squeeze_head {p c s} (h : reSpace c = false) : squeeze p (c :: s) = c :: squeeze false s := by simp [squeeze, h]

theorem squeeze_idem : ∀ (s : Str) (p : Bool), squeeze p (squeeze p s) = squeeze p s := by
  intro s
  induction s with
  | nil => intro p; rfl
  | cons c s ih =>
    intro p
    by_cases hc : reSpace c = true
    · cases p with
      | true => simp only [squeeze, hc, if_true]; exact ih true
      | false =>
        have h1 : squeeze false (c :: s) = ' ' :: squeeze true s := by simp [squeeze, hc]
        have h2 : ∀ t, squeeze false (' ' :: t) = ' ' :: squeeze true t := fun t => by
          have : reSpace ' ' = true := by decide
          simp [squeeze, this]
        rw [h1, h2, ih true]
    · have hc : reSpace c = false := by simpa using hc
      rw [squeeze_head hc, squeeze_head hc, ih false]

theorem squeeze_mem {c : Char} : ∀ {s : Str} {p : Bool}, c ∈ squeeze p s → c ∈ s ∨ c = ' ' := by
  intro s
  induction s with
  | nil => intro p h; cases h
  | cons d s ih =>
    intro p h
    by_cases hd : reSpace d = true
    · cases p with
      | true =>
        simp only [squeeze, hd, if_true] at h
        rcases ih h with h | h
        · exact .inl (List.mem_cons_of_mem _ h)
        · exact .inr h
      | false =>
        simp only [squeeze, hd, if_true] at h
        rcases List.mem_cons.mp h with h | h
        · exact .inr h
        · rcases ih h with h | h
          · exact .inl (List.mem_cons_of_mem _ h)
          · exact .inr h
    · have hd : reSpace d = false := by simpa using hd
      rw [squeeze_head hd] at h
      rcases List.mem_cons.mp h with rfl | h
      · exact .inl (by simp)
      · rcases ih h with h | h
        · exact .inl (List.mem_cons_of_mem _ h)
        · exact .inr h

theorem squeeze_last {s : Str} {c : Char} (h : reSpace c = false) (p : Bool) : squeeze p (s ++ [c]) = squeeze p s ++ [c] := by
  apply squeeze_suf
  intro x hx
  rw [List.mem_singleton.mp hx]; exact h

theorem goTrim_ends (s : Str) : (∀ c t, goTrim s = c :: t → goIsSpace c = false) ∧ (∀ c t, goTrim s = t ++ [c] → goIsSpace c = false) := by
  have hd : ∀ (l : Str) c t, l.dropWhile goIsSpace = c :: t → goIsSpace c = false := by
    intro l
    induction l with
    | nil => intro c t h; simp at h
    | cons x l ih =>
      intro c t h
      by_cases hx : goIsSpace x = true
      · rw [List.dropWhile_cons_of_pos hx] at h; exact ih c t h
      · rw [List.dropWhile_cons_of_neg hx] at h
        cases h; simpa using hx
  constructor
  · intro c t h
    unfold goTrim at h
    have hs : ∃ v, s.dropWhile goIsSpace = (c :: t) ++ v := by
      have := (List.dropWhile_suffix goIsSpace (l := (s.dropWhile goIsSpace).reverse))
      obtain ⟨v, hv⟩ := this
      refine ⟨v.reverse, ?_⟩
      have h2 := congrArg List.reverse hv
      rw [List.reverse_append, List.reverse_reverse, h] at h2
      exact h2.symm
    obtain ⟨v, hv⟩ := hs
    exact hd s c (t ++ v) (by rw [hv]; rfl)
  · intro c t h
    unfold goTrim at h
    have := congrArg List.reverse h
    simp at this
    exact hd _ _ _ this

theorem normTable_fix : ∀ k v, normTable.lookup k = some v → normOp v = v := by
  intro k v h
  have hm : v ∈ normTable.map Prod.snd := by
    have : ∀ l : List (Str × Str), l.lookup k = some v → v ∈ l.map Prod.snd := by
      intro l
      induction l with
      | nil => intro h; simp at h
      | cons p l ih =>
        intro h
        obtain ⟨a, b⟩ := p
        rw [List.lookup_cons] at h
        split at h
        · simp at h; simp [h]
        · exact List.mem_cons_of_mem _ (ih h)
    exact this _ h
  revert hm
  have : ∀ v ∈ normTable.map Prod.snd, normOp v = v := by decide
  exact this v

theorem normOp_idem (s : Str) : normOp (normOp s) = normOp s := by
  obtain ⟨hf, hl⟩ := goTrim_ends s
  generalize hx : squeeze false (goLower (goTrim s)) = x
  have e : normOp s = match normTable.lookup x with | some v => v | none => x := by unfold normOp; simp only [hx] <;> rfl
  cases hk : normTable.lookup x with
  | some v => rw [hk] at e; rw [e]; exact normTable_fix x v hk
  | none =>
    rw [hk] at e
    simp only at e
    have key : squeeze false (goLower (goTrim x)) = x := by
      have hlow : goLower x = x := by
        unfold goLower
        conv => rhs; rw [← List.map_id x]
        refine List.map_congr_left fun c hc => ?_
        rw [← hx] at hc
        rcases squeeze_mem hc with hc | rfl
        · unfold goLower at hc
          obtain ⟨d, _, rfl⟩ := List.mem_map.mp hc
          exact lowerChar_idem d
        · decide
      have htrim : goTrim x = x := by
        apply goTrim_id
        · intro c t h
          cases hg : goTrim s with
          | nil => rw [hg] at hx; simp [goLower, squeeze] at hx; rw [h] at hx; simp at hx
          | cons d u =>
            have hd := hf d u hg
            rw [hg] at hx
            have h1 : goIsSpace (lowerChar d) = false := by rw [goIsSpace_lower]; exact hd
            have h2 : reSpace (lowerChar d) = false := by
              cases hr : reSpace (lowerChar d) with
              | false => rfl
              | true => rw [reSpace_space hr] at h1; cases h1
            simp only [goLower, List.map_cons] at hx
            rw [squeeze_head h2, h] at hx
            cases hx; exact h1
        · intro c t h
          rcases List.eq_nil_or_concat (goTrim s) with hg | ⟨u, d, hg⟩
          · rw [hg] at hx; simp [goLower, squeeze] at hx; rw [h] at hx; simp at hx
          · rw [List.concat_eq_append] at hg
            have hd := hl d u hg
            rw [hg] at hx
            have h1 : goIsSpace (lowerChar d) = false := by rw [goIsSpace_lower]; exact hd
            have h2 : reSpace (lowerChar d) = false := by
              cases hr : reSpace (lowerChar d) with
              | false => rfl
              | true => rw [reSpace_space hr] at h1; cases h1
            simp only [goLower, List.map_append, List.map_cons, List.map_nil] at hx
            rw [squeeze_last h2, h] at hx
            have := List.append_inj_right' hx rfl
            simp at this
            rw [← this]; exact h1
      rw [htrim, hlow, ← hx, squeeze_idem]
    rw [e]
    unfold normOp
    simp only [key, hk]

end Verif
