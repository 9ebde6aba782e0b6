import Verif.StepsBound

/-! # The bound, rule by rule -/

namespace Verif

open PExp

/-- The bound for Expression. -/
abbrev ECl (N : Nat) (s : Str) : Prop := Claim N (40 * unit N) BadL NoClose (.call .Expression) s

theorem Brief.le {N e s x k} (hb : Brief N e) (h : Run G e s x k) (hs : s.length ≤ N) : k ≤ unit N := hb s x k hs h

theorem ecl_fail {N M s k} (hE : ∀ s', s'.length < M → ECl N s') (h : Run G (.call .Expression) s none k) (hl : s.length < M) :
    k ≤ 40 * unit N ∨ (NoClose s ∧ k ≤ wt N s + 40 * unit N) := (hE s hl).fail k h

theorem ecl_ok {N M s r k} (hE : ∀ s', s'.length < M → ECl N s') (h : Run G (.call .Expression) s (some r) k) (hl : s.length < M) :
    r.length < s.length ∧ (k + wt N r + 100 * unit N ≤ wt N s + 40 * unit N ∨ (BadL r ∧ k ≤ wt N s + 40 * unit N)) :=
  (hE s hl).ok r k h

theorem sp_brief {N} : Brief N (.call .sp) := brief (c := .lin 92) (by decide) (by decide)
theorem value_brief {N} : Brief N (.call .Value) := brief (c := .lin 2086) (by decide) (by decide)
theorem identifier_brief {N} : Brief N (.call .Identifier) := brief (c := .tig 29) (by decide) (by decide)
theorem reference_brief {N} : Brief N (.call .Reference) := brief (c := .lin 302) (by decide) (by decide)

/-- The first alternative of PrimaryExpression. -/
abbrev parenT : PExp := seqs [.chr '(', .call .sp, .call .Expression, .call .sp, .chr ')', .act 8]

theorem parenT_bound {N s} (hs : s.length ≤ N) (hE : ∀ s', s'.length < s.length → ECl N s') :
    (∀ k, Run G parenT s none k → k ≤ unit N ∨ (Paren s ∧ k ≤ wt N s)) ∧
    (∀ r k, Run G parenT s (some r) k → r.length < s.length ∧ k + wt N r + 100 * unit N ≤ wt N s) := by
  have hu := unit_pos N
  constructor
  · intro k h
    cases h with
    | seqFail h => cases h <;> exact .inl (by omega)
    | seqOk h1 h2 =>
      cases h1
      refine .inr ⟨⟨_, rfl⟩, ?_⟩
      simp only [List.length_cons] at hs hE
      cases h2 with
      | seqFail h2 => cases h2 with | call h2 => cases h2
      | seqOk h2 h3 =>
        have k2 := (sp_brief (N := N)).le h2 (by omega)
        have l2 := h2.le
        have w2 := wt_lt (N := N) (show _ < (List.length ('(' :: _)) from Nat.lt_succ_of_le l2)
        cases h3 with
        | seqFail h3 => rcases ecl_fail hE h3 (by omega) with c | ⟨_, c⟩ <;> omega
        | seqOk h3 h4 =>
          obtain ⟨l3, c3⟩ := ecl_ok hE h3 (by omega)
          cases h4 with
          | seqFail h4 => cases h4 with | call h4 => cases h4
          | seqOk h4 h5 =>
            have k4 := (sp_brief (N := N)).le h4 (by omega)
            cases h5 with
            | seqOk _ h5 => cases h5
            | seqFail h5 =>
              rcases c3 with c3 | ⟨_, c3⟩ <;> (cases h5 <;> omega)
  · intro r k h
    cases h with
    | seqOk h1 h2 =>
      cases h1
      simp only [List.length_cons] at hs hE
      cases h2 with
      | seqOk h2 h3 =>
        have k2 := (sp_brief (N := N)).le h2 (by omega)
        have l2 := h2.le
        have w2 := wt_lt (N := N) (show _ < (List.length ('(' :: _)) from Nat.lt_succ_of_le l2)
        cases h3 with
        | seqOk h3 h4 =>
          obtain ⟨l3, c3⟩ := ecl_ok hE h3 (by omega)
          cases h4 with
          | seqOk h4 h5 =>
            have k4 := (sp_brief (N := N)).le h4 (by omega)
            have l4 := h4.le
            obtain ⟨ev4, b4⟩ := h4.big_some
            cases h5 with
            | seqOk h5 h6 =>
              cases h5
              cases h6
              have w4 := wt_le (N := N) l4
              have w5 := wt_lt (N := N) (show r.length < (')' :: r).length by simp)
              simp only [List.length_cons] at l4
              refine ⟨by simp only [List.length_cons]; omega, ?_⟩
              rcases c3 with c3 | ⟨c3, _⟩
              · omega
              · obtain ⟨c, t, h1, h2, h3⟩ := c3.head b4
                cases h1; exact absurd rfl h2

/-- What follows the first literal of a parenthesised array. -/
theorem items_next {t1 : Str} {ev r} {k : Nat}
    (h : Ok (.seq (gItems .Literal) (seqs [.call .sp, .chr ')', .act k])) t1 ev r) (hsp : Ok (.call .sp) t1 [] t1) :
    (∃ t, t1 = ')' :: t) ∨ ∃ e0 r0 c t, Ok (.call .Literal) t1 e0 r0 ∧ Ok (.call .sp) r0 [] (c :: t) ∧ (c = ',' ∨ c = ')') ∧
      r.length < (c :: t).length := by
  cases h with
  | @seqOk _ _ _ e1 r1 e2 r2 h1 h2 =>
    have l2 : r.length < r1.length := Big.consumes' nulG_ok h2 _ _ rfl rfl
    have hclose : ∀ {q}, Ok (.call .sp) r1 [] q → ∃ t, q = ')' :: t := by
      intro q hq
      cases h2 with
      | seqOk h2 h3 =>
        cases h2.det hq
        cases h3 with
        | seqOk h3 _ => cases h3; exact ⟨_, rfl⟩
    cases h1 with
    | optNone _ => exact .inl (hclose hsp)
    | optSome h1 =>
      right
      cases h1 with
      | @seqOk _ _ _ e3 r0 e4 _ h1 h3 =>
        cases h3 with
        | @seqOk _ _ _ _ q1 _ _ h3 h4 =>
          cases h4 with
          | @seqOk _ _ _ _ q2 _ _ h4 h5 =>
            have l3 := h3.length_le
            have l4 := h4.length_le
            have l5 := h5.length_le
            cases h3 with
            | starCons h3 h7 =>
              have l7 := h7.length_le
              cases h3 with
              | seqOk h3 h6 =>
                have := (sp_end h3).1; subst this
                have l6 := h6.length_le
                cases h6 with
                | seqOk h6 _ => cases h6; exact ⟨_, _, _, _, h1, h3, .inl rfl, by omega⟩
            | starNil _ =>
              have := (sp_end h4).1; subst this
              cases h5 with
              | optSome h5 => cases h5; exact ⟨_, _, _, _, h1, h4, .inl rfl, by omega⟩
              | optNone _ =>
                obtain ⟨t, rfl⟩ := hclose (sp_again h4)
                exact ⟨_, _, _, _, h1, h4, .inr rfl, by omega⟩

theorem literal_expression {s ev r c t} (h : Ok (.call .Literal) s ev r) (hsp : Ok (.call .sp) r [] (c :: t)) (hc : c = ',' ∨ c = ')') :
    Ok (.call .Expression) s ev r := by
  obtain ⟨_, ⟨w, hw, rfl⟩, _⟩ := sp_end hsp
  have hsol : Solid (c :: t) := by rcases hc with rfl | rfl <;> exact Solid.cons (by decide)
  have hrel : Hd relF (c :: t) := by rcases hc with rfl | rfl <;> exact Hd.cons (by decide)
  have hcmp : Hd cmpH (c :: t) := by rcases hc with rfl | rfl <;> exact Hd.cons (by decide)
  have hlog : Hd logH (c :: t) := by rcases hc with rfl | rfl <;> exact Hd.cons (by decide)
  have hp : Ok (.call .PrimaryExpression) s ev (w ++ c :: t) := by
    refine .call (.alt2 (paren_alt_no ?_) (.alt1 (.call (.alt1 h))))
    rintro t' rfl
    have : No (.call .Literal) ('(' :: t') := big_none_cons (by decide) (by decide) (by decide)
    cases h.det this
  exact .call (up_log (up_not (up_cmp (prim_cin hp (btwT_no hw hsol hrel) (prdT_no hw hsol hrel) (cinT_no hw hsol hrel))
    (cmpT_no hw hsol hcmp))) (logT_no hw hsol hlog))

/-- When an array follows the failed parenthesis, the failure was cheap. -/
theorem parenT_array {N s ev r k} (hs : s.length ≤ N) (hE : ∀ s', s'.length < s.length → ECl N s') (hp : Paren s)
    (hv : Ok (.call .Value) s ev r) (h : Run G parenT s none k) : k + wt N r + 150 * unit N ≤ wt N s := by
  have hu := unit_pos N
  obtain ⟨t, rfl⟩ := hp
  simp only [List.length_cons] at hs hE
  have hwt := wt_lt (N := N) (show t.length < ('(' :: t).length by simp)
  obtain ⟨t1, hsp⟩ := sp_total t
  have harr : Ok (.call .Array) ('(' :: t) ev r := by
    cases hv with
    | call hv =>
      cases hv with
      | alt1 hv =>
        have : No (.call .Literal) ('(' :: t) := big_none_cons (by decide) (by decide) (by decide)
        cases hv.det this
      | alt2 _ hv => exact hv
  have hitems : ∃ ev', Ok (.seq (gItems .Literal) (seqs [.call .sp, .chr ')', .act 24])) t1 ev' r := by
    cases harr with
    | call harr =>
      cases harr with
      | alt1 h => cases h with | seqOk h _ => cases h
      | alt2 _ h =>
        cases h with
        | seqOk h h1 =>
          cases h
          cases h1 with
          | seqOk h h1 =>
            cases h
            cases h1 with
            | seqOk h h1 => cases h.det hsp; exact ⟨_, h1⟩
  obtain ⟨ev', hitems⟩ := hitems
  have lt1 := hsp.length_le
  have lr : r.length < t1.length := Big.consumes' nulG_ok hitems _ _ rfl (by decide)
  have wt1 := wt_le (N := N) lt1
  have wr := wt_lt (N := N) lr
  cases h with
  | seqFail h => cases h; contradiction
  | seqOk h1 h2 =>
    cases h1
    cases h2 with
    | seqFail h2 => cases h2 with | call h2 => cases h2
    | seqOk h2 h3 =>
      have k2 := (sp_brief (N := N)).le h2 (by omega)
      cases h2.same hsp
      rcases items_next hitems (sp_again hsp) with ⟨t', rfl⟩ | ⟨e0, r0, c, t', hl, hsp0, hc, lr0⟩
      · have hno : No (.call .Expression) (')' :: t') := big_none_cons (by decide) (by decide) (by decide)
        cases h3 with
        | seqOk h3 _ => exact absurd hno h3.no
        | seqFail h3 =>
          rcases ecl_fail hE h3 (by omega) with c | ⟨c, _⟩
          · omega
          · exact absurd rfl (c t')
      · have lr0 : r.length < r0.length := Nat.lt_of_lt_of_le lr0 hsp0.length_le
        have hex := literal_expression hl hsp0 hc
        have w0 := wt_lt (N := N) lr0
        cases h3 with
        | seqFail h3 => cases hex.det h3.big_none
        | seqOk h3 h4 =>
          cases h3.same hex
          obtain ⟨l3, c3⟩ := ecl_ok hE h3 (by omega)
          rcases c3 with c3 | ⟨c3, _⟩
          · cases h4 with
            | seqFail h4 => cases h4 with | call h4 => cases h4
            | seqOk h4 h5 =>
              have k4 := (sp_brief (N := N)).le h4 (by omega)
              cases h5 with
              | seqOk _ h5 => cases h5
              | seqFail h5 => cases h5 <;> omega
          · obtain ⟨c', t'', h1, h2, h3⟩ := c3.head hsp0
            cases h1
            rcases hc with hc | hc
            · exact absurd hc h3
            · exact absurd hc h2

/-! ## Argument lists -/

/-- After the items (and an optional comma) no closing parenthesis follows. -/
def StopL (q : Str) : Prop :=
  ∀ q1 q2 q3 e, Ok (.call .sp) q [] q1 → Ok (.opt (.chr ',')) q1 e q2 → Ok (.call .sp) q2 [] q3 → NoClose q3

theorem BadL.stop {q} (h : BadL q) : StopL q := by
  intro q1 q2 q3 e h1 h2 h3
  obtain ⟨c, t, rfl, hc1, hc2⟩ := h.head h1
  cases h2 with
  | optSome h2 => cases h2; exact absurd rfl hc2
  | optNone _ =>
    cases h3.det (sp_again h1)
    rintro t' ⟨⟩
    exact hc1 rfl

theorem BadL.no_item {q x} (h : BadL q) : No (itemT x) q := by
  obtain ⟨q1, h1⟩ := sp_total q
  obtain ⟨c, t, rfl, hc1, hc2⟩ := h.head h1
  exact .seqFail2 h1 (.seqFail1 (.chrFail hc2))

theorem argument_claim {N s} (h : ECl N s) : Claim N (41 * unit N) BadL NoClose (.call .Argument) s := by
  have : Claim N (40 * unit N + unit N) BadL NoClose (.call .Argument) s := Claim.call (r := .Argument) h
  exact this.mono (by omega)

theorem arg_fail {N M s k} (hE : ∀ s', s'.length < M → ECl N s') (h : Run G (.call .Argument) s none k) (hl : s.length < M) :
    k ≤ 41 * unit N ∨ (NoClose s ∧ k ≤ wt N s + 41 * unit N) := (argument_claim (hE s hl)).fail k h

theorem arg_ok {N M s r k} (hE : ∀ s', s'.length < M → ECl N s') (h : Run G (.call .Argument) s (some r) k) (hl : s.length < M) :
    r.length < s.length ∧ (k + wt N r + 100 * unit N ≤ wt N s + 41 * unit N ∨ (BadL r ∧ k ≤ wt N s + 41 * unit N)) :=
  (argument_claim (hE s hl)).ok r k h

theorem item_body {N s} (hs : s.length ≤ N) (hE : ∀ s', s'.length < s.length → ECl N s') :
    Body N (45 * unit N) BadL StopL (itemT .Argument) s := by
  have hu := unit_pos N
  refine ⟨fun k h => ?_, fun r k h => ?_⟩
  · cases h with
    | seqFail h => cases h with | call h => cases h
    | seqOk h1 h2 =>
      have k1 := (sp_brief (N := N)).le h1 (by omega)
      have l1 := h1.le
      obtain ⟨e1, b1⟩ := h1.big_some
      cases h2 with
      | seqFail h2 => cases h2 <;> exact .inl (by omega)
      | @seqOk _ _ _ s2 _ _ _ h2 h3 =>
        cases h2
        have w1 := wt_le (N := N) l1
        have w2 := wt_lt (N := N) (show s2.length < (',' :: s2).length by simp)
        simp only [List.length_cons] at l1
        cases h3 with
        | seqFail h3 => cases h3 with | call h3 => cases h3
        | seqOk h3 h4 =>
          have k3 := (sp_brief (N := N)).le h3 (by omega)
          have l3 := h3.le
          have w3 := wt_le (N := N) l3
          obtain ⟨e3, b3⟩ := h3.big_some
          rcases arg_fail hE h4 (by omega) with c | ⟨c1, c2⟩
          · exact .inl (by omega)
          · refine .inr ⟨?_, by omega⟩
            intro q1 q2 q3 e g1 g2 g3
            cases g1.det b1
            cases g2 with
            | optNone g2 => cases g2; contradiction
            | optSome g2 => cases g2; cases g3.det b3; exact c1
  · cases h with
    | seqOk h1 h2 =>
      have k1 := (sp_brief (N := N)).le h1 (by omega)
      have l1 := h1.le
      cases h2 with
      | @seqOk _ _ _ s2 _ _ _ h2 h3 =>
        cases h2
        have w1 := wt_le (N := N) l1
        have w2 := wt_lt (N := N) (show s2.length < (',' :: s2).length by simp)
        simp only [List.length_cons] at l1
        cases h3 with
        | seqOk h3 h4 =>
          have k3 := (sp_brief (N := N)).le h3 (by omega)
          have l3 := h3.le
          have w3 := wt_le (N := N) l3
          obtain ⟨l4, c4⟩ := arg_ok hE h4 (by omega)
          rcases c4 with c4 | ⟨c4, c5⟩
          · exact ⟨by omega, .inl (by omega)⟩
          · exact ⟨by omega, .inr ⟨c4, by omega⟩⟩

theorem items_bound {N t x k} (hs : t.length ≤ N) (hE : ∀ s', s'.length ≤ t.length → ECl N s') (hsp : Ok (.call .sp) t [] t)
    (h : Run G (gItems .Argument) t x k) : ∃ q, x = some q ∧ q.length ≤ t.length ∧
      (k + wt N q ≤ wt N t + 50 * unit N ∨ ((∀ q', Ok (.call .sp) q [] q' → NoClose q') ∧ k ≤ wt N t + 95 * unit N)) := by
  have hu := unit_pos N
  have hE' : ∀ s', s'.length < t.length + 1 → ECl N s' := fun s' h => hE s' (by omega)
  cases h with
  | optNone h =>
    refine ⟨_, rfl, Nat.le_refl _, ?_⟩
    cases h with
    | seqOk _ h =>
      cases h with
      | seqFail h => cases h
      | seqOk _ h =>
        cases h with
        | seqFail h => cases h with | call h => cases h
        | seqOk _ h => cases h
    | seqFail h =>
      rcases arg_fail hE' h (by omega) with c | ⟨c1, c2⟩
      · exact .inl (by omega)
      · refine .inr ⟨fun q' hq => ?_, by omega⟩
        cases hq.det hsp; exact c1
  | optSome h =>
    refine ⟨_, rfl, ?_⟩
    cases h with
    | seqOk h1 h2 =>
      obtain ⟨l1, c1⟩ := arg_ok hE' h1 (by omega)
      cases h2 with
      | seqOk h2 h3 =>
        have l2 := h2.le
        cases h3 with
        | seqOk h3 h4 =>
          have l3 := h3.le
          have l4 := h4.le
          have k3 := (sp_brief (N := N)).le h3 (by omega)
          have k4 : Brief N (.opt (.chr ',')) := brief (c := .con 2) (by decide) (by decide)
          have k4 := k4.le h4 (by omega)
          have w3 := wt_le (N := N) l3
          have w4 := wt_le (N := N) l4
          obtain ⟨e3, b3⟩ := h3.big_some
          obtain ⟨e4, b4⟩ := h4.big_some
          have := (sp_end b3).1
          subst this
          refine ⟨by omega, ?_⟩
          rcases c1 with c1 | ⟨c1, c2⟩
          · obtain ⟨q1, hq1, l5, c5⟩ := star_bound (N := N) (C := 45 * unit N) (Bad' := StopL) (fun _ h => BadL.stop h)
              (fun _ h => BadL.no_item h) (by
                intro r k hl hr h
                cases h with
                | seqFail h => cases h with | call h => cases h
                | seqOk h h' =>
                  have k1 := (sp_brief (N := N)).le h (by omega)
                  cases h' with
                  | seqFail h' => cases h' <;> omega
                  | seqOk h' _ =>
                    obtain ⟨e, b⟩ := h.big_some
                    obtain ⟨c, t, h1, _, h3⟩ := hr.head b
                    cases h'
                    cases h1
                    exact absurd rfl h3) h2 rfl (by omega)
              (fun s' hs' => item_body (by omega) (fun s'' hs'' => hE s'' (by omega)))
            cases hq1
            rcases c5 with c5 | ⟨c5, c6⟩
            · exact .inl (by omega)
            · exact .inr ⟨fun q' hq' => c5 _ _ _ _ b3 b4 hq', by omega⟩
          · cases h2 with
            | starCons h2 _ => exact absurd c1.no_item h2.no
            | starNil h2 =>
              have kk : ∀ {q k}, q.length ≤ N → BadL q → Run G (itemT .Argument) q none k → k ≤ 2 * unit N := by
                intro r k hl hr h
                cases h with
                | seqFail h => cases h with | call h => cases h
                | seqOk h h' =>
                  have k1 := (sp_brief (N := N)).le h (by omega)
                  cases h' with
                  | seqFail h' => cases h' <;> omega
                  | seqOk h' _ =>
                    obtain ⟨e, b⟩ := h.big_some
                    obtain ⟨c, t, h1, _, h3⟩ := hr.head b
                    cases h'
                    cases h1
                    exact absurd rfl h3
              have := kk (by omega) c1 h2
              exact .inr ⟨fun q' hq' => c1.stop _ _ _ _ b3 b4 hq', by omega⟩

theorem args_bound {N s} (hs : s.length ≤ N) (hE : ∀ s', s'.length < s.length → ECl N s') :
    (∀ k, Run G (.call .ArgumentList) s none k → k ≤ unit N ∨ (Paren s ∧ k ≤ wt N s)) ∧
    (∀ r k, Run G (.call .ArgumentList) s (some r) k → r.length < s.length ∧ k + wt N r + 100 * unit N ≤ wt N s) := by
  have hu := unit_pos N
  constructor
  · intro k h
    cases h with
    | call h =>
      cases h with
      | seqFail h => cases h <;> exact .inl (by omega)
      | @seqOk _ _ _ t _ _ _ h1 h2 =>
        cases h1
        refine .inr ⟨⟨_, rfl⟩, ?_⟩
        have w1 := wt_lt (N := N) (show t.length < ('(' :: t).length by simp)
        simp only [List.length_cons] at hs hE
        cases h2 with
        | seqFail h2 => cases h2 with | call h2 => cases h2
        | seqOk h2 h3 =>
          have k2 := (sp_brief (N := N)).le h2 (by omega)
          have l2 := h2.le
          have w2 := wt_le (N := N) l2
          obtain ⟨e2, b2⟩ := h2.big_some
          cases h3 with
          | seqFail h3 => cases h3
          | seqOk h3 h4 =>
            cases h3
            cases h4 with
            | seqFail h4 => cases h4
            | seqOk h4 h5 =>
              obtain ⟨q, hq, l4, c4⟩ := items_bound (N := N) (by omega) (fun s' hs' => hE s' (by omega)) (sp_again b2) h4
              cases hq
              cases h5 with
              | seqFail h5 => cases h5 with | call h5 => cases h5
              | seqOk h5 h6 =>
                have k5 := (sp_brief (N := N)).le h5 (by omega)
                cases h6 with
                | seqOk _ h6 => cases h6
                | seqFail h6 => rcases c4 with c4 | ⟨_, c4⟩ <;> (cases h6 <;> omega)
  · intro r k h
    cases h with
    | call h =>
      cases h with
      | @seqOk _ _ _ t _ _ _ h1 h2 =>
        cases h1
        have w1 := wt_lt (N := N) (show t.length < ('(' :: t).length by simp)
        simp only [List.length_cons] at hs hE
        cases h2 with
        | seqOk h2 h3 =>
          have k2 := (sp_brief (N := N)).le h2 (by omega)
          have l2 := h2.le
          have w2 := wt_le (N := N) l2
          obtain ⟨e2, b2⟩ := h2.big_some
          cases h3 with
          | seqOk h3 h4 =>
            cases h3
            cases h4 with
            | seqOk h4 h5 =>
              obtain ⟨q, hq, l4, c4⟩ := items_bound (N := N) (by omega) (fun s' hs' => hE s' (by omega)) (sp_again b2) h4
              cases hq
              cases h5 with
              | seqOk h5 h6 =>
                have k5 := (sp_brief (N := N)).le h5 (by omega)
                have l5 := h5.le
                have w5 := wt_le (N := N) l5
                obtain ⟨e5, b5⟩ := h5.big_some
                have := (sp_end b5).1
                subst this
                cases h6 with
                | seqOk h6 h7 =>
                  cases h6
                  cases h7
                  have w6 := wt_lt (N := N) (show r.length < (')' :: r).length by simp)
                  simp only [List.length_cons] at l5
                  refine ⟨by simp only [List.length_cons]; omega, ?_⟩
                  rcases c4 with c4 | ⟨c4, _⟩
                  · omega
                  · exact absurd rfl (c4 _ b5 _)

/-! ## Primary expressions -/

theorem reference_paren {s ev t} (h : Ok (.call .Identifier) s ev ('(' :: t)) : Ok (.call .Reference) s ev ('(' :: t) :=
  .call (.alt2 (.call (.seqFail2 .act (.seqFail2 h (.seqFail1 (.chrFail (by decide))))))
    (.alt2 (.call (.seqFail2 h (.seqFail1 (.chrFail (by decide))))) h))

theorem prim_claim {N s} (hs : s.length ≤ N) (hE : ∀ s', s'.length < s.length → ECl N s') :
    Claim N (8 * unit N) Paren Paren gPrimaryExpression s := by
  have hu := unit_pos N
  obtain ⟨pf, po⟩ := parenT_bound hs hE
  refine ⟨fun k h => ?_, fun r k h => ?_⟩
  · cases h with
    | alt2 h1 h =>
      cases h with
      | alt2 h2 h =>
        have k2 := (value_brief (N := N)).le h2 (by omega)
        cases h with
        | alt2 h3 h4 =>
          have k4 := (reference_brief (N := N)).le h4 (by omega)
          cases h3 with
          | seqFail h3 =>
            have k3 := (identifier_brief (N := N)).le h3 (by omega)
            rcases pf _ h1 with c | ⟨c, c'⟩
            · exact .inl (by omega)
            · exact .inr ⟨c, by omega⟩
          | seqOk h3 _ =>
            exfalso
            obtain ⟨e3, b3⟩ := h3.big_some
            have b4 := h4.big_none
            cases b4 with
            | call b4 =>
              cases b4 with
              | alt2 _ b4 => cases b4 with | alt2 _ b4 => cases b3.det b4
  · cases h with
    | alt1 h1 => obtain ⟨l, c⟩ := po _ _ h1; exact ⟨l, .inl (by omega)⟩
    | alt2 h1 h =>
      cases h with
      | alt1 h2 =>
        have k2 := (value_brief (N := N)).le h2 (by omega)
        have l2 := h2.lt (by decide)
        have w2 := wt_lt (N := N) l2
        refine ⟨l2, .inl ?_⟩
        obtain ⟨e2, b2⟩ := h2.big_some
        rcases pf _ h1 with c | ⟨c, c'⟩
        · omega
        · have := parenT_array hs hE c b2 h1; omega
      | alt2 h2 h =>
        have k2 := (value_brief (N := N)).le h2 (by omega)
        cases h with
        | alt1 h3 =>
          cases h3 with
          | seqOk h3 h4 =>
            have k3 := (identifier_brief (N := N)).le h3 (by omega)
            have l3 := h3.lt (by decide)
            have w3 := wt_lt (N := N) l3
            cases h4 with
            | seqOk h4 h5 =>
              cases h5
              obtain ⟨l4, c4⟩ := (args_bound (N := N) (Nat.le_trans (Nat.le_of_lt l3) hs) (fun s' h => hE s' (by omega))).2 _ _ h4
              refine ⟨by omega, .inl ?_⟩
              rcases pf _ h1 with c | ⟨c, c'⟩
              · omega
              · exact absurd (c.no (by decide) (by decide) (by decide)) h3.no
        | alt2 h3 h4 =>
          have k4 := (reference_brief (N := N)).le h4 (by omega)
          have l4 := h4.lt (by decide)
          have w4 := wt_lt (N := N) l4
          refine ⟨l4, ?_⟩
          rcases pf _ h1 with c | ⟨c, c'⟩
          · cases h3 with
            | seqFail h3 =>
              have k3 := (identifier_brief (N := N)).le h3 (by omega)
              exact .inl (by omega)
            | seqOk h3 h5 =>
              have k3 := (identifier_brief (N := N)).le h3 (by omega)
              have l3 := h3.lt (by decide)
              have w3 := wt_lt (N := N) l3
              cases h5 with
              | seqOk _ h5 => cases h5
              | seqFail h5 =>
                rcases (args_bound (N := N) (Nat.le_trans (Nat.le_of_lt l3) hs) (fun s' h => hE s' (by omega))).1 _ h5 with c5 | ⟨c5, c6⟩
                · exact .inl (by omega)
                · obtain ⟨t, rfl⟩ := c5
                  obtain ⟨e3, b3⟩ := h3.big_some
                  have := h4.same (reference_paren b3)
                  subst this
                  exact .inr ⟨⟨t, rfl⟩, by omega⟩
          · exact absurd (c.no (by decide) (by decide) (by decide)) h4.no

/-! ## Operators around primary expressions -/

theorem cin_claim {N s} (hs : s.length ≤ N) (hE : ∀ s', s'.length < s.length → ECl N s') :
    Claim N (18 * unit N) Paren Paren (.call .CompareInExpression) s := by
  have h1 : Claim N (9 * unit N) Paren Paren (.call .PrimaryExpression) s :=
    (Claim.call (r := .PrimaryExpression) (prim_claim hs hE)).mono (by omega)
  have h2 : Claim N (12 * unit N) Paren Paren (.call .BetweenExpression) s :=
    (Claim.call (r := .BetweenExpression) (h1.tail (b := btwT) hs (brief (c := .lin 9283) (by decide) (by decide))
      (fun r hr => hr.no (by decide) (by decide) (by decide)))).mono (by omega)
  have h3 : Claim N (15 * unit N) Paren Paren (.call .PredicateExpression) s :=
    (Claim.call (r := .PredicateExpression) (h2.tail (b := prdT) hs (brief (c := .lin 746) (by decide) (by decide))
      (fun r hr => hr.no (by decide) (by decide) (by decide)))).mono (by omega)
  exact (Claim.call (r := .CompareInExpression) (h3.tail (b := cinT) hs (brief (c := .lin 2340) (by decide) (by decide))
      (fun r hr => hr.no (by decide) (by decide) (by decide)))).mono (by omega)

theorem cmp_claim {N s} (hs : s.length ≤ N) (hE : ∀ s', s'.length < s.length → ECl N s') :
    Claim N (23 * unit N) BadC Paren (.call .CompareExpression) s :=
  (Claim.call (r := .CompareExpression) (Claim.loop (N := N) (J := 18 * unit N) (Bad := Paren) (by omega) hs
    (brief (c := .lin 836) (by decide) (by decide)) (by decide) (fun r hr => hr.no (by decide) (by decide) (by decide))
    (fun s' hs' => cin_claim (by omega) (fun s'' hs'' => hE s'' (by omega))))).mono (by omega)

theorem not_claim {N s} (hs : s.length ≤ N) (hE : ∀ s', s'.length < s.length → ECl N s') :
    Claim N (30 * unit N) BadC NoClose (.call .NotExpression) s := by
  have hu := unit_pos N
  have h0 := cmp_claim hs hE
  have hw : Brief N (ciLit c!"not") := brief (c := .con 11) (by decide) (by decide)
  have hb : Brief N (.call .sp1) := brief (c := .lin 138) (by decide) (by decide)
  refine (Claim.call (r := .NotExpression) (J := 29 * unit N) ⟨fun k h => ?_, fun r k h => ?_⟩).mono (by omega)
  · cases h with
    | @alt2 _ _ _ _ k0 _ h1 h2 =>
      cases h2 with
      | seqFail h2 => cases h2 with | call h2 => cases h2
      | @seqOk _ _ _ s1 _ _ _ h2 h3 =>
        have k2 := (sp_brief (N := N)).le h2 (by omega)
        have l2 := h2.le
        obtain ⟨e2, b2⟩ := h2.big_some
        have hcp : ∀ t, s = '(' :: t ∨ s = ')' :: t → No (ciLit c!"not") s1 := by
          intro t hst
          have : Solid s := by rcases hst with rfl | rfl <;> exact Solid.cons (by decide)
          cases b2.det (sp_nil this.no)
          rcases hst with rfl | rfl <;> exact big_none_cons (by decide) (by decide) (by decide)
        cases h3 with
        | seqFail h3 =>
          have k3 := hw.le h3 (by omega)
          rcases h0.fail _ h1 with c | ⟨⟨t, rfl⟩, c⟩
          · exact .inl (by omega)
          · exact .inr ⟨by rintro t' ⟨⟩, by omega⟩
        | seqOk h3 h4 =>
          have k3 := hw.le h3 (by omega)
          have l3 := h3.lt (by decide)
          have hnc : NoClose s := fun t ht => h3.no (hcp t (.inr ht))
          have c0 : k0 ≤ 23 * unit N := by
            rcases h0.fail _ h1 with c | ⟨⟨t, ht⟩, c⟩
            · exact c
            · exact absurd (hcp t (.inl ht)) h3.no
          refine .inr ⟨hnc, ?_⟩
          cases h4 with
          | seqFail h4 => have k4 := hb.le h4 (by omega); omega
          | seqOk h4 h5 =>
            have k4 := hb.le h4 (by omega)
            have l4 := h4.lt (by decide)
            cases h5 with
            | seqOk _ h5 => cases h5
            | seqFail h5 =>
              have w := wt_lt (N := N) (show List.length _ < s.length from Nat.lt_of_lt_of_le (Nat.lt_trans l4 l3) l2)
              have h5' := (cmp_claim (N := N) (Nat.le_trans (Nat.le_of_lt (Nat.lt_of_lt_of_le (Nat.lt_trans l4 l3) l2)) hs)
                (fun s'' hs'' => hE s'' (by omega))).fail _ h5
              rcases h5' with c | ⟨_, c⟩ <;> omega
  · cases h with
    | alt1 h1 =>
      obtain ⟨l, c | ⟨c, c'⟩⟩ := h0.ok _ _ h1
      · exact ⟨l, .inl (by omega)⟩
      · exact ⟨l, .inr ⟨c, by omega⟩⟩
    | @alt2 _ _ _ _ k0 _ h1 h2 =>
      cases h2 with
      | seqOk h2 h3 =>
        have k2 := (sp_brief (N := N)).le h2 (by omega)
        have l2 := h2.le
        obtain ⟨e2, b2⟩ := h2.big_some
        cases h3 with
        | seqOk h3 h4 =>
          have k3 := hw.le h3 (by omega)
          have l3 := h3.lt (by decide)
          have c0 : k0 ≤ 23 * unit N := by
            rcases h0.fail _ h1 with c | ⟨⟨t, ht⟩, c⟩
            · exact c
            · subst ht
              cases paren_sp b2
              exact absurd (big_none_cons (by decide) (by decide) (by decide)) h3.no
          cases h4 with
          | seqOk h4 h5 =>
            have k4 := hb.le h4 (by omega)
            have l4 := h4.lt (by decide)
            cases h5 with
            | seqOk h5 h6 =>
              cases h6
              have w := wt_lt (N := N) (show List.length _ < s.length from Nat.lt_of_lt_of_le (Nat.lt_trans l4 l3) l2)
              obtain ⟨l5, c | ⟨c, c'⟩⟩ := (cmp_claim (N := N) (Nat.le_trans (Nat.le_of_lt (Nat.lt_of_lt_of_le (Nat.lt_trans l4 l3) l2)) hs)
                (fun s'' hs'' => hE s'' (by omega))).ok _ _ h5
              · exact ⟨by omega, .inl (by omega)⟩
              · exact ⟨by omega, .inr ⟨c, by omega⟩⟩

theorem expr_step {N s} (hs : s.length ≤ N) (hE : ∀ s', s'.length < s.length → ECl N s') : ECl N s := by
  have h1 : Claim N (35 * unit N) BadL NoClose (.call .LogicExpression) s :=
    (Claim.call (r := .LogicExpression) (Claim.loop (N := N) (J := 30 * unit N) (Bad := BadC) (by omega) hs
      (brief (c := .lin 406) (by decide) (by decide)) (by decide) (fun r hr => hr.no_logic)
      (fun s' hs' => not_claim (by omega) (fun s'' hs'' => hE s'' (by omega))))).mono (by omega)
  exact (Claim.call (r := .Expression) h1).mono (by omega)

theorem expr_claim {N} : ∀ n s, s.length ≤ n → s.length ≤ N → ECl N s := by
  intro n
  induction n with
  | zero => intro s h1 h2; exact expr_step h2 (fun s' h => by omega)
  | succ n ih => intro s h1 h2; exact expr_step h2 (fun s' h => ih s' (by omega) (by omega))

theorem steps_arith {n p k : Nat} (h : k ≤ 2000000 * p + 45 * (20000 * (n + 1))) : k ≤ 3000000 * (p + (n + 1)) := by
  rw [← Nat.mul_assoc] at h
  rw [Nat.mul_add]
  exact Nat.le_trans h (Nat.add_le_add (Nat.mul_le_mul_right _ (by decide)) (Nat.mul_le_mul_right _ (by decide)))

/-- The recogniser takes at most quadratically many steps. -/
theorem grammar_steps {s x k} (h : Run G (.call .Grammar) s x k) : k ≤ 3000000 * (s.length + 1) ^ 2 := by
  have hu := unit_pos s.length
  have hkey : k ≤ wt s.length s + 45 * unit s.length := by
    cases h with
    | call h =>
      cases h with
      | seqFail h => cases h with | call h => cases h
      | seqOk h1 h2 =>
        have k1 := (sp_brief (N := s.length)).le h1 (Nat.le_refl _)
        have l1 := h1.le
        have w1 := wt_le (N := s.length) l1
        have hc := expr_claim (N := s.length) _ _ (Nat.le_refl _) l1
        cases h2 with
        | seqFail h2 => rcases hc.fail _ h2 with c | ⟨_, c⟩ <;> omega
        | seqOk h2 h3 =>
          obtain ⟨l2, c2⟩ := hc.ok _ _ h2
          have hb : Brief s.length (seqs [.call .sp, .call .EndOfFile]) := brief (c := .lin 96) (by decide) (by decide)
          have k3 := hb.le h3 (by omega)
          rcases c2 with c | ⟨_, c⟩ <;> omega
  have e : (s.length + 1) ^ 2 = (s.length + 1) * s.length + (s.length + 1) := by rw [Nat.pow_two, Nat.mul_add, Nat.mul_one]
  have e2 : wt s.length s = 2000000 * ((s.length + 1) * s.length) := by
    unfold wt unit
    rw [← Nat.mul_assoc 100 20000, Nat.mul_assoc]
  rw [e2] at hkey
  rw [e]
  exact steps_arith hkey

end Verif
