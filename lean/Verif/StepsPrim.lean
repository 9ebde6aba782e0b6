import Verif.StepsLinear

/-! # Arguments, primary expressions and the whole grammar in linearly many steps -/

namespace Verif

open PExp

attribute [local irreducible] wl lenU rsv tails debt litx valx stepsOf

/-- The bound for Expression. -/
abbrev ELin (s : Str) : Prop := LClaim 78 72 BadL NoClose (.call .Expression) s

theorem expr_lin {s} (hs : Settled s) (h : ∀ s', s'.length ≤ s.length → Settled s' → PLin s') : ELin s := by
  have h1 : LClaim 77 73 BadL NoClose (.call .LogicExpression) s :=
    LClaim.call (r := .LogicExpression) (LClaim.loop (Bad := BadC) (by omega) (by omega) (.inr rfl) (fun _ _ h => tails_log h)
      (fun r t k h => by
        obtain ⟨ev, hb⟩ := h.big_some
        have := debt_ok hb
        exact ⟨logic_cost h, h.lt (by decide), logic_settled hb, by omega⟩)
      (fun r hr => hr.no_logic) hs (fun s' h1 h2 => not_lin h2 (fun s'' h3 h4 => h s'' (by omega) h4)))
  exact LClaim.call (r := .Expression) h1

theorem arg_lin {s} (h : ELin s) : LClaim 79 71 BadL NoClose (.call .Argument) s := LClaim.call (r := .Argument) h

theorem stop_debt {r : Str} {c : Char} {t : Str} (h : Ok (.call .sp) r [] (c :: t)) (hc : c = ',' ∨ c = ')' ∨ c = '(') : debt r = 0 := by
  refine debt_no ?_
  obtain ⟨x, hx⟩ := big_total .Logic r
  cases x with
  | none => exact hx
  | some p =>
    exfalso
    obtain ⟨c', t', h1, h2⟩ := logic_head hx h
    cases h1
    rcases hc with rfl | rfl | rfl <;> revert h2 <;> decide

/-! ## Argument lists -/

/-- How the turns of an argument list end after `K` steps at `q`: without a comma; with a comma and no argument; or badly. -/
def Turned (K B : Nat) (q : Str) : Prop :=
  (∃ q1, Ok (.call .sp) q [] q1 ∧ (∀ t, q1 ≠ ',' :: t) ∧ K + wl q ≤ B + 85 * tails q + debt q) ∨
  (∃ c0 c kf, Ok (.call .sp) q [] (',' :: c0) ∧ Ok (.call .sp) c0 [] c ∧ Run G (.call .Argument) c none kf ∧
    K + wl q ≤ B + 79 * tails q + spc q + spc c0 + kf + 10) ∨
  (BadL q ∧ K + 60 * tails q ≤ B)

theorem arg_turns {e s x k} (h : Run G e s x k) : e = .star (itemT .Argument) →
    (∀ s', s'.length < s.length → Settled s' → ELin s') → ∀ k0 B,
    (k0 + wl s ≤ B + 79 * tails s + debt s ∨ (BadL s ∧ k0 + 71 * tails s ≤ B)) →
    ∃ q, x = some q ∧ q.length ≤ s.length ∧ Turned (k0 + k) B q := by
  induction h with
  | @starNil _ s k1 h1 =>
    rintro ⟨⟩ hE k0 B h0
    refine ⟨_, rfl, Nat.le_refl _, ?_⟩
    have hts := tails_sp s
    have hp := tails_pos s
    cases h1 with
    | seqFail h => cases h with | call h => cases h
    | @seqOk _ _ _ s1 _ _ _ h1 h2 =>
      have e1 : spc s = _ := stepsOf_eq h1
      obtain ⟨ev, b1⟩ := h1.big_some
      have := (sp_end b1).1
      subst this
      cases h2 with
      | seqFail h2 =>
        have hno : ∀ t, s1 ≠ ',' :: t := by rintro t rfl; cases h2; contradiction
        rcases h0 with h0 | ⟨hb, h0⟩
        · left; refine ⟨s1, b1, hno, ?_⟩; cases h2 <;> omega
        · right; right; refine ⟨hb, ?_⟩; cases h2 <;> omega
      | @seqOk _ _ _ c0 _ _ _ h2 h3 =>
        cases h2
        rcases h0 with h0 | ⟨hb, h0⟩
        · right; left
          have hd := stop_debt b1 (.inl rfl)
          cases h3 with
          | seqFail h3 => cases h3 with | call h3 => cases h3
          | @seqOk _ _ _ c _ _ kf h3 h4 =>
            have e3 : spc c0 = _ := stepsOf_eq h3
            obtain ⟨ev3, b3⟩ := h3.big_some
            have := (sp_end b3).1
            subst this
            exact ⟨c0, c, kf, b1, b3, h4, by omega⟩
        · obtain ⟨c, t, h5, h6, h7⟩ := hb.head b1
          cases h5; exact absurd rfl h7
  | @starCons _ s r1 r2 k1 k2 h1 h2 _ ih =>
    rintro he hE k0 B h0
    cases he
    rcases h0 with h0 | ⟨hb, h0⟩
    · have hts := tails_sp s
      cases h1 with
      | @seqOk _ _ _ s1 _ _ _ h1 h3 =>
        have e1 : spc s = _ := stepsOf_eq h1
        obtain ⟨ev, b1⟩ := h1.big_some
        have := (sp_end b1).1
        subst this
        have l1 := b1.length_le
        cases h3 with
        | @seqOk _ _ _ c0 _ _ _ h3 h4 =>
          cases h3
          have hd := stop_debt b1 (.inl rfl)
          have ht := mul_tails (show 79 ≤ 160 by omega) (tails_stop b1 (.inl rfl))
          have ht1 := tails_stop b1 (.inl rfl)
          cases h4 with
          | @seqOk _ _ _ c _ _ kf h4 h5 =>
            have e4 : spc c0 = _ := stepsOf_eq h4
            obtain ⟨ev4, b4⟩ := h4.big_some
            have c4 := spc_le b4
            have l4 := b4.length_le
            simp only [List.length_cons] at l1 ht ht1
            have hrc := rsv_eq c
            have hvc := spc_valx c
            have hws := wl_eq s
            have hwc := wl_eq c
            obtain ⟨l5, c5⟩ := (arg_lin (hE c (by omega) (sp_settled b4))).ok _ _ h5
            obtain ⟨q, hq, lq, cq⟩ := ih rfl (fun s' hs' => hE s' (by omega)) (k0 + (spc s + (1 + (spc c0 + kf + 1) + 1) + 1) + 1) B (by
              rcases c5 with c5 | ⟨c5, c6⟩
              · exact .inl (by omega)
              · exact .inr ⟨c5, by omega⟩)
            refine ⟨q, hq, by omega, ?_⟩
            rw [e1, e4] at cq
            have e : ∀ a b : Nat, a = b → Turned a B q → Turned b B q := by rintro a _ rfl h; exact h
            exact e _ _ (by omega) cq
    · obtain ⟨ev, b1⟩ := h1.big_some
      exact absurd hb.no_item h1.no
  | _ => rintro ⟨⟩

/-- Arguments and the closing parenthesis. -/
abbrev argsT : PExp := .seq (gItems .Argument) (seqs [.call .sp, .chr ')', .act 11])

theorem close_run {q x k} (h : Run G (seqs [.call .sp, .chr ')', .act 11]) q x k) :
    ∃ q1, Ok (.call .sp) q [] q1 ∧ k ≤ spc q + 5 ∧ ∀ r, x = some r → q1 = ')' :: r := by
  cases h with
  | seqFail h => cases h with | call h => cases h
  | @seqOk _ _ _ q1 _ _ _ h1 h2 =>
    have e1 : spc q = _ := stepsOf_eq h1
    obtain ⟨ev, b1⟩ := h1.big_some
    have := (sp_end b1).1
    subst this
    refine ⟨q1, b1, ?_, ?_⟩
    · cases h2 with
      | seqFail h2 => cases h2 <;> omega
      | seqOk h2 h3 => cases h2; cases h3; omega
    · rintro r rfl
      cases h2 with
      | seqOk h2 h3 => cases h2; cases h3; rfl

theorem args_close {t1} (hs : Settled t1) (hE : ∀ s', s'.length ≤ t1.length → Settled s' → ELin s') {x k} (h : Run G argsT t1 x k) :
    (x = none → k + spc t1 ≤ wl t1 + 4000000) ∧
    (∀ r, x = some r → r.length < t1.length ∧ k + spc t1 + wl r ≤ wl t1 + 4000000) := by
  have hw := wl_eq t1
  have hr1 := rsv_eq t1
  have hv1 := spc_valx t1
  have hv2 := valx_lin t1
  cases h with
  | seqFail h => cases h
  | @seqOk _ _ _ q2 _ kI _ h1 h2 =>
    obtain ⟨q3, b3, k3, hx⟩ := close_run h2
    cases h1 with
    | optNone h =>
      cases h with
      | seqOk _ h =>
        cases h with
        | seqFail h => cases h
        | seqOk _ h =>
          cases h with
          | seqFail h => cases h with | call h => cases h
          | seqOk _ h => cases h
      | seqFail h =>
        have hA := (arg_lin (hE t1 (Nat.le_refl _) hs)).fail _ h
        have hu := lenU_eq t1
        constructor
        · rintro rfl
          rcases hA with c | ⟨_, c⟩ | ⟨_, c⟩ <;> omega
        · rintro r rfl
          have := hx r rfl
          subst this
          cases b3.det hs.sp
          have hd : spc (')' :: r) ≤ 95 := spc_settled hs (not_dash_cons (by decide) (by decide))
          have hwr := wl_eq r
          simp only [List.length_cons] at hw
          refine ⟨by simp, ?_⟩
          rcases hA with c | ⟨⟨c', t', e, he⟩, _⟩ | ⟨c, _⟩
          · omega
          · cases e; exact absurd he (by decide)
          · exact absurd rfl (c r)
    | optSome h =>
      cases h with
      | @seqOk _ _ _ r0 _ kA _ h1 h4 =>
        obtain ⟨l1, c1⟩ := (arg_lin (hE t1 (Nat.le_refl _) hs)).ok _ _ h1
        cases h4 with
        | @seqOk _ _ _ q _ kS _ h4 h5 =>
          obtain ⟨q', hq, lq, ct⟩ := arg_turns h4 rfl (fun s' hs' => hE s' (by omega)) (kA + rsv t1) (wl t1) c1
          cases hq
          cases h5 with
          | @seqOk _ _ _ q1 _ _ _ h5 h6 =>
            have e5 : spc q = _ := stepsOf_eq h5
            obtain ⟨ev5, b5⟩ := h5.big_some
            have := (sp_end b5).1
            subst this
            have l5 := b5.length_le
            have hts := tails_sp q
            have htl := tails_lin q
            have hdl := debt_lin q
            have hwq := wl_eq q
            have hag := spc_again b5
            rcases ct with ⟨q1', bq, hnc, ct⟩ | ⟨c0, c, kf, bq, bc, hf, ct⟩ | ⟨hb, ct⟩
            · cases b5.det bq
              cases h6 with
              | optSome h6 => cases h6; exact absurd rfl (hnc _)
              | optNone h6 =>
                have hk6 : ∀ {z k}, Run G (.chr ',') z none k → k ≤ 1 := by intro z k h; cases h <;> omega
                have := hk6 h6
                cases b3.det (sp_again b5)
                constructor
                · rintro rfl; omega
                · rintro r rfl
                  have := hx r rfl
                  subst this
                  have h7 := tails_stop b5 (.inr (.inl rfl))
                  have h8 := stop_debt b5 (.inr (.inl rfl))
                  have hwr := wl_eq r
                  simp only [List.length_cons] at h7 l5
                  exact ⟨by omega, by omega⟩
            · cases b5.det bq
              have hA := (arg_lin (hE c (by have := bc.length_le; simp only [List.length_cons] at l5; omega) (sp_settled bc))).fail _ hf
              have lc := bc.length_le
              have cc := spc_le bc
              have hwc := wl_eq c
              have huc := lenU_eq c
              have hrc := rsv_eq c
              have hvc := spc_valx c
              have hvl := valx_lin c
              have h7 := tails_stop b5 (.inl rfl)
              simp only [List.length_cons] at h7 l5
              cases h6 with
              | optNone h6 => cases h6; contradiction
              | optSome h6 =>
                cases h6
                cases b3.det bc
                constructor
                · rintro rfl
                  rcases hA with a | ⟨_, a⟩ | ⟨_, a⟩ <;> omega
                · rintro r rfl
                  have := hx r rfl
                  subst this
                  have hd : spc (')' :: r) ≤ 95 := spc_settled (sp_settled bc) (not_dash_cons (by decide) (by decide))
                  have hwr := wl_eq r
                  simp only [List.length_cons] at lc cc
                  refine ⟨by omega, ?_⟩
                  rcases hA with a | ⟨⟨c', t', e, he⟩, _⟩ | ⟨a, _⟩
                  · omega
                  · cases e; exact absurd he (by decide)
                  · exact absurd rfl (a r)
            · obtain ⟨c, t, rfl, hc1, hc2⟩ := hb.head b5
              cases h6 with
              | optSome h6 => cases h6; exact absurd rfl hc2
              | optNone h6 =>
                have hk6 : ∀ {k}, Run G (.chr ',') (c :: t) none k → k ≤ 1 := by intro k h; cases h <;> omega
                have := hk6 h6
                cases b3.det (sp_again b5)
                constructor
                · rintro rfl; omega
                · rintro r rfl
                  have := hx r rfl
                  cases this; exact absurd rfl hc1

theorem args_lin {s} (hE : ∀ s', s'.length < s.length → Settled s' → ELin s') :
    (∀ k, Run G (.call .ArgumentList) s none k → k ≤ 3 ∨ (Paren s ∧ k + 30000000 ≤ wl s)) ∧
    (∀ r k, Run G (.call .ArgumentList) s (some r) k → r.length < s.length ∧ k + wl r + 30000000 ≤ wl s) := by
  have hw := wl_eq s
  have key : ∀ {x k}, Run G (.call .ArgumentList) s x k → (x = none ∧ k ≤ 3) ∨ (Paren s ∧ ∃ t1, t1.length < s.length ∧
      (x = none → k ≤ wl t1 + 91 * (s.length - t1.length) + 4000020) ∧
      (∀ r, x = some r → r.length < t1.length ∧ k + wl r ≤ wl t1 + 91 * (s.length - t1.length) + 4000020)) := by
    intro x k h
    cases h with
    | call h =>
      cases h with
      | seqFail h => left; cases h <;> exact ⟨rfl, by omega⟩
      | @seqOk _ _ _ t _ _ _ h1 h2 =>
        right
        cases h1
        refine ⟨⟨_, rfl⟩, ?_⟩
        simp only [List.length_cons] at hw hE
        cases h2 with
        | seqFail h2 => cases h2 with | call h2 => cases h2
        | @seqOk _ _ _ t1 _ _ _ h2 h3 =>
          have k2 := sp_le h2
          have l2 := h2.le
          obtain ⟨e2, b2⟩ := h2.big_some
          cases h3 with
          | seqFail h3 => cases h3
          | seqOk h3 h4 =>
            cases h3
            obtain ⟨a1, a2⟩ := args_close (sp_settled b2) (fun s' hs' => hE s' (by omega)) h4
            simp only [List.length_cons]
            refine ⟨t1, by omega, fun hx => ?_, fun r hx => ?_⟩
            · have := a1 hx; omega
            · obtain ⟨b1, b2⟩ := a2 r hx
              exact ⟨b1, by omega⟩
  constructor
  · intro k h
    rcases key h with ⟨_, h⟩ | ⟨hp, t1, l1, h1, _⟩
    · exact .inl h
    · have := h1 rfl
      have := wl_eq t1
      exact .inr ⟨hp, by omega⟩
  · intro r k h
    rcases key h with ⟨h, _⟩ | ⟨hp, t1, l1, _, h1⟩
    · cases h
    · obtain ⟨h2, h3⟩ := h1 r rfl
      have := wl_eq t1
      exact ⟨by omega, by omega⟩

/-! ## Primary expressions -/

/-- What is set aside before a parenthesis. -/
theorem rsv_paren {t x k} (h : Run G (.call .Value) ('(' :: t) x k) : rsv ('(' :: t) ≤ 2010000 + 3 * k := by
  have hset : Settled ('(' :: t) := Solid.no (Solid.cons (by decide))
  have hl : No (.call .Literal) ('(' :: t) := big_none_cons (by decide) (by decide) (by decide)
  obtain ⟨kl, hkl⟩ := no_run hl
  have h1 := litx_no hkl
  have h2 := literal_fail hkl (quote_not rfl (by decide) (by decide))
  have h3 := spc_settled hset (not_dash_cons (by decide) (by decide))
  have h4 := valx_eq h
  rw [rsv_eq]; omega

/-- A parenthesis with an expression that is not closed. -/
theorem parenT_fail {t t1 ev x k kV} (hsp : Ok (.call .sp) t ev t1) (hE : ELin t1) (h : Run G parenT ('(' :: t) none k)
    (hV : Run G (.call .Value) ('(' :: t) x kV) : k + 4 * kV + 30000000 ≤ wl ('(' :: t) := by
  have hw := wl_eq ('(' :: t)
  have hw1 := wl_eq t1
  have lt1 := hsp.length_le
  have hs1 := litx_spc t1
  have hll := litx_lin t1
  have hr1 := rsv_eq t1
  have hu := lenU_eq t1
  have hc := spc_le hsp
  simp only [List.length_cons] at hw
  have hpv := paren_value hsp hV
  cases h with
  | seqFail h => cases h; contradiction
  | seqOk h1 h2 =>
    cases h1
    cases h2 with
    | seqFail h2 => cases h2 with | call h2 => cases h2
    | seqOk h2 h3 =>
      have e2 : spc t = _ := stepsOf_eq h2
      cases h2.same hsp
      cases h3 with
      | seqFail h3 =>
        rcases hpv with hpv | ⟨r0, q, k0, hl, hsp0, hpv⟩
        · rcases hE.fail _ h3 with c | ⟨_, c⟩ | ⟨_, c⟩ <;> omega
        · exfalso
          obtain ⟨ev0, b0⟩ := hl.big_some
          cases (literal_expression b0 hsp0 (.inl rfl)).det h3.big_none
      | @seqOk _ _ _ r _ kE _ h3 h4 =>
        obtain ⟨l3, c3⟩ := hE.ok _ _ h3
        have ht := tails_sp r
        have htl := tails_lin r
        have hdl := debt_lin r
        have hwr := wl_eq r
        have h5 : ∀ {k}, Run G (seqs [.call .sp, .chr ')', .act 8]) r none k → k ≤ spc r + 5 := by
          intro k h
          cases h with
          | seqFail h => cases h with | call h => cases h
          | seqOk h1 h2 =>
            have e1 : spc r = _ := stepsOf_eq h1
            cases h2 with
            | seqFail h2 => cases h2 <;> omega
            | seqOk _ h2 => cases h2
        have k4 := h5 h4
        rcases c3 with c3 | ⟨c3, c4⟩
        · rcases hpv with hpv | ⟨r0, q, k0, hl, hsp0, hpv⟩
          · omega
          · obtain ⟨ev0, b0⟩ := hl.big_some
            cases h3.same (literal_expression b0 hsp0 (.inl rfl))
            omega
        · rcases hpv with hpv | ⟨r0, q, k0, hl, hsp0, hpv⟩
          · omega
          · obtain ⟨ev0, b0⟩ := hl.big_some
            cases h3.same (literal_expression b0 hsp0 (.inl rfl))
            obtain ⟨c, t', h1, _, h2⟩ := c3.head hsp0
            cases h1; exact absurd rfl h2

/-- A parenthesis that is closed. -/
theorem parenT_done {t t1 ev r k x kV} (hsp : Ok (.call .sp) t ev t1) (hE : ELin t1) (h : Run G parenT ('(' :: t) (some r) k)
    (hV : Run G (.call .Value) ('(' :: t) x kV) : r.length < ('(' :: t).length ∧ k + 3 * kV + wl r + 30000000 ≤ wl ('(' :: t) := by
  have hw := wl_eq ('(' :: t)
  have hw1 := wl_eq t1
  have lt1 := hsp.length_le
  have hs1 := litx_spc t1
  have hr1 := rsv_eq t1
  have hc := spc_le hsp
  simp only [List.length_cons] at hw
  have hpv := paren_value hsp hV
  cases h with
  | seqOk h1 h2 =>
    cases h1
    cases h2 with
    | seqOk h2 h3 =>
      have e2 : spc t = _ := stepsOf_eq h2
      cases h2.same hsp
      cases h3 with
      | @seqOk _ _ _ r0 _ kE _ h3 h4 =>
        obtain ⟨l3, c3⟩ := hE.ok _ _ h3
        have ht := tails_sp r0
        have hw0 := wl_eq r0
        have hwr := wl_eq r
        cases h4 with
        | seqOk h4 h5 =>
          have e4 : spc r0 = _ := stepsOf_eq h4
          obtain ⟨ev4, b4⟩ := h4.big_some
          have := (sp_end b4).1
          subst this
          cases h5 with
          | seqOk h5 h6 =>
            cases h5
            cases h6
            have l4 := b4.length_le
            rcases c3 with c3 | ⟨c3, _⟩
            · have h7 := tails_stop b4 (.inr (.inl rfl))
              have h8 := stop_debt b4 (.inr (.inl rfl))
              simp only [List.length_cons] at h7 l4 ⊢
              refine ⟨by omega, ?_⟩
              rcases hpv with hpv | ⟨r1, q, k0, hl, hsp0, hpv⟩
              · omega
              · exfalso
                obtain ⟨ev0, b0⟩ := hl.big_some
                cases h3.same (literal_expression b0 hsp0 (.inl rfl))
                cases hsp0.det b4
            · obtain ⟨c, t', h1, h2, _⟩ := c3.head b4
              cases h1; exact absurd rfl h2

/-- A parenthesis that turns out to be a list. -/
theorem parenT_list {t t1 ev r k kV} (hsp : Ok (.call .sp) t ev t1) (hE : ELin t1) (h : Run G parenT ('(' :: t) none k)
    (hV : Run G (.call .Value) ('(' :: t) (some r) kV) : k + 4 * kV + wl r + 20000000 ≤ wl ('(' :: t) := by
  have hw := wl_eq ('(' :: t)
  have hw1 := wl_eq t1
  have hwr := wl_eq r
  have lt1 := hsp.length_le
  have hs1 := litx_spc t1
  have hr1 := rsv_eq t1
  have hc := spc_le hsp
  simp only [List.length_cons] at hw
  cases h with
  | seqFail h => cases h; contradiction
  | seqOk h1 h2 =>
    cases h1
    cases h2 with
    | seqFail h2 => cases h2 with | call h2 => cases h2
    | seqOk h2 h3 =>
      have e2 : spc t = _ := stepsOf_eq h2
      cases h2.same hsp
      rcases paren_value_ok hsp hV with ⟨rfl, hpv⟩ | ⟨r0, k0, hl, l0, hpv⟩
      · have hd : spc (')' :: r) ≤ 95 := spc_settled (sp_settled hsp) (not_dash_cons (by decide) (by decide))
        have hno : No (.call .Expression) (')' :: r) := big_none_cons (by decide) (by decide) (by decide)
        simp only [List.length_cons] at lt1 hw1 hpv hc
        cases h3 with
        | seqOk h3 _ => exact absurd hno h3.no
        | seqFail h3 =>
          rcases hE.fail _ h3 with c | ⟨⟨c', t', e, he⟩, _⟩ | ⟨c, _⟩
          · omega
          · cases e; exact absurd he (by decide)
          · exact absurd rfl (c r)
      · have hitems : ∃ ev', Ok (.seq (gItems .Literal) (seqs [.call .sp, .chr ')', .act 24])) t1 ev' r := by
          obtain ⟨evV, bV⟩ := hV.big_some
          cases bV with
          | call bV =>
            cases bV with
            | alt1 bV =>
              have : No (.call .Literal) ('(' :: t) := big_none_cons (by decide) (by decide) (by decide)
              cases bV.det this
            | alt2 _ bV =>
              cases bV with
              | call bV =>
                cases bV with
                | alt1 h => cases h with | seqOk h _ => cases h
                | alt2 _ h =>
                  cases h with
                  | seqOk h h1 =>
                    cases h
                    cases h1 with
                    | seqOk h h1 =>
                      cases h
                      cases h1 with
                      | seqOk h h1 => cases h.det hsp; exact ⟨_, h1⟩
        obtain ⟨ev', hitems⟩ := hitems
        obtain ⟨evl, bl⟩ := hl.big_some
        rcases items_next hitems (sp_settled hsp).sp with ⟨t', rfl⟩ | ⟨e0, r0', c, t', hl', hsp0, hc', lr0⟩
        · have : No (.call .Literal) (')' :: t') := big_none_cons (by decide) (by decide) (by decide)
          cases bl.det this
        · cases bl.det hl'
          have hex := literal_expression bl hsp0 hc'
          have l5 := hsp0.length_le
          cases h3 with
          | seqFail h3 => cases hex.det h3.big_none
          | seqOk h3 h4 =>
            cases h3.same hex
            obtain ⟨l3, c3⟩ := hE.ok _ _ h3
            have hw0 := wl_eq r0
            have ht := tails_sp r0
            rcases c3 with c3 | ⟨c3, _⟩
            · have h7 := tails_stop hsp0 (by rcases hc' with rfl | rfl <;> simp)
              have h8 := stop_debt hsp0 (by rcases hc' with rfl | rfl <;> simp)
              have h5 : ∀ {k}, Run G (seqs [.call .sp, .chr ')', .act 8]) r0 none k → k ≤ spc r0 + 5 := by
                intro k h
                cases h with
                | seqFail h => cases h with | call h => cases h
                | seqOk h1 h2 =>
                  have e1 : spc r0 = _ := stepsOf_eq h1
                  cases h2 with
                  | seqFail h2 => cases h2 <;> omega
                  | seqOk _ h2 => cases h2
              have k4 := h5 h4
              simp only [List.length_cons] at h7 lr0 l5
              omega
            · obtain ⟨c', t'', h1, h2, h3⟩ := c3.head hsp0
              cases h1
              rcases hc' with hc' | hc'
              · exact absurd hc' h3
              · exact absurd hc' h2

theorem reference_past {s ev r ev' s3} (h : Ok (.call .Reference) s ev r) (hi : Ok (.call .Identifier) s ev' s3) : r.length ≤ s3.length := by
  cases h with
  | call h =>
    cases h with
    | alt1 h =>
      cases h with
      | call h =>
        cases h with
        | seqOk h0 h =>
          cases h0
          cases h with
          | seqOk h1 h2 => cases h1.det hi; exact h2.length_le
    | alt2 _ h =>
      cases h with
      | alt1 h =>
        cases h with
        | call h =>
          cases h with
          | seqOk h1 h2 => cases h1.det hi; exact h2.length_le
      | alt2 _ h => cases h.det hi; exact Nat.le_refl _

/-- A value that does not begin with a parenthesis. -/
theorem value_rsv {s r k} (hs : Settled s) (h : Run G (.call .Value) s (some r) k) :
    rsv s ≤ 2000000 + 12000 * (s.length - r.length + 1) + 40 * tails r := by
  have hd : ¬ Dash s := not_dash_of h (by decide)
  have h1 := spc_settled hs hd
  have h2 := valx_eq h
  obtain ⟨l, h3⟩ := value_ok h
  have h4 := tails_sp r
  have hr := rsv_eq s
  cases h with
  | call h =>
    cases h with
    | alt1 h =>
      have h5 := litx_ok h
      have h6 := literal_ok h
      omega
    | alt2 h0 h =>
      have h5 := litx_no h0
      have hq : ¬ Quote s := by
        obtain ⟨ev, hb⟩ := h.big_some
        obtain ⟨c, t, e, hc⟩ := first_head hb (by decide)
        exact quote_not e (by rintro rfl; revert hc; decide) (by rintro rfl; revert hc; decide)
      have h6 := literal_fail h0 hq
      omega

theorem prim_lin {s} (hs : Settled s) (hE : ∀ s', s'.length < s.length → Settled s' → ELin s') : PLin s := by
  refine LClaim.call (r := .PrimaryExpression) ?_
  by_cases hp : Paren s
  · -- a parenthesis or a list
    obtain ⟨t, rfl⟩ := hp
    obtain ⟨t1, hsp⟩ := sp_total t
    have hE1 : ELin t1 := hE t1 (by have := hsp.length_le; simp only [List.length_cons]; omega) (sp_settled hsp)
    refine ⟨fun k h => ?_, fun r k h => ?_⟩
    · cases h with
      | alt2 h1 h =>
        cases h with
        | alt2 h2 h =>
          have hr := rsv_paren h2
          have hk := parenT_fail hsp hE1 h1 h2
          cases h with
          | alt2 h3 h4 =>
            have k4 := (reference_fail h4).1
            cases h3 with
            | seqOk h3 _ => exact absurd (reference_fail h4).2 h3.no
            | seqFail h3 =>
              have k3 := identifier_fail h3
              exact .inr (.inr ⟨⟨t, rfl⟩, by omega⟩)
    · cases h with
      | alt1 h1 =>
        obtain ⟨x, kV, hV⟩ := value_total ('(' :: t)
        have hr := rsv_paren hV
        obtain ⟨l, hk⟩ := parenT_done hsp hE1 h1 hV
        exact ⟨l, .inl (by omega)⟩
      | alt2 h1 h =>
        cases h with
        | alt1 h2 =>
          have hr := rsv_paren h2
          have hk := parenT_list hsp hE1 h1 h2
          exact ⟨h2.lt (by decide), .inl (by omega)⟩
        | alt2 h2 h =>
          exfalso
          cases h with
          | alt1 h3 =>
            cases h3 with
            | seqOk h3 _ => exact h3.no (big_none_cons (by decide) (by decide) (by decide))
          | alt2 _ h4 => exact h4.no (big_none_cons (by decide) (by decide) (by decide))
  · -- anything else
    have hpk : ∀ {x k}, Run G parenT s x k → x = none ∧ k ≤ 3 := by
      intro x k h
      cases h with
      | seqFail h => exact ⟨rfl, by cases h <;> omega⟩
      | seqOk h _ => cases h; exact absurd ⟨_, rfl⟩ hp
    have hid : ∀ {r k}, Run G (.call .Identifier) s (some r) k → ¬ Dead s := by
      rintro r k h ⟨c, t, rfl, hc⟩
      refine h.no ?_
      rcases hc with rfl | rfl | rfl | rfl | rfl <;> exact big_none_cons (by decide) (by decide) (by decide)
    have hvf : ∀ {k}, Run G (.call .Value) s none k → ¬ Dead s → k ≤ 120 ∧ rsv s ≤ 2010000 := by
      intro k h hd
      have hl : No (.call .Literal) s := by
        cases h with
        | call h => cases h with | alt2 h _ => exact h.big_none
      refine ⟨value_fail h (fun ⟨c, t, e, h⟩ => hd ⟨c, t, e, by rcases h with h | h <;> simp [h]⟩)
        (fun t e => hd ⟨_, t, e, by simp⟩) (fun t e => hp ⟨t, e⟩), rsv_plain hs hd hp hl⟩
    refine ⟨fun k h => ?_, fun r k h => ?_⟩
    · cases h with
      | alt2 h1 h =>
        have k1 := (hpk h1).2
        cases h with
        | alt2 h2 h =>
          cases h with
          | alt2 h3 h4 =>
            have k4 := (reference_fail h4).1
            cases h3 with
            | seqOk h3 _ => exact absurd (reference_fail h4).2 h3.no
            | seqFail h3 =>
              have k3 := identifier_fail h3
              by_cases hd : Dead s
              · have k2 := value_lin h2
                have hu := lenU_eq s
                exact .inr (.inl ⟨hd, by omega⟩)
              · have k2 := (hvf h2 hd).1
                exact .inl (by omega)
    · have hw := wl_eq s
      have hwr := wl_eq r
      cases h with
      | alt1 h1 => cases (hpk h1).1
      | alt2 h1 h =>
        have k1 := (hpk h1).2
        cases h with
        | alt1 h2 =>
          obtain ⟨l2, k2⟩ := value_ok h2
          have hr := value_rsv hs h2
          exact ⟨l2, .inl (by omega)⟩
        | alt2 h2 h =>
          cases h with
          | alt1 h3 =>
            cases h3 with
            | @seqOk _ _ _ s3 _ _ _ h3 h4 =>
              obtain ⟨k2, hr⟩ := hvf h2 (hid h3)
              have k3 := identifier_tig.1 _ _ _ h3
              have l3 := h3.lt (by decide)
              have hw3 := wl_eq s3
              cases h4 with
              | seqOk h4 h5 =>
                cases h5
                obtain ⟨l4, c4⟩ := (args_lin (fun s' h => hE s' (by omega))).2 _ _ h4
                exact ⟨by omega, .inl (by omega)⟩
          | alt2 h3 h4 =>
            have k4 := reference_ok h4
            have l4 := h4.lt (by decide)
            obtain ⟨ev4, b4⟩ := h4.big_some
            have hnd : ¬ Dead s := by
              rintro ⟨c, t, rfl, hc⟩
              refine h4.no ?_
              rcases hc with rfl | rfl | rfl | rfl | rfl <;> exact big_none_cons (by decide) (by decide) (by decide)
            obtain ⟨k2, hr⟩ := hvf h2 hnd
            refine ⟨l4, ?_⟩
            cases h3 with
            | seqFail h3 =>
              have k3 := identifier_fail h3
              exact .inl (by omega)
            | @seqOk _ _ _ s3 _ _ _ h3 h5 =>
              have k3 := identifier_tig.1 _ _ _ h3
              have l3 := h3.lt (by decide)
              have hw3 := wl_eq s3
              obtain ⟨ev3, b3⟩ := h3.big_some
              cases h5 with
              | seqOk _ h5 => cases h5
              | seqFail h5 =>
                rcases (args_lin (fun s' h => hE s' (by omega))).1 _ h5 with c5 | ⟨⟨t, rfl⟩, c6⟩
                · have := reference_past b4 b3
                  exact .inl (by omega)
                · cases h4.same (reference_paren b3)
                  have hst : Settled ('(' :: t) := Solid.no (Solid.cons (by decide))
                  have ht := tails_stop hst.sp (.inr (.inr rfl))
                  exact .inr ⟨⟨t, rfl⟩, by omega⟩

theorem exp_lin : ∀ n s, s.length ≤ n → Settled s → ELin s := by
  intro n
  induction n with
  | zero =>
    intro s h1 hs
    exact expr_lin hs (fun s' h2 hs' => prim_lin hs' (fun s'' h3 _ => by omega))
  | succ n ih =>
    intro s h1 hs
    exact expr_lin hs (fun s' h2 hs' => prim_lin hs' (fun s'' h3 hs'' => ih s'' (by omega) hs''))

/-- The recogniser takes at most linearly many steps. -/
theorem grammar_linear {s x k} (h : Run G (.call .Grammar) s x k) : k ≤ 50000000 * (s.length + 1) := by
  cases h with
  | call h =>
    cases h with
    | seqFail h => cases h with | call h => cases h
    | @seqOk _ _ _ s1 _ _ _ h1 h2 =>
      have k1 := (spTight.2 _ _ _ h1).1
      have l1 := h1.le
      obtain ⟨ev1, b1⟩ := h1.big_some
      have hc := exp_lin _ _ (Nat.le_refl _) (sp_settled b1)
      have hw := wl_eq s1
      have hu := lenU_eq s1
      cases h2 with
      | seqFail h2 => rcases hc.fail _ h2 with c | ⟨_, c⟩ | ⟨_, c⟩ <;> omega
      | @seqOk _ _ _ r _ _ _ h2 h3 =>
        obtain ⟨l2, c2⟩ := hc.ok _ _ h2
        have k3 := simple_holds (e := seqs [.call .sp, .call .EndOfFile]) (c := .lin 96) (by decide) _ _ _ h3
        have k3 : _ ≤ 96 * (r.length + 1) := k3
        have ht := tails_lin r
        have hd := debt_lin r
        have hwr := wl_eq r
        rcases c2 with c | ⟨_, c⟩ <;> omega

end Verif
