import Verif.StepsTails

/-! # The recogniser takes linearly many steps

Every expression pays for itself with an allowance per consumed character.  An operand also pays in advance for what may be
read again at its beginning (`rsv`), and may leave a bill for what is looked at behind its end (`tails`, `debt`). -/

namespace Verif

open PExp

/-- The allowance of a text. -/
def wl (s : Str) : Nat := 40000000 * s.length

theorem wl_eq (s : Str) : wl s = 40000000 * s.length := rfl

/-- One unit per character. -/
def lenU (s : Str) : Nat := 20000 * (s.length + 1)

theorem lenU_eq (s : Str) : lenU s = 20000 * (s.length + 1) := rfl

/-- What is set aside at the beginning of an expression: the beginning may be read again as a literal or as a value. -/
noncomputable def rsv (s : Str) : Nat := 2000000 + 40 * litx s + 3 * valx s

theorem rsv_eq (s : Str) : rsv s = 2000000 + 40 * litx s + 3 * valx s := rfl

theorem spc_valx (s : Str) : spc s ≤ valx s := by unfold valx; omega

attribute [local irreducible] wl lenU rsv tails debt litx valx stepsOf

/-- The text begins a comment, a string or a list, which may lack its end. -/
def Dead (s : Str) : Prop := ∃ c t, s = c :: t ∧ (c = '-' ∨ c = '/' ∨ c = '"' ∨ c = '\'' ∨ c = '[')

/-- Bounds for an expression at an input. -/
structure LClaim (j m : Nat) (Bad Exp : Str → Prop) (e : PExp) (s : Str) : Prop where
  fail : ∀ k, Run G e s none k → k ≤ j * 20000 ∨ (Dead s ∧ k ≤ j * lenU s) ∨ (Exp s ∧ k + rsv s ≤ wl s + j * 20000)
  ok : ∀ r k, Run G e s (some r) k → r.length < s.length ∧
    (k + rsv s + wl r ≤ wl s + j * tails r + debt r ∨ (Bad r ∧ k + rsv s + m * tails r ≤ wl s))

theorem lenU_pos (s : Str) : 20000 ≤ lenU s := by rw [lenU_eq]; omega

theorem LClaim.call {j m Bad Exp r s} (h : LClaim j (m + 1) Bad Exp (G r) s) : LClaim (j + 1) m Bad Exp (.call r) s := by
  refine ⟨fun k hr => ?_, fun r k hr => ?_⟩
  · cases hr with
    | call hr =>
      have hu := lenU_pos s
      rw [Nat.add_mul, Nat.add_mul]
      rcases h.fail _ hr with h | ⟨h, h'⟩ | ⟨h, h'⟩
      · exact .inl (by omega)
      · exact .inr (.inl ⟨h, by omega⟩)
      · exact .inr (.inr ⟨h, by omega⟩)
  · cases hr with
    | call hr =>
      have hp := tails_pos r
      rw [Nat.add_mul]
      obtain ⟨h1, h2 | ⟨h2, h3⟩⟩ := h.ok _ _ hr
      · exact ⟨h1, .inl (by omega)⟩
      · rw [Nat.add_mul] at h3
        exact ⟨h1, .inr ⟨h2, by omega⟩⟩

theorem LClaim.mono {j j' m Bad Exp Exp' e s} (h : LClaim j m Bad Exp e s) (hj : j ≤ j') (he : Exp s → Exp' s) : LClaim j' m Bad Exp' e s := by
  have h1 := Nat.mul_le_mul_right 20000 hj
  have h2 := Nat.mul_le_mul_right (lenU s) hj
  refine ⟨fun k hr => ?_, fun r k hr => ?_⟩
  · rcases h.fail _ hr with h | ⟨h, h'⟩ | ⟨h, h'⟩
    · exact .inl (Nat.le_trans h h1)
    · exact .inr (.inl ⟨h, Nat.le_trans h' h2⟩)
    · exact .inr (.inr ⟨he h, Nat.le_trans h' (Nat.add_le_add_left h1 _)⟩)
  · have h3 := Nat.mul_le_mul_right (tails r) hj
    obtain ⟨h1, h2 | ⟨h2, h3⟩⟩ := h.ok _ _ hr
    · exact ⟨h1, .inl (by omega)⟩
    · exact ⟨h1, .inr ⟨h2, by omega⟩⟩

theorem wl_sub {r t : Str} (h : t.length < r.length) (d : Nat) (hd : d = r.length - t.length) : wl r = wl t + 40000000 * d := by
  rw [wl_eq, wl_eq]; omega

theorem mul_tails {j d : Nat} {r : Str} (hj : j ≤ 160) (h : tails r ≤ 20000 * (d + 1)) : j * tails r ≤ 3200000 * (d + 1) := by
  have := Nat.mul_le_mul hj h
  rw [← Nat.mul_assoc] at this
  exact this

/-- An optional tail. -/
theorem LClaim.tail {j m Bad Exp a b s} (hj : j ≤ 150) (h : LClaim j (m + 3) Bad Exp a s) (hb : b = btwT ∨ b = prdT ∨ b = cinT)
    (hfail : ∀ r k, Run G b r none k → k ≤ tails r)
    (hok : ∀ r t k, Run G b r (some t) k → k ≤ 20000 * (r.length - t.length + 1) + tails t + debt t ∧ t.length < r.length ∧ debt r = 0)
    (hbad : ∀ r, Bad r → No b r) : LClaim (j + 3) m Bad Exp (.seq a (.opt b)) s := by
  refine ⟨fun k hr => ?_, fun r k hr => ?_⟩
  · cases hr with
    | seqOk _ h2 => cases h2
    | seqFail h1 =>
      have hu := lenU_pos s
      rw [Nat.add_mul, Nat.add_mul]
      rcases h.fail _ h1 with h | ⟨h, h'⟩ | ⟨h, h'⟩
      · exact .inl (by omega)
      · exact .inr (.inl ⟨h, by omega⟩)
      · exact .inr (.inr ⟨h, by omega⟩)
  · rw [Nat.add_mul]
    have hp := tails_pos r
    cases hr with
    | seqOk h1 h2 =>
      obtain ⟨l1, c1⟩ := h.ok _ _ h1
      cases h2 with
      | optNone h2 =>
        have := hfail _ _ h2
        rcases c1 with c1 | ⟨c1, c2⟩
        · exact ⟨l1, .inl (by omega)⟩
        · rw [Nat.add_mul] at c2
          exact ⟨l1, .inr ⟨c1, by omega⟩⟩
      | @optSome _ r0 _ _ h2 =>
        obtain ⟨c2, l2, hd⟩ := hok _ _ _ h2
        refine ⟨by omega, ?_⟩
        rcases c1 with c1 | ⟨c1, _⟩
        · obtain ⟨ev, b2⟩ := h2.big_some
          have ht := mul_tails (show j ≤ 160 by omega) (tails_hit (by rcases hb with h | h | h <;> simp [h]) b2)
          have := wl_sub l2 _ rfl
          exact .inl (by omega)
        · exact absurd (hbad _ c1) h2.no

/-- The turns of a chain of operators. -/
theorem op_turns {j m n Bad Exp a op body} (hj : j ≤ 150) (hm : m ≤ 150) (hop : op = .call .Compare ∨ op = .call .Logic)
    (hbody : body = seqs [op, a, .act n])
    (hfail : ∀ r k, Run G op r none k → k ≤ tails r)
    (hok : ∀ r t k, Run G op r (some t) k → k ≤ 20000 * (r.length - t.length + 1) + spc t ∧ t.length < r.length ∧ Settled t ∧
      debt r ≤ valx t + 1000 * (r.length - t.length + 1))
    (hbad : ∀ r, Bad r → No op r) {e s x k} (h : Run G e s x k) : e = .star body →
    (∀ s', s'.length ≤ s.length → Settled s' → LClaim j (m + 5) Bad Exp a s') → ∀ k0 B,
    k0 + wl s ≤ B + j * tails s + debt s → ∃ q, x = some q ∧ q.length ≤ s.length ∧
      (k0 + k + wl q ≤ B + (j + 3) * tails q + debt q ∨ ((Bad q ∨ ∃ ev t, Ok op q ev t) ∧ k0 + k + (m + 2) * tails q ≤ B)) := by
  have hop' : op = btwT ∨ op = prdT ∨ op = cinT ∨ op = .call .Compare ∨ op = .call .Logic := .inr (.inr (.inr hop))
  induction h with
  | @starNil _ s k1 h1 =>
    rintro ⟨⟩ ha k0 B h0
    subst hbody
    refine ⟨_, rfl, Nat.le_refl _, ?_⟩
    have hp := tails_pos s
    rw [Nat.add_mul j, Nat.add_mul m]
    cases h1 with
    | seqFail h1 => have := hfail _ _ h1; exact .inl (by omega)
    | @seqOk _ _ _ t _ _ _ h1 h2 =>
      right
      obtain ⟨c1, l1, hs1, hd1⟩ := hok _ _ _ h1
      obtain ⟨ev, b1⟩ := h1.big_some
      refine ⟨.inr ⟨_, _, b1⟩, ?_⟩
      have hh := tails_hit hop' b1
      have ht := mul_tails (show j ≤ 160 by omega) hh
      have ht2 := mul_tails (show m ≤ 160 by omega) hh
      have hw := wl_sub l1 _ rfl
      have hv := valx_lin t
      have hsv := spc_valx t
      cases h2 with
      | seqOk _ h2 => cases h2
      | @seqFail _ _ _ kf h2 =>
        have hj' := Nat.mul_le_mul_right 20000 hj
        have hj2 := Nat.mul_le_mul_right (lenU t) hj
        have hlu := lenU_eq t
        have hlen := wl_eq t
        rcases (ha t (by omega) hs1).fail _ h2 with h | ⟨_, h⟩ | ⟨_, h⟩
        · omega
        · omega
        · rw [rsv_eq] at h; omega
  | @starCons _ s r1 r2 k1 k2 h1 h2 _ ih =>
    rintro he ha k0 B h0
    cases he
    subst hbody
    cases h1 with
    | @seqOk _ _ _ t _ kop _ h1 h3 =>
      obtain ⟨c1, l1, hs1, hd1⟩ := hok _ _ _ h1
      obtain ⟨ev, b1⟩ := h1.big_some
      have hh := tails_hit hop' b1
      have ht := mul_tails (show j ≤ 160 by omega) hh
      have hw := wl_sub l1 _ rfl
      have hsv := spc_valx t
      cases h3 with
      | @seqOk _ _ _ _ _ ka _ h3 h4 =>
        cases h4
        obtain ⟨l3, c3⟩ := (ha t (by omega) hs1).ok _ _ h3
        rw [rsv_eq] at c3
        rcases c3 with c3 | ⟨c3, c4⟩
        · obtain ⟨q, hq, lq, cq⟩ := ih rfl (fun s' hs' => ha s' (by omega)) (k0 + (kop + (ka + 1 + 1) + 1) + 1) B (by omega)
          refine ⟨q, hq, by omega, ?_⟩
          rcases cq with cq | ⟨cq, cq'⟩
          · exact .inl (by omega)
          · exact .inr ⟨cq, by omega⟩
        · have hno : No (seqs [op, a, .act n]) r1 := .seqFail1 (hbad _ c3)
          cases h2 with
          | starCons h2 _ => exact absurd hno h2.no
          | starNil h2 =>
            refine ⟨_, rfl, by omega, .inr ⟨.inl c3, ?_⟩⟩
            have hp := tails_pos r1
            rw [Nat.add_mul] at c4 ⊢
            cases h2 with
            | seqOk h2 _ => exact absurd (hbad _ c3) h2.no
            | seqFail h2 => have := hfail _ _ h2; omega
  | _ => rintro ⟨⟩

/-- A left associative chain. -/
theorem LClaim.loop {j m n Bad Exp a op s} (hj : j ≤ 150) (hm : m ≤ 150) (hop : op = .call .Compare ∨ op = .call .Logic)
    (hfail : ∀ r k, Run G op r none k → k ≤ tails r)
    (hok : ∀ r t k, Run G op r (some t) k → k ≤ 20000 * (r.length - t.length + 1) + spc t ∧ t.length < r.length ∧ Settled t ∧
      debt r ≤ valx t + 1000 * (r.length - t.length + 1))
    (hbad : ∀ r, Bad r → No op r) (hs : Settled s)
    (ha : ∀ s', s'.length ≤ s.length → Settled s' → LClaim j (m + 5) Bad Exp a s') :
    LClaim (j + 5) m (fun r => Bad r ∨ ∃ ev t, Ok op r ev t) Exp (.seq a (.star (seqs [op, a, .act n]))) s := by
  refine ⟨fun k hr => ?_, fun r k hr => ?_⟩
  · cases hr with
    | seqOk _ h2 => cases h2
    | seqFail h1 =>
      have hu := lenU_pos s
      rw [Nat.add_mul, Nat.add_mul]
      rcases (ha s (Nat.le_refl _) hs).fail _ h1 with h | ⟨h, h'⟩ | ⟨h, h'⟩
      · exact .inl (by omega)
      · exact .inr (.inl ⟨h, by omega⟩)
      · exact .inr (.inr ⟨h, by omega⟩)
  · have hp := tails_pos r
    cases hr with
    | @seqOk _ _ _ r0 _ k1 k2 h1 h2 =>
      obtain ⟨l1, c1⟩ := (ha s (Nat.le_refl _) hs).ok _ _ h1
      rcases c1 with c1 | ⟨c1, c2⟩
      · obtain ⟨q, hq, lq, cq⟩ := op_turns (n := n) hj hm hop rfl hfail hok hbad h2 rfl (fun s' hs' => ha s' (by omega))
          (k1 + rsv s) (wl s) c1
        cases hq
        refine ⟨by omega, ?_⟩
        rw [Nat.add_mul] at cq ⊢
        rcases cq with cq | ⟨cq, cq'⟩
        · exact .inl (by omega)
        · rw [Nat.add_mul] at cq'; exact .inr ⟨cq, by omega⟩
      · have hno : No (seqs [op, a, .act n]) r0 := .seqFail1 (hbad _ c1)
        cases h2 with
        | starCons h2 _ => exact absurd hno h2.no
        | starNil h2 =>
          refine ⟨l1, .inr ⟨.inl c1, ?_⟩⟩
          rw [Nat.add_mul] at c2
          cases h2 with
          | seqOk h2 _ => exact absurd (hbad _ c1) h2.no
          | seqFail h2 => have := hfail _ _ h2; omega

/-! ## Operators -/

theorem op_no_logic {e rest : PExp} {r ev t} (hn : nullable nulG e = false) (hd : (first nulG firstG e).disj logH = true)
    (h : Ok (.seq (.call .sp) (.seq (.txt e) rest)) r ev t) : No (.call .Logic) r := by
  obtain ⟨x, hx⟩ := big_total .Logic r
  cases x with
  | none => exact hx
  | some p =>
    obtain ⟨ev', t'⟩ := p
    obtain ⟨r1, hsp⟩ := sp_total r
    obtain ⟨c, t1, h1, h2⟩ := op_head hn h hsp
    obtain ⟨c', t2, h3, h4⟩ := logic_head hx hsp
    rw [h1] at h3
    cases h3
    rw [CSet.not_has hd h2] at h4
    cases h4

theorem prd_no_logic {r ev t} (h : Ok prdT r ev t) : No (.call .Logic) r := by
  cases h with
  | seqOk h _ =>
    cases h with
    | call h =>
      cases h with
      | seqOk h1 h2 =>
        exact op_no_logic (e := gMatchOp) (rest := seqs [.call .sp, .act 20]) (by decide) (by decide) (.seqOk (sp1_sp h1) h2)

theorem op_settled {e : PExp} {n : Nat} {r ev t} (h : Ok (seqs [.call .sp, .txt e, .call .sp, .act n]) r ev t) : Settled t := by
  cases h with
  | seqOk _ h =>
    cases h with
    | seqOk _ h =>
      cases h with
      | seqOk h1 h => cases h; exact sp_settled h1

theorem compare_settled {r ev t} (h : Ok (.call .Compare) r ev t) : Settled t := by
  cases h with
  | call h =>
    cases h with
    | alt1 h => exact op_settled h
    | alt2 _ h =>
      cases h with
      | alt1 h => exact op_settled h
      | alt2 _ h => exact op_settled h

theorem logic_settled {r ev t} (h : Ok (.call .Logic) r ev t) : Settled t := by
  cases h with
  | call h =>
    cases h with
    | alt1 h => exact op_settled h
    | alt2 _ h => exact op_settled h

/-- The bound for PrimaryExpression. -/
abbrev PLin (s : Str) : Prop := LClaim 46 104 Paren Paren (.call .PrimaryExpression) s

theorem cin_lin {s} (h1 : PLin s) : LClaim 58 92 Paren Paren (.call .CompareInExpression) s := by
  have h2 : LClaim 50 100 Paren Paren (.call .BetweenExpression) s :=
    LClaim.call (r := .BetweenExpression) (h1.tail (b := btwT) (by omega) (.inl rfl) (fun _ _ h => tails_btw h)
      (fun r t k h => by
        obtain ⟨ev, hb⟩ := h.big_some
        have hl := op_no_logic (e := gBetweenOp) (by decide) (by decide) hb
        exact ⟨btwT_ok h, h.lt (by decide), debt_no hl⟩)
      (fun r hr => hr.no (by decide) (by decide) (by decide)))
  have h3 : LClaim 54 96 Paren Paren (.call .PredicateExpression) s :=
    LClaim.call (r := .PredicateExpression) (h2.tail (b := prdT) (by omega) (.inr (.inl rfl)) (fun _ _ h => tails_prd h)
      (fun r t k h => by
        obtain ⟨ev, hb⟩ := h.big_some
        have := prdT_ok h
        exact ⟨by omega, h.lt (by decide), debt_no (prd_no_logic hb)⟩)
      (fun r hr => hr.no (by decide) (by decide) (by decide)))
  exact LClaim.call (r := .CompareInExpression) (h3.tail (b := cinT) (by omega) (.inr (.inr rfl)) (fun _ _ h => tails_cin h)
      (fun r t k h => by
        obtain ⟨ev, hb⟩ := h.big_some
        have hl := op_no_logic (e := gInOp) (by decide) (by decide) hb
        have := cinT_ok h
        exact ⟨by omega, h.lt (by decide), debt_no hl⟩)
      (fun r hr => hr.no (by decide) (by decide) (by decide)))

theorem cmp_lin {s} (hs : Settled s) (h : ∀ s', s'.length ≤ s.length → Settled s' → PLin s') :
    LClaim 64 86 BadC Paren (.call .CompareExpression) s :=
  LClaim.call (r := .CompareExpression) (LClaim.loop (by omega) (by omega) (.inl rfl) (fun _ _ h => tails_cmp h)
    (fun r t k h => by
      obtain ⟨ev, hb⟩ := h.big_some
      have := debt_no (BadC.no_logic (.inr ⟨_, _, hb⟩))
      exact ⟨compare_cost h, h.lt (by decide), compare_settled hb, by omega⟩)
    (fun r hr => hr.no (by decide) (by decide) (by decide)) hs
    (fun s' h1 h2 => cin_lin (h s' h1 h2)))

theorem not_literal {s ev r} (h : Ok (ciLit c!"not") s ev r) : No (.call .Literal) s := by
  obtain ⟨x, y, t, rfl, hx, hy⟩ := ci_second h
  obtain ⟨z, hz⟩ := big_total .Literal (x :: y :: t)
  cases z with
  | none => exact hz
  | some p =>
    exfalso
    have hn : ∃ e q, Ok (.call .Null) (x :: y :: t) e q := by
      cases hz with
      | call hz =>
        cases hz with
        | swIn _ hz => exact ⟨_, _, hz⟩
        | swOut hm _ => exfalso; revert hm; rcases hx with rfl | rfl <;> decide
    obtain ⟨e, q, hn⟩ := hn
    cases hn with
    | call hn =>
      cases hn with
      | seqOk hn _ =>
        cases hn with
        | txtOk hn =>
          cases hn with
          | alt1 hn =>
            cases hn with
            | seqOk h1 h2 => cases h1; cases h2 with | seqOk h1 h2 => cases h1; revert hy; decide
          | alt2 _ hn =>
            cases hn with
            | seqOk h1 h2 => cases h1; cases h2 with | seqOk h1 h2 => cases h1; revert hy; decide

theorem quote_not {s : Str} {c : Char} {t : Str} (h : s = c :: t) (h1 : c ≠ '"') (h2 : c ≠ '\'') : ¬ Quote s := by
  rintro ⟨c', t', e, h'⟩
  rw [h] at e; cases e
  rcases h' with h' | h'
  · exact h1 h'
  · exact h2 h'

/-- What is set aside where no literal and no list begins. -/
theorem rsv_plain {s : Str} (hs : Settled s) (hd : ¬ Dead s) (hp : ¬ Paren s) (hl : No (.call .Literal) s) : rsv s ≤ 2010000 := by
  have hq : ¬ Quote s := by rintro ⟨c, t, e, h⟩; exact hd ⟨c, t, e, by rcases h with h | h <;> simp [h]⟩
  have hda : ¬ Dash s := by rintro ⟨c, t, e, h⟩; exact hd ⟨c, t, e, by rcases h with h | h <;> simp [h]⟩
  have h1 : ∀ t, s ≠ '[' :: t := fun t e => hd ⟨_, t, e, by simp⟩
  have h2 : ∀ t, s ≠ '(' :: t := fun t e => hp ⟨t, e⟩
  obtain ⟨k, hk⟩ := no_run hl
  have e1 := litx_no hk
  have c1 := literal_fail hk hq
  have c2 := spc_settled hs hda
  obtain ⟨x, k', hk'⟩ := value_total s
  have e2 := valx_eq hk'
  have c3 : k' ≤ 120 := by
    cases x with
    | none => exact value_fail hk' hq h1 h2
    | some r =>
      exfalso
      cases hk' with
      | call h =>
        cases h with
        | alt1 h => exact h.no hl
        | alt2 _ h =>
          obtain ⟨ev, hb⟩ := h.big_some
          cases hb with
          | call hb =>
            cases hb with
            | alt1 hb => cases hb with | seqOk hb _ => cases hb; exact h1 _ rfl
            | alt2 _ hb => cases hb with | seqOk hb _ => cases hb; exact h2 _ rfl
  rw [rsv_eq]; omega

theorem not_lin {s} (hs : Settled s) (h : ∀ s', s'.length ≤ s.length → Settled s' → PLin s') :
    LClaim 71 79 BadC NoClose (.call .NotExpression) s := by
  have h0 := cmp_lin hs h
  refine LClaim.call (r := .NotExpression) ⟨fun k hr => ?_, fun r k hr => ?_⟩
  · cases hr with
    | @alt2 _ _ _ _ k0 _ h1 h2 =>
      cases h2 with
      | seqFail h2 => cases h2 with | call h2 => cases h2
      | seqOk h2 h3 =>
        have e2 : spc s = _ := stepsOf_eq h2
        cases h2.same hs.sp
        have hu := lenU_eq s
        have hl := spc_lin s
        cases h3 with
        | seqFail h3 =>
          have k3 := not_con _ _ _ h3
          by_cases hd : Dash s
          · have hdd : Dead s := by obtain ⟨c, t, e, h⟩ := hd; exact ⟨c, t, e, by rcases h with h | h <;> simp [h]⟩
            rcases h0.fail _ h1 with c | ⟨c1, c⟩ | ⟨⟨t, rfl⟩, _⟩
            · exact .inr (.inl ⟨hdd, by omega⟩)
            · exact .inr (.inl ⟨hdd, by omega⟩)
            · exact absurd hd (not_dash_cons (by decide) (by decide))
          · have := spc_settled hs hd
            rcases h0.fail _ h1 with c | ⟨c1, c⟩ | ⟨⟨t, rfl⟩, c⟩
            · exact .inl (by omega)
            · exact .inr (.inl ⟨c1, by omega⟩)
            · exact .inr (.inr ⟨by rintro t' ⟨⟩, by omega⟩)
        | @seqOk _ _ _ s1 _ _ _ h3 h4 =>
          have k3 := not_con _ _ _ h3
          have l3 := h3.lt (by decide)
          obtain ⟨ev3, b3⟩ := h3.big_some
          have hnl := not_literal b3
          obtain ⟨c, t, hst, hc⟩ := first_head b3 (by decide)
          have hdead : ¬ Dead s := by
            rintro ⟨c', t', e, h'⟩; rw [hst] at e; cases e
            rcases h' with rfl | rfl | rfl | rfl | rfl <;> revert hc <;> decide
          have hpar : ¬ Paren s := by rintro ⟨t', e⟩; rw [hst] at e; cases e; revert hc; decide
          have hnc : NoClose s := by intro t' e; rw [hst] at e; cases e; revert hc; decide
          have hrs := rsv_plain hs hdead hpar hnl
          have hsp : spc s ≤ 95 := spc_settled hs (fun ⟨c, t, e, h⟩ => hdead ⟨c, t, e, by rcases h with h | h <;> simp [h]⟩)
          have c0 : k0 ≤ 64 * 20000 := by
            rcases h0.fail _ h1 with c | ⟨c, _⟩ | ⟨c, _⟩
            · exact c
            · exact absurd c hdead
            · exact absurd c hpar
          refine .inr (.inr ⟨hnc, ?_⟩)
          have hw := wl_eq s
          cases h4 with
          | seqFail h4 =>
            have k4 := (sp1_fail h4).1
            have := spc_lin s1
            omega
          | @seqOk _ _ _ t _ _ _ h4 h5 =>
            have k4 := sp1_le h4
            have l4 := h4.lt (by decide)
            obtain ⟨ev4, b4⟩ := h4.big_some
            have hst := sp1_settled b4
            have hsv := spc_valx t
            have hvl := valx_lin t
            have hwt := wl_eq t
            have hrt := rsv_eq t
            cases h5 with
            | seqOk _ h5 => cases h5
            | seqFail h5 =>
              have hul := lenU_eq t
              rcases (cmp_lin hst (fun s' h1 h2 => h s' (by omega) h2)).fail _ h5 with c | ⟨_, c⟩ | ⟨_, c⟩ <;> omega
  · have hp := tails_pos r
    cases hr with
    | alt1 h1 =>
      obtain ⟨l, c | ⟨c, c'⟩⟩ := h0.ok _ _ h1
      · exact ⟨l, .inl (by omega)⟩
      · exact ⟨l, .inr ⟨c, by omega⟩⟩
    | @alt2 _ _ _ _ k0 _ h1 h2 =>
      cases h2 with
      | seqOk h2 h3 =>
        have e2 : spc s = _ := stepsOf_eq h2
        cases h2.same hs.sp
        cases h3 with
        | @seqOk _ _ _ s1 _ _ _ h3 h4 =>
          have k3 := not_con _ _ _ h3
          have l3 := h3.lt (by decide)
          obtain ⟨ev3, b3⟩ := h3.big_some
          have hnl := not_literal b3
          obtain ⟨c, t, hst, hc⟩ := first_head b3 (by decide)
          have hdead : ¬ Dead s := by
            rintro ⟨c', t', e, h'⟩; rw [hst] at e; cases e
            rcases h' with rfl | rfl | rfl | rfl | rfl <;> revert hc <;> decide
          have hpar : ¬ Paren s := by rintro ⟨t', e⟩; rw [hst] at e; cases e; revert hc; decide
          have hrs := rsv_plain hs hdead hpar hnl
          have hsp : spc s ≤ 95 := spc_settled hs (fun ⟨c, t, e, h⟩ => hdead ⟨c, t, e, by rcases h with h | h <;> simp [h]⟩)
          have c0 : k0 ≤ 64 * 20000 := by
            rcases h0.fail _ h1 with c | ⟨c, _⟩ | ⟨c, _⟩
            · exact c
            · exact absurd c hdead
            · exact absurd c hpar
          have hw := wl_eq s
          cases h4 with
          | @seqOk _ _ _ t _ _ _ h4 h5 =>
            have k4 := sp1_le h4
            have l4 := h4.lt (by decide)
            obtain ⟨ev4, b4⟩ := h4.big_some
            have hst := sp1_settled b4
            have hsv := spc_valx t
            have hwt := wl_eq t
            have hrt := rsv_eq t
            cases h5 with
            | seqOk h5 h6 =>
              cases h6
              obtain ⟨l5, c | ⟨c, c'⟩⟩ := (cmp_lin hst (fun s' h1 h2 => h s' (by omega) h2)).ok _ _ h5
              · exact ⟨by omega, .inl (by omega)⟩
              · exact ⟨by omega, .inr ⟨c, by omega⟩⟩

end Verif
