import Verif.StepsHead
import Verif.StepsChain

/-! # Where the steps of the small rules go

Bounds for the rules that contain no expressions, in terms of the text that is consumed instead of the text that remains. -/

namespace Verif

open PExp

/-- The steps of `e` at `s`. -/
noncomputable def stepsOf (e : PExp) (s : Str) : Nat := open Classical in if h : ∃ k x, Run G e s x k then Classical.choose h else 0

theorem stepsOf_eq {e s x k} (h : Run G e s x k) : stepsOf e s = k := by
  have hx : ∃ k x, Run G e s x k := ⟨k, x, h⟩
  unfold stepsOf
  rw [dif_pos hx]
  obtain ⟨x', h'⟩ := Classical.choose_spec hx
  exact (h'.det h).2

/-- The steps of skipping blanks. -/
noncomputable abbrev spc (s : Str) : Nat := stepsOf (.call .sp) s

/-- A comment may begin here. -/
def Dash (s : Str) : Prop := ∃ c t, s = c :: t ∧ (c = '-' ∨ c = '/')

theorem not_dash {s : Str} (h : ¬ Dash s) : ∀ c t, s = c :: t → c ≠ '-' ∧ c ≠ '/' :=
  fun c t e => ⟨fun hc => h ⟨c, t, e, .inl hc⟩, fun hc => h ⟨c, t, e, .inr hc⟩⟩

theorem not_dash_cons {c : Char} {t : Str} (h1 : c ≠ '-') (h2 : c ≠ '/') : ¬ Dash (c :: t) := by
  rintro ⟨c', t', h, h'⟩; cases h; rcases h' with h' | h'
  · exact h1 h'
  · exact h2 h'

theorem not_dash_nil : ¬ Dash [] := by rintro ⟨c', t', h, _⟩; cases h

theorem ok_run {e s ev r} (h : Ok e s ev r) : ∃ k, Run G e s (some r) k := Big.run h
theorem no_run {e s} (h : No e s) : ∃ k, Run G e s none k := Big.run h

/-- Blanks have been skipped. -/
abbrev Settled (s : Str) : Prop := No (.call .SpaceComment) s

theorem Settled.sp {s} (h : Settled s) : Ok (.call .sp) s [] s := sp_nil h

theorem sp_settled {s ev r} (h : Ok (.call .sp) s ev r) : Settled r := (sp_end h).2.2

theorem spc_lin (s : Str) : spc s ≤ 95 * (s.length + 1) := by
  obtain ⟨r, h⟩ := sp_total s
  obtain ⟨k, hk⟩ := ok_run h
  rw [spc, stepsOf_eq hk]
  exact (spTight.2 _ _ _ hk).1

theorem spc_pos (s : Str) : 1 ≤ spc s := by
  obtain ⟨r, h⟩ := sp_total s
  obtain ⟨k, hk⟩ := ok_run h
  rw [spc, stepsOf_eq hk]
  cases hk; omega

theorem spc_settled {s} (h : Settled s) (hd : ¬ Dash s) : spc s ≤ 95 := by
  obtain ⟨k, hk⟩ := ok_run h.sp
  rw [spc, stepsOf_eq hk]
  have := spTight.1 _ _ _ hk (not_dash hd)
  omega

theorem sp_star_le {e s z k} (h : Run G e s z k) : e = .star (.call .SpaceComment) → ∀ r, z = some r →
    k + 1 ≤ 91 * (s.length - r.length) + spc r := by
  induction h with
  | @starNil _ s k1 h1 =>
    rintro ⟨⟩ r ⟨⟩
    have : Run G (.call .sp) s (some s) (k1 + 1 + 1) := .call (.starNil h1)
    rw [spc, stepsOf_eq this]; omega
  | @starCons _ s r1 r2 k1 k2 h1 h2 _ ih =>
    rintro he r hr
    have hk := ih he r hr
    cases he
    cases hr
    have e1 := spaceComment_tig.1 _ _ _ h1
    have l1 := h1.lt (by decide)
    have l2 := h2.le
    omega
  | _ => rintro ⟨⟩

/-- Skipping blanks costs a constant per character, and what it costs to see that they end. -/
theorem sp_le {s r k} (h : Run G (.call .sp) s (some r) k) : k ≤ 91 * (s.length - r.length) + spc r := by
  cases h with
  | call h => exact sp_star_le h rfl r rfl

theorem spc_le {s ev r} (h : Ok (.call .sp) s ev r) : spc s ≤ 91 * (s.length - r.length) + spc r := by
  obtain ⟨k, hk⟩ := ok_run h
  rw [spc, stepsOf_eq hk]
  exact sp_le hk

theorem sp1_le {s r k} (h : Run G (.call .sp1) s (some r) k) : k ≤ 91 * (s.length - r.length) + spc r + 2 := by
  cases h with
  | call h =>
    cases h with
    | seqOk h1 h2 =>
      have e1 := spaceComment_tig.1 _ _ _ h1
      have l1 := h1.lt (by decide)
      have l2 := h2.le
      have := sp_star_le h2 rfl r rfl
      omega

theorem sp1_sp {s ev r} (h : Ok (.call .sp1) s ev r) : Ok (.call .sp) s ev r := by
  cases h with
  | call h => cases h with | seqOk h1 h2 => exact .call (.starCons h1 h2)

theorem sp1_settled {s ev r} (h : Ok (.call .sp1) s ev r) : Settled r := sp_settled (sp1_sp h)

/-- A text that starts with a character that cannot begin a comment. -/
theorem not_dash_of {e : PExp} {s r k} (h : Run G e s (some r) k) (hd : noDash e = true) : ¬ Dash s := by
  simp only [noDash, Bool.and_eq_true, Bool.not_eq_true'] at hd
  obtain ⟨ev, hb⟩ := h.big_some
  obtain ⟨c, t, rfl, hc⟩ := first_head hb hd.1.1
  refine not_dash_cons ?_ ?_
  · rintro rfl; rw [hd.1.2] at hc; cases hc
  · rintro rfl; rw [hd.2] at hc; cases hc

/-- Blanks before something that consumes a character and cannot begin like a comment. -/
theorem sp_before {e : PExp} {s r r' k k'} (h : Run G (.call .sp) s (some r) k) (he : Run G e r (some r') k') (hd : noDash e = true) :
    k ≤ 91 * (s.length - r.length) + 95 := by
  obtain ⟨ev, hb⟩ := h.big_some
  have := sp_le h
  have := spc_settled (sp_settled hb) (not_dash_of he hd)
  omega

theorem sp1_before {e : PExp} {s r r' k k'} (h : Run G (.call .sp1) s (some r) k) (he : Run G e r (some r') k') (hd : noDash e = true) :
    k ≤ 91 * (s.length - r.length) + 97 := by
  obtain ⟨ev, hb⟩ := h.big_some
  have := sp1_le h
  have := spc_settled (sp1_settled hb) (not_dash_of he hd)
  omega

theorem off_cons {e : PExp} {c : Char} {t : Str} (h : (first nulG firstG e).has c = false) : Off e (c :: t) := by
  rintro c' t' ⟨⟩; exact h

/-! ## Literals -/

theorem literal_tig : (Cls.tig 102).Holds (.call .Literal) :=
  costR_holds (sc := some 95) (by rintro n ⟨⟩; exact spTight) base2_holds 9 _ _ (by decide)

theorem literal_ok {s r k} (h : Run G (.call .Literal) s (some r) k) : k ≤ 102 * (s.length - r.length + 1) := literal_tig.1 _ _ _ h

theorem literal_lin {s x k} (h : Run G (.call .Literal) s x k) : k ≤ 102 * (s.length + 1) := literal_tig.lin _ _ _ h

/-- A quote. -/
def Quote (s : Str) : Prop := ∃ c t, s = c :: t ∧ (c = '"' ∨ c = '\'')

theorem literal_fail {s k} (h : Run G (.call .Literal) s none k) (hq : ¬ Quote s) : k ≤ 102 := by
  have hn : (Cls.con 19).Holds (.call .Null) := costR0_holds (n := 9) (by decide)
  have hb : (Cls.con 39).Holds (.call .Boolean) := costR0_holds (n := 9) (by decide)
  have hi : ∀ {s k}, Run G (.call .Integer) s none k → k ≤ 20 := by
    intro s k h
    cases h with
    | call h =>
      cases h with
      | seqOk _ h => cases h
      | seqFail h =>
        cases h with
        | txt h =>
          cases h with
          | alt2 h1 h2 =>
            cases h2 with
            | seqOk _ h => cases h
            | seqFail h2 => cases h1 <;> cases h2 <;> omega
  cases h with
  | call h =>
    cases h with
    | swIn hc h => have := hn _ _ _ h; omega
    | swNil h =>
      cases h with
      | swNil h =>
        cases h with
        | swNil h => have := hi h; omega
    | swOut hc h =>
      cases h with
      | swIn hc h => have := hb _ _ _ h; omega
      | swOut hc h =>
        cases h with
        | swIn hc h =>
          refine absurd ⟨_, _, rfl, ?_⟩ hq
          simpa using hc
        | swOut hc h => have := hi h; omega

/-! ## Lists of literals -/

/-- What `e` leaves of `s`. -/
noncomputable def restOf (e : PExp) (s : Str) : Option Str :=
  open Classical in if h : ∃ r k, Run G e s (some r) k then some (Classical.choose h) else none

theorem restOf_some {e s r k} (h : Run G e s (some r) k) : restOf e s = some r := by
  have hx : ∃ r k, Run G e s (some r) k := ⟨r, k, h⟩
  unfold restOf
  rw [dif_pos hx]
  obtain ⟨k', h'⟩ := Classical.choose_spec hx
  exact (h'.det h).1

theorem restOf_none {e s k} (h : Run G e s none k) : restOf e s = none := by
  unfold restOf
  rw [dif_neg]
  rintro ⟨r, k', h'⟩
  cases (h'.det h).1

/-- The steps of reading a literal and of skipping the blanks before and after it. -/
noncomputable def litx (s : Str) : Nat :=
  stepsOf (.call .Literal) s + spc s + match restOf (.call .Literal) s with | some r => spc r | none => 0

theorem litx_ok {s r k} (h : Run G (.call .Literal) s (some r) k) : litx s = k + spc s + spc r := by
  unfold litx; rw [stepsOf_eq h, restOf_some h]

theorem litx_no {s k} (h : Run G (.call .Literal) s none k) : litx s = k + spc s := by
  unfold litx; rw [stepsOf_eq h, restOf_none h]; rfl

/-- The steps of reading a value and of skipping the blanks before it. -/
noncomputable def valx (s : Str) : Nat := stepsOf (.call .Value) s + spc s

theorem valx_eq {s x k} (h : Run G (.call .Value) s x k) : valx s = k + spc s := by unfold valx; rw [stepsOf_eq h]

theorem value_total (s : Str) : ∃ x k, Run G (.call .Value) s x k := by
  obtain ⟨x, h⟩ := big_total .Value s
  obtain ⟨k, hk⟩ := h.run
  exact ⟨_, k, hk⟩

theorem literal_total (s : Str) : ∃ x k, Run G (.call .Literal) s x k := by
  obtain ⟨x, h⟩ := big_total .Literal s
  obtain ⟨k, hk⟩ := h.run
  exact ⟨_, k, hk⟩

theorem value_lin {s x k} (h : Run G (.call .Value) s x k) : k ≤ 2086 * (s.length + 1) :=
  simple_holds (e := .call .Value) (c := .lin 2086) (by decide) _ _ _ h

theorem valx_lin (s : Str) : valx s ≤ 2200 * (s.length + 1) := by
  obtain ⟨x, k, h⟩ := value_total s
  rw [valx_eq h]
  have := value_lin h
  have := spc_lin s
  omega

theorem spc_again {s ev r} (h : Ok (.call .sp) s ev r) : spc r ≤ spc s := by
  have key : ∀ {e s z k}, Run G e s z k → e = .star (.call .SpaceComment) → ∀ r, z = some r → spc r ≤ k + 1 := by
    intro e s z k h
    induction h with
    | @starNil _ s k1 h1 =>
      rintro ⟨⟩ r ⟨⟩
      have : Run G (.call .sp) s (some s) (k1 + 1 + 1) := .call (.starNil h1)
      rw [spc, stepsOf_eq this]; omega
    | starCons h1 h2 _ ih => rintro he r hr; have := ih he r hr; omega
    | _ => rintro ⟨⟩
  obtain ⟨k, hk⟩ := ok_run h
  rw [show spc s = k from stepsOf_eq hk]
  cases hk with
  | call hk => exact key hk rfl r rfl

theorem litx_spc (s : Str) : spc s ≤ litx s := by unfold litx; omega

theorem litx_lin (s : Str) : litx s ≤ 300 * (s.length + 1) := by
  obtain ⟨x, k, h⟩ := literal_total s
  have h1 := literal_lin h
  have h2 := spc_lin s
  cases x with
  | none => rw [litx_no h]; omega
  | some r => rw [litx_ok h]; have := spc_lin r; have := h.le; omega

/-- A turn of a list of literals. -/
theorem item_ok {s r k} (h : Run G (itemT .Literal) s (some r) k) : r.length < s.length ∧ k ≤ 450 * (s.length - r.length) := by
  cases h with
  | seqOk h1 h2 =>
    have e1 := sp_before h1 h2 (by decide)
    have l1 := h1.le
    cases h2 with
    | seqOk h2 h3 =>
      cases h2
      simp only [List.length_cons] at l1 e1
      cases h3 with
      | seqOk h3 h4 =>
        have e3 := sp_before h3 h4 (by decide)
        have l3 := h3.le
        have e4 := literal_ok h4
        have l4 := h4.lt (by decide)
        exact ⟨by omega, by omega⟩

theorem item_lin {s x k} (h : Run G (itemT .Literal) s x k) : k ≤ 296 * (s.length + 1) :=
  simple_holds (e := itemT .Literal) (c := .tig 296) (by decide) _ _ _ h

/-- The turns of a list of literals, without the failing one. -/
theorem list_star {e s z k} (h : Run G e s z k) : e = .star (itemT .Literal) → ∀ r, z = some r →
    ∃ k0, Run G (itemT .Literal) r none k0 ∧ k ≤ 451 * (s.length - r.length) + k0 + 1 := by
  induction h with
  | @starNil _ s k1 h1 =>
    rintro ⟨⟩ r ⟨⟩
    exact ⟨k1, h1, by omega⟩
  | @starCons _ s r1 r2 k1 k2 h1 h2 _ ih =>
    rintro he r hr
    obtain ⟨k0, hk0, hk⟩ := ih he r hr
    cases he
    cases hr
    have e1 := item_ok h1
    have l2 := h2.le
    exact ⟨k0, hk0, by omega⟩
  | _ => rintro ⟨⟩

/-- The closing half of an array. -/
abbrev closeT (c : Char) (n : Nat) : PExp := .seq (gItems .Literal) (seqs [.call .sp, .chr c, .act n])

theorem close_ok' {c : Char} {n : Nat} {s r k} (hc : c = ')' ∨ c = ']') (hs : Settled s) (h : Run G (closeT c n) s (some r) k) :
    ¬ Dash s ∧ ((s = c :: r ∧ k ≤ 300) ∨
      ∃ r0 k0, Run G (.call .Literal) s (some r0) k0 ∧ r.length < r0.length ∧ k ≤ k0 + 1000 * (r0.length - r.length + 1)) := by
  have hch : ¬ Dash (c :: r) := by rcases hc with rfl | rfl <;> exact not_dash_cons (by decide) (by decide)
  have hfree : ∀ {t : Str}, (first nulG firstG (.call .Literal)).has c = false := by rcases hc with rfl | rfl <;> intro _ <;> decide
  cases h with
  | @seqOk _ _ _ q2 _ _ _ h1 h2 =>
    cases h2 with
    | @seqOk _ _ _ q3 _ _ _ h2 h3 =>
      cases h3 with
      | seqOk h3 h4 =>
        cases h3
        cases h4
        have l2 := h2.le
        simp only [List.length_cons] at l2
        obtain ⟨e2, b2⟩ := h2.big_some
        have k2 := sp_le h2
        have d2 := spc_settled (sp_settled b2) hch
        simp only [List.length_cons] at k2
        cases h1 with
        | optNone h1 =>
          cases hs.sp.det b2
          cases h1 with
          | seqFail h1 =>
            have := head_steps (e := .call .Literal) (n := 39) (by decide) (off_cons (hfree (t := r))) h1
            refine ⟨hch, .inl ⟨rfl, ?_⟩⟩
            simp only [List.length_cons] at *
            omega
          | seqOk h1 _ => exact absurd h1.lt (fun h => by
              have := h (by decide)
              have := h1.off (off_cons (hfree (t := r)))
              rename_i q
              subst this
              omega)
        | optSome h1 =>
          cases h1 with
          | seqOk h1 h5 =>
            have e1 := literal_ok h1
            have l1 := h1.lt (by decide)
            have hnd := not_dash_of h1 (by decide)
            cases h5 with
            | @seqOk _ _ _ q _ _ _ h5 h6 =>
              have l5 := h5.le
              obtain ⟨k0, hk0, e5⟩ := list_star h5 rfl _ rfl
              cases h6 with
              | @seqOk _ _ _ q1 _ _ _ h6 h7 =>
                obtain ⟨e6, b6⟩ := h6.big_some
                have l6 := h6.le
                have k6 := sp_le h6
                cases h7 with
                | optNone h7 =>
                  cases (sp_again b6).det b2
                  have kc : k0 ≤ 91 * (q.length - (r.length + 1)) + 95 + 5 := by
                    cases hk0 with
                    | seqFail g => cases g with | call g => cases g
                    | seqOk g1 g2 =>
                      cases g1.same b6
                      have := sp_le g1
                      simp only [List.length_cons] at this
                      cases g2 with
                      | seqFail g2 => cases g2; omega
                      | seqOk g2 _ => cases g2; cases h7; contradiction
                  cases h7
                  simp only [List.length_cons] at *
                  exact ⟨hnd, .inr ⟨_, _, h1, by omega, by omega⟩⟩
                | optSome h7 =>
                  cases h7
                  have d6 := spc_settled (sp_settled b6) (not_dash_cons (by decide) (by decide))
                  have kc : k0 ≤ 91 * (q.length - (r.length + 1)) + 190 + 60 := by
                    cases hk0 with
                    | seqFail g => cases g with | call g => cases g
                    | seqOk g1 g2 =>
                      cases g1.same b6
                      have e1 := sp_le g1
                      cases g2 with
                      | seqFail g2 => cases g2; contradiction
                      | seqOk g2 g3 =>
                        cases g2
                        cases g3 with
                        | seqFail g3 => cases g3 with | call g3 => cases g3
                        | seqOk g3 g4 =>
                          cases g3.same b2
                          have e3 := sp_le g3
                          have := head_steps (e := .call .Literal) (n := 39) (by decide) (off_cons (hfree (t := r))) g4
                          simp only [List.length_cons] at *
                          omega
                  simp only [List.length_cons] at *
                  exact ⟨hnd, .inr ⟨_, _, h1, by omega, by omega⟩⟩

theorem close_ok {c : Char} {n : Nat} {s r k} (hc : c = ')' ∨ c = ']') (hs : Settled s) (h : Run G (closeT c n) s (some r) k) :
    r.length < s.length ∧ ¬ Dash s ∧ k ≤ 1200 * (s.length - r.length + 1) := by
  obtain ⟨hd, ⟨rfl, hk⟩ | ⟨r0, k0, h1, h2, h3⟩⟩ := close_ok' hc hs h
  · exact ⟨by simp, hd, by omega⟩
  · have := literal_ok h1
    have := h1.lt (by decide)
    clear hs h hc
    refine ⟨by omega, hd, Nat.le_trans h3 ?_⟩
    generalize r0.length = x at *
    generalize s.length = y at *
    generalize r.length = z at *
    omega

theorem array_ok {s r k} (h : Run G (.call .Array) s (some r) k) : r.length < s.length ∧ k ≤ 1500 * (s.length - r.length + 1) := by
  cases h with
  | call h =>
    cases h with
    | alt1 h =>
      cases h with
      | seqOk h1 h2 =>
        cases h1
        cases h2 with
        | seqOk h2 h3 =>
          cases h2
          cases h3 with
          | seqOk h3 h4 =>
            have l3 := h3.le
            obtain ⟨e3, b3⟩ := h3.big_some
            obtain ⟨l4, d4, k4⟩ := close_ok (.inr rfl) (sp_settled b3) h4
            have k3 := sp_le h3
            have := spc_settled (sp_settled b3) d4
            simp only [List.length_cons]
            exact ⟨by omega, by omega⟩
    | alt2 h0 h =>
      cases h with
      | seqOk h1 h2 =>
        cases h1
        have : No (seqs [.chr '[', .act 21, .call .sp, gItems .Literal, .call .sp, .chr ']', .act 22]) _ := h0.big_none
        have k0 := head_steps (n := 2) (by decide) (off_cons (by decide)) h0
        cases h2 with
        | seqOk h2 h3 =>
          cases h2
          cases h3 with
          | seqOk h3 h4 =>
            have l3 := h3.le
            obtain ⟨e3, b3⟩ := h3.big_some
            obtain ⟨l4, d4, k4⟩ := close_ok (.inl rfl) (sp_settled b3) h4
            have k3 := sp_le h3
            have := spc_settled (sp_settled b3) d4
            simp only [List.length_cons]
            exact ⟨by omega, by omega⟩

theorem value_ok {s r k} (h : Run G (.call .Value) s (some r) k) : r.length < s.length ∧ k ≤ 1700 * (s.length - r.length + 1) := by
  cases h with
  | call h =>
    cases h with
    | alt1 h => have := literal_ok h; have := h.lt (by decide); exact ⟨by omega, by omega⟩
    | alt2 h0 h =>
      obtain ⟨l, e⟩ := array_ok h
      have hq : ¬ Quote s := by
        obtain ⟨ev, hb⟩ := h.big_some
        obtain ⟨c, t, rfl, hc⟩ := first_head hb (by decide)
        rintro ⟨c', t', h, rfl | rfl⟩ <;> cases h <;> revert hc <;> decide
      have := literal_fail h0 hq
      exact ⟨l, by omega⟩

/-- A value that fails at once. -/
theorem value_fail {s k} (h : Run G (.call .Value) s none k) (hq : ¬ Quote s) (h1 : ∀ t, s ≠ '[' :: t) (h2 : ∀ t, s ≠ '(' :: t) : k ≤ 120 := by
  cases h with
  | call h =>
    cases h with
    | alt2 h3 h4 =>
      have := literal_fail h3 hq
      have hoff : Off (.call .Array) s := by
        rintro c t rfl
        have hc1 : c ≠ '[' := fun e => h1 t (by rw [e])
        have hc2 : c ≠ '(' := fun e => h2 t (by rw [e])
        have e1 : c.toNat ≠ 91 := fun e => hc1 (Char.toNat_inj.mp e)
        have e2 : c.toNat ≠ 40 := fun e => hc2 (Char.toNat_inj.mp e)
        have hf : first nulG firstG (.call .Array) = [('(', '('), ('[', '[')] := by decide
        rw [hf]
        simp only [CSet.has, List.any_cons, List.any_nil, Bool.or_false, Bool.or_eq_false_iff, Bool.and_eq_false_iff,
          decide_eq_false_iff_not, show ('(' : Char).toNat = 40 from rfl, show ('[' : Char).toNat = 91 from rfl]
        omega
      have := head_steps (n := 6) (by decide) hoff h4
      omega

/-- The array that is tried at a parenthesis. -/
theorem paren_value {t ev t1 x k} (hsp : Ok (.call .sp) t ev t1) (h : Run G (.call .Value) ('(' :: t) x k) :
    k ≤ 91 * (t.length - t1.length) + 8 * litx t1 + 100 ∨
      ∃ r0 q k0, Run G (.call .Literal) t1 (some r0) k0 ∧ Ok (.call .sp) r0 [] (',' :: q) ∧
        k ≤ 91 * (t.length - t1.length) + 8 * litx t1 + 100 + 900 * (r0.length + 1) := by
  have hset := sp_settled hsp
  have c1 := spc_le hsp
  have hcl : ∀ {q x k}, Run G (seqs [.call .sp, .chr ')', .act 24]) q x k → k ≤ spc q + 4 := by
    intro q x k h
    cases h with
    | seqFail h => cases h with | call h => cases h
    | seqOk h1 h2 =>
      have : spc q = _ := stepsOf_eq h1
      cases h2 with
      | seqFail h2 => cases h2 <;> omega
      | seqOk h2 h3 => cases h2; cases h3; omega
  cases h with
  | call h =>
    cases h with
    | alt1 h => exact absurd (big_none_cons (by decide) (by decide) (by decide)) h.no
    | alt2 h0 h =>
      have k0 := head_steps (e := .call .Literal) (n := 39) (by decide) (off_cons (by decide)) h0
      cases h with
      | call h =>
        cases h with
        | alt1 h => cases h with | seqOk h _ => cases h
        | alt2 h1 h =>
          have k1 := head_steps (n := 2) (by decide) (off_cons (by decide)) h1
          cases h with
          | seqFail h => cases h; contradiction
          | seqOk h2 h =>
            cases h2
            cases h with
            | seqFail h => cases h
            | seqOk h2 h =>
              cases h2
              cases h with
              | seqFail h => cases h with | call h => cases h
              | seqOk h2 h =>
                cases h2.same hsp
                have k2 : spc t = _ := stepsOf_eq h2
                have p1 := spc_pos t1
                cases h with
                | seqFail h => cases h
                | @seqOk _ _ _ q2 _ _ _ h3 h =>
                  have k5 := hcl h
                  cases h3 with
                  | optNone h3 =>
                    cases h3 with
                    | seqFail h3 =>
                      left
                      rw [litx_no h3]
                      omega
                    | seqOk _ h3 =>
                      cases h3 with
                      | seqFail h3 => cases h3
                      | seqOk _ h3 =>
                        cases h3 with
                        | seqFail h3 => cases h3 with | call h3 => cases h3
                        | seqOk _ h3 => cases h3
                  | optSome h3 =>
                    cases h3 with
                    | @seqOk _ _ _ r0 _ _ _ h3 h4 =>
                      have pr := spc_pos r0
                      rw [litx_ok h3]
                      cases h4 with
                      | @seqOk _ _ _ q _ _ _ h4 h6 =>
                        have l4 := h4.le
                        cases h6 with
                        | @seqOk _ _ _ q1 _ _ _ h6 h7 =>
                          have k6 : spc q = _ := stepsOf_eq h6
                          have l6 := h6.le
                          obtain ⟨e6, b6⟩ := h6.big_some
                          have l7 := h7.le
                          by_cases hq : ∃ q', Ok (.call .sp) r0 [] (',' :: q')
                          · obtain ⟨q', hq⟩ := hq
                            refine .inr ⟨_, _, _, h3, hq, ?_⟩
                            have k4 : (Cls.lin 593).Holds (.star (itemT .Literal)) :=
                              simple_holds (e := .star (itemT .Literal)) (c := .lin 593) (by decide)
                            have k4 := k4 _ _ _ h4
                            have k7 : (Cls.con 2).Holds (.opt (.chr ',')) := costOf0_holds 9 (by decide)
                            have k7 := k7 _ _ _ h7
                            have := spc_lin q
                            have := spc_lin q2
                            omega
                          · left
                            cases h4 with
                            | starCons h4 _ =>
                              exfalso
                              cases h4 with
                              | seqOk h4 h8 =>
                                cases h8 with
                                | seqOk h8 _ =>
                                  cases h8
                                  obtain ⟨e, b⟩ := h4.big_some
                                  have := (sp_end b).1
                                  subst this
                                  exact hq ⟨_, b⟩
                            | starNil h4 =>
                              have := (sp_end b6).1
                              subst this
                              cases h7 with
                              | optSome h7 => cases h7; exact absurd ⟨_, b6⟩ hq
                              | optNone h7 =>
                                have := spc_again b6
                                cases h4 with
                                | seqFail h4 => cases h4 with | call h4 => cases h4
                                | seqOk h4 h8 =>
                                  have k4 : spc r0 = _ := stepsOf_eq h4
                                  cases h4.same b6
                                  cases h8 with
                                  | seqFail h8 => cases h8 <;> cases h7 <;> omega
                                  | seqOk h8 _ => cases h8; exact absurd ⟨_, b6⟩ hq

/-- An array in parentheses. -/
theorem paren_value_ok {t ev t1 r k} (hsp : Ok (.call .sp) t ev t1) (h : Run G (.call .Value) ('(' :: t) (some r) k) :
    (t1 = ')' :: r ∧ k ≤ 91 * (t.length - t1.length) + 600) ∨
      ∃ r0 k0, Run G (.call .Literal) t1 (some r0) k0 ∧ r.length < r0.length ∧
        k ≤ 91 * (t.length - t1.length) + 600 + litx t1 + 1000 * (r0.length - r.length + 1) := by
  have c1 := spc_le hsp
  cases h with
  | call h =>
    cases h with
    | alt1 h => exact absurd (big_none_cons (by decide) (by decide) (by decide)) h.no
    | alt2 h0 h =>
      have k0 := head_steps (e := .call .Literal) (n := 39) (by decide) (off_cons (by decide)) h0
      cases h with
      | call h =>
        cases h with
        | alt1 h => cases h with | seqOk h _ => cases h
        | alt2 h1 h =>
          have k1 := head_steps (n := 2) (by decide) (off_cons (by decide)) h1
          cases h with
          | seqOk h2 h =>
            cases h2
            cases h with
            | seqOk h2 h =>
              cases h2
              cases h with
              | seqOk h2 h =>
                cases h2.same hsp
                have k2 : spc t = _ := stepsOf_eq h2
                obtain ⟨hd, h⟩ := close_ok' (.inl rfl) (sp_settled hsp) h
                have c2 := spc_settled (sp_settled hsp) hd
                rcases h with ⟨rfl, hk⟩ | ⟨r0, k0, h1, h2, h3⟩
                · exact .inl ⟨rfl, by omega⟩
                · refine .inr ⟨r0, k0, h1, h2, ?_⟩
                  rw [litx_ok h1]
                  omega

/-! ## References -/

theorem json_fail {s k} (h : Run G (.call .JsonReference) s none k) :
    (∃ k0, Run G (.call .Identifier) s none k0 ∧ k ≤ 40) ∨
      ∃ r k0, Run G (.call .Identifier) s (some r) k0 ∧ k ≤ 29 * (s.length - r.length) + 140 := by
  cases h with
  | call h =>
    cases h with
    | seqFail h => exact .inl ⟨_, h, by have := identifier_fail h; omega⟩
    | seqOk h h2 =>
      refine .inr ⟨_, _, h, ?_⟩
      have e := identifier_tig.1 _ _ _ h
      cases h2 with
      | seqFail h2 => cases h2 <;> omega
      | seqOk h2 h3 =>
        cases h2
        simp only [List.length_cons] at e ⊢
        cases h3 with
        | seqFail h3 => cases h3 <;> simp only [List.length_cons, List.length_nil] at e ⊢ <;> omega
        | seqOk h3 h4 =>
          cases h3
          cases h4 with
          | alt2 h5 h6 =>
            have := identifier_fail h6
            cases h5 with
            | call h5 =>
              cases h5 with
              | seqFail h5 => have := identifier_fail h5; simp only [List.length_cons] at e ⊢; omega
              | seqOk h5 _ => cases (h5.det h6).1

theorem json_steps : ∀ n s r k, s.length ≤ n → Run G (.call .JsonReference) s (some r) k → k ≤ 200 * (s.length - r.length + 1) := by
  intro n
  induction n with
  | zero => intro s r k hs h; have := h.lt (by decide); omega
  | succ n ih =>
    intro s r k hs h
    cases h with
    | call h =>
      cases h with
      | seqOk h h2 =>
        have l := h.lt (by decide)
        have e := identifier_tig.1 _ _ _ h
        cases h2 with
        | seqOk h2 h3 =>
          cases h2
          simp only [List.length_cons] at l e
          cases h3 with
          | seqOk h3 h4 =>
            cases h3
            simp only [List.length_cons] at l e
            cases h4 with
            | alt1 h5 =>
              have := ih _ _ _ (by omega) h5
              have := h5.lt (by decide)
              omega
            | alt2 h5 h6 =>
              have l6 := h6.lt (by decide)
              have e6 := identifier_tig.1 _ _ _ h6
              rcases json_fail h5 with ⟨k0, h7, e7⟩ | ⟨r7, k0, h7, e7⟩
              · cases (h6.det h7).1
              · cases (h6.det h7).1
                omega

theorem dotted_star : (Cls.tig 31).Holds (.seq (.chr '.') (.call .Identifier)) := costOf0_holds 9 (by decide)

theorem dotted_turns {e s z k} (h : Run G e s z k) : e = .star (.seq (.chr '.') (.call .Identifier)) → ∀ r, z = some r →
    k ≤ 65 * (s.length - r.length) + 40 := by
  have hf : ∀ {s k}, Run G (.seq (.chr '.') (.call .Identifier)) s none k → k ≤ 33 := by
    intro s k h
    cases h with
    | seqFail h => cases h <;> omega
    | seqOk h h2 => cases h; have := identifier_fail h2; omega
  induction h with
  | starNil h1 => rintro ⟨⟩ r ⟨⟩; have := hf h1; omega
  | starCons h1 h2 _ ih =>
    rintro he r hr
    have := ih he r hr
    cases he
    cases hr
    have := dotted_star.1 _ _ _ h1
    have := h1.lt (by decide)
    have := h2.le
    omega
  | _ => rintro ⟨⟩

theorem reference_ok {s r k} (h : Run G (.call .Reference) s (some r) k) : k ≤ 600 * (s.length - r.length + 1) := by
  have hid : ∀ {k}, Run G (.call .IdentifierReference) s none k →
      (∃ k0, Run G (.call .Identifier) s none k0) ∨
      ∃ r k0, Run G (.call .Identifier) s (some r) k0 ∧ k ≤ 29 * (s.length - r.length) + 140 := by
    intro k h
    cases h with
    | call h =>
      cases h with
      | seqFail h => cases h
      | seqOk h0 h =>
        cases h0
        cases h with
        | seqFail h => exact .inl ⟨_, h⟩
        | seqOk h h1 =>
          have e := identifier_tig.1 _ _ _ h
          refine .inr ⟨_, _, h, ?_⟩
          cases h1 with
          | seqFail h1 => cases h1 <;> omega
          | seqOk h1 h2 =>
            cases h1
            cases h2 with
            | seqFail h2 => have := identifier_fail h2; simp only [List.length_cons] at e ⊢; omega
            | seqOk _ h2 =>
              cases h2 with
              | seqFail h2 => cases h2
              | seqOk _ h2 => cases h2
  cases h with
  | call h =>
    cases h with
    | alt1 h =>
      cases h with
      | call h =>
        cases h with
        | seqOk h0 h =>
          cases h0
          cases h with
          | seqOk h h1 =>
            have e := identifier_tig.1 _ _ _ h
            have l := h.lt (by decide)
            cases h1 with
            | seqOk h1 h2 =>
              cases h1
              simp only [List.length_cons] at e l
              cases h2 with
              | seqOk h2 h3 =>
                have e2 := identifier_tig.1 _ _ _ h2
                have l2 := h2.lt (by decide)
                cases h3 with
                | seqOk h3 h4 =>
                  cases h4
                  have := dotted_turns h3 rfl _ rfl
                  have := h3.le
                  omega
    | alt2 h1 h =>
      have h1 := hid h1
      cases h with
      | alt1 h =>
        have e := json_steps _ _ _ _ (Nat.le_refl _) h
        have l := h.lt (by decide)
        cases h with
        | call h =>
          cases h with
          | seqOk h h' =>
            have := h'.le
            rcases h1 with ⟨k0, g⟩ | ⟨r0, k0, g, e0⟩
            · cases (h.det g).1
            · cases (h.det g).1; omega
      | alt2 h2 h =>
        have e := identifier_tig.1 _ _ _ h
        have l := h.lt (by decide)
        rcases h1 with ⟨k0, g⟩ | ⟨r0, k0, g, e0⟩
        · cases (h.det g).1
        · cases (h.det g).1
          rcases json_fail h2 with ⟨k0, g⟩ | ⟨r0, k0, g, e0⟩
          · cases (h.det g.1).1
          · cases (h.det g).1; omega

/-- A reference that fails. -/
theorem reference_fail {s k} (h : Run G (.call .Reference) s none k) : k ≤ 150 ∧ No (.call .Identifier) s := by
  cases h with
  | call h =>
    cases h with
    | alt2 h1 h =>
      cases h with
      | alt2 h2 h =>
        have e := identifier_fail h
        refine ⟨?_, h.big_none⟩
        rcases json_fail h2 with ⟨k0, g, e0⟩ | ⟨r0, k0, g, e0⟩
        · cases h1 with
          | call h1 =>
            cases h1 with
            | seqFail h1 => cases h1
            | seqOk h0 h1 =>
              cases h0
              cases h1 with
              | seqFail h1 => have := identifier_fail h1; omega
              | seqOk h1 _ => cases (h.det h1).1
        · cases (h.det g).1

end Verif
