import Verif.StepsLocal

/-! # The operators that may follow an operand

The recogniser tries one operator after the other at the end of an operand.  `tails r` is the cost of the attempts that fail.  It
is small when one of the operators is there. -/

namespace Verif

open PExp

/-- Sets without a common character (sufficient test). -/
def CSet.disj (a b : CSet) : Bool := a.all fun p => b.all fun q => p.2.toNat < q.1.toNat || q.2.toNat < p.1.toNat

theorem CSet.not_has {a b : CSet} {c : Char} (h : a.disj b = true) (hc : a.has c = true) : b.has c = false := by
  cases hb : b.has c with
  | false => rfl
  | true =>
    simp only [CSet.has, CSet.disj, List.any_eq_true, List.all_eq_true, Bool.and_eq_true, Bool.or_eq_true, decide_eq_true_eq] at *
    obtain ⟨p, hp, h1, h2⟩ := hc
    obtain ⟨q, hq, h3, h4⟩ := hb
    have := h p hp q hq
    omega

theorem head_off {e e' : PExp} {s ev r} (h : Ok e s ev r) (hn : nullable nulG e = false)
    (hd : (first nulG firstG e).disj (first nulG firstG e') = true) : Off e' s := by
  obtain ⟨c, t, rfl, hc⟩ := first_head h hn
  exact off_cons (CSet.not_has hd hc)

theorem head_no {e e' : PExp} {s ev r} (h : Ok e s ev r) (hn : nullable nulG e = false)
    (hd : (first nulG firstG e).disj (first nulG firstG e') = true) (hr : ranked nulG rankG 16 16 e' = true)
    (hn' : nullable nulG e' = false) : No e' s := big_none hr hn' (head_off h hn hd)

/-- `not` and blanks. -/
abbrev notSp : PExp := .seq (ciLit c!"not") (.call .sp1)

/-- Looking for `not` takes at most `n` steps. -/
def NotPre (n : Nat) (s : Str) : Prop := ∀ x k, Run G notSp s x k → k ≤ n

theorem NotPre.mono {n m s} (h : NotPre n s) (hnm : n ≤ m) : NotPre m s := fun x k hk => Nat.le_trans (h x k hk) hnm

theorem not_con : (Cls.con 11).Holds (ciLit c!"not") := costOf0_holds 9 (by decide)

theorem notPre_no {s} (h : No (ciLit c!"not") s) : NotPre 12 s := by
  intro x k hk
  cases hk with
  | seqFail h => have := not_con _ _ _ h; omega
  | seqOk h1 _ => exact absurd h h1.no

theorem notPre_ok {s ev r} (h : Ok notSp s ev r) (hd : ¬ Dash r) : NotPre (200 * (s.length - r.length + 1)) s := by
  intro x k hk
  obtain ⟨k', hk'⟩ := ok_run h
  obtain ⟨rfl, rfl⟩ := hk'.det hk
  cases hk' with
  | seqOk h1 h2 =>
    have := not_con _ _ _ h1
    have := h1.le
    have := h2.le
    have := sp1_le h2
    obtain ⟨ev2, b2⟩ := h2.big_some
    have := spc_settled (sp1_settled b2) hd
    omega

theorem notSp_n {s ev r} (h : Ok notSp s ev r) : ∃ c t, s = c :: t ∧ (first nulG firstG notSp).has c = true := first_head h (by decide)

/-- The text starts with `is`. -/
def Is (s : Str) : Prop := ∃ t, s = 'i' :: 's' :: t

theorem gBetweenOp_le {n s x k} (hp : NotPre n s) (h : Run G (.txt gBetweenOp) s x k) : k ≤ n + 60 := by
  have hc : (Cls.con 13).Holds (lit c!"between") := costOf0_holds 9 (by decide)
  cases h with
  | txt h =>
    cases h with
    | seqFail h => cases h
    | seqOk h1 h2 =>
      have := hc _ _ _ h2
      cases h1 with
      | optNone h1 => have := hp _ _ h1; omega
      | optSome h1 => have := hp _ _ h1; omega

theorem notWord_le {w n s x k} (hc : (Cls.con 20).Holds (ciLit w)) (hp : NotPre n s)
    (h : Run G (.alt (ciLit w) (.seq (ciLit c!"not") (.seq (.call .sp1) (ciLit w)))) s x k) : k ≤ n + 50 := by
  cases h with
  | alt1 h => have := hc _ _ _ h; omega
  | alt2 h1 h2 =>
    have := hc _ _ _ h1
    cases h2 with
    | seqFail h2 => have := hp _ _ (.seqFail h2); omega
    | seqOk h2 h3 =>
      cases h3 with
      | seqFail h3 => have := hp _ _ (.seqOk h2 h3); omega
      | seqOk h3 h4 => have := hp _ _ (.seqOk h2 h3); have := hc _ _ _ h4; omega

theorem in_con : (Cls.con 20).Holds (ciLit c!"in") := by
  have : (Cls.con 7).Holds (ciLit c!"in") := costOf0_holds 9 (by decide)
  intro s x k h; have := this _ _ _ h; omega

theorem like_con : (Cls.con 20).Holds (ciLit c!"like") := by
  have : (Cls.con 15).Holds (ciLit c!"like") := costOf0_holds 9 (by decide)
  intro s x k h; have := this _ _ _ h; omega

theorem gInOp_le {n s x k} (hp : NotPre n s) (h : Run G (.txt gInOp) s x k) : k ≤ n + 60 := by
  cases h with
  | txt h => have := notWord_le in_con hp h; omega

theorem gCmpLike_le {n s x k} (hp : NotPre n s) (h : Run G (.txt gCmpLike) s x k) : k ≤ n + 60 := by
  cases h with
  | txt h => have := notWord_le like_con hp h; omega

theorem gMatchOp_fail {s k} (hi : ¬ Is s) (h : Run G (.txt gMatchOp) s none k) : k ≤ 60 := by
  have h1 : (Cls.con 11).Holds (lit c!"isnull") := costOf0_holds 9 (by decide)
  have h2 : (Cls.con 13).Holds (lit c!"notnull") := costOf0_holds 9 (by decide)
  have key : ∀ {e : PExp} {k}, Run G (.seq (.chr 'i') (.seq (.chr 's') e)) s none k → k ≤ 4 := by
    intro e k h
    cases h with
    | seqFail h => cases h <;> omega
    | seqOk h h' =>
      cases h
      cases h' with
      | seqFail h' => cases h' <;> omega
      | seqOk h' _ => cases h'; exact absurd ⟨_, rfl⟩ hi
  cases h with
  | txt h =>
    cases h with
    | alt2 g1 h =>
      have := h1 _ _ _ g1
      cases h with
      | alt2 g2 h =>
        have := h2 _ _ _ g2
        cases h with
        | alt2 g3 g4 => have := key g3; have := key g4; omega

/-! ## Failing attempts -/

theorem sp1_fail {s k} (h : Run G (.call .sp1) s none k) : k ≤ spc s ∧ Settled s := by
  cases h with
  | call h =>
    cases h with
    | seqOk _ h => cases h
    | @seqFail _ _ _ k h =>
      have : Run G (.call .sp) s (some s) (k + 1 + 1) := .call (.starNil h)
      rw [spc, stepsOf_eq this]
      exact ⟨by omega, h.big_none⟩

theorem btwT_fail {n r ev r1 k} (hsp : Ok (.call .sp) r ev r1) (hp : NotPre n r1) (hno : No gBetweenOp r1) (h : Run G btwT r none k) :
    k ≤ spc r + n + 62 := by
  cases h with
  | seqFail h => cases h with | call h => cases h
  | seqOk h1 h2 =>
    have e1 : spc r = _ := stepsOf_eq h1
    cases h1.same hsp
    cases h2 with
    | seqFail h2 => have := gBetweenOp_le hp h2; omega
    | seqOk h2 _ => cases h2 with | txt h2 => exact absurd hno h2.no

theorem cinT_fail {n r ev r1 k} (hsp : Ok (.call .sp) r ev r1) (hp : NotPre n r1) (hno : No gInOp r1) (h : Run G cinT r none k) :
    k ≤ spc r + n + 62 := by
  cases h with
  | seqFail h => cases h with | call h => cases h
  | seqOk h1 h2 =>
    have e1 : spc r = _ := stepsOf_eq h1
    cases h1.same hsp
    cases h2 with
    | seqFail h2 => have := gInOp_le hp h2; omega
    | seqOk h2 _ => cases h2 with | txt h2 => exact absurd hno h2.no

theorem prdT_fail {r ev r1 k} (hsp : Ok (.call .sp) r ev r1) (hi : ¬ Is r1) (h : Run G prdT r none k) :
    k ≤ 91 * (r.length - r1.length) + spc r + spc r1 + 70 := by
  cases h with
  | seqOk _ h => cases h
  | seqFail h =>
    cases h with
    | call h =>
      cases h with
      | seqFail h => have := (sp1_fail h).1; omega
      | seqOk h1 h2 =>
        have e1 := sp1_le h1
        obtain ⟨ev1, b1⟩ := h1.big_some
        cases (sp1_sp b1).det hsp
        cases h2 with
        | seqFail h2 => have := gMatchOp_fail hi h2; omega
        | seqOk _ h2 =>
          cases h2 with
          | seqFail h2 => cases h2 with | call h2 => cases h2
          | seqOk _ h2 => cases h2

/-- An operator between blanks that fails. -/
theorem opT_fail {e : PExp} {a r ev r1 k} {n : Nat} (hsp : Ok (.call .sp) r ev r1) (he : ∀ k, Run G (.txt e) r1 none k → k ≤ n)
    (h : Run G (seqs [.call .sp, .txt e, .call .sp, .act a]) r none k) : k ≤ spc r + n + 2 := by
  cases h with
  | seqFail h => cases h with | call h => cases h
  | seqOk h1 h2 =>
    have e1 : spc r = _ := stepsOf_eq h1
    cases h1.same hsp
    cases h2 with
    | seqFail h2 => have := he _ h2; omega
    | seqOk _ h2 =>
      cases h2 with
      | seqFail h2 => cases h2 with | call h2 => cases h2
      | seqOk _ h2 => cases h2

theorem cmpSym_con : (Cls.con 26).Holds (.txt gCmpSym) := costOf0_holds 9 (by decide)
theorem cmpWord_con : (Cls.con 60).Holds (.txt gCmpWord) := costOf0_holds 9 (by decide)
theorem logicWord_con : (Cls.con 20).Holds (.txt gLogicWord) := costOf0_holds 9 (by decide)
theorem logicSym_con : (Cls.con 8).Holds (.txt gLogicSym) := costOf0_holds 9 (by decide)

theorem compare_fail {n r ev r1 k} (hsp : Ok (.call .sp) r ev r1) (hp : NotPre n r1) (h : Run G (.call .Compare) r none k) :
    k ≤ 3 * spc r + n + 200 := by
  cases h with
  | call h =>
    cases h with
    | alt2 h1 h =>
      have := opT_fail hsp (fun k hk => cmpSym_con _ _ _ hk) h1
      cases h with
      | alt2 h2 h3 =>
        have := opT_fail hsp (fun k hk => cmpWord_con _ _ _ hk) h2
        have := opT_fail hsp (fun k hk => gCmpLike_le hp hk) h3
        omega

theorem logic_fail {r k} (h : Run G (.call .Logic) r none k) : k ≤ 2 * spc r + 100 := by
  obtain ⟨r1, hsp⟩ := sp_total r
  cases h with
  | call h =>
    cases h with
    | alt2 h1 h2 =>
      have := opT_fail hsp (fun k hk => logicWord_con _ _ _ hk) h1
      have := opT_fail hsp (fun k hk => logicSym_con _ _ _ hk) h2
      omega

/-- The cost of an attempt, if it fails. -/
noncomputable def failc (e : PExp) (s : Str) : Nat := match restOf e s with | some _ => 0 | none => stepsOf e s

theorem failc_ok {e s r k} (h : Run G e s (some r) k) : failc e s = 0 := by unfold failc; rw [restOf_some h]
theorem failc_no {e s k} (h : Run G e s none k) : failc e s = k := by unfold failc; rw [restOf_none h]; exact stepsOf_eq h

/-- The cost of skipping blanks at the end of an operand and of the operators that fail there. -/
noncomputable def tails (r : Str) : Nat :=
  spc r + failc btwT r + failc prdT r + failc cinT r + failc (.call .Compare) r + failc (.call .Logic) r

theorem tails_sp (r : Str) : spc r ≤ tails r := by unfold tails; omega
theorem tails_btw {r k} (h : Run G btwT r none k) : k ≤ tails r := by unfold tails; rw [failc_no h]; omega
theorem tails_prd {r k} (h : Run G prdT r none k) : k ≤ tails r := by unfold tails; rw [failc_no h]; omega
theorem tails_cin {r k} (h : Run G cinT r none k) : k ≤ tails r := by unfold tails; rw [failc_no h]; omega
theorem tails_cmp {r k} (h : Run G (.call .Compare) r none k) : k ≤ tails r := by unfold tails; rw [failc_no h]; omega
theorem tails_log {r k} (h : Run G (.call .Logic) r none k) : k ≤ tails r := by unfold tails; rw [failc_no h]; omega
theorem tails_pos (r : Str) : 1 ≤ tails r := Nat.le_trans (spc_pos r) (tails_sp r)

theorem failc_le {e : PExp} {s : Str} {n : Nat} (hr : ranked nulG rankG 16 16 e = true) (h : ∀ k, Run G e s none k → k ≤ n) : failc e s ≤ n := by
  obtain ⟨x, hx⟩ := big_exp_total e s 16 (by omega) hr
  obtain ⟨k, hk⟩ := hx.run
  cases x with
  | none => rw [failc_no hk]; exact h k hk
  | some p => rw [failc_ok hk]; omega

theorem tails_lin (r : Str) : tails r ≤ 20000 * (r.length + 1) := by
  have h1 := spc_lin r
  have h2 : failc btwT r ≤ 9283 * (r.length + 1) := failc_le (by decide) fun k h =>
    simple_holds (e := btwT) (c := .lin 9283) (by decide) _ _ _ h
  have h3 : failc prdT r ≤ 746 * (r.length + 1) := failc_le (by decide) fun k h =>
    simple_holds (e := prdT) (c := .lin 746) (by decide) _ _ _ h
  have h4 : failc cinT r ≤ 2340 * (r.length + 1) := failc_le (by decide) fun k h =>
    simple_holds (e := cinT) (c := .lin 2340) (by decide) _ _ _ h
  have h5 : failc (.call .Compare) r ≤ 836 * (r.length + 1) := failc_le (by decide) fun k h =>
    simple_holds (e := .call .Compare) (c := .lin 836) (by decide) _ _ _ h
  have h6 : failc (.call .Logic) r ≤ 406 * (r.length + 1) := failc_le (by decide) fun k h =>
    simple_holds (e := .call .Logic) (c := .lin 406) (by decide) _ _ _ h
  unfold tails
  omega

/-! ## Where one of them is there -/

/-- What is known of the text after the blanks. -/
structure Spot (r r1 t : Str) (b i m : Prop) : Prop where
  sp : Ok (.call .sp) r [] r1
  dash : ¬ Dash r1
  le : t.length ≤ r1.length
  np : NotPre (200 * (r1.length - t.length + 1)) r1
  is : m ∨ ¬ Is r1
  nb : b ∨ No gBetweenOp r1
  ni : i ∨ No gInOp r1

theorem Spot.tails {r r1 t} (h : Spot r r1 t (∃ e t, Ok btwT r e t) (∃ e t, Ok cinT r e t) (∃ e t, Ok prdT r e t)) :
    tails r ≤ 20000 * (r.length - t.length + 1) := by
  obtain ⟨hsp, hd, hle, hp, his, hnb, hni⟩ := h
  have l1 := hsp.length_le
  have c1 := spc_le hsp
  have c2 := spc_settled (sp_settled hsp) hd
  have h2 : failc btwT r ≤ spc r + 200 * (r1.length - t.length + 1) + 62 := by
    rcases hnb with ⟨e, t, hb⟩ | hb
    · obtain ⟨k, hk⟩ := ok_run hb; rw [failc_ok hk]; omega
    · exact failc_le (by decide) fun k h => btwT_fail hsp hp hb h
  have h3 : failc prdT r ≤ 91 * (r.length - r1.length) + spc r + spc r1 + 70 := by
    rcases his with ⟨e, t, hb⟩ | hb
    · obtain ⟨k, hk⟩ := ok_run hb; rw [failc_ok hk]; omega
    · exact failc_le (by decide) fun k h => prdT_fail hsp hb h
  have h4 : failc cinT r ≤ spc r + 200 * (r1.length - t.length + 1) + 62 := by
    rcases hni with ⟨e, t, hb⟩ | hb
    · obtain ⟨k, hk⟩ := ok_run hb; rw [failc_ok hk]; omega
    · exact failc_le (by decide) fun k h => cinT_fail hsp hp hb h
  have h5 : failc (.call .Compare) r ≤ 3 * spc r + 200 * (r1.length - t.length + 1) + 200 :=
    failc_le (by decide) fun k h => compare_fail hsp hp h
  have h6 : failc (.call .Logic) r ≤ 2 * spc r + 100 := failc_le (by decide) fun k h => logic_fail h
  unfold Verif.tails
  omega

/-- Nothing that matters begins with this character. -/
theorem spot_head {r r1 : Str} {c : Char} {b i m : Prop} (hsp : Ok (.call .sp) r [] (c :: r1)) (h1 : c ≠ '-') (h2 : c ≠ '/')
    (hc : relF.has c = false) : Spot r (c :: r1) (c :: r1) b i m := by
  have off : ∀ {e : PExp}, (first nulG firstG e).sub relF = true → Off e (c :: r1) := by
    intro e he c' t' e'
    cases e'
    cases hh : (first nulG firstG e).has c with
    | false => rfl
    | true => have := CSet.has_sub he hh; rw [hc] at this; cases this
  refine ⟨hsp, not_dash_cons h1 h2, Nat.le_refl _, (notPre_no ?_).mono (by omega), .inr ?_, .inr ?_, .inr ?_⟩
  · exact big_none (by decide) (by decide) (off (by decide))
  · rintro ⟨t, ht⟩; cases ht; revert hc; decide
  · exact big_none (by decide) (by decide) (off (by decide))
  · exact big_none (by decide) (by decide) (off (by decide))

/-- The negated form, with another word behind it. -/
theorem no_between_not {s r ev} (h : Ok notSp s ev r) (hb : No (lit c!"between") r) : No gBetweenOp s := .seqFail2 (.optSome h) hb

theorem no_in_not {s r ev} (h : Ok notSp s ev r) (hb : No (ciLit c!"in") r) : No gInOp s := by
  refine .alt2 (head_no h (by decide) (by decide) (by decide) (by decide)) ?_
  cases h with
  | seqOk h1 h2 => exact .seqFail2 h1 (.seqFail2 h2 hb)

theorem no_between {s} (h : No (ciLit c!"not") s) (hb : No (lit c!"between") s) : No gBetweenOp s := .seqFail2 (.optNone (.seqFail1 h)) hb

theorem no_in {s} (h : No (ciLit c!"not") s) (hb : No (ciLit c!"in") s) : No gInOp s := .alt2 hb (.seqFail1 h)

theorem not_is {e : PExp} {s ev r} (h : Ok e s ev r) (hn : nullable nulG e = false) (hd : (first nulG firstG e).has 'i' = false) : ¬ Is s := by
  obtain ⟨c, t, rfl, hc⟩ := first_head h hn
  rintro ⟨t', h'⟩
  cases h'
  rw [hd] at hc
  cases hc

/-- Words that begin neither like `not`, `between`, `in` nor like a comment. -/
theorem spot_word {e : PExp} {r r1 ev r2 t} {b i m : Prop} (hsp : Ok (.call .sp) r [] r1) (h : Ok e r1 ev r2) (hl : t.length ≤ r1.length)
    (hn : nullable nulG e = false)
    (h1 : (first nulG firstG e).disj (first nulG firstG (ciLit c!"not")) = true)
    (h2 : (first nulG firstG e).disj (first nulG firstG (lit c!"between")) = true)
    (h3 : (first nulG firstG e).disj (first nulG firstG (ciLit c!"in")) = true)
    (h4 : (first nulG firstG e).has '-' = false) (h5 : (first nulG firstG e).has '/' = false) : Spot r r1 t b i m := by
  obtain ⟨k, hk⟩ := ok_run h
  have hno := head_no h hn h1 (by decide) (by decide)
  refine ⟨hsp, not_dash_of hk ?_, hl, (notPre_no hno).mono (by omega), .inr (not_is h hn ?_), .inr ?_, .inr ?_⟩
  · simp [noDash, hn, h4, h5]
  · cases hh : (first nulG firstG e).has 'i' with
    | false => rfl
    | true => have := CSet.not_has h3 hh; revert this; decide
  · exact no_between hno (head_no h hn h2 (by decide) (by decide))
  · exact no_in hno (head_no h hn h3 (by decide) (by decide))

theorem spot_between {r r1 ev r2 t} {i m : Prop} (hsp : Ok (.call .sp) r [] r1) (h : Ok gBetweenOp r1 ev r2) (hl : t.length ≤ r2.length) :
    Spot r r1 t True i m := by
  have l1 := h.length_le
  cases h with
  | seqOk h1 h2 =>
    cases h1 with
    | optNone h1 =>
      have hno := head_no (e' := ciLit c!"not") h2 (by decide) (by decide) (by decide) (by decide)
      obtain ⟨k, hk⟩ := ok_run h2
      exact ⟨hsp, not_dash_of hk (by decide), by omega, (notPre_no hno).mono (by omega), .inr (not_is h2 (by decide) (by decide)),
        .inl trivial, .inr (no_in hno (head_no h2 (by decide) (by decide) (by decide) (by decide)))⟩
    | optSome h1 =>
      obtain ⟨k, hk⟩ := ok_run h1
      obtain ⟨k2, hk2⟩ := ok_run h2
      have l2 := h2.length_le
      exact ⟨hsp, not_dash_of hk (by decide), by omega, (notPre_ok h1 (not_dash_of hk2 (by decide))).mono (by omega),
        .inr (not_is h1 (by decide) (by decide)), .inl trivial,
        .inr (no_in_not h1 (head_no h2 (by decide) (by decide) (by decide) (by decide)))⟩

theorem ci_head {c : Char} {t r ev} {w : Str} {d : Char} (h : Ok (ciLit (d :: w)) (c :: t) ev r) : c = d ∨ c = d.toUpper := by
  have key : ∀ {ev r}, Ok (ci d) (c :: t) ev r → c = d ∨ c = d.toUpper := by
    intro ev r h
    cases h with
    | alt1 h => cases h; exact .inl rfl
    | alt2 _ h => cases h; exact .inr rfl
  cases w with
  | nil => exact key h
  | cons d' w => cases h with | seqOk h _ => exact key h

/-- The second letter of a word. -/
theorem ci_second {s r ev} {w : Str} {d d' : Char} (h : Ok (ciLit (d :: d' :: w)) s ev r) :
    ∃ x y t, s = x :: y :: t ∧ (x = d ∨ x = d.toUpper) ∧ (y = d' ∨ y = d'.toUpper) := by
  cases h with
  | @seqOk _ _ _ _ r1 _ _ h1 h2 =>
    have h2' : Ok (ciLit (d' :: w)) r1 _ r := h2
    have : ∃ x, s = x :: r1 ∧ (x = d ∨ x = d.toUpper) := by
      cases h1 with
      | alt1 h => cases h; exact ⟨_, rfl, .inl rfl⟩
      | alt2 _ h => cases h; exact ⟨_, rfl, .inr rfl⟩
    obtain ⟨x, rfl, hx⟩ := this
    cases r1 with
    | nil =>
      cases w with
      | nil => cases h2' with | alt1 h => cases h | alt2 _ h => cases h
      | cons a w => cases h2' with | seqOk h _ => cases h with | alt1 h => cases h | alt2 _ h => cases h
    | cons y t => exact ⟨x, y, t, rfl, hx, ci_head h2'⟩

theorem spot_in {r r1 ev r2 t} {b m : Prop} (hsp : Ok (.call .sp) r [] r1) (h : Ok gInOp r1 ev r2) (hl : t.length ≤ r2.length) :
    Spot r r1 t b True m := by
  have l1 := h.length_le
  cases h with
  | alt1 h =>
    have hno := head_no (e' := ciLit c!"not") h (by decide) (by decide) (by decide) (by decide)
    obtain ⟨k, hk⟩ := ok_run h
    refine ⟨hsp, not_dash_of hk (by decide), by omega, (notPre_no hno).mono (by omega), .inr ?_,
      .inr (no_between hno (head_no h (by decide) (by decide) (by decide) (by decide))), .inl trivial⟩
    rintro ⟨t', rfl⟩
    obtain ⟨x, y, t2, e, _, hy⟩ := ci_second h
    cases e
    revert hy; decide
  | alt2 _ h =>
    cases h with
    | seqOk h1 h2 =>
      cases h2 with
      | seqOk h2 h3 =>
        have h12 : Ok notSp r1 _ _ := .seqOk h1 h2
        obtain ⟨k, hk⟩ := ok_run h12
        obtain ⟨k2, hk2⟩ := ok_run h3
        have l2 := h3.length_le
        exact ⟨hsp, not_dash_of hk (by decide), by omega, (notPre_ok h12 (not_dash_of hk2 (by decide))).mono (by omega),
          .inr (not_is h12 (by decide) (by decide)),
          .inr (no_between_not h12 (head_no h3 (by decide) (by decide) (by decide) (by decide))), .inl trivial⟩

theorem spot_like {r r1 ev r2 t} {b i m : Prop} (hsp : Ok (.call .sp) r [] r1) (h : Ok gCmpLike r1 ev r2) (hl : t.length ≤ r2.length) :
    Spot r r1 t b i m := by
  have l1 := h.length_le
  cases h with
  | alt1 h => exact spot_word hsp h (by omega) (by decide) (by decide) (by decide) (by decide) (by decide) (by decide)
  | alt2 _ h =>
    cases h with
    | seqOk h1 h2 =>
      cases h2 with
      | seqOk h2 h3 =>
        have h12 : Ok notSp r1 _ _ := .seqOk h1 h2
        obtain ⟨k, hk⟩ := ok_run h12
        obtain ⟨k2, hk2⟩ := ok_run h3
        have l2 := h3.length_le
        exact ⟨hsp, not_dash_of hk (by decide), by omega, (notPre_ok h12 (not_dash_of hk2 (by decide))).mono (by omega),
          .inr (not_is h12 (by decide) (by decide)),
          .inr (no_between_not h12 (head_no h3 (by decide) (by decide) (by decide) (by decide))),
          .inr (no_in_not h12 (head_no h3 (by decide) (by decide) (by decide) (by decide)))⟩

theorem spot_neq {r r1 ev r2 t} {b i m : Prop} (hsp : Ok (.call .sp) r [] r1) (h : Ok (ciLit c!"neq") r1 ev r2) (hl : t.length ≤ r1.length) :
    Spot r r1 t b i m := by
  obtain ⟨k, hk⟩ := ok_run h
  have hd := not_dash_of hk (by decide)
  have hi := not_is h (by decide) (by decide)
  have hb := head_no (e' := lit c!"between") h (by decide) (by decide) (by decide) (by decide)
  have hin := head_no (e' := ciLit c!"in") h (by decide) (by decide) (by decide) (by decide)
  obtain ⟨x, y, t', rfl, hx, hy⟩ := ci_second h
  have hno : No (ciLit c!"not") (x :: y :: t') := ciLit_no2 hx (by rcases hy with rfl | rfl <;> decide)
  exact ⟨hsp, hd, hl, (notPre_no hno).mono (by omega), .inr hi, .inr (no_between hno hb), .inr (no_in hno hin)⟩

theorem spot_cmp {r ev t} {b i m : Prop} (h : Ok (.call .Compare) r ev t) : ∃ r1, Spot r r1 t b i m := by
  have key : ∀ {e : PExp} {a ev}, Ok (seqs [.call .sp, .txt e, .call .sp, .act a]) r ev t →
      ∃ r1 r2 ev', Ok (.call .sp) r [] r1 ∧ Ok e r1 ev' r2 ∧ t.length ≤ r2.length := by
    intro e a ev h
    cases h with
    | seqOk h1 h2 =>
      have := (sp_end h1).1
      subst this
      cases h2 with
      | seqOk h2 h3 => cases h2 with | txtOk h2 => exact ⟨_, _, _, h1, h2, h3.length_le⟩
  cases h with
  | call h =>
    cases h with
    | alt1 h =>
      obtain ⟨r1, r2, ev', h1, h2, h3⟩ := key h
      have := h2.length_le
      exact ⟨r1, spot_word h1 h2 (by omega) (by decide) (by decide) (by decide) (by decide) (by decide) (by decide)⟩
    | alt2 _ h =>
      cases h with
      | alt1 h =>
        obtain ⟨r1, r2, ev', h1, h2, h3⟩ := key h
        have := h2.length_le
        refine ⟨r1, ?_⟩
        cases h2 with
        | alt1 h2 => exact spot_word h1 h2 (by omega) (by decide) (by decide) (by decide) (by decide) (by decide) (by decide)
        | alt2 _ h2 =>
          cases h2 with
          | alt1 h2 => exact spot_word h1 h2 (by omega) (by decide) (by decide) (by decide) (by decide) (by decide) (by decide)
          | alt2 _ h2 =>
            cases h2 with
            | swIn _ h2 => exact spot_neq h1 h2 (by omega)
            | swOut _ h2 => exact spot_word h1 h2 (by omega) (by decide) (by decide) (by decide) (by decide) (by decide) (by decide)
            | swNil h2 => exact spot_word h1 h2 (by omega) (by decide) (by decide) (by decide) (by decide) (by decide) (by decide)
      | alt2 _ h =>
        obtain ⟨r1, r2, ev', h1, h2, h3⟩ := key h
        exact ⟨r1, spot_like h1 h2 h3⟩

theorem spot_log {r ev t} {b i m : Prop} (h : Ok (.call .Logic) r ev t) : ∃ r1, Spot r r1 t b i m := by
  have key : ∀ {e : PExp} {a ev}, Ok (seqs [.call .sp, .txt e, .call .sp, .act a]) r ev t →
      ∃ r1 r2 ev', Ok (.call .sp) r [] r1 ∧ Ok e r1 ev' r2 ∧ t.length ≤ r1.length := by
    intro e a ev h
    cases h with
    | seqOk h1 h2 =>
      have := (sp_end h1).1
      subst this
      cases h2 with
      | seqOk h2 h3 =>
        cases h2 with
        | txtOk h2 => have := h3.length_le; have := h2.length_le; exact ⟨_, _, _, h1, h2, by omega⟩
  cases h with
  | call h =>
    cases h with
    | alt1 h =>
      obtain ⟨r1, r2, ev', h1, h2, h3⟩ := key h
      exact ⟨r1, spot_word h1 h2 h3 (by decide) (by decide) (by decide) (by decide) (by decide) (by decide)⟩
    | alt2 _ h =>
      obtain ⟨r1, r2, ev', h1, h2, h3⟩ := key h
      exact ⟨r1, spot_word h1 h2 h3 (by decide) (by decide) (by decide) (by decide) (by decide) (by decide)⟩

theorem spot_match {r r1 ev r2 t} {b i : Prop} (hsp : Ok (.call .sp) r [] r1) (h : Ok gMatchOp r1 ev r2) (hl : t.length ≤ r1.length) :
    Spot r r1 t b i True := by
  have his : ∀ {e : PExp} {ev r2}, Ok (.seq (.chr 'i') (.seq (.chr 's') e)) r1 ev r2 → Spot r r1 t b i True := by
    intro e ev r2 h
    cases h with
    | seqOk h h' =>
      cases h
      cases h' with
      | @seqOk _ _ _ _ q _ _ h' _ =>
        cases h'
        have hno : No (ciLit c!"not") ('i' :: 's' :: q) := big_none_cons (by decide) (by decide) (by decide)
        exact ⟨hsp, not_dash_cons (by decide) (by decide), hl, (notPre_no hno).mono (by omega), .inl trivial,
          .inr (no_between hno (big_none_cons (by decide) (by decide) (by decide))),
          .inr (no_in hno (ciLit_no2 (.inl rfl) (by decide)))⟩
  cases h with
  | alt1 h =>
    have : Ok (.seq (.chr 'i') (.seq (.chr 's') (lit c!"null"))) r1 ev r2 := h
    exact his this
  | alt2 _ h =>
    cases h with
    | alt1 h =>
      cases h with
      | seqOk h h' =>
        cases h
        cases h' with
        | seqOk h h' =>
          cases h
          cases h' with
          | seqOk h h' =>
            cases h
            cases h' with
            | @seqOk _ _ _ _ q _ _ h h' =>
              cases h
              have hn : Ok (ciLit c!"not") ('n' :: 'o' :: 't' :: 'n' :: q) [] ('n' :: q) :=
                ciLit_ok (w := c!"not") (u := c!"not") _
                  ⟨_, _, rfl, .inl rfl, _, _, rfl, .inl rfl, _, _, rfl, .inl rfl, rfl⟩
              have hs : No (.call .sp1) ('n' :: q) := big_none_cons (by decide) (by decide) (by decide)
              have hnp : No notSp ('n' :: 'o' :: 't' :: 'n' :: q) := .seqFail2 hn hs
              refine ⟨hsp, not_dash_cons (by decide) (by decide), hl, ?_, .inl trivial, .inr ?_, .inr ?_⟩
              · intro x k hk
                cases hk with
                | seqFail h => have := not_con _ _ _ h; omega
                | seqOk h1 h2 =>
                  cases h1.same hn
                  have := not_con _ _ _ h1
                  have := head_steps (e := .call .sp1) (n := 23) (by decide) (off_cons (by decide)) h2
                  omega
              · exact .seqFail2 (.optNone hnp) (big_none_cons (by decide) (by decide) (by decide))
              · exact .alt2 (big_none_cons (by decide) (by decide) (by decide)) (.seqFail2 hn (.seqFail1 hs))
    | alt2 _ h =>
      cases h with
      | alt1 h => exact his h
      | alt2 _ h => exact his h

theorem spot_prd {r ev t} {b i : Prop} (h : Ok prdT r ev t) : ∃ r1, Spot r r1 t b i True := by
  cases h with
  | seqOk h1 h2 =>
    cases h2
    cases h1 with
    | call h =>
      cases h with
      | seqOk h1 h2 =>
        have h1 := sp1_sp h1
        have := (sp_end h1).1
        subst this
        cases h2 with
        | seqOk h2 h3 =>
          have l3 := h3.length_le
          cases h2 with
          | txtOk h2 => have l2 := h2.length_le; exact ⟨_, spot_match h1 h2 (by omega)⟩

theorem spot_btw {r ev t} {i m : Prop} (h : Ok btwT r ev t) : ∃ r1, Spot r r1 t True i m := by
  cases h with
  | seqOk h1 h2 =>
    have := (sp_end h1).1
    subst this
    cases h2 with
    | seqOk h2 h3 =>
      have l3 := h3.length_le
      cases h2 with
      | txtOk h2 => exact ⟨_, spot_between h1 h2 l3⟩

theorem spot_cin {r ev t} {b m : Prop} (h : Ok cinT r ev t) : ∃ r1, Spot r r1 t b True m := by
  cases h with
  | seqOk h1 h2 =>
    have := (sp_end h1).1
    subst this
    cases h2 with
    | seqOk h2 h3 =>
      have l3 := h3.length_le
      cases h2 with
      | txtOk h2 => exact ⟨_, spot_in h1 h2 l3⟩

/-- Where an operator is, the failing attempts cost no more than a constant per character of it. -/
theorem tails_hit {e : PExp} (he : e = btwT ∨ e = prdT ∨ e = cinT ∨ e = .call .Compare ∨ e = .call .Logic) {r ev t} (h : Ok e r ev t) :
    tails r ≤ 20000 * (r.length - t.length + 1) := by
  have key : ∀ {r1 b i m}, Spot r r1 t b i m → (b → ∃ e t, Ok btwT r e t) → (i → ∃ e t, Ok cinT r e t) → (m → ∃ e t, Ok prdT r e t) →
      tails r ≤ 20000 * (r.length - t.length + 1) := by
    intro r1 b i m h hb hi hm
    refine Spot.tails ⟨h.sp, h.dash, h.le, h.np, ?_, ?_, ?_⟩
    · exact h.is.imp_left hm
    · exact h.nb.imp_left hb
    · exact h.ni.imp_left hi
  rcases he with rfl | rfl | rfl | rfl | rfl
  · obtain ⟨r1, hs⟩ := spot_btw (i := False) (m := False) h; exact key hs (fun _ => ⟨_, _, h⟩) (by simp) (by simp)
  · obtain ⟨r1, hs⟩ := spot_prd (i := False) (b := False) h; exact key hs (by simp) (by simp) (fun _ => ⟨_, _, h⟩)
  · obtain ⟨r1, hs⟩ := spot_cin (b := False) (m := False) h; exact key hs (by simp) (fun _ => ⟨_, _, h⟩) (by simp)
  · obtain ⟨r1, hs⟩ := spot_cmp (i := False) (m := False) (b := False) h; exact key hs (by simp) (by simp) (by simp)
  · obtain ⟨r1, hs⟩ := spot_log (i := False) (m := False) (b := False) h; exact key hs (by simp) (by simp) (by simp)

/-- The same for the end of a parenthesis, of an argument, and before a parenthesis. -/
theorem tails_stop {r : Str} {c : Char} {t : Str} (h : Ok (.call .sp) r [] (c :: t)) (hc : c = ',' ∨ c = ')' ∨ c = '(') :
    tails r ≤ 20000 * (r.length - (c :: t).length + 1) := by
  refine Spot.tails (r1 := c :: t) ?_
  rcases hc with rfl | rfl | rfl <;> exact spot_head h (by decide) (by decide) (by decide)

/-! ## The attempt that succeeds -/

/-- What a failed attempt at `between` may have spent on the text after the logical operator. -/
noncomputable def debt (r : Str) : Nat :=
  match restOf (.call .Logic) r with
  | some t => valx t + 1000 * (r.length - t.length + 1)
  | none => 0

theorem debt_ok {r ev t} (h : Ok (.call .Logic) r ev t) : debt r = valx t + 1000 * (r.length - t.length + 1) := by
  obtain ⟨k, hk⟩ := ok_run h
  unfold debt; rw [restOf_some hk]

theorem debt_no {r} (h : No (.call .Logic) r) : debt r = 0 := by
  obtain ⟨k, hk⟩ := no_run h
  unfold debt; rw [restOf_none hk]

theorem debt_lin (r : Str) : debt r ≤ 5000 * (r.length + 1) := by
  obtain ⟨x, h⟩ := big_total .Logic r
  cases x with
  | none => rw [debt_no h]; omega
  | some p =>
    obtain ⟨ev, t⟩ := p
    rw [debt_ok h]
    have := valx_lin t
    have := h.length_le
    omega

theorem opT_ok {e : PExp} {a r t k} {n : Nat} (hc : (Cls.con n).Holds (.txt e)) (hd : noDash (.txt e) = true)
    (h : Run G (seqs [.call .sp, .txt e, .call .sp, .act a]) r (some t) k) : k ≤ 91 * (r.length - t.length) + spc t + n + 100 := by
  cases h with
  | seqOk h1 h2 =>
    have l1 := h1.le
    cases h2 with
    | seqOk h2 h3 =>
      have e1 := sp_before h1 h2 hd
      have e2 := hc _ _ _ h2
      have l2 := h2.le
      cases h3 with
      | seqOk h3 h4 => cases h4; have := sp_le h3; have := h3.le; omega

theorem logic_cost {r t k} (h : Run G (.call .Logic) r (some t) k) : k ≤ 20000 * (r.length - t.length + 1) + spc t := by
  obtain ⟨ev, hb⟩ := h.big_some
  obtain ⟨r1, hs⟩ := spot_log (b := True) (i := True) (m := True) hb
  have l1 := hs.le
  have l2 := hs.sp.length_le
  have c1 := spc_le hs.sp
  have c2 := spc_settled (sp_settled hs.sp) hs.dash
  cases h with
  | call h =>
    cases h with
    | alt1 h => have := opT_ok logicWord_con (by decide) h; omega
    | alt2 h1 h =>
      have := opT_ok logicSym_con (by decide) h
      have := opT_fail hs.sp (fun k hk => logicWord_con _ _ _ hk) h1
      omega

theorem compare_cost {r t k} (h : Run G (.call .Compare) r (some t) k) : k ≤ 20000 * (r.length - t.length + 1) + spc t := by
  obtain ⟨ev, hb⟩ := h.big_some
  obtain ⟨r1, hs⟩ := spot_cmp (b := True) (i := True) (m := True) hb
  have l1 := hs.le
  have l2 := hs.sp.length_le
  have c1 := spc_le hs.sp
  have c2 := spc_settled (sp_settled hs.sp) hs.dash
  cases h with
  | call h =>
    cases h with
    | alt1 h => have := opT_ok cmpSym_con (by decide) h; omega
    | alt2 h1 h =>
      have := opT_fail hs.sp (fun k hk => cmpSym_con _ _ _ hk) h1
      cases h with
      | alt1 h => have := opT_ok cmpWord_con (by decide) h; omega
      | alt2 h2 h =>
        have := opT_fail hs.sp (fun k hk => cmpWord_con _ _ _ hk) h2
        cases h with
        | seqOk g1 g2 =>
          have e1 : spc r = _ := stepsOf_eq g1
          cases g1.same hs.sp
          cases g2 with
          | seqOk g2 g3 =>
            have := gCmpLike_le hs.np g2
            have := g2.le
            cases g3 with
            | seqOk g3 g4 => cases g4; have := sp_le g3; have := g3.le; omega

theorem tfn_con : (Cls.con 25).Holds gTfn := costOf0_holds 9 (by decide)

theorem gMatchOp_ok {s r k} (h : Run G gMatchOp s (some r) k) : k ≤ 500 * (s.length - r.length + 1) := by
  have c1 : (Cls.con 11).Holds (lit c!"isnull") := costOf0_holds 9 (by decide)
  have c2 : (Cls.con 13).Holds (lit c!"notnull") := costOf0_holds 9 (by decide)
  cases h with
  | alt1 h => have := c1 _ _ _ h; omega
  | alt2 h1 h =>
    have := c1 _ _ _ h1
    cases h with
    | alt1 h => have := c2 _ _ _ h; omega
    | alt2 h2 h =>
      have := c2 _ _ _ h2
      cases h with
      | alt1 h =>
        cases h with
        | seqOk h3 h =>
          cases h3
          cases h with
          | seqOk h3 h =>
            cases h3
            cases h with
            | seqOk h3 h =>
              have := sp1_before h3 h (by decide)
              have := tfn_con _ _ _ h
              have := h3.le
              have := h.le
              simp only [List.length_cons]
              omega
      | alt2 h0 h =>
        cases h with
        | seqOk h3 h =>
          cases h3
          cases h with
          | seqOk h3 h =>
            cases h3
            cases h with
            | @seqOk _ _ _ q _ _ _ h3 h =>
              have g3 := sp1_before h3 h (by decide)
              have l3 := h3.le
              have kf : ∀ {k s}, Run G (seqs [.chr 'i', .chr 's', .call .sp1, gTfn]) ('i' :: 's' :: s) none k → ∀ {k'}, Run G (.call .sp1) s (some q) k' →
                  k ≤ k' + 40 := by
                intro k s h0 k' h3
                cases h0 with
                | seqFail h0 => cases h0; contradiction
                | seqOk h4 h0 =>
                  cases h4
                  cases h0 with
                  | seqFail h0 => cases h0; contradiction
                  | seqOk h4 h0 =>
                    cases h4
                    cases h0 with
                    | seqFail h0 => cases (h0.det h3).1
                    | seqOk h4 h0 =>
                      obtain ⟨e1, e2⟩ := h4.det h3
                      cases e1
                      have := tfn_con _ _ _ h0
                      omega
              have kf := kf h0 h3
              cases h with
              | seqOk h4 h =>
                cases h4
                cases h with
                | seqOk h4 h =>
                  cases h4
                  cases h with
                  | seqOk h4 h =>
                    cases h4
                    cases h with
                    | seqOk h4 h =>
                      have := sp1_before h4 h (by decide)
                      have := tfn_con _ _ _ h
                      have := h4.le
                      have := h.le
                      simp only [List.length_cons] at *
                      omega

theorem prdT_ok {r t k} (h : Run G prdT r (some t) k) : k ≤ 20000 * (r.length - t.length + 1) + tails t := by
  have ht := tails_sp t
  cases h with
  | seqOk h h5 =>
    cases h5
    cases h with
    | call h =>
      cases h with
      | seqOk h1 h =>
        have l1 := h1.le
        cases h with
        | seqOk h2 h =>
          have e1 := sp1_before h1 h2 (by decide)
          cases h2 with
          | txt h2 =>
            have e2 := gMatchOp_ok h2
            have l2 := h2.le
            cases h with
            | seqOk h3 h4 => cases h4; have := sp_le h3; have := h3.le; omega

theorem cinT_ok {r t k} (h : Run G cinT r (some t) k) : k ≤ 20000 * (r.length - t.length + 1) := by
  obtain ⟨ev, hb⟩ := h.big_some
  obtain ⟨r1, hs⟩ := spot_cin (b := True) (m := True) hb
  have l1 := hs.le
  have l2 := hs.sp.length_le
  have c1 := spc_le hs.sp
  have c2 := spc_settled (sp_settled hs.sp) hs.dash
  cases h with
  | seqOk h1 h =>
    have e1 : spc r = _ := stepsOf_eq h1
    cases h1.same hs.sp
    cases h with
    | seqOk h2 h =>
      have e2 := gInOp_le hs.np h2
      have l3 := h2.le
      cases h with
      | seqOk h3 h =>
        have l4 := h3.le
        cases h with
        | seqOk h4 h =>
          cases h4
          cases h with
          | seqOk h4 h5 =>
            cases h5
            have e3 := sp_before h3 h4 (by decide)
            have := array_ok h4
            omega

theorem literal_off {a b k k1} (h : Run G (.call .Literal) a none k) (hv : Run G (.call .Value) a (some b) k1) : k ≤ 102 := by
  refine literal_fail h ?_
  cases hv with
  | call hv =>
    cases hv with
    | alt1 hv => cases (hv.det h).1
    | alt2 _ hv =>
      obtain ⟨ev, hb⟩ := hv.big_some
      obtain ⟨c, t, rfl, hc⟩ := first_head hb (by decide)
      rintro ⟨c', t', h, rfl | rfl⟩ <;> cases h <;> revert hc <;> decide

theorem literal_value {a b b' k k1} (h : Run G (.call .Literal) a (some b) k) (hv : Run G (.call .Value) a (some b') k1) : b' = b := by
  cases hv with
  | call hv =>
    cases hv with
    | alt1 hv => cases (hv.det h).1; rfl
    | alt2 h0 _ => cases (h0.det h).1

theorem value_close {a b k} (hv : Run G (.call .Value) a (some b) k) : ∀ t, a ≠ ']' :: t := by
  rintro t rfl
  exact absurd (big_none_cons (by decide) (by decide) (by decide)) hv.no

/-- The items of a bracketed list that holds two values. -/
theorem pair_items {a b c0 c d t : Str} {k1 k2 : Nat} (hsa : Settled a) (ha : Run G (.call .Value) a (some b) k1) (hb : Ok (.call .sp) b [] (',' :: c0))
    (hc : Ok (.call .sp) c0 [] c) (hv : Run G (.call .Value) c (some d) k2) (hd : Ok (.call .sp) d [] (']' :: t)) {x k}
    (h : Run G (closeT ']' 22) a x k) : (x = none ∧ k ≤ 3000 * (a.length - t.length + 1)) ∨ x = some t := by
  obtain ⟨la, ea⟩ := value_ok ha
  obtain ⟨lv, ev⟩ := value_ok hv
  have lb := hb.length_le
  have lc := hc.length_le
  have ld := hd.length_le
  simp only [List.length_cons] at lb ld
  have da : ¬ Dash a := not_dash_of ha (by decide)
  have dc : ¬ Dash c := not_dash_of hv (by decide)
  have sa := spc_settled hsa da
  have sc := spc_settled (sp_settled hc) dc
  have sc' := spc_le hc
  have sb := spc_settled (sp_settled hb) (not_dash_cons (by decide) (by decide))
  have sb' := spc_le hb
  simp only [List.length_cons] at sb'
  have hfin : ∀ {q q1 x k}, Ok (.call .sp) q [] q1 → (∀ t, q1 ≠ ']' :: t) → Run G (seqs [.call .sp, .chr ']', .act 22]) q x k →
      x = none ∧ k ≤ spc q + 4 := by
    intro q q1 x k hq hne h
    cases h with
    | seqFail h => cases h with | call h => cases h
    | seqOk h1 h2 =>
      have e1 : spc q = _ := stepsOf_eq h1
      cases h1.same hq
      cases h2 with
      | seqFail h2 => refine ⟨rfl, ?_⟩; cases h2 <;> omega
      | seqOk h2 _ => cases h2; exact absurd rfl (hne _)
  cases h with
  | seqFail h => cases h
  | seqOk h1 h2 =>
    cases h1 with
    | optNone h1 =>
      left
      obtain ⟨hx, hk⟩ := hfin hsa.sp (value_close ha) h2
      refine ⟨hx, ?_⟩
      cases h1 with
      | seqFail h1 => have := literal_off h1 ha; omega
      | seqOk _ h3 =>
        cases h3 with
        | seqFail h3 => cases h3
        | seqOk _ h3 =>
          cases h3 with
          | seqFail h3 => cases h3 with | call h3 => cases h3
          | seqOk _ h3 => cases h3
    | optSome h1 =>
      cases h1 with
      | seqOk h1 h3 =>
        cases literal_value h1 ha
        have e1 := literal_ok h1
        -- the item after the comma
        have hitem : ∀ {x k}, Run G (itemT .Literal) b x k → (x = none ∧ k ≤ 91 * (b.length - c.length) + 400) ∨ x = some d := by
          intro x k h
          cases h with
          | seqFail h => cases h with | call h => cases h
          | seqOk g1 g2 =>
            have e1 : spc b = _ := stepsOf_eq g1
            cases g1.same hb
            cases g2 with
            | seqFail g2 => cases g2; contradiction
            | seqOk g2 g3 =>
              cases g2
              cases g3 with
              | seqFail g3 => cases g3 with | call g3 => cases g3
              | seqOk g3 g4 =>
                have e3 : spc c0 = _ := stepsOf_eq g3
                cases g3.same hc
                cases x with
                | none => have := literal_off g4 hv; exact .inl ⟨rfl, by omega⟩
                | some d' => cases literal_value g4 hv; exact .inr rfl
        cases h3 with
        | @seqOk _ _ _ q _ _ _ h3 h4 =>
          cases h3 with
          | starNil h3 =>
            left
            rcases hitem h3 with ⟨_, hk⟩ | h
            · cases h4 with
              | seqOk h4 h5 =>
                have e4 : spc b = _ := stepsOf_eq h4
                cases h4.same hb
                cases h5 with
                | optNone h5 => cases h5; contradiction
                | optSome h5 =>
                  cases h5
                  obtain ⟨hx, hk2⟩ := hfin hc (value_close hv) h2
                  exact ⟨hx, by omega⟩
            · cases h
          | starCons h3 h6 =>
            rcases hitem h3 with ⟨h, _⟩ | h
            · cases h
            · cases h
              right
              cases h6 with
              | starCons h6 _ =>
                cases h6 with
                | seqOk h6 h7 => cases h6.same hd; cases h7 with | seqOk h7 _ => cases h7
              | starNil _ =>
                cases h4 with
                | seqOk h4 h5 =>
                  cases h4.same hd
                  cases h5 with
                  | optSome h5 => cases h5
                  | optNone h5 =>
                    cases h2 with
                    | seqFail h2 => cases h2 with | call h2 => cases h2
                    | seqOk h2 h7 =>
                      cases h2.same (sp_again hd)
                      cases h7 with
                      | seqFail h7 => cases h7; contradiction
                      | seqOk h7 h8 => cases h7; cases h8 with | act => rfl

/-- A bracketed pair read as an array. -/
theorem pair_value {a0 a b c0 c d t : Str} {k1 k2 : Nat} (hsa : Ok (.call .sp) a0 [] a) (ha : Run G (.call .Value) a (some b) k1)
    (hb : Ok (.call .sp) b [] (',' :: c0)) (hc : Ok (.call .sp) c0 [] c) (hv : Run G (.call .Value) c (some d) k2)
    (hd : Ok (.call .sp) d [] (']' :: t)) {x k} (h : Run G (.call .Value) ('[' :: a0) x k) :
    k ≤ 4000 * (('[' :: a0).length - t.length + 1) ∧ (x = none ∨ x = some t) := by
  have l1 := hsa.length_le
  obtain ⟨la, ea⟩ := value_ok ha
  obtain ⟨lv, ev⟩ := value_ok hv
  have lb := hb.length_le
  have lc := hc.length_le
  have ld := hd.length_le
  have sa := spc_settled (sp_settled hsa) (not_dash_of ha (by decide))
  have sa' := spc_le hsa
  simp only [List.length_cons] at lb ld ⊢
  suffices hx : (x = none ∧ k ≤ 4000 * ((a0.length + 1) - t.length + 1)) ∨ x = some t by
    rcases hx with ⟨hx, hk⟩ | hx
    · exact ⟨hk, .inl hx⟩
    · subst hx
      have := value_ok h
      simp only [List.length_cons] at this
      exact ⟨by omega, .inr rfl⟩
  cases h with
  | call h =>
    cases h with
    | alt1 h => exact absurd (big_none_cons (by decide) (by decide) (by decide)) h.no
    | alt2 h0 h =>
      have k0 := head_steps (e := .call .Literal) (n := 39) (by decide) (off_cons (by decide)) h0
      have hbr : ∀ {x k}, Run G (seqs [.chr '[', .act 21, .call .sp, gItems .Literal, .call .sp, .chr ']', .act 22]) ('[' :: a0) x k →
          (x = none ∧ k ≤ 3000 * (a.length - t.length + 1) + 91 * (a0.length - a.length) + 100) ∨ x = some t := by
        intro x k h
        cases h with
        | seqFail h => cases h; contradiction
        | seqOk h1 h =>
          cases h1
          cases h with
          | seqFail h => cases h
          | seqOk h1 h =>
            cases h1
            cases h with
            | seqFail h => cases h with | call h => cases h
            | seqOk h1 h =>
              have e1 : spc a0 = _ := stepsOf_eq h1
              cases h1.same hsa
              rcases pair_items (sp_settled hsa) ha hb hc hv hd h with ⟨h1, h2⟩ | h1
              · exact .inl ⟨h1, by omega⟩
              · exact .inr h1
      cases h with
      | call h =>
        cases h with
        | alt1 h =>
          rcases hbr h with ⟨h1, _⟩ | h1
          · cases h1
          · exact .inr h1
        | alt2 h1 h2 =>
          rcases hbr h1 with ⟨_, hk⟩ | h1
          · left
            have k2 := head_steps (n := 2) (by decide) (off_cons (by decide)) h2
            cases h2 with
            | seqOk h2 _ => cases h2
            | seqFail h2 => exact ⟨rfl, by omega⟩
          · cases h1

theorem gBounds_ok {s t k} (h : Run G gBounds s (some t) k) : k ≤ 9000 * (s.length - t.length + 1) + tails t + debt t := by
  have cand : (Cls.con 11).Holds (ciLit c!"and") := costOf0_holds 9 (by decide)
  cases h with
  | alt1 h =>
    cases h with
    | seqOk h1 h =>
      have := value_ok h1
      cases h with
      | seqOk h2 h =>
        have := h2.le
        cases h with
        | seqOk h3 h =>
          have := sp_before h2 h3 (by decide)
          have := cand _ _ _ h3
          have := h3.le
          cases h with
          | seqOk h4 h5 =>
            have := sp_before h4 h5 (by decide)
            have := h4.le
            have := value_ok h5
            omega
  | @alt2 _ _ _ _ k1 _ h1 h =>
    have ht := tails_sp t
    suffices hkey : ∃ a0 a b c0 c d ka kc, s = '[' :: a0 ∧ Ok (.call .sp) a0 [] a ∧ Run G (.call .Value) a (some b) ka ∧
        Ok (.call .sp) b [] (',' :: c0) ∧ Ok (.call .sp) c0 [] c ∧ Run G (.call .Value) c (some d) kc ∧ Ok (.call .sp) d [] (']' :: t) by
      obtain ⟨a0, a, b, c0, c, d, ka, kc, rfl, hsa, ha, hb, hc, hv, hd⟩ := hkey
      have l1 := hsa.length_le
      obtain ⟨la, ea⟩ := value_ok ha
      obtain ⟨lv, ev⟩ := value_ok hv
      have lb := hb.length_le
      have lc := hc.length_le
      have ld := hd.length_le
      simp only [List.length_cons] at lb ld
      have k2 : ∀ {k}, Run G (seqs [.chr '[', .call .sp, .call .Value, .call .sp, .chr ',', .call .sp, .call .Value, .call .sp, .chr ']'])
          ('[' :: a0) (some t) k → k ≤ 1700 * (a0.length - t.length) + 4000 := by
        intro k h
        have s1 := spc_settled (sp_settled hsa) (not_dash_of ha (by decide))
        have s1' := spc_le hsa
        have s2 := spc_settled (sp_settled hb) (not_dash_cons (by decide) (by decide))
        have s2' := spc_le hb
        have s3 := spc_settled (sp_settled hc) (not_dash_of hv (by decide))
        have s3' := spc_le hc
        have s4 := spc_settled (sp_settled hd) (not_dash_cons (by decide) (by decide))
        have s4' := spc_le hd
        simp only [List.length_cons] at s2' s4'
        cases h with
        | seqOk g h =>
          cases g
          cases h with
          | seqOk g h =>
            have : spc a0 = _ := stepsOf_eq g
            cases g.same hsa
            cases h with
            | seqOk g h =>
              obtain ⟨e, e'⟩ := g.det ha
              cases e
              cases h with
              | seqOk g h =>
                have : spc b = _ := stepsOf_eq g
                cases g.same hb
                cases h with
                | seqOk g h =>
                  cases g
                  cases h with
                  | seqOk g h =>
                    have : spc c0 = _ := stepsOf_eq g
                    cases g.same hc
                    cases h with
                    | seqOk g h =>
                      obtain ⟨e, e'⟩ := g.det hv
                      cases e
                      cases h with
                      | seqOk g h =>
                        have : spc d = _ := stepsOf_eq g
                        cases g.same hd
                        cases h
                        omega
      have k2 := k2 h
      have k1 : k1 ≤ 4000 * ((a0.length + 1) - t.length + 1) + tails t + debt t + 100 := by
        cases h1 with
        | seqFail h1 => have := (pair_value hsa ha hb hc hv hd h1).1; simp only [List.length_cons] at this; omega
        | seqOk h1 h3 =>
          obtain ⟨e1, e2 | e2⟩ := pair_value hsa ha hb hc hv hd h1
          · cases e2
          · cases e2
            simp only [List.length_cons] at e1
            cases h3 with
            | seqFail h3 => cases h3 with | call h3 => cases h3
            | seqOk h3 h4 =>
              have : spc t = _ := stepsOf_eq h3
              have lt := h3.le
              cases h4 with
              | seqFail h4 => have := cand _ _ _ h4; omega
              | seqOk h4 h5 =>
                have := cand _ _ _ h4
                have lt2 := h4.le
                cases h5 with
                | seqFail h5 => cases h5 with | call h5 => cases h5
                | seqOk h5 h6 =>
                  have := sp_le h5
                  have lt3 := h5.le
                  obtain ⟨ev3, b3⟩ := h3.big_some
                  obtain ⟨ev4, b4⟩ := h4.big_some
                  obtain ⟨ev5, b5⟩ := h5.big_some
                  have hl : Ok (.call .Logic) t _ _ := .call (.alt1 (.seqOk b3 (.seqOk (.txtOk (.alt1 b4)) (.seqOk b5 .act))))
                  rw [debt_ok hl, valx_eq h6]
                  omega
      simp only [List.length_cons]
      omega
    cases h with
    | seqOk g h =>
      cases g
      cases h with
      | seqOk g1 h =>
        cases h with
        | seqOk g2 h =>
          cases h with
          | seqOk g3 h =>
            cases h with
            | seqOk g h =>
              cases g
              cases h with
              | seqOk g4 h =>
                cases h with
                | seqOk g5 h =>
                  cases h with
                  | seqOk g6 h =>
                    cases h
                    obtain ⟨e1, b1⟩ := g1.big_some
                    obtain ⟨e3, b3⟩ := g3.big_some
                    obtain ⟨e4, b4⟩ := g4.big_some
                    obtain ⟨e6, b6⟩ := g6.big_some
                    have := (sp_end b1).1
                    have := (sp_end b3).1
                    have := (sp_end b4).1
                    have := (sp_end b6).1
                    subst_vars
                    exact ⟨_, _, _, _, _, _, _, _, rfl, b1, g2, b3, b4, g5, b6⟩

theorem btwT_ok {r t k} (h : Run G btwT r (some t) k) : k ≤ 20000 * (r.length - t.length + 1) + tails t + debt t := by
  obtain ⟨ev, hb⟩ := h.big_some
  obtain ⟨r1, hs⟩ := spot_btw (i := True) (m := True) hb
  have l1 := hs.le
  have l2 := hs.sp.length_le
  have c1 := spc_le hs.sp
  have c2 := spc_settled (sp_settled hs.sp) hs.dash
  cases h with
  | seqOk h1 h =>
    have e1 : spc r = _ := stepsOf_eq h1
    cases h1.same hs.sp
    cases h with
    | seqOk h2 h =>
      have e2 := gBetweenOp_le hs.np h2
      have l3 := h2.le
      cases h with
      | seqOk h4 h =>
        cases h4
        cases h with
        | seqOk h3 h =>
          have l4 := h3.le
          cases h with
          | seqOk h4 h5 =>
            cases h5
            have e3 := sp_before h3 h4 (by decide)
            have := gBounds_ok h4
            have := h4.le
            omega

end Verif
