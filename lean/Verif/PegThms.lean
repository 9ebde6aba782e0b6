import Verif.Peg

/-! # General facts about the three semantics of parsing expressions -/

namespace Verif

variable {G : Rule → PExp}

/-! ## Consumption -/

theorem Big.suffix' {e s x} (h : Big G e s x) : ∀ ev r, x = some (ev, r) → r <:+ s := by
  induction h with
  | eps => rintro _ _ ⟨⟩; exact List.suffix_refl _
  | anyOk => rintro _ _ ⟨⟩; exact List.suffix_cons _ _
  | chrOk => rintro _ _ ⟨⟩; exact List.suffix_cons _ _
  | rngOk => rintro _ _ ⟨⟩; exact List.suffix_cons _ _
  | seqOk _ _ ih1 ih2 => rintro _ _ ⟨⟩; exact (ih2 _ _ rfl).trans (ih1 _ _ rfl)
  | alt1 _ ih => intro _ _ h; exact ih _ _ h
  | alt2 _ _ _ ih => intro _ _ h; exact ih _ _ h
  | starNil => rintro _ _ ⟨⟩; exact List.suffix_refl _
  | starCons _ _ ih1 ih2 => rintro _ _ ⟨⟩; exact (ih2 _ _ rfl).trans (ih1 _ _ rfl)
  | optSome _ ih => intro _ _ h; exact ih _ _ h
  | optNone => rintro _ _ ⟨⟩; exact List.suffix_refl _
  | notOk => rintro _ _ ⟨⟩; exact List.suffix_refl _
  | call _ ih => intro _ _ h; exact ih _ _ h
  | txtOk _ ih => rintro _ _ ⟨⟩; exact ih _ _ rfl
  | act => rintro _ _ ⟨⟩; exact List.suffix_refl _
  | swIn _ _ ih => intro _ _ h; exact ih _ _ h
  | swOut _ _ ih => intro _ _ h; exact ih _ _ h
  | swNil _ ih => intro _ _ h; exact ih _ _ h
  | _ => rintro _ _ ⟨⟩

theorem Big.suffix {e s ev r} (h : Big G e s (some (ev, r))) : r <:+ s := h.suffix' _ _ rfl

theorem Big.length_le {e s ev r} (h : Big G e s (some (ev, r))) : r.length ≤ s.length := h.suffix.length_le

/-! ## Determinism -/

theorem Big.det {e s x} (h : Big G e s x) : ∀ {y}, Big G e s y → x = y := by
  induction h with
  | eps => intro y h; cases h; rfl
  | anyOk => intro y h; cases h; rfl
  | anyFail => intro y h; cases h; rfl
  | chrOk => intro y h; cases h <;> first | rfl | contradiction
  | chrNil => intro y h; cases h; rfl
  | chrFail => intro y h; cases h <;> first | rfl | contradiction
  | rngOk h1 h2 => intro y h; cases h with
    | rngOk => rfl
    | rngFail h' => exact absurd ⟨h1, h2⟩ h'
  | rngNil => intro y h; cases h; rfl
  | rngFail h1 => intro y h; cases h with
    | rngOk a b => exact absurd ⟨a, b⟩ h1
    | rngFail => rfl
  | seqOk _ _ ih1 ih2 => intro y h; cases h with
    | seqOk a b => cases ih1 a; cases ih2 b; rfl
    | seqFail1 a => cases ih1 a
    | seqFail2 a b => cases ih1 a; cases ih2 b
  | seqFail1 _ ih => intro y h; cases h with
    | seqOk a b => cases ih a
    | seqFail1 a => rfl
    | seqFail2 a b => rfl
  | seqFail2 _ _ ih1 ih2 => intro y h; cases h with
    | seqOk a b => cases ih1 a; cases ih2 b
    | seqFail1 a => rfl
    | seqFail2 a b => rfl
  | alt1 _ ih => intro y h; cases h with
    | alt1 a => exact ih a
    | alt2 a b => cases ih a
  | alt2 _ _ ih1 ih2 => intro y h; cases h with
    | alt1 a => cases ih1 a
    | alt2 a b => exact ih2 b
  | starNil _ ih => intro y h; cases h with
    | starNil a => rfl
    | starCons a b => cases ih a
  | starCons _ _ ih1 ih2 => intro y h; cases h with
    | starNil a => cases ih1 a
    | starCons a b => cases ih1 a; cases ih2 b; rfl
  | optSome _ ih => intro y h; cases h with
    | optSome a => exact ih a
    | optNone a => cases ih a
  | optNone _ ih => intro y h; cases h with
    | optSome a => cases ih a
    | optNone a => rfl
  | notFail _ ih => intro y h; cases h with
    | notFail a => rfl
    | notOk a => cases ih a
  | notOk _ ih => intro y h; cases h with
    | notFail a => cases ih a
    | notOk a => rfl
  | call _ ih => intro y h; cases h with | call a => exact ih a
  | txtOk _ ih => intro y h; cases h with
    | txtOk a => cases ih a; rfl
    | txtFail a => cases ih a
  | txtFail _ ih => intro y h; cases h with
    | txtOk a => cases ih a
    | txtFail a => rfl
  | act => intro y h; cases h; rfl
  | swIn h1 _ ih => intro y h; cases h with
    | swIn _ a => exact ih a
    | swOut h' a => exact absurd h1 h'
  | swOut h1 _ ih => intro y h; cases h with
    | swIn h' a => exact absurd h' h1
    | swOut _ a => exact ih a
  | swNil _ ih => intro y h; cases h with | swNil a => exact ih a

/-! ## From the functional to the relational semantics -/

/-- The relational reading of a functional result. -/
def Res.toOpt : Res → Option (List Ev × Str)
  | .ok e r => some (e, r)
  | _ => none

theorem starLoop_big {p : Str → Res} {a : PExp} (hp : ∀ s, p s ≠ .div → Big G a s (p s).toOpt) :
    ∀ n s, starLoop p n s ≠ .div → ∃ e r, starLoop p n s = .ok e r ∧ Big G (.star a) s (some (e, r)) := by
  intro n
  induction n with
  | zero => intro s h; simp [starLoop] at h
  | succ n ih =>
    intro s h
    have hps := hp s
    unfold starLoop at h ⊢
    cases hcase : p s with
    | fail => rw [hcase] at hps; exact ⟨_, _, rfl, .starNil (hps (by simp))⟩
    | div => simp [hcase] at h
    | ok e1 r1 =>
      rw [hcase] at hps h
      simp only at h
      have hn : starLoop p n r1 ≠ .div := by intro hd; simp [hd] at h
      obtain ⟨e2, r2, he, hb⟩ := ih r1 hn
      refine ⟨e1 ++ e2, r2, ?_, .starCons (hps (by simp)) hb⟩
      simp [he]

theorem denote_big {env : Rule → Str → Res}
    (henv : ∀ r s, env r s ≠ .div → Big G (.call r) s (env r s).toOpt) :
    ∀ e s, denote env e s ≠ .div → Big G e s (denote env e s).toOpt := by
  intro e
  induction e with
  | eps => intro s _; exact .eps
  | any => intro s _; cases s with
    | nil => exact .anyFail
    | cons c t => exact .anyOk
  | chr c => intro s _; cases s with
    | nil => exact .chrNil
    | cons x t =>
      by_cases hx : x = c
      · subst hx; simpa [denote, Res.toOpt] using Big.chrOk
      · simpa [denote, hx, Res.toOpt] using Big.chrFail hx
  | rng lo hi => intro s _; cases s with
    | nil => exact .rngNil
    | cons x t =>
      by_cases hx : lo.toNat ≤ x.toNat ∧ x.toNat ≤ hi.toNat
      · simpa [denote, hx, Res.toOpt] using Big.rngOk hx.1 hx.2
      · simp only [denote, if_neg hx, Res.toOpt]; exact Big.rngFail hx
  | seq a b iha ihb =>
    intro s h
    have ha := iha s
    unfold denote at h ⊢
    cases hc : denote env a s with
    | fail => rw [hc] at ha; exact .seqFail1 (ha (by simp))
    | div => simp [hc] at h
    | ok e1 r1 =>
      rw [hc] at ha h
      simp only at h ⊢
      have hb := ihb r1
      cases hc2 : denote env b r1 with
      | fail => rw [hc2] at hb; exact .seqFail2 (ha (by simp)) (hb (by simp))
      | div => simp [hc2] at h
      | ok e2 r2 => rw [hc2] at hb; exact .seqOk (ha (by simp)) (hb (by simp))
  | alt a b iha ihb =>
    intro s h
    have ha := iha s
    unfold denote at h ⊢
    cases hc : denote env a s with
    | fail =>
      rw [hc] at ha h
      exact .alt2 (ha (by simp)) (ihb s h)
    | div => simp [hc] at h
    | ok e1 r1 => rw [hc] at ha; exact .alt1 (ha (by simp))
  | star a iha =>
    intro s h
    obtain ⟨e, r, he, hb⟩ := starLoop_big iha _ _ h
    show Big G (.star a) s (starLoop (denote env a) (s.length + 1) s).toOpt
    rw [he]; exact hb
  | opt a iha =>
    intro s h
    have ha := iha s
    unfold denote at h ⊢
    cases hc : denote env a s with
    | fail => rw [hc] at ha; exact .optNone (ha (by simp))
    | div => simp [hc] at h
    | ok e1 r1 => rw [hc] at ha; exact .optSome (ha (by simp))
  | notP a iha =>
    intro s h
    have ha := iha s
    unfold denote at h ⊢
    cases hc : denote env a s with
    | fail => rw [hc] at ha; exact .notOk (ha (by simp))
    | div => simp [hc] at h
    | ok e1 r1 => rw [hc] at ha; exact .notFail (ha (by simp))
  | call r => intro s h; exact henv r s h
  | txt a iha =>
    intro s h
    have ha := iha s
    unfold denote at h ⊢
    cases hc : denote env a s with
    | fail => rw [hc] at ha; exact .txtFail (ha (by simp))
    | div => simp [hc] at h
    | ok e1 r1 => rw [hc] at ha; exact .txtOk (ha (by simp))
  | act n => intro s _; exact .act
  | sw cs a b iha ihb =>
    intro s h
    cases s with
    | nil => exact .swNil (ihb [] h)
    | cons x t =>
      by_cases hx : x ∈ cs
      · have e : denote env (.sw cs a b) (x :: t) = denote env a (x :: t) := by simp [denote, hx]
        rw [e] at h ⊢; exact .swIn hx (iha _ h)
      · have e : denote env (.sw cs a b) (x :: t) = denote env b (x :: t) := by simp [denote, hx]
        rw [e] at h ⊢; exact .swOut hx (ihb _ h)

theorem denoteN_big : ∀ n r s, denoteN G n r s ≠ .div → Big G (.call r) s (denoteN G n r s).toOpt := by
  intro n
  induction n with
  | zero => intro r s h; exact absurd rfl h
  | succ n ih => intro r s h; exact .call (denote_big ih (G r) s h)

/-! ## Termination: a syntactic criterion -/

/-- May the expression succeed without consuming input?  (`nul` answers for rules.) -/
def nullable (nul : Rule → Bool) : PExp → Bool
  | .eps => true
  | .any => false
  | .chr _ => false
  | .rng _ _ => false
  | .seq a b => nullable nul a && nullable nul b
  | .alt a b => nullable nul a || nullable nul b
  | .star _ => true
  | .opt _ => true
  | .notP _ => true
  | .call r => nul r
  | .txt a => nullable nul a
  | .act _ => true
  | .sw _ a b => nullable nul a || nullable nul b

/-- Every rule called before any input is consumed has rank below `k`; repetition bodies always consume. -/
def ranked (nul : Rule → Bool) (rank : Rule → Nat) (K : Nat) : Nat → PExp → Bool
  | _, .eps => true
  | _, .any => true
  | _, .chr _ => true
  | _, .rng _ _ => true
  | k, .seq a b => ranked nul rank K k a && ranked nul rank K (if nullable nul a then k else K) b
  | k, .alt a b => ranked nul rank K k a && ranked nul rank K k b
  | k, .star a => !nullable nul a && ranked nul rank K k a
  | k, .opt a => ranked nul rank K k a
  | k, .notP a => ranked nul rank K k a
  | k, .call r => decide (rank r < k)
  | k, .txt a => ranked nul rank K k a
  | _, .act _ => true
  | k, .sw _ a b => ranked nul rank K k a && ranked nul rank K k b

theorem Big.consumes' {nul : Rule → Bool} (hn : ∀ r, nullable nul (G r) = true → nul r = true) {e s x}
    (h : Big G e s x) : ∀ ev r, x = some (ev, r) → nullable nul e = false → r.length < s.length := by
  induction h with
  | anyOk => rintro _ _ ⟨⟩ _; simp
  | chrOk => rintro _ _ ⟨⟩ _; simp
  | rngOk => rintro _ _ ⟨⟩ _; simp
  | seqOk a b iha ihb =>
    rintro _ _ ⟨⟩ hh
    simp only [nullable, Bool.and_eq_false_iff] at hh
    have h1 := a.length_le; have h2 := b.length_le
    rcases hh with hh | hh
    · have := iha _ _ rfl hh; omega
    · have := ihb _ _ rfl hh; omega
  | alt1 _ ih =>
    intro _ _ h hh; simp only [nullable, Bool.or_eq_false_iff] at hh; exact ih _ _ h hh.1
  | alt2 _ _ _ ih =>
    intro _ _ h hh; simp only [nullable, Bool.or_eq_false_iff] at hh; exact ih _ _ h hh.2
  | call _ ih =>
    intro ev r' h hh
    refine ih _ _ h ?_
    rename_i r s x _
    cases hc : nullable nul (G r) with
    | false => rfl
    | true => have h2 := hn _ hc; simp only [nullable] at hh; rw [h2] at hh; cases hh
  | txtOk _ ih => rintro _ _ ⟨⟩ hh; exact ih _ _ rfl hh
  | swIn _ _ ih =>
    intro _ _ h hh; simp only [nullable, Bool.or_eq_false_iff] at hh; exact ih _ _ h hh.1
  | swOut _ _ ih =>
    intro _ _ h hh; simp only [nullable, Bool.or_eq_false_iff] at hh; exact ih _ _ h hh.2
  | swNil _ ih =>
    intro _ _ h hh; simp only [nullable, Bool.or_eq_false_iff] at hh; exact ih _ _ h hh.2
  | _ => first | (rintro _ _ ⟨⟩ hh; simp [nullable] at hh) | (rintro _ _ ⟨⟩)

theorem starLoop_ne_div {p : Str → Res} :
    ∀ n s, s.length < n → (∀ s', s'.length ≤ s.length → p s' ≠ .div) →
      (∀ s' e r, p s' = .ok e r → r.length < s'.length) → starLoop p n s ≠ .div := by
  intro n
  induction n with
  | zero => intro s h; omega
  | succ n ih =>
    intro s hn hd hc
    unfold starLoop
    cases hcase : p s with
    | fail => simp
    | div => exact absurd hcase (hd s (Nat.le_refl _))
    | ok e1 r1 =>
      have hl := hc _ _ _ hcase
      have := ih r1 (by omega) (fun s' hs' => hd s' (by omega)) hc
      simp only
      split <;> simp_all

theorem denote_ne_div {nul : Rule → Bool} {rank : Rule → Nat} {K : Nat}
    (hn : ∀ r, nullable nul (G r) = true → nul r = true)
    (hr : ∀ r, ranked nul rank K (rank r) (G r) = true) :
    ∀ n e k s, k ≤ K → ranked nul rank K k e = true → K * s.length + k ≤ n →
      denote (denoteN G n) e s ≠ .div := by
  intro n
  induction n using Nat.strongRecOn with
  | _ n ihn =>
  intro e
  induction e with
  | eps => intros; simp [denote]
  | any => intro k s _ _ _; cases s <;> simp [denote]
  | chr c =>
    intro k s _ _ _
    cases s with
    | nil => simp [denote]
    | cons x t => by_cases hx : x = c <;> simp [denote, hx]
  | rng lo hi =>
    intro k s _ _ _
    cases s with
    | nil => simp [denote]
    | cons x t =>
      by_cases hx : lo.toNat ≤ x.toNat ∧ x.toNat ≤ hi.toNat
      · simp [denote, hx]
      · simp [denote, if_neg hx]
  | seq a b iha ihb =>
    intro k s hk hw hl
    simp only [ranked, Bool.and_eq_true] at hw
    have ha := iha k s hk hw.1 hl
    have hba := denote_big (denoteN_big n) a s ha
    unfold denote
    cases hc : denote (denoteN G n) a s with
    | fail => simp
    | div => exact absurd hc ha
    | ok e1 r1 =>
      rw [hc] at hba
      have hb : denote (denoteN G n) b r1 ≠ .div := by
        by_cases hnul : nullable nul a = true
        · refine ihb k r1 hk ?_ ?_
          · simpa [hnul] using hw.2
          · have h1 : r1.length ≤ s.length := hba.length_le
            have h2 := Nat.mul_le_mul_left K h1
            omega
        · have h1 : r1.length < s.length := Big.consumes' hn hba _ _ rfl (by simpa using hnul)
          refine ihb K r1 (Nat.le_refl _) ?_ ?_
          · simpa [hnul] using hw.2
          · have h2 := Nat.mul_le_mul_left K (Nat.succ_le_of_lt h1)
            rw [Nat.mul_succ] at h2; omega
      simp only
      split <;> simp_all
  | alt a b iha ihb =>
    intro k s hk hw hl
    simp only [ranked, Bool.and_eq_true] at hw
    have ha := iha k s hk hw.1 hl
    have hb := ihb k s hk hw.2 hl
    unfold denote
    split <;> simp_all
  | star a iha =>
    intro k s hk hw hl
    simp only [ranked, Bool.and_eq_true, Bool.not_eq_true'] at hw
    refine starLoop_ne_div _ _ (Nat.lt_succ_self _) ?_ ?_
    · intro s' hs'
      have h2 := Nat.mul_le_mul_left K hs'
      exact iha k s' hk hw.2 (by omega)
    · intro s' e r he
      have hb := denote_big (denoteN_big n) a s' (by rw [he]; simp)
      rw [he] at hb
      exact Big.consumes' hn hb _ _ rfl hw.1
  | opt a iha =>
    intro k s hk hw hl
    have ha := iha k s hk hw hl
    unfold denote
    split <;> simp_all
  | notP a iha =>
    intro k s hk hw hl
    have ha := iha k s hk hw hl
    unfold denote
    split <;> simp_all
  | call r =>
    intro k s hk hw hl
    simp only [ranked, decide_eq_true_eq] at hw
    cases n with
    | zero => omega
    | succ n =>
      show denote (denoteN G n) (G r) s ≠ .div
      exact ihn n (by omega) (G r) (rank r) s (by omega) (hr r) (by omega)
  | txt a iha =>
    intro k s hk hw hl
    have ha := iha k s hk hw hl
    unfold denote
    split <;> simp_all
  | act n => intros; simp [denote]
  | sw cs a b iha ihb =>
    intro k s hk hw hl
    simp only [ranked, Bool.and_eq_true] at hw
    have ha := iha k s hk hw.1 hl
    have hb := ihb k s hk hw.2 hl
    cases s with
    | nil => simpa [denote] using hb
    | cons x t => by_cases hx : x ∈ cs <;> simp [denote, hx] <;> assumption

end Verif
