import Verif.StepsLin

/-! # Steps that do not depend on the text

`hcOf` bounds the steps of an expression on a text whose first character the expression cannot consume: it looks at that character only. -/

namespace Verif

theorem Run.det {G : Rule → PExp} {e s x k} (h : Run G e s x k) : ∀ {x' k'}, Run G e s x' k' → x = x' ∧ k = k' := by
  induction h with
  | eps => intro _ _ h; cases h; exact ⟨rfl, rfl⟩
  | anyOk => intro _ _ h; cases h; exact ⟨rfl, rfl⟩
  | anyFail => intro _ _ h; cases h; exact ⟨rfl, rfl⟩
  | chrOk => intro _ _ h; cases h with | chrOk => exact ⟨rfl, rfl⟩ | chrFail h => exact absurd rfl h
  | chrNil => intro _ _ h; cases h; exact ⟨rfl, rfl⟩
  | chrFail h => intro _ _ h'; cases h' with | chrOk => exact absurd rfl h | chrFail h => exact ⟨rfl, rfl⟩
  | rngOk h1 h2 => intro _ _ h; cases h with | rngOk => exact ⟨rfl, rfl⟩ | rngFail h => exact absurd ⟨h1, h2⟩ h
  | rngNil => intro _ _ h; cases h; exact ⟨rfl, rfl⟩
  | rngFail h => intro _ _ h'; cases h' with | rngOk h1 h2 => exact absurd ⟨h1, h2⟩ h | rngFail h => exact ⟨rfl, rfl⟩
  | seqOk _ _ ih1 ih2 =>
    intro _ _ h
    cases h with
    | seqOk h1 h2 => obtain ⟨e1, rfl⟩ := ih1 h1; cases e1; obtain ⟨e2, rfl⟩ := ih2 h2; exact ⟨e2, rfl⟩
    | seqFail h1 => cases (ih1 h1).1
  | seqFail _ ih1 =>
    intro _ _ h
    cases h with
    | seqOk h1 _ => cases (ih1 h1).1
    | seqFail h1 => obtain ⟨_, rfl⟩ := ih1 h1; exact ⟨rfl, rfl⟩
  | alt1 _ ih1 =>
    intro _ _ h
    cases h with
    | alt1 h1 => obtain ⟨e1, rfl⟩ := ih1 h1; exact ⟨e1, rfl⟩
    | alt2 h1 _ => cases (ih1 h1).1
  | alt2 _ _ ih1 ih2 =>
    intro _ _ h
    cases h with
    | alt1 h1 => cases (ih1 h1).1
    | alt2 h1 h2 => obtain ⟨_, rfl⟩ := ih1 h1; obtain ⟨e2, rfl⟩ := ih2 h2; exact ⟨e2, rfl⟩
  | starNil _ ih1 =>
    intro _ _ h
    cases h with
    | starNil h1 => obtain ⟨_, rfl⟩ := ih1 h1; exact ⟨rfl, rfl⟩
    | starCons h1 _ => cases (ih1 h1).1
  | starCons _ _ ih1 ih2 =>
    intro _ _ h
    cases h with
    | starNil h1 => cases (ih1 h1).1
    | starCons h1 h2 => obtain ⟨e1, rfl⟩ := ih1 h1; cases e1; obtain ⟨e2, rfl⟩ := ih2 h2; exact ⟨e2, rfl⟩
  | optSome _ ih1 =>
    intro _ _ h
    cases h with
    | optSome h1 => obtain ⟨e1, rfl⟩ := ih1 h1; exact ⟨e1, rfl⟩
    | optNone h1 => cases (ih1 h1).1
  | optNone _ ih1 =>
    intro _ _ h
    cases h with
    | optSome h1 => cases (ih1 h1).1
    | optNone h1 => obtain ⟨_, rfl⟩ := ih1 h1; exact ⟨rfl, rfl⟩
  | notFail _ ih1 =>
    intro _ _ h
    cases h with
    | notFail h1 => obtain ⟨_, rfl⟩ := ih1 h1; exact ⟨rfl, rfl⟩
    | notOk h1 => cases (ih1 h1).1
  | notOk _ ih1 =>
    intro _ _ h
    cases h with
    | notFail h1 => cases (ih1 h1).1
    | notOk h1 => obtain ⟨_, rfl⟩ := ih1 h1; exact ⟨rfl, rfl⟩
  | call _ ih1 => intro _ _ h; cases h with | call h1 => obtain ⟨e1, rfl⟩ := ih1 h1; exact ⟨e1, rfl⟩
  | txt _ ih1 => intro _ _ h; cases h with | txt h1 => obtain ⟨e1, rfl⟩ := ih1 h1; exact ⟨e1, rfl⟩
  | act => intro _ _ h; cases h; exact ⟨rfl, rfl⟩
  | swIn hc _ ih1 =>
    intro _ _ h
    cases h with
    | swIn _ h1 => obtain ⟨e1, rfl⟩ := ih1 h1; exact ⟨e1, rfl⟩
    | swOut hn _ => exact absurd hc hn
  | swOut hc _ ih1 =>
    intro _ _ h
    cases h with
    | swIn hn _ => exact absurd hn hc
    | swOut _ h1 => obtain ⟨e1, rfl⟩ := ih1 h1; exact ⟨e1, rfl⟩
  | swNil _ ih1 => intro _ _ h; cases h with | swNil h1 => obtain ⟨e1, rfl⟩ := ih1 h1; exact ⟨e1, rfl⟩

theorem Big.run {G : Rule → PExp} {e s x} (h : Big G e s x) : ∃ k, Run G e s (x.map Prod.snd) k := by
  induction h with
  | eps => exact ⟨_, .eps⟩
  | anyOk => exact ⟨_, .anyOk⟩
  | anyFail => exact ⟨_, .anyFail⟩
  | chrOk => exact ⟨_, .chrOk⟩
  | chrNil => exact ⟨_, .chrNil⟩
  | chrFail h => exact ⟨_, .chrFail h⟩
  | rngOk h1 h2 => exact ⟨_, .rngOk h1 h2⟩
  | rngNil => exact ⟨_, .rngNil⟩
  | rngFail h => exact ⟨_, .rngFail h⟩
  | seqOk _ _ ih1 ih2 => obtain ⟨_, h1⟩ := ih1; obtain ⟨_, h2⟩ := ih2; exact ⟨_, .seqOk h1 h2⟩
  | seqFail1 _ ih1 => obtain ⟨_, h1⟩ := ih1; exact ⟨_, .seqFail h1⟩
  | seqFail2 _ _ ih1 ih2 => obtain ⟨_, h1⟩ := ih1; obtain ⟨_, h2⟩ := ih2; exact ⟨_, .seqOk h1 h2⟩
  | alt1 _ ih1 => obtain ⟨_, h1⟩ := ih1; exact ⟨_, .alt1 h1⟩
  | alt2 _ _ ih1 ih2 => obtain ⟨_, h1⟩ := ih1; obtain ⟨_, h2⟩ := ih2; exact ⟨_, .alt2 h1 h2⟩
  | starNil _ ih1 => obtain ⟨_, h1⟩ := ih1; exact ⟨_, .starNil h1⟩
  | starCons _ _ ih1 ih2 => obtain ⟨_, h1⟩ := ih1; obtain ⟨_, h2⟩ := ih2; exact ⟨_, .starCons h1 h2⟩
  | optSome _ ih1 => obtain ⟨_, h1⟩ := ih1; exact ⟨_, .optSome h1⟩
  | optNone _ ih1 => obtain ⟨_, h1⟩ := ih1; exact ⟨_, .optNone h1⟩
  | notFail _ ih1 => obtain ⟨_, h1⟩ := ih1; exact ⟨_, .notFail h1⟩
  | notOk _ ih1 => obtain ⟨_, h1⟩ := ih1; exact ⟨_, .notOk h1⟩
  | call _ ih1 => obtain ⟨_, h1⟩ := ih1; exact ⟨_, .call h1⟩
  | txtOk _ ih1 => obtain ⟨_, h1⟩ := ih1; exact ⟨_, .txt h1⟩
  | txtFail _ ih1 => obtain ⟨_, h1⟩ := ih1; exact ⟨_, .txt h1⟩
  | act => exact ⟨_, .act⟩
  | swIn h _ ih1 => obtain ⟨_, h1⟩ := ih1; exact ⟨_, .swIn h h1⟩
  | swOut h _ ih1 => obtain ⟨_, h1⟩ := ih1; exact ⟨_, .swOut h h1⟩
  | swNil _ ih1 => obtain ⟨_, h1⟩ := ih1; exact ⟨_, .swNil h1⟩

/-- The first character of `s`, if any, is not one that `e` can consume. -/
def Off (e : PExp) (s : Str) : Prop := ∀ c t, s = c :: t → (first nulG firstG e).has c = false

theorem Run.off {e s r k} (h : Run G e s (some r) k) (ho : Off e s) : r = s := by
  obtain ⟨ev, hb⟩ := h.big_some
  cases s with
  | nil => exact List.length_eq_zero_iff.mp (Nat.le_zero.mp hb.length_le)
  | cons c t =>
    by_cases hr : r = c :: t
    · exact hr
    · have := Big.first' nulG_ok firstG_ok hb c t _ _ rfl rfl hr
      rw [ho c t rfl] at this; cases this

/-- The bound for expressions, given one for rules. -/
def hcOf (cl : Rule → Option Nat) : PExp → Option Nat
  | .eps => some 1
  | .any => some 1
  | .chr _ => some 1
  | .rng _ _ => some 1
  | .seq a b =>
    match hcOf cl a with
    | none => none
    | some n => if nullable nulG a then (hcOf cl b).map (n + · + 1) else some (n + 1)
  | .alt a b =>
    match hcOf cl a, hcOf cl b with
    | some n, some m => some (n + m + 1)
    | _, _ => none
  | .star a => if nullable nulG a then none else (hcOf cl a).map (· + 1)
  | .opt a => (hcOf cl a).map (· + 1)
  | .notP a =>
    match costOf none (fun _ => none) a with
    | some (.con n) => some (n + 1)
    | _ => none
  | .call r => cl r
  | .txt a => (hcOf cl a).map (· + 1)
  | .act _ => some 1
  | .sw _ a b =>
    match hcOf cl a, hcOf cl b with
    | some n, some m => some (n + m + 1)
    | _, _ => none

/-- The bound for rules. -/
def hcR : Nat → Rule → Option Nat
  | 0, _ => none
  | n + 1, r => (hcOf (hcR n) (G r)).map (· + 1)

theorem hcOf_ok {cl : Rule → Option Nat} (hcl : ∀ r n, cl r = some n → ∀ s x k, Off (.call r) s → Run G (.call r) s x k → k ≤ n) :
    ∀ e n, hcOf cl e = some n → ∀ s x k, Off e s → Run G e s x k → k ≤ n := by
  intro e
  induction e with
  | eps => rintro n ⟨⟩ s x k _ h; cases h; exact Nat.le_refl _
  | any => rintro n ⟨⟩ s x k _ h; cases h <;> exact Nat.le_refl _
  | chr d => rintro n ⟨⟩ s x k _ h; cases h <;> exact Nat.le_refl _
  | rng d d' => rintro n ⟨⟩ s x k _ h; cases h <;> exact Nat.le_refl _
  | act n => rintro n ⟨⟩ s x k _ h; cases h; exact Nat.le_refl _
  | seq a b iha ihb =>
    intro n hn s x k ho h
    have hoa : Off a s := by
      intro c t hs
      have := ho c t hs
      simp only [first, CSet.has_append, Bool.or_eq_false_iff] at this
      exact this.1
    unfold hcOf at hn
    cases ha : hcOf cl a with
    | none => rw [ha] at hn; cases hn
    | some na =>
      rw [ha] at hn
      simp only at hn
      cases h with
      | seqFail h1 =>
        have := iha _ ha _ _ _ hoa h1
        split at hn
        · obtain ⟨m, _, rfl⟩ := Option.map_eq_some_iff.mp hn; omega
        · cases hn; omega
      | seqOk h1 h2 =>
        have k1 := iha _ ha _ _ _ hoa h1
        split at hn
        · rename_i hnull
          obtain ⟨m, hm, rfl⟩ := Option.map_eq_some_iff.mp hn
          have := h1.off hoa
          subst this
          have := ihb _ hm _ _ _ (by
            intro c t hs
            have := ho c t hs
            simp only [first, CSet.has_append, Bool.or_eq_false_iff, hnull, if_true] at this
            exact this.2) h2
          omega
        · rename_i hnull
          have := h1.lt (by simpa using hnull)
          have e := h1.off hoa
          subst e
          omega
  | alt a b iha ihb =>
    intro n hn s x k ho h
    unfold hcOf at hn
    cases ha : hcOf cl a with
    | none => rw [ha] at hn; cases hn
    | some na =>
      cases hb : hcOf cl b with
      | none => rw [ha, hb] at hn; cases hn
      | some nb =>
        rw [ha, hb] at hn; cases hn
        have hoa : Off a s := by
          intro c t hs
          have := ho c t hs
          simp only [first, CSet.has_append, Bool.or_eq_false_iff] at this
          exact this.1
        have hob : Off b s := by
          intro c t hs
          have := ho c t hs
          simp only [first, CSet.has_append, Bool.or_eq_false_iff] at this
          exact this.2
        cases h with
        | alt1 h1 => have := iha _ ha _ _ _ hoa h1; omega
        | alt2 h1 h2 => have := iha _ ha _ _ _ hoa h1; have := ihb _ hb _ _ _ hob h2; omega
  | star a iha =>
    intro n hn s x k ho h
    unfold hcOf at hn
    split at hn
    · cases hn
    · rename_i hnull
      obtain ⟨m, hm, rfl⟩ := Option.map_eq_some_iff.mp hn
      have hoa : Off a s := ho
      cases h with
      | starNil h1 => have := iha _ hm _ _ _ hoa h1; omega
      | starCons h1 _ =>
        have := h1.lt (by simpa using hnull)
        have e := h1.off hoa
        subst e
        omega
  | opt a iha =>
    intro n hn s x k ho h
    obtain ⟨m, hm, rfl⟩ := Option.map_eq_some_iff.mp hn
    cases h with
    | optSome h1 => have := iha _ hm _ _ _ ho h1; omega
    | optNone h1 => have := iha _ hm _ _ _ ho h1; omega
  | notP a iha =>
    intro n hn s x k ho h
    unfold hcOf at hn
    split at hn
    · rename_i m hm
      cases hn
      have := costOf_holds (sc := none) (cl := fun _ => none) (by simp) (by simp) a _ hm
      cases h with
      | notFail h1 => have := this _ _ _ h1; omega
      | notOk h1 => have := this _ _ _ h1; omega
    · cases hn
  | call r => intro n hn s x k ho h; exact hcl r n hn s x k ho h
  | txt a iha =>
    intro n hn s x k ho h
    obtain ⟨m, hm, rfl⟩ := Option.map_eq_some_iff.mp hn
    cases h with
    | txt h1 => have := iha _ hm _ _ _ ho h1; omega
  | sw cs a b iha ihb =>
    intro n hn s x k ho h
    unfold hcOf at hn
    cases ha : hcOf cl a with
    | none => rw [ha] at hn; cases hn
    | some na =>
      cases hb : hcOf cl b with
      | none => rw [ha, hb] at hn; cases hn
      | some nb =>
        rw [ha, hb] at hn; cases hn
        have hoa : Off a s := by
          intro c t hs
          have := ho c t hs
          simp only [first, CSet.has_append, Bool.or_eq_false_iff] at this
          exact this.1
        have hob : Off b s := by
          intro c t hs
          have := ho c t hs
          simp only [first, CSet.has_append, Bool.or_eq_false_iff] at this
          exact this.2
        cases h with
        | swIn _ h1 => have := iha _ ha _ _ _ hoa h1; omega
        | swOut _ h1 => have := ihb _ hb _ _ _ hob h1; omega
        | swNil h1 => have := ihb _ hb _ _ _ hob h1; omega

theorem hcR_ok : ∀ m r n, hcR m r = some n → ∀ s x k, Off (.call r) s → Run G (.call r) s x k → k ≤ n := by
  intro m
  induction m with
  | zero => rintro r n ⟨⟩
  | succ m ih =>
    intro r n hn s x k ho h
    obtain ⟨n', hn', rfl⟩ := Option.map_eq_some_iff.mp hn
    cases h with
    | call h =>
      have := hcOf_ok ih _ _ hn' s _ _ (by
        intro c t hs
        cases hh : (first nulG firstG (G r)).has c with
        | false => rfl
        | true => have := CSet.has_sub (firstG_ok r) hh; have h2 := ho c t hs; simp only [first] at h2; rw [h2] at this; cases this) h
      omega

/-- On a text whose first character `e` cannot consume, `e` takes at most `n` steps. -/
theorem head_steps {e : PExp} {n : Nat} (he : hcOf (hcR 12) e = some n) {s x k} (ho : Off e s) (h : Run G e s x k) : k ≤ n :=
  hcOf_ok (hcR_ok 12) e n he s x k ho h

end Verif
