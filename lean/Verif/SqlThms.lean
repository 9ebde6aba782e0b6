import Verif.Spec.Sql

/-! # Helper lemmas about the SQL reader -/

namespace Verif

theorem run_append (a b : Str) : ∀ st, run st (a ++ b) = (run st a).bind fun r => (run r.2 b).map fun r' => (r.1 ++ r'.1, r'.2) := by
  induction a with
  | nil => intro st; simp [run]
  | cons c a ih =>
    intro st
    simp only [List.cons_append, run]
    cases step st c with
    | none => rfl
    | some r =>
      simp only [Option.bind_some, ih]
      cases run r.2 a with
      | none => rfl
      | some r' =>
        simp only [Option.bind_some, Option.map_some]
        cases run r'.2 b with
        | none => rfl
        | some r'' => simp

/-- The text consists of the words. -/
def Lx (t : Str) (ts : List SqlTok) : Prop := lexSql t = some ts

/-- The text ends between words, and consists of the words. -/
def Lx0 (t : Str) (ts : List SqlTok) : Prop := run .idle t = some (ts, .idle)

theorem Lx0.lx {t ts} (h : Lx0 t ts) : Lx t ts := by unfold Lx lexSql; rw [h]; simp [flush]

theorem Lx0.app {a b ts us} (h1 : Lx0 a ts) (h2 : Lx0 b us) : Lx0 (a ++ b) (ts ++ us) := by
  unfold Lx0 at *; rw [run_append, h1]; simp [h2]

theorem Lx0.app1 {a b ts us} (h1 : Lx0 a ts) (h2 : Lx b us) : Lx (a ++ b) (ts ++ us) := by
  unfold Lx0 Lx lexSql at *; rw [run_append, h1]
  simp only [Option.bind_some]
  cases h : run .idle b with
  | none => rw [h] at h2; cases h2
  | some r =>
    rw [h] at h2
    simp only [Option.bind_some, Option.map_some, Option.map_eq_some_iff] at h2 ⊢
    obtain ⟨ts', h3, rfl⟩ := h2
    exact ⟨ts', h3, by simp⟩

theorem step_delim {st ts c} (hf : flush st = some ts) (hc : c ∈ c!" ),") : step st c = (stepIdle c).map fun r => (ts ++ r.1, r.2) := by
  simp only [List.mem_cons, List.not_mem_nil, or_false] at hc
  cases st with
  | idle => cases hf; rcases hc with rfl | rfl | rfl <;> rfl
  | quote => cases hf
  | dot => cases hf
  | _ => cases hf; rcases hc with rfl | rfl | rfl <;> rfl

/-- After a blank, a closing parenthesis or a comma a new word begins. -/
theorem Lx.delim {a ts c b us} (h1 : Lx a ts) (hc : c ∈ c!" ),") (h2 : Lx0 (c :: b) us) : Lx0 (a ++ c :: b) (ts ++ us) := by
  unfold Lx lexSql at h1
  unfold Lx0 at *
  rw [run_append]
  cases h : run .idle a with
  | none => rw [h] at h1; cases h1
  | some r =>
    rw [h] at h1
    simp only [Option.bind_some, Option.map_eq_some_iff] at h1
    obtain ⟨ts', hf, rfl⟩ := h1
    simp only [Option.bind_some]
    rw [run] at h2 ⊢
    rw [step_delim hf hc]
    have hi : step .idle c = stepIdle c := rfl
    rw [hi] at h2
    cases hs : stepIdle c with
    | none => rw [hs] at h2; cases h2
    | some r1 =>
      rw [hs] at h2
      simp only [Option.bind_some, Option.map_some, Option.map_eq_some_iff] at h2 ⊢
      obtain ⟨r2, h3, h4⟩ := h2
      refine ⟨_, ⟨r2, h3, rfl⟩, ?_⟩
      simp only [Prod.mk.injEq] at h4 ⊢
      rw [← h4.1]
      simp [h4.2]

/-! ## The bound on the recursion is irrelevant -/

theorem pVals_mono : ∀ f ts r, pVals f ts = some r → pVals (f + 1) ts = some r
  | 0, _, _, h => nomatch h
  | f + 1, ts, r, h => by
    rw [pVals] at h ⊢
    cases hv : pVal ts with
    | none => rw [hv] at h; cases h
    | some x =>
      rw [hv] at h
      simp only [Option.bind_some] at h ⊢
      split at h
      · rename_i ts' hx
        simp only [Option.map_eq_some_iff] at h ⊢
        obtain ⟨r', h1, h2⟩ := h
        exact ⟨r', pVals_mono f _ _ h1, h2⟩
      · exact h
      · cases h

theorem pSet_mono {f ts r} (h : pSet f ts = some r) : pSet (f + 1) ts = some r := by
  unfold pSet at h ⊢
  split at h
  · exact h
  · simp only [Option.map_eq_some_iff] at h ⊢
    obtain ⟨r', h1, h2⟩ := h
    exact ⟨r', pVals_mono _ _ _ h1, h2⟩
  · cases h

theorem p_mono : ∀ f : Nat, (∀ ts r, pOr f ts = some r → pOr (f + 1) ts = some r) ∧ (∀ x ts r, orTail f x ts = some r → orTail (f + 1) x ts = some r) ∧
    (∀ ts r, pAnd f ts = some r → pAnd (f + 1) ts = some r) ∧ (∀ x ts r, andTail f x ts = some r → andTail (f + 1) x ts = some r) ∧
    (∀ ts r, pNot f ts = some r → pNot (f + 1) ts = some r) ∧ (∀ ts r, pPred f ts = some r → pPred (f + 1) ts = some r) ∧
    (∀ ts r, pPrim f ts = some r → pPrim (f + 1) ts = some r) ∧ (∀ ts r, pArgs f ts = some r → pArgs (f + 1) ts = some r) := by
  intro f
  induction f with
  | zero => exact ⟨nofun, nofun, nofun, nofun, nofun, nofun, nofun, nofun⟩
  | succ f ih =>
    obtain ⟨i1, i2, i3, i4, i5, i6, i7, i8⟩ := ih
    refine ⟨?_, ?_, ?_, ?_, ?_, ?_, ?_, ?_⟩
    · intro ts r h
      rw [pOr, Option.bind_eq_some_iff] at h ⊢
      obtain ⟨x, h1, h2⟩ := h
      exact ⟨x, i3 _ _ h1, i2 _ _ _ h2⟩
    · intro x ts r h
      unfold orTail at h ⊢
      split at h
      · split at h
        · rename_i hw
          rw [if_pos hw]
          rw [Option.bind_eq_some_iff] at h ⊢
          obtain ⟨x, h1, h2⟩ := h
          exact ⟨x, i3 _ _ h1, i2 _ _ _ h2⟩
        · rename_i hw; rw [if_neg hw]; exact h
      · exact h
    · intro ts r h
      rw [pAnd, Option.bind_eq_some_iff] at h ⊢
      obtain ⟨x, h1, h2⟩ := h
      exact ⟨x, i5 _ _ h1, i4 _ _ _ h2⟩
    · intro x ts r h
      unfold andTail at h ⊢
      split at h
      · split at h
        · rename_i hw
          rw [if_pos hw]
          rw [Option.bind_eq_some_iff] at h ⊢
          obtain ⟨x, h1, h2⟩ := h
          exact ⟨x, i5 _ _ h1, i4 _ _ _ h2⟩
        · rename_i hw; rw [if_neg hw]; exact h
      · exact h
    · intro ts r h
      unfold pNot at h ⊢
      split at h
      · split at h
        · rename_i hw
          rw [if_pos hw]
          rw [Option.map_eq_some_iff] at h ⊢
          obtain ⟨x, h1, h2⟩ := h
          exact ⟨x, i5 _ _ h1, h2⟩
        · rename_i hw; rw [if_neg hw]; exact i6 _ _ h
      · exact i6 _ _ h
    · intro ts r h
      rw [pPred, Option.bind_eq_some_iff] at h ⊢
      obtain ⟨x, h1, h2⟩ := h
      refine ⟨x, i7 _ _ h1, ?_⟩
      split at h2
      · exact h2
      · rw [Option.bind_eq_some_iff] at h2 ⊢
        obtain ⟨y, h3, h4⟩ := h2
        exact ⟨y, i7 _ _ h3, h4⟩
      · rw [Option.bind_eq_some_iff] at h2 ⊢
        obtain ⟨y, h3, h4⟩ := h2
        exact ⟨y, pSet_mono h3, h4⟩
      · exact h2
      · rw [Option.bind_eq_some_iff] at h2 ⊢
        obtain ⟨y, h3, h4⟩ := h2
        refine ⟨y, i7 _ _ h3, ?_⟩
        split at h4
        · split at h4
          · rename_i hw
            rw [if_pos hw]
            rw [Option.bind_eq_some_iff] at h4 ⊢
            obtain ⟨z, h5, h6⟩ := h4
            exact ⟨z, i7 _ _ h5, h6⟩
          · cases h4
        · cases h4
    · intro ts r h
      rw [pPrim.eq_def] at h ⊢
      simp only [] at h ⊢
      split at h
      · rw [Option.bind_eq_some_iff] at h ⊢
        obtain ⟨x, h1, h2⟩ := h
        exact ⟨x, i1 _ _ h1, h2⟩
      · exact h
      · exact h
      · rw [Option.map_eq_some_iff] at h ⊢
        obtain ⟨x, h1, h2⟩ := h
        exact ⟨x, i8 _ _ h1, h2⟩
      · exact h
    · intro ts r h
      rw [pArgs, Option.bind_eq_some_iff] at h ⊢
      obtain ⟨x, h1, h2⟩ := h
      refine ⟨x, i1 _ _ h1, ?_⟩
      split at h2
      · rw [Option.map_eq_some_iff] at h2 ⊢
        obtain ⟨y, h3, h4⟩ := h2
        exact ⟨y, i8 _ _ h3, h4⟩
      · exact h2
      · cases h2

theorem pOr_le {f g ts r} (h : pOr f ts = some r) (hl : f ≤ g) : pOr g ts = some r := by
  induction hl with | refl => exact h | step _ ih => exact (p_mono _).1 _ _ ih
theorem orTail_le {f g x ts r} (h : orTail f x ts = some r) (hl : f ≤ g) : orTail g x ts = some r := by
  induction hl with | refl => exact h | step _ ih => exact (p_mono _).2.1 _ _ _ ih
theorem pAnd_le {f g ts r} (h : pAnd f ts = some r) (hl : f ≤ g) : pAnd g ts = some r := by
  induction hl with | refl => exact h | step _ ih => exact (p_mono _).2.2.1 _ _ ih
theorem andTail_le {f g x ts r} (h : andTail f x ts = some r) (hl : f ≤ g) : andTail g x ts = some r := by
  induction hl with | refl => exact h | step _ ih => exact (p_mono _).2.2.2.1 _ _ _ ih
theorem pNot_le {f g ts r} (h : pNot f ts = some r) (hl : f ≤ g) : pNot g ts = some r := by
  induction hl with | refl => exact h | step _ ih => exact (p_mono _).2.2.2.2.1 _ _ ih
theorem pPred_le {f g ts r} (h : pPred f ts = some r) (hl : f ≤ g) : pPred g ts = some r := by
  induction hl with | refl => exact h | step _ ih => exact (p_mono _).2.2.2.2.2.1 _ _ ih
theorem pPrim_le {f g ts r} (h : pPrim f ts = some r) (hl : f ≤ g) : pPrim g ts = some r := by
  induction hl with | refl => exact h | step _ ih => exact (p_mono _).2.2.2.2.2.2.1 _ _ ih
theorem pArgs_le {f g ts r} (h : pArgs f ts = some r) (hl : f ≤ g) : pArgs g ts = some r := by
  induction hl with | refl => exact h | step _ ih => exact (p_mono _).2.2.2.2.2.2.2 _ _ ih
theorem pVals_le {f g ts r} (h : pVals f ts = some r) (hl : f ≤ g) : pVals g ts = some r := by
  induction hl with | refl => exact h | step _ ih => exact pVals_mono _ _ _ ih

/-- A text is read in at most one way. -/
theorem Reads.unique {ts e e'} (h : Reads ts e) (h' : Reads ts e') : e = e' := by
  obtain ⟨f, h⟩ := h
  obtain ⟨g, h'⟩ := h'
  have h1 := pOr_le h (Nat.le_max_left f g)
  have h2 := pOr_le h' (Nat.le_max_right f g)
  rw [h1] at h2
  cases h2; rfl

theorem ReadsQ.unique {s vs e e'} (h : ReadsQ s vs e) (h' : ReadsQ s vs e') : e = e' := by
  obtain ⟨ts, us, h1, h2, h3⟩ := h
  obtain ⟨ts', us', h1', h2', h3'⟩ := h'
  rw [h1] at h1'; cases h1'
  rw [h2] at h2'; cases h2'
  exact h3.unique h3'

theorem ReadsN.unique {b s vs e e'} (h : ReadsN b s vs e) (h' : ReadsN b s vs e') : e = e' := by
  obtain ⟨ts, us, h1, h2, h3⟩ := h
  obtain ⟨ts', us', h1', h2', h3'⟩ := h'
  rw [h1] at h1'; cases h1'
  rw [h2] at h2'; cases h2'
  exact h3.unique h3'

end Verif
