import Verif.SizeThms
import Verif.Gorm

/-! # Lemmas for C65: the gorm translator -/

namespace Verif

theorem vsizeL_append (a b : List GoVal) : vsizeL (a ++ b) = vsizeL a + vsizeL b := by
  induction a with
  | nil => simp [vsizeL]
  | cons n a ih => simp [vsizeL, ih]; omega

theorem lit_value {n v} (h : LitNode n) (hv : value n = some v) : vsize v = weight n := by
  cases n <;> simp only [LitNode] at h <;> simp only [value] at hv <;> cases hv <;> rfl

theorem lits_value : ∀ {l : List Node} {vs}, (∀ n ∈ l, LitNode n) → valueL l = some vs → vsizeL vs = weightL l ∧ vs.length = l.length ∧ vs.length ≤ weightL l
  | [], _, _, h => by cases h; exact ⟨rfl, rfl, Nat.le_refl _⟩
  | n :: l, vs, hl, h => by
    simp only [valueL] at h
    cases h1 : value n with
    | none => rw [h1] at h; cases h
    | some v =>
      cases h2 : valueL l with
      | none => rw [h1, h2] at h; cases h
      | some ws =>
        rw [h1, h2] at h
        cases h
        obtain ⟨a, b, c⟩ := lits_value (fun m hm => hl m (by simp [hm])) h2
        have e := lit_value (hl n (by simp)) h1
        have : 1 ≤ weight n := by rw [← e]; cases v <;> simp [vsize]
        simp only [vsizeL, weightL, List.length_cons]
        omega

theorem val_value {n v} (h : ValNode n) (hv : value n = some v) : vsize v = weight n := by
  cases n with
  | arr l =>
    simp only [value] at hv
    cases h2 : valueL l with
    | none => rw [h2] at hv; cases hv
    | some ws =>
      rw [h2] at hv
      cases hv
      simp only [vsize, weight, (lits_value h h2).1]
  | _ => exact lit_value h hv

/-- The state has grown by at most `c` characters, and by values and joins of size `v`. -/
def GB (c v : Nat) (st : GSt) : GRes → Prop
  | .ok st' | .err _ st' =>
    st'.buf.length ≤ st.buf.length + c ∧ vsizeL st'.vals ≤ vsizeL st.vals + v ∧ st'.joins.length ≤ st.joins.length + v
  | .panic => True

theorem GB.bind {c v c2 v2 st r f} (h : GB c v st r) (hf : ∀ st1, GB c2 v2 st1 (f st1)) : GB (c + c2) (v + v2) st (r.andThen f) := by
  cases r with
  | ok st1 =>
    have h2 := hf st1
    show GB _ _ _ (f st1)
    cases h3 : f st1 with
    | panic => trivial
    | ok st' => rw [h3] at h2; simp only [GB] at *; omega
    | err e st' => rw [h3] at h2; simp only [GB] at *; omega
  | err e st1 => simp only [GRes.andThen, GB] at *; omega
  | panic => trivial

theorem GB.pre {c v st s r} (h : GB c v (st.write s) r) : GB (s.length + c) v st r := by
  cases r <;> simp only [GB, GSt.write, List.length_append] at * <;> omega

theorem GB.post {c v st s r} (h : GB c v st r) : GB (c + s.length) v st (r.alsoWrite s) := by
  cases r <;> simp only [GRes.alsoWrite, GB, GSt.write, List.length_append] at * <;> omega

theorem GB.mono {c v c' v' st r} (h : GB c v st r) (hc : c ≤ c') (hv : v ≤ v') : GB c' v' st r := by
  cases r <;> simp only [GB] at * <;> omega

theorem GB.put {v st} (s : Str) : GB s.length v st (.ok (st.write s)) := by
  simp only [GB, GSt.write, List.length_append]
  omega

theorem normalizeSQL_length (o : Str) : (normalizeSQL o).length ≤ o.length := by
  unfold normalizeSQL
  split
  · rename_i v hv
    have : ∀ x ∈ sqlNormalize, x.2.length ≤ x.1.length := by decide
    have key : ∀ {l : List (Str × Str)} {k w}, l.lookup k = some w → (k, w) ∈ l := by
      intro l k w hl
      induction l with
      | nil => cases hl
      | cons a l ih =>
        rw [List.lookup_cons] at hl
        split at hl
        · rename_i he
          cases hl
          rw [beq_iff_eq.mp he]
          simp
        · exact List.mem_cons_of_mem _ (ih hl)
    exact this _ (key hv)
  · exact Nat.le_refl _

theorem gVal_size {n} (h : ValNode n) (hw : 1 ≤ weight n) (K : Nat) (hK : 7 ≤ K) (st : GSt) : GB (K * weight n) (weight n) st (gVal n st) := by
  unfold gVal
  split
  · trivial
  · rename_i v hv
    have := val_value h hv
    have : 7 * 1 ≤ K * weight n := Nat.mul_le_mul hK hw
    simp only [GB, GSt.write, List.length_append, vsizeL_append, vsizeL]
    simp
    omega

mutual
theorem gvisit_size {E : GEnv} {M : Nat} (hE : NamesFit E.schema E.quote E.fold M) : ∀ (n : Node), Fine n → ∀ st : GSt,
    GB ((M + 7) * weight n) (weight n) st (gvisit E n st)
  | .nil, _, _ => by simp only [gvisit]; trivial
  | .op o, _, st => by
    simp only [gvisit]
    have := normalizeSQL_length o
    refine (GB.put _).mono (Nat.le_trans this ?_) (Nat.le_refl _)
    simp only [weight]
    exact Nat.le_trans (Nat.le_add_left _ 1) (Nat.le_mul_of_pos_left _ (by omega))
  | .int i, h, st => by
    simp only [gvisit]; cases h with | val h => exact gVal_size h (by simp [weight]) _ (by omega) st
  | .bool b, h, st => by
    simp only [gvisit]; cases h with | val h => exact gVal_size h (by simp [weight]) _ (by omega) st
  | .str s, h, st => by
    simp only [gvisit]; cases h with | val h => exact gVal_size h (by simp [weight]) _ (by omega) st
  | .null, h, st => by
    simp only [gvisit]; cases h with | val h => exact gVal_size h (by simp [weight]) _ (by omega) st
  | .arr l, h, st => by
    simp only [gvisit]; cases h with | val h => exact gVal_size h (by simp [weight]) _ (by omega) st
  | .ident x, _, st => by
    simp only [gvisit, gIdent]
    split
    · simp only [GB]; omega
    · rename_i d hd
      refine (GB.put _).mono (Nat.le_trans (hE.own _ _ hd) ?_) (Nat.le_refl _)
      exact Nat.le_trans (Nat.le_add_right _ 7) (Nat.le_mul_of_pos_right _ (by simp [weight]; omega))
  | .ref l, _, st => by
    simp only [gvisit]
    unfold gRef
    split
    · rename_i s f _
      unfold gJoin
      split
      · simp only [GB]; omega
      · rename_i t ht
        split
        · simp only [GB]; omega
        · rename_i d hd
          have h1 := hE.rel _ _ _ _ ht hd
          have h2 : M + 7 ≤ (M + 7) * weight (.ref [s, f]) := Nat.le_mul_of_pos_right _ (by simp [weight]; omega)
          have h3 : 1 ≤ weight (.ref [s, f]) := by simp only [weight]; omega
          simp only [GB, GSt.write, List.length_append]
          split <;> (try simp only [List.length_append, List.length_singleton]) <;> omega
    · simp only [GB]; omega
  | .paren e, h, st => by
    simp only [gvisit]
    cases h with
    | val h => exact h.elim
    | paren h =>
      refine ((gvisit_size hE e h _).pre.post).mono ?_ ?_
      · simp only [weight, Nat.mul_add]; simp; omega
      · simp only [weight]; omega
  | .not e, h, st => by
    simp only [gvisit]
    cases h with
    | val h => exact h.elim
    | not h =>
      refine ((gvisit_size hE e h _).pre).mono ?_ ?_
      · simp only [weight, Nat.mul_add]; simp
      · simp only [weight]; omega
  | .func f ps, h, st => by
    simp only [gvisit]
    cases h with
    | val h => exact h.elim
    | func _ h =>
      split
      · rename_i hf
        subst hf
        refine ((GB.pre (GB.pre (gvisitL_size hE ps h _))).bind (c2 := 1) (v2 := 0) fun st1 => (GB.put c!")")).mono ?_ ?_
        · simp only [weight, Nat.mul_add]; simp; omega
        · simp only [weight]; omega
      · simp only [GB]; omega
  | .between l o a b, h, st => by
    simp only [gvisit]
    cases h with
    | val h => exact h.elim
    | @between l o a b hl ho ha hb =>
      have hop : Fine (.op o) := .op (by obtain ⟨u, hu⟩ := ho; exact ⟨u, .inr (.inr (.inr (.inl hu)))⟩)
      refine ((((gvisit_size hE l hl st).bind fun st1 => (gvisit_size hE _ hop _).pre).bind fun st1 => (gvisit_size hE a (.val ha) _).pre).bind
        fun st1 => (gvisit_size hE b (.val hb) _).pre).mono ?_ ?_
      · simp only [weight, Nat.mul_add]; simp; omega
      · simp only [weight]; omega
  | .pred l o, h, st => by
    simp only [gvisit]
    cases h with
    | val h => exact h.elim
    | @pred l o hl ho =>
      have hop : Fine (.op o) := .op (by obtain ⟨u, hu⟩ := ho; exact ⟨u, .inr (.inr (.inr (.inr hu)))⟩)
      refine ((gvisit_size hE l hl st).bind fun st1 => (gvisit_size hE _ hop _).pre).mono ?_ ?_
      · simp only [weight, Nat.mul_add]; simp; omega
      · simp only [weight]; omega
  | .cmp l o r, h, st => by
    cases h with
    | val h => exact h.elim
    | cmp hl ho hr =>
      have hs := ((gvisit_size hE l hl st).bind fun st1 => (gvisit_size hE _ ho (st1.write c!" ")).pre)
      rw [gvisit.eq_def]
      simp only
      split
      · refine hs.mono ?_ ?_
        · simp only [weight, Nat.mul_add]; simp; omega
        · simp only [weight]; omega
      · refine (hs.bind fun st1 => (gvisit_size hE r hr (st1.write c!" ")).pre).mono ?_ ?_
        · simp only [weight, Nat.mul_add]; simp; omega
        · simp only [weight]; omega
  | .logic l o r, h, st => by
    cases h with
    | val h => exact h.elim
    | logic hl ho hr =>
      have hs := ((gvisit_size hE l hl st).bind fun st1 => (gvisit_size hE _ ho (st1.write c!" ")).pre)
      rw [gvisit.eq_def]
      simp only
      split
      · refine hs.mono ?_ ?_
        · simp only [weight, Nat.mul_add]; simp; omega
        · simp only [weight]; omega
      · refine (hs.bind fun st1 => (gvisit_size hE r hr (st1.write c!" ")).pre).mono ?_ ?_
        · simp only [weight, Nat.mul_add]; simp; omega
        · simp only [weight]; omega
theorem gvisitL_size {E : GEnv} {M : Nat} (hE : NamesFit E.schema E.quote E.fold M) : ∀ (l : List Node), (∀ n ∈ l, Fine n) → ∀ st : GSt,
    GB ((M + 7) * weightL l) (weightL l) st (gvisitL E l st)
  | [], _, st => by simp only [gvisitL, GB]; omega
  | n :: l, h, st => by
    simp only [gvisitL]
    refine ((gvisit_size hE n (h n (by simp)) st).bind fun st1 => gvisitL_size hE l (fun m hm => h m (by simp [hm])) st1).mono ?_ ?_
    · simp only [weightL, Nat.mul_add]; omega
    · simp only [weightL]; omega
end

end Verif
