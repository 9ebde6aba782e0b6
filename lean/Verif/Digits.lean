import Verif.Node

/-! # Decimal numerals -/

namespace Verif

theorem decValue_append (acc : Nat) (u : Str) (c : Char) : decValue acc (u ++ [c]) = decValue acc u * 10 + digitVal c := by
  induction u generalizing acc with
  | nil => simp only [List.nil_append, decValue, List.foldl_cons, List.foldl_nil]
  | cons d u ih => simp only [decValue, List.cons_append, List.foldl_cons] at ih ⊢; exact ih _

theorem isDigit_iff (c : Char) : c.isDigit = true ↔ 48 ≤ c.toNat ∧ c.toNat ≤ 57 := by
  simp only [Char.isDigit, Bool.and_eq_true, decide_eq_true_eq]
  rfl

theorem digitChar_digitVal {c : Char} (h : c.isDigit) : Nat.digitChar (digitVal c) = c := by
  rw [isDigit_iff] at h
  have hc : c = Char.ofNat c.toNat := (Char.ofNat_toNat c).symm
  unfold digitVal
  rw [hc]
  have : c.toNat = 48 ∨ c.toNat = 49 ∨ c.toNat = 50 ∨ c.toNat = 51 ∨ c.toNat = 52 ∨ c.toNat = 53 ∨ c.toNat = 54 ∨
    c.toNat = 55 ∨ c.toNat = 56 ∨ c.toNat = 57 := by omega
  rcases this with h | h | h | h | h | h | h | h | h | h <;> rw [h] <;> rfl

theorem digitVal_digitChar {d : Nat} (h : d < 10) : digitVal (Nat.digitChar d) = d := by
  have : d = 0 ∨ d = 1 ∨ d = 2 ∨ d = 3 ∨ d = 4 ∨ d = 5 ∨ d = 6 ∨ d = 7 ∨ d = 8 ∨ d = 9 := by omega
  rcases this with h | h | h | h | h | h | h | h | h | h <;> rw [h] <;> rfl

theorem digitVal_lt {c : Char} (h : c.isDigit) : digitVal c < 10 := by
  rw [isDigit_iff] at h; unfold digitVal; omega

theorem decValue_ge (acc : Nat) (u : Str) : acc ≤ decValue acc u := by
  induction u generalizing acc with
  | nil => simp only [decValue, List.foldl_nil]; exact Nat.le_refl _
  | cons c u ih => have := ih (acc * 10 + digitVal c); simp only [decValue, List.foldl_cons] at this ⊢; generalize digitVal c = d at *; omega

theorem decValue_pos {c : Char} {u : Str} (hc : c.isDigit) (h0 : c ≠ '0') : 0 < decValue 0 (c :: u) := by
  have h1 : 0 < digitVal c := by
    rw [isDigit_iff] at hc
    unfold digitVal
    have : c.toNat ≠ 48 := by
      intro h; apply h0
      rw [← Char.ofNat_toNat c, h]
    omega
  have := decValue_ge (0 * 10 + digitVal c) u
  simp only [decValue, List.foldl_cons] at this ⊢; generalize digitVal c = d at *; omega

/-- A numeral without leading zeros is the canonical numeral of its value. -/
theorem toDigits_decValue_pos {c : Char} {u : Str} (hc : c.isDigit) (h0 : c ≠ '0') (hu : ∀ x ∈ u, x.isDigit) :
    Nat.toDigits 10 (decValue 0 (c :: u)) = c :: u := by
  induction h : u.length generalizing u with
  | zero =>
    have : u = [] := List.eq_nil_of_length_eq_zero h
    subst this
    simp only [decValue, List.foldl_cons, List.foldl_nil]
    rw [Nat.toDigits_of_lt_base (by have := digitVal_lt hc; omega)]
    simp [digitChar_digitVal hc]
  | succ n ih =>
    obtain ⟨v, d, rfl⟩ : ∃ v d, u = v ++ [d] :=
      ⟨_, _, (List.dropLast_concat_getLast (by intro e; subst e; simp at h)).symm⟩
    have hd : d.isDigit := hu d (by simp)
    have hv := ih (u := v) (fun x hx => hu x (by simp [hx])) (by simpa using h)
    have : c :: (v ++ [d]) = (c :: v) ++ [d] := rfl
    rw [this, decValue_append]
    have hpos := decValue_pos (u := v) hc h0
    have := Nat.toDigits_append_toDigits (b := 10) (n := decValue 0 (c :: v)) (d := digitVal d) (by omega) hpos (digitVal_lt hd)
    rw [Nat.mul_comm, ← this, hv, Nat.toDigits_of_lt_base (digitVal_lt hd), digitChar_digitVal hd]

theorem toDigits_digits (k : Nat) : (∀ c ∈ Nat.toDigits 10 k, c.isDigit) ∧ decValue 0 (Nat.toDigits 10 k) = k ∧
    (Nat.toDigits 10 k = ['0'] ∨ ∃ c u, Nat.toDigits 10 k = c :: u ∧ c ≠ '0') := by
  induction k using Nat.strongRecOn with
  | _ k ih =>
    by_cases h : k < 10
    · rw [Nat.toDigits_of_lt_base h]
      refine ⟨?_, ?_, ?_⟩
      · intro c hc; rw [List.mem_singleton.mp hc, Nat.isDigit_digitChar]; simpa using h
      · simp [decValue, digitVal_digitChar h]
      · by_cases h0 : k = 0
        · subst h0; exact .inl rfl
        · refine .inr ⟨_, _, rfl, ?_⟩
          intro e
          have := congrArg digitVal e
          rw [digitVal_digitChar h] at this
          exact h0 this
    · rw [Nat.toDigits_of_base_le (by omega) (by omega)]
      obtain ⟨h1, h2, h3⟩ := ih (k / 10) (by omega)
      refine ⟨?_, ?_, ?_⟩
      · intro c hc
        rcases List.mem_append.mp hc with hc | hc
        · exact h1 c hc
        · rw [List.mem_singleton.mp hc, Nat.isDigit_digitChar]; simp; omega
      · rw [decValue_append, h2, digitVal_digitChar (by omega)]; omega
      · rcases h3 with h3 | ⟨c, u, h3, h4⟩
        · rw [h3] at h2
          have : k / 10 = 0 := by rw [← h2]; rfl
          omega
        · exact .inr ⟨c, u ++ [_], by rw [h3]; rfl, h4⟩

theorem toDigits_ne_nil (k : Nat) : Nat.toDigits 10 k ≠ [] := by
  rcases (toDigits_digits k).2.2 with h | ⟨c, u, h, _⟩ <;> rw [h] <;> simp

end Verif
