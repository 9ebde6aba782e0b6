import Verif.Chars

/-! # Go strings as bytes: `[]rune(s)` and `string(runes)` -/

namespace Verif

/-- A Go string: its bytes.  Simplification: bytes are natural numbers; numbers above 255 are not bytes and are read as invalid ones. -/
abbrev Bytes := List Nat

/-- Continuation bytes, `locb` and `hicb` of Go's runtime/utf8.go. -/
def isCont (b : Nat) : Bool := 0x80 ≤ b && b ≤ 0xBF

/-- `runeError`, U+FFFD -/
def runeError : Nat := 0xFFFD

/-- `decoderune` of Go's runtime/utf8.go for the first byte and the rest of the string: the rune and what is left.  An invalid sequence gives
`runeError` for its first byte alone. -/
def decodeRune (a : Nat) (u : Bytes) : Nat × Bytes :=
  if a < 0x80 then (a, u)
  else if 0xC0 ≤ a ∧ a < 0xE0 then
    match u with
    | b :: v =>
      let r := (a % 32) * 64 + b % 64
      if isCont b ∧ 0x7F < r then (r, v) else (runeError, u)
    | _ => (runeError, u)
  else if 0xE0 ≤ a ∧ a < 0xF0 then
    match u with
    | b :: c :: v =>
      let r := (a % 16) * 4096 + (b % 64) * 64 + c % 64
      if isCont b ∧ isCont c ∧ 0x7FF < r ∧ ¬ (0xD800 ≤ r ∧ r ≤ 0xDFFF) then (r, v) else (runeError, u)
    | _ => (runeError, u)
  else if 0xF0 ≤ a ∧ a < 0xF8 then
    match u with
    | b :: c :: d :: v =>
      let r := (a % 8) * 262144 + (b % 64) * 4096 + (c % 64) * 64 + d % 64
      if isCont b ∧ isCont c ∧ isCont d ∧ 0xFFFF < r ∧ r ≤ 0x10FFFF then (r, v) else (runeError, u)
    | _ => (runeError, u)
  else (runeError, u)

/-- The loop of `[]rune(s)` with a bound on its turns. -/
def decodeF : Nat → Bytes → Str
  | 0, _ => []
  | _, [] => []
  | n + 1, a :: u => Char.ofNat (decodeRune a u).1 :: decodeF n (decodeRune a u).2

/-- `[]rune(s)`, /repo/miniquery/miniquery.peg.go:175, 465. -/
def decode (b : Bytes) : Str := decodeF b.length b

/-- `encoderune` of Go's runtime/utf8.go, for runes that are characters. -/
def encodeRune (c : Char) : Bytes :=
  let n := c.toNat
  if n ≤ 0x7F then [n]
  else if n ≤ 0x7FF then [0xC0 + n / 64, 0x80 + n % 64]
  else if n ≤ 0xFFFF then [0xE0 + n / 4096, 0x80 + n / 64 % 64, 0x80 + n % 64]
  else [0xF0 + n / 262144, 0x80 + n / 4096 % 64, 0x80 + n / 64 % 64, 0x80 + n % 64]

/-- `string(runes)`, /repo/miniquery/miniquery.peg.go:367. -/
def encode (s : Str) : Bytes := s.flatMap encodeRune

/-! ## Facts -/

theorem char_range (c : Char) : c.toNat < 0x110000 ∧ ¬ (0xD800 ≤ c.toNat ∧ c.toNat ≤ 0xDFFF) := by
  have := c.valid
  simp only [UInt32.isValidChar, Nat.isValidChar] at this
  have e : c.toNat = c.val.toNat := rfl
  omega

theorem toNat_ofNat {n : Nat} (h1 : n < 0x110000) (h2 : ¬ (0xD800 ≤ n ∧ n ≤ 0xDFFF)) : (Char.ofNat n).toNat = n := by
  have hv : n.isValidChar := by simp only [Nat.isValidChar]; omega
  simp [Char.ofNat, hv, Char.ofNatAux, Char.toNat]

/-- The encoder is Lean's own (`String.utf8EncodeChar`). -/
theorem encodeRune_std (c : Char) : (String.utf8EncodeChar c).map UInt8.toNat = encodeRune c := by
  have h := (char_range c).1
  have e : c.val.toNat = c.toNat := rfl
  unfold String.utf8EncodeChar encodeRune
  simp only [e]
  generalize c.toNat = n at *
  split
  · simp; omega
  · split
    · simp; omega
    · split
      · simp; omega
      · simp; omega

theorem decodeRune_encode (c : Char) : ∃ a w, encodeRune c = a :: w ∧ ∀ u, decodeRune a (w ++ u) = (c.toNat, u) := by
  obtain ⟨h1, h2⟩ := char_range c
  unfold encodeRune
  generalize c.toNat = n at *
  simp only
  split
  · refine ⟨_, _, rfl, fun u => ?_⟩
    unfold decodeRune
    rw [if_pos (by omega)]; rfl
  · split
    · refine ⟨_, _, rfl, fun u => ?_⟩
      unfold decodeRune
      rw [if_neg (by omega), if_pos (by omega)]
      simp only [List.cons_append, List.nil_append]
      rw [if_pos ⟨by simp [isCont]; omega, by omega⟩]
      exact Prod.ext (by simp only; omega) rfl
    · split
      · refine ⟨_, _, rfl, fun u => ?_⟩
        unfold decodeRune
        rw [if_neg (by omega), if_neg (by omega), if_pos (by omega)]
        simp only [List.cons_append, List.nil_append]
        have e : (0xE0 + n / 4096) % 16 * 4096 + (0x80 + n / 64 % 64) % 64 * 64 + (0x80 + n % 64) % 64 = n := by omega
        rw [e, if_pos ⟨by simp [isCont]; omega, by simp [isCont]; omega, by omega, h2⟩]
      · refine ⟨_, _, rfl, fun u => ?_⟩
        unfold decodeRune
        rw [if_neg (by omega), if_neg (by omega), if_neg (by omega), if_pos (by omega)]
        simp only [List.cons_append, List.nil_append]
        have e : (0xF0 + n / 262144) % 8 * 262144 + (0x80 + n / 4096 % 64) % 64 * 4096 + (0x80 + n / 64 % 64) % 64 * 64 + (0x80 + n % 64) % 64 = n := by omega
        rw [e, if_pos ⟨by simp [isCont]; omega, by simp [isCont]; omega, by simp [isCont]; omega, by omega, by omega⟩]

theorem decodeF_encode (s : Str) : ∀ n, (encode s).length ≤ n → decodeF n (encode s) = s := by
  induction s with
  | nil => intro n _; cases n <;> rfl
  | cons c s ih =>
    intro n hn
    obtain ⟨a, w, e, hd⟩ := decodeRune_encode c
    have he : encode (c :: s) = a :: (w ++ encode s) := by
      show encodeRune c ++ encode s = _
      rw [e]; rfl
    rw [he] at hn ⊢
    cases n with
    | zero => simp at hn
    | succ n =>
      rw [decodeF, hd, Char.ofNat_toNat, ih n (by simp at hn; omega)]

theorem decode_encode (s : Str) : decode (encode s) = s := decodeF_encode s _ (Nat.le_refl _)

theorem encode_inj {s t : Str} (h : encode s = encode t) : s = t := by rw [← decode_encode s, h, decode_encode]

theorem encode_append (s t : Str) : encode (s ++ t) = encode s ++ encode t := List.flatMap_append

/-! ## Well-formed UTF-8 -/

/-- Well-formed byte sequences of one character: the table of RFC 3629, section 4. -/
inductive Utf8Char : Bytes → Prop where
  | one {a} : a ≤ 0x7F → Utf8Char [a]
  | two {a b} : 0xC2 ≤ a → a ≤ 0xDF → isCont b → Utf8Char [a, b]
  | threeE0 {b c} : 0xA0 ≤ b → b ≤ 0xBF → isCont c → Utf8Char [0xE0, b, c]
  | threeLow {a b c} : 0xE1 ≤ a → a ≤ 0xEC → isCont b → isCont c → Utf8Char [a, b, c]
  | threeED {b c} : 0x80 ≤ b → b ≤ 0x9F → isCont c → Utf8Char [0xED, b, c]
  | threeHigh {a b c} : 0xEE ≤ a → a ≤ 0xEF → isCont b → isCont c → Utf8Char [a, b, c]
  | fourF0 {b c d} : 0x90 ≤ b → b ≤ 0xBF → isCont c → isCont d → Utf8Char [0xF0, b, c, d]
  | four {a b c d} : 0xF1 ≤ a → a ≤ 0xF3 → isCont b → isCont c → isCont d → Utf8Char [a, b, c, d]
  | fourF4 {b c d} : 0x80 ≤ b → b ≤ 0x8F → isCont c → isCont d → Utf8Char [0xF4, b, c, d]

/-- Well-formed UTF-8. -/
inductive Utf8 : Bytes → Prop where
  | nil : Utf8 []
  | cons {a u} : Utf8Char a → Utf8 u → Utf8 (a ++ u)

theorem utf8Char_encode (c : Char) : Utf8Char (encodeRune c) := by
  obtain ⟨h1, h2⟩ := char_range c
  unfold encodeRune
  generalize c.toNat = n at *
  simp only
  have ct : ∀ k, isCont (0x80 + k % 64) = true := by intro k; simp [isCont]; omega
  split
  · exact .one (by assumption)
  · split
    · exact .two (by omega) (by omega) (ct _)
    · split
      · have hc : n / 4096 = 0 ∨ (1 ≤ n / 4096 ∧ n / 4096 ≤ 12) ∨ n / 4096 = 13 ∨ (14 ≤ n / 4096 ∧ n / 4096 ≤ 15) := by omega
        rcases hc with h | h | h | h
        · rw [h]; exact .threeE0 (by omega) (by omega) (ct _)
        · exact .threeLow (by omega) (by omega) (ct _) (ct _)
        · rw [h]; exact .threeED (by omega) (by omega) (ct _)
        · exact .threeHigh (by omega) (by omega) (ct _) (ct _)
      · have hc : n / 262144 = 0 ∨ (1 ≤ n / 262144 ∧ n / 262144 ≤ 3) ∨ n / 262144 = 4 := by omega
        rcases hc with h | h | h
        · rw [h]; exact .fourF0 (by omega) (by omega) (ct _) (ct _)
        · exact .four (by omega) (by omega) (ct _) (ct _) (ct _)
        · rw [h]; exact .fourF4 (by omega) (by omega) (ct _) (ct _)

theorem utf8_encode (s : Str) : Utf8 (encode s) := by
  induction s with
  | nil => exact .nil
  | cons c s ih => exact .cons (utf8Char_encode c) ih

theorem utf8Char_decodes {b : Bytes} (h : Utf8Char b) : ∃ c, encodeRune c = b := by
  have mk : ∀ n, n < 0x110000 → ¬ (0xD800 ≤ n ∧ n ≤ 0xDFFF) → (if n ≤ 0x7F then [n]
      else if n ≤ 0x7FF then [0xC0 + n / 64, 0x80 + n % 64]
      else if n ≤ 0xFFFF then [0xE0 + n / 4096, 0x80 + n / 64 % 64, 0x80 + n % 64]
      else [0xF0 + n / 262144, 0x80 + n / 4096 % 64, 0x80 + n / 64 % 64, 0x80 + n % 64]) = b → ∃ c, encodeRune c = b := by
    intro n h1 h2 h3
    refine ⟨Char.ofNat n, ?_⟩
    unfold encodeRune
    rw [toNat_ofNat h1 h2]
    exact h3
  have three : ∀ a b' c, b = [0xE0 + a, b', c] → a ≤ 15 → isCont b' → isCont c → 0x7FF < a * 4096 + (b' - 128) * 64 + (c - 128) →
      ¬ (0xD800 ≤ a * 4096 + (b' - 128) * 64 + (c - 128) ∧ a * 4096 + (b' - 128) * 64 + (c - 128) ≤ 0xDFFF) → ∃ c, encodeRune c = b := by
    intro a b' c hb ha h1 h2 h3 h4
    simp [isCont] at h1 h2
    refine mk (a * 4096 + (b' - 128) * 64 + (c - 128)) (by omega) h4 ?_
    rw [if_neg (by omega), if_neg (by omega), if_pos (by omega), hb]
    simp; omega
  have four : ∀ a b' c d, b = [0xF0 + a, b', c, d] → a ≤ 4 → isCont b' → isCont c → isCont d → 0xFFFF < a * 262144 + (b' - 128) * 4096 + (c - 128) * 64 + (d - 128) →
      a * 262144 + (b' - 128) * 4096 + (c - 128) * 64 + (d - 128) < 0x110000 → ∃ c, encodeRune c = b := by
    intro a b' c d hb ha h1 h2 h5 h3 h4
    simp [isCont] at h1 h2 h5
    refine mk (a * 262144 + (b' - 128) * 4096 + (c - 128) * 64 + (d - 128)) h4 (by omega) ?_
    rw [if_neg (by omega), if_neg (by omega), if_neg (by omega), hb]
    simp; omega
  cases h with
  | @one a ha => exact mk a (by omega) (by omega) (by rw [if_pos ha])
  | @two a b ha hb hc =>
    simp [isCont] at hc
    refine mk ((a - 192) * 64 + (b - 128)) (by omega) (by omega) ?_
    rw [if_neg (by omega), if_pos (by omega)]
    simp; omega
  | @threeE0 b c h1 h2 hc => have hc' := hc; simp [isCont] at hc'; exact three 0 b c rfl (by omega) (by simp [isCont]; omega) hc (by omega) (by omega)
  | @threeLow a b c h1 h2 hb hc =>
    have hb' := hb; have hc' := hc; simp [isCont] at hb' hc'
    exact three (a - 0xE0) b c (by simp; omega) (by omega) hb hc (by omega) (by omega)
  | @threeED b c h1 h2 hc => have hc' := hc; simp [isCont] at hc'; exact three 13 b c rfl (by omega) (by simp [isCont]; omega) hc (by omega) (by omega)
  | @threeHigh a b c h1 h2 hb hc =>
    have hb' := hb; have hc' := hc; simp [isCont] at hb' hc'
    exact three (a - 0xE0) b c (by simp; omega) (by omega) hb hc (by omega) (by omega)
  | @fourF0 b c d h1 h2 hc hd =>
    have hd' := hd; have hc' := hc; simp [isCont] at hd' hc'
    exact four 0 b c d rfl (by omega) (by simp [isCont]; omega) hc hd (by omega) (by omega)
  | @four a b c d h1 h2 hb hc hd =>
    have hb' := hb; have hd' := hd; have hc' := hc; simp [isCont] at hb' hd' hc'
    exact four (a - 0xF0) b c d (by simp; omega) (by omega) hb hc hd (by omega) (by omega)
  | @fourF4 b c d h1 h2 hc hd =>
    have hd' := hd; have hc' := hc; simp [isCont] at hd' hc'
    exact four 4 b c d rfl (by omega) (by simp [isCont]; omega) hc hd (by omega) (by omega)

theorem utf8_encodes {b : Bytes} (h : Utf8 b) : ∃ s, encode s = b := by
  induction h with
  | nil => exact ⟨[], rfl⟩
  | cons h _ ih =>
    obtain ⟨c, hc⟩ := utf8Char_decodes h
    obtain ⟨s, hs⟩ := ih
    exact ⟨c :: s, by rw [← hc, ← hs]; rfl⟩

/-- Decoding and encoding again gives the same bytes exactly for well-formed UTF-8. -/
theorem encode_decode_iff (b : Bytes) : encode (decode b) = b ↔ Utf8 b := by
  constructor
  · intro h; rw [← h]; exact utf8_encode _
  · intro h
    obtain ⟨s, rfl⟩ := utf8_encodes h
    rw [decode_encode]

/-! ## ASCII -/

theorem decodeRune_ascii (a : Nat) (u : Bytes) : (a < 128 ∧ decodeRune a u = (a, u)) ∨
    (128 ≤ a ∧ 128 ≤ (decodeRune a u).1 ∧ ∃ w, u = w ++ (decodeRune a u).2 ∧ ∀ x ∈ w, 128 ≤ x) := by
  by_cases ha : a < 128
  · exact .inl ⟨ha, by unfold decodeRune; exact if_pos ha⟩
  · refine .inr ⟨by omega, ?_⟩
    have bad : ∀ u : Bytes, 128 ≤ ((runeError, u) : Nat × Bytes).1 ∧ ∃ w, u = w ++ ((runeError, u) : Nat × Bytes).2 ∧ ∀ x ∈ w, 128 ≤ x := by
      intro u; exact ⟨(by decide : 128 ≤ runeError), [], rfl, by intro x hx; cases hx⟩
    have ct : ∀ {x : Nat}, isCont x = true → 128 ≤ x := by intro x hx; simp [isCont] at hx; omega
    unfold decodeRune
    rw [if_neg ha]
    split
    · cases u with
      | nil => exact bad _
      | cons b v =>
        simp only
        split
        · next h => exact ⟨by simp only; omega, [b], rfl, by intro x hx; rw [List.mem_singleton.mp hx]; exact ct h.1⟩
        · exact bad _
    · split
      · cases u with
        | nil => exact bad _
        | cons b v =>
          cases v with
          | nil => exact bad _
          | cons c v =>
            simp only
            split
            · next h =>
              refine ⟨by simp only; omega, [b, c], rfl, ?_⟩
              intro x hx
              simp only [List.mem_cons, List.not_mem_nil, or_false] at hx
              rcases hx with rfl | rfl
              · exact ct h.1
              · exact ct h.2.1
            · exact bad _
      · split
        · cases u with
          | nil => exact bad _
          | cons b v =>
            cases v with
            | nil => exact bad _
            | cons c v =>
              cases v with
              | nil => exact bad _
              | cons d v =>
                simp only
                split
                · next h =>
                  refine ⟨by simp only; omega, [b, c, d], rfl, ?_⟩
                  intro x hx
                  simp only [List.mem_cons, List.not_mem_nil, or_false] at hx
                  rcases hx with rfl | rfl | rfl
                  · exact ct h.1
                  · exact ct h.2.1
                  · exact ct h.2.2.1
                · exact bad _
        · exact bad _

/-- A decoded rune is a character. -/
theorem decodeRune_char (a : Nat) (u : Bytes) : (decodeRune a u).1 < 0x110000 ∧ ¬ (0xD800 ≤ (decodeRune a u).1 ∧ (decodeRune a u).1 ≤ 0xDFFF) := by
  have bad : ∀ u : Bytes, ((runeError, u) : Nat × Bytes).1 < 0x110000 ∧ ¬ (0xD800 ≤ ((runeError, u) : Nat × Bytes).1 ∧ ((runeError, u) : Nat × Bytes).1 ≤ 0xDFFF) := by
    intro u; exact ⟨(by decide : runeError < 0x110000), (by decide : ¬ (0xD800 ≤ runeError ∧ runeError ≤ 0xDFFF))⟩
  unfold decodeRune
  split
  · next h => simp only; omega
  · split
    · cases u with
      | nil => exact bad _
      | cons b v =>
        simp only
        split
        · simp only; omega
        · exact bad _
    · split
      · cases u with
        | nil => exact bad _
        | cons b v =>
          cases v with
          | nil => exact bad _
          | cons c v =>
            simp only
            split
            · next h => simp only; exact ⟨by omega, h.2.2.2⟩
            · exact bad _
      · split
        · cases u with
          | nil => exact bad _
          | cons b v =>
            cases v with
            | nil => exact bad _
            | cons c v =>
              cases v with
              | nil => exact bad _
              | cons d v =>
                simp only
                split
                · next h => simp only; omega
                · exact bad _
        · exact bad _

theorem decodeF_ascii : ∀ (n : Nat) (b : Bytes), b.length ≤ n →
    ((decodeF n b).map Char.toNat).filter (· < 128) = b.filter (· < 128) ∧ (decodeF n b).length ≤ b.length
  | 0, b, h => by
    have : b = [] := List.eq_nil_of_length_eq_zero (by omega)
    subst this; exact ⟨rfl, Nat.le_refl _⟩
  | n + 1, [], _ => ⟨rfl, Nat.le_refl _⟩
  | n + 1, a :: u, h => by
    have hc := decodeRune_char a u
    rw [decodeF, List.map_cons, toNat_ofNat hc.1 hc.2]
    rcases decodeRune_ascii a u with ⟨h1, h2⟩ | ⟨h1, h2, w, h3, h4⟩
    · rw [h2]
      obtain ⟨i1, i2⟩ := decodeF_ascii n u (by simp at h; omega)
      exact ⟨by simp only [List.filter_cons, h1, decide_true, if_true, i1], by simp; omega⟩
    · have hl : u.length = w.length + (decodeRune a u).2.length := by rw [← List.length_append, ← h3]
      obtain ⟨i1, i2⟩ := decodeF_ascii n (decodeRune a u).2 (by simp at h; omega)
      refine ⟨?_, by simp; omega⟩
      have e1 : decide ((decodeRune a u).1 < 128) = false := by simpa using h2
      have e2 : decide (a < 128) = false := by simpa using h1
      have e3 : w.filter (· < 128) = [] := by
        rw [List.filter_eq_nil_iff]
        intro x hx; have := h4 x hx; simpa using this
      have e4 : u.filter (· < 128) = (decodeRune a u).2.filter (· < 128) := by
        have := congrArg (List.filter (· < 128)) h3
        rwa [List.filter_append, e3, List.nil_append] at this
      simp only [List.filter_cons, e1, e2, e4, i1, Bool.false_eq_true, if_false]

end Verif
