import Verif.Msg
import Verif.Digits

/-! # Printed texts can be read back -/

namespace Verif

/-! ## Hexadecimal -/

/-- The value of a hexadecimal digit. -/
def hexVal (c : Char) : Nat := if c.toNat < 58 then c.toNat - 48 else c.toNat - 87
/-- The value of a hexadecimal numeral. -/
def unhex (s : Str) : Nat := s.foldl (fun a c => a * 16 + hexVal c) 0

theorem hexVal_digit : ∀ d : Nat, d < 16 → hexVal (Nat.digitChar d) = d := by decide

theorem unhex_append (u : Str) (c : Char) : unhex (u ++ [c]) = unhex u * 16 + hexVal c := by
  simp [unhex, List.foldl_append]

theorem unhex_toDigits (n : Nat) : unhex (Nat.toDigits 16 n) = n := by
  induction n using Nat.strongRecOn with
  | _ n ih =>
    rw [Nat.toDigits_eq_if (by decide)]
    by_cases h : n < 16
    · rw [if_pos h]; simp [unhex, hexVal_digit n h]
    · rw [if_neg h, unhex_append, ih _ (by omega), hexVal_digit _ (by omega)]; omega

theorem unhex_zeros (k : Nat) (u : Str) : unhex (List.replicate k '0' ++ u) = unhex u := by
  induction k with
  | zero => rfl
  | succ k ih => rw [← ih]; rfl

theorem unhex_pad (k n : Nat) : unhex (hexPad k n) = n := by rw [hexPad, unhex_zeros, unhex_toDigits]

theorem toDigits16_length : ∀ (k n : Nat), n < 16 ^ (k + 1) → (Nat.toDigits 16 n).length ≤ k + 1
  | 0, n, h => by rw [Nat.toDigits_eq_if (by decide), if_pos (by simpa using h)]; simp
  | k + 1, n, h => by
    rw [Nat.toDigits_eq_if (by decide)]
    by_cases hn : n < 16
    · rw [if_pos hn]; simp
    · rw [if_neg hn]
      have := toDigits16_length k (n / 16) (by rw [Nat.div_lt_iff_lt_mul (by decide)]; rw [Nat.pow_succ] at h; exact h)
      simpa using this

theorem hexPad_length {k n : Nat} (h : n < 16 ^ (k + 1)) : (hexPad (k + 1) n).length = k + 1 := by
  have := toDigits16_length k n h
  simp [hexPad]; omega

/-! ## Quoted text -/

/-- Reads one escaped character: its code and the rest. -/
def readRune : Str → Option (Nat × Str)
  | [] => none
  | c :: u =>
    if c = '\\' then
      match u with
      | [] => none
      | k :: u =>
        if k = '"' ∨ k = '\\' then some (k.toNat, u)
        else if k = 'a' then some (7, u)
        else if k = 'b' then some (8, u)
        else if k = 'f' then some (12, u)
        else if k = 'n' then some (10, u)
        else if k = 'r' then some (13, u)
        else if k = 't' then some (9, u)
        else if k = 'v' then some (11, u)
        else if k = 'x' then some (unhex (u.take 2), u.drop 2)
        else if k = 'u' then some (unhex (u.take 4), u.drop 4)
        else some (unhex (u.take 8), u.drop 8)
    else some (c.toNat, u)

theorem take_append_len {a b : Str} {k : Nat} (h : a.length = k) : (a ++ b).take k = a ∧ (a ++ b).drop k = b := by
  subst h; simp

theorem readRune_quoteRune (P : Char → Bool) (c : Char) (u : Str) : readRune (quoteRune P c ++ u) = some (c.toNat, u) := by
  unfold quoteRune
  split
  · next h => simp [readRune, h]
  · next h =>
    have h1 : c ≠ '\\' := fun e => h (.inr e)
    split
    · simp [readRune, h1]
    · split
      · next e => simp [readRune, e]
      · split
        · next e => simp [readRune, e]
        · split
          · next e => simp [readRune, e]
          · split
            · next e => simp [readRune, e]
            · split
              · next e => simp [readRune, e]
              · split
                · next e => simp [readRune, e]
                · split
                  · next e => simp [readRune, e]
                  · split
                    · next e =>
                      obtain ⟨h2, h3⟩ := take_append_len (b := u) (hexPad_length (k := 1) (n := c.toNat) (by rcases e with e | e <;> omega))
                      simp [readRune, h2, h3, unhex_pad]
                    · split
                      · next e =>
                        obtain ⟨h2, h3⟩ := take_append_len (b := u) (hexPad_length (k := 3) (n := c.toNat) (by omega))
                        simp [readRune, h2, h3, unhex_pad]
                      · next e =>
                        have hm : c.toNat < 1114112 := by
                          have := c.valid
                          simp only [UInt32.isValidChar, Nat.isValidChar] at this
                          have e : c.toNat = c.val.toNat := rfl
                          omega
                        obtain ⟨h2, h3⟩ := take_append_len (b := u) (hexPad_length (k := 7) (n := c.toNat) (by omega))
                        simp [readRune, h2, h3, unhex_pad]

theorem toNat_inj {a b : Char} (h : a.toNat = b.toNat) : a = b := by rw [← Char.ofNat_toNat a, h, Char.ofNat_toNat]

theorem quoteRune_head (P : Char → Bool) (c : Char) : ∃ x u, quoteRune P c = x :: u ∧ x ≠ '"' := by
  have h := readRune_quoteRune P c []
  rw [List.append_nil] at h
  cases hq : quoteRune P c with
  | nil => rw [hq] at h; cases h
  | cons x u =>
    refine ⟨x, u, rfl, ?_⟩
    intro e
    rw [hq, e] at h
    simp only [readRune, if_neg (show ¬ ('"' : Char) = '\\' by decide)] at h
    injection h with h
    injection h with h _
    have hc : c = '"' := toNat_inj h.symm
    rw [hc, quoteRune, if_pos (.inl rfl)] at hq
    injection hq with hq _
    rw [e] at hq
    exact absurd hq (by decide)

theorem quoted_inj (P : Char → Bool) : ∀ (s s' u v : Str), s.flatMap (quoteRune P) ++ '"' :: u = s'.flatMap (quoteRune P) ++ '"' :: v → s = s' ∧ u = v
  | [], [], u, v, h => ⟨rfl, by simpa using h⟩
  | [], c :: s', u, v, h => by
    obtain ⟨x, w, e, hx⟩ := quoteRune_head P c
    simp [e] at h
    exact absurd h.1.symm hx
  | c :: s, [], u, v, h => by
    obtain ⟨x, w, e, hx⟩ := quoteRune_head P c
    simp [e] at h
    exact absurd h.1 hx
  | c :: s, d :: s', u, v, h => by
    simp only [List.flatMap_cons, List.append_assoc] at h
    have h1 := congrArg readRune h
    rw [readRune_quoteRune, readRune_quoteRune] at h1
    injection h1 with h1
    injection h1 with h1 h2
    obtain ⟨h3, h4⟩ := quoted_inj P s s' u v h2
    exact ⟨by rw [toNat_inj h1, h3], h4⟩

theorem quote_inj (P : Char → Bool) (s s' u v : Str) (h : quote P s ++ u = quote P s' ++ v) : s = s' ∧ u = v := by
  unfold quote at h
  simp only [List.cons_append, List.append_assoc, List.cons.injEq, true_and] at h
  exact quoted_inj P s s' u v h

theorem quoteRune_mem {P : Char → Bool} {c x : Char} (h : x ∈ quoteRune P c) : x = c ∧ (P c = true ∨ c = '"' ∨ c = '\\') ∨ x = '\\' ∨ x.isAlphanum = true := by
  have dig : ∀ d : Nat, d < 16 → (Nat.digitChar d).isAlphanum = true := by decide
  have hd : ∀ n, ∀ x ∈ Nat.toDigits 16 n, x.isAlphanum = true := by
    intro n
    induction n using Nat.strongRecOn with
    | _ n ih =>
      rw [Nat.toDigits_eq_if (by decide)]
      by_cases h : n < 16
      · rw [if_pos h]; intro x hx; rw [List.mem_singleton.mp hx]; exact dig n h
      · rw [if_neg h]
        intro x hx
        rcases List.mem_append.mp hx with hx | hx
        · exact ih _ (by omega) x hx
        · rw [List.mem_singleton.mp hx]; exact dig _ (by omega)
  have hp : ∀ k n, ∀ x ∈ hexPad k n, x.isAlphanum = true := by
    intro k n x hx
    rcases List.mem_append.mp hx with hx | hx
    · rw [List.eq_of_mem_replicate hx]; decide
    · exact hd n x hx
  unfold quoteRune at h
  split at h
  · next hc =>
    rcases List.mem_cons.mp h with e | h
    · exact .inr (.inl e)
    · rw [List.mem_singleton.mp h]; exact .inl ⟨rfl, .inr hc⟩
  · split at h
    · next hP => rw [List.mem_singleton.mp h]; exact .inl ⟨rfl, .inl hP⟩
    · repeat' split at h
      all_goals
        first
        | (simp at h; rcases h with rfl | rfl <;> first | exact .inr (.inl rfl) | exact .inr (.inr (by decide)))
        | (simp at h
           rcases h with rfl | rfl | h
           · exact .inr (.inl rfl)
           · exact .inr (.inr (by decide))
           · exact .inr (.inr (hp _ _ _ h)))

/-- A quoted text has no character that is not printable. -/
theorem quote_noCtl {P : Char → Bool} {x : Char} (hP : P x = false) (h1 : x ≠ '"') (h2 : x ≠ '\\') (h3 : x.isAlphanum = false) (s : Str) : x ∉ quote P s := by
  intro h
  rcases List.mem_cons.mp h with e | h
  · exact h1 e
  · rcases List.mem_append.mp h with h | h
    · obtain ⟨c, _, hx⟩ := List.mem_flatMap.mp h
      rcases quoteRune_mem hx with ⟨rfl, h | h | h⟩ | h | h
      · rw [hP] at h; cases h
      · exact h1 h
      · exact h2 h
      · exact h2 h
      · rw [h3] at h; cases h
    · exact h1 (List.mem_singleton.mp h)

/-! ## Names and numbers -/

theorem natText_inj {m n : Nat} (h : natText m = natText n) : m = n := by
  have := congrArg (decValue 0) h
  unfold natText at this
  rwa [(toDigits_digits m).2.1, (toDigits_digits n).2.1] at this

theorem natText_digit {n : Nat} {c : Char} (h : c ∈ natText n) : c.isDigit = true := (toDigits_digits n).1 c h

/-- All rules. -/
def allRules : List Rule :=
  [.Grammar, .Expression, .LogicExpression, .NotExpression, .CompareExpression, .CompareInExpression,
   .PredicateExpression, .BetweenExpression, .PrimaryExpression, .ArgumentList, .Argument, .Reference,
   .IdentifierReference, .JsonReference, .Identifier, .Compare, .Logic, .Match, .Value, .Array, .Literal,
   .Integer, .Boolean, .Null, .String, .SpaceComment, .sp, .sp1, .Comment, .Space, .EndOfLine, .EndOfFile]

theorem ruleName_read (r : Rule) : (allRules.map fun x => (ruleName x, x)).lookup (ruleName r) = some r := by
  cases r <;> decide

theorem ruleName_chars (r : Rule) : (ruleName r).take 6 ≠ c!"Action" ∧ ruleName r ≠ c!"PegText" ∧ ruleName r ≠ c!"Unknown" ∧
    (ruleName r).all (fun c => c.isAlpha || c == '_') = true ∧ ruleName r ≠ [] := by
  cases r <;> decide

theorem kindName_inj {k k' : TokKind} (h : kindName k = kindName k') : k = k' := by
  cases k with
  | rule r =>
    cases k' with
    | rule r' =>
      have h1 := ruleName_read r
      rw [show ruleName r = ruleName r' from h, ruleName_read r'] at h1
      injection h1 with h1
      rw [h1]
    | text => exact absurd h (ruleName_chars r).2.1
    | act n =>
      refine absurd ?_ (ruleName_chars r).1
      rw [show ruleName r = _ from h]; rfl
  | text =>
    cases k' with
    | rule r => exact absurd h.symm (ruleName_chars r).2.1
    | text => rfl
    | act n => exact absurd (congrArg List.head? h) (by simp [kindName])
  | act n =>
    cases k' with
    | rule r =>
      refine absurd ?_ (ruleName_chars r).1
      rw [show ruleName r = _ from h.symm]; rfl
    | text => exact absurd (congrArg List.head? h) (by simp [kindName])
    | act m =>
      have := List.append_cancel_left (as := c!"Action") h
      rw [natText_inj this]

theorem kindName_chars (k : TokKind) : ∀ c ∈ kindName k, (c.isAlphanum || c == '_') = true := by
  intro c hc
  cases k with
  | rule r =>
    have := List.all_eq_true.mp (ruleName_chars r).2.2.2.1 c hc
    simp only [Char.isAlphanum, Bool.or_eq_true] at *
    rcases this with h | h
    · exact .inl (.inl h)
    · exact .inr h
  | text => simp [kindName] at hc; rcases hc with rfl | rfl | rfl | rfl | rfl | rfl | rfl <;> decide
  | act n =>
    rcases List.mem_append.mp hc with hc | hc
    · simp at hc; rcases hc with rfl | rfl | rfl | rfl | rfl | rfl <;> decide
    · have : c.isDigit = true := natText_digit hc
      simp [Char.isAlphanum, this]

theorem kindName_not {k : TokKind} {c : Char} (h : (c.isAlphanum || c == '_') = false) : c ∉ kindName k := by
  intro hc; rw [kindName_chars k c hc] at h; cases h

theorem kindName_ne_unknown (k : TokKind) : kindName k ≠ c!"Unknown" := by
  cases k with
  | rule r => exact (ruleName_chars r).2.2.1
  | text => decide
  | act n => intro h; exact absurd (congrArg List.head? h) (by simp [kindName])

theorem kindName_ne_nil (k : TokKind) : kindName k ≠ [] := by
  cases k with
  | rule r => exact (ruleName_chars r).2.2.2.2
  | text => decide
  | act n => intro h; exact absurd (congrArg List.head? h) (by simp [kindName])

/-- Two texts with a mark after the first part, which is free of the mark. -/
theorem mark_inj {c : Char} : ∀ {a b x y : Str}, c ∉ a → c ∉ b → a ++ c :: x = b ++ c :: y → a = b ∧ x = y
  | [], [], _, _, _, _, h => ⟨rfl, by simpa using h⟩
  | [], d :: b, _, _, _, hb, h => by simp at h; exact absurd (h.1 ▸ List.mem_cons_self) hb
  | d :: a, [], _, _, ha, _, h => by simp at h; exact absurd (h.1 ▸ List.mem_cons_self) ha
  | d :: a, e :: b, x, y, ha, hb, h => by
    simp only [List.cons_append, List.cons.injEq] at h
    obtain ⟨h1, h2⟩ := mark_inj (fun m => ha (List.mem_cons_of_mem _ m)) (fun m => hb (List.mem_cons_of_mem _ m)) h.2
    exact ⟨by rw [h.1, h1], h2⟩

/-- Indentation can be counted. -/
theorem indent_inj : ∀ {d d' : Nat} {x y : Str}, x.head? ≠ some ' ' → y.head? ≠ some ' ' →
    List.replicate d ' ' ++ x = List.replicate d' ' ' ++ y → d = d' ∧ x = y
  | 0, 0, _, _, _, _, h => ⟨rfl, by simpa using h⟩
  | 0, d' + 1, x, y, hx, _, h => by
    simp only [List.replicate_succ, List.replicate_zero, List.nil_append, List.cons_append] at h
    rw [h] at hx; exact absurd rfl hx
  | d + 1, 0, x, y, _, hy, h => by
    simp only [List.replicate_succ, List.replicate_zero, List.nil_append, List.cons_append] at h
    rw [← h] at hy; exact absurd rfl hy
  | d + 1, d' + 1, x, y, hx, hy, h => by
    simp only [List.replicate_succ, List.cons_append, List.cons.injEq, true_and] at h
    obtain ⟨h1, h2⟩ := indent_inj hx hy h
    exact ⟨by rw [h1], h2⟩

theorem coloured_inj {pretty : Bool} {c : Str} {a b x y : Str} (ha : ∀ k ∈ a, (k.isAlphanum || k == '_') = true) (hb : ∀ k ∈ b, (k.isAlphanum || k == '_') = true)
    (h : coloured pretty c a ++ ' ' :: x = coloured pretty c b ++ ' ' :: y) : a = b ∧ x = y := by
  have hn : ∀ (w : Str) (k : Char), (∀ k ∈ w, (k.isAlphanum || k == '_') = true) → (k.isAlphanum || k == '_') = false → k ∉ w := by
    intro w k hw hk hm; rw [hw k hm] at hk; cases hk
  cases pretty with
  | false => exact mark_inj (hn _ _ ha (by decide)) (hn _ _ hb (by decide)) h
  | true =>
    simp only [coloured, if_pos, List.cons_append, List.append_assoc, List.cons.injEq, true_and, List.nil_append] at h
    have h := List.append_cancel_left h
    simp only [List.cons.injEq, true_and] at h
    obtain ⟨h1, h2⟩ := mark_inj (hn _ _ ha (by decide)) (hn _ _ hb (by decide)) h
    refine ⟨h1, ?_⟩
    simpa using h2

theorem coloured_head {pretty : Bool} {c : Str} {a x : Str} (ha : ∀ k ∈ a, (k.isAlphanum || k == '_') = true) (hne : a ≠ []) :
    (coloured pretty c a ++ x).head? ≠ some ' ' := by
  cases pretty with
  | false =>
    cases a with
    | nil => exact absurd rfl hne
    | cons k a =>
      intro h
      simp [coloured] at h
      have := ha k (by simp)
      rw [h] at this
      exact absurd this (by decide)
  | true => simp only [coloured, if_pos]; intro h; exact absurd h (by simp; decide)

/-! ## Lines, lists of lines, trees -/

theorem lineText_inj (P : Char → Bool) (pretty : Bool) {l l' : Line} {u v : Str} (h : lineText P pretty l ++ u = lineText P pretty l' ++ v) : l = l' ∧ u = v := by
  obtain ⟨d, k, x⟩ := l
  obtain ⟨d', k', x'⟩ := l'
  simp only [lineText, List.append_assoc] at h
  obtain ⟨h1, h2⟩ := indent_inj (coloured_head (kindName_chars k) (kindName_ne_nil k)) (coloured_head (kindName_chars k') (kindName_ne_nil k')) h
  obtain ⟨h3, h4⟩ := coloured_inj (kindName_chars k) (kindName_chars k') (by simpa using h2)
  obtain ⟨h5, h6⟩ := quote_inj P _ _ _ _ h4
  exact ⟨by rw [h1, kindName_inj h3, h5], by simpa using h6⟩

theorem flatMap_inj {α : Type} {f : α → Str} (hf : ∀ a b u v, f a ++ u = f b ++ v → a = b ∧ u = v) (hne : ∀ a, f a ≠ []) : ∀ {l l' : List α},
    l.flatMap f = l'.flatMap f → l = l'
  | [], [], _ => rfl
  | [], b :: l', h => by simp at h; exact absurd h.1 (hne b)
  | a :: l, [], h => by simp at h; exact absurd h.1 (hne a)
  | a :: l, b :: l', h => by
    simp only [List.flatMap_cons] at h
    obtain ⟨h1, h2⟩ := hf _ _ _ _ h
    rw [h1, flatMap_inj hf hne h2]

theorem lineText_ne (P : Char → Bool) (pretty : Bool) (l : Line) : lineText P pretty l ≠ [] := by
  unfold lineText; simp

theorem linesText_inj (P : Char → Bool) (pretty : Bool) {ls ls' : List Line} (h : ls.flatMap (lineText P pretty) = ls'.flatMap (lineText P pretty)) : ls = ls' :=
  flatMap_inj (fun _ _ _ _ h => lineText_inj P pretty h) (lineText_ne P pretty) h

theorem tokText_inj {t t' : Tok} {u v : Str} (h : tokText t ++ '\n' :: u = tokText t' ++ '\n' :: v) : t = t' ∧ u = v := by
  obtain ⟨k, b, e⟩ := t
  obtain ⟨k', b', e'⟩ := t'
  simp only [tokText, List.cons_append, List.append_assoc, List.cons.injEq, true_and, List.nil_append] at h
  have hn : ∀ (n : Nat) (c : Char), c.isDigit = false → c ∉ natText n := by
    intro n c hc hm; rw [natText_digit hm] at hc; cases hc
  obtain ⟨h1, h2⟩ := mark_inj (kindName_not (by decide)) (kindName_not (by decide)) h
  simp only [List.cons.injEq, true_and] at h2
  obtain ⟨h3, h4⟩ := mark_inj (hn b ' ' (by decide)) (hn b' ' ' (by decide)) h2
  obtain ⟨h5, h6⟩ := mark_inj (hn e '\n' (by decide)) (hn e' '\n' (by decide)) h4
  exact ⟨by rw [kindName_inj h1, natText_inj h3, natText_inj h5], h6⟩

theorem tokensText_inj {ts ts' : List Tok} (h : tokensText ts = tokensText ts') : ts = ts' :=
  flatMap_inj (f := fun t => tokText t ++ c!"\n") (fun a b u v h => tokText_inj (by simpa using h)) (fun a => by simp [tokText]) h

end Verif
