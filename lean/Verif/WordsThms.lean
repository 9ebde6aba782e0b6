import Verif.CaseThms
import Verif.PegFileThms
import Verif.Spec.Words

/-! # Two runs of the recogniser on texts that differ in names, numbers and strings -/

namespace Verif

variable {N : Str → Str → Prop} {I : Nat → Nat → Prop} {S : Str → Str → Prop}

/-! ## Relations between texts -/

/-- A converse relation. -/
abbrev Conv {α : Type} (R : α → α → Prop) : α → α → Prop := fun x y => R y x

theorem idTail_not_blank {c : Char} (h : IdTail c) : c ∉ blanks := by
  intro hb
  rw [← idF_iff] at h
  revert h; revert c; decide

theorem toDigits_idTail (k : Nat) : ∀ c ∈ Nat.toDigits 10 k, IdTail c := fun c hc =>
  .inr (.inl ((isDigit_iff c).mp ((toDigits_digits k).1 c hc)))

theorem valueWord_chars : ∀ {w : Str}, w ∈ valueWords → w ≠ [] ∧ ∀ c ∈ w, IdTail c := by
  have : ∀ w ∈ valueWords, w ≠ [] ∧ ∀ c ∈ w, idF.has c = true := by decide
  exact fun {w} h => ⟨(this _ h).1, fun c hc => idF_iff.mp ((this _ h).2 c hc)⟩

theorem CI.word {k w : Str} (hk : LowerWord k = true) (hne : k ≠ []) (h : CI k w) : w ≠ [] ∧ ∀ c ∈ w, IdTail c := by
  constructor
  · rintro rfl
    exact hne (List.length_eq_zero_iff.mp h.length.symm)
  · exact fun c hc => .inl (h.mem hk c hc)

theorem opWord_lower : ∀ {k : Str}, k ∈ opWords → LowerWord k = true ∧ k ≠ [] := by
  have : ∀ k ∈ opWords, LowerWord k = true ∧ k ≠ [] := by decide
  exact fun {k} h => this k h

theorem wordEnd_append {x r : Str} (hx : ∀ c ∈ x, IdTail c) (h : WordEnd (x ++ r)) : x = [] := by
  cases x with
  | nil => rfl
  | cons c x => exact absurd (hx c (by simp)) (h c (x ++ r) rfl)

/-- Both texts go on with a word, or neither. -/
theorem Refill.wordEnd {b s s'} (h : Refill N I S b s s') (hs : WordEnd s) : WordEnd s' := by
  have no : ∀ {x r : Str}, x ≠ [] → (∀ c ∈ x, IdTail c) → ¬ WordEnd (x ++ r) := fun h1 h2 h => h1 (wordEnd_append h2 h)
  cases h with
  | nil => exact hs
  | blank h => rintro _ _ ⟨⟩ hc; exact idTail_not_blank hc h
  | @comment _ o _ _ _ _ h =>
    rcases h with rfl | rfl <;> rintro _ _ ⟨⟩ hc <;> exact absurd (idF_iff.mpr hc) (by decide)
  | sign h => rintro _ _ ⟨⟩ hc; exact h hc
  | quoted h => rintro _ _ ⟨⟩ hc; rcases h with rfl | rfl <;> exact absurd (idF_iff.mpr hc) (by decide)
  | number => exact absurd hs (no (toDigits_ne_nil _) (toDigits_idTail _))
  | name _ h => exact absurd hs (no (by obtain ⟨⟨⟨c, t, rfl, _⟩, _⟩, _⟩ := h; simp) (idText_chars h.1))
  | value h => exact absurd hs (no (valueWord_chars h).1 (valueWord_chars h).2)
  | op h h2 => exact absurd hs (no (h2.word (opWord_lower h).1 (opWord_lower h).2).1 (h2.word (opWord_lower h).1 (opWord_lower h).2).2)
  | neg h => exact absurd hs (no (h.word (by decide) (by decide)).1 (h.word (by decide) (by decide)).2)
  | is => exact absurd hs (no (by decide) (by intro c hc; exact idF_iff.mp (by revert hc; revert c; decide)))
  | word h1 h2 => exact absurd hs (no h1 h2)

theorem Refill.symm {b s s'} (h : Refill N I S b s s') : Refill (Conv N) (Conv I) (Conv S) b s' s := by
  induction h with
  | nil => exact .nil
  | blank h _ ih => exact .blank h ih
  | comment h1 h2 h3 _ ih => exact .comment h1 h2 h3 ih
  | sign h1 h2 h3 h4 h5 _ ih => exact .sign h1 h2 h3 h4 (fun h => (h5 h).symm) ih
  | quoted h1 h2 h3 h4 _ ih => exact .quoted h1 h3 h2 h4 ih
  | number h1 h2 h3 ih => exact .number h1 (h3.wordEnd h2) ih
  | name h1 h2 h3 h4 h5 ih => exact .name h1 h3 h2 (h5.wordEnd h4) ih
  | value h1 h2 h3 ih => exact .value h1 (h3.wordEnd h2) ih
  | op h1 h2 h3 h4 ih => exact .op h1 h2 (h4.wordEnd h3) ih
  | neg h1 h2 h3 ih => exact .neg h1 (h3.wordEnd h2) ih
  | is h1 h2 ih => exact .is (h2.wordEnd h1) ih
  | word h1 h2 h3 h4 ih => exact .word h1 h2 (h4.wordEnd h3) ih

/-- A reader that expects `t` can be at a place where the text lets expect `b`. -/
def Compat (t b : Next) : Prop := t = .either ∨ b = .either ∨ t = b

instance (t b : Next) : Decidable (Compat t b) := inferInstanceAs (Decidable (_ ∨ _))

/-- Corresponding places of the two texts: between words, or inside a word that is not replaced. -/
inductive WPos (N : Str → Str → Prop) (I : Nat → Nat → Prop) (S : Str → Str → Prop) (t : Next) : Str → Str → Prop where
  | at {b s s'} : Compat t b → Refill N I S b s s' → WPos N I S t s s'
  | mid {x r r'} : x ≠ [] → (∀ c ∈ x, IdTail c) → WordEnd r → Refill N I S .either r r' → WPos N I S t (x ++ r) (x ++ r')

theorem WPos.symm {t s s'} (h : WPos N I S t s s') : WPos (Conv N) (Conv I) (Conv S) t s' s := by
  cases h with
  | «at» h1 h2 => exact .at h1 h2.symm
  | mid h1 h2 h3 h4 => exact .mid h1 h2 (h4.wordEnd h3) h4.symm

/-- After a part of a word that is not replaced. -/
theorem WPos.rest {t x r r'} (h2 : ∀ c ∈ x, IdTail c) (h3 : WordEnd r) (h4 : Refill N I S .either r r') : WPos N I S t (x ++ r) (x ++ r') := by
  by_cases hx : x = []
  · subst hx; exact .at (.inr (.inl rfl)) h4
  · exact .mid hx h2 h3 h4

theorem WPos.weaken {t t' s s'} (h : WPos N I S t s s') (ht : t' = t ∨ t' = .either) : WPos N I S t' s s' := by
  cases h with
  | «at» h1 h2 =>
    rcases ht with rfl | rfl
    · exact .at h1 h2
    · exact .at (.inl rfl) h2
  | mid h1 h2 h3 h4 => exact .mid h1 h2 h3 h4

/-- The text begins with a character that belongs to no word. -/
theorem Refill.nonword {b c r s'} (h : Refill N I S b (c :: r) s') (hc : ¬ IdTail c) :
    (c ∈ blanks ∧ ∃ r', s' = c :: r' ∧ Refill N I S b r r') ∨
    (∃ o t e s2 s2', (o = c!"--" ∨ o = c!"//") ∧ (∀ c ∈ t, c ≠ '\n' ∧ c ≠ '\r') ∧ (e = '\n' ∨ e = '\r') ∧ c :: r = o ++ (t ++ e :: s2) ∧
      s' = o ++ (t ++ e :: s2') ∧ Refill N I S b s2 s2') ∨
    (c ∉ blanks ∧ c ≠ '\'' ∧ c ≠ '"' ∧ ∃ r', s' = c :: r' ∧ (c = '-' ∨ c = '/' → r.head? ≠ some c ∧ r'.head? ≠ some c) ∧ Refill N I S (afterSign c) r r') ∨
    ((c = '\'' ∨ c = '"') ∧ ∃ v v' s2 s2', c ∉ v ∧ c ∉ v' ∧ S v v' ∧ r = v ++ c :: s2 ∧ s' = c :: (v' ++ c :: s2') ∧ Refill N I S .operator s2 s2') := by
  have no : ∀ {x r2 : Str}, x ≠ [] → (∀ c ∈ x, IdTail c) → c :: r ≠ x ++ r2 := by
    intro x r2 hx h2 e
    cases x with
    | nil => exact hx rfl
    | cons d x => cases e; exact hc (h2 _ (by simp))
  generalize hs : c :: r = s at h
  cases h with
  | nil => cases hs
  | blank h1 h2 => cases hs; exact .inl ⟨h1, _, rfl, h2⟩
  | comment h1 h2 h3 h4 => exact .inr (.inl ⟨_, _, _, _, _, h1, h2, h3, rfl, rfl, h4⟩)
  | sign h1 h2 h3 h4 h5 h6 => cases hs; exact .inr (.inr (.inl ⟨h2, h3, h4, _, rfl, h5, h6⟩))
  | quoted h1 h2 h3 h4 h5 => cases hs; exact .inr (.inr (.inr ⟨h1, _, _, _, _, h2, h3, h4, rfl, rfl, h5⟩))
  | number => exact absurd hs (no (toDigits_ne_nil _) (toDigits_idTail _))
  | name _ h => exact absurd hs (no (by obtain ⟨⟨⟨c, t, rfl, _⟩, _⟩, _⟩ := h; simp) (idText_chars h.1))
  | value h => exact absurd hs (no (valueWord_chars h).1 (valueWord_chars h).2)
  | op h h2 => exact absurd hs (no (h2.word (opWord_lower h).1 (opWord_lower h).2).1 (h2.word (opWord_lower h).1 (opWord_lower h).2).2)
  | neg h => exact absurd hs (no (h.word (by decide) (by decide)).1 (h.word (by decide) (by decide)).2)
  | is => exact absurd hs (no (by decide) (by intro c hc; exact idF_iff.mp (by revert hc; revert c; decide)))
  | word h1 h2 => exact absurd hs (no h1 h2)

/-- At a character that belongs to no word, no word is being read. -/
theorem WPos.out {t c r s'} (h : WPos N I S t (c :: r) s') (hc : ¬ IdTail c) : ∃ b, Compat t b ∧ Refill N I S b (c :: r) s' := by
  generalize hs : c :: r = s at h
  cases h with
  | «at» h1 h2 => exact ⟨_, h1, h2⟩
  | @mid x _ _ h1 h2 =>
    cases x with
    | nil => exact absurd rfl h1
    | cons d x => cases hs; exact absurd (h2 _ (by simp)) hc

/-- What stands at a place where a word begins or goes on. -/
inductive WView (N : Str → Str → Prop) (I : Nat → Nat → Prop) (S : Str → Str → Prop) (t : Next) : Str → Str → Prop where
  | rest {x r r'} : x ≠ [] → (∀ c ∈ x, IdTail c) → WordEnd r → Refill N I S .either r r' → WView N I S t (x ++ r) (x ++ r')
  | number {k k' s s'} : I k k' → WordEnd s → Refill N I S .operator s s' → WView N I S t (Nat.toDigits 10 k ++ s) (Nat.toDigits 10 k' ++ s')
  | name {b x x' s s'} : Compat t b → N x x' → NameFits b x → NameFits b x' → WordEnd s → Refill N I S .operator s s' → WView N I S t (x ++ s) (x' ++ s')
  | value {w s s'} : w ∈ valueWords → WordEnd s → Refill N I S .operator s s' → WView N I S t (w ++ s) (w ++ s')
  | op {k w s s'} : t ≠ .operand → k ∈ opWords → CI k w → WordEnd s → Refill N I S .operand s s' → WView N I S t (w ++ s) (w ++ s')
  | neg {b w s s'} : Compat t b → CI c!"not" w → WordEnd s → Refill N I S b s s' → WView N I S t (w ++ s) (w ++ s')
  | is {s s'} : t ≠ .operand → WordEnd s → Refill N I S .operator s s' → WView N I S t (c!"is" ++ s) (c!"is" ++ s')

theorem WPos.view {t c r s'} (h : WPos N I S t (c :: r) s') (hc : IdTail c) : WView N I S t (c :: r) s' := by
  generalize hs : c :: r = s at h
  have op : ∀ {t}, Compat t .operator → t ≠ .operand := by
    intro t; cases t <;> decide
  cases h with
  | mid h1 h2 h3 h4 => exact .rest h1 h2 h3 h4
  | «at» h0 h =>
    cases h with
    | nil => cases hs
    | blank h1 h2 => cases hs; exact absurd h1 (idTail_not_blank hc)
    | comment h1 => rcases h1 with rfl | rfl <;> cases hs <;> exact absurd (idF_iff.mpr hc) (by decide)
    | sign h1 => cases hs; exact absurd hc h1
    | quoted h1 => cases hs; rcases h1 with rfl | rfl <;> exact absurd (idF_iff.mpr hc) (by decide)
    | number h1 h2 h3 => exact .number h1 h2 h3
    | name h1 h2 h3 h4 h5 => exact .name h0 h1 h2 h3 h4 h5
    | value h1 h2 h3 => exact .value h1 h2 h3
    | op h1 h2 h3 h4 => exact .op (op h0) h1 h2 h3 h4
    | neg h1 h2 h3 => exact .neg h0 h1 h2 h3
    | is h1 h2 => exact .is (op h0) h1 h2
    | word h1 h2 h3 h4 => exact .rest h1 h2 h3 h4

theorem WPos.nil {t s'} (h : WPos N I S t [] s') : s' = [] := by
  have no : ∀ {x r2 : Str}, x ≠ [] → [] ≠ x ++ r2 := by
    intro x r2 hx e
    cases x with
    | nil => exact hx rfl
    | cons d x => cases e
  generalize hs : ([] : Str) = s at h
  cases h with
  | mid h1 => exact absurd hs (no h1)
  | «at» h0 h =>
    cases h with
    | nil => rfl
    | blank => cases hs
    | comment h1 => rcases h1 with rfl | rfl <;> cases hs
    | sign => cases hs
    | quoted => cases hs
    | number => exact absurd hs (no (toDigits_ne_nil _))
    | name _ h => exact absurd hs (no (by obtain ⟨⟨⟨c, t, rfl, _⟩, _⟩, _⟩ := h; simp))
    | value h => exact absurd hs (no (valueWord_chars h).1)
    | op h h2 => exact absurd hs (no (h2.word (opWord_lower h).1 (opWord_lower h).2).1)
    | neg h => exact absurd hs (no (h.word (by decide) (by decide)).1)
    | is => cases hs
    | word h1 => exact absurd hs (no h1)

/-! ## Keywords and signs -/

/-- Both texts begin with the same word, or none does. -/
theorem word_prefix_of {u r x r0 : Str} (hu : ∀ c ∈ u, IdTail c) (hr : WordEnd r0) (e : u ++ r = x ++ r0) : ∃ y, x = u ++ y ∧ r = y ++ r0 := by
  obtain ⟨y, rfl⟩ := word_prefix (a := u) (t := r) e.symm (fun c hc => idF_iff.mpr (hu c hc)) hr.hd
  rw [List.append_assoc] at e
  exact ⟨y, rfl, List.append_cancel_left e⟩

/-- The keywords that the grammar writes in double quotes. -/
def wordKws : List Str := [c!"not", c!"and", c!"or", c!"in", c!"like", c!"gt", c!"lt", c!"gte", c!"lte", c!"eq", c!"neq"]

/-- The keywords that it writes in single quotes. -/
def litKws : List Str := valueWords ++ [c!"not", c!"between", c!"is", c!"isnull", c!"notnull"]

/-- What is expected after a keyword in double quotes. -/
def kwWord (t : Next) (k : Str) : Option Next :=
  if k ∉ wordKws ∨ t = .either then none
  else if k = c!"not" then some t
  else if t = .operator then some .operand
  else none

/-- What is expected after a keyword in single quotes. -/
def kwLit (t : Next) (k : Str) : Option Next :=
  if k ∉ litKws ∨ t = .either then none
  else if k ∈ valueWords then some .operator
  else if k = c!"not" then some t
  else if t = .operator then (if k = c!"between" then some .operand else some .operator)
  else none

/-- A keyword, as it is written. -/
def KwText (t t2 : Next) (k u : Str) : Prop := (CI k u ∧ kwWord t k = some t2) ∨ (u = k ∧ kwLit t k = some t2)

theorem kwWord_mem {t k t2} (h : kwWord t k = some t2) : k ∈ wordKws := by
  unfold kwWord at h
  split at h
  · cases h
  · rename_i h1; exact Decidable.not_not.mp fun hh => h1 (.inl hh)

theorem kwLit_mem {t k t2} (h : kwLit t k = some t2) : k ∈ litKws := by
  unfold kwLit at h
  split at h
  · cases h
  · rename_i h1; exact Decidable.not_not.mp fun hh => h1 (.inl hh)

theorem lower_map {k : Str} (h : k ∈ wordKws) : k.map Char.toLower = k := by revert h; revert k; decide

theorem wordKws_range {k : Str} (h : k ∈ wordKws) : ∀ c ∈ k, 97 ≤ c.toNat ∧ c.toNat ≤ 122 := by revert h; revert k; decide

theorem opWords_range {k : Str} (h : k ∈ opWords) : ∀ c ∈ k, 97 ≤ c.toNat ∧ c.toNat ≤ 122 := by revert h; revert k; decide

theorem KwText.letters {t t2 k u} (h : KwText t t2 k u) : SameLetters k u := by
  rcases h with ⟨h, hk⟩ | ⟨rfl, _⟩
  · exact CI.letters (wordKws_range (kwWord_mem hk)) h
  · rfl

theorem KwText.chars {t t2 k u} (h : KwText t t2 k u) : u ≠ [] ∧ ∀ c ∈ u, IdHead c := by
  have hw : ∀ k ∈ wordKws, k ≠ [] ∧ LowerWord k = true := by decide
  have hl : ∀ k ∈ litKws, k ≠ [] ∧ ∀ c ∈ k, alF.has c = true := by decide
  rcases h with ⟨h, hk⟩ | ⟨rfl, hk⟩
  · obtain ⟨h1, h2⟩ := hw k (kwWord_mem hk)
    exact ⟨(h.word h2 h1).1, fun c hc => h.mem h2 c hc⟩
  · exact ⟨(hl _ (kwLit_mem hk)).1, fun c hc => alF_iff.mp ((hl _ (kwLit_mem hk)).2 c hc)⟩

/-- A keyword of the grammar is no proper prefix of the words that `Refill` knows. -/
theorem kw_whole {k u k' y : Str} {a b : Next} (h : KwText a b k u) (hk' : k' ∈ c!"not" :: c!"is" :: (valueWords ++ opWords)) {w : Str} (hw : SameLetters k' w)
    (e : w = u ++ y) : y = [] ∧ k.map Char.toLower = k'.map Char.toLower := by
  have hfin : ∀ k ∈ wordKws ++ litKws, ∀ k' ∈ c!"not" :: c!"is" :: (valueWords ++ opWords), k.map Char.toLower <+: k'.map Char.toLower →
      k.map Char.toLower = k'.map Char.toLower := by decide +kernel
  have hk : k ∈ wordKws ++ litKws := by
    rcases h with ⟨_, h⟩ | ⟨_, h⟩
    · exact List.mem_append_left _ (kwWord_mem h)
    · exact List.mem_append_right _ (kwLit_mem h)
  have e1 : k'.map Char.toLower = k.map Char.toLower ++ y.map Char.toLower := by
    rw [show k'.map Char.toLower = w.map Char.toLower from hw, e, List.map_append, show k.map Char.toLower = u.map Char.toLower from h.letters]
  have e2 := hfin k hk k' hk' ⟨_, e1.symm⟩
  refine ⟨?_, e2⟩
  rw [← e2] at e1
  have := List.append_right_eq_self.mp e1.symm
  simpa using this

theorem Compat.ne {t b : Next} (h : Compat t b) (ht : t = .operator) : b ≠ .operand := by
  subst ht
  rintro rfl
  revert h; decide

/-- After a keyword the two texts go on in the same way. -/
theorem WPos.keyword {t t2 k u r s'} (h : WPos N I S t (u ++ r) s') (hk : KwText t t2 k u) : ∃ r', s' = u ++ r' ∧ WPos N I S t2 r r' := by
  obtain ⟨hne, hu⟩ := hk.chars
  have hu' : ∀ c ∈ u, IdTail c := fun c hc => .inl (hu c hc)
  obtain ⟨c, u1, rfl⟩ : ∃ c u1, u = c :: u1 := by
    cases u with
    | nil => exact absurd rfl hne
    | cons c u1 => exact ⟨c, u1, rfl⟩
  have hv := WPos.view (c := c) (r := u1 ++ r) h (hu' c (by simp))
  generalize hs : c :: (u1 ++ r) = s at hv
  have tab : ∀ t t2, ∀ k ∈ wordKws ++ litKws, kwWord t k = some t2 ∨ kwLit t k = some t2 →
      t ≠ .either ∧
      (∀ w ∈ valueWords, k.map Char.toLower = w.map Char.toLower → t2 = .operator) ∧
      (t ≠ .operand → ∀ w ∈ opWords, k.map Char.toLower = w.map Char.toLower → t2 = .operand) ∧
      (k.map Char.toLower = c!"not" → t2 = t) ∧
      (t ≠ .operand → k.map Char.toLower = c!"is" → t2 = .operator) := by
    intro t t2; cases t <;> cases t2 <;> decide +kernel
  have tab2 : ∀ t t2, ∀ k ∈ wordKws ++ litKws, kwWord t k = some t2 ∨ kwLit t k = some t2 →
      c!"not" <+: k.map Char.toLower ∨ k ∈ valueWords ∨ (t = .operator ∧ ∃ w ∈ c!"is" :: opWords, w <+: k.map Char.toLower) := by
    intro t t2; cases t <;> cases t2 <;> decide +kernel
  have hty : kwWord t k = some t2 ∨ kwLit t k = some t2 := by
    rcases hk with ⟨_, h⟩ | ⟨_, h⟩
    · exact .inl h
    · exact .inr h
  have hkm : k ∈ wordKws ++ litKws := by
    rcases hk with ⟨_, h⟩ | ⟨_, h⟩
    · exact List.mem_append_left _ (kwWord_mem h)
    · exact List.mem_append_right _ (kwLit_mem h)
  obtain ⟨g0, g1, g2, g3, g4⟩ := tab t t2 k hkm hty
  have hvm : ∀ w ∈ valueWords, w ∈ c!"not" :: c!"is" :: (valueWords ++ opWords) := fun w hw => by simp [hw]
  have hom : ∀ w ∈ opWords, w ∈ c!"not" :: c!"is" :: (valueWords ++ opWords) := fun w hw => by simp [hw]
  cases hv with
  | rest h1 h2 h3 h4 =>
    obtain ⟨y, rfl, rfl⟩ := word_prefix_of (u := c :: u1) (r := r) hu' h3 hs
    exact ⟨_, by rw [List.append_assoc], .rest (fun c hc => h2 c (by simp [hc])) h3 h4⟩
  | @number n n' s0 s0' h1 h2 h3 =>
    have hd := (toDigits_digits n).1
    cases hn : Nat.toDigits 10 n with
    | nil => exact absurd hn (toDigits_ne_nil n)
    | cons d ds =>
      rw [hn] at hs hd
      obtain rfl : c = d := by injection hs
      have h5 := (isDigit_iff c).mp (hd c (by simp))
      have h6 := hu c (by simp)
      rcases h6 with ⟨h6, _⟩ | ⟨h6, _⟩
      · have : 97 ≤ c.toNat := h6
        omega
      · have : 65 ≤ c.toNat := h6
        omega
  | @name b x x' s0 s0' h0 h1 h2 h3 h4 h5 =>
    obtain ⟨y, rfl, rfl⟩ := word_prefix_of (u := c :: u1) (r := r) hu' h4 hs
    exfalso
    obtain ⟨⟨-, hnot⟩, hval, hop⟩ := h2
    have hl : ((c :: u1) ++ y).map Char.toLower = k.map Char.toLower ++ y.map Char.toLower := by
      rw [List.map_append, show k.map Char.toLower = (c :: u1).map Char.toLower from hk.letters]
    rcases tab2 t t2 k hkm hty with ⟨z, hz⟩ | hk2 | ⟨ht, w, hw, z, hz⟩
    · have hsplit : SameLetters (c!"not" ++ (z ++ y.map Char.toLower)) ((c :: u1) ++ y) := by
        show _ = _
        rw [hl, ← hz, List.map_append, List.map_append]
        have hid : ∀ l : Str, (l.map Char.toLower).map Char.toLower = l.map Char.toLower := by
          intro l
          rw [List.map_map]
          refine List.map_congr_left fun c _ => ?_
          exact toLower_idem c
        have : z.map Char.toLower = z := by
          have e : (c!"not" ++ z).map Char.toLower = c!"not" ++ z := by rw [hz]; exact hid k
          rw [List.map_append] at e
          exact List.append_cancel_left e
        rw [this, hid, List.append_assoc]
        rfl
      obtain ⟨a, t1, e, ha, _⟩ := hsplit.split
      exact hnot a t1 e (CI.of_letters (by decide) ha)
    · have hku : c :: u1 = k := by
        rcases hk with ⟨_, hw⟩ | ⟨rfl, _⟩
        · have : ∀ k ∈ wordKws, k ∉ valueWords := by decide
          exact absurd hk2 (this k (kwWord_mem hw))
        · rfl
      exact hval k hk2 ⟨y, by rw [← hku]⟩
    · exact hop (h0.ne ht) w hw ⟨z ++ y.map Char.toLower, by rw [hl, ← hz, List.append_assoc]⟩
  | @value w s0 s0' h1 h2 h3 =>
    obtain ⟨y, he, rfl⟩ := word_prefix_of (u := c :: u1) (r := r) hu' h2 hs
    obtain ⟨rfl, hl⟩ := kw_whole hk (hvm w h1) (SameLetters.refl w) he
    rw [g1 w h1 hl, he]
    exact ⟨s0', by simp, .at (.inr (.inr rfl)) h3⟩
  | @op k' w s0 s0' h0 h1 h2 h3 h4 =>
    obtain ⟨y, he, rfl⟩ := word_prefix_of (u := c :: u1) (r := r) hu' h3 hs
    obtain ⟨rfl, hl⟩ := kw_whole hk (hom k' h1) (CI.letters (opWords_range h1) h2) he
    rw [g2 h0 k' h1 hl, he]
    exact ⟨s0', by simp, .at (.inr (.inr rfl)) h4⟩
  | @neg b w s0 s0' h0 h1 h2 h3 =>
    obtain ⟨y, he, rfl⟩ := word_prefix_of (u := c :: u1) (r := r) hu' h2 hs
    obtain ⟨rfl, hl⟩ := kw_whole hk (by simp) (CI.letters (by decide) h1) he
    rw [g3 (hl.trans (by decide)), he]
    exact ⟨s0', by simp, .at h0 h3⟩
  | @is s0 s0' h0 h1 h2 =>
    obtain ⟨y, he, rfl⟩ := word_prefix_of (u := c :: u1) (r := r) hu' h1 hs
    obtain ⟨rfl, hl⟩ := kw_whole hk (k' := c!"is") (by simp) (SameLetters.refl c!"is") he
    rw [g4 h0 (hl.trans (by decide)), he]
    exact ⟨s0', by simp, .at (.inr (.inr rfl)) h2⟩

/-- The signs that are never part of a comment. -/
def plainSigns : Str := c!"=<>!()[],&|."

theorem plainSigns_spec {c : Char} (h : c ∈ plainSigns) : ¬ IdTail c ∧ c ∉ blanks ∧ c ≠ '\'' ∧ c ≠ '"' ∧ c ≠ '-' ∧ c ≠ '/' := by
  have : ∀ c ∈ plainSigns, idF.has c = false ∧ c ∉ blanks ∧ c ≠ '\'' ∧ c ≠ '"' ∧ c ≠ '-' ∧ c ≠ '/' := by decide
  obtain ⟨h1, h2⟩ := this c h
  exact ⟨by rw [← idF_iff, h1]; decide, h2⟩

theorem WPos.sign {t c r s'} (h : WPos N I S t (c :: r) s') (hc : c ∈ plainSigns) : ∃ r', s' = c :: r' ∧ Refill N I S (afterSign c) r r' := by
  obtain ⟨h1, h2, h3, h4, h5, h6⟩ := plainSigns_spec hc
  obtain ⟨b, hb, h⟩ := h.out h1
  rcases h.nonword h1 with ⟨h, _⟩ | ⟨o, _, _, _, _, ho, _, _, e, _⟩ | ⟨_, _, _, r', e, _, hr⟩ | ⟨h | h, _⟩
  · exact absurd h h2
  · rcases ho with rfl | rfl <;> cases e
    · exact absurd rfl h5
    · exact absurd rfl h6
  · exact ⟨r', e, hr⟩
  · exact absurd h h3
  · exact absurd h h4

/-- The sign that decides what is expected after a literal of signs. -/
def afterSigns : Str → Next
  | [] => .either
  | [c] => afterSign c
  | _ :: w => afterSigns w

theorem WPos.signs {w : Str} : ∀ {t r s'}, w ≠ [] → (∀ c ∈ w, c ∈ plainSigns) → WPos N I S t (w ++ r) s' →
    ∃ r', s' = w ++ r' ∧ WPos N I S (afterSigns w) r r' := by
  induction w with
  | nil => intro t r s' h; exact absurd rfl h
  | cons c w ih =>
    intro t r s' _ hw h
    obtain ⟨r1, rfl, h1⟩ := WPos.sign (r := w ++ r) h (hw c (by simp))
    cases w with
    | nil => exact ⟨r1, rfl, .at (.inr (.inr rfl)) h1⟩
    | cons d w =>
      obtain ⟨r', rfl, h2⟩ := ih (t := .either) (by simp) (fun x hx => hw x (by simp [hx])) (.at (.inl rfl) h1)
      exact ⟨r', rfl, h2⟩

theorem WPos.arrow {t r s'} (h : WPos N I S t (c!"->" ++ r) s') : ∃ r', s' = c!"->" ++ r' ∧ WPos N I S .operand r r' := by
  have h1 : ¬ IdTail '-' := by rw [← idF_iff]; decide
  obtain ⟨b, hb, h⟩ := WPos.out (c := '-') (r := '>' :: r) h h1
  rcases Refill.nonword (c := '-') (r := '>' :: r) h h1 with ⟨h, _⟩ | ⟨o, _, _, _, _, ho, _, _, e, _⟩ | ⟨_, _, _, r', rfl, _, hr⟩ | ⟨h | h, _⟩
  · exact absurd h (by decide)
  · rcases ho with rfl | rfl <;> cases e
  · obtain ⟨r2, rfl, h2⟩ := WPos.sign (t := .either) (c := '>') (r := r) (.at (.inl rfl) hr) (by decide)
    exact ⟨r2, rfl, .at (.inr (.inr rfl)) h2⟩
  · cases h
  · cases h

end Verif
