import Verif.Chain
import Verif.Spec.Spaced

/-! # Forward derivations: values and names -/

namespace Verif

open PExp

/-- Characters of identifiers. -/
def idF : CSet := [('a', 'z'), ('A', 'Z'), ('0', '9'), ('_', '_')]

theorem idF_iff {c : Char} : idF.has c = true ↔ IdTail c := by
  simp only [idF, CSet.has, List.any_cons, List.any_nil, Bool.or_false, Bool.or_eq_true, Bool.and_eq_true, decide_eq_true_eq, IdTail, IdHead]
  constructor
  · rintro (h | h | h | h)
    · exact .inl (.inl h)
    · exact .inl (.inr h)
    · exact .inr (.inl h)
    · refine .inr (.inr (Char.toNat_inj' ?_))
      exact Nat.le_antisymm h.2 h.1
  · rintro ((h | h) | h | rfl)
    · exact .inl h
    · exact .inr (.inl h)
    · exact .inr (.inr (.inl h))
    · exact .inr (.inr (.inr (by decide)))

theorem rng_no {lo hi : Char} {r : Str} (h : Hd [(lo, hi)] r) : No (.rng lo hi) r := by
  cases r with
  | nil => exact .rngNil
  | cons c t =>
    have := h c t rfl
    exact .rngFail (by simpa [CSet.has] using this)

theorem digits_hd {r : Str} (h : Hd idF r) : Hd [('0', '9')] r := h.mono (by decide)

theorem integer_ok (k : Nat) {r : Str} (h : Hd [('0', '9')] r) :
    Ok (.call .Integer) (Nat.toDigits 10 k ++ r) [.text (Nat.toDigits 10 k), .act 25] r := by
  obtain ⟨hd, -, h0⟩ := toDigits_digits k
  have key : Ok (.alt (.chr '0') (.seq (.rng '1' '9') (.star (.rng '0' '9')))) (Nat.toDigits 10 k ++ r) [] r := by
    rcases h0 with h0 | ⟨c, u, hu, hc⟩
    · rw [h0]; exact .alt1 .chrOk
    · rw [hu] at hd ⊢
      have hcd := (isDigit_iff c).mp (hd c (by simp))
      have : c.toNat ≠ 48 := fun e => hc (Char.toNat_inj' e)
      refine .alt2 (.chrFail hc) (.seqOk (.rngOk (by show 49 ≤ _; omega) hcd.2) (star_chars (rng_no h) u ?_))
      intro d hd' t
      have := (isDigit_iff d).mp (hd d (by simp [hd']))
      exact .rngOk this.1 this.2
  have := Big.txtOk key
  rw [txt_eq] at this
  exact .call (.seqOk this .act)

theorem atoi_toDigits (k : Nat) : atoi (Nat.toDigits 10 k) = if k ≤ maxInt then ((k : Int), none) else ((maxInt : Int), some (.intRange (Nat.toDigits 10 k))) := by
  obtain ⟨hd, hv, -⟩ := toDigits_digits k
  unfold atoi
  have hall : ¬ (Nat.toDigits 10 k = [] ∨ ¬ ((Nat.toDigits 10 k).all Char.isDigit) = true) := by
    simp only [not_or, Classical.not_not]
    exact ⟨toDigits_ne_nil k, List.all_eq_true.mpr hd⟩
  rw [if_neg hall, hv]

theorem Literal_int (k : Nat) {r : Str} (h : Hd [('0', '9')] r) :
    Ok (.call .Literal) (Nat.toDigits 10 k ++ r) [.text (Nat.toDigits 10 k), .act 25] r := by
  have hi := integer_ok k h
  obtain ⟨hd, -, -⟩ := toDigits_digits k
  cases hu : Nat.toDigits 10 k with
  | nil => exact absurd hu (toDigits_ne_nil k)
  | cons c u =>
    rw [hu] at hi hd
    have hcd := (isDigit_iff c).mp (hd c (by simp))
    have hno : ∀ S : List Char, (∀ d ∈ S, d.toNat < 48 ∨ 57 < d.toNat) → c ∉ S := by
      intro S hS hc; have := hS c hc; omega
    exact .call (.swOut (hno _ (by decide)) (.swOut (hno _ (by decide)) (.swOut (hno _ (by decide)) hi)))

/-- Literals. -/
theorem Lit.ok {u n} (h : Lit u n) {r : Str} (hr : Hd [('0', '9')] r) : ∃ ev, Ok (.call .Literal) (u ++ r) ev r ∧ Eff ev [n] [] := by
  have txt : ∀ {e : PExp} {w : Str}, Ok e (w ++ r) [] r → Ok (.txt e) (w ++ r) [.text w] r := by
    intro e w h
    have := Big.txtOk h
    rw [txt_eq] at this
    exact this
  cases h with
  | @int k hk =>
    refine ⟨_, Literal_int k hr, ?_⟩
    have := eff_int (Nat.toDigits 10 k)
    rw [atoi_toDigits, if_pos hk] at this
    exact this
  | tru h =>
    rcases h with rfl | rfl
    · have h1 : Ok gBoolean (c!"true" ++ r) [.text c!"true", .act 26] r :=
        .seqOk (txt (.swOut (by decide) (.swOut (by decide) (.swOut (by decide) (lit_ok c!"true" r))))) .act
      exact ⟨_, .call (.swOut (by decide) (.swIn (by decide) (.call h1))), eff_bool c!"true"⟩
    · have h1 : Ok gBoolean (c!"TRUE" ++ r) [.text c!"TRUE", .act 26] r :=
        .seqOk (txt (.swOut (by decide) (.swIn (by decide) (lit_ok c!"TRUE" r)))) .act
      exact ⟨_, .call (.swOut (by decide) (.swIn (by decide) (.call h1))), eff_bool c!"TRUE"⟩
  | fls h =>
    rcases h with rfl | rfl
    · have h1 : Ok gBoolean (c!"false" ++ r) [.text c!"false", .act 26] r :=
        .seqOk (txt (.swOut (by decide) (.swOut (by decide) (.swIn (by decide) (lit_ok c!"false" r))))) .act
      exact ⟨_, .call (.swOut (by decide) (.swIn (by decide) (.call h1))), eff_bool c!"false"⟩
    · have h1 : Ok gBoolean (c!"FALSE" ++ r) [.text c!"FALSE", .act 26] r :=
        .seqOk (txt (.swIn (by decide) (lit_ok c!"FALSE" r))) .act
      exact ⟨_, .call (.swOut (by decide) (.swIn (by decide) (.call h1))), eff_bool c!"FALSE"⟩
  | null h =>
    rcases h with rfl | rfl
    · exact ⟨_, .call (.swIn (by decide) (.call (.seqOk (txt (.alt1 (lit_ok c!"null" r))) .act))), eff_null _⟩
    · exact ⟨_, .call (.swIn (by decide) (.call (.seqOk (txt (.alt2 (.seqFail1 (.chrFail (by decide))) (lit_ok c!"NULL" r))) .act))), eff_null _⟩
  | @sq s h =>
    refine ⟨_, ?_, eff_str (u := s) (.inl rfl)⟩
    have : Ok (.call .Literal) _ _ _ := .call (.swOut (by decide) (.swOut (by decide) (.swIn (by decide) (string_sq h r))))
    simpa using this
  | @dq s h =>
    refine ⟨_, ?_, eff_str (u := s) (.inr rfl)⟩
    have : Ok (.call .Literal) _ _ _ := .call (.swOut (by decide) (.swOut (by decide) (.swIn (by decide) (string_dq h r))))
    simpa using this

/-- First character of a literal. -/
theorem Lit.start {u n} (h : Lit u n) : ∃ c t, u = c :: t ∧ litF.has c = true := by
  cases h with
  | @int k hk =>
    obtain ⟨hd, -, -⟩ := toDigits_digits k
    cases hu : Nat.toDigits 10 k with
    | nil => exact absurd hu (toDigits_ne_nil k)
    | cons c u =>
      rw [hu] at hd
      have hcd := (isDigit_iff c).mp (hd c (by simp))
      refine ⟨c, u, rfl, ?_⟩
      have : CSet.has [('0', '9')] c = true := by simp [CSet.has]; exact hcd
      exact CSet.has_sub (by decide) this
  | tru h => rcases h with rfl | rfl <;> exact ⟨_, _, rfl, by decide⟩
  | fls h => rcases h with rfl | rfl <;> exact ⟨_, _, rfl, by decide⟩
  | null h => rcases h with rfl | rfl <;> exact ⟨_, _, rfl, by decide⟩
  | sq h => exact ⟨_, _, rfl, by decide⟩
  | dq h => exact ⟨_, _, rfl, by decide⟩

/-! ## Items -/

/-- The repeated part of an item list. -/
def itemT (x : Rule) : PExp := seqs [.call .sp, .chr ',', .call .sp, .call x]

/-- Characters that may follow an item. -/
def Closer (x : Str) : Prop := ∃ c t, x = c :: t ∧ (c = ',' ∨ c = ')' ∨ c = ']')

theorem Closer.solid {x} (h : Closer x) : Solid x := by
  obtain ⟨c, t, rfl, rfl | rfl | rfl⟩ := h <;> exact Solid.cons (by decide)

/-- Reading one item. -/
def ItemOk (x : Rule) (u : Str) (n : Node) : Prop :=
  Solid u ∧ u ≠ [] ∧ ∀ w y, WS w → Closer y → ∃ ev r, Ok (.call x) (u ++ (w ++ y)) ev r ∧ (r = w ++ y ∨ r = y) ∧ Eff ev [n] []

theorem solid_append {u r : Str} (h : Solid u) (hne : u ≠ []) : Solid (u ++ r) := by
  cases u with
  | nil => exact absurd rfl hne
  | cons c t => exact Solid.cons (h c t rfl)

theorem sp_or {w y r : Str} (hw : WS w) (hy : Solid y) (hr : r = w ++ y ∨ r = y) : Ok (.call .sp) r [] y := by
  rcases hr with rfl | rfl
  · exact sp_ok hw hy.no
  · exact sp_nil hy.no

theorem items_ok {x : Rule} {R : Str → Node → Prop} (hx : ∀ u n, R u n → ItemOk x u n) {u ns} (h : Items R u ns) :
    Solid u ∧ u ≠ [] ∧ ∀ w y, WS w → Closer y → ∃ ev r, (r = w ++ y ∨ r = y) ∧ Eff ev ns [] ∧
      ∀ ev' r', Ok (.star (itemT x)) r ev' r' → Ok (.seq (.call x) (.star (itemT x))) (u ++ (w ++ y)) (ev ++ ev') r' := by
  induction h with
  | one h =>
    obtain ⟨h1, h2, h3⟩ := hx _ _ h
    refine ⟨h1, h2, fun w y hw hy => ?_⟩
    obtain ⟨ev, r, ho, hr, he⟩ := h3 w y hw hy
    exact ⟨ev, r, hr, he, fun ev' r' hs => .seqOk ho hs⟩
  | @more u ns w1 w2 v n _ hw1 hw2 hv ih =>
    obtain ⟨h1, h2, h3⟩ := ih
    obtain ⟨v1, v2, v3⟩ := hx _ _ hv
    refine ⟨solid_append h1 h2, by simp [h2], fun w y hw hy => ?_⟩
    obtain ⟨ev2, r2, ho2, hr2, he2⟩ := v3 w y hw hy
    have hcl : Closer (',' :: (w2 ++ (v ++ (w ++ y)))) := ⟨_, _, rfl, .inl rfl⟩
    obtain ⟨ev1, r1, hr1, he1, hs1⟩ := h3 w1 _ hw1 hcl
    refine ⟨ev1 ++ ev2, r2, hr2, ?_, fun ev' r' hs => ?_⟩
    · have := he1.append he2; simpa using this
    · have step : Ok (itemT x) r1 ev2 r2 :=
        .seqOk (sp_or hw1 hcl.solid hr1) (.seqOk .chrOk (.seqOk (sp_ok hw2 (solid_append v1 v2).no) ho2))
      have := hs1 _ _ (.starCons step hs)
      simpa [List.append_assoc] using this

theorem Ok.seq_inv {a b : PExp} {s ev r} (h : Ok (.seq a b) s ev r) : ∃ e1 r1 e2, Ok a s e1 r1 ∧ Ok b r1 e2 r ∧ ev = e1 ++ e2 := by
  change Big G _ _ (some (ev, r)) at h
  generalize hx : some (ev, r) = x at h
  cases h with
  | seqFail1 _ => cases hx
  | seqFail2 _ _ => cases hx
  | seqOk i1 i2 => cases hx; exact ⟨_, _, _, i1, i2, rfl⟩

/-- The inside of a bracketed list: optional items, closing bracket. -/
theorem list_ok {x : Rule} {R : Str → Node → Prop} (hx : ∀ u n, R u n → ItemOk x u n)
    (hnc : ∀ t, No (.call x) (')' :: t)) (hns : ∀ t, No (.call x) (']' :: t)) {c : Char} (hc : c = ')' ∨ c = ']')
    {u ns w1 t w2} (h : Items R u ns) (hw1 : WS w1) (ht : t = [] ∨ t = c!",") (hw2 : WS w2) (r : Str) :
    ∃ ev, Ok (.seq (gItems x) (.seq (.call .sp) (.chr c))) (u ++ (w1 ++ (t ++ (w2 ++ c :: r)))) ev r ∧ Eff ev ns [] := by
  obtain ⟨h1, h2, h3⟩ := items_ok hx h
  have hnx : No (.call x) (c :: r) := by
    rcases hc with rfl | rfl
    · exact hnc r
    · exact hns r
  have hcs : Solid (c :: r) := by rcases hc with rfl | rfl <;> exact Solid.cons (by decide)
  have hc' : c ≠ ',' := by rcases hc with rfl | rfl <;> decide
  rcases ht with rfl | rfl
  · obtain ⟨ev, r1, hr1, he, hs⟩ := h3 (w1 ++ w2) (c :: r) (hw1.append hw2) ⟨_, _, rfl, by rcases hc with rfl | rfl <;> simp⟩
    have hsp := sp_or (hw1.append hw2) hcs hr1
    have := hs [] r1 (.starNil (.seqFail2 hsp (.seqFail1 (.chrFail hc'))))
    rw [List.append_nil] at this
    obtain ⟨e1, r2, e2, i1, i2, rfl⟩ := this.seq_inv
    refine ⟨(e1 ++ (e2 ++ ([] ++ []))) ++ ([] ++ []), Ok.cast (.seqOk (.optSome (.seqOk i1 (.seqOk i2 (.seqOk hsp (.optNone (.chrFail hc')))))) (.seqOk (sp_nil hcs.no) .chrOk)) (by simp) rfl rfl, ?_⟩
    simpa using he
  · obtain ⟨ev, r1, hr1, he, hs⟩ := h3 w1 (',' :: (w2 ++ c :: r)) hw1 ⟨_, _, rfl, .inl rfl⟩
    have hsp := sp_or hw1 (Solid.cons (by decide)) hr1
    have := hs [] r1 (.starNil (.seqFail2 hsp (.seqFail2 .chrOk (.seqFail2 (sp_ok hw2 hcs.no) hnx))))
    rw [List.append_nil] at this
    obtain ⟨e1, r2, e2, i1, i2, rfl⟩ := this.seq_inv
    refine ⟨(e1 ++ (e2 ++ ([] ++ []))) ++ ([] ++ []), Ok.cast (.seqOk (.optSome (.seqOk i1 (.seqOk i2 (.seqOk hsp (.optSome .chrOk))))) (.seqOk (sp_ok hw2 hcs.no) .chrOk)) (by simp) rfl rfl, ?_⟩
    simpa using he

end Verif
