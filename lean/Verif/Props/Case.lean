import Verif.CaseThms
import Verif.Spec.Leaves
import Verif.Props.Parse

/-! # Letter case (C75) -/

namespace Verif

/-! ## The two parses -/

theorem case_parse {s s' : Str} (hl : SameLetters s s') (hk : FixedKept s s') :
    match parse s with
    | .ok n => ∃ n', parse s' = .ok n' ∧ SameTexts (fun x x' => NameAt s s' x x' ∨ x = x') (StrAt s s') n n'
    | .err (.syntax _ _) => ∃ b e, parse s' = .err (.syntax b e)
    | r => parse s' = r := by
  obtain ⟨x, hx⟩ := big_total .Grammar s
  obtain ⟨x', hx', hc⟩ := case_sync hx (s0 := s) (t0 := s') rfl ⟨hl, hk, List.suffix_refl _, List.suffix_refl _, hl.length⟩
  rcases parse_cases s with ⟨ev, h1, e1⟩ | ⟨h1, b, e, e1, _⟩
  · have := Big.det hx h1
    subst this
    obtain ⟨ev', r', rfl, he, _⟩ := hc.some
    rcases parse_cases s' with ⟨ev1, h2, e2⟩ | ⟨h2, _⟩
    · cases Big.det hx' h2
      have hp : finish ev ≠ .panic := by rw [← e1]; exact (C01_parse_total _).2.1
      have hsyn : ∀ b e, finish ev ≠ .err (.syntax b e) := by
        intro b e hf
        rcases C60_errors s (.syntax b e) (by rw [e1]; exact hf) with ⟨_, _, _, hno⟩ | ⟨k, hk, _⟩
        · rcases pegParse_cases s [] with ⟨st, ts, ev, ho, ht, hp, hb, _⟩ | ⟨st, ho, hp, hb, _⟩
          · exact hno _ _ hp
          · cases Big.det h1 hb
        · cases hk
      rw [e1, e2]
      have hr := case_run (N := fun x x' => NameAt s s' x x' ∨ x = x') (S := StrAt s s') (.inr rfl) (fun _ _ h => .inl h) (fun _ _ h => h) he
        (x := []) (t := {}) (x' := []) (t' := {}) ⟨rfl, .nil, rfl, rfl⟩
      revert hr hp hsyn
      unfold finish
      rw [runEvs_eq, runEvs_eq]
      cases runX [] ev {} with
      | none => intro h; exact absurd rfl h
      | some y =>
        cases runX [] ev' {} with
        | none => exact fun _ _ h => h.elim
        | some y' =>
          rintro - hsyn ⟨-, hr⟩
          simp only [Option.map_some] at hsyn ⊢
          rw [← hr.errors]
          revert hsyn
          cases y.2.errors with
          | nil => intro _; exact ⟨_, rfl, hr.pop.1⟩
          | cons e es => cases e <;> intro hsyn <;> first | rfl | exact absurd rfl (hsyn _ _)
    · cases Big.det hx' h2
  · have := Big.det hx h1
    subst this
    have := hc.none
    subst this
    rcases parse_cases s' with ⟨ev1, h2, e2⟩ | ⟨h2, b', e', e2, _⟩
    · cases Big.det hx' h2
    · rw [e1]
      exact ⟨_, _, e2⟩

mutual
theorem SameTexts.mono {N N' S S' : Str → Str → Prop} (hN : ∀ x x', N x x' → N' x x') (hS : ∀ x x', S x x' → S' x x') :
    ∀ {n n'}, SameTexts N S n n' → SameTexts N' S' n n'
  | _, _, .nil => .nil
  | _, _, .op => .op
  | _, _, .int => .int
  | _, _, .bool => .bool
  | _, _, .str h => .str (hS _ _ h)
  | _, _, .null => .null
  | _, _, .arr h => .arr (h.mono hN hS)
  | _, _, .ident h => .ident (hN _ _ h)
  | _, _, .ref h => .ref (EachText.mono hN h)
  | _, _, .paren h => .paren (h.mono hN hS)
  | _, _, .not h => .not (h.mono hN hS)
  | _, _, .func h h' => .func (hN _ _ h) (h'.mono hN hS)
  | _, _, .between a b c d => .between (a.mono hN hS) (b.mono hN hS) (c.mono hN hS) (d.mono hN hS)
  | _, _, .pred a b => .pred (a.mono hN hS) (b.mono hN hS)
  | _, _, .cmp a b c => .cmp (a.mono hN hS) (b.mono hN hS) (c.mono hN hS)
  | _, _, .logic a b c => .logic (a.mono hN hS) (b.mono hN hS) (c.mono hN hS)
theorem SameTextsL.mono {N N' S S' : Str → Str → Prop} (hN : ∀ x x', N x x' → N' x x') (hS : ∀ x x', S x x' → S' x x') :
    ∀ {n n'}, SameTextsL N S n n' → SameTextsL N' S' n n'
  | _, _, .nil => .nil
  | _, _, .cons a b => .cons (a.mono hN hS) (b.mono hN hS)
theorem EachText.mono {N N' : Str → Str → Prop} (hN : ∀ x x', N x x' → N' x x') : ∀ {l l'}, EachText N l l' → EachText N' l l'
  | _, _, .nil => .nil
  | _, _, .cons a b => .cons (hN _ _ a) (b.mono hN)
end

/-! ## Words -/

theorem freeWords_lower : ∀ w ∈ freeWords, (∀ c ∈ w, 97 ≤ c.toNat ∧ c.toNat ≤ 122) ∧ w.map Char.toLower = w ∧ w ≠ [] := by decide

theorem CI.idTail {w u : Str} (hw : w ∈ freeWords) (h : CI w u) : ∀ c ∈ u, IdTail c := by
  intro c hc
  obtain ⟨h1, h2, _⟩ := freeWords_lower w hw
  have e : u.map Char.toLower = w := by rw [← h2]; exact (CI.letters h1 h).symm
  have hm : c.toLower ∈ w := by rw [← e]; exact List.mem_map_of_mem hc
  have := h1 _ hm
  exact (idTail_lower (toLower_idem c)).mp (.inl (.inl this))

theorem Recased.head {s s' : Str} (h : Recased s s') : WordEnd s → WordEnd s' := by
  cases h with
  | nil => exact fun h => h
  | other hc _ => rintro - d t ⟨⟩; exact hc
  | @word w s s' hne hw _ _ =>
    intro h
    cases w with
    | nil => exact absurd rfl hne
    | cons c w => exact absurd (hw c (by simp)) (h c (w ++ s) rfl)
  | @free w u u' s s' hw hu hu' _ _ =>
    intro h
    have hne := (freeWords_lower w hw).2.2
    cases w with
    | nil => exact absurd rfl hne
    | cons c w =>
      have hi := CI.idTail hw hu
      obtain ⟨x, t, rfl, _⟩ := hu
      exact absurd (hi x (by simp)) (h x (t ++ s) rfl)

theorem Recased.symm {s s' : Str} (h : Recased s s') : Recased s' s := by
  induction h with
  | nil => exact .nil
  | other hc _ ih => exact .other hc ih
  | word hne hw he h ih => exact .word hne hw (h.head he) ih
  | free hw hu hu' he h ih => exact .free hw hu' hu (h.head he) ih

theorem Recased.letters {s s' : Str} (h : Recased s s') : SameLetters s s' := by
  induction h with
  | nil => rfl
  | other _ _ ih => exact .cons rfl ih
  | word _ _ _ _ ih => exact SameLetters.append rfl ih
  | free hw hu hu' _ _ ih =>
    have hl := (freeWords_lower _ hw).1
    exact SameLetters.append (Eq.trans (CI.letters hl hu).symm (CI.letters hl hu')) ih

/-- A word of `freeWords` that stands alone, from position `a` on. -/
def FreeAt (s : Str) (a : Nat) (u : Str) : Prop :=
  (∃ w ∈ freeWords, CI w u) ∧ (∀ j, j < u.length → s[a + j]? = u[j]?) ∧ (∀ d, 0 < a → s[a - 1]? = some d → ¬ IdTail d) ∧
    ∀ d, s[a + u.length]? = some d → ¬ IdTail d

theorem getElem?_append_add {x y : Str} (j : Nat) : (x ++ y)[x.length + j]? = y[j]? := by
  rw [List.getElem?_append_right (by omega), Nat.add_sub_cancel_left]

theorem FreeAt.shift {x s : Str} {a : Nat} {u : Str} (h : FreeAt s a u) (hx : ∀ d t, s = d :: t → IdTail d → ∀ c, x.getLast? = some c → ¬ IdTail c) :
    FreeAt (x ++ s) (x.length + a) u := by
  obtain ⟨⟨w, hw, hu⟩, h2, h3, h4⟩ := h
  refine ⟨⟨w, hw, hu⟩, fun j hj => ?_, fun d hd => ?_, fun d => ?_⟩
  · rw [Nat.add_assoc, getElem?_append_add]; exact h2 j hj
  · cases a with
    | zero =>
      have hne := (freeWords_lower w hw).2.2
      obtain ⟨c, u1, rfl⟩ : ∃ c u1, u = c :: u1 := by
        cases w with
        | nil => exact absurd rfl hne
        | cons c w => obtain ⟨x, t, rfl, _⟩ := hu; exact ⟨x, t, rfl⟩
      have h0 := h2 0 (by simp)
      cases s with
      | nil => cases h0
      | cons e t =>
        have h0 : some e = some c := h0
        cases h0
        intro hd'
        refine hx _ t rfl (CI.idTail hw hu _ (by simp)) d ?_
        rw [List.getLast?_eq_getElem?, ← hd', Nat.add_zero, List.getElem?_append_left (by omega)]
    | succ a =>
      rw [show x.length + (a + 1) - 1 = x.length + a by omega, getElem?_append_add]
      exact h3 d (by omega)
  · rw [Nat.add_assoc, getElem?_append_add]; exact h4 d

/-- A letter in another case belongs to a word of `freeWords`. -/
theorem Recased.changed {s s' : Str} (h : Recased s s') : ∀ {i c c'}, s[i]? = some c → s'[i]? = some c' → c ≠ c' →
    ∃ a u, FreeAt s a u ∧ a ≤ i ∧ i < a + u.length := by
  induction h with
  | nil => intro i c c' h; cases h
  | @other d s s' hd _ ih =>
    intro i c c' h1 h2 hne
    cases i with
    | zero =>
      have h1 : some d = some c := h1
      have h2 : some d = some c' := h2
      cases h1; cases h2; exact absurd rfl hne
    | succ i =>
      obtain ⟨a, u, hf, h3, h4⟩ := ih (i := i) h1 h2 hne
      refine ⟨1 + a, u, hf.shift (x := [d]) ?_, by omega, by omega⟩
      rintro e t - - c ⟨⟩
      exact hd
  | @word w s s' hw0 hw he _ ih =>
    intro i c c' h1 h2 hne
    by_cases hi : i < w.length
    · rw [List.getElem?_append_left hi] at h1 h2
      rw [h1] at h2
      cases h2; exact absurd rfl hne
    · obtain ⟨j, rfl⟩ : ∃ j, i = w.length + j := ⟨i - w.length, by omega⟩
      rw [getElem?_append_add] at h1 h2
      obtain ⟨a, u, hf, h3, h4⟩ := ih h1 h2 hne
      exact ⟨w.length + a, u, hf.shift fun d t e hd => absurd hd (he d t e), by omega, by omega⟩
  | @free w u u' s s' hw hu hu' he _ ih =>
    intro i c c' h1 h2 hne
    by_cases hi : i < u.length
    · refine ⟨0, u, ⟨⟨w, hw, hu⟩, fun j hj => ?_, fun d hd => absurd hd (by omega), fun d hd => ?_⟩, by omega, by omega⟩
      · rw [Nat.zero_add, List.getElem?_append_left hj]
      · rw [Nat.zero_add] at hd
        have := getElem?_append_add (x := u) (y := s) 0
        rw [Nat.add_zero, hd] at this
        cases s with
        | nil => cases this
        | cons e t => cases this; exact he _ _ rfl
    · have hl := (freeWords_lower _ hw).1
      have hlen : u.length = u'.length := SameLetters.length (Eq.trans (CI.letters hl hu).symm (CI.letters hl hu'))
      obtain ⟨j, rfl⟩ : ∃ j, i = u.length + j := ⟨i - u.length, by omega⟩
      rw [getElem?_append_add] at h1
      rw [hlen, getElem?_append_add] at h2
      obtain ⟨a, v, hf, h3, h4⟩ := ih h1 h2 hne
      exact ⟨u.length + a, v, hf.shift fun d t e hd => absurd hd (he d t e), by omega, by omega⟩

theorem differ {x x' : Str} (hl : x.length = x'.length) (h : x ≠ x') : ∃ (k : Nat) (c c' : Char), x[k]? = some c ∧ x'[k]? = some c' ∧ c ≠ c' := by
  induction x generalizing x' with
  | nil => cases x' with
    | nil => exact absurd rfl h
    | cons => cases hl
  | cons c x ih =>
    cases x' with
    | nil => cases hl
    | cons c' x' =>
      by_cases hc : c = c'
      · subst hc
        obtain ⟨k, d, d', h1, h2, h3⟩ := ih (x' := x') (by simpa using hl) fun e => h (by rw [e])
        exact ⟨k + 1, d, d', h1, h2, h3⟩
      · exact ⟨0, c, c', rfl, rfl, hc⟩

/-- Texts that agree with a part of a word of `freeWords`. -/
theorem FreeAt.lower {s : Str} {a : Nat} {u : Str} (h : FreeAt s a u) : u.map Char.toLower ∈ freeWords := by
  obtain ⟨⟨w, hw, hu⟩, _⟩ := h
  obtain ⟨h1, h2, _⟩ := freeWords_lower w hw
  have : w.map Char.toLower = u.map Char.toLower := CI.letters h1 hu
  rw [← this, h2]
  exact hw

theorem FreeAt.idTail {s : Str} {a : Nat} {u : Str} (h : FreeAt s a u) {i : Nat} (h1 : a ≤ i) (h2 : i < a + u.length) : ∃ d, s[i]? = some d ∧ IdTail d := by
  obtain ⟨⟨w, hw, hu⟩, h3, _⟩ := h
  have := h3 (i - a) (by omega)
  rw [show a + (i - a) = i by omega, List.getElem?_eq_getElem (l := u) (by omega)] at this
  exact ⟨_, this, CI.idTail hw hu _ (List.getElem_mem _)⟩

/-- A part of a text that lies within a word of `freeWords`. -/
theorem FreeAt.part {p x r : Str} {a : Nat} {u : Str} (h : FreeAt (p ++ (x ++ r)) a u) (h1 : a ≤ p.length) (h2 : p.length + x.length ≤ a + u.length) :
    ∃ k, x = (u.drop k).take x.length ∧ k + x.length + a = p.length + x.length := by
  obtain ⟨_, h3, _⟩ := h
  refine ⟨p.length - a, ?_, by omega⟩
  refine List.ext_getElem? fun j => ?_
  rw [List.getElem?_take]
  split
  · rename_i hj
    rw [List.getElem?_drop, ← h3 _ (by omega), show a + (p.length - a + j) = p.length + j by omega, getElem?_append_add, List.getElem?_append_left hj]
  · rw [List.getElem?_eq_none (by omega)]

/-- Names. -/
theorem NameAt.same {s s' x x' : Str} (hr : Recased s s') (h : NameAt s s' x x') : x = x' ∨ ∃ w ∈ freeWords, x.map Char.toLower <:+ w := by
  obtain ⟨hl, hid, p, r, p', r', rfl, rfl, hp, he⟩ := h
  by_cases hx : x = x'
  · exact .inl hx
  · obtain ⟨k, c, c', h1, h2, h3⟩ := differ hl.length hx
    have hk : k < x.length := (List.getElem?_eq_some_iff.mp h1).1
    have hk' : k < x'.length := (List.getElem?_eq_some_iff.mp h2).1
    obtain ⟨a, u, hf, h4, h5⟩ := hr.changed (i := p.length + k) (c := c) (c' := c')
      (by rw [getElem?_append_add, List.getElem?_append_left hk, h1]) (by rw [hp, getElem?_append_add, List.getElem?_append_left hk', h2]) h3
    have inx : ∀ i, p.length ≤ i → i < p.length + x.length → ∃ d, (p ++ (x ++ r))[i]? = some d ∧ IdTail d := by
      intro i h1 h2
      obtain ⟨j, rfl⟩ : ∃ j, i = p.length + j := ⟨i - p.length, by omega⟩
      rw [getElem?_append_add, List.getElem?_append_left (by omega), List.getElem?_eq_getElem (by omega)]
      exact ⟨_, rfl, hid _ (List.getElem_mem _)⟩
    have e1 : ¬ a + u.length < p.length + x.length := by
      intro hlt
      obtain ⟨d, hd, hi⟩ := inx (a + u.length) (by omega) hlt
      exact hf.2.2.2 d hd hi
    have e2 : ¬ p.length + x.length < a + u.length := by
      intro hlt
      obtain ⟨d, hd, hi⟩ := hf.idTail (i := p.length + x.length) (by omega) hlt
      rw [getElem?_append_add] at hd
      have := getElem?_append_add (x := x) (y := r) 0
      rw [Nat.add_zero, hd] at this
      cases r with
      | nil => cases this
      | cons e t => cases this; exact he _ _ rfl hi
    have e3 : ¬ p.length < a := by
      intro hlt
      obtain ⟨d, hd, hi⟩ := inx (a - 1) (by omega) (by omega)
      exact hf.2.2.1 d (by omega) hd hi
    obtain ⟨k, hx, hk⟩ := hf.part (by omega) (by omega)
    refine .inr ⟨_, hf.lower, ?_⟩
    have : x = u.drop k := by
      rw [List.take_of_length_le (by rw [List.length_drop]; omega)] at hx
      exact hx
    rw [this, List.map_drop]
    exact List.drop_suffix _ _

/-- Strings. -/
theorem StrAt.same {s s' x x' : Str} (hr : Recased s s') (h : StrAt s s' x x') : x = x' ∨ ∃ w ∈ freeWords, w <:+: x.map Char.toLower := by
  obtain ⟨hl, q, p, r, p', r', hq, rfl, rfl, hp⟩ := h
  have hqi : ¬ IdTail q := by
    rw [← idF_iff]
    rcases hq with rfl | rfl <;> decide
  by_cases hx : x = x'
  · exact .inl hx
  · obtain ⟨k, c, c', h1, h2, h3⟩ := differ hl.length hx
    have hk : k < x.length := (List.getElem?_eq_some_iff.mp h1).1
    have hk' : k < x'.length := (List.getElem?_eq_some_iff.mp h2).1
    have sh : ∀ (p x r : Str) j, (p ++ q :: (x ++ q :: r))[p.length + (j + 1)]? = (x ++ q :: r)[j]? := by
      intro p x r j
      rw [getElem?_append_add, List.getElem?_cons_succ]
    obtain ⟨a, u, hf, h4, h5⟩ := hr.changed (i := p.length + (k + 1)) (c := c) (c' := c')
      (by rw [sh, List.getElem?_append_left hk, h1]) (by rw [hp, sh, List.getElem?_append_left hk', h2]) h3
    have e1 : ¬ a ≤ p.length := by
      intro hle
      obtain ⟨d, hd, hi⟩ := hf.idTail hle (by omega)
      have := getElem?_append_add (x := p) (y := q :: (x ++ q :: r)) 0
      rw [Nat.add_zero, hd] at this
      cases this
      exact hqi hi
    have e2 : ¬ p.length + (x.length + 1) < a + u.length := by
      intro hlt
      obtain ⟨d, hd, hi⟩ := hf.idTail (i := p.length + (x.length + 1)) (by omega) hlt
      rw [sh] at hd
      have := getElem?_append_add (x := x) (y := q :: r) 0
      rw [Nat.add_zero, hd] at this
      cases this
      exact hqi hi
    refine .inr ⟨_, hf.lower, ?_⟩
    have hu : u = (x.drop (a - (p.length + 1))).take u.length := by
      refine List.ext_getElem? fun j => ?_
      rw [List.getElem?_take]
      split
      · rename_i hj
        rw [← hf.2.1 j hj, List.getElem?_drop, show a + j = p.length + ((a - (p.length + 1) + j) + 1) by omega, sh, List.getElem?_append_left (by omega)]
      · rw [List.getElem?_eq_none (by omega)]
    rw [hu]
    exact ((List.take_prefix _ _).isInfix.trans (List.drop_suffix _ _).isInfix).map _

theorem Recased.fixed {s s' : Str} (hr : Recased s s') {w : Str} (hw : w ∈ fixedWords) {i : Nat} (h : w <+: s.drop i) : w <+: s'.drop i := by
  obtain ⟨r, e⟩ := h
  have hle : i ≤ s.length := by
    by_cases hle : i ≤ s.length
    · exact hle
    · rw [List.drop_eq_nil_of_le (by omega)] at e
      have : w ≠ [] := by clear e; revert hw; revert w; decide
      cases w with
      | nil => exact absurd rfl this
      | cons => cases e
  have es : s = s.take i ++ (w ++ r) := by rw [e, List.take_append_drop]
  have hp : (s.take i).length = i := by rw [List.length_take]; omega
  have hl := hr.letters
  rw [es] at hl
  obtain ⟨p', y, e', h1, h2⟩ := hl.split
  obtain ⟨w', r', rfl, h3, h4⟩ := h2.split
  have hp' : p'.length = i := by rw [← h1.length, hp]
  have ed : s'.drop i = w' ++ r' := by rw [e', ← hp', List.drop_left]
  rw [ed]
  by_cases hx : w = w'
  · subst hx; exact List.prefix_append _ _
  · exfalso
    generalize s.take i = p at *
    subst hp
    have hid : ∀ c ∈ w, IdTail c := by
      have : ∀ w ∈ fixedWords, ∀ c ∈ w, idF.has c = true := by decide
      exact fun c hc => idF_iff.mp (this w hw c hc)
    obtain ⟨k, c, c', d1, d2, d3⟩ := differ h3.length hx
    have hk : k < w.length := (List.getElem?_eq_some_iff.mp d1).1
    have hk' : k < w'.length := (List.getElem?_eq_some_iff.mp d2).1
    rw [es, e'] at hr
    obtain ⟨a, u, hf, h4, h5⟩ := hr.changed (i := p.length + k) (c := c) (c' := c')
      (by rw [getElem?_append_add, List.getElem?_append_left hk, d1]) (by rw [← hp', getElem?_append_add, List.getElem?_append_left hk', d2]) d3
    have inx : ∀ i, p.length ≤ i → i < p.length + w.length → ∃ d, (p ++ (w ++ r))[i]? = some d ∧ IdTail d := by
      intro i h1 h2
      obtain ⟨j, rfl⟩ : ∃ j, i = p.length + j := ⟨i - p.length, by omega⟩
      rw [getElem?_append_add, List.getElem?_append_left (by omega), List.getElem?_eq_getElem (by omega)]
      exact ⟨_, rfl, hid _ (List.getElem_mem _)⟩
    have e1 : ¬ a + u.length < p.length + w.length := by
      intro hlt
      obtain ⟨d, hd, hi⟩ := inx (a + u.length) (by omega) hlt
      exact hf.2.2.2 d hd hi
    have e3 : ¬ p.length < a := by
      intro hlt
      obtain ⟨d, hd, hi⟩ := inx (a - 1) (by omega) (by omega)
      exact hf.2.2.1 d (by omega) hd hi
    obtain ⟨k, hx, hk⟩ := hf.part (by omega) (by omega)
    have hin : w <:+: u := by rw [hx]; exact (List.take_prefix _ _).isInfix.trans (List.drop_suffix _ _).isInfix
    have : ∀ w ∈ fixedWords, ∀ v ∈ freeWords, ¬ w.map Char.toLower <:+: v := by decide
    exact this w hw _ hf.lower (hin.map _)

/-- Keywords of a fixed spelling are not touched by a change of the other words, but `not` after `is` can be. -/
theorem Recased.kept {s s' : Str} (hr : Recased s s') (hn : IsNotKept s s') : FixedKept s s' :=
  fun i => ⟨fun _ hw => ⟨hr.fixed hw, hr.symm.fixed hw⟩, hn i⟩

/-- Texts without `is`. -/
theorem IsNotKept.of_no_is {s s' : Str} (h : ¬ c!"is" <:+: s) (h' : ¬ c!"is" <:+: s') : IsNotKept s s' := by
  have key : ∀ {s : Str}, ¬ c!"is" <:+: s → ∀ i, ¬ IsNot (s.drop i) := by
    rintro s h i ⟨w, u, -, e⟩
    refine h (List.IsInfix.trans ?_ (List.drop_suffix i s).isInfix)
    rw [e]
    exact (List.prefix_append _ _).isInfix
  exact fun i => ⟨fun hi => absurd hi (key h i), fun hi => absurd hi (key h' i)⟩

/-- Texts without keywords of a fixed spelling. -/
theorem FixedKept.of_none {s s' : Str} (h : ∀ w ∈ fixedWords, ¬ w <:+: s) (h' : ∀ w ∈ fixedWords, ¬ w <:+: s') : FixedKept s s' := by
  have key : ∀ {s : Str}, (∀ w ∈ fixedWords, ¬ w <:+: s) → ∀ i w, w ∈ fixedWords → ¬ w <+: s.drop i :=
    fun h i w hw hp => h w hw (hp.isInfix.trans (List.drop_suffix i _).isInfix)
  exact fun i => ⟨fun w hw => ⟨fun hp => absurd hp (key h i w hw), fun hp => absurd hp (key h' i w hw)⟩,
    IsNotKept.of_no_is (h c!"is" (by decide)) (h' c!"is" (by decide)) i⟩

theorem EachText.eq {N : Str → Str → Prop} {l l'} (h : EachText N l l') (hN : ∀ x x', N x x' → x ∈ l → x = x') : l = l' := by
  induction h with
  | nil => rfl
  | cons a _ ih => rw [hN _ _ a (by simp), ih fun x x' hx hm => hN x x' hx (List.mem_cons_of_mem _ hm)]

mutual
theorem SameTexts.eq {N S : Str → Str → Prop} : ∀ {n n'}, SameTexts N S n n' → (∀ x x', N x x' → .ident x ∈ atoms n → x = x') →
    (∀ x x', S x x' → .str x ∈ atoms n → x = x') → n = n'
  | _, _, .nil, _, _ => rfl
  | _, _, .op, _, _ => rfl
  | _, _, .int, _, _ => rfl
  | _, _, .bool, _, _ => rfl
  | _, _, .str h, _, hS => by rw [hS _ _ h (by simp [atoms])]
  | _, _, .null, _, _ => rfl
  | _, _, .arr h, hN, hS => by rw [h.eq hN hS]
  | _, _, .ident h, hN, _ => by rw [hN _ _ h (by simp [atoms])]
  | _, _, .ref h, hN, _ => by rw [h.eq fun x x' hx hm => hN x x' hx (by simpa [atoms] using hm)]
  | _, _, .paren h, hN, hS => by rw [h.eq hN hS]
  | _, _, .not h, hN, hS => by rw [h.eq hN hS]
  | _, _, .func h h', hN, hS => by
    rw [hN _ _ h (by simp [atoms]), h'.eq (fun x x' hx hm => hN x x' hx (by simp [atoms, hm])) (fun x x' hx hm => hS x x' hx (by simp [atoms, hm]))]
  | _, _, .between a b c d, hN, hS => by
    rw [a.eq (fun x x' hx hm => hN x x' hx (by simp [atoms, hm])) (fun x x' hx hm => hS x x' hx (by simp [atoms, hm])),
      b.eq (fun x x' hx hm => hN x x' hx (by simp [atoms, hm])) (fun x x' hx hm => hS x x' hx (by simp [atoms, hm])),
      c.eq (fun x x' hx hm => hN x x' hx (by simp [atoms, hm])) (fun x x' hx hm => hS x x' hx (by simp [atoms, hm])),
      d.eq (fun x x' hx hm => hN x x' hx (by simp [atoms, hm])) (fun x x' hx hm => hS x x' hx (by simp [atoms, hm]))]
  | _, _, .pred a b, hN, hS => by
    rw [a.eq (fun x x' hx hm => hN x x' hx (by simp [atoms, hm])) (fun x x' hx hm => hS x x' hx (by simp [atoms, hm])),
      b.eq (fun x x' hx hm => hN x x' hx (by simp [atoms, hm])) (fun x x' hx hm => hS x x' hx (by simp [atoms, hm]))]
  | _, _, .cmp a b c, hN, hS => by
    rw [a.eq (fun x x' hx hm => hN x x' hx (by simp [atoms, hm])) (fun x x' hx hm => hS x x' hx (by simp [atoms, hm])),
      b.eq (fun x x' hx hm => hN x x' hx (by simp [atoms, hm])) (fun x x' hx hm => hS x x' hx (by simp [atoms, hm])),
      c.eq (fun x x' hx hm => hN x x' hx (by simp [atoms, hm])) (fun x x' hx hm => hS x x' hx (by simp [atoms, hm]))]
  | _, _, .logic a b c, hN, hS => by
    rw [a.eq (fun x x' hx hm => hN x x' hx (by simp [atoms, hm])) (fun x x' hx hm => hS x x' hx (by simp [atoms, hm])),
      b.eq (fun x x' hx hm => hN x x' hx (by simp [atoms, hm])) (fun x x' hx hm => hS x x' hx (by simp [atoms, hm])),
      c.eq (fun x x' hx hm => hN x x' hx (by simp [atoms, hm])) (fun x x' hx hm => hS x x' hx (by simp [atoms, hm]))]
theorem SameTextsL.eq {N S : Str → Str → Prop} : ∀ {n n'}, SameTextsL N S n n' → (∀ x x', N x x' → .ident x ∈ atomsL n → x = x') →
    (∀ x x', S x x' → .str x ∈ atomsL n → x = x') → n = n'
  | _, _, .nil, _, _ => rfl
  | _, _, .cons a b, hN, hS => by
    rw [a.eq (fun x x' hx hm => hN x x' hx (by simp [atomsL, hm])) (fun x x' hx hm => hS x x' hx (by simp [atomsL, hm])),
      b.eq (fun x x' hx hm => hN x x' hx (by simp [atomsL, hm])) (fun x x' hx hm => hS x x' hx (by simp [atomsL, hm]))]
end

/-! ## C75 -/

/-- C75 is false: `between`, `is`, `isnull`, `notnull` and the `not` of `is not` are known in small letters only, and `null`, `true` and `false` only
in small or only in capital letters.  In another letter case the query is rejected, or the word is read as a name. -/
theorem C75_refuted :
    parse c!"a between 1 and 2" = .ok (.between (.ident c!"a") (.op c!"between") (.int 1) (.int 2)) ∧
    parse c!"a BETWEEN 1 and 2" = .err (.syntax 1 2) ∧
    parse c!"a is null" = .ok (.pred (.ident c!"a") (.op c!"is null")) ∧ parse c!"a IS null" = .err (.syntax 1 2) ∧
    parse c!"a isnull" = .ok (.pred (.ident c!"a") (.op c!"is null")) ∧ parse c!"a ISNULL" = .err (.syntax 1 2) ∧
    parse c!"a notnull" = .ok (.pred (.ident c!"a") (.op c!"is not null")) ∧ parse c!"a NOTNULL" = .err (.syntax 1 2) ∧
    parse c!"a is not null" = .ok (.pred (.ident c!"a") (.op c!"is not null")) ∧ parse c!"a is NOT null" = .err (.syntax 4 5) ∧
    parse c!"a = TRUE" = .ok (.cmp (.ident c!"a") (.op c!"eq") (.bool true)) ∧
    parse c!"a = True" = .ok (.cmp (.ident c!"a") (.op c!"eq") (.ident c!"True")) ∧
    parse c!"a = NULL" = .ok (.cmp (.ident c!"a") (.op c!"eq") .null) ∧
    parse c!"a = Null" = .ok (.cmp (.ident c!"a") (.op c!"eq") (.ident c!"Null")) := by
  decide +kernel

/-- C75, partial: if the words of the operators `and`, `or`, `not`, `in`, `like`, `eq`, `neq`, `gt`, `lt`, `gte` and `lte` are put in another letter
case, the result is the same (missing: the keywords of `C75_refuted`).  The names and strings of the query must not be such words, or parts of them in
the sense stated, since they would be changed too. -/
theorem C75_operators_partial {s s' : Str} (hr : Recased s s') (hn : IsNotKept s s') :
    match parse s with
    | .ok n => (∀ x, .ident x ∈ atoms n → ∀ w ∈ freeWords, ¬ x.map Char.toLower <:+ w) →
        (∀ x, .str x ∈ atoms n → ∀ w ∈ freeWords, ¬ w <:+: x.map Char.toLower) → parse s' = .ok n
    | .err (.syntax _ _) => ∃ b e, parse s' = .err (.syntax b e)
    | r => parse s' = r := by
  have h := case_parse hr.letters (hr.kept hn)
  revert h
  split
  · rintro ⟨n', e, hs⟩ h1 h2
    rw [e]
    congr 1
    refine (hs.eq (fun x x' hx hm => ?_) fun x x' hx hm => ?_).symm
    · rcases hx with hx | hx
      · rcases hx.same hr with h | ⟨w, hw, hi⟩
        · exact h
        · exact absurd hi (h1 x hm w hw)
      · exact hx
    · rcases hx.same hr with h | ⟨w, hw, hi⟩
      · exact h
      · exact absurd hi (h2 x hm w hw)
  · exact fun h => h
  · exact fun h => h

theorem recased_word {w s s' : Str} (hne : w ≠ []) (hw : w.all idF.has = true) (he : (s.head?.all fun c => !idF.has c) = true) (h : Recased s s') :
    Recased (w ++ s) (w ++ s') :=
  .word hne (fun c hc => idF_iff.mp (List.all_eq_true.mp hw c hc))
    (by rintro c t rfl hc; simp only [List.head?_cons, Option.all_some, idF_iff.mpr hc, Bool.not_true] at he; cases he) h

theorem recased_free {w u u' s s' : Str} (hw : w ∈ freeWords) (hu : SameLetters w u) (hu' : SameLetters w u')
    (he : (s.head?.all fun c => !idF.has c) = true) (h : Recased s s') : Recased (u ++ s) (u' ++ s') :=
  .free hw (CI.of_letters (freeWords_lower w hw).1 hu) (CI.of_letters (freeWords_lower w hw).1 hu')
    (by rintro c t rfl hc; simp only [List.head?_cons, Option.all_some, idF_iff.mpr hc, Bool.not_true] at he; cases he) h

theorem recased_other {w s s' : Str} (hw : (w.all fun c => !idF.has c) = true) (h : Recased s s') : Recased (w ++ s) (w ++ s') := by
  induction w with
  | nil => exact h
  | cons c w ih =>
    simp only [List.all_cons, Bool.and_eq_true, Bool.not_eq_true'] at hw
    exact .other (fun hc => by rw [idF_iff.mpr hc] at hw; cases hw.1) (ih hw.2)

example : Recased c!"a not in (1, 2) or b like 'x%'" c!"a NOT In (1, 2) OR b like 'x%'" ∧
    IsNotKept c!"a not in (1, 2) or b like 'x%'" c!"a NOT In (1, 2) OR b like 'x%'" ∧
    ∃ n, parse c!"a not in (1, 2) or b like 'x%'" = .ok n ∧ atoms n = [.ident c!"a", .op c!"not in", .int 1, .int 2, .op c!"or", .ident c!"b", .op c!"like", .str c!"x%"] :=
  ⟨recased_word (w := c!"a") (by decide) (by decide) (by decide) <| recased_other (w := c!" ") (by decide) <|
    recased_free (w := c!"not") (u := c!"not") (u' := c!"NOT") (by decide) (by decide) (by decide) (by decide) <| recased_other (w := c!" ") (by decide) <|
    recased_free (w := c!"in") (u := c!"in") (u' := c!"In") (by decide) (by decide) (by decide) (by decide) <| recased_other (w := c!" (") (by decide) <|
    recased_word (w := c!"1") (by decide) (by decide) (by decide) <| recased_other (w := c!", ") (by decide) <|
    recased_word (w := c!"2") (by decide) (by decide) (by decide) <| recased_other (w := c!") ") (by decide) <|
    recased_free (w := c!"or") (u := c!"or") (u' := c!"OR") (by decide) (by decide) (by decide) (by decide) <| recased_other (w := c!" ") (by decide) <|
    recased_word (w := c!"b") (by decide) (by decide) (by decide) <| recased_other (w := c!" ") (by decide) <|
    recased_word (w := c!"like") (by decide) (by decide) (by decide) <| recased_other (w := c!" '") (by decide) <|
    recased_word (w := c!"x") (by decide) (by decide) (by decide) <| recased_other (w := c!"%'") (by decide) .nil,
    IsNotKept.of_no_is (by decide) (by decide),
    .logic (.cmp (.ident c!"a") (.op c!"not in") (.arr [.int 1, .int 2])) (.op c!"or") (.cmp (.ident c!"b") (.op c!"like") (.str c!"x%")),
    by decide +kernel, by decide +kernel⟩

/-- The condition on names cannot be left out: `gte` without a right side is read as `gt e`, so that the last letter becomes a name. -/
example : parse c!"a gte" = .ok (.cmp (.ident c!"a") (.op c!"gt") (.ident c!"e")) ∧
    parse c!"a GTE" = .ok (.cmp (.ident c!"a") (.op c!"gt") (.ident c!"E")) := by decide +kernel

/-- C75, for texts that differ in the case of any letters: as long as the keywords of a fixed spelling stand at the same places, both are accepted or
both are rejected; the trees differ in the letter case of names and strings only, and integers that are too large give the same error. -/
theorem C75_letters {s s' : Str} (hl : SameLetters s s') (hk : FixedKept s s') :
    match parse s with
    | .ok n => ∃ n', parse s' = .ok n' ∧ SameTexts SameLetters SameLetters n n'
    | .err (.syntax _ _) => ∃ b e, parse s' = .err (.syntax b e)
    | r => parse s' = r := by
  have h := case_parse hl hk
  revert h
  split
  · rintro ⟨n', e, hs⟩
    refine ⟨n', e, hs.mono ?_ fun _ _ h => h.1⟩
    rintro x x' (h | rfl)
    · exact h.1
    · rfl
  · exact fun h => h
  · exact fun h => h

example : SameLetters c!"Name eQ 'Ab' AND n > 1" c!"name EQ 'aB' and N > 1" ∧ FixedKept c!"Name eQ 'Ab' AND n > 1" c!"name EQ 'aB' and N > 1" ∧
    parse c!"Name eQ 'Ab' AND n > 1" = .ok (.logic (.cmp (.ident c!"Name") (.op c!"eq") (.str c!"Ab")) (.op c!"and") (.cmp (.ident c!"n") (.op c!"gt") (.int 1))) ∧
    parse c!"name EQ 'aB' and N > 1" = .ok (.logic (.cmp (.ident c!"name") (.op c!"eq") (.str c!"aB")) (.op c!"and") (.cmp (.ident c!"N") (.op c!"gt") (.int 1))) :=
  ⟨by decide, FixedKept.of_none (by decide) (by decide), by decide +kernel, by decide +kernel⟩

end Verif
