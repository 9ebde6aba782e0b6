import Verif.ParseThms

/-! # First sets: which characters an expression can consume first -/

namespace Verif

/-- A set of characters as a list of closed intervals. -/
abbrev CSet := List (Char × Char)

/-- Membership. -/
def CSet.has (l : CSet) (c : Char) : Bool := l.any fun p => p.1.toNat ≤ c.toNat && c.toNat ≤ p.2.toNat

/-- Inclusion (sufficient test). -/
def CSet.sub (a b : CSet) : Bool := a.all fun p => b.any fun q => q.1.toNat ≤ p.1.toNat && p.2.toNat ≤ q.2.toNat

/-- The first set of an expression, given those of the rules. -/
def first (nul : Rule → Bool) (F : Rule → CSet) : PExp → CSet
  | .eps => []
  | .any => [(Char.ofNat 0, Char.ofNat 0x10ffff)]
  | .chr c => [(c, c)]
  | .rng lo hi => [(lo, hi)]
  | .seq a b => first nul F a ++ (if nullable nul a then first nul F b else [])
  | .alt a b => first nul F a ++ first nul F b
  | .star a => first nul F a
  | .opt a => first nul F a
  | .notP _ => []
  | .call r => F r
  | .txt a => first nul F a
  | .act _ => []
  | .sw _ a b => first nul F a ++ first nul F b

theorem CSet.has_append (a b : CSet) (c : Char) : CSet.has (a ++ b) c = (a.has c || b.has c) := by simp [CSet.has]

theorem CSet.has_sub {a b : CSet} {c : Char} (h : a.sub b = true) (hc : a.has c = true) : b.has c = true := by
  simp only [CSet.has, CSet.sub, List.any_eq_true, List.all_eq_true, Bool.and_eq_true, decide_eq_true_eq] at *
  obtain ⟨p, hp, h1, h2⟩ := hc
  obtain ⟨q, hq, h3, h4⟩ := h p hp
  exact ⟨q, hq, by omega, by omega⟩

theorem Char.le_max (c : Char) : c.toNat ≤ 0x10ffff := by
  have := Verif.Char.toNat_lt c; unfold endSymbol at this; omega

/-- A match that consumes something consumes a character of the first set. -/
theorem Big.first' {nul : Rule → Bool} {F : Rule → CSet} (hn : ∀ r, nullable nul (G r) = true → nul r = true)
    (hF : ∀ r, (first nul F (G r)).sub (F r) = true) {e s x} (h : Big G e s x) :
    ∀ c t ev r, s = c :: t → x = some (ev, r) → r ≠ s → (first nul F e).has c = true := by
  induction h with
  | eps => rintro c t _ _ rfl ⟨⟩ h; exact absurd rfl h
  | @anyOk c s =>
    rintro _ _ _ _ ⟨⟩ ⟨⟩ _
    have := Char.le_max c
    simp only [first, CSet.has, List.any_cons, List.any_nil, Bool.or_false, Bool.and_eq_true, decide_eq_true_eq]
    exact ⟨Nat.zero_le _, this⟩
  | chrOk => rintro c t _ _ ⟨⟩ ⟨⟩ _; simp [first, CSet.has]
  | rngOk h1 h2 => rintro c t _ _ ⟨⟩ ⟨⟩ _; simp [first, CSet.has, h1, h2]
  | @seqOk a b s e1 r1 e2 r2 ha hb iha ihb =>
    rintro c t _ _ rfl ⟨⟩ hr
    simp only [first, CSet.has_append, Bool.or_eq_true]
    by_cases h : r1 = c :: t
    · subst h
      have hnull : nullable nul a = true := by
        cases hna : nullable nul a with
        | true => rfl
        | false => have := Big.consumes' hn ha _ _ rfl hna; simp at this
      right
      rw [if_pos hnull]
      exact ihb c t _ _ rfl rfl hr
    · exact .inl (iha c t _ _ rfl rfl h)
  | alt1 _ ih => rintro c t _ _ hs hx hr; simp only [first, CSet.has_append, Bool.or_eq_true]; exact .inl (ih c t _ _ hs hx hr)
  | alt2 _ _ _ ih => rintro c t _ _ hs hx hr; simp only [first, CSet.has_append, Bool.or_eq_true]; exact .inr (ih c t _ _ hs hx hr)
  | starNil => rintro c t _ _ hs ⟨⟩ hr; exact absurd rfl hr
  | @starCons a s e1 r1 e2 r2 ha hb iha ihb =>
    rintro c t _ _ rfl ⟨⟩ hr
    by_cases h : r1 = c :: t
    · subst h; exact ihb c t _ _ rfl rfl hr
    · exact iha c t _ _ rfl rfl h
  | optSome _ ih => rintro c t _ _ hs hx hr; exact ih c t _ _ hs hx hr
  | optNone => rintro c t _ _ hs ⟨⟩ hr; exact absurd rfl hr
  | notOk => rintro c t _ _ hs ⟨⟩ hr; exact absurd rfl hr
  | call _ ih => rintro c t _ _ hs hx hr; exact CSet.has_sub (hF _) (ih c t _ _ hs hx hr)
  | txtOk _ ih => rintro c t _ _ hs ⟨⟩ hr; exact ih c t _ _ hs rfl hr
  | act => rintro c t _ _ hs ⟨⟩ hr; exact absurd rfl hr
  | swIn _ _ ih => rintro c t _ _ hs hx hr; simp only [first, CSet.has_append, Bool.or_eq_true]; exact .inl (ih c t _ _ hs hx hr)
  | swOut _ _ ih => rintro c t _ _ hs hx hr; simp only [first, CSet.has_append, Bool.or_eq_true]; exact .inr (ih c t _ _ hs hx hr)
  | swNil => rintro c t _ _ ⟨⟩
  | _ => rintro c t _ _ _ ⟨⟩

/-- Every expression over the grammar either matches or fails. -/
theorem big_exp_total (e : PExp) (s : Str) (k : Nat) (hk : k ≤ 16) (h : ranked nulG rankG 16 k e = true) : ∃ x, Big G e s x :=
  ⟨_, denote_big (denoteN_big _) e s (denote_ne_div nulG_ok rankG_ok (16 * s.length + k) e k s hk h (Nat.le_refl _))⟩

/-- Blanks and the start of comments. -/
def wsF : CSet := [('\t', '\t'), ('\n', '\n'), ('\r', '\r'), (' ', ' '), ('-', '-'), ('/', '/')]
/-- Letters. -/
def alF : CSet := [('a', 'z'), ('A', 'Z')]
/-- Literals. -/
def litF : CSet := [('n', 'n'), ('N', 'N'), ('f', 'f'), ('F', 'F'), ('t', 't'), ('T', 'T'), ('"', '"'), ('\'', '\''), ('0', '9')]
/-- Primary expressions. -/
def primF : CSet := alF ++ [('0', '9'), ('"', '"'), ('\'', '\''), ('(', '('), ('[', '[')]
/-- Comparison operators. -/
def cmpF : CSet := wsF ++ [('<', '<'), ('>', '>'), ('=', '='), ('!', '!'), ('g', 'g'), ('G', 'G'), ('l', 'l'), ('L', 'L'),
  ('e', 'e'), ('E', 'E'), ('n', 'n'), ('N', 'N')]

/-- First sets of the rules. -/
def firstG : Rule → CSet
  | .EndOfLine => [('\n', '\n'), ('\r', '\r')]
  | .EndOfFile => []
  | .Comment => [('-', '-'), ('/', '/')]
  | .Space => [('\t', '\t'), ('\n', '\n'), ('\r', '\r'), (' ', ' ')]
  | .SpaceComment => wsF
  | .sp => wsF
  | .sp1 => wsF
  | .Integer => [('0', '9')]
  | .Boolean => [('f', 'f'), ('F', 'F'), ('t', 't'), ('T', 'T')]
  | .Null => [('n', 'n'), ('N', 'N')]
  | .String => [('"', '"'), ('\'', '\'')]
  | .Literal => litF
  | .Array => [('(', '('), ('[', '[')]
  | .Value => litF ++ [('(', '('), ('[', '[')]
  | .Identifier => alF
  | .ArgumentList => [('(', '(')]
  | .IdentifierReference => alF
  | .JsonReference => alF
  | .Reference => alF
  | .PrimaryExpression => primF
  | .BetweenExpression => primF
  | .PredicateExpression => primF
  | .CompareInExpression => primF
  | .CompareExpression => primF
  | .Match => wsF
  | .Compare => cmpF
  | .Logic => wsF ++ [('a', 'a'), ('A', 'A'), ('o', 'o'), ('O', 'O'), ('&', '&'), ('|', '|')]
  | .NotExpression => primF ++ wsF
  | .LogicExpression => primF ++ wsF
  | .Expression => primF ++ wsF
  | .Argument => primF ++ wsF
  | .Grammar => primF ++ wsF

theorem firstG_ok : ∀ r, (first nulG firstG (G r)).sub (firstG r) = true := by
  intro r; cases r <;> decide

/-- Failure from the first character. -/
theorem big_none {e : PExp} {s : Str} (hr : ranked nulG rankG 16 16 e = true) (hn : nullable nulG e = false)
    (hc : ∀ c t, s = c :: t → (first nulG firstG e).has c = false) : Big G e s none := by
  obtain ⟨x, hx⟩ := big_exp_total e s 16 (by omega) hr
  cases x with
  | none => exact hx
  | some p =>
    obtain ⟨ev, r⟩ := p
    have hlt := Big.consumes' nulG_ok hx _ _ rfl hn
    cases s with
    | nil => simp at hlt
    | cons c t =>
      have := Big.first' nulG_ok firstG_ok hx c t _ _ rfl rfl (by intro h; rw [h] at hlt; omega)
      rw [hc c t rfl] at this
      cases this

/-- Failure at the end of the input. -/
theorem big_none_nil {e : PExp} (hr : ranked nulG rankG 16 16 e = true) (hn : nullable nulG e = false) : Big G e [] none :=
  big_none hr hn (by rintro c t ⟨⟩)

theorem big_none_cons {e : PExp} {c : Char} {t : Str} (hr : ranked nulG rankG 16 16 e = true) (hn : nullable nulG e = false)
    (hc : (first nulG firstG e).has c = false) : Big G e (c :: t) none :=
  big_none hr hn (by rintro c t ⟨⟩; exact hc)

end Verif
