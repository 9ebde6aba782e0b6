import Verif.Parse

/-! # `Parse` in terms of the big-step semantics of the grammar -/

namespace Verif

/-- Rules that can match the empty text. -/
def nulG : Rule → Bool
  | .sp => true
  | .EndOfFile => true
  | _ => false

/-- Rank of each rule: a rule calls only lower ranked rules before consuming input. -/
def rankG : Rule → Nat
  | .EndOfLine => 0 | .EndOfFile => 0 | .Comment => 0 | .Space => 1 | .SpaceComment => 2 | .sp => 3 | .sp1 => 3
  | .Integer => 0 | .Boolean => 0 | .Null => 0 | .String => 0 | .Literal => 1 | .Array => 0 | .Value => 2
  | .Identifier => 0 | .ArgumentList => 0 | .IdentifierReference => 1 | .JsonReference => 1 | .Reference => 2
  | .PrimaryExpression => 3 | .BetweenExpression => 4 | .Match => 4 | .PredicateExpression => 5
  | .CompareInExpression => 6 | .Compare => 4 | .Logic => 4 | .CompareExpression => 7 | .NotExpression => 8
  | .LogicExpression => 9 | .Expression => 10 | .Argument => 11 | .Grammar => 12

theorem nulG_ok : ∀ r, nullable nulG (G r) = true → nulG r = true := by
  intro r; cases r <;> decide

theorem rankG_ok : ∀ r, ranked nulG rankG 16 (rankG r) (G r) = true := by
  intro r; cases r <;> decide

/-- With enough call depth the functional semantics never runs out of fuel. -/
theorem denoteN_ne_div (r : Rule) (s : Str) (n : Nat) (h : 16 * s.length + rankG r < n) : denoteN G n r s ≠ .div := by
  obtain ⟨m, rfl⟩ : ∃ m, n = m + 1 := ⟨n - 1, by omega⟩
  exact denote_ne_div nulG_ok rankG_ok m (G r) (rankG r) s (by cases r <;> decide) (rankG_ok r) (by omega)

theorem initSt_rel (s : Str) : Rel s initSt s :=
  ⟨Nat.zero_le _, rfl, Nat.zero_le _, Nat.le_refl _, Nat.zero_le _⟩

/-- The part of `Parse` after recognition. -/
def finish (evs : List Ev) : ParseRes :=
  match runEvs [] evs {} with
  | none => .panic
  | some t =>
    match t.errors with
    | e :: _ => .err e
    | [] => .ok t.pop.1

/-- Every rule is total. -/
theorem big_total (r : Rule) (s : Str) : ∃ x, Big G (.call r) s x :=
  ⟨_, denoteN_big (G := G) (16 * s.length + rankG r + 1) r s (denoteN_ne_div r s _ (by omega))⟩

/-- `Parse` either recognises the whole input and runs the actions of the derivation, or reports a position. -/
theorem parse_cases (s : Str) :
    (∃ evs, Big G (.call .Grammar) s (some (evs, [])) ∧ parse s = finish evs) ∨
    (Big G (.call .Grammar) s none ∧ ∃ b e, parse s = .err (.syntax b e) ∧ b ≤ e ∧ e ≤ s.length) := by
  have hnd : denoteN G (depthBound s.length) .Grammar s ≠ .div :=
    denoteN_ne_div _ _ _ (by show _ + 12 < _; unfold depthBound; omega)
  have hb := denoteN_big (G := G) (depthBound s.length) .Grammar s hnd
  have hm := execN_match G s (depthBound s.length) .Grammar initSt s (initSt_rel s)
  cases hd : denoteN G (depthBound s.length) .Grammar s with
  | div => exact absurd hd hnd
  | fail =>
    rw [hd] at hm hb
    obtain ⟨st', ho, hf⟩ := hm
    exact .inr ⟨hb, st'.max.b, st'.max.e, by simp [parse, ho], hf.maxb, hf.maxe⟩
  | ok evs rest =>
    rw [hd] at hm hb
    obtain ⟨st', toks, ho, hr, hti, ht, he, hin⟩ := hm
    have hb' : Big G (.call .Grammar) s (some (evs, rest)) := hb
    have hrest : rest = [] := by
      cases hb' with | call h => ?_
      cases h with | seqOk _ h => ?_
      cases h with | seqOk _ h => ?_
      cases h with | seqOk _ h => ?_
      cases h with | call h => ?_
      cases h with | notOk h => ?_
      cases h; rfl
    subst hrest
    refine .inl ⟨evs, hb', ?_⟩
    have ht' : st'.tree.take st'.ti = toks := by rw [ht]; rfl
    have hnlt : ¬ st'.tree.length < st'.ti := by have := hr.ti_le; omega
    simp only [parse, ho, hnlt, if_false, ht', execute]
    have hin' : ∀ t ∈ toks, t.b ≤ t.e ∧ t.e ≤ s.length := hin
    rw [if_pos hin', he]
    rfl

/-- When the grammar accepts with events `evs`, `Parse` is the result of running them. -/
theorem parse_of_big {s evs} (h : Big G (.call .Grammar) s (some (evs, []))) : parse s = finish evs := by
  rcases parse_cases s with ⟨evs', hb, hp⟩ | ⟨hb, _⟩
  · have := Big.det h hb; simp at this; rw [this]; exact hp
  · have := Big.det h hb; simp at this

/-- When the grammar rejects, `Parse` returns a syntax error. -/
theorem parse_of_big_none {s} (h : Big G (.call .Grammar) s none) : ∃ b e, parse s = .err (.syntax b e) := by
  rcases parse_cases s with ⟨evs', hb, _⟩ | ⟨_, b, e, hp, _⟩
  · have := Big.det h hb; simp at this
  · exact ⟨b, e, hp⟩

end Verif
