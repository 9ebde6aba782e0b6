import Verif.StepsPrim
import Verif.StepsTree

/-! # C56: how much work parsing is -/

namespace Verif

/-- C56: on every text, accepted or not, the recogniser stops after a number of steps that is at most proportional to the length of the text.  The
grammar reads many pieces more than once (a parenthesised piece as an expression and then as a list, a name as the beginning of a call and then as a
reference, the blanks after an operand once for every operator that might follow); these repetitions do not multiply. -/
theorem C56_steps (s : Str) : parseSteps s ≤ 50000000 * (s.length + 1) := by
  obtain ⟨x, h⟩ := parseSteps_run s
  exact grammar_linear h

/-- C56: for short texts a bound with a smaller factor says more. -/
theorem C56_short (s : Str) : parseSteps s ≤ 3000000 * (s.length + 1) ^ 2 := by
  obtain ⟨x, h⟩ := parseSteps_run s
  exact grammar_steps h

/-- C56: nor does the token buffer ever grow beyond that, whether the text is accepted or not. -/
theorem C56_tokens (s : Str) (st : St)
    (h : execN (mkBuf s) G (depthBound s.length) .Grammar initSt = .ok st ∨ execN (mkBuf s) G (depthBound s.length) .Grammar initSt = .fail st) :
    st.tree.length ≤ 50000000 * (s.length + 1) := by
  have hw := execN_tree (mkBuf s) G (depthBound s.length) .Grammar initSt
  have hs := C56_steps s
  have h0 : initSt.tree.length = 0 := rfl
  have hw' : st.tree.length ≤ initSt.tree.length + parseSteps s := by
    rcases h with h | h <;> · rw [h] at hw; exact hw
  rw [h0, Nat.zero_add] at hw'
  exact Nat.le_trans hw' hs

/-- C56: the count is not too low to mean anything: an accepted text takes at least one step for each character. -/
theorem C56_at_least (s : Str) (n : Node) (h : parse s = .ok n) : s.length ≤ parseSteps s := by
  obtain ⟨x, hr⟩ := parseSteps_run s
  rcases parse_cases s with ⟨evs, h1, _⟩ | ⟨_, b, e, h2, _⟩
  · obtain ⟨y, hy, hx⟩ := hr.big
    cases h1.det hy
    simpa using hr.consumed [] hx.symm
  · rw [h2] at h; cases h

-- The count grows with the text, also for text that is rejected.
example : parseSteps c!"a = 1" = 693 := by decide +kernel
example : parseSteps c!"((((a = 1))))" = 2073 := by decide +kernel
example : parseSteps c!"((((a = 1)))" = 1939 ∧ parse c!"((((a = 1)))" = .err (.syntax 1 12) := by decide +kernel
-- Pieces that are read more than once, nested: calls and lists that lack their end.
example : [c!"a(", c!"a(a(", c!"a(a(a(", c!"a(a(a(a("].map parseSteps = [636, 1146, 1656, 2166] := by decide +kernel
example : [c!"(1,", c!"((1,", c!"(((1,", c!"((((1,"].map parseSteps = [660, 872, 1084, 1296] := by decide +kernel
example : (match parse c!"((((a = 1))))" with | .ok _ => true | _ => false) = true := by decide +kernel

/-- A grammar that reads nested parentheses twice at each level: what the claim excludes. -/
def doubling : Rule → PExp
  | _ => .alt (.seq (.chr '(') (.seq (.call .Grammar) (.seq (.chr ')') (.chr '!')))) (.alt (.seq (.chr '(') (.seq (.call .Grammar) (.chr ')'))) (.chr 'a'))

-- For that grammar the same count doubles with each pair of parentheses.
example : [c!"a", c!"(a)", c!"((a))", c!"(((a)))", c!"((((a))))"].map (fun s => stepsN (mkBuf s) doubling 20 .Grammar initSt) = [8, 29, 71, 155, 323] := by
  decide +kernel

end Verif
