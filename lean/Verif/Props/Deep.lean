import Verif.DeepThms
import Verif.Pieces

/-!
# C72: the stack that parsing takes

Only parentheses that are open at once and the arrows of one path make the rule functions call each other deeper; the length of the query does not, however
many operators, arguments, array elements, names or blanks it has.  There is no limit on parentheses or arrows: with enough of them every stack is too small.
-/

namespace Verif

/-- **C72.** With room for ten calls for each parenthesis that is open at once, for one call for each arrow of the longest path, and for fifteen more,
`Parse` returns what it returns on an unlimited stack. -/
theorem C72_depth (s : Str) (d : Nat) (h : 10 * nest .code s + longest s + 15 ≤ d) : parseDeep d s = parse s :=
  parseDeep_eq (execN_ne_div (grammar_ne_div h))

/-- **C72.** Whatever room there is, either the stack overflows or the result is that of `Parse`. -/
theorem C72_same (s : Str) (d : Nat) : parseDeep d s = .div ∨ parseDeep d s = parse s := by
  by_cases h : execN (mkBuf s) G d .Grammar initSt = .div
  · left; unfold parseDeep; rw [h]
  · exact .inr (parseDeep_eq h)

/-- Without parentheses outside of strings and comments nothing is open. -/
theorem nest_flat {s : Str} (h : '(' ∉ s) : ∀ m, nest m s = 0 := by
  induction s with
  | nil => intro m; rfl
  | cons c s ih =>
    intro m
    have h1 : c ≠ '(' := fun e => h (e ▸ List.mem_cons_self)
    have h2 := ih (fun hm => h (List.mem_cons_of_mem _ hm)) (modeStep m c)
    rw [nest_cons, if_neg h1, h2]
    simp

theorem pathLen_flat {s : Str} (h : '>' ∉ s) : pathLen s = 0 := by
  induction s using pathLen.induct with
  | case1 => rfl
  | case2 s ih => exact absurd (by simp) h
  | case3 c s h1 h2 ih =>
    rw [pathLen.eq_3 _ _ h1, if_pos h2]
    exact ih fun hm => h (List.mem_cons_of_mem _ hm)
  | case4 c s h1 h2 => rw [pathLen.eq_3 _ _ h1, if_neg h2]

theorem longest_flat {s : Str} (h : '>' ∉ s) : longest s = 0 := by
  induction s with
  | nil => rfl
  | cons c s ih =>
    have h1 := pathLen_flat h
    have h2 := ih fun hm => h (List.mem_cons_of_mem _ hm)
    show max (pathLen (c :: s)) (longest s) = 0
    rw [h1, h2]; rfl

/-- **C72.** A query without `(` and without `>` needs fifteen nested calls, however long it is. -/
theorem C72_flat (s : Str) (h1 : '(' ∉ s) (h2 : '>' ∉ s) : parseDeep 15 s = parse s :=
  C72_depth s 15 (by rw [nest_flat h1, longest_flat h2]; omega)

/-- **C72.** There is no limit: a query that begins with `j` parentheses and a path of `k` arrows overflows every stack with room for `8 j + k + 1`
calls, whether it is well formed or not. -/
theorem C72_needed (s : Str) (j k d : Nat) (h : d ≤ 8 * j + k + 1) :
    parseDeep d (List.replicate j '(' ++ ((List.replicate k c!"a->").flatten ++ s)) = .div := by
  have : ∀ k, (List.replicate k c!"a->").flatten ++ s = pathText k s := by
    intro k
    induction k with
    | zero => rfl
    | succ k ih => rw [List.replicate_succ, List.flatten_cons, List.append_assoc, ih]; rfl
  rw [this]
  exact parseDeep_div (needed s j k d h)

/-- The fifteen are needed. -/
example : parseDeep 14 c!"[\n]" = .div ∧ parseDeep 15 c!"[\n]" = .ok (.arr []) ∧ parse c!"[\n]" = .ok (.arr []) := by decide +kernel

/-- The ten are needed: two levels of calls. -/
example : nest .code c!"f(f([\n]))" = 2 ∧ parseDeep 34 c!"f(f([\n]))" = .div ∧ parseDeep 35 c!"f(f([\n]))" = parse c!"f(f([\n]))" := by decide +kernel

/-- What nests and what does not: parentheses one after the other, and those in strings and comments, do not. -/
example : nest .code c!"(a) and (b) and (c)" = 1 ∧ nest .code c!"a = '((((' and b" = 0 ∧ nest .code c!"a -- ((((\n and b" = 0 ∧
    nest .code c!"f((a),(b))" = 2 ∧ nest .code c!"))((" = 0 ∧ longest c!"a->b->c = d->e" = 2 ∧ longest c!"a > 1" = 0 := by decide +kernel

/-- Well formed, and rejected: both results come from a small stack. -/
example : parseDeep 15 c!"a = 1 and b in [1, 2] or c.d like 'x'" = parse c!"a = 1 and b in [1, 2] or c.d like 'x'" ∧
    parseDeep 15 c!"a = = 1" = .err (.syntax 3 4) := by
  refine ⟨C72_flat _ (by decide) (by decide), ?_⟩
  decide +kernel

/-- Three parentheses around a path of two arrows: 27 calls are not enough, 47 are. -/
example : (∀ d, d ≤ 27 → parseDeep d c!"(((a->a->b)))" = .div) ∧ parseDeep 47 c!"(((a->a->b)))" = parse c!"(((a->a->b)))" :=
  ⟨fun d h => C72_needed c!"b)))" 3 2 d (by omega), C72_depth _ _ (by decide)⟩

end Verif
