import Verif.Spec.Inert

/-! # Specification: how deep a text nests -/

namespace Verif

/-- How many parentheses are at most open at once: the greatest number by which the opening ones exceed the closing ones in a beginning of the text,
outside of strings and comments.  The first argument is what a reader of the text is in. -/
def nest : Mode → Str → Nat
  | _, [] => 0
  | σ, c :: s =>
    if σ = .sq ∨ σ = .dq ∨ σ = .comment then nest (modeStep σ c) s
    else if c = '(' then nest (modeStep σ c) s + 1
    else if c = ')' then nest (modeStep σ c) s - 1
    else nest (modeStep σ c) s

/-- The arrows of a path `a->b->c…` that the text begins with. -/
def pathLen : Str → Nat
  | [] => 0
  | '-' :: '>' :: s => pathLen s + 1
  | c :: s => if c.isAlphanum ∨ c = '_' then pathLen s else 0

/-- The arrows of the longest path in the text. -/
def longest : Str → Nat
  | [] => 0
  | c :: s => max (pathLen (c :: s)) (longest s)

end Verif
