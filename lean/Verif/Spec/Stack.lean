import Verif.Node

/-! # Chains of operators -/

namespace Verif

/-- How deep conjunctions, disjunctions, comparisons, parentheses and negations are nested in a tree; other nodes count as one. -/
def spine : Node → Nat
  | .logic l _ r => 1 + max (spine l) (spine r)
  | .cmp l _ r => 1 + max (spine l) (spine r)
  | .paren e => 1 + spine e
  | .not e => 1 + spine e
  | _ => 1

end Verif
