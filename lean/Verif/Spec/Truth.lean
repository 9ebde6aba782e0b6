import Verif.Node

/-! # Specification: the truth value of a tree, given truth values of its atoms -/

namespace Verif

/-- `and`, `or` and `not` have their usual meaning; everything else is an atom. -/
def truth (v : Node → Bool) : Node → Bool
  | .logic l (.op o) r =>
    if o = c!"and" then truth v l && truth v r else if o = c!"or" then truth v l || truth v r else v (.logic l (.op o) r)
  | .paren e => truth v e
  | .not e => !truth v e
  | n => v n

end Verif
