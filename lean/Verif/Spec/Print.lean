import Verif.Spec.Shape

/-! # Specification: trees that can be printed faithfully -/

namespace Verif

/-- The documented operator names (/repo/miniquery/node.go:225-245, and the `is` predicates of the grammar). -/
def opNames : List Str :=
  [c!"gte", c!"gt", c!"eq", c!"neq", c!"lt", c!"lte", c!"and", c!"or", c!"between", c!"like", c!"not like", c!"not between", c!"is null",
   c!"is not null", c!"is true", c!"is false", c!"is not true", c!"is not false", c!"in", c!"not in"]

/-- The text does not contain the beginning of a comment (not even inside a string). -/
def CommentFree (s : Str) : Prop := ¬ c!"--" <:+: s ∧ ¬ c!"//" <:+: s

/-- Text that needs no escaping between double quotes; `P` tells the printable characters. -/
def Clean (P : Char → Bool) (s : Str) : Prop := ∀ c ∈ s, P c = true ∧ c ≠ '"' ∧ c ≠ '\\'

/-- What is asked of each single node: strings need no escaping, function calls carry the name `root`, operators are documented ones. -/
def FitHere (P : Char → Bool) (root : Str) : Node → Prop
  | .str s => Clean P s
  | .func f _ => f = root
  | .op o => o ∈ opNames
  | _ => True

/-- Every node of the tree is fit for printing. -/
def Fit (P : Char → Bool) (root : Str) (n : Node) : Prop := ∀ m, Sub m n → FitHere P root m

end Verif
