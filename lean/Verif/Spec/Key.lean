import Verif.Spec.Print

/-! # Specification: trees told apart by their printed text -/

namespace Verif

/-- What is asked of each single node: function calls carry the name `root`, operators are documented ones (that is, without a comment inside).
Nothing is asked of strings. -/
def KeyedHere (root : Str) : Node → Prop
  | .func f _ => f = root
  | .op o => o ∈ opNames
  | _ => True

/-- Every node of the tree is such a node. -/
def Keyed (root : Str) (n : Node) : Prop := ∀ m, Sub m n → KeyedHere root m

end Verif
