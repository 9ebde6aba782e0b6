import Verif.Spec.Lang

/-! # Specification: the shape of grammatical trees -/

namespace Verif

/-- Literal nodes. -/
inductive LitShape : Node → Prop where
  | int {k : Nat} : k ≤ maxInt → LitShape (.int k)
  | bool {b} : LitShape (.bool b)
  | null : LitShape .null
  | str {s} : LitShape (.str s)

/-- Value nodes: literals and arrays of literals. -/
inductive ValShape : Node → Prop where
  | lit {n} : LitShape n → ValShape n
  | arr {l} : (∀ n ∈ l, LitShape n) → ValShape (.arr l)

/-- `Shape l n`: the tree `n` obeys the operator stratification, at precedence level `l`. -/
inductive Shape : Lvl → Node → Prop where
  | val {n} : ValShape n → Shape .prim n
  | ident {x} : IdText x → KwFree x → Shape .prim (.ident x)
  | ref {a b names} : (∀ x ∈ a :: b :: names, IdText x) → KwFree a → Shape .prim (.ref (a :: b :: names))
  | paren {n} : Shape .logic n → Shape .prim (.paren n)
  | func {f ns} : IdText f → KwFree f → (∀ n ∈ ns, Shape .logic n) → Shape .prim (.func f ns)
  | btwUp {n} : Shape .prim n → Shape .btw n
  | btw {l o lo hi} : Shape .prim l → (∃ u, BetweenOp u o) → ValShape lo → ValShape hi → Shape .btw (.between l (.op o) lo hi)
  | prdUp {n} : Shape .btw n → Shape .prd n
  | pred {l o} : Shape .btw l → (∃ u, MatchOp u o) → Shape .prd (.pred l (.op o))
  | cinUp {n} : Shape .prd n → Shape .cin n
  | isIn {l o ns} : Shape .prd l → (∃ u, InOp u o) → (∀ n ∈ ns, LitShape n) → Shape .cin (.cmp l (.op o) (.arr ns))
  | cmpUp {n} : Shape .cin n → Shape .cmp n
  | cmp {l o r} : Shape .cmp l → (∃ u, CmpOp u o) → Shape .cin r → Shape .cmp (.cmp l (.op o) r)
  | negUp {n} : Shape .cmp n → Shape .neg n
  | neg {n} : Shape .cmp n → Shape .neg (.not n)
  | logicUp {n} : Shape .neg n → Shape .logic n
  | logic {l o r} : Shape .logic l → (o = c!"and" ∨ o = c!"or") → Shape .neg r → Shape .logic (.logic l (.op o) r)

/-- The children of a node. -/
def kids : Node → List Node
  | .arr l => l
  | .pred l o => [l, o]
  | .cmp l o r => [l, o, r]
  | .logic l o r => [l, o, r]
  | .paren e => [e]
  | .not e => [e]
  | .between l o a b => [l, o, a, b]
  | .func _ l => l
  | _ => []

/-- `Sub m n`: `m` occurs in `n`, at any depth. -/
inductive Sub : Node → Node → Prop where
  | refl {n} : Sub n n
  | step {m k n} : k ∈ kids n → Sub m k → Sub m n

end Verif
