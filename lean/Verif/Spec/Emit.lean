import Verif.Build

/-! # Specification: what a translation may take from a tree -/

namespace Verif

/-- The parts of a node; the elements of an array literal belong to the literal. -/
def parts : Node → List Node
  | .pred l o => [l, o]
  | .cmp l o r => [l, o, r]
  | .logic l o r => [l, o, r]
  | .paren e => [e]
  | .not e => [e]
  | .between l o a b => [l, o, a, b]
  | .func _ l => l
  | _ => []

/-- `Occ m n`: `m` occurs in `n`, at any depth, outside array literals. -/
inductive Occ : Node → Node → Prop where
  | refl {n} : Occ n n
  | step {m k n} : k ∈ parts n → Occ m k → Occ m n

mutual
/-- The literal nodes of a tree in reading order, an array literal being one. -/
def lits : Node → List Node
  | .int i => [.int i]
  | .bool b => [.bool b]
  | .str s => [.str s]
  | .null => [.null]
  | .arr l => [.arr l]
  | .pred l o => lits l ++ lits o
  | .cmp l o r => lits l ++ lits o ++ lits r
  | .logic l o r => lits l ++ lits o ++ lits r
  | .paren e => lits e
  | .not e => lits e
  | .between l o a b => lits l ++ lits o ++ lits a ++ lits b
  | .func _ l => litsL l
  | _ => []
/-- The same for a list of trees. -/
def litsL : List Node → List Node
  | [] => []
  | n :: l => lits n ++ litsL l
end

mutual
/-- The relations referred to by a tree (first component of a dotted name), in reading order. -/
def rels : Node → List Str
  | .ref l => l.take 1
  | .pred l o => rels l ++ rels o
  | .cmp l o r => rels l ++ rels o ++ rels r
  | .logic l o r => rels l ++ rels o ++ rels r
  | .paren e => rels e
  | .not e => rels e
  | .between l o a b => rels l ++ rels o ++ rels a ++ rels b
  | .func _ l => relsL l
  | _ => []
/-- The same for a list of trees. -/
def relsL : List Node → List Str
  | [] => []
  | n :: l => rels n ++ relsL l
end

/-- Each element once, in order of first occurrence. -/
def firsts : List Str → List Str
  | [] => []
  | x :: l => x :: (firsts l).filter (· ≠ x)

mutual
/-- The tree with every literal replaced by the same one. -/
def anon : Node → Node
  | .int _ => .null
  | .bool _ => .null
  | .str _ => .null
  | .arr _ => .null
  | .pred l o => .pred (anon l) (anon o)
  | .cmp l o r => .cmp (anon l) (anon o) (anon r)
  | .logic l o r => .logic (anon l) (anon o) (anon r)
  | .paren e => .paren (anon e)
  | .not e => .not (anon e)
  | .between l o a b => .between (anon l) (anon o) (anon a) (anon b)
  | .func f l => .func f (anonL l)
  | n => n
/-- The same for a list of trees. -/
def anonL : List Node → List Node
  | [] => []
  | n :: l => anon n :: anonL l
end

end Verif
