import Verif.EntSQL
import Verif.Gorm

/-! # Specification: the size of trees, values and predicates -/

namespace Verif

mutual
/-- The size of a tree: its nodes and the characters of the texts in them. -/
def weight : Node → Nat
  | .nil => 0
  | .int _ => 1
  | .bool _ => 1
  | .null => 1
  | .str s => 1 + s.length
  | .op o => 1 + o.length
  | .ident x => 1 + x.length
  | .ref l => 1 + (l.map fun x => 1 + x.length).sum
  | .arr l => 1 + weightL l
  | .pred l o => 1 + (weight l + weight o)
  | .cmp l o r => 1 + (weight l + (weight o + weight r))
  | .logic l o r => 1 + (weight l + (weight o + weight r))
  | .paren e => 1 + weight e
  | .not e => 1 + weight e
  | .between l o a b => 1 + (weight l + (weight o + (weight a + weight b)))
  | .func f l => 1 + (f.length + weightL l)
/-- The same for a list of trees. -/
def weightL : List Node → Nat
  | [] => 0
  | n :: l => weight n + weightL l
end

mutual
/-- How deep a tree is. -/
def depth : Node → Nat
  | .nil => 0
  | .arr l => 1 + depthL l
  | .pred l o => 1 + max (depth l) (depth o)
  | .cmp l o r => 1 + max (depth l) (max (depth o) (depth r))
  | .logic l o r => 1 + max (depth l) (max (depth o) (depth r))
  | .paren e => 1 + depth e
  | .not e => 1 + depth e
  | .between l o a b => 1 + max (depth l) (max (depth o) (max (depth a) (depth b)))
  | .func _ l => 1 + depthL l
  | _ => 1
/-- The same for a list of trees. -/
def depthL : List Node → Nat
  | [] => 0
  | n :: l => max (depth n) (depthL l)
end

mutual
/-- The size of a tree in which the left operand of every range is written out twice: `x between a and b` as `x >= a and x <= b`. -/
def wide : Node → Nat
  | .arr l => 1 + weightL l
  | .pred l o => 1 + (wide l + wide o)
  | .cmp l o r => 1 + (wide l + (wide o + wide r))
  | .logic l o r => 1 + (wide l + (wide o + wide r))
  | .paren e => 1 + wide e
  | .not e => 1 + wide e
  | .between l o a b => 1 + (2 * wide l + (wide o + (wide a + wide b)))
  | .func f l => 1 + (f.length + wideL l)
  | n => weight n
/-- The same for a list of trees. -/
def wideL : List Node → Nat
  | [] => 0
  | n :: l => wide n + wideL l
end

mutual
/-- There is no range in the tree. -/
def rangeFree : Node → Bool
  | .pred l o => rangeFree l && rangeFree o
  | .cmp l o r => rangeFree l && (rangeFree o && rangeFree r)
  | .logic l o r => rangeFree l && (rangeFree o && rangeFree r)
  | .paren e => rangeFree e
  | .not e => rangeFree e
  | .between _ _ _ _ => false
  | .func _ l => rangeFreeL l
  | _ => true
/-- The same for a list of trees. -/
def rangeFreeL : List Node → Bool
  | [] => true
  | n :: l => rangeFree n && rangeFreeL l
end

mutual
/-- No range of the tree has a range in its left operand (nor in its bounds). -/
def flatRanges : Node → Bool
  | .pred l o => flatRanges l && flatRanges o
  | .cmp l o r => flatRanges l && (flatRanges o && flatRanges r)
  | .logic l o r => flatRanges l && (flatRanges o && flatRanges r)
  | .paren e => flatRanges e
  | .not e => flatRanges e
  | .between l o a b => rangeFree l && (rangeFree o && (rangeFree a && rangeFree b))
  | .func _ l => flatRangesL l
  | _ => true
/-- The same for a list of trees. -/
def flatRangesL : List Node → Bool
  | [] => true
  | n :: l => flatRanges n && flatRangesL l
end

mutual
/-- The size of a bound value. -/
def vsize : GoVal → Nat
  | .str s => 1 + s.length
  | .slice l => 1 + vsizeL l
  | _ => 1
/-- The same for a list of values. -/
def vsizeL : List GoVal → Nat
  | [] => 0
  | v :: l => vsize v + vsizeL l
end

/-- The size of an entql predicate, as a tree. -/
def esize : EExpr → Nat
  | .val v => vsize v
  | .field x => 1 + x.length
  | .un _ x => 1 + esize x
  | .bin _ x y => 1 + (esize x + esize y)

/-- What is written for a name has at most `M` characters. -/
structure NamesFit (s : GSchema) (quote : Str → Str) (fold : Str → Str → Bool) (M : Nat) : Prop where
  own : ∀ x d, getDBName fold s.table x = some d → (quote d).length ≤ M
  rel : ∀ r t x d, s.rel r = some t → getDBName fold t x = some d → (quote (r ++ c!"." ++ d)).length ≤ M

/-- What is written for a name has at most `M` characters per character of the name, and what is written around an edge's condition at most `M`. -/
structure EntFit (E : SEnv) (M : Nat) : Prop where
  ident : ∀ d x, (E.ident d x).length ≤ M * (1 + x.length)
  edge : ∀ t x e, (E.edges t).lookup x = some e → ∀ d, (e.has d).length ≤ M ∧ (e.pre d).length + (e.post d).length ≤ M

/-- The size of the bound values. -/
def argsSize (a : List SArg) : Nat := vsizeL (a.map SArg.bound)

/-- The number of digits of `n`. -/
def digitCount (n : Nat) : Nat := (Nat.toDigits 10 n).length

end Verif
