import Verif.Parse

/-! # Specification: how SQL groups what a tree spells -/

namespace Verif

/-- Operands: values, names, parentheses, calls. -/
def isPrim : Node → Bool
  | .int _ | .bool _ | .str _ | .null | .arr _ | .ident _ | .ref _ | .paren _ | .func .. => true
  | _ => false

mutual
/-- Comparisons, `is …` and `between` are applied to operands only (as in `(a = b) is null`, not `a = b is null`), calls have one argument. -/
def tame : Node → Bool
  | .paren e => tame e
  | .not e => tame e
  | .func _ ps => ps.length == 1 && tameL ps
  | .pred l _ => isPrim l && tame l
  | .cmp l _ r => isPrim l && isPrim r && tame l && tame r
  | .between l _ _ _ => isPrim l && tame l
  | .logic l _ r => tame l && tame r
  | _ => true
/-- The same for a list of trees. -/
def tameL : List Node → Bool
  | [] => true
  | n :: l => tame n && tameL l
end

/-- A disjunction of what came before, if anything, and the last conjunction. -/
def glue : Option Node × Node → Node
  | (none, a) => a
  | (some p, a) => .logic p (.op c!"or") a

mutual
/-- The tree regrouped so that `and` binds tighter than `or`, in two parts. -/
def split : Node → Option Node × Node
  | .logic l (.op o) r =>
    if o = c!"and" then ((split l).1, .logic (split l).2 (.op o) (glue (split r)))
    else (some (glue (split l)), glue (split r))
  | .paren e => (none, .paren (glue (split e)))
  | .not e => (none, .not (glue (split e)))
  | .pred l o => (none, .pred (glue (split l)) o)
  | .cmp l o r => (none, .cmp (glue (split l)) o (glue (split r)))
  | .between l o a b => (none, .between (glue (split l)) o a b)
  | .func f ps => (none, .func f (regroupL ps))
  | n => (none, n)
/-- The same for a list of trees. -/
def regroupL : List Node → List Node
  | [] => []
  | n :: l => glue (split n) :: regroupL l
end

/-- The tree regrouped so that `and` binds tighter than `or`; the order of operands and the parentheses are kept. -/
def regroup (n : Node) : Node := glue (split n)

/-- The root is a disjunction. -/
def isOr : Node → Bool
  | .logic _ (.op o) _ => o != c!"and"
  | _ => false

mutual
/-- No `and` follows an `or` in the same chain. -/
def safe : Node → Bool
  | .logic l (.op o) r => (o != c!"and" || !isOr l) && safe l && safe r
  | .logic l _ r => safe l && safe r
  | .paren e => safe e
  | .not e => safe e
  | .pred l _ => safe l
  | .cmp l _ r => safe l && safe r
  | .between l _ _ _ => safe l
  | .func _ ps => safeL ps
  | _ => true
/-- The same for a list of trees. -/
def safeL : List Node → Bool
  | [] => true
  | n :: l => safe n && safeL l
end

/-- The operator node with this name. -/
def isOp (o : Str) : Node → Bool
  | .op o' => o' == o
  | _ => false

/-- A range. -/
def isBetween : Node → Bool
  | .between .. => true
  | _ => false

/-- An array that is not empty. -/
def someArr : Node → Bool
  | .arr l => !l.isEmpty
  | _ => false

mutual
/-- The same restriction as `tame` with those the ent SQL translator needs besides: arrays only to the right of `in` and not empty, no `not between` and
no `not` directly before a range, no function but `date`. -/
def tameSql : Node → Bool
  | .arr _ => false
  | .paren e => tameSql e
  | .not e => tameSql e && !isBetween e
  | .func f ps => f == c!"date" && ps.length == 1 && tameSqlL ps
  | .pred l _ => isPrim l && tameSql l
  | .cmp l o r => isPrim l && tameSql l && ((isOp c!"in" o || isOp c!"not in" o) && someArr r || isPrim r && tameSql r)
  | .between l o a b => isPrim l && tameSql l && isOp c!"between" o && tameSql a && tameSql b
  | .logic l _ r => tameSql l && tameSql r
  | _ => true
/-- The same for a list of trees. -/
def tameSqlL : List Node → Bool
  | [] => true
  | n :: l => tameSql n && tameSqlL l
end

end Verif
