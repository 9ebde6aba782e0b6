import Verif.Build

/-! # Specification: the meaning of a tree -/

namespace Verif

/-- The Go value of a literal. -/
def litVal : Node → GoVal
  | .int i => .int i
  | .bool b => .bool b
  | .str s => .str s
  | _ => .nil

/-- The Go value of a literal or array of literals. -/
def valOf : Node → GoVal
  | .arr l => .slice (l.map litVal)
  | n => litVal n

/-- An interpretation: a domain of values (numbers, texts, truth values, perhaps "unknown") and what names and operators mean.  Nothing is
assumed about it, so that statements about all interpretations cover every row, collation and logic (two- or three-valued). -/
structure Interp (D : Type) where
  field : Str → D
  ref : List Str → D
  const : GoVal → D
  call : Str → List D → D
  cmp : Str → D → D → D
  pred : Str → D → D
  and : D → D → D
  or : D → D → D
  not : D → D

mutual
/-- The meaning of a tree: grouping is as in the tree, `x between a and b` is `x >= a and x <= b`, `not between` its negation.  `none` for trees
that have no meaning (operator and operand confused). -/
def mean {D : Type} (I : Interp D) : Node → Option D
  | .int i => some (I.const (.int i))
  | .bool b => some (I.const (.bool b))
  | .str s => some (I.const (.str s))
  | .null => some (I.const .nil)
  | .arr l => some (I.const (.slice (l.map litVal)))
  | .ident x => some (I.field x)
  | .ref l => some (I.ref l)
  | .func f ps => (meanL I ps).map (I.call f)
  | .paren e => mean I e
  | .not e => (mean I e).map I.not
  | .pred l (.op o) => (mean I l).map (I.pred o)
  | .cmp l (.op o) r => (mean I l).bind fun x => (mean I r).map fun y => I.cmp o x y
  | .logic l (.op o) r => (mean I l).bind fun x => (mean I r).bind fun y =>
      if o = c!"and" then some (I.and x y) else if o = c!"or" then some (I.or x y) else none
  | .between l (.op o) a b => (mean I l).bind fun x => (mean I a).bind fun y => (mean I b).bind fun z =>
      let w := I.and (I.cmp c!"gte" x y) (I.cmp c!"lte" x z)
      if o = c!"between" then some w else if o = c!"not between" then some (I.not w) else none
  | _ => none
/-- The meanings of a list of trees. -/
def meanL {D : Type} (I : Interp D) : List Node → Option (List D)
  | [] => some []
  | n :: l => (mean I n).bind fun x => (meanL I l).map fun y => x :: y
end

end Verif
