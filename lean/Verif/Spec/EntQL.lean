import Verif.EntQL
import Verif.Spec.Meaning
import Verif.Spec.Lang

/-! # Specification: meaning of entql predicates, and which queries can be expressed -/

namespace Verif

/-- The meaning of an entql expression (documentation of package entql); `none` for expressions that have none. -/
def evalE {D : Type} (I : Interp D) : EExpr → Option D
  | .val v => some (I.const v)
  | .field x => some (I.field x)
  | .un .not x => (evalE I x).map I.not
  | .un _ _ => none
  | .bin op x y => (evalE I x).bind fun a => (evalE I y).bind fun b =>
    match op with
    | .and => some (I.and a b)
    | .or => some (I.or a b)
    | .eq => some (I.cmp c!"eq" a b)
    | .neq => some (I.cmp c!"neq" a b)
    | .gt => some (I.cmp c!"gt" a b)
    | .gte => some (I.cmp c!"gte" a b)
    | .lt => some (I.cmp c!"lt" a b)
    | .lte => some (I.cmp c!"lte" a b)
    | .in_ => some (I.cmp c!"in" a b)
    | .notIn => some (I.cmp c!"not in" a b)
    | .not => none

/-- The comparisons entql knows. -/
def qlCmps : List Str := [c!"eq", c!"neq", c!"gt", c!"gte", c!"lt", c!"lte", c!"in", c!"not in"]

/-- Trees made of literals, plain names, parentheses, negation, ranges, the comparisons entql knows, and/or: no calls, no dotted names, no
`like`, no `is …`. -/
inductive Sup : Node → Prop where
  | val {n} : ValNode n → Sup n
  | ident {x} : Sup (.ident x)
  | paren {e} : Sup e → Sup (.paren e)
  | not {e} : Sup e → Sup (.not e)
  | between {l o a b} : Sup l → ValNode a → ValNode b → Sup (.between l (.op o) a b)
  | cmp {l o r} : Sup l → o ∈ qlCmps ++ [c!"and", c!"or"] → Sup r → Sup (.cmp l (.op o) r)
  | logic {l o r} : Sup l → o ∈ qlCmps ++ [c!"and", c!"or"] → Sup r → Sup (.logic l (.op o) r)

/-- The tree is, up to parentheses and `not`, a range, a comparison or a conjunction/disjunction. -/
def isCond : Node → Bool
  | .paren e => isCond e
  | .not e => isCond e
  | .between .. | .cmp .. | .logic .. => true
  | _ => false

/-- The tree is, up to parentheses and `not`, a call. -/
def isCall : Node → Bool
  | .paren e => isCall e
  | .not e => isCall e
  | .func .. => true
  | _ => false

/-- No negation in an expression. -/
def negFree : EExpr → Bool
  | .val _ => true
  | .field _ => true
  | .un .. => false
  | .bin op x y => op != .not && negFree x && negFree y

end Verif
