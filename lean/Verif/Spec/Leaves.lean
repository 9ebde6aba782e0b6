import Verif.Spec.Lang
import Verif.Peg

/-! # Specification: the leaves of a tree, and the parts of a query they are written as -/

namespace Verif

mutual
/-- The leaves of a tree in reading order: names, operators and literals.  A dotted reference has one leaf per name; the name of a function comes
before its arguments. -/
def atoms : Node → List Node
  | .nil => []
  | .arr l => atomsL l
  | .ref l => l.map .ident
  | .func f ps => .ident f :: atomsL ps
  | .pred l o => atoms l ++ atoms o
  | .cmp l o r => atoms l ++ atoms o ++ atoms r
  | .logic l o r => atoms l ++ atoms o ++ atoms r
  | .paren e => atoms e
  | .not e => atoms e
  | .between l o a b => atoms l ++ atoms o ++ atoms a ++ atoms b
  | n => [n]
/-- The same for a list of trees. -/
def atomsL : List Node → List Node
  | [] => []
  | n :: ns => atoms n ++ atomsL ns
end

/-- How a leaf is written: the text between the quotes for a string, the whole spelling for everything else. -/
inductive Shows : Str → Node → Prop where
  | name {x} : IdText x → Shows x (.ident x)
  | op {u o} : CmpOp u o ∨ LogicOp u o ∨ MatchOp u o ∨ InOp u o ∨ BetweenOp u o → Shows u (.op o)
  | int {k : Nat} : k ≤ maxInt → Shows (Nat.toDigits 10 k) (.int k)
  | tru {u} : u = c!"true" ∨ u = c!"TRUE" → Shows u (.bool true)
  | fls {u} : u = c!"false" ∨ u = c!"FALSE" → Shows u (.bool false)
  | null {u} : u = c!"null" ∨ u = c!"NULL" → Shows u .null
  | str {u} : Shows u (.str u)

/-- Texts and leaves, one for one. -/
inductive ShowsL : List Str → List Node → Prop where
  | nil : ShowsL [] []
  | cons {u us n ns} : Shows u n → ShowsL us ns → ShowsL (u :: us) (n :: ns)

/-- The captured texts (the PegText tokens) among the tokens of a query. -/
def captured (s : Str) (ts : List Tok) : List Str :=
  ts.filterMap fun t => if t.kind = .text then some ((s.drop t.b).take (t.e - t.b)) else none

/-- The texts of the Identifier tokens. -/
def identTexts (s : Str) (ts : List Tok) : List Str :=
  ts.filterMap fun t => if t.kind = .rule .Identifier then some ((s.drop t.b).take (t.e - t.b)) else none

/-- The token stands for an argument list around `t`. -/
def Tok.args (t a : Tok) : Bool := decide (a.kind = .rule .ArgumentList ∧ a.b ≤ t.b ∧ t.e ≤ a.e)

/-- The arrows `->` outside the arguments of function calls: JsonReference tokens that no ArgumentList token encloses (there is one JsonReference
token per arrow). -/
def freeArrows (ts : List Tok) : List Tok :=
  ts.filter fun t => decide (t.kind = .rule .JsonReference) && !(ts.any t.args)

end Verif
