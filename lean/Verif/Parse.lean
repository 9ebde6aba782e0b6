import Verif.PegExec
import Verif.Grammar
import Verif.Node

/-! # Parse (/repo/miniquery/parse.go) -/

namespace Verif

/-- One case of the action switch of `Execute`: /repo/miniquery/miniquery.peg.go:369-428.  `none` is a panic. -/
def runAct (n : Nat) (text : Str) (t : Tree) : Option Tree :=
  match n with
  | 0 => some t.popLogic
  | 1 => some t.popNot
  | 2 => some t.popCompare
  | 3 => some (t.addOperation text)
  | 4 => some t.popCompare
  | 5 => some t.popPredicate
  | 6 => some (t.addOperation text)
  | 7 => some t.popBetween
  | 8 => some t.popParentheses
  | 9 => some t.popFunction
  | 10 => some t.addMark
  | 11 => t.popArray
  | 12 => some t.addMark
  | 13 => t.popIdentifierReference
  | 14 => some (t.addName text)
  | 15 => some (t.addOperation text)
  | 16 => some (t.addOperation text)
  | 17 => some (t.addOperation text)
  | 18 => some (t.addOperation text)
  | 19 => some (t.addOperation text)
  | 20 => some (t.addOperation text)
  | 21 => some t.addMark
  | 22 => t.popArray
  | 23 => some t.addMark
  | 24 => t.popArray
  | 25 => some (t.addInteger text)
  | 26 => some (t.addBoolean text)
  | 27 => some t.addNull
  | 28 => some (t.addString text)
  | 29 => some (t.addString text)
  | _ => some t

/-- The loop of `Execute`: /repo/miniquery/miniquery.peg.go:360-433; the first argument is the variable `text`. -/
def runEvs : Str → List Ev → Tree → Option Tree
  | _, [], t => some t
  | _, .text s :: evs, t => runEvs s evs t
  | x, .act n :: evs, t =>
    match runAct n x t with
    | none => none
    | some t' => runEvs x evs t'

/-- Outcome of `Parse`.  A nil node is `ok .nil`. -/
inductive ParseRes where
  | ok (n : Node)
  | err (e : Err)
  | panic
  | div
  deriving Repr, DecidableEq

/-- The state after `Init` (/repo/miniquery/miniquery.peg.go:449-471). -/
def initSt : St := { pos := 0, ti := 0, tree := [], max := { kind := .rule .Grammar, b := 0, e := 0 } }

/-- `Execute` on the token array; slicing the buffer out of bounds would panic
(/repo/miniquery/miniquery.peg.go:360-433). -/
def execute (s0 : Str) (toks : List Tok) : Option Tree :=
  if ∀ t ∈ toks, t.b ≤ t.e ∧ t.e ≤ s0.length then runEvs [] (toks.filterMap (evOf s0)) {} else none

/-- The call depth allowed to the recogniser for an input of this length; `parse_total` shows that it always suffices. -/
def depthBound (n : Nat) : Nat := 16 * n + 16

/-- `Parse`: /repo/miniquery/parse.go:3-16, with `p.Parse` (/repo/miniquery/miniquery.peg.go:475-487). -/
def parse (s : Str) : ParseRes :=
  match execN (mkBuf s) G (depthBound s.length) .Grammar initSt with
  | .div => .div
  | .panic => .panic
  | .fail st => .err (.syntax st.max.b st.max.e)
  | .ok st =>
    if st.tree.length < st.ti then .panic
    else
      match execute s (st.tree.take st.ti) with
      | none => .panic
      | some t =>
        match t.errors with
        | e :: _ => .err e
        | [] => .ok t.pop.1

end Verif
