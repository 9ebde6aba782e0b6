import Verif.Node

/-! # Visitor (/repo/miniquery/visitor.go) -/

namespace Verif

/-- The callback fields of `Visitor`, /repo/miniquery/visitor.go:12-22. -/
inductive Kind where
  | binary | logic | between | function | predicates | terminate | paren | not | ident | op | value
  deriving DecidableEq, Repr

/-- A callback: one supplied by the user (identified by a number), or a closure made by `Init`. -/
inductive Cb where
  | user (i : Nat)
  | dflt
  deriving DecidableEq, Repr

/-- `Visitor`, /repo/miniquery/visitor.go:11-23; `none` is a nil function. -/
abbrev Vis := Kind → Option Cb

/-- The assignments of `Init` to its receiver, /repo/miniquery/visitor.go:27-108: every nil field but `TerminateExpression` is filled. -/
def initBody (v : Vis) : Vis := fun k => match v k with | some c => some c | none => if k = .terminate then none else some .dflt

/-- `Init` as seen by the caller, /repo/miniquery/visitor.go:26: the receiver is a value, the assignments go to a copy. -/
def visInit (v : Vis) : Vis := let _copy := initBody v; v

/-- Outcome of `Visit`: a nil dereference or call of a nil function, an error, or the user callbacks called, with their nodes. -/
inductive VRes where
  | panic
  | err
  | ok (calls : List (Nat × Node))
  deriving DecidableEq, Repr

/-- Sequencing: the next visit happens only if there was no error. -/
def VRes.andThen : VRes → VRes → VRes
  | .ok a, .ok b => .ok (a ++ b)
  | .ok _, r => r
  | r, _ => r

/-- The call of the callback in field `k` on `n`; `d` is what the closure made by `Init` does; `bad i n` tells whether user callback `i`
returns an error on `n`. -/
def callCb (bad : Nat → Node → Bool) (v : Vis) (k : Kind) (n : Node) (d : VRes) : VRes :=
  match v k with
  | none => .panic
  | some (.user i) => if bad i n then .err else .ok [(i, n)]
  | some .dflt => d

mutual
/-- `Visit`, /repo/miniquery/visitor.go:111-135, with the closures of `Init` (27-108).  A function node is dispatched to the between callback
(131-132), whose default visits the nil `Left` of the function node. -/
def visit (bad : Nat → Node → Bool) (v : Vis) : Node → VRes
  | .nil => .panic
  | .int i => callCb bad v .value (.int i) (.ok [])
  | .bool b => callCb bad v .value (.bool b) (.ok [])
  | .str s => callCb bad v .value (.str s) (.ok [])
  | .null => callCb bad v .value .null (.ok [])
  | .arr l => callCb bad v .value (.arr l) (visitL bad v l)
  | .op o => callCb bad v .op (.op o) (.ok [])
  | .ident x => callCb bad v .ident (.ident x) (.ok [])
  | .ref _ => .err
  | .paren e => callCb bad v .paren (.paren e) (visit bad v e)
  | .not e => callCb bad v .not (.not e) (visit bad v e)
  | .cmp l o r => callCb bad v .binary (.cmp l o r) ((visit bad v l).andThen ((visit bad v o).andThen (visit bad v r)))
  | .logic l o r => callCb bad v .logic (.logic l o r) ((visit bad v l).andThen ((visit bad v o).andThen (visit bad v r)))
  | .pred l o => callCb bad v .predicates (.pred l o) ((visit bad v l).andThen (visit bad v o))
  | .between l o a b =>
    callCb bad v .between (.between l o a b) ((visit bad v l).andThen ((visit bad v o).andThen ((visit bad v a).andThen (visit bad v b))))
  | .func f ps => callCb bad v .between (.func f ps) .panic
/-- The loops over `Params` and `Array`. -/
def visitL (bad : Nat → Node → Bool) (v : Vis) : List Node → VRes
  | [] => .ok []
  | n :: l => (visit bad v n).andThen (visitL bad v l)
end

end Verif
