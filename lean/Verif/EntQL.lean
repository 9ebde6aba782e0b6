import Verif.Parse
import Verif.Build

/-! # The entql translator (/repo/entmq/entql.go) -/

namespace Verif

/-- The operators of package entql that are used (/repo/entmq/entql.go:107-112, 155-167; entql.Not and entql.And use the first and third). -/
inductive EOp where
  | and | or | not | eq | neq | gt | gte | lt | lte | in_ | notIn
  deriving DecidableEq, Repr

/-- The expressions of package entql that are built (/repo/entmq/entql.go:72, 74, 90, 113-124, 143): `Value`, `Field`, `UnaryExpr`, `BinaryExpr`. -/
inductive EExpr where
  | val (v : GoVal)
  | field (name : Str)
  | un (op : EOp) (x : EExpr)
  | bin (op : EOp) (x y : EExpr)
  deriving DecidableEq, Repr

/-- Which expressions implement `entql.P`; the type assertions of /repo/entmq/entql.go:57, 90 panic for the others. -/
def EExpr.isP : EExpr → Bool
  | .un _ _ | .bin _ _ _ => true
  | _ => false

/-- Errors (/repo/entmq/entql.go:53, 70, 141, 150), with what their texts are made of; the texts are in ErrText.lean. -/
inductive EErr where
  | parse (e : Err)
  | opNode (o : Str)
  | unexpectedOp (o : Str)
  | invalidType
  deriving DecidableEq, Repr

/-- Outcome of a visit; the stack `mb.stack` with its top first. -/
inductive ERes where
  | ok (st : List EExpr)
  | err (e : EErr) (st : List EExpr)
  | panic
  deriving DecidableEq, Repr

/-- `if err == nil { … }` -/
def ERes.andThen : ERes → (List EExpr → ERes) → ERes
  | .ok st, f => f st
  | r, _ => r

/-- `entqlOpMap`, /repo/entmq/entql.go:155-167 -/
def entqlOps : List (Str × EOp) :=
  [(c!"and", .and), (c!"or", .or), (c!"not", .not), (c!"eq", .eq), (c!"neq", .neq), (c!"gt", .gt), (c!"gte", .gte), (c!"lt", .lt), (c!"lte", .lte),
   (c!"in", .in_), (c!"not in", .notIn)]

/-- `node.Op.Operation`: the field is empty in nodes other than operators (/repo/miniquery/node.go:45); a nil node is a nil dereference. -/
def operation : Node → Option Str
  | .nil => none
  | .op o => some o
  | _ => some []

/-- The value case, /repo/entmq/entql.go:72. -/
def eVal (n : Node) (st : List EExpr) : ERes :=
  match value n with
  | none => .panic
  | some v => .ok (.val v :: st)

/-- The end of the cases of logic and comparison nodes, /repo/entmq/entql.go:137-147; `pop` (37-41) panics on an empty stack. -/
def eBin (o : Node) : List EExpr → ERes
  | right :: left :: st =>
    match operation o with
    | none => .panic
    | some op =>
      match entqlOps.lookup op with
      | none => .err (.unexpectedOp op) st
      | some e => .ok (.bin e left right :: st)
  | _ => .panic

/-- The end of the case of between nodes, /repo/entmq/entql.go:104-124. -/
def eBetween (o : Node) : List EExpr → ERes
  | hig :: low :: left :: st =>
    match operation o with
    | none => .panic
    | some op =>
      if op = c!"not between" then .ok (.bin .and (.bin .lt left low) (.bin .gt left hig) :: st)
      else .ok (.bin .and (.bin .gte left low) (.bin .lte left hig) :: st)
  | _ => .panic

/-- The end of the case of not nodes, /repo/entmq/entql.go:89-91: the push happens if there is an error. -/
def eNot : ERes → ERes
  | .err _ [] => .panic
  | .err e (x :: st) => if x.isP then .err e (.un .not x :: st) else .panic
  | r => r

/-- `visit`, /repo/entmq/entql.go:65-153; a nil node is a nil dereference. -/
def evisit : Node → List EExpr → ERes
  | .nil, _ => .panic
  | .op o, st => .err (.opNode o) st
  | .int i, st => eVal (.int i) st
  | .bool b, st => eVal (.bool b) st
  | .str s, st => eVal (.str s) st
  | .null, st => eVal .null st
  | .arr l, st => eVal (.arr l) st
  | .ident x, st => .ok (.field x :: st)
  | .ref _, st => .err .invalidType st
  | .paren e, st => evisit e st
  | .not e, st => eNot (evisit e st)
  | .func _ _, st => .ok st
  | .between l o a b, st => (((evisit l st).andThen fun st => evisit a st).andThen fun st => evisit b st).andThen (eBetween o)
  | .pred _ _, _ => .panic
  | .cmp l o r, st => ((evisit l st).andThen fun st => evisit r st).andThen (eBin o)
  | .logic l o r, st => ((evisit l st).andThen fun st => evisit r st).andThen (eBin o)

/-- What `Build` returns: a predicate, possibly nil, or an error.  A predicate is never returned together with an error. -/
inductive BRes where
  | nil
  | pred (p : EExpr)
  | err (e : EErr)
  | panic
  deriving DecidableEq, Repr

/-- `Build`, /repo/entmq/entql.go:47-63, on a builder with the given stack; returns the stack it leaves (meaningless after a panic).  The log
message (58-60) is not modelled. -/
def eBuild (q : Str) (st : List EExpr) : BRes × List EExpr :=
  if q = [] then (.nil, st)
  else match parse q with
    | .panic => (.panic, st)
    | .div => (.panic, st)
    | .err e => (.err (.parse e), st)
    | .ok n =>
      match evisit n st with
      | .panic => (.panic, st)
      | .err e st => (.err e, st)
      | .ok [] => (.nil, [])
      | .ok (p :: st) => if p.isP then (.pred p, st) else (.panic, st)

/-- `BuildEntQL`, /repo/entmq/entql.go:23-30; wrapping of the error not modelled. -/
def buildEntQL (q : Str) : BRes := (eBuild q []).1

/-- Outcome of `ApplyEntQL`. -/
inductive AEnd where
  | done
  | failed (q : Str) (e : EErr)
  | panic
  deriving DecidableEq, Repr

/-- `ApplyEntQL`, /repo/entmq/entql.go:11-21: the arguments of the calls of `q.Where` (`none` is the nil predicate), and how it ends. -/
def applyEntQL : List Str → List (Option EExpr) × AEnd
  | [] => ([], .done)
  | q :: qs =>
    match (eBuild q []).1 with
    | .panic => ([], .panic)
    | .err e => ([], .failed q e)
    | .nil => let r := applyEntQL qs; (none :: r.1, r.2)
    | .pred p => let r := applyEntQL qs; (some p :: r.1, r.2)

end Verif
