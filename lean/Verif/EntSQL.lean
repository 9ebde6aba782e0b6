import Verif.Parse
import Verif.EntQL

/-! # The ent SQL translator (/repo/entmq/entsql.go, /repo/entmq/entsql_util.go)

The module entgo.io/ent is not part of /repo. Of its `sql.Builder` the model has the buffer, the argument list, the running number of parameters,
the dialect and the recorded errors, with the methods used here (`WriteString`, `Pad`, `Arg`, `Args`, `WriteOp`, `Join`, `AddError`, `Query`, `Err`)
as documented; what `Ident` writes and what `sqlgraph.HasNeighbors` and `HasNeighborsWith` write around a condition is a parameter. -/

namespace Verif

/-- The dynamic types told apart by the type switch of /repo/entmq/entsql_util.go:22-34. -/
inductive GoType where
  | int | bool | float64 | other
  deriving DecidableEq, Repr

/-- The dynamic type of a literal's value. -/
def GoVal.type : GoVal → GoType
  | .int _ => .int
  | .bool _ => .bool
  | _ => .other

/-- `FormatParam`, /repo/entmq/entsql_util.go:18-38. -/
def formatParam (t : GoType) (placeholder dialect : Str) : Str :=
  if dialect = c!"postgres" then
    match t with
    | .int => placeholder ++ c!"::" ++ c!"int"
    | .bool => placeholder ++ c!"::" ++ c!"bool"
    | .float64 => placeholder ++ c!"::" ++ c!"double precision"
    | .other => placeholder
  else placeholder

/-- Arguments: values, or values wrapped in `typeCastParamFormatter` (/repo/entmq/entsql_util.go:10-16). -/
inductive SArg where
  | plain (v : GoVal)
  | cast (v : GoVal)
  deriving DecidableEq

/-- The value the database receives: a wrapped argument is asked for its `Value()` (/repo/entmq/entsql_util.go:40-42). -/
def SArg.bound : SArg → GoVal
  | .plain v => v
  | .cast v => v

/-- Errors (/repo/entmq/entsql.go:31, 53, 100, 108, 120, 142, 154, 182, 205, 211), with what their texts are made of; the texts are in ErrText.lean. -/
inductive SErr where
  | parse (e : Err)
  | opNode (o : Str)
  | edgeParams
  | noEdge (name : Str)
  | edgeCond (c : Node)
  | unsupported (f : Str)
  | predOp (o : Str)
  | unexpectedOp (o : Str)
  | invalidType
  deriving DecidableEq

/-- `sql.Builder` of package entgo.io/ent/dialect/sql. -/
structure Bld where
  dialect : Str
  total : Nat := 0
  sql : Str := []
  args : List SArg := []
  errs : List SErr := []
  deriving DecidableEq

/-- `Builder.WriteString` -/
def Bld.write (s : Str) (b : Bld) : Bld := { b with sql := b.sql ++ s }

/-- The placeholder `Builder.Arg` writes: numbered for postgres, `?` otherwise. -/
def Bld.holder (b : Bld) : Str := if b.dialect = c!"postgres" then '$' :: Nat.toDigits 10 (b.total + 1) else c!"?"

/-- `Builder.Arg`: nil is written as NULL, other values become a parameter whose placeholder is formatted by the value if it can. -/
def Bld.arg (a : SArg) (b : Bld) : Bld :=
  match a with
  | .plain .nil => b.write c!"NULL"
  | .plain v => { b with sql := b.sql ++ b.holder, args := b.args ++ [.plain v], total := b.total + 1 }
  | .cast v => { b with sql := b.sql ++ formatParam v.type b.holder b.dialect, args := b.args ++ [.cast v], total := b.total + 1 }

/-- `Builder.Args`: the arguments separated by a comma and a blank. -/
def Bld.argList : List GoVal → Bld → Bld
  | [], b => b
  | [v], b => b.arg (.plain v)
  | v :: l, b => Bld.argList l ((b.arg (.plain v)).write c!", ")

/-- `Builder.AddError` -/
def Bld.addErr (e : SErr) (b : Bld) : Bld := { b with errs := b.errs ++ [e] }

/-- The two builders of a `MiniQLToEntSQLBuilder` (/repo/entmq/entsql.go:20, 22): the embedded one and the optional other one. -/
structure MB where
  own : Bld
  ext : Option Bld := none
  deriving DecidableEq

/-- Writing through `s` (/repo/entmq/entsql.go:47-50). -/
def MB.put (f : Bld → Bld) (mb : MB) : MB :=
  match mb.ext with
  | some b => { mb with ext := some (f b) }
  | none => { mb with own := f mb.own }

/-- `s.WriteString` -/
def MB.write (s : Str) (mb : MB) : MB := mb.put (Bld.write s)

/-- Outcome of a visit. -/
inductive SRes where
  | ok (mb : MB)
  | err (e : SErr) (mb : MB)
  | panic
  deriving DecidableEq

/-- `if err == nil { … }` -/
def SRes.andThen : SRes → (MB → SRes) → SRes
  | .ok mb, f => f mb
  | r, _ => r

/-- Writing whether or not there was an error. -/
def SRes.also : SRes → (MB → MB) → SRes
  | .ok mb, f => .ok (f mb)
  | .err e mb, f => .err e (f mb)
  | .panic, _ => .panic

/-- An edge of `sqlgraph.Node`: its target, what `HasNeighbors` writes for it and what `HasNeighborsWith` writes before and after the condition
(/repo/entmq/entsql.go:113-117, 123-140), by dialect. -/
structure SEdge where
  to : Nat
  has : Str → Str
  pre : Str → Str
  post : Str → Str

/-- Surroundings: what `s.Ident(xstrings.ToSnakeCase(name))` writes for a dialect and a name (/repo/entmq/entsql.go:69), the edges of the schema
nodes (`sqlgraph.Node.Edges`), whether literals are wrapped for casting (the negation of `DisableTypeCasting`), and whether the errors recorded in
the builder of an edge condition (/repo/entmq/entsql.go:137) reach the builder of the whole query; this last depends on ent and is left open. -/
structure SEnv where
  ident : Str → Str → Str
  edges : Nat → List (Str × SEdge)
  cast : Bool := true
  surf : Bool := true

/-- `entsqlOpMap`, /repo/entmq/entsql.go:216-228, with what `Builder.WriteOp` writes for each operator. -/
def entsqlOps : List (Str × Str) :=
  [(c!"eq", c!" = "), (c!"neq", c!" <> "), (c!"gt", c!" > "), (c!"gte", c!" >= "), (c!"lt", c!" < "), (c!"lte", c!" <= "), (c!"in", c!" IN "),
   (c!"not in", c!" NOT IN "), (c!"like", c!" LIKE "), (c!"is null", c!" IS NULL"), (c!"is not null", c!" IS NOT NULL")]

/-- The operator of comparison and logic nodes, /repo/entmq/entsql.go:190-206: what is written, `none` for unknown operators. -/
def binText (op : Str) : Option Str :=
  match entsqlOps.lookup op with
  | some t => some t
  | none =>
    if op = c!"not like" then some c!" NOT LIKE "
    else if op = c!"and" then some c!" AND "
    else if op = c!"or" then some c!" OR "
    else none

/-- `node.Name`, set for identifiers and calls (/repo/miniquery/node.go:46). -/
def nodeName : Node → Str
  | .ident x => x
  | .func f _ => f
  | _ => []

/-- The value case, /repo/entmq/entsql.go:54-66. -/
def sVal (E : SEnv) (n : Node) (mb : MB) : SRes :=
  match value n with
  | none => .panic
  | some (.slice l) => .ok (((mb.write c!"(").put (Bld.argList l)).write c!")")
  | some v => .ok (mb.put (Bld.arg (if E.cast then .cast v else .plain v)))

/-- Text, arguments and errors of a joined query go to the embedded builder (`mb.Join`, /repo/entmq/entsql.go:151). -/
def MB.join (t : Str) (a : List SArg) (e : List SErr) (mb : MB) : MB :=
  { mb with own := { mb.own with sql := mb.own.sql ++ t, args := mb.own.args ++ a, total := mb.own.total + a.length, errs := mb.own.errs ++ e } }

/-- Joining an edge condition, /repo/entmq/entsql.go:127-151: the inner builder's `Query` (27-42) returns its text and arguments, or nothing after
recording the error. An error recorded twice (136 and 138) is modelled as recorded once. -/
def joinEdge (E : SEnv) (e : SEdge) (mb : MB) : SRes → SRes
  | .panic => .panic
  | .ok r => .ok (mb.join (e.pre mb.own.dialect ++ r.own.sql ++ e.post mb.own.dialect) r.own.args (if E.surf then r.own.errs else []))
  | .err er r => .ok (mb.join (e.pre mb.own.dialect ++ [] ++ e.post mb.own.dialect) [] (if E.surf then (r.own.addErr er).errs else []))

/-- `has_edge`, /repo/entmq/entsql.go:96-152; `inner` is the visit of the second parameter by a builder for the given schema node. -/
def sEdge (E : SEnv) (node : Option Nat) (ps : List Node) (inner : Nat → MB → SRes) (mb : MB) : SRes :=
  match ps with
  | [] => .err .edgeParams mb
  | p :: rest =>
    if nodeName p = [] then .err .edgeParams mb
    else match node with
      | none => .panic
      | some t =>
        match (E.edges t).lookup (nodeName p) with
        | none => .err (.noEdge (nodeName p)) mb
        | some e =>
          match rest with
          | [] => .ok (mb.join (e.has mb.own.dialect) [] [])
          | [c] =>
            if isExpression c then joinEdge E e mb (inner e.to { own := { dialect := mb.own.dialect, total := mb.own.total } })
            else .err (.edgeCond c) mb
          | _ => .err .edgeParams mb

/-- The case of comparison and logic nodes, /repo/entmq/entsql.go:186-209: the operator is written even if there was an error. -/
def sBin (left : SRes) (o : Node) (right : MB → SRes) : SRes :=
  match left with
  | .panic => .panic
  | left =>
    match operation o with
    | none => .panic
    | some op =>
      match binText op with
      | none =>
        match left with
        | .ok mb => .err (.unexpectedOp op) mb
        | .err _ mb => .err (.unexpectedOp op) mb
        | .panic => .panic
      | some t => (left.also (MB.write t)).andThen right

mutual
/-- `visit`, /repo/entmq/entsql.go:45-214; `node` is `mb.Node`; a nil node is a nil dereference. -/
def svisit (E : SEnv) (node : Option Nat) : Node → MB → SRes
  | .nil, _ => .panic
  | .op o, mb => .err (.opNode o) mb
  | .int i, mb => sVal E (.int i) mb
  | .bool b, mb => sVal E (.bool b) mb
  | .str s, mb => sVal E (.str s) mb
  | .null, mb => sVal E .null mb
  | .arr l, mb => sVal E (.arr l) mb
  | .ident x, mb => .ok (mb.put fun b => b.write (E.ident b.dialect x))
  | .ref _, mb => .err .invalidType mb
  | .paren e, mb => (svisit E node e (mb.write c!"(")).also (MB.write c!")")
  | .not e, mb => svisit E node e (mb.write c!"NOT ")
  | .func f ps, mb =>
    if f = c!"date" then (svisit1 E node ps (mb.write c!"DATE(")).also (MB.write c!")")
    else if f = c!"has_edge" then sEdge E node ps (fun t mb' => svisit2 E (some t) ps mb') mb
    else .err (.unsupported f) mb
  | .between l o a b, mb =>
    match operation o with
    | none => .panic
    | some op =>
      let lo := if op = c!"not between" then c!" < " else c!" >= "
      let ro := if op = c!"not between" then c!" > " else c!" <= "
      (((svisit E node l mb).andThen fun mb => svisit E node a (mb.write lo)).andThen fun mb => svisit E node l (mb.write c!" AND ")).andThen
        fun mb => svisit E node b (mb.write ro)
  | .pred l o, mb =>
    match operation o with
    | none => .panic
    | some op =>
      match entsqlOps.lookup op with
      | none => .err (.predOp op) mb
      | some t => (svisit E node l mb).also (MB.write t)
  | .cmp l o r, mb => sBin (svisit E node l mb) o fun mb => svisit E node r mb
  | .logic l o r, mb => sBin (svisit E node l mb) o fun mb => svisit E node r mb
/-- `visit(node.Params[0])`, /repo/entmq/entsql.go:94 -/
def svisit1 (E : SEnv) (node : Option Nat) : List Node → MB → SRes
  | [], _ => .panic
  | n :: _, mb => svisit E node n mb
/-- The visit of `params[1]` by the inner builder, /repo/entmq/entsql.go:129-134 -/
def svisit2 (E : SEnv) (node : Option Nat) : List Node → MB → SRes
  | [], _ => .panic
  | _ :: l, mb => svisit1 E node l mb
end

/-- `MiniQLToEntSQLBuilder`, /repo/entmq/entsql.go:16-24. -/
structure SB where
  query : Str
  node : Option Nat := none
  ast : Option Node := none
  mb : MB

/-- What `Query` returns. -/
inductive QRes where
  | ret (sql : Str) (args : List SArg)
  | panic
  deriving DecidableEq

/-- `Query`, /repo/entmq/entsql.go:27-42; `mb.Builder.Query()` returns the embedded builder's text and arguments. -/
def sQuery (E : SEnv) (b : SB) : QRes × SB :=
  match (match b.ast with | none => parse b.query | some n => .ok n) with
  | .panic => (.panic, b)
  | .div => (.panic, b)
  | .err e => (.ret [] [], { b with mb := { b.mb with own := b.mb.own.addErr (.parse e) } })
  | .ok n =>
    match svisit E b.node n b.mb with
    | .panic => (.panic, { b with ast := some n })
    | .err e mb => (.ret [] [], { b with ast := some n, mb := { mb with own := mb.own.addErr e } })
    | .ok mb => (.ret mb.own.sql mb.own.args, { b with ast := some n, mb := mb })

/-- `Err`: whether errors were recorded. -/
def SB.failed (b : SB) : Bool := b.mb.own.errs != []

end Verif
