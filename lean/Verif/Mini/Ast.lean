import Verif.Chars

/-!
# Go programs: syntax

The part of the Go language that the hand-written files of the repository use: /repo/miniquery/tree.go, parse.go, join.go, node.go, visitor.go,
/repo/gormq/miniquery.go, /repo/entmq/entql.go, entsql_util.go.  Types are expressions; parameter types are left out.
-/

namespace Verif.Mini

mutual
/-- Expressions and types. -/
inductive Expr where
  /-- Left out: a bound of a slice expression, the tag of a switch, the key of an element. -/
  | no
  | id (x : Str)
  | int (n : Nat)
  | str (s : Str)
  | chr (c : Char)
  /-- `e.f` -/
  | sel (e : Expr) (f : Str)
  /-- `e[i]` -/
  | idx (e i : Expr)
  /-- `e[lo:hi]` -/
  | slc (e lo hi : Expr)
  /-- `f(args)`, with `...` after the last argument or without -/
  | call (f : Expr) (args : Exprs) (spread : Bool)
  /-- `&e`, `*e`, `!e`, `-e` -/
  | un (op : Str) (e : Expr)
  | bin (op : Str) (a b : Expr)
  /-- `T{k: v, …}`, `T{v, …}` -/
  | lit (ty : Expr) (keys vals : Exprs)
  /-- `e.(T)` -/
  | cast (e ty : Expr)
  /-- `func(params) results { … }`; the results are as in a declaration. -/
  | fn (params : List Str) (results : List Str) (body : Stmts)
  /-- `[]T` -/
  | arr (t : Expr)
  /-- `map[k]v` -/
  | map (k v : Expr)
/-- Lists of expressions. -/
inductive Exprs where
  | nil
  | cons (e : Expr) (es : Exprs)
/-- Statements. -/
inductive Stmt where
  | expr (e : Expr)
  /-- `x, y := e, …` -/
  | define (l : List Str) (r : Exprs)
  /-- `x, e.f = e, …` -/
  | assign (l : Exprs) (r : Exprs)
  /-- `var x T` -/
  | var (x : Str) (t : Expr)
  | ret (es : Exprs)
  | ite (init : Stmts) (c : Expr) (t e : Stmts)
  /-- `for k, v := range e { … }` -/
  | range (k v : Str) (e : Expr) (body : Stmts)
  | switch (tag : Expr) (cs : Cases)
  /-- `switch e.(type) { … }`; the cases are types -/
  | types (e : Expr) (cs : Cases)
  | fall
  | brk
  | cont
/-- Blocks. -/
inductive Stmts where
  | nil
  | cons (s : Stmt) (k : Stmts)
/-- The clauses of a switch. -/
inductive Cases where
  | nil
  | case (es : Exprs) (b : Stmts) (k : Cases)
  | dflt (b : Stmts) (k : Cases)
end
deriving instance DecidableEq for Expr, Exprs, Stmt, Stmts, Cases
deriving instance Repr for Expr, Exprs, Stmt, Stmts, Cases

/-- What a file declares. -/
inductive Decl where
  /-- `import "…/name"` -/
  | pkg (x : Str)
  /-- `func (recv T) name(params) (results) { … }`.  A method has the name `T.name`, its receiver is the first parameter; `ptr` says whether the receiver
  is a pointer.  The results are named, or have the name `_`. -/
  | func (name : Str) (ptr : Bool) (params results : List Str) (body : Stmts)
  /-- `var x = e`, `const x T = e` -/
  | val (x : Str) (e : Expr)
  /-- `type x struct { f T … }`; an embedded field has the name of its type. -/
  | struct (x : Str) (fields : List (Str × Expr))
  /-- `type x T`, `type x = T` -/
  | alias (x : Str) (t : Expr)
  deriving DecidableEq, Repr

end Verif.Mini
