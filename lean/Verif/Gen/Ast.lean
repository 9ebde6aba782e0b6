import Verif.Chars

/-!
# The support code of the generated file: syntax

The part of the Go language that the support code of /repo/miniquery/miniquery.peg.go uses: lines 14, 86-358 and, of `Init`, 434-519 and 3360-3363.  The rule functions
(lines 521-3359) are in `Verif.GoCode`, `Execute` is in `Verif.Mini`.  Other than in `Verif.Mini` there are loops with conditions and labels, slices share memory, and
structs have addresses.
-/

namespace Verif.Gen

mutual
/-- Expressions and types. -/
inductive Expr where
  /-- Left out: a bound of a slice expression, a condition, the key of an element. -/
  | no
  | id (x : Str)
  | int (n : Nat)
  | str (s : Str)
  | chr (c : Char)
  /-- `e.f` -/
  | sel (e : Expr) (f : Str)
  /-- `e[i]` -/
  | idx (e i : Expr)
  /-- `e[lo:hi]` -/
  | slc (e lo hi : Expr)
  /-- `f(args)`, with `...` after the last argument or without -/
  | call (f : Expr) (args : Exprs) (spread : Bool)
  /-- `&e`, `*e`, `!e`, `-e`; as a type, `*T` -/
  | un (op : Str) (e : Expr)
  | bin (op : Str) (a b : Expr)
  /-- `T{k: v, …}`, `T{v, …}` -/
  | lit (ty : Expr) (keys vals : Exprs)
  /-- `func(params) results { … }`; `var` says whether the last parameter is `x ...T`; the results are types. -/
  | fn (params : List Str) (var : Bool) (results : Exprs) (body : Stmts)
  /-- `[]T` -/
  | arr (t : Expr)
  /-- `[n]T`, `[...]T` -/
  | fix (t : Expr)
  /-- `map[k]v` -/
  | map (k v : Expr)
/-- Lists of expressions. -/
inductive Exprs where
  | nil
  | cons (e : Expr) (es : Exprs)
/-- Statements. -/
inductive Stmt where
  | expr (e : Expr)
  /-- `x, y := e, …` -/
  | define (l : List Str) (r : Exprs)
  /-- `x, e.f = e, …`; `x++` is `x = x + 1`, `x += e` is `x = x + e`. -/
  | assign (l : Exprs) (r : Exprs)
  /-- `var x T`, `var (…)` -/
  | var (xs : List Str) (ts : Exprs)
  /-- `type x struct { … }` -/
  | typ (x : Str) (fields : List Str) (ts : Exprs)
  | ret (es : Exprs)
  | ite (c : Expr) (t e : Stmts)
  /-- `label: for k, v := range e { … }` -/
  | range (label k v : Str) (e : Expr) (body : Stmts)
  /-- `label: for init; c; post { … }` -/
  | loop (label : Str) (init : Stmts) (c : Expr) (post body : Stmts)
  /-- `break label` -/
  | brk (label : Str)
  /-- `continue label` -/
  | cont (label : Str)
/-- Blocks. -/
inductive Stmts where
  | nil
  | cons (s : Stmt) (k : Stmts)
end
deriving instance DecidableEq for Expr, Exprs, Stmt, Stmts
deriving instance Repr for Expr, Exprs, Stmt, Stmts

/-- What a file declares. -/
inductive Decl where
  /-- `import "…/name"` -/
  | pkg (x : Str)
  /-- `func (recv T) name(params) (results) { … }`.  A method has the name `T.name`, its receiver is the first parameter; all receivers are pointers. -/
  | func (name : Str) (params : List Str) (var : Bool) (results : Exprs) (body : Stmts)
  /-- `var x = e`, `const x T = e` -/
  | val (x : Str) (e : Expr)
  /-- `type x struct { f T … }`; an embedded field has the name of its type. -/
  | struct (x : Str) (fields : List (Str × Expr))
  /-- `type x T` -/
  | alias (x : Str) (t : Expr)
  deriving DecidableEq, Repr

end Verif.Gen
