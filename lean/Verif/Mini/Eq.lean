import Verif.Mini.Gq
import Verif.Mini.EntqlProg
import Verif.EntQL

/-!
# The file entql.go as a program

`eqp` is the program made of the text of /repo/entmq/entql.go and of the types and constants of /repo/miniquery/node.go; `eqLib` is what the calls do that leave
the file: the functions of the package miniquery (run as the program `mq`), the package entql, and the libraries for errors and logging.
-/

namespace Verif.Mini
open Verif

/-- The package entmq, as far as entql.go goes. -/
def eqp : Prog where
  decls := entqlDecls ++ exported nodeDecls
  cells := [c!"MiniQLToEntQLBuilder"]

/-- The constants of package entql. -/
def eopName : EOp → Str
  | .and => c!"entql.OpAnd"
  | .or => c!"entql.OpOr"
  | .not => c!"entql.OpNot"
  | .eq => c!"entql.OpEQ"
  | .neq => c!"entql.OpNEQ"
  | .gt => c!"entql.OpGT"
  | .gte => c!"entql.OpGTE"
  | .lt => c!"entql.OpLT"
  | .lte => c!"entql.OpLTE"
  | .in_ => c!"entql.OpIn"
  | .notIn => c!"entql.OpNotIn"

/-- The expressions of package entql. -/
def exprVal : EExpr → Val
  | .val v => .obj c!"entql.Value" [(c!"V", goVal v)]
  | .field x => .obj c!"entql.Field" [(c!"Name", .str x)]
  | .un o x => .obj c!"entql.UnaryExpr" [(c!"Op", .lib (eopName o)), (c!"X", exprVal x)]
  | .bin o x y => .obj c!"entql.BinaryExpr" [(c!"Op", .lib (eopName o)), (c!"X", exprVal x), (c!"Y", exprVal y)]

/-- The errors of the translation. -/
def eErrVal : EErr → Val
  | .parse e => errVal e
  | .opNode o => errCall c!"errors.Errorf" c!"unexpected op node: %q" [nodeVal (.op o)]
  | .unexpectedOp o => errCall c!"errors.Errorf" c!"unexpected op %q" [.str o]
  | .invalidType => errCall c!"errors.Errorf" c!"invalid type %q" [.str c!"reference"]

/-- An error with a text around it. -/
def wrapErr (e : Val) (fmt : Str) (args : List Val) : Val := .obj c!"errors.Wrapf" [(c!"err", e), (c!"format", .str fmt), (c!"args", .slice args)]

/-- An object with a method `Where`, which notes its arguments. -/
def whereVal (l : List Val) : Val := .obj c!"Where" [(c!"calls", .slice l)]

/-- The package entql (`F`, `Not` and `And` make the nodes that their names say; unary and binary expressions are predicates, values and fields are not), errors,
logging (which does nothing here), and the package miniquery.  `Q` is `strconv.IsPrint`, `N` a bound on the depth of calls in the package miniquery. -/
def eqLib (Q : Char → Bool) (N : Nat) : Lib := fun x args h =>
  if x = c!"miniquery.Parse" then call mq (mqLib Q) N (.fn c!"Parse") args h
  else if x = c!"Node.Value" then match args with | v :: args => call mq (mqLib Q) N (.meth v c!"Value") args h | _ => .stuck
  else if x = c!"errors.Errorf" then match args with | .str f :: args => .ok ([errCall x f args], h) | _ => .stuck
  else if x = c!"errors.Wrapf" then match args with | e :: .str f :: args => .ok ([wrapErr e f args], h) | _ => .stuck
  else if x = c!"entql.F" then match args with | [.str s] => .ok ([.obj c!"entql.Field" [(c!"Name", .str s)]], h) | _ => .stuck
  else if x = c!"entql.Not" then match args with | [v] => .ok ([.obj c!"entql.UnaryExpr" [(c!"Op", .lib c!"entql.OpNot"), (c!"X", v)]], h) | _ => .stuck
  else if x = c!"entql.And" then
    match args with | [v, w] => .ok ([.obj c!"entql.BinaryExpr" [(c!"Op", .lib c!"entql.OpAnd"), (c!"X", v), (c!"Y", w)]], h) | _ => .stuck
  else if x = c!".(entql.P)" then
    match args with
    | [.obj t fs] => if t = c!"entql.UnaryExpr" ∨ t = c!"entql.BinaryExpr" then .ok ([.obj t fs], h) else .panic
    | _ => .panic
  else if x = c!"slog.With" then .ok ([.obj c!"slog.Logger" []], h)
  else if x = c!"slog.Logger.Error" then .ok ([], h)
  else if x = c!"Where.Where" then
    match args with
    | [.ptr w, p] => match h.mem w with | .obj _ [(_, .slice l)] => .ok ([], h.put w (whereVal (l ++ [p]))) | _ => .stuck
    | _ => .stuck
  else .stuck

end Verif.Mini
