import Verif.Mini.Gq
import Verif.Mini.EntsqlProg
import Verif.Mini.UtilProg
import Verif.EntSQL

/-!
# The files entsql.go and entsql_util.go as a program

`sqp` is the program made of the texts of /repo/entmq/entsql.go and /repo/entmq/entsql_util.go and of the types and constants of /repo/miniquery/node.go; `sqLib` is
what the calls do that leave the files: the functions of the package miniquery (run as the program `mq`), ent, and reflection.  ent calls functions of the program
(`FormatParam`, `Query`, function literals); `sqc` counts how often it may do so one inside the other.
-/

namespace Verif.Mini
open Verif

/-- The package entmq without entql.go.  `dialect.Postgres` is the constant of ent. -/
def sqp : Prog where
  decls := entsqlDecls ++ utilDecls ++ exported nodeDecls ++ [.val c!"dialect.Postgres" (.str c!"postgres")]
  cells := [c!"MiniQLToEntSQLBuilder"]

/-- What is open about ent and xstrings: what `ToSnakeCase` returns, what `Ident` writes for a dialect, what a predicate on the neighbours of an edge writes (alone, before a
condition, behind it), by step and dialect; whether an error in such a condition gets into the builder that the predicate is joined to. -/
structure SPar where
  snake : Str → Str
  ident : Str → Str → Str
  has : Val → Str → Str
  pre : Val → Str → Str
  post : Val → Str → Str
  surf : Bool

/-- A `sql.Builder`, with its arguments and errors as values. -/
structure RBld where
  dialect : Str
  total : Nat
  sql : Str
  args : List Val
  errs : List Val

/-- A `sql.Builder` in memory. -/
def RBld.val (b : RBld) : Val :=
  .obj c!"sql.Builder" [(c!"dialect", .str b.dialect), (c!"total", .int b.total), (c!"sb", .str b.sql), (c!"args", .slice b.args), (c!"errs", .slice b.errs)]

/-- Reads a `sql.Builder`. -/
def rbldOf : Val → Option RBld
  | .obj _ [(_, .str d), (_, .int n), (_, .str s), (_, .slice l), (_, .slice e)] => some ⟨d, n.toNat, s, l, e⟩
  | _ => none

/-- `WriteString` -/
def RBld.write (t : Str) (b : RBld) : RBld := { b with sql := b.sql ++ t }

/-- The placeholder of the next argument. -/
def RBld.holder (b : RBld) : Str := if b.dialect = c!"postgres" then '$' :: Nat.toDigits 10 (b.total + 1) else c!"?"

/-- Adds a placeholder and an argument. -/
def RBld.add (f : Str) (v : Val) (b : RBld) : RBld := { b with sql := b.sql ++ f, args := b.args ++ [v], total := b.total + 1 }

/-- Appends what another builder has made. -/
def RBld.append (t : Str) (l e : List Val) (b : RBld) : RBld := { b with sql := b.sql ++ t, args := b.args ++ l, total := b.total + l.length, errs := b.errs ++ e }

/-- Changes a builder in memory. -/
def onBld (s : Nat) (f : RBld → RBld) (h : Heap) : Vals :=
  match rbldOf (h.mem s) with
  | some b => .ok ([.ptr s], h.put s (f b).val)
  | none => .stuck

/-- `Builder.Arg`: nil is written as NULL; a value that has the method `FormatParam` is asked for its placeholder. -/
def bldArg (C : Val → List Val → Heap → Vals) (s : Nat) (v : Val) (h : Heap) : Vals :=
  match rbldOf (h.mem s) with
  | none => .stuck
  | some b =>
    match v with
    | .nil => .ok ([.ptr s], h.put s (b.write c!"NULL").val)
    | .obj t fs =>
      one (C (.meth (.obj t fs) c!"FormatParam") [.str b.holder, .obj c!"sql.StmtInfo" [(c!"Dialect", .str b.dialect)]] h) fun r h =>
        match r with
        | .str f => onBld s (RBld.add f (.obj t fs)) h
        | _ => .stuck
    | v => .ok ([.ptr s], h.put s (b.add b.holder v).val)

/-- `Builder.Args` -/
def bldArgs (C : Val → List Val → Heap → Vals) (s : Nat) : List Val → Heap → Vals
  | [], h => .ok ([.ptr s], h)
  | [v], h => bldArg C s v h
  | v :: l, h => many (bldArg C s v h) fun _ h => many (onBld s (RBld.write c!", ") h) fun _ h => bldArgs C s l h

/-- The values of a slice, nil being empty. -/
def asList : Val → List Val
  | .slice l => l
  | _ => []

/-- `Builder.Join` of a `MiniQLToEntSQLBuilder`: it gets the dialect and the number of arguments so far (its builder is made here: before this, it was the zero value),
and its query is written. -/
def joinMb (C : Val → List Val → Heap → Vals) (s a : Nat) (h : Heap) : Vals :=
  match rbldOf (h.mem s), h.mem a with
  | some b, .obj t fs =>
    many (C (.meth (.ptr a) c!"Query") [] ((h.alloc (RBld.val ⟨b.dialect, b.total, [], [], []⟩)).put a (.obj t (fset c!"Builder" (.ptr h.next) fs)))) fun vs h =>
      match vs with
      | [.str q, as] => onBld s (fun b => b.append q (asList as) []) h
      | _ => .stuck
  | _, _ => .stuck

/-- `Builder.Join` of a predicate on the neighbours of an edge. -/
def joinPred (p : SPar) (C : Val → List Val → Heap → Vals) (s : Nat) (fs : List (Str × Val)) (h : Heap) : Vals :=
  match fs with
  | [(_, step)] => onBld s (fun b => b.write (p.has step b.dialect)) h
  | [(_, step), (_, fn)] =>
    match rbldOf (h.mem s) with
    | none => .stuck
    | some b =>
      many (C fn [.ptr h.next] (h.alloc (RBld.val ⟨b.dialect, b.total, [], [], []⟩))) fun _ h' =>
        match rbldOf (h'.mem h.next) with
        | none => .stuck
        | some r => onBld s (fun b => b.append (p.pre step b.dialect ++ r.sql ++ p.post step b.dialect) r.args (if p.surf then r.errs else [])) h'
  | _ => .stuck

/-- The errors that an error of a builder stands for. -/
def flatErr (v : Val) : List Val :=
  match v with
  | .obj t [(_, .slice l)] => if t = c!"sql.errors" then l else [v]
  | _ => [v]

/-- `Builder.AddError`; an error that joins several stands for these. -/
def addError (s : Nat) (v : Val) (h : Heap) : Vals :=
  many (onBld s (fun b => { b with errs := b.errs ++ flatErr v }) h) fun _ h => .ok ([], h)

/-- `Builder.Err` -/
def bldErr (s : Nat) (h : Heap) : Vals :=
  match rbldOf (h.mem s) with
  | some b => .ok ([if b.errs.isEmpty then .nil else .obj c!"sql.errors" [(c!"errs", .slice b.errs)]], h)
  | none => .stuck

/-- A `sql.Selector`. -/
def selectorVal (d : Str) (from_ whr : Val) : Val := .obj c!"sql.Selector" [(c!"dialect", .str d), (c!"from", from_), (c!"where", whr)]

/-- `HasNeighborsWith`: the function gets a new selector, and the predicate is on the neighbours with the condition of this selector. -/
def neighborsWith (C : Val → List Val → Heap → Vals) (q : Nat) (step fn : Val) (h : Heap) : Vals :=
  match h.mem q with
  | .obj _ [(_, .str d), (_, fr), _] =>
    many (C fn [.ptr h.next] (h.alloc (selectorVal d .nil .nil))) fun _ h' =>
      match h'.mem h.next with
      | .obj _ [_, _, (_, .obj _ [(_, f)])] => .ok ([], h'.put q (selectorVal d fr (.obj c!"sql.Predicate" [(c!"step", step), (c!"fn", f)])))
      | _ => .stuck
  | _ => .stuck

/-- The methods of the builder embedded in a `MiniQLToEntSQLBuilder`. -/
def embeddedBld (h : Heap) (a : Nat) : Option Nat :=
  match h.mem a with
  | .obj _ fs => match fget c!"Builder" fs with | some (.ptr b) => some b | _ => none
  | _ => none

/-- What `WriteOp` writes. -/
def sqlOps' : List (Str × Str) :=
  [(c!"sql.OpEQ", c!" = "), (c!"sql.OpNEQ", c!" <> "), (c!"sql.OpGT", c!" > "), (c!"sql.OpGTE", c!" >= "), (c!"sql.OpLT", c!" < "), (c!"sql.OpLTE", c!" <= "),
   (c!"sql.OpIn", c!" IN "), (c!"sql.OpNotIn", c!" NOT IN "), (c!"sql.OpLike", c!" LIKE "), (c!"sql.OpIsNull", c!" IS NULL"), (c!"sql.OpNotNull", c!" IS NOT NULL")]

/-- The methods of `sql.Builder`. -/
def bldLib (p : SPar) (C : Val → List Val → Heap → Vals) (x : Str) (s : Nat) (args : List Val) (h : Heap) : Vals :=
  if x = c!"WriteString" then match args with | [.str t] => onBld s (RBld.write t) h | _ => .stuck
  else if x = c!"Pad" then onBld s (RBld.write c!" ") h
  else if x = c!"Ident" then match args with | [.str t] => onBld s (fun b => b.write (p.ident b.dialect t)) h | _ => .stuck
  else if x = c!"WriteOp" then match args with | [.lib o] => (match sqlOps'.lookup o with | some t => onBld s (RBld.write t) h | none => .stuck) | _ => .stuck
  else if x = c!"Arg" then match args with | [v] => bldArg C s v h | _ => .stuck
  else if x = c!"Args" then bldArgs C s args h
  else if x = c!"Query" then match rbldOf (h.mem s) with | some b => .ok ([.str b.sql, .slice b.args], h) | none => .stuck
  else if x = c!"AddError" then match args with | [v] => addError s v h | _ => .stuck
  else if x = c!"Err" then bldErr s h
  else if x = c!"Dialect" then match rbldOf (h.mem s) with | some b => .ok ([.str b.dialect], h) | none => .stuck
  else if x = c!"Join" then
    match args with
    | [.ptr a] => joinMb C s a h
    | [.obj _ fs] => joinPred p C s fs h
    | _ => .stuck
  else .stuck

/-- The text behind a prefix. -/
def behind : Str → Str → Option Str
  | [], t => some t
  | c :: s, d :: t => if c = d then behind s t else none
  | _ :: _, [] => none

/-- Reflection, as it is used: `Elem` of the value of a pointer, a field of it, the address of that field, and what is there. -/
def reflectLib (x : Str) (args : List Val) (h : Heap) : Vals :=
  if x = c!"reflect.ValueOf" then match args with | [.ptr q] => .ok ([.obj c!"reflect.Value" [(c!"of", .ptr q)]], h) | _ => .stuck
  else if x = c!"reflect.Value.Elem" then match args with | [.obj t fs] => .ok ([.obj t fs], h) | _ => .stuck
  else if x = c!"reflect.Value.FieldByName" then
    match args with | [.obj t [(o, v)], .str f] => .ok ([.obj t [(o, v), (c!"field", .str f)]], h) | _ => .stuck
  else if x = c!"reflect.Value.Type" then .ok ([.lib c!"type"], h)
  else if x = c!"reflect.Value.UnsafeAddr" then match args with | [.obj _ fs] => .ok ([.obj c!"address" fs], h) | _ => .stuck
  else if x = c!"unsafe.Pointer" then match args with | [v] => .ok ([v], h) | _ => .stuck
  else if x = c!"reflect.NewAt" then match args with | [_, .obj _ fs] => .ok ([.obj c!"reflect.Value" fs], h) | _ => .stuck
  else if x = c!"reflect.Value.Interface" then
    match args with
    | [.obj _ [(_, .ptr q), (_, .str f)]] =>
      match h.mem q with
      | .obj _ fs => match fget f fs with | some v => .ok ([v], h) | none => .stuck
      | _ => .stuck
    | _ => .stuck
  else .stuck

/-- What calls outside the files do.  `Q` is `strconv.IsPrint`, `N` a bound on the depth of calls in the package miniquery, `C` what calls of ent into the program do. -/
def sqLib (Q : Char → Bool) (N : Nat) (p : SPar) (C : Val → List Val → Heap → Vals) : Lib := fun x args h =>
  if x = c!"miniquery.Parse" then call mq (mqLib Q) N (.fn c!"Parse") args h
  else if x = c!"Node.Value" then match args with | v :: args => call mq (mqLib Q) N (.meth v c!"Value") args h | _ => .stuck
  else if x = c!"Node.String" then match args with | v :: args => call mq (mqLib Q) N (.meth v c!"String") args h | _ => .stuck
  else if x = c!"Node.IsExpression" then match args with | v :: args => call mq (mqLib Q) N (.meth v c!"IsExpression") args h | _ => .stuck
  else if x = c!"errors.Errorf" ∨ x = c!"errors.New" then match args with | .str f :: args => .ok ([errCall x f args], h) | _ => .stuck
  else if x = c!"strings.ToUpper" then match args with | [.str s] => .ok ([.str (s.map Char.toUpper)], h) | _ => .stuck
  else if x = c!"xstrings.ToSnakeCase" then match args with | [.str s] => .ok ([.str (p.snake s)], h) | _ => .stuck
  else if x = c!".([]interface)" then match args with | [.slice l] => .ok ([.slice l], h) | _ => .panic
  else if x = c!".(*sql.Predicate)" then match args with | [.obj t fs] => if t = c!"sql.Predicate" then .ok ([.obj t fs], h) else .panic | _ => .panic
  else if x = c!"sql.Dialect" then match args with | [d] => .ok ([.obj c!"sql.DialectBuilder" [(c!"dialect", d)]], h) | _ => .stuck
  else if x = c!"sql.DialectBuilder.Select" then
    match args with | [.obj _ [(_, .str d)]] => .ok ([.ptr h.next], h.alloc (selectorVal d .nil .nil)) | _ => .stuck
  else if x = c!"sql.Table" then match args with | [t] => .ok ([.obj c!"sql.SelectTable" [(c!"name", t)]], h) | _ => .stuck
  else if x = c!"sql.SelectTable.Schema" then match args with | [.obj t [(o, v)], s] => .ok ([.obj t [(o, v), (c!"schema", s)]], h) | _ => .stuck
  else if x = c!"sql.Selector.From" then
    match args with
    | [.ptr q, t] => match h.mem q with | .obj _ [(_, .str d), _, (_, w)] => .ok ([.ptr q], h.put q (selectorVal d t w)) | _ => .stuck
    | _ => .stuck
  else if x = c!"sql.Selector.Where" then
    match args with
    | [.ptr q, w] => match h.mem q with | .obj _ [(_, .str d), (_, t), _] => .ok ([.ptr q], h.put q (selectorVal d t w)) | _ => .stuck
    | _ => .stuck
  else if x = c!"sql.P" then match args with | [f] => .ok ([.obj c!"sql.Predicate" [(c!"fn", f)]], h) | _ => .stuck
  else if x = c!"sql.Predicate.Err" then .ok ([.nil], h)
  else if x = c!"sqlgraph.From" ∨ x = c!"sqlgraph.To" ∨ x = c!"sqlgraph.Edge" ∨ x = c!"sqlgraph.NewStep" then .ok ([.obj x [(c!"args", .slice args)]], h)
  else if x = c!"sqlgraph.HasNeighbors" then
    match args with
    | [.ptr q, step] =>
      match h.mem q with
      | .obj _ [(_, .str d), (_, t), _] => .ok ([], h.put q (selectorVal d t (.obj c!"sql.Predicate" [(c!"step", step)])))
      | _ => .stuck
    | _ => .stuck
  else if x = c!"sqlgraph.HasNeighborsWith" then match args with | [.ptr q, step, f] => neighborsWith C q step f h | _ => .stuck
  else
    match behind c!"MiniQLToEntSQLBuilder." x, behind c!"sql.Builder." x, args with
    | some y, _, .ptr a :: args => (match embeddedBld h a with | some b => bldLib p C y b args h | none => .stuck)
    | _, some y, .ptr s :: args => bldLib p C y s args h
    | _, _, _ => reflectLib x args h

/-- What calls in the program do, if ent may call it `k` times one inside the other, each time with calls in the program of depth `D`. -/
def sqc (Q : Char → Bool) (N D : Nat) (p : SPar) : Nat → Val → List Val → Heap → Vals
  | 0 => fun _ _ _ => .deep
  | k + 1 => call sqp (sqLib Q N p (sqc Q N D p k)) D

/-- A `sqlgraph.EdgeSpec` with its target. -/
structure FEdge where
  to : Nat
  rel : Val
  inverse : Val
  table : Val
  columns : List Val

/-- A `sqlgraph.Node`. -/
structure FNode where
  table : Val
  schema : Val
  column : Val
  edges : List (Str × FEdge)

/-- The addresses of the nodes of a schema. -/
def edgeVal (nd : Nat → Nat) (e : FEdge) : Val :=
  .obj c!"edge" [(c!"To", .ptr (nd e.to)), (c!"Spec", .obj c!"sqlgraph.EdgeSpec" [(c!"Rel", e.rel), (c!"Inverse", e.inverse), (c!"Table", e.table), (c!"Columns", .slice e.columns)])]

/-- A `sqlgraph.Node` in memory. -/
def fnodeVal (nd : Nat → Nat) (n : FNode) : Val :=
  .obj c!"sqlgraph.Node" [(c!"Table", n.table), (c!"Schema", n.schema), (c!"ID", .obj c!"sqlgraph.FieldSpec" [(c!"Column", n.column)]),
    (c!"Edges", .map .nil (n.edges.map fun kv => (kv.1, edgeVal nd kv.2)))]

/-- The step along an edge. -/
def stepVal (G : Nat → FNode) (n : FNode) (e : FEdge) : Val :=
  .obj c!"sqlgraph.NewStep" [(c!"args", .slice [.obj c!"sqlgraph.From" [(c!"args", .slice [n.table, n.column])],
    .obj c!"sqlgraph.To" [(c!"args", .slice [(G e.to).table, (G e.to).column])],
    .obj c!"sqlgraph.Edge" [(c!"args", .slice ([e.rel, e.inverse, e.table] ++ e.columns))]])]

/-- The surroundings of the model. -/
def senv (p : SPar) (G : Nat → FNode) (cast : Bool) : SEnv where
  ident d x := p.ident d (p.snake x)
  edges t := (G t).edges.map fun kv => (kv.1, { to := kv.2.to, has := p.has (stepVal G (G t) kv.2), pre := p.pre (stepVal G (G t) kv.2), post := p.post (stepVal G (G t) kv.2) })
  cast := cast
  surf := p.surf

/-- Arguments as values. -/
def argVal : SArg → Val
  | .plain v => goVal v
  | .cast v => .obj c!"typeCastParamFormatter" [(c!"v", goVal v)]

/-- Errors as values. -/
def sErrVal : SErr → Val
  | .parse e => errVal e
  | .opNode o => errCall c!"errors.Errorf" c!"unexpected op node: %q" [nodeVal (.op o)]
  | .edgeParams => errCall c!"errors.New" c!"关联参数错误" []
  | .noEdge x => errCall c!"errors.Errorf" c!"不存在关联: %q" [.str x]
  | .edgeCond c => errCall c!"errors.Errorf" c!"关联条件错误: %q" [.str ((nodeStr c).getD [])]
  | .unsupported f => errCall c!"errors.Errorf" c!"不支持的函数: %q" [.str f]
  | .predOp o => errCall c!"errors.Errorf" c!"unexpected predicate op %q" [.str o]
  | .unexpectedOp o => errCall c!"errors.Errorf" c!"unexpected op %q" [.str o]
  | .invalidType => errCall c!"errors.Errorf" c!"invalid type %q" [.str c!"reference"]

/-- The builder of the model with values. -/
def rbld (b : Bld) : RBld := ⟨b.dialect, b.total, b.sql, b.args.map argVal, b.errs.map sErrVal⟩

/-- A `MiniQLToEntSQLBuilder` in memory. -/
def mbVal (node : Val) (q : Str) (ast sb graph : Val) (b : Nat) (dis : Bool) : Val :=
  .obj c!"MiniQLToEntSQLBuilder" [(c!"Node", node), (c!"QueryString", .str q), (c!"ast", ast), (c!"SQLBuilder", sb), (c!"Graph", graph), (c!"Builder", .ptr b),
    (c!"DisableTypeCasting", .bool dis)]

end Verif.Mini
