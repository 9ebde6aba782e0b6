import Verif.Mini.Eval
import Verif.Mini.TreeProg
import Verif.Mini.ParseProg
import Verif.Mini.JoinProg
import Verif.Mini.NodeProg
import Verif.Mini.VisitorProg
import Verif.Mini.PegProg
import Verif.Parse
import Verif.Build

/-!
# The package miniquery as a program

`mq` is the program made of the texts of /repo/miniquery/tree.go, parse.go, join.go, node.go, visitor.go and of the type of parser objects and `Execute` in
miniquery.peg.go.  `mqLib` is what the calls do that leave these files: the Go library and the generated recogniser.
-/

namespace Verif.Mini

/-- The package miniquery. -/
def mq : Prog where
  decls := treeDecls ++ parseDecls ++ joinDecls ++ nodeDecls ++ visitorDecls ++ pegDecls
  cells := [c!"Tree", c!"MiniQueryPeg", c!"strings.Builder"]

/-- An optional error. -/
def optErr (f : Err → Val) : Option Err → Val
  | none => .nil
  | some e => f e

/-- An error value with the function that made it and its text argument. -/
def mkErr (kind : Str) (s : Str) : Val := .obj kind [(c!"s", .str s)]

/-- The errors of the model as values.  The error of tree.go:84, 94 keeps its format only. -/
def errVal : Err → Val
  | .syntax b e => .obj c!"parseError" [(c!"begin", .int b), (c!"end", .int e)]
  | .badInt s => mkErr c!"Atoi" s
  | .intRange s => mkErr c!"Atoi range" s
  | .badBool s => mkErr c!"ParseBool" s
  | .badFunction => mkErr c!"fmt.Errorf" c!"invalid function exp %q %q"

/-- A node with its type and its other fields. -/
def mkNode (ty : Str) (fs : List (Str × Val)) : Val := .obj c!"Node" ((c!"Type", .str ty) :: fs)

mutual
/-- The struct behind a node of the model: the fields that tree.go sets. -/
def nodeVal : Node → Val
  | .nil => .nil
  | .int i => mkNode c!"value" [(c!"ValueType", .str c!"int"), (c!"Int", .int i)]
  | .bool b => mkNode c!"value" [(c!"ValueType", .str c!"bool"), (c!"Bool", .bool b)]
  | .str s => mkNode c!"value" [(c!"ValueType", .str c!"string"), (c!"Str", .str s)]
  | .null => mkNode c!"value" [(c!"ValueType", .str c!"null")]
  | .arr l => mkNode c!"value" [(c!"ValueType", .str c!"array"), (c!"Array", .slice (nodeVals l))]
  | .op o => mkNode c!"operation" [(c!"Operation", .str o)]
  | .ident x => mkNode c!"identifier" [(c!"Name", .str x)]
  | .ref xs => mkNode c!"reference" [(c!"Names", .slice (xs.map .str))]
  | .pred l o => mkNode c!"predicates" [(c!"Left", nodeVal l), (c!"Op", nodeVal o)]
  | .cmp l o r => mkNode c!"compare" [(c!"Left", nodeVal l), (c!"Op", nodeVal o), (c!"Right", nodeVal r)]
  | .logic l o r => mkNode c!"logic" [(c!"Left", nodeVal l), (c!"Op", nodeVal o), (c!"Right", nodeVal r)]
  | .paren e => mkNode c!"parentheses" [(c!"Expression", nodeVal e)]
  | .not e => mkNode c!"not" [(c!"Expression", nodeVal e)]
  | .between l o a b => mkNode c!"between" [(c!"Left", nodeVal l), (c!"Op", nodeVal o), (c!"Params", .slice [nodeVal a, nodeVal b])]
  | .func f ps => mkNode c!"function" [(c!"Name", .str f), (c!"Params", .slice (nodeVals ps))]
/-- Several nodes. -/
def nodeVals : List Node → List Val
  | [] => []
  | n :: l => nodeVal n :: nodeVals l
end

/-- The struct behind a stack of the model. -/
def treeVal (t : Tree) : Val :=
  .obj c!"Tree" [(c!"Stack", .slice (nodeVals t.stack.reverse)), (c!"Errors", .slice (t.errors.map errVal)),
    (c!"marks", .slice (t.marks.reverse.map fun (m : Nat) => Val.int m))]

/-- The text in a `strings.Builder`. -/
def bufText (h : Heap) (a : Nat) : Str :=
  match h.mem a with
  | .obj _ [(_, .str s)] => s
  | _ => []

/-- A `strings.Builder` that holds a text. -/
def bufVal : Str → Val
  | [] => .obj c!"strings.Builder" []
  | c :: s => .obj c!"strings.Builder" [(c!"s", .str (c :: s))]

/-- A token of the recogniser as a struct. -/
def tokVal (t : Verif.Tok) : Val :=
  .obj c!"token32" [
    (c!"pegRule", .lib (match t.kind with | .rule _ => c!"rule" | .text => c!"rulePegText" | .act n => c!"ruleAction" ++ Nat.toDigits 10 n)),
    (c!"begin", .int t.b), (c!"end", .int t.e)]

/-- The runes of a text. -/
def runeVals (s : Str) : List Val := s.map fun c => Val.int c.toNat

/-- `Init` of a parser object: the buffer with the end symbol, /repo/miniquery/miniquery.peg.go:449-471. -/
def pegInit (a : Nat) (h : Heap) : Vals :=
  match h.mem a with
  | .obj ty fs =>
    match fget c!"Buffer" fs with
    | some (.str s) => .ok ([.nil], h.put a (.obj ty (fset c!"buffer" (.slice (runeVals s ++ [.int 1114112])) fs)))
    | _ => .stuck
  | _ => .stuck

/-- `Parse` of a parser object: the recogniser (`execN`), /repo/miniquery/miniquery.peg.go:475-487.  C77 shows that `execN` is what the generated rules do. -/
def pegRun (a : Nat) (h : Heap) : Vals :=
  match h.mem a with
  | .obj ty fs =>
    match fget c!"Buffer" fs with
    | some (.str s) =>
      match execN (mkBuf s) G (depthBound s.length) .Grammar initSt with
      | .div => .deep
      | .panic => .panic
      | .fail st => .ok ([errVal (.syntax st.max.b st.max.e)], h)
      | .ok st =>
        if st.tree.length < st.ti then .panic
        else .ok ([.nil], h.put a (.obj ty (fset c!"tokens32" (.slice ((st.tree.take st.ti).map tokVal)) fs)))
    | _ => .stuck
  | _ => .stuck

mutual
/-- Values of `interface{}` type. -/
def goVal : GoVal → Val
  | .nil => .nil
  | .int i => .int i
  | .bool b => .bool b
  | .str s => .str s
  | .slice l => .slice (goVals l)
/-- Several values. -/
def goVals : List GoVal → List Val
  | [] => []
  | v :: l => goVal v :: goVals l
end

mutual
/-- What `fmt.Fprint` writes for a value. -/
def printVal : Val → Str
  | .nil => c!"<nil>"
  | .int i => fmtInt i
  | .bool b => if b then c!"true" else c!"false"
  | .str s => s
  | .slice l => c!"[" ++ printVals l ++ c!"]"
  | _ => c!"?"
/-- The elements of a slice. -/
def printVals : List Val → Str
  | [] => []
  | [v] => printVal v
  | v :: w :: l => printVal v ++ ' ' :: printVals (w :: l)
end

/-- Several texts. -/
def strVals : List Val → List Str
  | .str s :: l => s :: strVals l
  | _ => []

/-- The library: `Q` is `strconv.IsPrint`. -/
def mqLib (Q : Char → Bool) : Lib := fun x args h =>
  if x = c!"strings.TrimSpace" then match args with | [.str s] => .ok ([.str (goTrim s)], h) | _ => .stuck
  else if x = c!"strings.ToLower" then match args with | [.str s] => .ok ([.str (goLower s)], h) | _ => .stuck
  else if x = c!"strings.Join" then
    match args with
    | [.slice l, .str ['.']] => .ok ([.str (goJoinDots (strVals l))], h)
    | _ => .stuck
  else if x = c!"regexp.MustCompile" then match args with | [.str s] => .ok ([.obj c!"Regexp" [(c!"expr", .str s)]], h) | _ => .stuck
  else if x = c!"Regexp.ReplaceAllString" then
    match args with
    | [.obj _ [(_, .str e)], .str s, .str r] => if e = c!"\\s+" ∧ r = c!" " then .ok ([.str (squeeze false s)], h) else .stuck
    | _ => .stuck
  else if x = c!"strconv.Atoi" then match args with | [.str s] => .ok ([.int (atoi s).1, optErr errVal (atoi s).2], h) | _ => .stuck
  else if x = c!"strconv.ParseBool" then
    match args with
    | [.str s] => .ok ([.bool (parseBool s).1, optErr errVal (parseBool s).2], h)
    | _ => .stuck
  else if x = c!"fmt.Errorf" then match args with | .str f :: _ => .ok ([mkErr x f], h) | _ => .stuck
  else if x = c!"errors.Errorf" then match args with | .str f :: _ => .ok ([mkErr x f], h) | _ => .stuck
  else if x = c!"fmt.Fprintf" then
    match args with
    | [.ptr a, .str ['%', 'q'], .str s] => .ok ([.nil, .nil], h.put a (bufVal (bufText h a ++ quote Q s)))
    | _ => .stuck
  else if x = c!"fmt.Fprint" then match args with | [.ptr a, v] => .ok ([.nil, .nil], h.put a (bufVal (bufText h a ++ printVal v))) | _ => .stuck
  else if x = c!"strings.Builder.WriteString" then
    match args with
    | [.ptr a, .str s] => .ok ([.nil, .nil], h.put a (bufVal (bufText h a ++ s)))
    | _ => .stuck
  else if x = c!"strings.Builder.WriteRune" then
    match args with
    | [.ptr a, .int i] => .ok ([.nil, .nil], h.put a (bufVal (bufText h a ++ [Char.ofNat i.toNat])))
    | _ => .stuck
  else if x = c!"strings.Builder.String" then match args with | [.ptr a] => .ok ([.str (bufText h a)], h) | _ => .stuck
  else if x = c!"strings.Builder.Len" then match args with | [.ptr a] => .ok ([.int (bufText h a).length], h) | _ => .stuck
  else if x = c!"MiniQueryPeg.Init" then match args with | [.ptr a] => pegInit a h | _ => .stuck
  else if x = c!"MiniQueryPeg.Parse" then match args with | [.ptr a] => pegRun a h | _ => .stuck
  else if x = c!"MiniQueryPeg.Tokens" then
    match args with
    | [.ptr a] => match h.mem a with | .obj _ fs => .ok ([(fget c!"tokens32" fs).getD .nil], h) | _ => .stuck
    | _ => .stuck
  else .stuck

/-- What a call does. -/
abbrev mqCall (Q : Char → Bool) : Nat → Val → List Val → Heap → Vals := call mq (mqLib Q)

end Verif.Mini
