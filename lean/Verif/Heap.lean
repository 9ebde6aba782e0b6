import Verif.Ast

/-! # The syntax tree in memory (/repo/miniquery/tree.go, node.go)

`Verif/Node.lean` takes nodes and lists as values.  Here the same functions work on memory: nodes are reached by pointers, lists are slices of arrays
that may be shared and overwritten. -/

namespace Verif

/-- A pointer to a node; `none` is nil. -/
abbrev Ptr := Option Nat

/-- A slice `[]*Node`: the array it refers to and its length.  Simplification: no offset, as every slice of /repo/miniquery/tree.go starts where its
array starts (lines 64, 169, 171).  The capacity is the length of the array.  The slice nil is a slice of the array 0, which has no places. -/
structure Slice where
  arr : Nat := 0
  len : Nat := 0
  deriving DecidableEq, Repr

/-- `NodeType`, /repo/miniquery/node.go:13-25 -/
inductive NodeTy where
  | value | operation | identifier | reference | predicates | compare | logic | parentheses | not | between | function
  deriving DecidableEq, Repr

/-- `ValueType`, /repo/miniquery/node.go:27-34; `none` is the empty string. -/
inductive ValTy where
  | none | int | bool | string | null | array
  deriving DecidableEq, Repr

/-- `Node`, /repo/miniquery/node.go:36-55, without `Float`.  Simplification: `Names` is a value; its array is made by `PopIdentifierReference` for
that node alone (/repo/miniquery/tree.go:70). -/
structure Cell where
  type : NodeTy
  valueType : ValTy := .none
  int : Int := 0
  bool : Bool := false
  str : Str := []
  array : Slice := {}
  operation : Str := []
  name : Str := []
  names : List Str := []
  expression : Ptr := .none
  left : Ptr := .none
  op : Ptr := .none
  right : Ptr := .none
  params : Slice := {}
  deriving DecidableEq, Repr

/-- Memory: the nodes and the arrays that have been made; nothing is freed. -/
structure Mem where
  cells : List Cell := []
  arrays : List (List Ptr) := [[]]
  deriving DecidableEq, Repr

/-- `&Node{…}` -/
def Mem.node (m : Mem) (c : Cell) : Mem × Ptr := ({ m with cells := m.cells ++ [c] }, some m.cells.length)

/-- `make([]*Node, n)` followed by `copy`, and `[]*Node{…}`. -/
def Mem.list (m : Mem) (xs : List Ptr) : Mem × Slice := ({ m with arrays := m.arrays ++ [xs] }, ⟨m.arrays.length, xs.length⟩)

/-- What the slice holds. -/
def Mem.read (m : Mem) (s : Slice) : List Ptr := ((m.arrays[s.arr]?).getD []).take s.len

/-- `append(s, p)`: the next place of the array is written if there is one, otherwise all is moved to a new array; `grow` says how many places
more than needed it has. -/
def Mem.append (grow : Nat → Nat) (m : Mem) (s : Slice) (p : Ptr) : Mem × Slice :=
  let xs := (m.arrays[s.arr]?).getD []
  if s.len < xs.length then ({ m with arrays := m.arrays.set s.arr (xs.set s.len p) }, { s with len := s.len + 1 })
  else
    let (m, t) := m.list (xs.take s.len ++ p :: List.replicate (grow s.len) none)
    (m, { t with len := s.len + 1 })

/-- `Tree`, /repo/miniquery/tree.go:15-19, with the memory.  Simplification: `Errors` and `marks` are values (the head of `marks` is the last one); no
other slice refers to their arrays. -/
structure HTree where
  mem : Mem := {}
  stack : Slice := {}
  errors : List Err := []
  marks : List Nat := []
  deriving DecidableEq, Repr

namespace HTree

/-- `Push` of a new node, /repo/miniquery/tree.go:54-56. -/
def push (grow : Nat → Nat) (t : HTree) (c : Cell) : HTree :=
  let (m, p) := t.mem.node c
  let (m, s) := m.append grow t.stack p
  { t with mem := m, stack := s }

/-- /repo/miniquery/tree.go:58-66 -/
def pop (t : HTree) : Ptr × HTree :=
  match t.stack.len with
  | 0 => (none, t)
  | last + 1 => (((t.mem.read t.stack)[last]?).getD none, { t with stack := { t.stack with len := last } })

/-- /repo/miniquery/tree.go:225-229 -/
def addError (t : HTree) (e : Option Err) : HTree :=
  match e with
  | none => t
  | some e => { t with errors := t.errors ++ [e] }

/-- /repo/miniquery/tree.go:163-165 -/
def addMark (t : HTree) : HTree := { t with marks := t.stack.len :: t.marks }

/-- /repo/miniquery/tree.go:157-161, 167-173; `none` is a run-time panic. -/
def popMarked (t : HTree) : Option (Slice × HTree) :=
  match t.marks with
  | [] => none
  | mark :: ms =>
    if t.stack.len < mark then none
    else
      let (m, elements) := t.mem.list ((t.mem.read t.stack).drop mark)
      some (elements, { t with mem := m, stack := { t.stack with len := mark }, marks := ms })

/-- `node.Name`, /repo/miniquery/tree.go:72; `none` is the nil dereference. -/
def nodeName (m : Mem) (p : Ptr) : Option Str :=
  match p with
  | none => none
  | some i => (m.cells[i]?).map Cell.name

/-- /repo/miniquery/tree.go:68-78 -/
def popIdentifierReference (grow : Nat → Nat) (t : HTree) : Option HTree :=
  match t.popMarked with
  | none => none
  | some (nodes, t) =>
    match (t.mem.read nodes).mapM (nodeName t.mem) with
    | none => none
    | some names => some (t.push grow { type := .reference, names := names })

/-- The node a pointer points to. -/
def deref (t : HTree) (p : Ptr) : Option Cell :=
  match p with
  | none => none
  | some i => t.mem.cells[i]?

/-- /repo/miniquery/tree.go:80-96 -/
def popFunction (grow : Nat → Nat) (t : HTree) : HTree :=
  let (a, t) := t.pop
  let (n, t) := t.pop
  match t.deref a, t.deref n with
  | some a, some n =>
    if n.type = .identifier ∧ a.type = .value ∧ a.valueType = .array then t.push grow { type := .function, name := n.name, params := a.array }
    else t.addError (some .badFunction)
  | _, _ => t.addError (some .badFunction)

/-- /repo/miniquery/tree.go:98-112 -/
def popBetween (grow : Nat → Nat) (t : HTree) : HTree :=
  let (up, t) := t.pop
  let (down, t) := t.pop
  let (op, t) := t.pop
  let (left, t) := t.pop
  let (m, params) := t.mem.list [down, up]
  { t with mem := m }.push grow { type := .between, left := left, op := op, params := params }

/-- /repo/miniquery/tree.go:114-123 -/
def popPredicate (grow : Nat → Nat) (t : HTree) : HTree :=
  let (op, t) := t.pop
  let (left, t) := t.pop
  t.push grow { type := .predicates, left := left, op := op }

/-- /repo/miniquery/tree.go:125-135 -/
def popLogic (grow : Nat → Nat) (t : HTree) : HTree :=
  let (right, t) := t.pop
  let (op, t) := t.pop
  let (left, t) := t.pop
  t.push grow { type := .logic, left := left, op := op, right := right }

/-- /repo/miniquery/tree.go:137-148 -/
def popCompare (grow : Nat → Nat) (t : HTree) : HTree :=
  let (right, t) := t.pop
  let (op, t) := t.pop
  let (left, t) := t.pop
  t.push grow { type := .compare, left := left, op := op, right := right }

/-- /repo/miniquery/tree.go:150-155 -/
def popParentheses (grow : Nat → Nat) (t : HTree) : HTree :=
  let (e, t) := t.pop
  t.push grow { type := .parentheses, expression := e }

/-- /repo/miniquery/tree.go:204-209 -/
def popNot (grow : Nat → Nat) (t : HTree) : HTree :=
  let (e, t) := t.pop
  t.push grow { type := .not, expression := e }

/-- /repo/miniquery/tree.go:175-181 -/
def popArray (grow : Nat → Nat) (t : HTree) : Option HTree :=
  match t.popMarked with
  | none => none
  | some (elements, t) => some (t.push grow { type := .value, valueType := .array, array := elements })

/-- /repo/miniquery/tree.go:183-202, 211-216 -/
def addOperation (grow : Nat → Nat) (t : HTree) (s : Str) : HTree := t.push grow { type := .operation, operation := normOp s }

/-- /repo/miniquery/tree.go:218-223 -/
def addName (grow : Nat → Nat) (t : HTree) (s : Str) : HTree := t.push grow { type := .identifier, name := s }

/-- /repo/miniquery/tree.go:231-237 -/
def addString (grow : Nat → Nat) (t : HTree) (s : Str) : HTree := t.push grow { type := .value, valueType := .string, str := s }

/-- /repo/miniquery/tree.go:249-254 -/
def addNull (grow : Nat → Nat) (t : HTree) : HTree := t.push grow { type := .value, valueType := .null }

/-- /repo/miniquery/tree.go:256-264 -/
def addBoolean (grow : Nat → Nat) (t : HTree) (s : Str) : HTree :=
  (t.addError (parseBool s).2).push grow { type := .value, valueType := .bool, bool := (parseBool s).1 }

/-- /repo/miniquery/tree.go:266-274 -/
def addInteger (grow : Nat → Nat) (t : HTree) (s : Str) : HTree :=
  (t.addError (atoi s).2).push grow { type := .value, valueType := .int, int := (atoi s).1 }

/-- One case of the action switch of `Execute`: /repo/miniquery/miniquery.peg.go:369-428.  `none` is a panic. -/
def act (grow : Nat → Nat) (n : Nat) (text : Str) (t : HTree) : Option HTree :=
  match n with
  | 0 => some (t.popLogic grow)
  | 1 => some (t.popNot grow)
  | 2 => some (t.popCompare grow)
  | 3 => some (t.addOperation grow text)
  | 4 => some (t.popCompare grow)
  | 5 => some (t.popPredicate grow)
  | 6 => some (t.addOperation grow text)
  | 7 => some (t.popBetween grow)
  | 8 => some (t.popParentheses grow)
  | 9 => some (t.popFunction grow)
  | 10 => some t.addMark
  | 11 => t.popArray grow
  | 12 => some t.addMark
  | 13 => t.popIdentifierReference grow
  | 14 => some (t.addName grow text)
  | 15 => some (t.addOperation grow text)
  | 16 => some (t.addOperation grow text)
  | 17 => some (t.addOperation grow text)
  | 18 => some (t.addOperation grow text)
  | 19 => some (t.addOperation grow text)
  | 20 => some (t.addOperation grow text)
  | 21 => some t.addMark
  | 22 => t.popArray grow
  | 23 => some t.addMark
  | 24 => t.popArray grow
  | 25 => some (t.addInteger grow text)
  | 26 => some (t.addBoolean grow text)
  | 27 => some (t.addNull grow)
  | 28 => some (t.addString grow text)
  | 29 => some (t.addString grow text)
  | _ => some t

/-- The loop of `Execute`: /repo/miniquery/miniquery.peg.go:360-433; the second argument is the variable `text`. -/
def run (grow : Nat → Nat) : Str → List Ev → HTree → Option HTree
  | _, [], t => some t
  | _, .text s :: evs, t => run grow s evs t
  | x, .act n :: evs, t =>
    match t.act grow n x with
    | none => none
    | some t' => run grow x evs t'

end HTree

/-- Outcome of a query in memory: the pointer that is returned, or the error. -/
inductive HRes where
  | ok (p : Ptr)
  | err (e : Err)
  | panic
  | div
  deriving DecidableEq, Repr

/-- A parser object: the token array and the embedded `Tree` (/repo/miniquery/miniquery.peg.go:262-272). -/
structure HPeg where
  toks : List Tok := []
  tree : HTree := {}

/-- One query on an existing parser object: Buffer, Reset, Parse, Execute, Errors, Pop, as in /repo/miniquery/parse.go:3-16 except for the
creation of the object. -/
def HPeg.query (grow : Nat → Nat) (p : HPeg) (s : Str) : HRes × HPeg :=
  match pegParse s p.toks with
  | .div => (.div, p)
  | .panic => (.panic, p)
  | .err m tr => (.err (.syntax m.b m.e), { p with toks := tr })
  | .ok toks tr =>
    if ∀ t ∈ toks, t.b ≤ t.e ∧ t.e ≤ s.length then
      match HTree.run grow [] (toks.filterMap (evOf s)) p.tree with
      | none => (.panic, { p with toks := tr })
      | some t =>
        match t.errors with
        | e :: _ => (.err e, { toks := tr, tree := t })
        | [] => (.ok t.pop.1, { toks := tr, tree := t.pop.2 })
    else (.panic, { p with toks := tr })

/-- `Parse`, /repo/miniquery/parse.go:3-16: a new object answers one query. -/
def hparse (grow : Nat → Nat) (s : Str) : HRes × HPeg := ({} : HPeg).query grow s

/-- The answers to a sequence of queries put to one parser object, and the object afterwards. -/
def HPeg.queries (grow : Nat → Nat) : HPeg → List Str → List HRes × HPeg
  | p, [] => ([], p)
  | p, s :: l => ((p.query grow s).1 :: ((p.query grow s).2.queries grow l).1, ((p.query grow s).2.queries grow l).2)

/-- `node.Name = y` for the node in place `i`. -/
def Mem.rename (m : Mem) (i : Nat) (y : Str) : Mem := { m with cells := m.cells.modify i fun c => { c with name := y } }

end Verif
