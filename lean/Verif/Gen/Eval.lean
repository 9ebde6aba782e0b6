import Verif.Gen.Ast

/-!
# The support code of the generated file: what it does

An interpreter for the programs of `Verif.Gen.Ast`.

* `panic`: a run-time panic; `stuck`: something that no run of the modelled code does; `deep`: the bound on the depth of calls and on the rounds of a
  loop was too small.
* Numbers are unbounded (the code uses int and uint32: queries of more than 4 GB are not covered).
* Variables that occur in a function literal, whose address is taken, or that are the receiver of a call live in memory (`Slot.box`); other variables
  live in the list of local variables.
* A slice (`sl`) refers to an array in memory.  Its capacity is its length, so that `append` always copies and `v[a:b]` panics beyond the length; the Go
  specification allows this, but a real capacity may be larger, and then `v[a:b]` panics beyond the capacity only.  A nil slice is `nil`.
* A struct is represented by its content.  A pointer (`ptr`) is an address and a list of fields: `&p.tokens32` points into `*p`.
* Nil pointers know their type (`nilp`), since methods may be called on them.
* A map is represented by its entries: the code never copies one.
* The array of rule functions is not modelled here; it is `rules`, and calls of its elements go to the library (`Lib.rule`).  It starts as nil.
* Calls that leave the text go to the library.
-/

namespace Verif.Gen

/-- What a variable holds: its value, or the address where its value is. -/
inductive Slot (α : Type) where
  | val (v : α)
  | box (a : Nat)
  deriving Inhabited

/-- Values. -/
inductive Val where
  | nil
  /-- A nil pointer to a type. -/
  | nilp (ty : Str)
  | int (i : Int)
  | str (s : Str)
  | bool (b : Bool)
  /-- A slice: the address of its array, where it starts, its length. -/
  | sl (a off len : Nat)
  /-- An array. -/
  | arr (l : List Val)
  /-- A map: the value of absent keys, the entries. -/
  | map (zero : Val) (kvs : List (Int × Val))
  /-- A struct: all its fields. -/
  | obj (ty : Str) (fs : List (Str × Val))
  /-- A pointer. -/
  | ptr (a : Nat) (path : List Str)
  /-- A function literal with the variables around it. -/
  | clo (params : List Str) (var : Bool) (results : Exprs) (body : Stmts) (env : List (Str × Slot Val))
  /-- A method with its receiver. -/
  | meth (recv : Val) (name : Str)
  /-- A function of the text. -/
  | fn (name : Str)
  /-- A name declared at the top of the file. -/
  | glob (x : Str)
  /-- A name of a library. -/
  | lib (name : Str)
  /-- The array of rule functions, with the variables around it. -/
  | rules (env : List (Str × Slot Val))
  /-- A rule function. -/
  | rule (k : Int) (env : List (Str × Slot Val))
  deriving Inhabited

/-- Local variables, the newest first. -/
abbrev Locals := List (Str × Slot Val)

/-- Memory: the next free address, the contents, what was written to the standard output. -/
structure Heap where
  next : Nat
  mem : Nat → Val
  out : Str

/-- Changes a cell. -/
def Heap.put (h : Heap) (a : Nat) (v : Val) : Heap := { h with mem := fun b => if b = a then v else h.mem b }

/-- Takes a new cell. -/
def Heap.alloc (h : Heap) (v : Val) : Heap := { h with next := h.next + 1, mem := fun b => if b = h.next then v else h.mem b }

/-- Outcomes. -/
inductive Res (α : Type) where
  | ok (a : α)
  | panic
  | stuck
  | deep

/-- Values after an evaluation. -/
abbrev Vals := Res (List Val × Heap)

/-- Goes on with one value. -/
def one {β : Type} : Vals → (Val → Heap → Res β) → Res β
  | .ok ([v], h), k => k v h
  | .ok _, _ => .stuck
  | .panic, _ => .panic
  | .stuck, _ => .stuck
  | .deep, _ => .deep

/-- Goes on with all values. -/
def many {β : Type} : Vals → (List Val → Heap → Res β) → Res β
  | .ok (vs, h), k => k vs h
  | .panic, _ => .panic
  | .stuck, _ => .stuck
  | .deep, _ => .deep

/-- A program. -/
abbrev Prog := List Decl

/-- A function. -/
structure Func where
  params : List Str
  var : Bool
  results : Exprs
  body : Stmts

/-- Finds a function. -/
def findFunc (x : Str) : Prog → Option Func
  | [] => none
  | .func y ps v rs b :: ds => if x = y then some ⟨ps, v, rs, b⟩ else findFunc x ds
  | _ :: ds => findFunc x ds

/-- Finds a package-level value. -/
def findVal (x : Str) : Prog → Option Expr
  | [] => none
  | .val y e :: ds => if x = y then some e else findVal x ds
  | _ :: ds => findVal x ds

/-- Pairs of names and types. -/
def pairs : List Str → Exprs → List (Str × Expr)
  | x :: xs, .cons t ts => (x, t) :: pairs xs ts
  | _, _ => []

/-- Finds a type declared in a block. -/
def localType (x : Str) : Stmts → Option (List (Str × Expr))
  | .cons (.typ y fs ts) k => if x = y then some (pairs fs ts) else localType x k
  | .cons _ k => localType x k
  | .nil => none

/-- Finds the fields of a struct type, declared at the top or in a function. -/
def findStruct (x : Str) : Prog → Option (List (Str × Expr))
  | [] => none
  | .struct y fs :: ds => if x = y then some fs else findStruct x ds
  | .func _ _ _ _ b :: ds =>
    match localType x b with
    | some fs => some fs
    | none => findStruct x ds
  | _ :: ds => findStruct x ds

/-- Finds the meaning of a type name. -/
def findAlias (x : Str) : Prog → Option Expr
  | [] => none
  | .alias y t :: ds => if x = y then some t else findAlias x ds
  | _ :: ds => findAlias x ds

/-- The zero value of a type; the number bounds the depth of structs in structs. -/
def zeroOf (P : Prog) : Nat → Expr → Val
  | 0, _ => .nil
  | n + 1, t =>
    match t with
    | .id x =>
      match findStruct x P with
      | some fs => .obj x (fs.map fun (f, t) => (f, zeroOf P n t))
      | none =>
        if x ∈ [c!"int", c!"uint32", c!"pegRule"] then .int 0 else if x = c!"string" then .str [] else if x = c!"bool" then .bool false else .nil
    | .un _ (.id x) => .nilp x
    | .sel (.id p) x => .obj (p ++ '.' :: x) [(c!"text", .str [])]
    | _ => .nil

/-- Looks up a variable. -/
def lget (x : Str) : Locals → Option (Slot Val)
  | [] => none
  | (y, v) :: l => if x = y then some v else lget x l

/-- Replaces the newest variable of a name. -/
def lset (x : Str) (v : Val) : Locals → Locals
  | [] => []
  | (y, w) :: l => if x = y then (y, .val v) :: l else (y, w) :: lset x v l

/-- Reads a variable. -/
def readVar (l : Locals) (h : Heap) (x : Str) : Option Val :=
  match lget x l with
  | some (.box a) => some (h.mem a)
  | some (.val v) => some v
  | none => none

/-- Declares a variable; the variables `caps` live in memory. -/
def declare (caps : List Str) (x : Str) (v : Val) (l : Locals) (h : Heap) : Locals × Heap :=
  if x = c!"_" then (l, h) else if x ∈ caps then ((x, .box h.next) :: l, h.alloc v) else ((x, .val v) :: l, h)

/-- Assigns to a variable. -/
def assignVar (x : Str) (v : Val) (l : Locals) (h : Heap) : Res (Locals × Heap) :=
  match lget x l with
  | some (.box a) => .ok (l, h.put a v)
  | some _ => .ok (lset x v l, h)
  | none => .stuck

/-- Leaves a block: only the variables that were there before remain. -/
def cut (n : Nat) (l : Locals) : Locals := l.drop (l.length - n)

/-- Looks up a field. -/
def fget (x : Str) : List (Str × Val) → Option Val
  | [] => none
  | (y, v) :: l => if x = y then some v else fget x l

/-- Sets a field. -/
def fset (x : Str) (v : Val) : List (Str × Val) → List (Str × Val)
  | [] => []
  | (y, w) :: l => if x = y then (y, v) :: l else (y, w) :: fset x v l

/-- The field at the end of a list of fields. -/
def getPath : Val → List Str → Option Val
  | v, [] => some v
  | .obj _ fs, f :: path =>
    match fget f fs with
    | some w => getPath w path
    | none => none
  | _, _ => none

/-- Sets the field at the end of a list of fields. -/
def setPath : Val → List Str → Val → Val
  | _, [], w => w
  | .obj ty fs, f :: path, w =>
    match fget f fs with
    | some v => .obj ty (fset f (setPath v path w) fs)
    | none => .obj ty fs
  | v, _, _ => v

/-- The type of a field of a struct type. -/
def fieldType (x : Str) : List (Str × Expr) → Option Expr
  | [] => none
  | (y, t) :: l => if x = y then some t else fieldType x l

/-- The field that is an embedded struct with a field `f`: it has the name of its type. -/
def promoted (P : Prog) (f : Str) : List (Str × Val) → Option Str
  | [] => none
  | (g, _) :: l => if ((findStruct g P).bind (fieldType f)).isSome then some g else promoted P f l

/-- How to get to a field: directly, or through an embedded struct. -/
def fieldPath (P : Prog) (f : Str) (fs : List (Str × Val)) : Option (List Str) :=
  if (fget f fs).isSome then some [f]
  else
    match promoted P f fs with
    | some g => some [g, f]
    | none => none

/-- Is this a struct? -/
def isObj : Val → Bool
  | .obj _ _ => true
  | _ => false

/-- `v.f`: a field or a method.  With the flag, a field that is a struct is given by a pointer to it. -/
def select (P : Prog) (b : Bool) (v : Val) (f : Str) (h : Heap) : Vals :=
  match v with
  | .nil => .panic
  | .nilp _ => .ok ([.meth v f], h)
  | .obj _ fs =>
    match (fieldPath P f fs).bind (getPath v) with
    | some w => .ok ([w], h)
    | none => .stuck
  | .ptr a path =>
    match getPath (h.mem a) path with
    | some (.obj ty fs) =>
      match fieldPath P f fs with
      | some fp =>
        match getPath (.obj ty fs) fp with
        | some w => .ok ([if b ∧ isObj w then .ptr a (path ++ fp) else w], h)
        | none => .stuck
      | none => .ok ([.meth v f], h)
    | _ => .stuck
  | _ => .stuck

/-- What a slice holds. -/
def view (h : Heap) : Val → Option (List Val)
  | .nil => some []
  | .sl a off len =>
    match h.mem a with
    | .arr l => some ((l.drop off).take len)
    | _ => none
  | _ => none

/-- Looks up an entry of a map. -/
def mget (k : Int) : List (Int × Val) → Option Val
  | [] => none
  | (j, v) :: l => if k = j then some v else mget k l

/-- The element at an index. -/
def nthVal (l : List Val) (i : Int) (h : Heap) : Vals :=
  if i < 0 then .panic
  else
    match l[i.toNat]? with
    | some w => .ok ([w], h)
    | none => .panic

/-- `v[k]`. -/
def index (v k : Val) (h : Heap) : Vals :=
  match v, k with
  | .arr l, .int i => nthVal l i h
  | .map z kvs, .int i => .ok ([(mget i kvs).getD z], h)
  | .rules env, .int i => .ok ([.rule i env], h)
  | v, .int i =>
    match view h v with
    | some l => nthVal l i h
    | none => .stuck
  | _, _ => .stuck

/-- `v[a:b]`; nil stands for a bound that is left out. -/
def slice (v a b : Val) (h : Heap) : Vals :=
  match (match v with | .nil => some (0, 0, 0) | .sl x off len => some (x, off, len) | _ => none),
      (match a with | .int i => some i | .nil => some 0 | _ => none), b with
  | some (x, off, len), some i, .int j =>
    if 0 ≤ i ∧ i ≤ j ∧ j ≤ len then .ok ([match v with | .nil => .nil | _ => .sl x (off + i.toNat) (j - i).toNat], h) else .panic
  | _, _, _ => .stuck

/-- Equality of values, as far as it is used. -/
def same : Val → Val → Option Bool
  | .int a, .int b => some (a = b)
  | .nil, .nil => some true
  | .nilp _, .nil => some true
  | .ptr _ _, .nil => some false
  | _, _ => none

/-- A truth value as a result. -/
def yes (b : Bool) (h : Heap) : Vals := .ok ([.bool b], h)

/-- Binary operators other than `&&` and `||`. -/
def binOp (o : Str) (a b : Val) (h : Heap) : Vals :=
  if o = c!"==" then match same a b with | some r => yes r h | none => .stuck
  else if o = c!"!=" then match same a b with | some r => yes (!r) h | none => .stuck
  else
    match a, b with
    | .int i, .int j =>
      if o = c!"-" then .ok ([.int (i - j)], h)
      else if o = c!"+" then .ok ([.int (i + j)], h)
      else if o = c!"*" then .ok ([.int (i * j)], h)
      else if o = c!"<" then yes (i < j) h
      else if o = c!">" then yes (j < i) h
      else if o = c!"<=" then yes (i ≤ j) h
      else if o = c!">=" then yes (j ≤ i) h
      else .stuck
    | .str s, .str t => if o = c!"+" then .ok ([.str (s ++ t)], h) else .stuck
    | _, _ => .stuck

/-- A slice with given elements; no elements give a nil slice with the flag. -/
def newSlice (l : List Val) (h : Heap) : Val × Heap := (.sl h.next 0 l.length, h.alloc (.arr l))

/-- The predeclared functions and types that are called. -/
def builtins : List Str := [c!"len", c!"append", c!"string", c!"int"]

/-- Is this a predeclared function, or the conversion `[]rune`? -/
def builtin (l : Locals) : Expr → Option Str
  | .id x => if x ∈ builtins ∧ (lget x l).isNone then some x else none
  | .arr _ => some c!"[]rune"
  | _ => none

/-- Runes as text. -/
def runes : List Val → Str
  | .int i :: l => Char.ofNat i.toNat :: runes l
  | _ => []

/-- Predeclared functions and conversions. -/
def runBuiltin (x : Str) (vs : List Val) (h : Heap) : Vals :=
  if x = c!"len" then
    match vs with
    | [v] => match view h v with | some l => .ok ([.int l.length], h) | none => .stuck
    | _ => .stuck
  else if x = c!"append" then
    match vs with
    | v :: ws => match view h v with | some l => .ok ([(newSlice (l ++ ws) h).1], (newSlice (l ++ ws) h).2) | none => .stuck
    | _ => .stuck
  else if x = c!"string" then
    match vs with
    | [v] => match view h v with | some l => .ok ([.str (runes l)], h) | none => .stuck
    | _ => .stuck
  else if x = c!"int" then
    match vs with
    | [.int i] => .ok ([.int i], h)
    | _ => .stuck
  else if x = c!"[]rune" then
    match vs with
    | [.str s] => .ok ([(newSlice (s.map fun c => .int c.toNat) h).1], (newSlice (s.map fun c => .int c.toNat) h).2)
    | _ => .stuck
  else .stuck

/-- Is a capacity given that is smaller than the length? -/
def capBelow (n : Int) : List Val → Bool
  | .int c :: _ => c < n
  | _ => false

/-- `make(T, n, …)`. -/
def mkValue (P : Prog) (t : Expr) (vs : List Val) (h : Heap) : Vals :=
  match t, vs with
  | .arr t, .int n :: cs => if n < 0 ∨ capBelow n cs then .panic else
    .ok ([(newSlice (List.replicate n.toNat (zeroOf P 3 t)) h).1], (newSlice (List.replicate n.toNat (zeroOf P 3 t)) h).2)
  | .id x, _ =>
    match findAlias x P with
    | some (.map _ z) => .ok ([.map (zeroOf P 3 z) []], h)
    | _ => .stuck
  | _, _ => .stuck

/-- The package that an expression names. -/
def pkgOf (P : Prog) (l : Locals) : Expr → Option Str
  | .id x => if (lget x l).isNone ∧ (findVal x P).isNone then some x else none
  | _ => none

/-- The fields of a struct literal: by name, or in the order of the declaration. -/
def litFields (decl : List (Str × Val)) : Exprs → List Val → List (Str × Val)
  | .cons (.id f) ks, v :: vs => litFields (fset f v decl) ks vs
  | .cons .no ks, v :: vs =>
    match decl with
    | (f, _) :: decl => (f, v) :: litFields decl ks vs
    | [] => []
  | _, _ => decl

/-- A struct with some fields set. -/
def setFields (z : Val) (ks : Exprs) (vs : List Val) : Val :=
  match z with
  | .obj ty decl => .obj ty (litFields decl ks vs)
  | v => v

section
variable (P : Prog) (C : Val → List Val → Bool → Heap → Vals)

mutual
/-- Evaluates an expression.  `C` is what calls do.  With the flag, a variable that is a struct in memory is given by a pointer to it. -/
def ev (l : Locals) : Bool → Expr → Heap → Vals
  | _, .no, h => .ok ([.nil], h)
  | b, .id x, h =>
    match lget x l with
    | some (.box a) => .ok ([if b ∧ isObj (h.mem a) then .ptr a [] else h.mem a], h)
    | some (.val v) => .ok ([v], h)
    | none =>
      if x = c!"nil" then .ok ([.nil], h) else if x = c!"true" then yes true h else if x = c!"false" then yes false h
      else C (.glob x) [] false h
  | _, .int n, h => .ok ([.int n], h)
  | _, .str s, h => .ok ([.str s], h)
  | _, .chr c, h => .ok ([.int c.toNat], h)
  | b, .sel e f, h =>
    match pkgOf P l e with
    | some p => .ok ([.lib (p ++ '.' :: f)], h)
    | none => one (ev l true e h) fun v h => select P b v f h
  | _, .idx e i, h => one (ev l false e h) fun v h => one (ev l false i h) fun k h => index v k h
  | _, .slc e a b, h => one (ev l false e h) fun v h => one (ev l false a h) fun i h => one (ev l false b h) fun j h => slice v i j h
  | _, .call f args sp, h =>
    match builtin l f with
    | some b => many (evs l args h) fun vs h => runBuiltin b vs h
    | none =>
      match f, args with
      | .id ['m', 'a', 'k', 'e'], .cons t args => many (evs l args h) fun vs h => mkValue P t vs h
      | f, args => one (ev l false f h) fun fv h => many (evs l args h) fun vs h => C fv vs sp h
  | _, .un o e, h =>
    if o = c!"&" then
      match e with
      | .id x =>
        match lget x l with
        | some (.box a) => .ok ([.ptr a []], h)
        | _ => .stuck
      | e => one (ev l false e h) fun v h => .ok ([.ptr h.next []], h.alloc v)
    else one (ev l false e h) fun v h => if o = c!"!" then match v with | .bool b => yes (!b) h | _ => .stuck else .stuck
  | _, .bin o a b, h =>
    if o = c!"&&" then one (ev l false a h) fun v h => match v with | .bool true => ev l false b h | .bool false => yes false h | _ => .stuck
    else if o = c!"||" then one (ev l false a h) fun v h => match v with | .bool false => ev l false b h | .bool true => yes true h | _ => .stuck
    else one (ev l false a h) fun v h => one (ev l false b h) fun w h => binOp o v w h
  | _, .lit t ks vs, h =>
    match t with
    | .fix (.id ['f', 'u', 'n', 'c']) => .ok ([.rules l], h)
    | .fix _ => many (evs l vs h) fun ws h => .ok ([.arr ws], h)
    | .arr _ => many (evs l vs h) fun ws h => .ok ([(newSlice ws h).1], (newSlice ws h).2)
    | t => many (evs l vs h) fun ws h => .ok ([setFields (zeroOf P 3 t) ks ws], h)
  | _, .fn ps v rs b, h => .ok ([.clo ps v rs b l], h)
  | _, .arr _, _ => .stuck
  | _, .fix _, _ => .stuck
  | _, .map _ _, _ => .stuck

/-- Evaluates expressions one after the other. -/
def evs (l : Locals) : Exprs → Heap → Vals
  | .nil, h => .ok ([], h)
  | .cons e es, h => one (ev l false e h) fun v h => many (evs l es h) fun vs h => .ok (v :: vs, h)
end

/-- How a statement ends. -/
inductive Flow where
  | norm
  | ret (vs : List Val)
  | brk (label : Str)
  | cont (label : Str)

/-- After a statement: how it ended, the variables, the memory. -/
abbrev Done := Res (Flow × Locals × Heap)

/-- Goes on after a statement that ended normally. -/
def next : Done → (Locals → Heap → Done) → Done
  | .ok (.norm, l, h), k => k l h
  | r, _ => r

/-- Leaves a block. -/
def leave (n : Nat) : Done → Done
  | .ok (f, l, h) => .ok (f, cut n l, h)
  | r => r

/-- `x, y := …`: a variable that the block already has is assigned, the others are new.  `base` is the number of variables outside the block. -/
def defineAll (caps : List Str) (base : Nat) : List Str → List Val → Locals → Heap → Done
  | [], [], l, h => .ok (.norm, l, h)
  | x :: xs, v :: vs, l, h =>
    if (lget x (l.take (l.length - base))).isSome then
      match assignVar x v l h with
      | .ok (l, h) => defineAll caps base xs vs l h
      | _ => .stuck
    else defineAll caps base xs vs (declare caps x v l h).1 (declare caps x v l h).2
  | _, _, _, _ => .stuck

/-- `var x, y T`. -/
def varAll (caps : List Str) : List Str → Exprs → Locals → Heap → Locals × Heap
  | x :: xs, .cons t ts, l, h => varAll caps xs ts (declare caps x (zeroOf P 3 t) l h).1 (declare caps x (zeroOf P 3 t) l h).2
  | _, _, l, h => (l, h)

/-- Sets an element of a slice. -/
def setElem (v : Val) (i : Int) (w : Val) (h : Heap) : Res Heap :=
  match v with
  | .sl a off len =>
    match h.mem a with
    | .arr l => if 0 ≤ i ∧ i < len then .ok (h.put a (.arr (l.set (off + i.toNat) w))) else .panic
    | _ => .stuck
  | .nil => .panic
  | _ => .stuck

/-- Assigns to a variable, a field, an element of a slice, or an entry of a map. -/
def assign1 (e : Expr) (v : Val) (l : Locals) (h : Heap) : Res (Locals × Heap) :=
  match e with
  | .id x => assignVar x v l h
  | .sel e f =>
    one (ev P C l true e h) fun p h =>
      match p with
      | .ptr a path =>
        match getPath (h.mem a) path with
        | some (.obj _ fs) =>
          match fieldPath P f fs with
          | some fp => .ok (l, h.put a (setPath (h.mem a) (path ++ fp) v))
          | none => .stuck
        | _ => .stuck
      | .nil => .panic
      | .nilp _ => .panic
      | _ => .stuck
  | .idx e i =>
    one (ev P C l false e h) fun s h => one (ev P C l false i h) fun k h =>
      match s, e, k with
      | .map z kvs, .id x, .int i => assignVar x (.map z ((i, v) :: kvs)) l h
      | s, _, .int i =>
        match setElem s i v h with
        | .ok h => .ok (l, h)
        | .panic => .panic
        | .stuck => .stuck
        | .deep => .deep
      | _, _, _ => .stuck
  | _ => .stuck

/-- Assigns values one after the other. -/
def assignAll : Exprs → List Val → Locals → Heap → Done
  | .nil, [], l, h => .ok (.norm, l, h)
  | .cons e es, v :: vs, l, h =>
    match assign1 P C e v l h with
    | .ok (l, h) => assignAll es vs l h
    | .panic => .panic
    | .stuck => .stuck
    | .deep => .deep
  | _, _, _, _ => .stuck

/-- The loop `for i, v := range items`. -/
def rangeLoop (lab : Str) (body : Nat → Val → Locals → Heap → Done) : Nat → List Val → Locals → Heap → Done
  | _, [], l, h => .ok (.norm, l, h)
  | i, v :: vs, l, h =>
    match body i v l h with
    | .ok (.norm, l, h) => rangeLoop lab body (i + 1) vs l h
    | .ok (.cont x, l, h) => if x = [] ∨ x = lab then rangeLoop lab body (i + 1) vs l h else .ok (.cont x, l, h)
    | .ok (.brk x, l, h) => if x = [] ∨ x = lab then .ok (.norm, l, h) else .ok (.brk x, l, h)
    | r => r

/-- One round of `for k, v := range …`. -/
def rangeBody (caps : List Str) (k v : Str) (run : Nat → Locals → Heap → Done) (i : Nat) (w : Val) (l : Locals) (h : Heap) : Done :=
  leave l.length (run l.length
    (declare caps v w (declare caps k (.int i) l h).1 (declare caps k (.int i) l h).2).1
    (declare caps v w (declare caps k (.int i) l h).1 (declare caps k (.int i) l h).2).2)

/-- The loop `for …; c; post { … }`, with a bound on the number of rounds. -/
def whileLoop (lab : Str) (cond : Locals → Heap → Vals) (post body : Locals → Heap → Done) : Nat → Locals → Heap → Done
  | 0, _, _ => .deep
  | n + 1, l, h =>
    one (cond l h) fun c h =>
      match c with
      | .bool true =>
        match body l h with
        | .ok (.norm, l, h) => next (post l h) fun l h => whileLoop lab cond post body n l h
        | .ok (.cont x, l, h) =>
          if x = [] ∨ x = lab then next (post l h) fun l h => whileLoop lab cond post body n l h else .ok (.cont x, l, h)
        | .ok (.brk x, l, h) => if x = [] ∨ x = lab then .ok (.norm, l, h) else .ok (.brk x, l, h)
        | r => r
      | .bool false => .ok (.norm, l, h)
      | _ => .stuck

variable (F : Nat)

mutual
/-- Runs a statement.  `F` bounds the rounds of a loop. -/
def exec (caps : List Str) : Stmt → Nat → Locals → Heap → Done
  | .expr e, _, l, h => many (ev P C l false e h) fun _ h => .ok (.norm, l, h)
  | .define xs r, base, l, h => many (evs P C l r h) fun vs h => defineAll caps base xs vs l h
  | .assign ls r, _, l, h => many (evs P C l r h) fun vs h => assignAll P C ls vs l h
  | .var xs ts, _, l, h => .ok (.norm, varAll P caps xs ts l h)
  | .typ _ _ _, _, l, h => .ok (.norm, l, h)
  | .ret es, _, l, h => many (evs P C l es h) fun vs h => .ok (.ret vs, l, h)
  | .ite c t e, _, l, h =>
    one (ev P C l false c h) fun v h =>
      match v with
      | .bool true => leave l.length (execs caps t l.length l h)
      | .bool false => leave l.length (execs caps e l.length l h)
      | _ => .stuck
  | .range lab k v e body, _, l, h =>
    one (ev P C l false e h) fun items h =>
      match view h items with
      | some vs => rangeLoop lab (rangeBody caps k v (execs caps body)) 0 vs l h
      | none => .stuck
  | .loop lab init c post body, _, l, h =>
    leave l.length (next (execs caps init l.length l h) fun l h =>
      whileLoop lab (fun l h => ev P C l false c h) (fun l h => execs caps post l.length l h)
        (fun l h => leave l.length (execs caps body l.length l h)) F l h)
  | .brk x, _, l, h => .ok (.brk x, l, h)
  | .cont x, _, l, h => .ok (.cont x, l, h)

/-- Runs the statements of a block. -/
def execs (caps : List Str) : Stmts → Nat → Locals → Heap → Done
  | .nil, _, l, h => .ok (.norm, l, h)
  | .cons s k, base, l, h => next (exec caps s base l h) fun l h => execs caps k base l h
end
end

mutual
/-- The names in an expression that occur in function literals, whose address is taken, or that are receivers; the flag says whether we are in a
function literal. -/
def capE (b : Bool) : Expr → List Str
  | .id x => if b then [x] else []
  | .sel e _ => capE b e
  | .idx e i => capE b e ++ capE b i
  | .slc e x y => capE b e ++ capE b x ++ capE b y
  | .call (.sel (.id x) _) as _ => x :: capEs b as
  | .call f as _ => capE b f ++ capEs b as
  | .un o (.id x) => if o = c!"&" ∨ b then [x] else []
  | .un _ e => capE b e
  | .bin _ x y => capE b x ++ capE b y
  | .lit _ _ vs => capEs b vs
  | .fn _ _ _ body => capSs true body
  | _ => []
/-- Names in expressions. -/
def capEs (b : Bool) : Exprs → List Str
  | .nil => []
  | .cons e es => capE b e ++ capEs b es
/-- Names in a statement. -/
def capS (b : Bool) : Stmt → List Str
  | .expr e => capE b e
  | .define _ r => capEs b r
  | .assign l r => capEs b l ++ capEs b r
  | .ret es => capEs b es
  | .ite c t e => capE b c ++ capSs b t ++ capSs b e
  | .range _ _ _ e body => capE b e ++ capSs b body
  | .loop _ i c p body => capSs b i ++ capE b c ++ capSs b p ++ capSs b body
  | _ => []
/-- Names in a block. -/
def capSs (b : Bool) : Stmts → List Str
  | .nil => []
  | .cons s k => capS b s ++ capSs b k
end

/-- Declares the parameters of a function; the last one may take the remaining arguments as a slice. -/
def bindParams (caps : List Str) (var sp : Bool) : List Str → List Val → Locals → Heap → Locals × Heap
  | [], _, l, h => (l, h)
  | [x], vs, l, h =>
    if var ∧ ¬ sp then
      match vs with
      | [] => declare caps x .nil l h
      | vs => declare caps x (newSlice vs h).1 l (newSlice vs h).2
    else declare caps x (vs.headD .nil) l h
  | x :: xs, vs, l, h => bindParams caps var sp xs vs.tail (declare caps x (vs.headD .nil) l h).1 (declare caps x (vs.headD .nil) l h).2

/-- A result as a value of the type of the result: nil becomes a nil pointer. -/
def coerce : Exprs → List Val → List Val
  | .cons (.un _ (.id t)) .nil, [.nil] => [.nilp t]
  | _, vs => vs

/-- What a function returns when its body has ended. -/
def finish (rs : Exprs) : Done → Vals
  | .ok (.ret vs, _, h) => .ok (coerce rs vs, h)
  | .ok (.norm, _, h) => .ok ([], h)
  | .ok _ => .stuck
  | .panic => .panic
  | .stuck => .stuck
  | .deep => .deep

/-- Runs a function body. -/
def runBody (P : Prog) (C : Val → List Val → Bool → Heap → Vals) (F : Nat) (ps : List Str) (var : Bool) (rs : Exprs) (body : Stmts) (env : Locals)
    (args : List Val) (sp : Bool) (h : Heap) : Vals :=
  finish rs (execs P C F (capSs false body) body env.length (bindParams (capSs false body) var sp ps args env h).1
    (bindParams (capSs false body) var sp ps args env h).2)

/-- What calls outside the text do: functions of other packages, and the rule functions. -/
structure Lib where
  fn : Str → List Val → Heap → Vals
  rule : Int → Locals → Heap → Vals

/-- The field that is an embedded struct whose type has the method `m`: it has the name of its type. -/
def methodIn (P : Prog) (m : Str) : List (Str × Val) → Option Str
  | [] => none
  | (g, _) :: l => if (findFunc (g ++ '.' :: m) P).isSome then some g else methodIn P m l

/-- The type of a receiver and its fields. -/
def recvType (h : Heap) : Val → Option (Str × List (Str × Val))
  | .nilp ty => some (ty, [])
  | .ptr a path =>
    match getPath (h.mem a) path with
    | some (.obj ty fs) => some (ty, fs)
    | _ => none
  | _ => none

/-- Calls a method: of the type of the receiver, of an embedded struct, or of the library. -/
def runMeth (P : Prog) (L : Lib) (C : Val → List Val → Bool → Heap → Vals) (F : Nat) (v : Val) (m : Str) (args : List Val) (sp : Bool) (h : Heap) : Vals :=
  match recvType h v with
  | none => .stuck
  | some (ty, fs) =>
    match findFunc (ty ++ '.' :: m) P with
    | some f => runBody P C F f.params f.var f.results f.body [] (v :: args) sp h
    | none =>
      match methodIn P m fs, v with
      | some g, .ptr a path => C (.meth (.ptr a (path ++ [g])) m) args sp h
      | _, _ => L.fn (ty ++ '.' :: m) (v :: args) h

/-- Calls a function value; the flag says that the last argument is spread out.  A top-level name is called without arguments to get its value.  The
number bounds the depth of calls and the rounds of loops. -/
def call (P : Prog) (L : Lib) : Nat → Val → List Val → Bool → Heap → Vals
  | 0, _, _, _, _ => .deep
  | n + 1, f, args, sp, h =>
    match f with
    | .glob x =>
      match findVal x P with
      | some e => ev P (call P L n) [] false e h
      | none => .ok ([.fn x], h)
    | .fn x =>
      match findFunc x P with
      | some f => runBody P (call P L n) n f.params f.var f.results f.body [] args sp h
      | none => .stuck
    | .meth v m => runMeth P L (call P L n) n v m args sp h
    | .clo ps v rs b env => runBody P (call P L n) n ps v rs b env args sp h
    | .rule k env => L.rule k env h
    | .lib x => L.fn x args h
    | .nil => .panic
    | _ => .stuck

end Verif.Gen
