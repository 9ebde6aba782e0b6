import Verif.Mini.Ast

/-!
# Go programs: what they do

An interpreter for the programs of `Verif.Mini.Ast`.

* `panic`: a run-time panic; `stuck`: something that no run of the modelled files does (an ill-typed step, an operation that is not modelled);
  `deep`: the bound on the depth of calls was too small.
* Variables that occur in a function literal live in memory, so that function literals share them (`Slot.box`); other variables live in the list of
  local variables.
* A struct of one of the types `Prog.cells` lives in memory and is handled through its address (`Val.ptr`).  The files never copy such a struct.  Other
  structs are values; the files never change a field of such a struct through a pointer, so a pointer to it is represented by its content.
* A slice is represented by its content (see C68 for slices that share memory), a map by its entries.
* Named results start as nil: all of them have interface or pointer types.
* Calls that leave the program go to the library `Lib`.
-/

namespace Verif.Mini

/-- What a variable holds: its value, or the address where its value is. -/
inductive Slot (α : Type) where
  | val (v : α)
  | box (a : Nat)
  deriving Inhabited

/-- Values. -/
inductive Val where
  | nil
  | int (i : Int)
  | str (s : Str)
  | bool (b : Bool)
  | slice (l : List Val)
  /-- A map: the value of absent keys, the entries. -/
  | map (zero : Val) (kvs : List (Str × Val))
  /-- A struct or a pointer to it: the fields that were set; the others are zero. -/
  | obj (ty : Str) (fs : List (Str × Val))
  /-- The address of a struct. -/
  | ptr (a : Nat)
  /-- A function literal with the variables around it. -/
  | clo (params results : List Str) (body : Stmts) (env : List (Str × Slot Val))
  /-- A method with its receiver. -/
  | meth (recv : Val) (name : Str)
  /-- A function of the program. -/
  | fn (name : Str)
  /-- A name declared at the top of a package. -/
  | glob (x : Str)
  /-- A name of a library. -/
  | lib (name : Str)
  deriving Inhabited

/-- Local variables, the newest first. -/
abbrev Locals := List (Str × Slot Val)

/-- Memory: the next free address and the contents. -/
structure Heap where
  next : Nat
  mem : Nat → Val

/-- Changes a cell. -/
def Heap.put (h : Heap) (a : Nat) (v : Val) : Heap := { h with mem := fun b => if b = a then v else h.mem b }

/-- Takes a new cell. -/
def Heap.alloc (h : Heap) (v : Val) : Heap := { next := h.next + 1, mem := fun b => if b = h.next then v else h.mem b }

/-- Outcomes. -/
inductive Res (α : Type) where
  | ok (a : α)
  | panic
  | stuck
  | deep

/-- Values after an evaluation. -/
abbrev Vals := Res (List Val × Heap)

/-- Goes on with one value. -/
def one {β : Type} : Vals → (Val → Heap → Res β) → Res β
  | .ok ([v], h), k => k v h
  | .ok _, _ => .stuck
  | .panic, _ => .panic
  | .stuck, _ => .stuck
  | .deep, _ => .deep

/-- Goes on with all values. -/
def many {β : Type} : Vals → (List Val → Heap → Res β) → Res β
  | .ok (vs, h), k => k vs h
  | .panic, _ => .panic
  | .stuck, _ => .stuck
  | .deep, _ => .deep

/-- A program: its declarations and the struct types that live in memory. -/
structure Prog where
  decls : List Decl
  cells : List Str

/-- A function. -/
structure Func where
  ptr : Bool
  params : List Str
  results : List Str
  body : Stmts

/-- Finds a function. -/
def findFunc (x : Str) : List Decl → Option Func
  | [] => none
  | .func y p ps rs b :: ds => if x = y then some ⟨p, ps, rs, b⟩ else findFunc x ds
  | _ :: ds => findFunc x ds

/-- Finds a package-level value. -/
def findVal (x : Str) : List Decl → Option Expr
  | [] => none
  | .val y e :: ds => if x = y then some e else findVal x ds
  | _ :: ds => findVal x ds

/-- Finds the fields of a struct type. -/
def findStruct (x : Str) : List Decl → Option (List (Str × Expr))
  | [] => none
  | .struct y fs :: ds => if x = y then some fs else findStruct x ds
  | _ :: ds => findStruct x ds

/-- Finds the meaning of a type name. -/
def findAlias (x : Str) : List Decl → Option Expr
  | [] => none
  | .alias y t :: ds => if x = y then some t else findAlias x ds
  | _ :: ds => findAlias x ds

/-- Is this the name of an imported package? -/
def findPkg (x : Str) : List Decl → Bool
  | [] => false
  | .pkg y :: ds => if x = y then true else findPkg x ds
  | _ :: ds => findPkg x ds

/-- The zero value of a predeclared type. -/
def zeroBase (x : Str) : Val :=
  if x = c!"string" then .str [] else if x = c!"int" ∨ x = c!"float64" then .int 0 else if x = c!"bool" then .bool false else .nil

/-- The zero value of a type. -/
def zeroOf (P : Prog) : Expr → Val
  | .id x =>
    match findAlias x P.decls with
    | some (.id y) => zeroBase y
    | some _ => .nil
    | none => zeroBase x
  | .arr _ => .slice []
  | _ => .nil

/-- Looks up a variable. -/
def lget (x : Str) : Locals → Option (Slot Val)
  | [] => none
  | (y, v) :: l => if x = y then some v else lget x l

/-- Replaces the newest variable of a name. -/
def lset (x : Str) (v : Val) : Locals → Locals
  | [] => []
  | (y, w) :: l => if x = y then (y, .val v) :: l else (y, w) :: lset x v l

/-- Reads a variable. -/
def readVar (l : Locals) (h : Heap) (x : Str) : Option Val :=
  match lget x l with
  | some (.box a) => some (h.mem a)
  | some (.val v) => some v
  | none => none

/-- Declares a variable; the variables `caps` live in memory. -/
def declare (caps : List Str) (x : Str) (v : Val) (l : Locals) (h : Heap) : Locals × Heap :=
  if x = c!"_" then (l, h) else if x ∈ caps then ((x, .box h.next) :: l, h.alloc v) else ((x, .val v) :: l, h)

/-- Assigns to a variable. -/
def assignVar (x : Str) (v : Val) (l : Locals) (h : Heap) : Res (Locals × Heap) :=
  if x = c!"_" then .ok (l, h)
  else
    match lget x l with
    | some (.box a) => .ok (l, h.put a v)
    | some _ => .ok (lset x v l, h)
    | none => .stuck

/-- Leaves a block: only the variables that were there before remain. -/
def cut (n : Nat) (l : Locals) : Locals := l.drop (l.length - n)

/-- Looks up an entry of a struct or of a map. -/
def fget (x : Str) : List (Str × Val) → Option Val
  | [] => none
  | (y, v) :: l => if x = y then some v else fget x l

/-- Sets an entry. -/
def fset (x : Str) (v : Val) : List (Str × Val) → List (Str × Val)
  | [] => [(x, v)]
  | (y, w) :: l => if x = y then (y, v) :: l else (y, w) :: fset x v l

/-- The type of a field of a struct type. -/
def fieldType (x : Str) : List (Str × Expr) → Option Expr
  | [] => none
  | (y, t) :: l => if x = y then some t else fieldType x l

/-- The embedded field through which a struct type has the field `f`. -/
def embedded (P : Prog) (f : Str) : List (Str × Expr) → Option Str
  | [] => none
  | (y, t) :: l =>
    if t = .un c!"*" (.id y) ∧ ((findStruct y P.decls).bind (fieldType f)).isSome then some y
    else embedded P f l

/-- A field of a struct of a type, if the type declares it. -/
def ownField (P : Prog) (ty : Str) (fs : List (Str × Val)) (f : Str) : Option Val :=
  match fget f fs with
  | some v => some v
  | none => ((findStruct ty P.decls).bind (fieldType f)).map (zeroOf P)

/-- The struct behind a value. -/
def structOf (h : Heap) : Val → Option (Str × List (Str × Val))
  | .obj ty fs => some (ty, fs)
  | .ptr a =>
    match h.mem a with
    | .obj ty fs => some (ty, fs)
    | _ => none
  | _ => none

/-- `v.f`: a field, a field of an embedded struct, or a method. -/
def select (P : Prog) (v : Val) (f : Str) (h : Heap) : Vals :=
  match v with
  | .nil => .panic
  | v =>
    match structOf h v with
    | none => .ok ([.meth v f], h)
    | some (ty, fs) =>
      match ownField P ty fs f with
      | some w => .ok ([w], h)
      | none =>
        match (findStruct ty P.decls).bind (embedded P f) with
        | none => .ok ([.meth v f], h)
        | some g =>
          match (ownField P ty fs g).bind (structOf h) with
          | some (ty', fs') =>
            match ownField P ty' fs' f with
            | some w => .ok ([w], h)
            | none => .stuck
          | none => .panic

/-- `v[k]` with the flag of the form `w, ok := v[k]`. -/
def index (v k : Val) (h : Heap) : Vals :=
  match v, k with
  | .slice l, .int i =>
    if i < 0 then .panic
    else
      match l[i.toNat]? with
      | some w => .ok ([w, .bool true], h)
      | none => .panic
  | .map z kvs, .str s =>
    match fget s kvs with
    | some w => .ok ([w, .bool true], h)
    | none => .ok ([z, .bool false], h)
  | _, _ => .stuck

/-- The first of several values. -/
def first : Vals → Vals
  | .ok (v :: _, h) => .ok ([v], h)
  | .ok ([], _) => .stuck
  | r => r

/-- `v[a:b]`; nil stands for a bound that is left out.  Slicing beyond the length but within the capacity does not occur. -/
def slice (v a b : Val) (h : Heap) : Vals :=
  match v with
  | .slice l =>
    match (match a with | .int i => some i | .nil => some 0 | _ => none), (match b with | .int i => some i | .nil => some (l.length : Int) | _ => none) with
    | some i, some j => if 0 ≤ i ∧ i ≤ j ∧ j ≤ l.length then .ok ([.slice ((l.take j.toNat).drop i.toNat)], h) else .panic
    | _, _ => .stuck
  | _ => .stuck

/-- Equality of values, as far as it is used: with nil, and between texts, numbers, truth values and names of a library. -/
def same : Val → Val → Option Bool
  | .str a, .str b => some (a = b)
  | .int a, .int b => some (a = b)
  | .bool a, .bool b => some (a = b)
  | .lib a, .lib b => some (a = b)
  | .slice _, _ => none
  | _, .slice _ => none
  | .nil, .nil => some true
  | .nil, _ => some false
  | _, .nil => some false
  | _, _ => none

/-- A truth value as a result. -/
def yes (b : Bool) (h : Heap) : Vals := .ok ([.bool b], h)

/-- Binary operators other than `&&` and `||`. -/
def binOp (o : Str) (a b : Val) (h : Heap) : Vals :=
  if o = c!"==" then match same a b with | some r => yes r h | none => .stuck
  else if o = c!"!=" then match same a b with | some r => yes (!r) h | none => .stuck
  else
    match a, b with
    | .int i, .int j =>
      if o = c!"-" then .ok ([.int (i - j)], h)
      else if o = c!"+" then .ok ([.int (i + j)], h)
      else if o = c!"<" then yes (i < j) h
      else if o = c!">" then yes (j < i) h
      else .stuck
    | .str s, .str t => if o = c!"+" then .ok ([.str (s ++ t)], h) else .stuck
    | _, _ => .stuck

/-- The predeclared functions that are used. -/
def builtins : List Str := [c!"len", c!"append", c!"make", c!"string", c!"int", c!"panic", c!"copy"]

/-- Is this a predeclared function? -/
def builtin (l : Locals) : Expr → Option Str
  | .id x => if x ∈ builtins ∧ (lget x l).isNone then some x else none
  | _ => none

/-- The arguments with the last one spread out. -/
def spreadArgs : Bool → List Val → List Val
  | false, vs => vs
  | true, vs =>
    match vs.getLast? with
    | some (.slice l) => vs.dropLast ++ l
    | _ => vs

/-- A slice of runes as text. -/
def runes : List Val → Str
  | .int i :: l => Char.ofNat i.toNat :: runes l
  | _ => []

/-- Predeclared functions.  A type is evaluated to a sample of its values: a slice type to a slice that holds the zero value of its elements. -/
def runBuiltin (x : Str) (vs : List Val) (h : Heap) : Vals :=
  if x = c!"len" then
    match vs with
    | [.slice l] => .ok ([.int l.length], h)
    | [.str s] => .ok ([.int s.length], h)
    | _ => .stuck
  else if x = c!"append" then
    match vs with
    | .slice l :: ws => .ok ([.slice (l ++ ws)], h)
    | _ => .stuck
  else if x = c!"make" then
    match vs with
    | [.slice [z], .int n] => if n < 0 then .panic else .ok ([.slice (List.replicate n.toNat z)], h)
    | [.slice [z], .int n, .int m] => if n < 0 ∨ m < n then .panic else .ok ([.slice (List.replicate n.toNat z)], h)
    | _ => .stuck
  else if x = c!"string" then
    match vs with
    | [.str s] => .ok ([.str s], h)
    | [.slice l] => .ok ([.str (runes l)], h)
    | _ => .stuck
  else if x = c!"int" then
    match vs with
    | [.int i] => .ok ([.int i], h)
    | _ => .stuck
  else if x = c!"panic" then .panic
  else .stuck

/-- The package that an expression names. -/
def pkgOf (P : Prog) (l : Locals) : Expr → Option Str
  | .id x => if (lget x l).isNone ∧ findPkg x P.decls then some x else none
  | _ => none

/-- The name of a type. -/
def typeName : Expr → Str
  | .id x => x
  | .sel (.id p) x => p ++ c!"." ++ x
  | .un o t => o ++ typeName t
  | .arr t => c!"[]" ++ typeName t
  | _ => c!"?"

/-- The fields of a struct literal: by name, or in the order of the declaration. -/
def litFields (decl : List (Str × Expr)) : Exprs → List Val → List (Str × Val)
  | .cons (.id f) ks, v :: vs => (f, v) :: litFields decl ks vs
  | .cons .no ks, v :: vs =>
    match decl with
    | (f, _) :: decl => (f, v) :: litFields decl ks vs
    | [] => []
  | _, _ => []

/-- All fields of a struct, in the order of the declaration. -/
def allFields (P : Prog) (fs : List (Str × Val)) : List (Str × Expr) → List (Str × Val)
  | [] => []
  | (f, t) :: decl => (f, (fget f fs).getD (zeroOf P t)) :: allFields P fs decl

/-- A struct literal. -/
def mkStruct (P : Prog) (ty : Str) (fs : List (Str × Val)) (h : Heap) : Vals :=
  if ty ∈ P.cells then
    .ok ([.ptr h.next], h.alloc (.obj ty (match findStruct ty P.decls with | some decl => allFields P fs decl | none => fs)))
  else .ok ([.obj ty fs], h)

/-- The entries of a map literal. -/
def mapEntries : List Val → List Val → List (Str × Val)
  | .str k :: ks, v :: vs => (k, v) :: mapEntries ks vs
  | _, _ => []

section
variable (P : Prog) (C : Val → List Val → Heap → Vals)

mutual
/-- Evaluates an expression: all values of a call, one value otherwise.  `C` is what calls do. -/
def ev (l : Locals) : Expr → Heap → Vals
  | .no, h => .ok ([.nil], h)
  | .id x, h =>
    match readVar l h x with
    | some v => .ok ([v], h)
    | none =>
      if x = c!"nil" then .ok ([.nil], h) else if x = c!"true" then yes true h else if x = c!"false" then yes false h
      else C (.glob x) [] h
  | .int n, h => .ok ([.int n], h)
  | .str s, h => .ok ([.str s], h)
  | .chr c, h => .ok ([.int c.toNat], h)
  | .sel e f, h =>
    match pkgOf P l e with
    | some p => C (.glob (p ++ '.' :: f)) [] h
    | none => one (ev l e h) fun v h => select P v f h
  | .idx e i, h => first (one (ev l e h) fun v h => one (ev l i h) fun k h => index v k h)
  | .slc e a b, h => one (ev l e h) fun v h => one (ev l a h) fun i h => one (ev l b h) fun j h => slice v i j h
  | .call f args sp, h =>
    match builtin l f with
    | some b => many (evs l args h) fun vs h => runBuiltin b (spreadArgs sp vs) h
    | none => one (ev l f h) fun fv h => many (evs l args h) fun vs h => C fv (spreadArgs sp vs) h
  | .un o e, h =>
    one (ev l e h) fun v h =>
      if o = c!"&" then .ok ([v], h)
      else if o = c!"!" then match v with | .bool b => yes (!b) h | _ => .stuck
      else if o = c!"-" then match v with | .int i => .ok ([.int (-i)], h) | _ => .stuck
      else .stuck
  | .bin o a b, h =>
    if o = c!"&&" then one (ev l a h) fun v h => match v with | .bool true => ev l b h | .bool false => yes false h | _ => .stuck
    else if o = c!"||" then one (ev l a h) fun v h => match v with | .bool false => ev l b h | .bool true => yes true h | _ => .stuck
    else one (ev l a h) fun v h => one (ev l b h) fun w h => binOp o v w h
  | .lit t ks vs, h =>
    match t with
    | .arr _ => many (evs l vs h) fun ws h => .ok ([.slice ws], h)
    | .map _ z => many (evs l ks h) fun us h => many (evs l vs h) fun ws h => .ok ([.map (zeroOf P z) (mapEntries us ws)], h)
    | t => many (evs l vs h) fun ws h => mkStruct P (typeName t) (litFields ((findStruct (typeName t) P.decls).getD []) ks ws) h
  | .cast e t, h => one (ev l e h) fun v h => C (.lib (c!".(" ++ typeName t ++ c!")")) [v] h
  | .fn ps rs b, h => .ok ([.clo ps rs b l], h)
  | .arr t, h => .ok ([.slice [zeroOf P t]], h)
  | .map _ t, h => .ok ([.map (zeroOf P t) []], h)

/-- Evaluates expressions one after the other; a single call may have any number of values. -/
def evs (l : Locals) : Exprs → Heap → Vals
  | .nil, h => .ok ([], h)
  | .cons e .nil, h => ev l e h
  | .cons e es, h => one (ev l e h) fun v h => many (evs l es h) fun vs h => .ok (v :: vs, h)
end

/-- The right side of a definition or an assignment of `n` values: `v, ok := m[k]` gives two. -/
def evr (l : Locals) (n : Nat) (r : Exprs) (h : Heap) : Vals :=
  match r with
  | .cons (.idx e i) .nil => if n = 2 then one (ev P C l e h) fun v h => one (ev P C l i h) fun k h => index v k h else evs P C l r h
  | r => evs P C l r h

/-- How a statement ends. -/
inductive Flow where
  | norm
  | ret (vs : List Val)
  | bare
  | fall
  | brk
  | cont

/-- After a statement: how it ended, the variables, the memory. -/
abbrev Done := Res (Flow × Locals × Heap)

/-- Goes on after a statement that ended normally. -/
def next : Done → (Locals → Heap → Done) → Done
  | .ok (.norm, l, h), k => k l h
  | r, _ => r

/-- Leaves a block. -/
def leave (n : Nat) : Done → Done
  | .ok (f, l, h) => .ok (f, cut n l, h)
  | r => r

/-- `x, y := …`: a variable that the block already has is assigned, the others are new.  `base` is the number of variables outside the block. -/
def defineAll (caps : List Str) (base : Nat) : List Str → List Val → Locals → Heap → Done
  | [], [], l, h => .ok (.norm, l, h)
  | x :: xs, v :: vs, l, h =>
    if (lget x (l.take (l.length - base))).isSome then
      match assignVar x v l h with
      | .ok (l, h) => defineAll caps base xs vs l h
      | _ => .stuck
    else defineAll caps base xs vs (declare caps x v l h).1 (declare caps x v l h).2
  | _, _, _, _ => .stuck

/-- Assigns to a variable, a field, or an entry of a map. -/
def assign1 (e : Expr) (v : Val) (l : Locals) (h : Heap) : Res (Locals × Heap) :=
  match e with
  | .id x => assignVar x v l h
  | .sel e f =>
    one (ev P C l e h) fun p h =>
      match p, e with
      | .nil, _ => .panic
      | .ptr a, _ =>
        match h.mem a with
        | .obj ty fs => .ok (l, h.put a (.obj ty (fset f v fs)))
        | _ => .stuck
      | .obj ty fs, .id x => assignVar x (.obj ty (fset f v fs)) l h
      | _, _ => .stuck
  | .idx (.id x) k =>
    one (ev P C l k h) fun k h =>
      match readVar l h x, k with
      | some (.map z kvs), .str s => assignVar x (.map z (fset s v kvs)) l h
      | _, _ => .stuck
  | _ => .stuck

/-- Assigns values one after the other. -/
def assignAll : Exprs → List Val → Locals → Heap → Done
  | .nil, [], l, h => .ok (.norm, l, h)
  | .cons e es, v :: vs, l, h =>
    match assign1 P C e v l h with
    | .ok (l, h) => assignAll es vs l h
    | .panic => .panic
    | .stuck => .stuck
    | .deep => .deep
  | _, _, _, _ => .stuck

/-- The loop `for i, v := range items`. -/
def loop (body : Nat → Val → Locals → Heap → Done) : Nat → List Val → Locals → Heap → Done
  | _, [], l, h => .ok (.norm, l, h)
  | i, v :: vs, l, h =>
    match body i v l h with
    | .ok (.norm, l, h) => loop body (i + 1) vs l h
    | .ok (.cont, l, h) => loop body (i + 1) vs l h
    | .ok (.brk, l, h) => .ok (.norm, l, h)
    | r => r

/-- One round of `for k, v := range …`. -/
def rangeBody (caps : List Str) (k v : Str) (run : Nat → Locals → Heap → Done) (i : Nat) (w : Val) (l : Locals) (h : Heap) : Done :=
  leave l.length (run l.length
    (declare caps v w (declare caps k (.int i) l h).1 (declare caps k (.int i) l h).2).1
    (declare caps v w (declare caps k (.int i) l h).1 (declare caps k (.int i) l h).2).2)

/-- `copy(x, src)` for a variable `x`. -/
def copyTo (x : Str) (src : Val) (l : Locals) (h : Heap) : Done :=
  match readVar l h x, src with
  | some (.slice a), .slice b =>
    match assignVar x (.slice (b.take a.length ++ a.drop b.length)) l h with
    | .ok (l, h) => .ok (.norm, l, h)
    | _ => .stuck
  | _, _ => .stuck

/-- Does the tag of a switch equal one of the values? -/
def anySame (tag : Val) : List Val → Option Bool
  | [] => some false
  | v :: vs =>
    match same tag v with
    | some true => some true
    | some false => anySame tag vs
    | none => none

/-- Does a value have one of the types? -/
def anyType (v : Val) : Exprs → Bool
  | .nil => false
  | .cons t ts =>
    (match v with
      | .int _ => typeName t = c!"int"
      | .str _ => typeName t = c!"string"
      | .bool _ => typeName t = c!"bool"
      | _ => false) || anyType v ts

/-- A switch catches `break`. -/
def endSwitch : Done → Done
  | .ok (.brk, l, h) => .ok (.norm, l, h)
  | r => r

mutual
/-- Runs a statement. -/
def exec (caps : List Str) : Stmt → Nat → Locals → Heap → Done
  | .expr e, _, l, h =>
    match e with
    | .call (.id f) (.cons (.id x) (.cons src .nil)) sp =>
      if f = c!"copy" then one (ev P C l src h) fun v h => copyTo x v l h
      else many (ev P C l (.call (.id f) (.cons (.id x) (.cons src .nil)) sp) h) fun _ h => .ok (.norm, l, h)
    | e => many (ev P C l e h) fun _ h => .ok (.norm, l, h)
  | .define xs r, base, l, h => many (evr P C l xs.length r h) fun vs h => defineAll caps base xs vs l h
  | .assign ls r, _, l, h => many (evr P C l (match ls with | .cons _ (.cons _ .nil) => 2 | _ => 1) r h) fun vs h => assignAll P C ls vs l h
  | .var x t, _, l, h => .ok (.norm, (declare caps x (zeroOf P t) l h).1, (declare caps x (zeroOf P t) l h).2)
  | .ret es, _, l, h =>
    match es with
    | .nil => .ok (.bare, l, h)
    | es => many (evs P C l es h) fun vs h => .ok (.ret vs, l, h)
  | .ite init c t e, _, l, h =>
    leave l.length (next (execs caps init l.length l h) fun l' h =>
      match ev P C l' c h with
      | .ok ([.bool true], h) => leave l'.length (execs caps t l'.length l' h)
      | .ok ([.bool false], h) => leave l'.length (execs caps e l'.length l' h)
      | .ok _ => .stuck
      | .panic => .panic
      | .stuck => .stuck
      | .deep => .deep)
  | .range k v e body, _, l, h =>
    one (ev P C l e h) fun items h =>
      match items with
      | .slice vs =>
        loop (rangeBody caps k v (execs caps body)) 0 vs l h
      | _ => .stuck
  | .switch tag cs, _, l, h =>
    one (match tag with | .no => yes true h | tag => ev P C l tag h) fun v h =>
      match execSwitch caps v cs l h with
      | some r => endSwitch r
      | none => .ok (.norm, l, h)
  | .types e cs, _, l, h =>
    one (ev P C l e h) fun v h =>
      match execTypes caps v cs l h with
      | some r => endSwitch r
      | none => .ok (.norm, l, h)
  | .fall, _, l, h => .ok (.fall, l, h)
  | .brk, _, l, h => .ok (.brk, l, h)
  | .cont, _, l, h => .ok (.cont, l, h)

/-- Runs the statements of a block. -/
def execs (caps : List Str) : Stmts → Nat → Locals → Heap → Done
  | .nil, _, l, h => .ok (.norm, l, h)
  | .cons s k, base, l, h => next (exec caps s base l h) fun l h => execs caps k base l h

/-- Runs the first clause, and the next one after `fallthrough`. -/
def execFrom (caps : List Str) : Cases → Locals → Heap → Done
  | .nil, l, h => .ok (.norm, l, h)
  | .case _ b k, l, h =>
    match leave l.length (execs caps b l.length l h) with
    | .ok (.fall, l, h) => execFrom caps k l h
    | r => r
  | .dflt b k, l, h =>
    match leave l.length (execs caps b l.length l h) with
    | .ok (.fall, l, h) => execFrom caps k l h
    | r => r

/-- Finds the clause of a switch and runs it; `none` if there is none. -/
def execSwitch (caps : List Str) (v : Val) : Cases → Locals → Heap → Option Done
  | .nil, _, _ => none
  | .case es b k, l, h =>
    match evs P C l es h with
    | .ok (ws, h) =>
      match anySame v ws with
      | some true =>
        some (match leave l.length (execs caps b l.length l h) with
          | .ok (.fall, l, h) => execFrom caps k l h
          | r => r)
      | some false => execSwitch caps v k l h
      | none => some .stuck
    | .panic => some .panic
    | .stuck => some .stuck
    | .deep => some .deep
  | .dflt b k, l, h =>
    match execSwitch caps v k l h with
    | some r => some r
    | none =>
      some (match leave l.length (execs caps b l.length l h) with
        | .ok (.fall, l, h) => execFrom caps k l h
        | r => r)

/-- Finds the clause of a type switch and runs it. -/
def execTypes (caps : List Str) (v : Val) : Cases → Locals → Heap → Option Done
  | .nil, _, _ => none
  | .case ts b k, l, h => if anyType v ts then some (leave l.length (execs caps b l.length l h)) else execTypes caps v k l h
  | .dflt b k, l, h =>
    match execTypes caps v k l h with
    | some r => some r
    | none => some (leave l.length (execs caps b l.length l h))
end
end

mutual
/-- The names in an expression that occur in function literals; the flag says whether we are in one. -/
def capE (b : Bool) : Expr → List Str
  | .id x => if b then [x] else []
  | .sel e _ => capE b e
  | .idx e i => capE b e ++ capE b i
  | .slc e x y => capE b e ++ capE b x ++ capE b y
  | .call f as _ => capE b f ++ capEs b as
  | .un _ e => capE b e
  | .bin _ x y => capE b x ++ capE b y
  | .lit _ _ vs => capEs b vs
  | .cast e _ => capE b e
  | .fn _ _ body => capSs true body
  | _ => []
/-- Names in expressions. -/
def capEs (b : Bool) : Exprs → List Str
  | .nil => []
  | .cons e es => capE b e ++ capEs b es
/-- Names in a statement. -/
def capS (b : Bool) : Stmt → List Str
  | .expr e => capE b e
  | .define _ r => capEs b r
  | .assign l r => capEs b l ++ capEs b r
  | .ret es => capEs b es
  | .ite i c t e => capSs b i ++ capE b c ++ capSs b t ++ capSs b e
  | .range _ _ e body => capE b e ++ capSs b body
  | .switch e cs => capE b e ++ capCs b cs
  | .types e cs => capE b e ++ capCs b cs
  | _ => []
/-- Names in a block. -/
def capSs (b : Bool) : Stmts → List Str
  | .nil => []
  | .cons s k => capS b s ++ capSs b k
/-- Names in the clauses of a switch. -/
def capCs (b : Bool) : Cases → List Str
  | .nil => []
  | .case es s k => capEs b es ++ capSs b s ++ capCs b k
  | .dflt s k => capSs b s ++ capCs b k
end

/-- Declares several variables; missing values are nil. -/
def declareAll (caps : List Str) : List Str → List Val → Locals → Heap → Locals × Heap
  | [], _, l, h => (l, h)
  | x :: xs, vs, l, h => declareAll caps xs vs.tail (declare caps x (vs.headD .nil) l h).1 (declare caps x (vs.headD .nil) l h).2

/-- The values of the named results. -/
def results (l : Locals) (h : Heap) : List Str → List Val
  | [] => []
  | x :: xs => (readVar l h x).getD .nil :: results l h xs

/-- Runs a function body. -/
def runBody (P : Prog) (C : Val → List Val → Heap → Vals) (ps rs : List Str) (body : Stmts) (env : Locals) (args : List Val) (h : Heap) : Vals :=
  match declareAll (capSs false body) rs [] (declareAll (capSs false body) ps args env h).1 (declareAll (capSs false body) ps args env h).2 with
  | (l, h) =>
    match execs P C (capSs false body) body env.length l h with
    | .ok (.ret vs, _, h) => .ok (vs, h)
    | .ok (.bare, l, h) => .ok (results l h rs, h)
    | .ok (.norm, l, h) => .ok (results l h rs, h)
    | .ok _ => .stuck
    | .panic => .panic
    | .stuck => .stuck
    | .deep => .deep

/-- What calls outside the program do. -/
abbrev Lib := Str → List Val → Heap → Vals

/-- Calls a method: of the type of the receiver, of an embedded struct, or of the library. -/
def runMeth (P : Prog) (L : Lib) (C : Val → List Val → Heap → Vals) (v : Val) (m : Str) (args : List Val) (h : Heap) : Vals :=
  match structOf h v with
  | none => .stuck
  | some (ty, fs) =>
    match findFunc (ty ++ '.' :: m) P.decls with
    | some f => runBody P C f.params f.results f.body [] ((if f.ptr then v else .obj ty fs) :: args) h
    | none =>
      match ((findStruct ty P.decls).getD []).find? fun (g, t) => t = .un c!"*" (.id g) ∧ (findFunc (g ++ '.' :: m) P.decls).isSome with
      | some (g, _) =>
        match ownField P ty fs g with
        | some w => C (.meth w m) args h
        | none => .stuck
      | none => L (ty ++ '.' :: m) (v :: args) h

/-- Calls a function value.  A top-level name is called without arguments to get its value.  The first number bounds the depth of calls. -/
def call (P : Prog) (L : Lib) : Nat → Val → List Val → Heap → Vals
  | 0, _, _, _ => .deep
  | n + 1, f, args, h =>
    match f with
    | .glob x =>
      match findVal x P.decls with
      | some e => ev P (call P L n) [] e h
      | none => if (findFunc x P.decls).isSome then .ok ([.fn x], h) else .ok ([.lib x], h)
    | .fn x =>
      match findFunc x P.decls with
      | some f => runBody P (call P L n) f.params f.results f.body [] args h
      | none => .stuck
    | .meth v m => runMeth P L (call P L n) v m args h
    | .clo ps rs b env => runBody P (call P L n) ps rs b env args h
    | .lib x => L x args h
    | .nil => .panic
    | _ => .stuck

end Verif.Mini
