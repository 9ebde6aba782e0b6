import Verif.Chars

/-! # Query trees and the build-time stack (/repo/miniquery/node.go, /repo/miniquery/tree.go) -/

namespace Verif

/-- /repo/miniquery/node.go:36-55.  A `*Node` together with its `Type`/`ValueType` tag (node.go:8-34); each constructor
keeps the fields that are set for its tag.  `nil` is the nil pointer.
Simplifications: a node has exactly the fields of its tag (the Go struct could carry others, no constructor in tree.go sets
them); `Params` of a between node has exactly two entries (tree.go:107-110); there is no float node (`AddFloat`,
tree.go:239-247, is called by no grammar action). -/
inductive Node where
  | nil
  | int (i : Int)
  | bool (b : Bool)
  | str (s : Str)
  | null
  | arr (elems : List Node)
  | op (o : Str)
  | ident (name : Str)
  | ref (names : List Str)
  | pred (l o : Node)
  | cmp (l o r : Node)
  | logic (l o r : Node)
  | paren (e : Node)
  | not (e : Node)
  | between (l o lo hi : Node)
  | func (name : Str) (params : List Node)
  deriving Repr, Inhabited

/-! Decidable equality of trees (used only to evaluate concrete cases). -/
mutual
/-- Equality test on trees. -/
def Node.decEq : (a b : Node) → Decidable (a = b)
  | .nil, b => by cases b <;> first | exact isTrue rfl | exact isFalse nofun
  | .int i, b => by
    cases b with
    | int j => exact if h : i = j then isTrue (h ▸ rfl) else isFalse fun e => by cases e; exact h rfl
    | _ => exact isFalse nofun
  | .bool i, b => by
    cases b with
    | bool j => exact if h : i = j then isTrue (h ▸ rfl) else isFalse fun e => by cases e; exact h rfl
    | _ => exact isFalse nofun
  | .str i, b => by
    cases b with
    | str j => exact if h : i = j then isTrue (h ▸ rfl) else isFalse fun e => by cases e; exact h rfl
    | _ => exact isFalse nofun
  | .null, b => by cases b <;> first | exact isTrue rfl | exact isFalse nofun
  | .arr i, b => by
    cases b with
    | arr j => exact match Node.decEqs i j with
        | isTrue h => isTrue (h ▸ rfl)
        | isFalse h => isFalse fun e => by cases e; exact h rfl
    | _ => exact isFalse nofun
  | .op i, b => by
    cases b with
    | op j => exact if h : i = j then isTrue (h ▸ rfl) else isFalse fun e => by cases e; exact h rfl
    | _ => exact isFalse nofun
  | .ident i, b => by
    cases b with
    | ident j => exact if h : i = j then isTrue (h ▸ rfl) else isFalse fun e => by cases e; exact h rfl
    | _ => exact isFalse nofun
  | .ref i, b => by
    cases b with
    | ref j => exact if h : i = j then isTrue (h ▸ rfl) else isFalse fun e => by cases e; exact h rfl
    | _ => exact isFalse nofun
  | .pred l o, b => by
    cases b with
    | pred l' o' => exact match Node.decEq l l', Node.decEq o o' with
        | isTrue h, isTrue h' => isTrue (h ▸ h' ▸ rfl)
        | isFalse h, _ => isFalse fun e => by cases e; exact h rfl
        | _, isFalse h => isFalse fun e => by cases e; exact h rfl
    | _ => exact isFalse nofun
  | .cmp l o r, b => by
    cases b with
    | cmp l' o' r' => exact match Node.decEq l l', Node.decEq o o', Node.decEq r r' with
        | isTrue h, isTrue h', isTrue h'' => isTrue (h ▸ h' ▸ h'' ▸ rfl)
        | isFalse h, _, _ => isFalse fun e => by cases e; exact h rfl
        | _, isFalse h, _ => isFalse fun e => by cases e; exact h rfl
        | _, _, isFalse h => isFalse fun e => by cases e; exact h rfl
    | _ => exact isFalse nofun
  | .logic l o r, b => by
    cases b with
    | logic l' o' r' => exact match Node.decEq l l', Node.decEq o o', Node.decEq r r' with
        | isTrue h, isTrue h', isTrue h'' => isTrue (h ▸ h' ▸ h'' ▸ rfl)
        | isFalse h, _, _ => isFalse fun e => by cases e; exact h rfl
        | _, isFalse h, _ => isFalse fun e => by cases e; exact h rfl
        | _, _, isFalse h => isFalse fun e => by cases e; exact h rfl
    | _ => exact isFalse nofun
  | .paren x, b => by
    cases b with
    | paren y => exact match Node.decEq x y with
        | isTrue h => isTrue (h ▸ rfl)
        | isFalse h => isFalse fun e => by cases e; exact h rfl
    | _ => exact isFalse nofun
  | .not x, b => by
    cases b with
    | not y => exact match Node.decEq x y with
        | isTrue h => isTrue (h ▸ rfl)
        | isFalse h => isFalse fun e => by cases e; exact h rfl
    | _ => exact isFalse nofun
  | .between l o x y, b => by
    cases b with
    | between l' o' x' y' => exact match Node.decEq l l', Node.decEq o o', Node.decEq x x', Node.decEq y y' with
        | isTrue h, isTrue h', isTrue h'', isTrue h3 => isTrue (h ▸ h' ▸ h'' ▸ h3 ▸ rfl)
        | isFalse h, _, _, _ => isFalse fun e => by cases e; exact h rfl
        | _, isFalse h, _, _ => isFalse fun e => by cases e; exact h rfl
        | _, _, isFalse h, _ => isFalse fun e => by cases e; exact h rfl
        | _, _, _, isFalse h => isFalse fun e => by cases e; exact h rfl
    | _ => exact isFalse nofun
  | .func f i, b => by
    cases b with
    | func g j => exact if h : f = g then match Node.decEqs i j with
          | isTrue h' => isTrue (h ▸ h' ▸ rfl)
          | isFalse h' => isFalse fun e => by cases e; exact h' rfl
        else isFalse fun e => by cases e; exact h rfl
    | _ => exact isFalse nofun
/-- Equality test on lists of trees. -/
def Node.decEqs : (a b : List Node) → Decidable (a = b)
  | [], [] => isTrue rfl
  | [], _ :: _ => isFalse nofun
  | _ :: _, [] => isFalse nofun
  | a :: as, b :: bs =>
    match Node.decEq a b, Node.decEqs as bs with
    | isTrue h, isTrue h' => isTrue (h ▸ h' ▸ rfl)
    | isFalse h, _ => isFalse fun e => by cases e; exact h rfl
    | _, isFalse h => isFalse fun e => by cases e; exact h rfl
end

instance : DecidableEq Node := Node.decEq

/-! ## NormalizeOperation -/

/-- `unicode.IsSpace`, used by `strings.TrimSpace` (tree.go:45, join.go:14): the White_Space property. -/
def goIsSpace (c : Char) : Bool :=
  c.toNat ∈ [0x09, 0x0a, 0x0b, 0x0c, 0x0d, 0x20, 0x85, 0xa0, 0x1680, 0x2028, 0x2029, 0x202f, 0x205f, 0x3000] ||
  (0x2000 ≤ c.toNat && c.toNat ≤ 0x200a)

/-- `strings.TrimSpace`. -/
def goTrim (s : Str) : Str := ((s.dropWhile goIsSpace).reverse.dropWhile goIsSpace).reverse

/-- A lower-case mapping of the characters beyond ASCII: what the proofs use of Go's `unicode.ToLower`.  A result is never white space unless the
character was, is a lower-case letter if it is ASCII (the Kelvin sign has the lower case `k`), and is its own lower case otherwise. -/
structure CaseMap where
  map : Char → Char
  space : ∀ c, goIsSpace (map c) = goIsSpace c
  result : ∀ c, 128 ≤ c.toNat → ('a' ≤ map c ∧ map c ≤ 'z') ∨ (128 ≤ (map c).toNat ∧ map (map c) = map c)

instance : Inhabited CaseMap := ⟨⟨id, fun _ => rfl, fun _ h => .inr ⟨h, rfl⟩⟩⟩

/-- `unicode.ToLower` beyond ASCII.  Simplification: the Unicode table is not written out; nothing but the fields of `CaseMap` is known of it.
Letters beyond ASCII can occur in an operator text only inside a comment. -/
opaque unicodeLower : CaseMap

/-- `unicode.ToLower`. -/
def lowerChar (c : Char) : Char := if c.toNat < 128 then c.toLower else unicodeLower.map c

/-- `strings.ToLower`, tree.go:46. -/
def goLower (s : Str) : Str := s.map lowerChar

/-- The class `\s` of Go regular expressions, tree.go:22. -/
def reSpace (c : Char) : Bool := c ∈ c!"\t\n\r " || c.toNat = 0x0c

/-- `regSpace.ReplaceAllString(s, " ")`, tree.go:22, 47.  The flag says whether the previous rune was a space. -/
def squeeze : Bool → Str → Str
  | _, [] => []
  | prev, c :: s => if reSpace c then (if prev then squeeze true s else ' ' :: squeeze true s) else c :: squeeze false s

/-- The map `normalize`, tree.go:23-41. -/
def normTable : List (Str × Str) :=
  [(c!">=", c!"gte"), (c!">", c!"gt"), (c!"==", c!"eq"), (c!"=", c!"eq"), (c!"!=", c!"neq"), (c!"<>", c!"neq"),
   (c!"<", c!"lt"), (c!"<=", c!"lte"), (c!":", c!"eq"), (c!"&&", c!"and"), (c!"||", c!"or"), (c!",", c!"and"),
   (c!"isnull", c!"is null"), (c!"notnull", c!"is not null")]

/-- `NormalizeOperation`, tree.go:44-52. -/
def normOp (s : Str) : Str :=
  let s := squeeze false (goLower (goTrim s))
  match normTable.lookup s with
  | some v => v
  | none => s

/-! ## Literals -/

/-- The largest value of a 64-bit `int`. -/
def maxInt : Nat := 9223372036854775807

/-- Errors that `Parse` can return.  `syntax` is `parseError` (miniquery.peg.go:313-340) with the farthest token; `badInt`, `intRange` and `badBool`
are the `*strconv.NumError` of `Atoi` and `ParseBool` with the text that was read (tree.go:257, 267); `badFunction` is the error of tree.go:85. -/
inductive Err where
  | syntax (b e : Nat)
  | badInt (s : Str)
  | intRange (s : Str)
  | badBool (s : Str)
  | badFunction
  deriving DecidableEq, Repr

/-- Value of a decimal digit. -/
def digitVal (c : Char) : Nat := c.toNat - 48

/-- Accumulate decimal digits. -/
def decValue (acc : Nat) (s : Str) : Nat := s.foldl (fun a c => a * 10 + digitVal c) acc

/-- `strconv.Atoi` on a 64-bit platform, as used in tree.go:267: value and error.  Simplification: unsigned texts only
(the grammar action passes digit strings only, miniquery.peg:107). -/
def atoi (s : Str) : Int × Option Err :=
  if s = [] ∨ ¬ (s.all Char.isDigit) then (0, some (.badInt s))
  else if decValue 0 s ≤ maxInt then (decValue 0 s, none)
  else (maxInt, some (.intRange s))

/-- `strconv.ParseBool`, as used in tree.go:257. -/
def parseBool (s : Str) : Bool × Option Err :=
  if s ∈ [c!"1", c!"t", c!"T", c!"TRUE", c!"true", c!"True"] then (true, none)
  else if s ∈ [c!"0", c!"f", c!"F", c!"FALSE", c!"false", c!"False"] then (false, none)
  else (false, some (.badBool s))

/-! ## Tree -/

/-- tree.go:15-19.  The head of `stack` (and of `marks`) is the top; `errors` is in order of occurrence. -/
structure Tree where
  stack : List Node := []
  errors : List Err := []
  marks : List Nat := []
  deriving Repr

namespace Tree

/-- tree.go:54-56 -/
def push (t : Tree) (n : Node) : Tree := { t with stack := n :: t.stack }

/-- tree.go:58-66; an empty stack yields nil. -/
def pop (t : Tree) : Node × Tree :=
  match t.stack with
  | [] => (.nil, t)
  | n :: s => (n, { t with stack := s })

/-- tree.go:225-229 -/
def addError (t : Tree) (e : Option Err) : Tree :=
  match e with
  | none => t
  | some e => { t with errors := t.errors ++ [e] }

/-- tree.go:163-165 -/
def addMark (t : Tree) : Tree := { t with marks := t.stack.length :: t.marks }

/-- tree.go:157-161, 167-173; `none` is a run-time panic (no mark, or a mark above the stack). -/
def popMarked (t : Tree) : Option (List Node × Tree) :=
  match t.marks with
  | [] => none
  | m :: ms =>
    if t.stack.length < m then none
    else
      let k := t.stack.length - m
      some ((t.stack.take k).reverse, { t with stack := t.stack.drop k, marks := ms })

/-- `node.Name` in tree.go:72; `none` is the nil dereference. -/
def nodeName : Node → Option Str
  | .nil => none
  | .ident n => some n
  | .func n _ => some n
  | _ => some []

/-- tree.go:68-78 -/
def popIdentifierReference (t : Tree) : Option Tree :=
  match t.popMarked with
  | none => none
  | some (nodes, t) =>
    match nodes.mapM nodeName with
    | none => none
    | some names => some (t.push (.ref names))

/-- tree.go:80-96 -/
def popFunction (t : Tree) : Tree :=
  let (a, t) := t.pop
  let (n, t) := t.pop
  match n, a with
  | .ident name, .arr elems => t.push (.func name elems)
  | _, _ => t.addError (some .badFunction)

/-- tree.go:98-112 -/
def popBetween (t : Tree) : Tree :=
  let (up, t) := t.pop
  let (down, t) := t.pop
  let (o, t) := t.pop
  let (l, t) := t.pop
  t.push (.between l o down up)

/-- tree.go:114-123 -/
def popPredicate (t : Tree) : Tree :=
  let (o, t) := t.pop
  let (l, t) := t.pop
  t.push (.pred l o)

/-- tree.go:125-135 -/
def popLogic (t : Tree) : Tree :=
  let (r, t) := t.pop
  let (o, t) := t.pop
  let (l, t) := t.pop
  t.push (.logic l o r)

/-- tree.go:137-148 -/
def popCompare (t : Tree) : Tree :=
  let (r, t) := t.pop
  let (o, t) := t.pop
  let (l, t) := t.pop
  t.push (.cmp l o r)

/-- tree.go:150-155 -/
def popParentheses (t : Tree) : Tree :=
  let (e, t) := t.pop
  t.push (.paren e)

/-- tree.go:204-209 -/
def popNot (t : Tree) : Tree :=
  let (e, t) := t.pop
  t.push (.not e)

/-- tree.go:175-181 -/
def popArray (t : Tree) : Option Tree :=
  match t.popMarked with
  | none => none
  | some (nodes, t) => some (t.push (.arr nodes))

/-- `AddOperation`, `AddCompare`, `AddLogic`, `AddMatch` (same body): tree.go:183-202, 211-216 -/
def addOperation (t : Tree) (s : Str) : Tree := t.push (.op (normOp s))

/-- tree.go:218-223 -/
def addName (t : Tree) (s : Str) : Tree := t.push (.ident s)

/-- tree.go:231-237 -/
def addString (t : Tree) (s : Str) : Tree := t.push (.str s)

/-- tree.go:249-254 -/
def addNull (t : Tree) : Tree := t.push .null

/-- tree.go:256-264 -/
def addBoolean (t : Tree) (s : Str) : Tree := (t.addError (parseBool s).2).push (.bool (parseBool s).1)

/-- tree.go:266-274 -/
def addInteger (t : Tree) (s : Str) : Tree := (t.addError (atoi s).2).push (.int (atoi s).1)

end Tree

end Verif
