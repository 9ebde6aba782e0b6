import Verif.Node

/-! # Build, Value and String (/repo/miniquery/node.go) -/

namespace Verif

/-! ## Formatting of the Go library -/

/-- `fmt.Fprint` of an `int` (/repo/miniquery/node.go:218). -/
def fmtInt (i : Int) : Str := if i < 0 then '-' :: Nat.toDigits 10 i.natAbs else Nat.toDigits 10 i.natAbs

/-- A hexadecimal numeral padded with zeros to `k` digits. -/
def hexPad (k n : Nat) : Str := let d := Nat.toDigits 16 n; List.replicate (k - d.length) '0' ++ d

/-- `strconv.appendEscapedRune` with quote `"`, as used by `%q` (/repo/miniquery/node.go:212); `P` is `strconv.IsPrint`. -/
def quoteRune (P : Char → Bool) (c : Char) : Str :=
  if c = '"' ∨ c = '\\' then ['\\', c]
  else if P c then [c]
  else if c.toNat = 7 then c!"\\a"
  else if c.toNat = 8 then c!"\\b"
  else if c.toNat = 12 then c!"\\f"
  else if c.toNat = 10 then c!"\\n"
  else if c.toNat = 13 then c!"\\r"
  else if c.toNat = 9 then c!"\\t"
  else if c.toNat = 11 then c!"\\v"
  else if c.toNat < 32 ∨ c.toNat = 127 then c!"\\x" ++ hexPad 2 c.toNat
  else if c.toNat < 65536 then c!"\\u" ++ hexPad 4 c.toNat
  else c!"\\U" ++ hexPad 8 c.toNat

/-- `fmt.Fprintf(buf, "%q", s)` (/repo/miniquery/node.go:212). -/
def quote (P : Char → Bool) (s : Str) : Str := '"' :: (s.flatMap (quoteRune P) ++ c!"\"")

/-- Sequencing of writes; `none` is a nil dereference. -/
def cat (a b : Option Str) : Option Str := a.bind fun x => b.map fun y => x ++ y

/-! ## Build -/

/-- The map `pretties`, /repo/miniquery/node.go:247-259. -/
def pretties : List (Str × Str) :=
  [(c!"gte", c!">="), (c!"gt", c!">"), (c!"eq", c!"=="), (c!"neq", c!"!="), (c!"lt", c!"<"), (c!"lte", c!"<="), (c!"and", c!"&&"),
   (c!"or", c!"||"), (c!"isnull", c!"is null"), (c!"isnotnull", c!"is not null"), (c!"notin", c!"not in")]

/-- `printPretty`, /repo/miniquery/node.go:261-266 -/
def printPretty (s : Str) : Str := match pretties.lookup s with | some v => v | none => s

/-- `strings.Join(names, ".")`, /repo/miniquery/node.go:126, 177 -/
def goJoinDots : List Str → Str
  | [] => []
  | [a] => a
  | a :: b :: l => a ++ '.' :: goJoinDots (b :: l)

/-- The field `Name` of a node. -/
def rootName : Node → Str
  | .ident x => x
  | .func f _ => f
  | _ => []

mutual
/-- The closure `visit` of `Build`, /repo/miniquery/node.go:143-194, with `buildValue` (199-221).  `root` is `n.Name` of the node given to
`Build`: line 179 uses the outer variable `n`.  The result is the text written by the call. -/
def buildN (P : Char → Bool) (root : Str) : Node → Option Str
  | .nil => none
  | .not e => cat (some c!"not ") (buildN P root e)
  | .between l o a b =>
    cat (buildN P root l) (cat (some c!" ") (cat (buildN P root o) (cat (some c!" ") (cat (buildN P root a) (cat (some c!" and ") (buildN P root b))))))
  | .pred l o => cat (buildN P root l) (cat (some c!" ") (buildN P root o))
  | .logic l o r => cat (buildN P root l) (cat (some c!" ") (cat (buildN P root o) (match r with | .nil => some [] | r => cat (some c!" ") (buildN P root r))))
  | .cmp l o r => cat (buildN P root l) (cat (some c!" ") (cat (buildN P root o) (match r with | .nil => some [] | r => cat (some c!" ") (buildN P root r))))
  | .paren e => cat (some c!"(") (cat (buildN P root e) (some c!")"))
  | .op o => some (printPretty o)
  | .ident x => some x
  | .ref names => some (goJoinDots names)
  | .func _ ps => cat (some (root ++ c!"(")) (cat (buildL P root ps) (some c!")"))
  | .arr l => cat (some c!"[") (cat (buildL P root l) (some c!"]"))
  | .str s => some (quote P s)
  | .int i => some (fmtInt i)
  | .bool b => some (if b then c!"true" else c!"false")
  | .null => some c!"null"
/-- The comma separated lists of /repo/miniquery/node.go:182-187 and 204-209. -/
def buildL (P : Char → Bool) (root : Str) : List Node → Option Str
  | [] => some []
  | [n] => buildN P root n
  | n :: m :: l => cat (buildN P root n) (cat (some c!",") (buildL P root (m :: l)))
end

/-- `Build`, /repo/miniquery/node.go:140-197; `none` is a panic. -/
def build (P : Char → Bool) (n : Node) : Option Str := buildN P (rootName n) n

/-! ## Value -/

/-- Go values returned by `Value` in an `interface{}`; `slice` is `[]interface{}`. -/
inductive GoVal where
  | nil
  | int (i : Int)
  | bool (b : Bool)
  | str (s : Str)
  | slice (l : List GoVal)
  deriving Repr, Inhabited

mutual
/-- Equality test on values (used only to evaluate concrete cases). -/
def GoVal.decEq : (a b : GoVal) → Decidable (a = b)
  | .nil, b => by cases b <;> first | exact isTrue rfl | exact isFalse nofun
  | .int i, b => by
    cases b with
    | int j => exact if h : i = j then isTrue (h ▸ rfl) else isFalse fun e => by cases e; exact h rfl
    | _ => exact isFalse nofun
  | .bool i, b => by
    cases b with
    | bool j => exact if h : i = j then isTrue (h ▸ rfl) else isFalse fun e => by cases e; exact h rfl
    | _ => exact isFalse nofun
  | .str i, b => by
    cases b with
    | str j => exact if h : i = j then isTrue (h ▸ rfl) else isFalse fun e => by cases e; exact h rfl
    | _ => exact isFalse nofun
  | .slice i, b => by
    cases b with
    | slice j => exact match GoVal.decEqs i j with
        | isTrue h => isTrue (h ▸ rfl)
        | isFalse h => isFalse fun e => by cases e; exact h rfl
    | _ => exact isFalse nofun
/-- Equality test on lists of values. -/
def GoVal.decEqs : (a b : List GoVal) → Decidable (a = b)
  | [], [] => isTrue rfl
  | [], _ :: _ => isFalse nofun
  | _ :: _, [] => isFalse nofun
  | a :: as, b :: bs =>
    match GoVal.decEq a b, GoVal.decEqs as bs with
    | isTrue h, isTrue h' => isTrue (h ▸ h' ▸ rfl)
    | isFalse h, _ => isFalse fun e => by cases e; exact h rfl
    | _, isFalse h => isFalse fun e => by cases e; exact h rfl
end

instance : DecidableEq GoVal := GoVal.decEq

mutual
/-- `Node.Value`, /repo/miniquery/node.go:57-77; `none` is a nil dereference (the receiver is a value, `v.Value()` copies `*v`). -/
def value : Node → Option GoVal
  | .nil => none
  | .int i => some (.int i)
  | .str s => some (.str s)
  | .bool b => some (.bool b)
  | .null => some .nil
  | .arr l => (valueL l).map .slice
  | _ => some (.str c!"<unknown value>")
/-- The loop of /repo/miniquery/node.go:71-73. -/
def valueL : List Node → Option (List GoVal)
  | [] => some []
  | n :: l => (value n).bind fun v => (valueL l).map fun vs => v :: vs
end

/-- `Node.IsValue`, /repo/miniquery/node.go:79-81 -/
def isValue : Node → Bool
  | .int _ | .bool _ | .str _ | .null | .arr _ => true
  | _ => false

/-- `Node.IsExpression`, /repo/miniquery/node.go:83-89 -/
def isExpression : Node → Bool
  | .int _ | .bool _ | .str _ | .null | .arr _ | .op _ | .ident _ | .ref _ => false
  | _ => true

/-! ## String -/

mutual
/-- `fmt.Fprint` of a value (/repo/miniquery/node.go:120): slices print in brackets, separated by blanks. -/
def fmtVal : GoVal → Str
  | .nil => c!"<nil>"
  | .int i => fmtInt i
  | .bool b => if b then c!"true" else c!"false"
  | .str s => s
  | .slice l => c!"[" ++ fmtVals l ++ c!"]"
/-- The elements of a slice. -/
def fmtVals : List GoVal → Str
  | [] => []
  | [v] => fmtVal v
  | v :: w :: l => fmtVal v ++ ' ' :: fmtVals (w :: l)
end

mutual
/-- `Node.String`, /repo/miniquery/node.go:91-138; `none` is a nil dereference.  Line 102 prints `n.Operation` of the predicate node itself,
which no constructor of tree.go sets (tree.go:114-123), so it is empty. -/
def nodeStr : Node → Option Str
  | .nil => none
  | .between _ _ a b => cat (some c!"between(") (cat (nodeStr a) (cat (some c!",") (cat (nodeStr b) (some c!")"))))
  | .pred _ _ => some c!"predicates()"
  | .logic l o r => cat (some c!"logic(") (cat (nodeStr o) (cat (some c!",") (cat (nodeStr l) (cat (some c!",") (cat (nodeStr r) (some c!")"))))))
  | .cmp l o r => cat (some c!"compare(") (cat (nodeStr l) (cat (some c!",") (cat (nodeStr o) (cat (some c!",") (cat (nodeStr r) (some c!")"))))))
  | .paren e => cat (some c!"parentheses(") (cat (nodeStr e) (some c!")"))
  | .not e => cat (some c!"not(") (cat (nodeStr e) (some c!")"))
  | .op o => some (c!"operation(" ++ o ++ c!")")
  | .ident x => some (c!"identifier(" ++ x ++ c!")")
  | .ref l => some (c!"reference(" ++ goJoinDots l ++ c!")")
  | .func f ps => cat (some (c!"function(" ++ f)) (cat (nodeStrs ps) (some c!")"))
  | .arr l => (valueL l).map fun vs => c!"value(" ++ fmtVal (.slice vs) ++ c!")"
  | .int i => some (c!"value(" ++ fmtInt i ++ c!")")
  | .bool b => some (c!"value(" ++ fmtVal (.bool b) ++ c!")")
  | .str s => some (c!"value(" ++ s ++ c!")")
  | .null => some (c!"value(" ++ fmtVal .nil ++ c!")")
/-- The loop of /repo/miniquery/node.go:129-132. -/
def nodeStrs : List Node → Option Str
  | [] => some []
  | n :: l => cat (some c!",") (cat (nodeStr n) (nodeStrs l))
end

end Verif
