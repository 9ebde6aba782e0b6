import Verif.Gen.Prog
import Verif.Gen.Eval
import Verif.Msg

/-! # The support code of the generated file: what it calls -/

namespace Verif.Gen
open Verif

/-- The number of a rule, /repo/miniquery/miniquery.peg.go:19-84 -/
def ruleNum : Rule → Nat
  | .Grammar => 1 | .Expression => 2 | .LogicExpression => 3 | .NotExpression => 4 | .CompareExpression => 5 | .CompareInExpression => 6
  | .PredicateExpression => 7 | .BetweenExpression => 8 | .PrimaryExpression => 9 | .ArgumentList => 10 | .Argument => 11 | .Reference => 12
  | .IdentifierReference => 13 | .JsonReference => 14 | .Identifier => 15 | .Compare => 16 | .Logic => 17 | .Match => 18 | .Value => 19
  | .Array => 20 | .Literal => 21 | .Integer => 22 | .Boolean => 23 | .Null => 24 | .String => 25 | .SpaceComment => 26 | .sp => 27 | .sp1 => 28
  | .Comment => 29 | .Space => 30 | .EndOfLine => 31 | .EndOfFile => 32

/-- The rules by their numbers. -/
def ruleList : List Rule :=
  [.Grammar, .Expression, .LogicExpression, .NotExpression, .CompareExpression, .CompareInExpression, .PredicateExpression, .BetweenExpression,
    .PrimaryExpression, .ArgumentList, .Argument, .Reference, .IdentifierReference, .JsonReference, .Identifier, .Compare, .Logic, .Match, .Value,
    .Array, .Literal, .Integer, .Boolean, .Null, .String, .SpaceComment, .sp, .sp1, .Comment, .Space, .EndOfLine, .EndOfFile]

/-- The number of a kind of tokens: `rulePegText` comes after `ruleAction2`; /repo/miniquery/miniquery.peg.go:51-84. -/
def kindNum : TokKind → Nat
  | .rule r => ruleNum r
  | .text => 36
  | .act n => if n < 3 then 33 + n else 34 + n

/-- The kind with a number. -/
def kindOf (n : Nat) : Option TokKind :=
  if n = 0 then none
  else
    match ruleList[n - 1]? with
    | some r => some (.rule r)
    | none => if n < 36 then some (.act (n - 33)) else if n = 36 then some .text else some (.act (n - 34))

theorem kindOf_kindNum (k : TokKind) : kindOf (kindNum k) = some k := by
  cases k with
  | rule r => cases r <;> rfl
  | text => rfl
  | act n =>
    by_cases h : n < 3
    · match n with
      | 0 | 1 | 2 => rfl
      | n + 3 => omega
    · have h1 : ruleList[34 + n - 1]? = none := by
        rw [List.getElem?_eq_none_iff]; show 32 ≤ _; omega
      have e : (34 : Nat) + n ≠ 0 := by omega
      simp only [kindOf, kindNum, if_neg h, h1, if_neg e, if_neg (show ¬ 34 + n < 36 by omega), if_neg (show ¬ 34 + n = 36 by omega)]
      congr 2
      omega

/-- A token. -/
def tokObj (n b e : Nat) : Val := .obj c!"token32" [(c!"pegRule", .int n), (c!"begin", .int b), (c!"end", .int e)]

/-- A token of the model. -/
def tokVal (t : Tok) : Val := tokObj (kindNum t.kind) t.b t.e

/-- The farthest token.  It starts as the zero token; the model starts with the rule of `initSt` there, see `maxName`. -/
def maxVal (m : Tok) : Val := tokObj (if m.b = m.e then 0 else kindNum m.kind) m.b m.e

/-- A token read back. -/
def tokOf : Val → Option Tok
  | .obj _ [(_, .int n), (_, .int b), (_, .int e)] =>
    match kindOf n.toNat with
    | some k => some ⟨k, b.toNat, e.toNat⟩
    | none => some ⟨initSt.max.kind, b.toNat, e.toNat⟩
  | _ => none

theorem tokOf_tokVal (t : Tok) : tokOf (tokVal t) = some t := by
  simp [tokOf, tokVal, tokObj, kindOf_kindNum]

/-- The farthest token of the recogniser: the one of the start, or not empty. -/
def MaxOk (m : Tok) : Prop := m = initSt.max ∨ m.b ≠ m.e

theorem tokOf_maxVal {m : Tok} (h : MaxOk m) : tokOf (maxVal m) = some m := by
  rcases h with rfl | h
  · rfl
  · simp [tokOf, maxVal, tokObj, kindOf_kindNum, h]

/-- All elements of a list. -/
def allSome {α β : Type} (f : α → Option β) : List α → Option (List β)
  | [] => some []
  | x :: l =>
    match f x, allSome f l with
    | some y, some r => some (y :: r)
    | _, _ => none

theorem allSome_map {α β γ : Type} (f : β → Option γ) (g : α → β) (k : α → γ) (h : ∀ x, f (g x) = some (k x)) (l : List α) :
    allSome f (l.map g) = some (l.map k) := by
  induction l with
  | nil => rfl
  | cons x l ih => simp [allSome, h, ih]

/-- A rune read back. -/
def natOf : Val → Option Nat
  | .int i => some i.toNat
  | _ => none

/-- The addresses of the variables of `Init` that the rule functions use: `max`, `position`, `tokenIndex`, `buffer`, `tree`. -/
structure Lay where
  max : Nat
  pos : Nat
  ti : Nat
  buf : Nat
  tree : Nat

/-- The address of a variable. -/
def boxOf (x : Str) (env : Locals) : Option Nat :=
  match lget x env with
  | some (.box a) => some a
  | _ => none

/-- The addresses, from the variables around the rule functions. -/
def layOf (env : Locals) : Option Lay :=
  match boxOf c!"max" env, boxOf c!"position" env, boxOf c!"tokenIndex" env, boxOf c!"buffer" env, boxOf c!"tree" env with
  | some a, some b, some c, some d, some e => some ⟨a, b, c, d, e⟩
  | _, _, _, _, _ => none

/-- The state of the recogniser and the buffer, from memory. -/
def decode (y : Lay) (h : Heap) : Option (St × List Nat) :=
  match h.mem y.pos, h.mem y.ti, h.mem y.tree, tokOf (h.mem y.max), (view h (h.mem y.buf)).bind (allSome natOf) with
  | .int p, .int i, .obj _ [(_, v)], some m, some buf =>
    match (view h v).bind (allSome tokOf) with
    | some ts => some (⟨p.toNat, i.toNat, ts, m⟩, buf)
    | none => none
  | _, _, _, _, _ => none

/-- `tree` with a slice of tokens. -/
def treeObj (v : Val) : Val := .obj c!"tokens32" [(c!"tree", v)]

/-- The memory with a new state of the recogniser; the tokens are in a new array. -/
def encode (y : Lay) (st : St) (h : Heap) : Heap :=
  ((((h.alloc (.arr (st.tree.map tokVal))).put y.pos (.int st.pos)).put y.ti (.int st.ti)).put y.max (maxVal st.max)).put y.tree
    (treeObj (.sl h.next 0 st.tree.length))

/-- The rule function with a number: a rule of the grammar (`execN`, see C77), an action; `rulePegText` has none. -/
def runRule (buf : List Nat) (k : Int) (st : St) : Out :=
  if k < 1 ∨ 63 < k then .panic
  else
    match kindOf k.toNat with
    | some (.rule r) => execN buf G (depthBound (buf.length - 1)) r st
    | some (.act n) => .ok (addTok (.act n) st.pos st)
    | _ => .panic

/-- Runs a rule function on the memory. -/
def ruleRun (k : Int) (env : Locals) (h : Heap) : Vals :=
  match (layOf env).bind fun y => (decode y h).map fun r => (y, r) with
  | none => .stuck
  | some (y, st, buf) =>
    match runRule buf k st with
    | .ok st' => .ok ([.bool true], encode y st' h)
    | .fail st' => .ok ([.bool false], encode y st' h)
    | .panic => .panic
    | .div => .deep

/-- `%v`. -/
def showVal : Val → Str
  | .int i => natText i.toNat
  | .str s => s
  | _ => []

/-- `fmt.Sprintf`, for the verb `%v`. -/
def format : Str → List Val → Str
  | '%' :: 'v' :: f, v :: vs => showVal v ++ format f vs
  | c :: f, vs => c :: format f vs
  | [], _ => []

/-- Writes to a `strings.Builder` or to the standard output. -/
def write (w : Val) (s : Str) (h : Heap) : Vals :=
  match w with
  | .ptr a [] =>
    match h.mem a with
    | .obj ty [(f, .str t)] => .ok ([], h.put a (.obj ty [(f, .str (t ++ s))]))
    | _ => .stuck
  | .lib _ => .ok ([], { h with out := h.out ++ s })
  | _ => .stuck

/-- Puts a number into a sorted list. -/
def insertVal (v : Val) : List Val → List Val
  | [] => [v]
  | w :: l =>
    match v, w with
    | .int i, .int j => if i ≤ j then v :: w :: l else w :: insertVal v l
    | _, _ => v :: w :: l

/-- Sorts numbers. -/
def sortVals : List Val → List Val
  | [] => []
  | v :: l => insertVal v (sortVals l)

/-- Functions of other packages: `fmt.Sprintf`, `fmt.Fprintf`, `fmt.Println`, `strconv.Quote`, `sort.Ints`, `strings.Builder`.  `Q` is
`strconv.IsPrint`. -/
def libFn (Q : Char → Bool) (x : Str) (vs : List Val) (h : Heap) : Vals :=
  if x = c!"fmt.Sprintf" then
    match vs with
    | .str f :: vs => .ok ([.str (format f vs)], h)
    | _ => .stuck
  else if x = c!"fmt.Fprintf" then
    match vs with
    | w :: .str f :: vs => write w (format f vs) h
    | _ => .stuck
  else if x = c!"fmt.Println" then
    match vs with
    | [.str s] => .ok ([], { h with out := h.out ++ s ++ ['\n'] })
    | _ => .stuck
  else if x = c!"strconv.Quote" then
    match vs with
    | [.str s] => .ok ([.str (quote Q s)], h)
    | _ => .stuck
  else if x = c!"sort.Ints" then
    match vs with
    | [.sl a 0 _] => match h.mem a with | .arr l => .ok ([], h.put a (.arr (sortVals l))) | _ => .stuck
    | _ => .stuck
  else if x = c!"strings.Builder.String" then
    match vs with
    | [.ptr a []] => match h.mem a with | .obj _ [(_, .str t)] => .ok ([.str t], h) | _ => .stuck
    | _ => .stuck
  else .stuck

/-- The library. -/
def gLib (Q : Char → Bool) : Lib := ⟨libFn Q, ruleRun⟩

/-- Calls in the text. -/
abbrev gCall (Q : Char → Bool) (n : Nat) : Val → List Val → Bool → Heap → Vals := call gDecls (gLib Q) n

/-- A parser object. -/
def pegObj (tr : Val) (q : Str) (buf rules parse reset : Val) (pretty : Bool) (toks : Val) : Val :=
  .obj c!"MiniQueryPeg" [(c!"Tree", tr), (c!"Buffer", .str q), (c!"buffer", buf), (c!"rules", rules), (c!"parse", parse), (c!"reset", reset),
    (c!"Pretty", .bool pretty), (c!"tokens32", treeObj toks)]

end Verif.Gen
