import Verif.Mini.Texts
import Verif.Mini.JoinRun
import Verif.Mini.BuildTop
import Verif.Props.Parse

/-!
# C81: the hand-written files, run as written

`goProgram` reads the text of the files (`Verif.Mini.Text`, line by line) as a program; `call` runs it (`Verif.Mini.Eval`).  The theorems say that running a
function gives what the model says, for every bound on the depth of calls that is large enough.
-/

namespace Verif
open Mini

/-- A package from what its files declare; parser objects, stacks and buffers live in memory. -/
def package : List (Option (List Decl)) → Option Prog
  | [] => some { decls := [], cells := [c!"Tree", c!"MiniQueryPeg", c!"strings.Builder"] }
  | none :: _ => none
  | some ds :: fs => (package fs).map fun P => { P with decls := ds ++ P.decls }

/-- The package miniquery as its files say: tree.go, parse.go, join.go, node.go, visitor.go and `Execute` of miniquery.peg.go. -/
def goProgram : Option Prog :=
  package [readGo treeText, readGo parseText, readGo joinText, readGo nodeText, readGo visitorText, readGo pegText]

theorem package_of {r s t u v w : Option (List Decl)} {a b c d e f} (hr : r = some a) (hs : s = some b) (ht : t = some c) (hu : u = some d) (hv : v = some e)
    (hw : w = some f) : package [r, s, t, u, v, w] =
      some { decls := a ++ b ++ c ++ d ++ e ++ f, cells := [c!"Tree", c!"MiniQueryPeg", c!"strings.Builder"] } := by
  subst hr hs ht hu hv hw
  simp [package]

/-- C81: the files are programs of the language that `call` runs. -/
theorem C81_program : goProgram = some mq := package_of tree_read parse_read join_read node_read visitor_read peg_read

theorem mq_of {P : Prog} (hP : goProgram = some P) : P = mq := (Option.some.inj (C81_program.symm.trans hP)).symm

/-- C81: `Parse` returns the node or the error of the model, and leaves the memory of its caller alone. -/
theorem C81_parse {P : Prog} (hP : goProgram = some P) (Q : Char → Bool) (q : Str) (n : Nat) (hn : 7 ≤ n) (h : Heap) :
    ∃ h', Keeps h h' ∧
      ((∃ x, parse q = .ok x ∧ call P (mqLib Q) n (.fn c!"Parse") [.str q] h = .ok ([nodeVal x, .nil], h')) ∨
       (∃ e, parse q = .err e ∧ call P (mqLib Q) n (.fn c!"Parse") [.str q] h = .ok ([.nil, errVal e], h'))) := by
  obtain ⟨n, rfl⟩ : ∃ n', n = n' + 7 := ⟨n - 7, by omega⟩
  obtain ⟨h', k, e⟩ := parse_run (Q := Q) (n := n) (h := h) q
  rw [mq_of hP]
  refine ⟨h', k, ?_⟩
  rcases (C01_parse_total q).1 with ⟨x, hx⟩ | ⟨x, hx⟩
  · exact .inl ⟨x, hx, by rw [hx] at e; exact e⟩
  · exact .inr ⟨x, hx, by rw [hx] at e; exact e⟩

/-- C81: `Join` returns the text of the model. -/
theorem C81_join {P : Prog} (hP : goProgram = some P) (Q : Char → Bool) (ss : List Str) (n : Nat) (hn : 2 ≤ n) (h : Heap) :
    ∃ h', Keeps h h' ∧ call P (mqLib Q) n (.fn c!"Join") [.slice (ss.map .str)] h = .ok ([.str (join ss)], h') := by
  obtain ⟨n, rfl⟩ : ∃ n', n = n' + 2 := ⟨n - 2, by omega⟩
  rw [mq_of hP]
  exact join_run ss

/-- C81: `Build` returns the text of the model, or panics where the model says so (nil nodes). -/
theorem C81_build {P : Prog} (hP : goProgram = some P) (Q : Char → Bool) (x : Node) (n : Nat) (hn : 2 * lvl x + 5 ≤ n) (h : Heap) :
    ∃ h', Keeps h h' ∧ call P (mqLib Q) n (.fn c!"Build") [nodeVal x] h =
      match build Q x with | none => .panic | some s => .ok ([.str s], h') := by
  obtain ⟨n, rfl⟩ : ∃ n', n = n' + 5 := ⟨n - 5, by omega⟩
  rw [mq_of hP]
  obtain ⟨h', k, e⟩ := build_run (Q := Q) x n (by omega) h
  refine ⟨h', k, e.trans ?_⟩
  cases build Q x <;> rfl

/-- C81: `String` returns the text of the model, or panics where the model says so. -/
theorem C81_string {P : Prog} (hP : goProgram = some P) (Q : Char → Bool) {x : Node} (hx : x ≠ .nil) (n : Nat) (hn : lvl x + 3 ≤ n) (h : Heap) :
    ∃ h', Keeps h h' ∧ call P (mqLib Q) n (.meth (nodeVal x) c!"String") [] h =
      match nodeStr x with | none => .panic | some s => .ok ([.str s], h') := by
  obtain ⟨n, rfl⟩ : ∃ n', n = n' + 3 := ⟨n - 3, by omega⟩
  rw [mq_of hP]
  obtain ⟨h', k, e⟩ := string_run (Q := Q) (lvl x) x hx (Nat.le_refl _) n (by omega) h
  refine ⟨h', k, e.trans ?_⟩
  cases nodeStr x <;> rfl

/-- C81: `Value` returns the value of the model, or panics where the model says so. -/
theorem C81_value {P : Prog} (hP : goProgram = some P) (Q : Char → Bool) {x : Node} (hx : x ≠ .nil) (n : Nat) (hn : lvl x + 2 ≤ n) (h : Heap) :
    call P (mqLib Q) n (.meth (nodeVal x) c!"Value") [] h = match value x with | none => .panic | some v => .ok ([goVal v], h) := by
  obtain ⟨n, rfl⟩ : ∃ n', n = n' + 2 := ⟨n - 2, by omega⟩
  rw [mq_of hP]
  refine (value_run (Q := Q) (lvl x) x hx (Nat.le_refl _) n (by omega) h).trans ?_
  cases value x <;> rfl

/-- C81: `IsValue` and `IsExpression`. -/
theorem C81_tests {P : Prog} (hP : goProgram = some P) (Q : Char → Bool) {x : Node} (hx : x ≠ .nil) (n : Nat) (hn : 2 ≤ n) (h : Heap) :
    call P (mqLib Q) n (.meth (nodeVal x) c!"IsValue") [] h = .ok ([.bool (isValue x)], h) ∧
    call P (mqLib Q) n (.meth (nodeVal x) c!"IsExpression") [] h = .ok ([.bool (isExpression x)], h) := by
  obtain ⟨n, rfl⟩ : ∃ n', n = n' + 2 := ⟨n - 2, by omega⟩
  rw [mq_of hP]
  exact ⟨isValue_run hx, isExpression_run hx⟩

/-- C81: `NormalizeOperation`. -/
theorem C81_normalize {P : Prog} (hP : goProgram = some P) (Q : Char → Bool) (s : Str) (n : Nat) (hn : 3 ≤ n) (h : Heap) :
    call P (mqLib Q) n (.fn c!"NormalizeOperation") [.str s] h = .ok ([.str (normOp s)], h) := by
  obtain ⟨n, rfl⟩ : ∃ n', n = n' + 3 := ⟨n - 3, by omega⟩
  rw [mq_of hP]
  exact normalizeOperation_run s

/-! ## Concrete runs -/

/-- The text that a run returns. -/
def ranText : Vals → Option Str
  | .ok ([.str s], _) => some s
  | _ => none

/-- An empty memory. -/
def noHeap : Heap := { next := 0, mem := fun _ => .nil }

example : ranText (call mq (mqLib fun _ => true) 9 (.fn c!"Join") [.slice [.str c!"a>1", .str c!" ", .str c!"b<2"]] noHeap) = some c!"(a>1) and (b<2)" := by
  decide +kernel

example : ranText (call mq (mqLib fun _ => true) 9 (.fn c!"Build") [nodeVal (.cmp (.ident c!"a") (.op c!"gt") (.int 1))] noHeap) = some c!"a > 1" := by
  decide +kernel

example : ranText (match call mq (mqLib fun _ => true) 7 (.fn c!"Parse") [.str c!"a in ['x']"] noHeap with
    | .ok ([x, .nil], h) => call mq (mqLib fun _ => true) 9 (.fn c!"Build") [x] h
    | r => r) = some c!"a in [\"x\"]" := by decide +kernel

example : (match call mq (mqLib fun _ => true) 7 (.fn c!"Parse") [.str c!"a >"] noHeap with
    | .ok ([.nil, .obj x _], _) => x == c!"parseError"
    | _ => false) = true := by decide +kernel

example : (match call mq (mqLib fun _ => true) 9 (.fn c!"Build") [.nil] noHeap with | .panic => true | _ => false) = true := by decide +kernel

end Verif
