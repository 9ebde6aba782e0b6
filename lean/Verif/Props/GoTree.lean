import Verif.Props.GoText

/-!
# C92: the methods of `Tree`, run as written, in any order and on any tree

The parser calls these methods in the order of the grammar; the type is exported, so a program may call them in any order.  `goCalls` runs the text of tree.go; the
meaning of the calls is said below without it: what the calls return and leave (`C92_calls`), when a call panics (`C92_panic`), what happens to the errors
(`C92_errors`), and that the calls of a tree in postorder build that tree (`C92_builds`).  The model has no floats, so
`AddFloat` is not among these calls; `C92_float` says what it does to a tree for any `strconv.ParseFloat`.
-/

namespace Verif
open Mini

/-- A call of an exported method of `Tree` (tree.go:54-274), with its argument. -/
inductive TCall where
  | push (x : Node) | pop | popIdentifierReference | popFunction | popBetween | popPredicate | popLogic | popCompare | popParentheses
  | popMark | addMark | popArray | addOperation (s : Str) | addCompare (s : Str) | addLogic (s : Str) | popNot | addMatch (s : Str)
  | addName (s : Str) | addError (e : Option Err) | addString (s : Str) | addNull | addBoolean (s : Str) | addInteger (s : Str)
  deriving DecidableEq

/-- The name and the arguments of a call. -/
def TCall.text : TCall → Str × List Mini.Val
  | .push x => (c!"Push", [nodeVal x])
  | .pop => (c!"Pop", [])
  | .popIdentifierReference => (c!"PopIdentifierReference", [])
  | .popFunction => (c!"PopFunction", [])
  | .popBetween => (c!"PopBetween", [])
  | .popPredicate => (c!"PopPredicate", [])
  | .popLogic => (c!"PopLogic", [])
  | .popCompare => (c!"PopCompare", [])
  | .popParentheses => (c!"PopParentheses", [])
  | .popMark => (c!"PopMark", [])
  | .addMark => (c!"AddMark", [])
  | .popArray => (c!"PopArray", [])
  | .addOperation s => (c!"AddOperation", [.str s])
  | .addCompare s => (c!"AddCompare", [.str s])
  | .addLogic s => (c!"AddLogic", [.str s])
  | .popNot => (c!"PopNot", [])
  | .addMatch s => (c!"AddMatch", [.str s])
  | .addName s => (c!"AddName", [.str s])
  | .addError e => (c!"AddError", [optErr errVal e])
  | .addString s => (c!"AddString", [.str s])
  | .addNull => (c!"AddNull", [])
  | .addBoolean s => (c!"AddBoolean", [.str s])
  | .addInteger s => (c!"AddInteger", [.str s])

/-- Run the calls one after the other on the tree at `p`; what each returns, and the memory at the end. -/
def goCalls (P : Prog) (L : Lib) (n : Nat) (p : Nat) : List TCall → Heap → Mini.Res (List (List Mini.Val) × Heap)
  | [], h => .ok ([], h)
  | c :: cs, h =>
    match call P L n (.meth (.ptr p) c.text.1) c.text.2 h with
    | .ok (vs, h) =>
      match goCalls P L n p cs h with
      | .ok (rs, h) => .ok (vs :: rs, h)
      | r => r
    | .panic => .panic
    | .stuck => .stuck
    | .deep => .deep

/-- What a call returns. -/
inductive TRes where
  | none | node (x : Node) | mark (m : Nat)
  deriving DecidableEq

/-- The values of a result. -/
def TRes.vals : TRes → List Mini.Val
  | .none => []
  | .node x => [nodeVal x]
  | .mark m => [.int m]

/-- What a call does in the model; `none` is a panic (tree.go:54-274). -/
def TCall.act (t : Tree) : TCall → Option (TRes × Tree)
  | .push x => some (.none, t.push x)
  | .pop => some (.node t.pop.1, t.pop.2)
  | .popIdentifierReference => t.popIdentifierReference.map (.none, ·)
  | .popFunction => some (.none, t.popFunction)
  | .popBetween => some (.none, t.popBetween)
  | .popPredicate => some (.none, t.popPredicate)
  | .popLogic => some (.none, t.popLogic)
  | .popCompare => some (.none, t.popCompare)
  | .popParentheses => some (.none, t.popParentheses)
  | .popMark => match t.marks with
    | [] => none
    | m :: ms => some (.mark m, { t with marks := ms })
  | .addMark => some (.none, t.addMark)
  | .popArray => t.popArray.map (.none, ·)
  | .addOperation s => some (.none, t.addOperation s)
  | .addCompare s => some (.none, t.addOperation s)
  | .addLogic s => some (.none, t.addOperation s)
  | .popNot => some (.none, t.popNot)
  | .addMatch s => some (.none, t.addOperation s)
  | .addName s => some (.none, t.addName s)
  | .addError e => some (.none, t.addError e)
  | .addString s => some (.none, t.addString s)
  | .addNull => some (.none, t.addNull)
  | .addBoolean s => some (.none, t.addBoolean s)
  | .addInteger s => some (.none, t.addInteger s)

/-- The calls one after the other. -/
def tCalls : List TCall → Tree → Option (List TRes × Tree)
  | [], t => some ([], t)
  | c :: cs, t =>
    match c.act t with
    | none => none
    | some (r, t) => (tCalls cs t).map fun x => (r :: x.1, x.2)

theorem tCall_run {Q : Char → Bool} {n p : Nat} {h : Heap} (t : Tree) (c : TCall) :
    mqCall Q (n + 4) (.meth (.ptr p) c.text.1) c.text.2 (h.put p (treeVal t)) =
      match c.act t with
      | none => .panic
      | some (r, t') => .ok (r.vals, h.put p (treeVal t')) := by
  cases c with
  | push x => exact push_run x
  | pop => exact pop_run
  | popIdentifierReference =>
    refine (popIdentifierReference_run (n := n + 1)).trans ?_
    simp only [TCall.act]
    cases t.popIdentifierReference <;> rfl
  | popFunction => exact popFunction_run (n := n + 2)
  | popBetween => exact popBetween_run (n := n + 2)
  | popPredicate => exact popPredicate_run (n := n + 2)
  | popLogic => exact popLogic_run (n := n + 2)
  | popCompare => exact popCompare_run (n := n + 2)
  | popParentheses => exact popParentheses_run (n := n + 2)
  | popMark =>
    cases e : t.marks with
    | nil => simp only [TCall.act, e]; exact popMark_nil e
    | cons m ms => simp only [TCall.act, e]; exact popMark_cons e
  | addMark => exact addMark_run
  | popArray =>
    refine (popArray_run (n := n + 1)).trans ?_
    simp only [TCall.act]
    cases t.popArray <;> rfl
  | addOperation s => exact addOperation_run s
  | addCompare s => exact addCompare_run s
  | addLogic s => exact addLogic_run s
  | popNot => exact popNot_run (n := n + 2)
  | addMatch s => exact addMatch_run s
  | addName s => exact addName_run (n := n + 2) s
  | addError e => exact addError_run e
  | addString s => exact addString_run (n := n + 2) s
  | addNull => exact addNull_run (n := n + 2)
  | addBoolean s => exact addBoolean_run (n := n + 2) s
  | addInteger s => exact addInteger_run (n := n + 2) s

/-- C92: any calls on any tree: the text of tree.go returns what the model says, leaves the tree of the model, touches nothing else, and panics when the model does. -/
theorem C92_calls {P : Prog} (hP : goProgram = some P) (Q : Char → Bool) (n : Nat) (hn : 4 ≤ n) (p : Nat) (h : Heap) (cs : List TCall) (t : Tree) :
    goCalls P (mqLib Q) n p cs (h.put p (treeVal t)) =
      match tCalls cs t with
      | none => .panic
      | some (rs, t') => .ok (rs.map TRes.vals, h.put p (treeVal t')) := by
  obtain ⟨n, rfl⟩ : ∃ n', n = n' + 4 := ⟨n - 4, by omega⟩
  rw [mq_of hP]
  induction cs generalizing t with
  | nil => rfl
  | cons c cs ih =>
    have e := tCall_run (Q := Q) (n := n) (p := p) (h := h) t c
    simp only [goCalls, tCalls]
    rw [show call mq (mqLib Q) (n + 4) = mqCall Q (n + 4) from rfl, e]
    cases c.act t with
    | none => rfl
    | some r =>
      obtain ⟨r, t'⟩ := r
      simp only [ih]
      cases tCalls cs t' <;> rfl

example (h : Heap) : goCalls mq (mqLib fun _ => false) 4 0 [.addName c!"f", .addInteger c!"x1", .pop, .popFunction] (h.put 0 (treeVal {})) =
    .ok ([[], [], [nodeVal (.int 0)], []], h.put 0 (treeVal { errors := [.badInt c!"x1", .badFunction] })) := by
  rw [C92_calls C81_program _ 4 (by decide)]; rfl
example (h : Heap) : goCalls mq (mqLib fun _ => false) 4 0 [.addMark, .addNull, .popMark, .popArray] (h.put 0 (treeVal {})) = .panic := by
  rw [C92_calls C81_program _ 4 (by decide)]; rfl

/-- C92: a call panics exactly when it asks for a mark and there is none, or for the nodes above a mark that lies above the stack, or for the names of nodes one of which
is nil.  No other call panics on any tree. -/
theorem C92_panic (t : Tree) (c : TCall) :
    c.act t = none ↔
      (c = .popMark ∧ t.marks = []) ∨
      (c = .popArray ∧ ∀ m ∈ t.marks.head?, t.stack.length < m) ∨
      (c = .popIdentifierReference ∧ ∀ m ∈ t.marks.head?, t.stack.length < m ∨ Node.nil ∈ t.stack.take (t.stack.length - m)) := by
  have names (l : List Node) : l.mapM Tree.nodeName = none ↔ Node.nil ∈ l := by
    induction l with
    | nil => simp
    | cons x l ih =>
      rw [List.mapM_cons]
      cases hx : Tree.nodeName x with
      | none =>
        have : x = .nil := by cases x <;> simp_all [Tree.nodeName]
        simp [this]
      | some s =>
        have : x ≠ .nil := by rintro rfl; simp [Tree.nodeName] at hx
        cases hl : l.mapM Tree.nodeName with
        | none => simp [ih.1 hl]
        | some r =>
          have := mt ih.2 (by simp [hl])
          simp [this, Ne.symm ‹x ≠ .nil›]
  cases c <;> simp [TCall.act]
  case popIdentifierReference =>
    unfold Tree.popIdentifierReference Tree.popMarked
    cases t.marks with
    | nil => simp
    | cons m ms =>
      by_cases hm : t.stack.length < m
      · simp [hm]
      · simp only [hm, if_false, List.head?_cons, Option.some.injEq, false_or, forall_eq']
        have := names (t.stack.take (t.stack.length - m)).reverse
        rw [List.mem_reverse] at this
        rw [← this]
        cases ((t.stack.take (t.stack.length - m)).reverse.mapM Tree.nodeName) <;> simp
  case popMark => cases t.marks <;> simp
  case popArray =>
    unfold Tree.popArray Tree.popMarked
    cases t.marks with
    | nil => simp
    | cons m ms => by_cases hm : t.stack.length < m <;> simp [hm]

example : TCall.act {} .popArray = none := rfl
example : TCall.act { stack := [.nil], marks := [0] } .popIdentifierReference = none := rfl
example : TCall.act { stack := [.null], marks := [0] } .popIdentifierReference = some (.none, { stack := [.ref [[]]] }) := rfl

/-- The error a call records. -/
def TCall.record (t : Tree) : TCall → Option Err
  | .addError e => e
  | .addBoolean s => if (parseBool s).2 = none then none else some (.badBool s)
  | .addInteger s => (atoi s).2
  | .popFunction => match t.stack with
    | .arr _ :: .ident _ :: _ => none
    | _ => some .badFunction
  | _ => none

/-- C92: errors are only ever added, at the end, at most one by a call: the one given to `AddError`, the one of a bad boolean or integer, and the one of `PopFunction`
when the two topmost nodes are not a name below an array. -/
theorem C92_errors (t : Tree) (c : TCall) {r : TRes} {t' : Tree} (e : c.act t = some (r, t')) : t'.errors = t.errors ++ (c.record t).toList := by
  have pop1 (t : Tree) : t.pop.2.errors = t.errors := by unfold Tree.pop; split <;> rfl
  have marked {l : List Node} {u : Tree} (e : t.popMarked = some (l, u)) : u.errors = t.errors := by
    unfold Tree.popMarked at e
    split at e
    · cases e
    · split at e
      · cases e
      · cases e; rfl
  cases c <;> simp only [TCall.act, Option.some.injEq, Prod.mk.injEq] at e
  case popIdentifierReference =>
    simp only [Tree.popIdentifierReference] at e
    cases hm : t.popMarked with
    | none => simp [hm] at e
    | some x =>
      obtain ⟨l, u⟩ := x
      cases hl : l.mapM Tree.nodeName with
      | none => simp [hm, hl] at e
      | some ns =>
        simp [hm, hl] at e
        rw [← e.2]
        simp [TCall.record, Tree.push, marked hm]
  case popArray =>
    simp only [Tree.popArray] at e
    cases hm : t.popMarked with
    | none => simp [hm] at e
    | some x =>
      obtain ⟨l, u⟩ := x
      simp [hm] at e
      rw [← e.2]
      simp [TCall.record, Tree.push, marked hm]
  case popMark =>
    split at e
    · cases e
    · cases e; simp [TCall.record]
  case popFunction =>
    rw [← e.2]
    obtain ⟨s, er, m⟩ := t
    cases s with
    | nil => rfl
    | cons a s =>
      cases s with
      | nil => cases a <;> rfl
      | cons b s => cases a <;> cases b <;> simp [Tree.popFunction, Tree.pop, Tree.push, Tree.addError, TCall.record]
  case addBoolean s =>
    rw [← e.2]
    simp only [Tree.addBoolean, Tree.push, Tree.addError, TCall.record, parseBool]
    split <;> split <;> simp_all
    all_goals (split at * <;> simp_all)
  case addInteger s =>
    rw [← e.2]
    simp only [Tree.addInteger, Tree.push, Tree.addError, TCall.record]
    cases (atoi s).2 <;> simp
  case addError x =>
    rw [← e.2]
    cases x <;> simp [Tree.addError, TCall.record]
  all_goals
    rw [← e.2]
    simp [TCall.record, Tree.push, Tree.popBetween, Tree.popPredicate, Tree.popLogic, Tree.popCompare, Tree.popParentheses, Tree.popNot, Tree.addMark,
      Tree.addOperation, Tree.addName, Tree.addString, Tree.addNull, pop1]

example : (TCall.popFunction).act { stack := [.ident c!"f", .arr []], errors := [.badInt c!"x"] } =
    some (.none, { stack := [], errors := [.badInt c!"x", .badFunction] }) := rfl

/-- How many nodes a call takes from the stack, at most. -/
def TCall.takes (t : Tree) : TCall → Nat
  | .pop | .popParentheses | .popNot => 1
  | .popFunction | .popPredicate => 2
  | .popLogic | .popCompare => 3
  | .popBetween => 4
  | .popArray | .popIdentifierReference => t.stack.length - t.marks.headD 0
  | _ => 0

/-- How many nodes a call puts on the stack. -/
def TCall.puts (t : Tree) : TCall → Nat
  | .pop | .popMark | .addMark | .addError _ => 0
  | .popFunction => if (TCall.record t .popFunction).isSome then 0 else 1
  | _ => 1

/-- C92: a call takes a number of nodes from the stack, fewer if there are fewer, and puts one or none on it; all below stays as it is.  It puts none if it is `Pop`, a call on
marks or errors, or `PopFunction` that records an error. -/
theorem C92_stack (t : Tree) (c : TCall) {r : TRes} {t' : Tree} (e : c.act t = some (r, t')) :
    ∃ new, new.length = c.puts t ∧ t'.stack = new ++ t.stack.drop (c.takes t) := by
  have pop1 (t : Tree) : t.pop.2.stack = t.stack.drop 1 := by unfold Tree.pop; split <;> simp_all
  have err (t : Tree) (e) : (t.addError e).stack = t.stack := by cases e <;> rfl
  have marked {l : List Node} {u : Tree} (e : t.popMarked = some (l, u)) : u.stack = t.stack.drop (t.stack.length - t.marks.headD 0) := by
    unfold Tree.popMarked at e
    split at e
    · cases e
    · rename_i m ms hm
      split at e
      · cases e
      · cases e; simp [hm]
  cases c <;> simp only [TCall.act, Option.some.injEq, Prod.mk.injEq] at e
  case popIdentifierReference =>
    simp only [Tree.popIdentifierReference] at e
    cases hm : t.popMarked with
    | none => simp [hm] at e
    | some x =>
      obtain ⟨l, u⟩ := x
      cases hl : l.mapM Tree.nodeName with
      | none => simp [hm, hl] at e
      | some ns =>
        simp [hm, hl] at e
        exact ⟨[.ref ns], rfl, by rw [← e.2]; simp [TCall.takes, Tree.push, marked hm]⟩
  case popArray =>
    simp only [Tree.popArray] at e
    cases hm : t.popMarked with
    | none => simp [hm] at e
    | some x =>
      obtain ⟨l, u⟩ := x
      simp [hm] at e
      exact ⟨[.arr l], rfl, by rw [← e.2]; simp [TCall.takes, Tree.push, marked hm]⟩
  case popMark =>
    split at e
    · cases e
    · cases e; exact ⟨[], rfl, rfl⟩
  case popFunction =>
    rw [← e.2]
    obtain ⟨s, er, m⟩ := t
    cases s with
    | nil => exact ⟨[], rfl, rfl⟩
    | cons a s =>
      cases s with
      | nil => cases a <;> exact ⟨[], rfl, rfl⟩
      | cons b s => cases a <;> cases b <;> first | exact ⟨[], rfl, rfl⟩ | exact ⟨[_], rfl, rfl⟩
  all_goals
    rw [← e.2]
    first
    | exact ⟨[], rfl, by simp [TCall.takes, Tree.addMark, pop1, err]⟩
    | exact ⟨[_], rfl, by
        simp only [TCall.takes, Tree.push, Tree.popBetween, Tree.popPredicate, Tree.popLogic, Tree.popCompare, Tree.popParentheses, Tree.popNot,
          Tree.addOperation, Tree.addName, Tree.addString, Tree.addNull, Tree.addBoolean, Tree.addInteger, pop1, err, List.drop_drop,
          List.singleton_append, List.drop_zero]
        rfl⟩

example : TCall.act { stack := [.null] } .popBetween = some (.none, { stack := [.between .nil .nil .nil .null] }) := rfl

/-! ## Postorder -/

mutual
/-- The calls that build a node: its parts from left to right, then the node. -/
def postorder : Node → List TCall
  | .arr l => .addMark :: (postorders l ++ [.popArray])
  | .ident s => [.addName s]
  | .str s => [.addString s]
  | .null => [.addNull]
  | .ref l => .addMark :: (l.map .addName ++ [.popIdentifierReference])
  | .pred l o => postorder l ++ (postorder o ++ [.popPredicate])
  | .cmp l o r => postorder l ++ (postorder o ++ (postorder r ++ [.popCompare]))
  | .logic l o r => postorder l ++ (postorder o ++ (postorder r ++ [.popLogic]))
  | .paren e => postorder e ++ [.popParentheses]
  | .not e => postorder e ++ [.popNot]
  | .between l o a b => postorder l ++ (postorder o ++ (postorder a ++ (postorder b ++ [.popBetween])))
  | .func f l => .addName f :: .addMark :: (postorders l ++ [.popArray, .popFunction])
  | x => [.push x]
/-- The same for a list of nodes. -/
def postorders : List Node → List TCall
  | [] => []
  | x :: l => postorder x ++ postorders l
end

/-- The tree that calls leave. -/
def leave (cs : List TCall) (t : Tree) : Option Tree := (tCalls cs t).map (·.2)

theorem leave_cons (c : TCall) (cs : List TCall) (t : Tree) : leave (c :: cs) t = (c.act t).bind fun r => leave cs r.2 := by
  simp only [leave, tCalls]
  cases c.act t with
  | none => rfl
  | some r => simp [Option.map_map, Function.comp_def]

theorem leave_append (cs ds : List TCall) (t : Tree) : leave (cs ++ ds) t = (leave cs t).bind (leave ds) := by
  induction cs generalizing t with
  | nil => rfl
  | cons c cs ih =>
    rw [List.cons_append, leave_cons, leave_cons]
    cases c.act t with
    | none => rfl
    | some r => exact ih r.2

theorem leave_nil (t : Tree) : leave [] t = some t := rfl

theorem leave_names (l : List Str) (t : Tree) : leave (l.map .addName) t = some { t with stack := l.reverse.map .ident ++ t.stack } := by
  induction l generalizing t with
  | nil => rfl
  | cons s l ih =>
    rw [List.map_cons, leave_cons]
    simp [TCall.act, ih, Tree.addName, Tree.push]

theorem mapM_ident (l : List Str) : (l.map Node.ident).mapM Tree.nodeName = some l := by
  induction l with
  | nil => rfl
  | cons s l ih => simp [List.mapM_cons, Tree.nodeName, ih]

theorem popMarked_back (l : List Node) (t : Tree) :
    Tree.popMarked { t with stack := l.reverse ++ t.stack, marks := t.stack.length :: t.marks } = some (l, t) := by
  simp [Tree.popMarked]

mutual
theorem leave_postorder (x : Node) (t : Tree) : leave (postorder x) t = some (t.push x) := by
  cases x with
  | arr l =>
    simp only [postorder, leave_cons, TCall.act, Option.bind_some, leave_append, leave_postorders l, leave_nil, Tree.addMark, Tree.popArray, popMarked_back,
      Option.map_some]
  | ref l =>
    have := popMarked_back (l.map .ident) t
    rw [← List.map_reverse] at this
    simp only [postorder, leave_cons, TCall.act, Option.bind_some, leave_append, leave_names, leave_nil, Tree.addMark, Tree.popIdentifierReference, this,
      mapM_ident, Option.map_some]
  | func f l =>
    have := popMarked_back l (t.push (.ident f))
    simp only [postorder, leave_cons, TCall.act, Option.bind_some, leave_append, leave_postorders l, leave_nil, Tree.addMark, Tree.addName, Tree.popArray, this,
      Option.map_some]
    rfl
  | pred l o => simp only [postorder, leave_append, leave_postorder l, leave_postorder o, Option.bind_some]; rfl
  | cmp l o r => simp only [postorder, leave_append, leave_postorder l, leave_postorder o, leave_postorder r, Option.bind_some]; rfl
  | logic l o r => simp only [postorder, leave_append, leave_postorder l, leave_postorder o, leave_postorder r, Option.bind_some]; rfl
  | paren e => simp only [postorder, leave_append, leave_postorder e, Option.bind_some]; rfl
  | not e => simp only [postorder, leave_append, leave_postorder e, Option.bind_some]; rfl
  | between l o a b =>
    simp only [postorder, leave_append, leave_postorder l, leave_postorder o, leave_postorder a, leave_postorder b, Option.bind_some]; rfl
  | _ => rfl
theorem leave_postorders (l : List Node) (t : Tree) : leave (postorders l) t = some { t with stack := l.reverse ++ t.stack } := by
  cases l with
  | nil => rfl
  | cons x l =>
    simp only [postorders, leave_append, leave_postorder x, Option.bind_some, leave_postorders l]
    simp [Tree.push]
end

/-- C92: the calls of any node in postorder, run on any tree, put exactly that node on the stack and leave the rest of the tree as it was. -/
theorem C92_builds {P : Prog} (hP : goProgram = some P) (Q : Char → Bool) (n : Nat) (hn : 4 ≤ n) (p : Nat) (h : Heap) (x : Node) (t : Tree) :
    ∃ rs, goCalls P (mqLib Q) n p (postorder x) (h.put p (treeVal t)) = .ok (rs, h.put p (treeVal { t with stack := x :: t.stack })) := by
  rw [C92_calls hP Q n hn]
  have := leave_postorder x t
  unfold leave at this
  cases e : tCalls (postorder x) t with
  | none => simp [e] at this
  | some r =>
    simp only [e, Option.map_some, Option.some.injEq] at this
    exact ⟨_, by simp only [this]; rfl⟩

example : postorder (.cmp (.ident c!"a") (.op c!"=") (.func c!"f" [.int 1])) =
    [.addName c!"a", .push (.op c!"="), .addName c!"f", .addMark, .push (.int 1), .popArray, .popFunction, .popCompare] := rfl

/-! ## AddFloat -/

/-- The library with a function for `strconv.ParseFloat(s, 64)`. -/
def floatLib (Q : Char → Bool) (F : Str → Mini.Val × Option Err) : Lib := fun x args h =>
  if x = c!"strconv.ParseFloat" then match args with | [.str s, .int 64] => .ok ([(F s).1, optErr errVal (F s).2], h) | _ => .stuck
  else mqLib Q x args h

section
variable {Q : Char → Bool} {F : Str → Mini.Val × Option Err} {n p : Nat} {h : Heap} {t : Tree}

theorem fMeth_tree {m : Str} {f : Func} {args} (hf : findFunc (c!"Tree." ++ m) mq.decls = some f) (hptr : f.ptr = true) :
    call mq (floatLib Q F) (n + 1) (.meth (.ptr p) m) args (h.put p (treeVal t)) =
      runBody mq (call mq (floatLib Q F) n) f.params f.results f.body [] (.ptr p :: args) (h.put p (treeVal t)) := by
  show runMeth mq (floatLib Q F) (call mq (floatLib Q F) n) (.ptr p) m args _ = _
  simp only [runMeth, structOf, put_mem_same, treeVal]
  have e : c!"Tree" ++ '.' :: m = c!"Tree." ++ m := rfl
  rw [e, hf]
  simp [hptr]

theorem fAddError_run (e : Option Err) :
    call mq (floatLib Q F) (n + 1) (.meth (.ptr p) c!"AddError") [optErr errVal e] (h.put p (treeVal t)) = .ok ([], h.put p (treeVal (t.addError e))) := by
  rw [fMeth_tree (f := ⟨true, [c!"t", c!"err"], [], treeTreeAddError⟩) rfl rfl, runBody_plain rfl (by decide) (by decide)]
  cases e with
  | none => gorun [treeTreeAddError, optErr, Tree.addError]
  | some e =>
    have h1 := errVal_obj e
    rw [show optErr errVal (some e) = errVal e from rfl]
    generalize hv : errVal e = v at h1
    gorun [treeTreeAddError, sel_errors, h1]
    gorun [treeVal, Tree.addError, hv]

theorem fg_ParseFloat : call mq (floatLib Q F) (n + 1) (.glob c!"strconv.ParseFloat") [] h = .ok ([.lib c!"strconv.ParseFloat"], h) := rfl
theorem fl_ParseFloat (s : Str) : call mq (floatLib Q F) (n + 1) (.lib c!"strconv.ParseFloat") [.str s, .int 64] h =
    .ok ([(F s).1, optErr errVal (F s).2], h) := rfl
theorem fg_value : call mq (floatLib Q F) (n + 1) (.glob c!"ValueNodeType") [] h = .ok ([.str c!"value"], h) := rfl
theorem fg_float : call mq (floatLib Q F) (n + 1) (.glob c!"FloatValueType") [] h = .ok ([.str c!"float"], h) := rfl

end

/-- C92: `AddFloat`, whatever `strconv.ParseFloat` returns: a node of the type float with that value is put on the stack, also if there is an error, and the error is recorded. -/
theorem C92_float {P : Prog} (hP : goProgram = some P) (Q : Char → Bool) (F : Str → Mini.Val × Option Err) (n : Nat) (hn : 2 ≤ n) (p : Nat) (h : Heap)
    (t : Tree) (s : Str) :
    call P (floatLib Q F) n (.meth (.ptr p) c!"AddFloat") [.str s] (h.put p (treeVal t)) = .ok ([], h.put p (.obj c!"Tree" [
      (c!"Stack", .slice (nodeVals t.stack.reverse ++
        [.obj c!"Node" [(c!"Type", .str c!"value"), (c!"ValueType", .str c!"float"), (c!"Float", (F s).1)]])),
      (c!"Errors", .slice ((t.errors ++ (F s).2.toList).map errVal)),
      (c!"marks", .slice (t.marks.reverse.map fun (m : Nat) => Mini.Val.int m))])) := by
  obtain ⟨n, rfl⟩ : ∃ n', n = n' + 2 := ⟨n - 2, by omega⟩
  rw [mq_of hP, fMeth_tree (f := ⟨true, [c!"t", c!"s"], [], treeTreeAddFloat⟩) rfl rfl, runBody_plain rfl (by decide) (by decide)]
  gorun [treeTreeAddFloat, pk_strconv, fg_ParseFloat, fl_ParseFloat, m_AddError, fAddError_run, sel_stack, fg_value, fg_float, mk_Node]
  cases (F s).2 <;> gorun [treeVal, Tree.addError]

example (h : Heap) (Q : Char → Bool) : call mq (floatLib Q fun s => (.nil, some (.badInt s))) 2 (.meth (.ptr 0) c!"AddFloat") [.str c!"x"] (h.put 0 (treeVal {})) =
    .ok ([], h.put 0 (.obj c!"Tree" [
      (c!"Stack", .slice [.obj c!"Node" [(c!"Type", .str c!"value"), (c!"ValueType", .str c!"float"), (c!"Float", .nil)]]),
      (c!"Errors", .slice [errVal (.badInt c!"x")]), (c!"marks", .slice [])])) := C92_float C81_program Q _ 2 (by decide) 0 h {} c!"x"

end Verif
