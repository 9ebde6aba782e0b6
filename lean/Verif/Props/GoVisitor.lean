import Verif.Props.GoText
import Verif.Mini.VisitorInit

/-!
# C82: visitor.go, run as written

The callbacks of a visitor are arbitrary function values; the library `L` that the calls outside the files go to is arbitrary as well.
-/

namespace Verif
open Mini

/-- C82: `Visit` calls the callback for the type of the node, with the same context and node, and returns what the callback returns (`cbField` is the table; a
function node goes to `BetweenExpression`).  If the callback is nil, the call panics. -/
theorem C82_dispatch {P : Prog} (hP : goProgram = some P) (L : Lib) (fs : List (Str × Mini.Val)) (ctx : Mini.Val) {x : Node} {f : Str} (hf : cbField x = some f) (n : Nat)
    (hn : 1 ≤ n) (h : Heap) :
    call P L (n + 1) (.meth (.obj c!"Visitor" fs) c!"Visit") [ctx, nodeVal x] h = call P L n (cbOf fs f) [ctx, nodeVal x] h ∧
    (cbOf fs f = .nil → call P L (n + 1) (.meth (.obj c!"Visitor" fs) c!"Visit") [ctx, nodeVal x] h = .panic) := by
  obtain ⟨n, rfl⟩ : ∃ n', n = n' + 1 := ⟨n - 1, by omega⟩
  rw [mq_of hP]
  refine ⟨vis_dispatch fs ctx hf, fun e => ?_⟩
  rw [vis_dispatch fs ctx hf, e]
  rfl

/-- C82: `Visit` of a reference calls no callback: it makes an error. -/
theorem C82_reference {P : Prog} (hP : goProgram = some P) (L : Lib) (fs : List (Str × Mini.Val)) (ctx : Mini.Val) (xs : List Str) (n : Nat) (hn : 2 ≤ n) (h : Heap) :
    call P L n (.meth (.obj c!"Visitor" fs) c!"Visit") [ctx, nodeVal (.ref xs)] h = L c!"errors.Errorf" [.str c!"invalid type %q", .str c!"reference"] h := by
  obtain ⟨n, rfl⟩ : ∃ n', n = n' + 2 := ⟨n - 2, by omega⟩
  rw [mq_of hP]
  exact vis_ref fs ctx xs

/-- C82: every node but a nil node and a reference has a callback. -/
theorem C82_total (x : Node) : cbField x = none ↔ x = .nil ∨ ∃ xs, x = .ref xs := by
  cases x <;> simp [cbField]

/-- C82: `Init` changes nothing that its caller can see. -/
theorem C82_init {P : Prog} (hP : goProgram = some P) (L : Lib) (fs : List (Str × Mini.Val)) (hi : ∀ g, isFunc (cbOf fs g) = true) (n : Nat) (hn : 1 ≤ n) (h : Heap) :
    ∃ h', Keeps h h' ∧ call P L n (.meth (.obj c!"Visitor" fs) c!"Init") [] h = .ok ([], h') := by
  obtain ⟨n, rfl⟩ : ∃ n', n = n' + 1 := ⟨n - 1, by omega⟩
  rw [mq_of hP]
  obtain ⟨w, e⟩ := visitorInit_run (L := L) (n := n) (h := h) hi
  refine ⟨_, ?_, e⟩
  constructor
  · simp [Heap.alloc]
  · intro a ha
    simp [Heap.put, Heap.alloc, show ¬ a = h.next by omega]

/-- `v.Init(); return v.Visit(ctx, n)` -/
def initThenVisit : Stmts :=
  .cons (.expr (.call (.sel (.id c!"v") c!"Init") .nil false))
    (.cons (.ret (.cons (.call (.sel (.id c!"v") c!"Visit") (.cons (.id c!"ctx") (.cons (.id c!"n") .nil)) false) .nil)) .nil)

/-- C82: calling `Init` first does not help: visiting a node whose callback was not set panics. -/
theorem C82_init_useless {P : Prog} (hP : goProgram = some P) (L : Lib) (fs : List (Str × Mini.Val)) (hi : ∀ g, isFunc (cbOf fs g) = true)
    (hI : fget c!"Init" fs = none) (hV : fget c!"Visit" fs = none) (ctx : Mini.Val) {x : Node} {f : Str} (hf : cbField x = some f) (hc : cbOf fs f = .nil) (n : Nat)
    (hn : 2 ≤ n) (h : Heap) :
    runBody P (call P L n) [c!"v", c!"ctx", c!"n"] [c!"_"] initThenVisit [] [.obj c!"Visitor" fs, ctx, nodeVal x] h = .panic := by
  obtain ⟨h', _, e⟩ := C82_init hP L fs hi n (by omega) h
  obtain ⟨n, rfl⟩ : ∃ n', n = n' + 2 := ⟨n - 2, by omega⟩
  have ev := (C82_dispatch hP L fs ctx hf (n + 1) (by omega) h').2 hc
  rw [mq_of hP] at ev e ⊢
  have sI : ∀ h, select mq (.obj c!"Visitor" fs) c!"Init" h = .ok ([.meth (.obj c!"Visitor" fs) c!"Init"], h) := by
    intro h
    simp only [select, structOf, ownField, hI]
    rfl
  have sV : ∀ h, select mq (.obj c!"Visitor" fs) c!"Visit" h = .ok ([.meth (.obj c!"Visitor" fs) c!"Visit"], h) := by
    intro h
    simp only [select, structOf, ownField, hV]
    rfl
  rw [runBody_plain rfl (by decide) (by decide)]
  gorun [initThenVisit, sI, sV, e, ev]

/-! ## Concrete runs -/

/-- A library with one callback, which notes the node's type and returns no error. -/
def noteLib : Lib := fun x args h =>
  if x = c!"note" then match args with | [_, .obj _ ((_, .str t) :: _)] => .ok ([.str t], h) | _ => .stuck
  else .ok ([.str x], h)

example : ranText (call mq noteLib 3 (.meth (.obj c!"Visitor" [(c!"BinaryExpression", .lib c!"note")]) c!"Visit")
    [.nil, nodeVal (.cmp (.ident c!"a") (.op c!"=") (.int 1))] noHeap) = some c!"compare" := by decide +kernel

example : ranText (call mq noteLib 3 (.meth (.obj c!"Visitor" [(c!"BetweenExpression", .lib c!"note")]) c!"Visit")
    [.nil, nodeVal (.func c!"date" [])] noHeap) = some c!"function" := by decide +kernel

example : ranText (call mq noteLib 3 (.meth (.obj c!"Visitor" []) c!"Visit") [.nil, nodeVal (.ref [c!"a", c!"b"])] noHeap) = some c!"errors.Errorf" := by
  decide +kernel

example : (match runBody mq (call mq noteLib 9) [c!"v", c!"ctx", c!"n"] [c!"_"] initThenVisit [] [.obj c!"Visitor" [], .nil, nodeVal (.int 1)] noHeap with
    | .panic => true | _ => false) = true := by decide +kernel

end Verif
