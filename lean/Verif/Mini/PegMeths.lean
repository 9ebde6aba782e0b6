import Verif.Mini.TreeMore
import Verif.ParseThms
import Verif.Digits

/-! # Running `Execute` in /repo/miniquery/miniquery.peg.go:360-433 -/

namespace Verif.Mini
open Verif

variable {Q : Char → Bool} {n a b : Nat} {h : Heap} {t : Tree} {q : Str} {buf : List Val} {toks : Val}

/-- A parser object: /repo/miniquery/miniquery.peg.go:262-272. -/
def pegObj (b : Nat) (q : Str) (buf : List Val) (toks : Val) : Val :=
  .obj c!"MiniQueryPeg" [(c!"Tree", .ptr b), (c!"Buffer", .str q), (c!"buffer", .slice buf), (c!"rules", .slice []), (c!"parse", .nil),
    (c!"reset", .nil), (c!"Pretty", .bool false), (c!"tokens32", toks)]

/-- The memory with a parser object and its stack. -/
def pegHeap (h : Heap) (a b : Nat) (q : Str) (buf : List Val) (toks : Val) (t : Tree) : Heap :=
  (h.put a (pegObj b q buf toks)).put b (treeVal t)

theorem pegHeap_mem (hab : a ≠ b) : (pegHeap h a b q buf toks t).mem a = pegObj b q buf toks := by
  simp [pegHeap, put_mem_other, hab]

/-- A method of the stack called on the parser object. -/
theorem meth_peg (hab : a ≠ b) {m : Str} {args} (h1 : findFunc (c!"MiniQueryPeg." ++ m) mq.decls = none)
    (h2 : (((findStruct c!"MiniQueryPeg" mq.decls).getD []).find? fun (g, t) => t = .un c!"*" (.id g) ∧ (findFunc (g ++ '.' :: m) mq.decls).isSome) =
      some (c!"Tree", .un c!"*" (.id c!"Tree"))) :
    mqCall Q (n + 1) (.meth (.ptr a) m) args (pegHeap h a b q buf toks t) = mqCall Q n (.meth (.ptr b) m) args (pegHeap h a b q buf toks t) := by
  show runMeth mq (mqLib Q) (mqCall Q n) (.ptr a) m args _ = _
  simp only [runMeth, structOf, pegHeap_mem hab, pegObj]
  have e : c!"MiniQueryPeg" ++ '.' :: m = c!"MiniQueryPeg." ++ m := rfl
  rw [e, h1]
  simp only []
  rw [h2]
  simp [ownField, fget]

theorem select_peg (hab : a ≠ b) {m : Str} (h0 : fget m [(c!"Tree", Val.nil), (c!"Buffer", .nil), (c!"buffer", .nil), (c!"rules", .nil), (c!"parse", .nil),
      (c!"reset", .nil), (c!"Pretty", .nil), (c!"tokens32", .nil)] = none)
    (h1 : (findStruct c!"MiniQueryPeg" mq.decls).bind (fieldType m) = none) (h2 : (findStruct c!"MiniQueryPeg" mq.decls).bind (embedded mq m) = none) :
    select mq (.ptr a) m (pegHeap h a b q buf toks t) = .ok ([.meth (.ptr a) m], pegHeap h a b q buf toks t) := by
  have h3 : ∀ x1 x2 x3 x4 x5 x6 x7 x8, fget m [(c!"Tree", x1), (c!"Buffer", x2), (c!"buffer", x3), (c!"rules", x4), (c!"parse", x5),
      (c!"reset", x6), (c!"Pretty", x7), (c!"tokens32", x8)] = none := by
    intros
    revert h0
    simp only [fget]
    repeat' split
    all_goals simp
  simp only [select, structOf, pegHeap_mem hab, pegObj, ownField, h3, h1, h2, Option.map_none]

theorem sel_Buffer (hab : a ≠ b) : select mq (.ptr a) c!"Buffer" (pegHeap h a b q buf toks t) = .ok ([.str q], pegHeap h a b q buf toks t) := by
  simp [select, structOf, pegHeap_mem hab, pegObj, ownField, fget]
theorem sel_buffer (hab : a ≠ b) : select mq (.ptr a) c!"buffer" (pegHeap h a b q buf toks t) = .ok ([.slice buf], pegHeap h a b q buf toks t) := by
  simp [select, structOf, pegHeap_mem hab, pegObj, ownField, fget]
theorem sel_Tokens (hab : a ≠ b) : select mq (.ptr a) c!"Tokens" (pegHeap h a b q buf toks t) =
    .ok ([.meth (.ptr a) c!"Tokens"], pegHeap h a b q buf toks t) := select_peg hab rfl rfl rfl
theorem tokens_run (hab : a ≠ b) : mqCall Q (n + 1) (.meth (.ptr a) c!"Tokens") [] (pegHeap h a b q buf toks t) =
    .ok ([toks], pegHeap h a b q buf toks t) := by
  show runMeth mq (mqLib Q) (mqCall Q n) (.ptr a) c!"Tokens" [] _ = _
  have h1 : findFunc c!"MiniQueryPeg.Tokens" mq.decls = none := rfl
  have h2 : (((findStruct c!"MiniQueryPeg" mq.decls).getD []).find?
    fun (g, t) => t = .un c!"*" (.id g) ∧ (findFunc (g ++ '.' :: c!"Tokens") mq.decls).isSome) = none := rfl
  simp only [runMeth, structOf, pegHeap_mem hab, pegObj]
  rw [show c!"MiniQueryPeg" ++ '.' :: c!"Tokens" = c!"MiniQueryPeg.Tokens" from rfl, h1]
  simp only []
  rw [h2]
  simp [mqLib, pegHeap_mem hab, pegObj, fget]

/-! ## The constants of the rules -/

theorem g_PegText : mqCall Q (n + 1) (.glob c!"rulePegText") [] h = .ok ([.lib c!"rulePegText"], h) := rfl
theorem g_act0 : mqCall Q (n + 1) (.glob c!"ruleAction0") [] h = .ok ([.lib c!"ruleAction0"], h) := rfl
theorem g_act1 : mqCall Q (n + 1) (.glob c!"ruleAction1") [] h = .ok ([.lib c!"ruleAction1"], h) := rfl
theorem g_act2 : mqCall Q (n + 1) (.glob c!"ruleAction2") [] h = .ok ([.lib c!"ruleAction2"], h) := rfl
theorem g_act3 : mqCall Q (n + 1) (.glob c!"ruleAction3") [] h = .ok ([.lib c!"ruleAction3"], h) := rfl
theorem g_act4 : mqCall Q (n + 1) (.glob c!"ruleAction4") [] h = .ok ([.lib c!"ruleAction4"], h) := rfl
theorem g_act5 : mqCall Q (n + 1) (.glob c!"ruleAction5") [] h = .ok ([.lib c!"ruleAction5"], h) := rfl
theorem g_act6 : mqCall Q (n + 1) (.glob c!"ruleAction6") [] h = .ok ([.lib c!"ruleAction6"], h) := rfl
theorem g_act7 : mqCall Q (n + 1) (.glob c!"ruleAction7") [] h = .ok ([.lib c!"ruleAction7"], h) := rfl
theorem g_act8 : mqCall Q (n + 1) (.glob c!"ruleAction8") [] h = .ok ([.lib c!"ruleAction8"], h) := rfl
theorem g_act9 : mqCall Q (n + 1) (.glob c!"ruleAction9") [] h = .ok ([.lib c!"ruleAction9"], h) := rfl
theorem g_act10 : mqCall Q (n + 1) (.glob c!"ruleAction10") [] h = .ok ([.lib c!"ruleAction10"], h) := rfl
theorem g_act11 : mqCall Q (n + 1) (.glob c!"ruleAction11") [] h = .ok ([.lib c!"ruleAction11"], h) := rfl
theorem g_act12 : mqCall Q (n + 1) (.glob c!"ruleAction12") [] h = .ok ([.lib c!"ruleAction12"], h) := rfl
theorem g_act13 : mqCall Q (n + 1) (.glob c!"ruleAction13") [] h = .ok ([.lib c!"ruleAction13"], h) := rfl
theorem g_act14 : mqCall Q (n + 1) (.glob c!"ruleAction14") [] h = .ok ([.lib c!"ruleAction14"], h) := rfl
theorem g_act15 : mqCall Q (n + 1) (.glob c!"ruleAction15") [] h = .ok ([.lib c!"ruleAction15"], h) := rfl
theorem g_act16 : mqCall Q (n + 1) (.glob c!"ruleAction16") [] h = .ok ([.lib c!"ruleAction16"], h) := rfl
theorem g_act17 : mqCall Q (n + 1) (.glob c!"ruleAction17") [] h = .ok ([.lib c!"ruleAction17"], h) := rfl
theorem g_act18 : mqCall Q (n + 1) (.glob c!"ruleAction18") [] h = .ok ([.lib c!"ruleAction18"], h) := rfl
theorem g_act19 : mqCall Q (n + 1) (.glob c!"ruleAction19") [] h = .ok ([.lib c!"ruleAction19"], h) := rfl
theorem g_act20 : mqCall Q (n + 1) (.glob c!"ruleAction20") [] h = .ok ([.lib c!"ruleAction20"], h) := rfl
theorem g_act21 : mqCall Q (n + 1) (.glob c!"ruleAction21") [] h = .ok ([.lib c!"ruleAction21"], h) := rfl
theorem g_act22 : mqCall Q (n + 1) (.glob c!"ruleAction22") [] h = .ok ([.lib c!"ruleAction22"], h) := rfl
theorem g_act23 : mqCall Q (n + 1) (.glob c!"ruleAction23") [] h = .ok ([.lib c!"ruleAction23"], h) := rfl
theorem g_act24 : mqCall Q (n + 1) (.glob c!"ruleAction24") [] h = .ok ([.lib c!"ruleAction24"], h) := rfl
theorem g_act25 : mqCall Q (n + 1) (.glob c!"ruleAction25") [] h = .ok ([.lib c!"ruleAction25"], h) := rfl
theorem g_act26 : mqCall Q (n + 1) (.glob c!"ruleAction26") [] h = .ok ([.lib c!"ruleAction26"], h) := rfl
theorem g_act27 : mqCall Q (n + 1) (.glob c!"ruleAction27") [] h = .ok ([.lib c!"ruleAction27"], h) := rfl
theorem g_act28 : mqCall Q (n + 1) (.glob c!"ruleAction28") [] h = .ok ([.lib c!"ruleAction28"], h) := rfl
theorem g_act29 : mqCall Q (n + 1) (.glob c!"ruleAction29") [] h = .ok ([.lib c!"ruleAction29"], h) := rfl

/-! ## The methods of the stack, called on the parser object -/

/-- The outcome of a method that may panic. -/
def orPanic' (h : Heap) (a b : Nat) (q : Str) (buf : List Val) (toks : Val) : Option Tree → Vals
  | none => .panic
  | some t => .ok ([], pegHeap h a b q buf toks t)

theorem s_PopLogic (hab : a ≠ b) : select mq (.ptr a) c!"PopLogic" (pegHeap h a b q buf toks t) =
    .ok ([.meth (.ptr a) c!"PopLogic"], pegHeap h a b q buf toks t) := select_peg hab rfl rfl rfl
theorem p_PopLogic (hab : a ≠ b) : mqCall Q (n + 5) (.meth (.ptr a) c!"PopLogic") [] (pegHeap h a b q buf toks t) =
    .ok ([], pegHeap h a b q buf toks t.popLogic) := by
  rw [meth_peg hab rfl rfl, pegHeap, popLogic_run]; rfl
theorem s_PopNot (hab : a ≠ b) : select mq (.ptr a) c!"PopNot" (pegHeap h a b q buf toks t) =
    .ok ([.meth (.ptr a) c!"PopNot"], pegHeap h a b q buf toks t) := select_peg hab rfl rfl rfl
theorem p_PopNot (hab : a ≠ b) : mqCall Q (n + 5) (.meth (.ptr a) c!"PopNot") [] (pegHeap h a b q buf toks t) =
    .ok ([], pegHeap h a b q buf toks t.popNot) := by
  rw [meth_peg hab rfl rfl, pegHeap, popNot_run]; rfl
theorem s_PopCompare (hab : a ≠ b) : select mq (.ptr a) c!"PopCompare" (pegHeap h a b q buf toks t) =
    .ok ([.meth (.ptr a) c!"PopCompare"], pegHeap h a b q buf toks t) := select_peg hab rfl rfl rfl
theorem p_PopCompare (hab : a ≠ b) : mqCall Q (n + 5) (.meth (.ptr a) c!"PopCompare") [] (pegHeap h a b q buf toks t) =
    .ok ([], pegHeap h a b q buf toks t.popCompare) := by
  rw [meth_peg hab rfl rfl, pegHeap, popCompare_run]; rfl
theorem s_PopPredicate (hab : a ≠ b) : select mq (.ptr a) c!"PopPredicate" (pegHeap h a b q buf toks t) =
    .ok ([.meth (.ptr a) c!"PopPredicate"], pegHeap h a b q buf toks t) := select_peg hab rfl rfl rfl
theorem p_PopPredicate (hab : a ≠ b) : mqCall Q (n + 5) (.meth (.ptr a) c!"PopPredicate") [] (pegHeap h a b q buf toks t) =
    .ok ([], pegHeap h a b q buf toks t.popPredicate) := by
  rw [meth_peg hab rfl rfl, pegHeap, popPredicate_run]; rfl
theorem s_PopBetween (hab : a ≠ b) : select mq (.ptr a) c!"PopBetween" (pegHeap h a b q buf toks t) =
    .ok ([.meth (.ptr a) c!"PopBetween"], pegHeap h a b q buf toks t) := select_peg hab rfl rfl rfl
theorem p_PopBetween (hab : a ≠ b) : mqCall Q (n + 5) (.meth (.ptr a) c!"PopBetween") [] (pegHeap h a b q buf toks t) =
    .ok ([], pegHeap h a b q buf toks t.popBetween) := by
  rw [meth_peg hab rfl rfl, pegHeap, popBetween_run]; rfl
theorem s_PopParentheses (hab : a ≠ b) : select mq (.ptr a) c!"PopParentheses" (pegHeap h a b q buf toks t) =
    .ok ([.meth (.ptr a) c!"PopParentheses"], pegHeap h a b q buf toks t) := select_peg hab rfl rfl rfl
theorem p_PopParentheses (hab : a ≠ b) : mqCall Q (n + 5) (.meth (.ptr a) c!"PopParentheses") [] (pegHeap h a b q buf toks t) =
    .ok ([], pegHeap h a b q buf toks t.popParentheses) := by
  rw [meth_peg hab rfl rfl, pegHeap, popParentheses_run]; rfl
theorem s_PopFunction (hab : a ≠ b) : select mq (.ptr a) c!"PopFunction" (pegHeap h a b q buf toks t) =
    .ok ([.meth (.ptr a) c!"PopFunction"], pegHeap h a b q buf toks t) := select_peg hab rfl rfl rfl
theorem p_PopFunction (hab : a ≠ b) : mqCall Q (n + 5) (.meth (.ptr a) c!"PopFunction") [] (pegHeap h a b q buf toks t) =
    .ok ([], pegHeap h a b q buf toks t.popFunction) := by
  rw [meth_peg hab rfl rfl, pegHeap, popFunction_run]; rfl
theorem s_AddMark (hab : a ≠ b) : select mq (.ptr a) c!"AddMark" (pegHeap h a b q buf toks t) =
    .ok ([.meth (.ptr a) c!"AddMark"], pegHeap h a b q buf toks t) := select_peg hab rfl rfl rfl
theorem p_AddMark (hab : a ≠ b) : mqCall Q (n + 5) (.meth (.ptr a) c!"AddMark") [] (pegHeap h a b q buf toks t) =
    .ok ([], pegHeap h a b q buf toks t.addMark) := by
  rw [meth_peg hab rfl rfl, pegHeap, addMark_run]; rfl
theorem s_PopArray (hab : a ≠ b) : select mq (.ptr a) c!"PopArray" (pegHeap h a b q buf toks t) =
    .ok ([.meth (.ptr a) c!"PopArray"], pegHeap h a b q buf toks t) := select_peg hab rfl rfl rfl
theorem p_PopArray (hab : a ≠ b) : mqCall Q (n + 5) (.meth (.ptr a) c!"PopArray") [] (pegHeap h a b q buf toks t) =
    orPanic' h a b q buf toks t.popArray := by
  rw [meth_peg hab rfl rfl, pegHeap, popArray_run]
  cases t.popArray <;> rfl
theorem s_PopIdentifierReference (hab : a ≠ b) : select mq (.ptr a) c!"PopIdentifierReference" (pegHeap h a b q buf toks t) =
    .ok ([.meth (.ptr a) c!"PopIdentifierReference"], pegHeap h a b q buf toks t) := select_peg hab rfl rfl rfl
theorem p_PopIdentifierReference (hab : a ≠ b) : mqCall Q (n + 5) (.meth (.ptr a) c!"PopIdentifierReference") [] (pegHeap h a b q buf toks t) =
    orPanic' h a b q buf toks t.popIdentifierReference := by
  rw [meth_peg hab rfl rfl, pegHeap, popIdentifierReference_run]
  cases t.popIdentifierReference <;> rfl
theorem s_AddNull (hab : a ≠ b) : select mq (.ptr a) c!"AddNull" (pegHeap h a b q buf toks t) =
    .ok ([.meth (.ptr a) c!"AddNull"], pegHeap h a b q buf toks t) := select_peg hab rfl rfl rfl
theorem p_AddNull (hab : a ≠ b) : mqCall Q (n + 5) (.meth (.ptr a) c!"AddNull") [] (pegHeap h a b q buf toks t) =
    .ok ([], pegHeap h a b q buf toks t.addNull) := by
  rw [meth_peg hab rfl rfl, pegHeap, addNull_run]; rfl
theorem s_AddCompare (hab : a ≠ b) : select mq (.ptr a) c!"AddCompare" (pegHeap h a b q buf toks t) =
    .ok ([.meth (.ptr a) c!"AddCompare"], pegHeap h a b q buf toks t) := select_peg hab rfl rfl rfl
theorem p_AddCompare (hab : a ≠ b) (s : Str) : mqCall Q (n + 5) (.meth (.ptr a) c!"AddCompare") [.str s] (pegHeap h a b q buf toks t) =
    .ok ([], pegHeap h a b q buf toks (t.addOperation s)) := by
  rw [meth_peg hab rfl rfl, pegHeap, addCompare_run]; rfl
theorem s_AddOperation (hab : a ≠ b) : select mq (.ptr a) c!"AddOperation" (pegHeap h a b q buf toks t) =
    .ok ([.meth (.ptr a) c!"AddOperation"], pegHeap h a b q buf toks t) := select_peg hab rfl rfl rfl
theorem p_AddOperation (hab : a ≠ b) (s : Str) : mqCall Q (n + 5) (.meth (.ptr a) c!"AddOperation") [.str s] (pegHeap h a b q buf toks t) =
    .ok ([], pegHeap h a b q buf toks (t.addOperation s)) := by
  rw [meth_peg hab rfl rfl, pegHeap, addOperation_run]; rfl
theorem s_AddName (hab : a ≠ b) : select mq (.ptr a) c!"AddName" (pegHeap h a b q buf toks t) =
    .ok ([.meth (.ptr a) c!"AddName"], pegHeap h a b q buf toks t) := select_peg hab rfl rfl rfl
theorem p_AddName (hab : a ≠ b) (s : Str) : mqCall Q (n + 5) (.meth (.ptr a) c!"AddName") [.str s] (pegHeap h a b q buf toks t) =
    .ok ([], pegHeap h a b q buf toks (t.addName s)) := by
  rw [meth_peg hab rfl rfl, pegHeap, addName_run]; rfl
theorem s_AddLogic (hab : a ≠ b) : select mq (.ptr a) c!"AddLogic" (pegHeap h a b q buf toks t) =
    .ok ([.meth (.ptr a) c!"AddLogic"], pegHeap h a b q buf toks t) := select_peg hab rfl rfl rfl
theorem p_AddLogic (hab : a ≠ b) (s : Str) : mqCall Q (n + 5) (.meth (.ptr a) c!"AddLogic") [.str s] (pegHeap h a b q buf toks t) =
    .ok ([], pegHeap h a b q buf toks (t.addOperation s)) := by
  rw [meth_peg hab rfl rfl, pegHeap, addLogic_run]; rfl
theorem s_AddMatch (hab : a ≠ b) : select mq (.ptr a) c!"AddMatch" (pegHeap h a b q buf toks t) =
    .ok ([.meth (.ptr a) c!"AddMatch"], pegHeap h a b q buf toks t) := select_peg hab rfl rfl rfl
theorem p_AddMatch (hab : a ≠ b) (s : Str) : mqCall Q (n + 5) (.meth (.ptr a) c!"AddMatch") [.str s] (pegHeap h a b q buf toks t) =
    .ok ([], pegHeap h a b q buf toks (t.addOperation s)) := by
  rw [meth_peg hab rfl rfl, pegHeap, addMatch_run]; rfl
theorem s_AddInteger (hab : a ≠ b) : select mq (.ptr a) c!"AddInteger" (pegHeap h a b q buf toks t) =
    .ok ([.meth (.ptr a) c!"AddInteger"], pegHeap h a b q buf toks t) := select_peg hab rfl rfl rfl
theorem p_AddInteger (hab : a ≠ b) (s : Str) : mqCall Q (n + 5) (.meth (.ptr a) c!"AddInteger") [.str s] (pegHeap h a b q buf toks t) =
    .ok ([], pegHeap h a b q buf toks (t.addInteger s)) := by
  rw [meth_peg hab rfl rfl, pegHeap, addInteger_run]; rfl
theorem s_AddBoolean (hab : a ≠ b) : select mq (.ptr a) c!"AddBoolean" (pegHeap h a b q buf toks t) =
    .ok ([.meth (.ptr a) c!"AddBoolean"], pegHeap h a b q buf toks t) := select_peg hab rfl rfl rfl
theorem p_AddBoolean (hab : a ≠ b) (s : Str) : mqCall Q (n + 5) (.meth (.ptr a) c!"AddBoolean") [.str s] (pegHeap h a b q buf toks t) =
    .ok ([], pegHeap h a b q buf toks (t.addBoolean s)) := by
  rw [meth_peg hab rfl rfl, pegHeap, addBoolean_run]; rfl
theorem s_AddString (hab : a ≠ b) : select mq (.ptr a) c!"AddString" (pegHeap h a b q buf toks t) =
    .ok ([.meth (.ptr a) c!"AddString"], pegHeap h a b q buf toks t) := select_peg hab rfl rfl rfl
theorem p_AddString (hab : a ≠ b) (s : Str) : mqCall Q (n + 5) (.meth (.ptr a) c!"AddString") [.str s] (pegHeap h a b q buf toks t) =
    .ok ([], pegHeap h a b q buf toks (t.addString s)) := by
  rw [meth_peg hab rfl rfl, pegHeap, addString_run]; rfl

theorem s_Pop (hab : a ≠ b) : select mq (.ptr a) c!"Pop" (pegHeap h a b q buf toks t) =
    .ok ([.meth (.ptr a) c!"Pop"], pegHeap h a b q buf toks t) := select_peg hab rfl rfl rfl
theorem p_Pop (hab : a ≠ b) : mqCall Q (n + 5) (.meth (.ptr a) c!"Pop") [] (pegHeap h a b q buf toks t) =
    .ok ([nodeVal t.pop.1], pegHeap h a b q buf toks t.pop.2) := by
  rw [meth_peg hab rfl rfl, pegHeap, pop_run]; rfl

theorem sel_pegErrors (hab : a ≠ b) : select mq (.ptr a) c!"Errors" (pegHeap h a b q buf toks t) =
    .ok ([.slice (t.errors.map errVal)], pegHeap h a b q buf toks t) := by
  have h1 : (findStruct c!"MiniQueryPeg" mq.decls).bind (fieldType c!"Errors") = none := rfl
  have h2 : (findStruct c!"MiniQueryPeg" mq.decls).bind (embedded mq c!"Errors") = some c!"Tree" := rfl
  have h3 : (pegHeap h a b q buf toks t).mem b = treeVal t := by simp [pegHeap]
  simp only [select, structOf, pegHeap_mem hab, pegObj, ownField, fget, h1, h2, Option.map_none]
  simp [structOf, h3, treeVal, fget]

end Verif.Mini
