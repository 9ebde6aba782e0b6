import Verif.Mini.StringRun

/-! # Running /repo/miniquery/visitor.go -/

namespace Verif.Mini
open Verif

variable {L : Lib} {n : Nat} {h : Heap}

/-- The field of `Visitor` whose function `Visit` calls. -/
def cbField : Node → Option Str
  | .nil => none
  | .int _ | .bool _ | .str _ | .null | .arr _ => some c!"ValueNode"
  | .op _ => some c!"OperationNode"
  | .ident _ => some c!"IdentifierNode"
  | .ref _ => none
  | .pred _ _ => some c!"PredicatesExpression"
  | .cmp _ _ _ => some c!"BinaryExpression"
  | .logic _ _ _ => some c!"LogicExpression"
  | .paren _ => some c!"ParenthesesExpression"
  | .not _ => some c!"NotExpression"
  | .between _ _ _ _ => some c!"BetweenExpression"
  | .func _ _ => some c!"BetweenExpression"

theorem u_value : call mq L (n + 1) (.glob c!"ValueNodeType") [] h = .ok ([.str c!"value"], h) := rfl
theorem u_operation : call mq L (n + 1) (.glob c!"OperationNodeType") [] h = .ok ([.str c!"operation"], h) := rfl
theorem u_identifier : call mq L (n + 1) (.glob c!"IdentifierNodeType") [] h = .ok ([.str c!"identifier"], h) := rfl
theorem u_predicates : call mq L (n + 1) (.glob c!"PredicatesExpressionType") [] h = .ok ([.str c!"predicates"], h) := rfl
theorem u_compare : call mq L (n + 1) (.glob c!"CompareExpressionType") [] h = .ok ([.str c!"compare"], h) := rfl
theorem u_logic : call mq L (n + 1) (.glob c!"LogicExpressionType") [] h = .ok ([.str c!"logic"], h) := rfl
theorem u_parentheses : call mq L (n + 1) (.glob c!"ParenthesesExpressionType") [] h = .ok ([.str c!"parentheses"], h) := rfl
theorem u_not : call mq L (n + 1) (.glob c!"NotExpressionType") [] h = .ok ([.str c!"not"], h) := rfl
theorem u_between : call mq L (n + 1) (.glob c!"BetweenExpressionType") [] h = .ok ([.str c!"between"], h) := rfl
theorem u_function : call mq L (n + 1) (.glob c!"FunctionExpressionType") [] h = .ok ([.str c!"function"], h) := rfl
theorem u_Errorf : call mq L (n + 1) (.glob c!"errors.Errorf") [] h = .ok ([.lib c!"errors.Errorf"], h) := rfl
theorem pk_errors : findPkg c!"errors" mq.decls = true := rfl

/-- The value of a field of a `Visitor`: nil if it was not set. -/
def cbOf (fs : List (Str × Val)) (f : Str) : Val := (fget f fs).getD .nil

theorem sel_cb {fs : List (Str × Val)} {f : Str} (hf : (findStruct c!"Visitor" mq.decls).bind (fieldType f) = some (.id c!"VisitFunc")) :
    select mq (.obj c!"Visitor" fs) f h = .ok ([cbOf fs f], h) := by
  cases e : fget f fs with
  | some v => simp [select, structOf, ownField, e, cbOf]
  | none =>
    have : zeroOf mq (.id c!"VisitFunc") = .nil := rfl
    simp only [select, structOf, ownField, e, cbOf, hf, Option.map_some, this, Option.getD_none]

theorem sel_ValueNode {fs} : select mq (.obj c!"Visitor" fs) c!"ValueNode" h = .ok ([cbOf fs c!"ValueNode"], h) := sel_cb rfl
theorem sel_OperationNode {fs} : select mq (.obj c!"Visitor" fs) c!"OperationNode" h = .ok ([cbOf fs c!"OperationNode"], h) := sel_cb rfl
theorem sel_IdentifierNode {fs} : select mq (.obj c!"Visitor" fs) c!"IdentifierNode" h = .ok ([cbOf fs c!"IdentifierNode"], h) := sel_cb rfl
theorem sel_Predicates {fs} : select mq (.obj c!"Visitor" fs) c!"PredicatesExpression" h = .ok ([cbOf fs c!"PredicatesExpression"], h) := sel_cb rfl
theorem sel_Binary {fs} : select mq (.obj c!"Visitor" fs) c!"BinaryExpression" h = .ok ([cbOf fs c!"BinaryExpression"], h) := sel_cb rfl
theorem sel_Logic {fs} : select mq (.obj c!"Visitor" fs) c!"LogicExpression" h = .ok ([cbOf fs c!"LogicExpression"], h) := sel_cb rfl
theorem sel_Paren {fs} : select mq (.obj c!"Visitor" fs) c!"ParenthesesExpression" h = .ok ([cbOf fs c!"ParenthesesExpression"], h) := sel_cb rfl
theorem sel_Not {fs} : select mq (.obj c!"Visitor" fs) c!"NotExpression" h = .ok ([cbOf fs c!"NotExpression"], h) := sel_cb rfl
theorem sel_Between {fs} : select mq (.obj c!"Visitor" fs) c!"BetweenExpression" h = .ok ([cbOf fs c!"BetweenExpression"], h) := sel_cb rfl
theorem sel_Function {fs} : select mq (.obj c!"Visitor" fs) c!"FunctionExpression" h = .ok ([cbOf fs c!"FunctionExpression"], h) := sel_cb rfl

theorem many_stuck {β} (k : List Val → Heap → Res β) : many .stuck k = .stuck := rfl
theorem many_deep {β} (k : List Val → Heap → Res β) : many .deep k = .deep := rfl
theorem next_stuck (k : Locals → Heap → Done) : next .stuck k = .stuck := rfl
theorem next_deep (k : Locals → Heap → Done) : next .deep k = .deep := rfl
theorem leave_stuck (n) : leave n .stuck = .stuck := rfl
theorem leave_deep (n) : leave n .deep = .deep := rfl

theorem meth_visitor {fs : List (Str × Val)} {m : Str} {f : Func} {args} (hf : findFunc (c!"Visitor." ++ m) mq.decls = some f) (hptr : f.ptr = false) :
    call mq L (n + 1) (.meth (.obj c!"Visitor" fs) m) args h = runBody mq (call mq L n) f.params f.results f.body [] (.obj c!"Visitor" fs :: args) h := by
  show runMeth mq L (call mq L n) (.obj c!"Visitor" fs) m args _ = _
  have e1 : c!"Visitor" ++ '.' :: m = c!"Visitor." ++ m := rfl
  simp only [runMeth, structOf]
  rw [e1, hf]
  simp [hptr]

set_option maxHeartbeats 1600000 in
/-- Running `Visit`: the function of the field for the type of the node is called with the same arguments. -/
theorem vis_dispatch (fs : List (Str × Val)) (ctx : Val) {x : Node} {f : Str} (hf : cbField x = some f) :
    call mq L (n + 2) (.meth (.obj c!"Visitor" fs) c!"Visit") [ctx, nodeVal x] h = call mq L (n + 1) (cbOf fs f) [ctx, nodeVal x] h := by
  rw [meth_visitor (f := ⟨false, [c!"v", c!"ctx", c!"n"], [c!"_"], visitorVisitorVisit⟩) rfl rfl, runBody_plain rfl (by decide) (by decide)]
  have hx : x ≠ .nil := by intro e; subst e; cases hf
  generalize er : call mq L (n + 1) (cbOf fs f) [ctx, nodeVal x] h = r
  have ht := fun h => sel_Type (h := h) hx
  cases x <;> simp only [cbField, Option.some.injEq, reduceCtorEq] at hf <;> subst hf <;> rcases r with ⟨vs, h'⟩ | _ | _ | _ <;>
  gorun [visitorVisitorVisit, execSwitch, anySame, endSwitch, ht, tyName, u_value, u_operation, u_identifier, u_predicates, u_compare, u_logic,
    u_parentheses, u_not, u_between, u_function, pk_n, pk_v, sel_ValueNode, sel_OperationNode, sel_IdentifierNode, sel_Predicates, sel_Binary, sel_Logic,
    sel_Paren, sel_Not, sel_Between, sel_Function, er, many_stuck, many_deep, next_stuck, next_deep, leave_stuck, leave_deep]

/-- `Visit` of a reference is an error. -/
theorem vis_ref (fs : List (Str × Val)) (ctx : Val) (xs : List Str) :
    call mq L (n + 2) (.meth (.obj c!"Visitor" fs) c!"Visit") [ctx, nodeVal (.ref xs)] h = L c!"errors.Errorf" [.str c!"invalid type %q", .str c!"reference"] h := by
  rw [meth_visitor (f := ⟨false, [c!"v", c!"ctx", c!"n"], [c!"_"], visitorVisitorVisit⟩) rfl rfl, runBody_plain rfl (by decide) (by decide)]
  have ht := fun h => sel_Type (h := h) (a := .ref xs) (by simp)
  have hlib : ∀ (x : Str) args h, call mq L (n + 1) (.lib x) args h = L x args h := fun _ _ _ => rfl
  rcases er : L c!"errors.Errorf" [.str c!"invalid type %q", .str c!"reference"] h with ⟨vs, h'⟩ | _ | _ | _ <;>
  gorun [visitorVisitorVisit, execSwitch, anySame, endSwitch, ht, tyName, u_value, u_operation, u_identifier, u_predicates, u_compare, u_logic,
    u_parentheses, u_not, u_between, u_function, pk_n, pk_v, pk_errors, u_Errorf, hlib, er, many_stuck, many_deep, next_stuck, next_deep, leave_stuck, leave_deep]

/-- `Visit` of a nil node panics. -/
theorem vis_nil (fs : List (Str × Val)) (ctx : Val) : call mq L (n + 2) (.meth (.obj c!"Visitor" fs) c!"Visit") [ctx, .nil] h = .panic := by
  rw [meth_visitor (f := ⟨false, [c!"v", c!"ctx", c!"n"], [c!"_"], visitorVisitorVisit⟩) rfl rfl, runBody_plain rfl (by decide) (by decide)]
  gorun [visitorVisitorVisit, select_nil, pk_n]

end Verif.Mini
