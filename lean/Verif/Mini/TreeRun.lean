import Verif.Mini.Steps

/-! # Running /repo/miniquery/tree.go -/

namespace Verif.Mini
open Verif

variable {Q : Char → Bool} {n p : Nat} {h : Heap} {t : Tree}

/-- Calling a method of a stack. -/
theorem meth_tree {m : Str} {f : Func} {args} (hf : findFunc (c!"Tree." ++ m) mq.decls = some f) (hptr : f.ptr = true) :
    mqCall Q (n + 1) (.meth (.ptr p) m) args (h.put p (treeVal t)) =
      runBody mq (mqCall Q n) f.params f.results f.body [] (.ptr p :: args) (h.put p (treeVal t)) := by
  show runMeth mq (mqLib Q) (mqCall Q n) (.ptr p) m args _ = _
  simp only [runMeth, structOf, put_mem_same, treeVal]
  have e : c!"Tree" ++ '.' :: m = c!"Tree." ++ m := rfl
  rw [e, hf]
  simp [hptr]

theorem select_meth {m : Str} (h0 : fget m [(c!"Stack", Val.nil), (c!"Errors", .nil), (c!"marks", .nil)] = none)
    (h1 : (findStruct c!"Tree" mq.decls).bind (fieldType m) = none) (h2 : (findStruct c!"Tree" mq.decls).bind (embedded mq m) = none) :
    select mq (.ptr p) m (h.put p (treeVal t)) = .ok ([.meth (.ptr p) m], h.put p (treeVal t)) := by
  have h3 : ∀ a b c, fget m [(c!"Stack", a), (c!"Errors", b), (c!"marks", c)] = none := by
    intro a b c
    revert h0
    simp only [fget]
    split
    · simp
    · split
      · simp
      · split <;> simp
  simp only [select, structOf, treeVal, ownField, put_mem_same, h3, h1, h2, Option.map_none]

/-! ## Fields, methods and constants -/

theorem sel_stack : select mq (.ptr p) c!"Stack" (h.put p (treeVal t)) = .ok ([.slice (nodeVals t.stack.reverse)], h.put p (treeVal t)) := by
  simp [select, structOf, treeVal, ownField, fget]
theorem sel_errors : select mq (.ptr p) c!"Errors" (h.put p (treeVal t)) = .ok ([.slice (t.errors.map errVal)], h.put p (treeVal t)) := by
  simp [select, structOf, treeVal, ownField, fget]
theorem sel_marks : select mq (.ptr p) c!"marks" (h.put p (treeVal t)) =
    .ok ([.slice (t.marks.reverse.map fun (m : Nat) => Val.int m)], h.put p (treeVal t)) := by
  simp [select, structOf, treeVal, ownField, fget]

theorem m_Push : select mq (.ptr p) c!"Push" (h.put p (treeVal t)) = .ok ([.meth (.ptr p) c!"Push"], h.put p (treeVal t)) := by
  rw [select_meth rfl rfl rfl]
theorem m_Pop : select mq (.ptr p) c!"Pop" (h.put p (treeVal t)) = .ok ([.meth (.ptr p) c!"Pop"], h.put p (treeVal t)) := by
  rw [select_meth rfl rfl rfl]
theorem m_popMarked : select mq (.ptr p) c!"popMarked" (h.put p (treeVal t)) = .ok ([.meth (.ptr p) c!"popMarked"], h.put p (treeVal t)) := by
  rw [select_meth rfl rfl rfl]
theorem m_AddError : select mq (.ptr p) c!"AddError" (h.put p (treeVal t)) = .ok ([.meth (.ptr p) c!"AddError"], h.put p (treeVal t)) := by
  rw [select_meth rfl rfl rfl]
theorem m_PopMark : select mq (.ptr p) c!"PopMark" (h.put p (treeVal t)) = .ok ([.meth (.ptr p) c!"PopMark"], h.put p (treeVal t)) := by
  rw [select_meth rfl rfl rfl]

theorem g_value : mqCall Q (n + 1) (.glob c!"ValueNodeType") [] h = .ok ([.str c!"value"], h) := rfl
theorem g_operation : mqCall Q (n + 1) (.glob c!"OperationNodeType") [] h = .ok ([.str c!"operation"], h) := rfl
theorem g_identifier : mqCall Q (n + 1) (.glob c!"IdentifierNodeType") [] h = .ok ([.str c!"identifier"], h) := rfl
theorem g_reference : mqCall Q (n + 1) (.glob c!"ReferenceNodeType") [] h = .ok ([.str c!"reference"], h) := rfl
theorem g_predicates : mqCall Q (n + 1) (.glob c!"PredicatesExpressionType") [] h = .ok ([.str c!"predicates"], h) := rfl
theorem g_compare : mqCall Q (n + 1) (.glob c!"CompareExpressionType") [] h = .ok ([.str c!"compare"], h) := rfl
theorem g_logic : mqCall Q (n + 1) (.glob c!"LogicExpressionType") [] h = .ok ([.str c!"logic"], h) := rfl
theorem g_parentheses : mqCall Q (n + 1) (.glob c!"ParenthesesExpressionType") [] h = .ok ([.str c!"parentheses"], h) := rfl
theorem g_not : mqCall Q (n + 1) (.glob c!"NotExpressionType") [] h = .ok ([.str c!"not"], h) := rfl
theorem g_between : mqCall Q (n + 1) (.glob c!"BetweenExpressionType") [] h = .ok ([.str c!"between"], h) := rfl
theorem g_function : mqCall Q (n + 1) (.glob c!"FunctionExpressionType") [] h = .ok ([.str c!"function"], h) := rfl
theorem g_int : mqCall Q (n + 1) (.glob c!"IntValueType") [] h = .ok ([.str c!"int"], h) := rfl
theorem g_float : mqCall Q (n + 1) (.glob c!"FloatValueType") [] h = .ok ([.str c!"float"], h) := rfl
theorem g_bool : mqCall Q (n + 1) (.glob c!"BooleanValueType") [] h = .ok ([.str c!"bool"], h) := rfl
theorem g_string : mqCall Q (n + 1) (.glob c!"StringValueType") [] h = .ok ([.str c!"string"], h) := rfl
theorem g_null : mqCall Q (n + 1) (.glob c!"NullValueType") [] h = .ok ([.str c!"null"], h) := rfl
theorem g_array : mqCall Q (n + 1) (.glob c!"ArrayValueType") [] h = .ok ([.str c!"array"], h) := rfl

theorem mk_Node (fs) : mkStruct mq c!"Node" fs h = .ok ([.obj c!"Node" fs], h) := rfl

/-! ## Push and Pop -/

theorem push_run (v : Node) :
    mqCall Q (n + 1) (.meth (.ptr p) c!"Push") [nodeVal v] (h.put p (treeVal t)) = .ok ([], h.put p (treeVal (t.push v))) := by
  rw [meth_tree (f := ⟨true, [c!"t", c!"node"], [], treeTreePush⟩) rfl rfl, runBody_plain rfl (by decide) (by decide)]
  gorun [treeTreePush, sel_stack]
  gorun [treeVal, Tree.push, nodeVals_append, nodeVals]

theorem pop_run :
    mqCall Q (n + 1) (.meth (.ptr p) c!"Pop") [] (h.put p (treeVal t)) = .ok ([nodeVal t.pop.1], h.put p (treeVal t.pop.2)) := by
  rw [meth_tree (f := ⟨true, [c!"t"], [c!"_"], treeTreePop⟩) rfl rfl, runBody_plain rfl (by decide) (by decide)]
  obtain ⟨stack, errors, marks⟩ := t
  cases stack with
  | nil => gorun [treeTreePop, sel_stack, nodeVals, nodeVal, Tree.pop]
  | cons a s =>
    have h1 : ¬ ((s.length : Int) < 0) := by omega
    have h2 : (s.length : Int) ≤ s.length + 1 := by omega
    gorun [treeTreePop, sel_stack, Tree.pop, nodeVals_append, nodeVals, h1, h2]
    gorun [treeVal]

/-! ## The structs that the methods make -/

theorem v_pred (a b) : Val.obj c!"Node" [(c!"Type", .str c!"predicates"), (c!"Left", nodeVal a), (c!"Op", nodeVal b)] = nodeVal (.pred a b) := by
  simp [nodeVal, mkNode]
theorem v_logic (a b c) : Val.obj c!"Node" [(c!"Type", .str c!"logic"), (c!"Left", nodeVal a), (c!"Op", nodeVal b), (c!"Right", nodeVal c)] =
    nodeVal (.logic a b c) := by simp [nodeVal, mkNode]
theorem v_cmp (a b c) : Val.obj c!"Node" [(c!"Type", .str c!"compare"), (c!"Left", nodeVal a), (c!"Op", nodeVal b), (c!"Right", nodeVal c)] =
    nodeVal (.cmp a b c) := by simp [nodeVal, mkNode]
theorem v_between (a b c d) : Val.obj c!"Node" [(c!"Type", .str c!"between"), (c!"Left", nodeVal a), (c!"Op", nodeVal b),
    (c!"Params", .slice [nodeVal c, nodeVal d])] = nodeVal (.between a b c d) := by simp [nodeVal, mkNode]
theorem v_paren (a) : Val.obj c!"Node" [(c!"Type", .str c!"parentheses"), (c!"Expression", nodeVal a)] = nodeVal (.paren a) := by simp [nodeVal, mkNode]
theorem v_not (a) : Val.obj c!"Node" [(c!"Type", .str c!"not"), (c!"Expression", nodeVal a)] = nodeVal (.not a) := by simp [nodeVal, mkNode]
theorem v_arr (l) : Val.obj c!"Node" [(c!"Type", .str c!"value"), (c!"ValueType", .str c!"array"), (c!"Array", .slice (nodeVals l))] =
    nodeVal (.arr l) := by simp [nodeVal, mkNode]
theorem v_op (o) : Val.obj c!"Node" [(c!"Type", .str c!"operation"), (c!"Operation", .str o)] = nodeVal (.op o) := by simp [nodeVal, mkNode]
theorem v_ident (x) : Val.obj c!"Node" [(c!"Type", .str c!"identifier"), (c!"Name", .str x)] = nodeVal (.ident x) := by simp [nodeVal, mkNode]
theorem v_ref (l : List Str) : Val.obj c!"Node" [(c!"Type", .str c!"reference"), (c!"Names", .slice (l.map .str))] = nodeVal (.ref l) := by
  simp [nodeVal, mkNode]
theorem v_func (f l) : Val.obj c!"Node" [(c!"Type", .str c!"function"), (c!"Name", .str f), (c!"Params", .slice (nodeVals l))] =
    nodeVal (.func f l) := by simp [nodeVal, mkNode]

theorem popBetween_run :
    mqCall Q (n + 2) (.meth (.ptr p) c!"PopBetween") [] (h.put p (treeVal t)) = .ok ([], h.put p (treeVal (t.popBetween))) := by
  rw [meth_tree (f := ⟨true, [c!"t"], [], treeTreePopBetween⟩) rfl rfl, runBody_plain rfl (by decide) (by decide)]
  gorun [treeTreePopBetween, m_Pop, m_Push, pop_run, push_run, g_between, mk_Node, v_between, Tree.popBetween]

theorem popPredicate_run :
    mqCall Q (n + 2) (.meth (.ptr p) c!"PopPredicate") [] (h.put p (treeVal t)) = .ok ([], h.put p (treeVal (t.popPredicate))) := by
  rw [meth_tree (f := ⟨true, [c!"t"], [], treeTreePopPredicate⟩) rfl rfl, runBody_plain rfl (by decide) (by decide)]
  gorun [treeTreePopPredicate, m_Pop, m_Push, pop_run, push_run, g_predicates, mk_Node, v_pred, Tree.popPredicate]

theorem popLogic_run :
    mqCall Q (n + 2) (.meth (.ptr p) c!"PopLogic") [] (h.put p (treeVal t)) = .ok ([], h.put p (treeVal (t.popLogic))) := by
  rw [meth_tree (f := ⟨true, [c!"t"], [], treeTreePopLogic⟩) rfl rfl, runBody_plain rfl (by decide) (by decide)]
  gorun [treeTreePopLogic, m_Pop, m_Push, pop_run, push_run, g_logic, mk_Node, v_logic, Tree.popLogic]

theorem popCompare_run :
    mqCall Q (n + 2) (.meth (.ptr p) c!"PopCompare") [] (h.put p (treeVal t)) = .ok ([], h.put p (treeVal (t.popCompare))) := by
  rw [meth_tree (f := ⟨true, [c!"t"], [], treeTreePopCompare⟩) rfl rfl, runBody_plain rfl (by decide) (by decide)]
  gorun [treeTreePopCompare, m_Pop, m_Push, pop_run, push_run, g_compare, mk_Node, v_cmp, Tree.popCompare]

theorem popParentheses_run :
    mqCall Q (n + 2) (.meth (.ptr p) c!"PopParentheses") [] (h.put p (treeVal t)) = .ok ([], h.put p (treeVal (t.popParentheses))) := by
  rw [meth_tree (f := ⟨true, [c!"t"], [], treeTreePopParentheses⟩) rfl rfl, runBody_plain rfl (by decide) (by decide)]
  gorun [treeTreePopParentheses, m_Pop, m_Push, pop_run, push_run, g_parentheses, mk_Node, v_paren, Tree.popParentheses]

theorem popNot_run :
    mqCall Q (n + 2) (.meth (.ptr p) c!"PopNot") [] (h.put p (treeVal t)) = .ok ([], h.put p (treeVal (t.popNot))) := by
  rw [meth_tree (f := ⟨true, [c!"t"], [], treeTreePopNot⟩) rfl rfl, runBody_plain rfl (by decide) (by decide)]
  gorun [treeTreePopNot, m_Pop, m_Push, pop_run, push_run, g_not, mk_Node, v_not, Tree.popNot]

theorem addName_run (s : Str) :
    mqCall Q (n + 2) (.meth (.ptr p) c!"AddName") [.str s] (h.put p (treeVal t)) = .ok ([], h.put p (treeVal (t.addName s))) := by
  rw [meth_tree (f := ⟨true, [c!"t", c!"s"], [], treeTreeAddName⟩) rfl rfl, runBody_plain rfl (by decide) (by decide)]
  gorun [treeTreeAddName, m_Pop, m_Push, pop_run, push_run, g_identifier, mk_Node, v_ident, Tree.addName]

end Verif.Mini
