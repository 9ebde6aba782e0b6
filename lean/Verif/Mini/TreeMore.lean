import Verif.Mini.TreeRun

/-! # Running /repo/miniquery/tree.go: the other methods -/

namespace Verif.Mini
open Verif

variable {Q : Char → Bool} {n p : Nat} {h : Heap} {t : Tree}

/-! ## Packages and calls that leave the program -/

theorem pk_fmt : findPkg c!"fmt" mq.decls = true := rfl
theorem pk_strings : findPkg c!"strings" mq.decls = true := rfl
theorem pk_strconv : findPkg c!"strconv" mq.decls = true := rfl
theorem pk_regexp : findPkg c!"regexp" mq.decls = true := rfl
theorem pk_regSpace : findPkg c!"regSpace" mq.decls = false := rfl

theorem g_Errorf : mqCall Q (n + 1) (.glob c!"fmt.Errorf") [] h = .ok ([.lib c!"fmt.Errorf"], h) := rfl
theorem g_TrimSpace : mqCall Q (n + 1) (.glob c!"strings.TrimSpace") [] h = .ok ([.lib c!"strings.TrimSpace"], h) := rfl
theorem g_ToLower : mqCall Q (n + 1) (.glob c!"strings.ToLower") [] h = .ok ([.lib c!"strings.ToLower"], h) := rfl
theorem g_Atoi : mqCall Q (n + 1) (.glob c!"strconv.Atoi") [] h = .ok ([.lib c!"strconv.Atoi"], h) := rfl
theorem g_ParseBool : mqCall Q (n + 1) (.glob c!"strconv.ParseBool") [] h = .ok ([.lib c!"strconv.ParseBool"], h) := rfl
theorem g_regSpace : mqCall Q (n + 2) (.glob c!"regSpace") [] h = .ok ([.obj c!"Regexp" [(c!"expr", .str c!"\\s+")]], h) := rfl
theorem g_normalize : mqCall Q (n + 1) (.glob c!"normalize") [] h = .ok ([.map (.str []) (normTable.map fun kv => (kv.1, .str kv.2))], h) := rfl
theorem g_NormalizeOperation : mqCall Q (n + 1) (.glob c!"NormalizeOperation") [] h = .ok ([.fn c!"NormalizeOperation"], h) := rfl

theorem l_Errorf (f : Str) (vs) : mqCall Q (n + 1) (.lib c!"fmt.Errorf") (.str f :: vs) h = .ok ([mkErr c!"fmt.Errorf" f], h) := rfl
theorem l_TrimSpace (s : Str) : mqCall Q (n + 1) (.lib c!"strings.TrimSpace") [.str s] h = .ok ([.str (goTrim s)], h) := rfl
theorem l_ToLower (s : Str) : mqCall Q (n + 1) (.lib c!"strings.ToLower") [.str s] h = .ok ([.str (goLower s)], h) := rfl
theorem l_Atoi (s : Str) : mqCall Q (n + 1) (.lib c!"strconv.Atoi") [.str s] h = .ok ([.int (atoi s).1, optErr errVal (atoi s).2], h) := rfl
theorem l_ParseBool (s : Str) : mqCall Q (n + 1) (.lib c!"strconv.ParseBool") [.str s] h =
    .ok ([.bool (parseBool s).1, optErr errVal (parseBool s).2], h) := rfl
theorem sel_regexp : select mq (.obj c!"Regexp" [(c!"expr", .str c!"\\s+")]) c!"ReplaceAllString" h =
    .ok ([.meth (.obj c!"Regexp" [(c!"expr", .str c!"\\s+")]) c!"ReplaceAllString"], h) := rfl
theorem l_regexp (s : Str) : mqCall Q (n + 1) (.meth (.obj c!"Regexp" [(c!"expr", .str c!"\\s+")]) c!"ReplaceAllString") [.str s, .str c!" "] h =
    .ok ([.str (squeeze false s)], h) := rfl

/-! ## NormalizeOperation -/

theorem fget_table (s : Str) (l : List (Str × Str)) : fget s (l.map fun kv => (kv.1, Val.str kv.2)) = (l.lookup s).map Val.str := by
  induction l with
  | nil => rfl
  | cons kv l ih =>
    obtain ⟨k, v⟩ := kv
    by_cases e : s = k
    · subst e; simp [fget, List.lookup]
    · have e' : (s == k) = false := by simp [e]
      simp [fget, List.lookup, e, e', ih]

theorem normalizeOperation_run (s : Str) : mqCall Q (n + 3) (.fn c!"NormalizeOperation") [.str s] h = .ok ([.str (normOp s)], h) := by
  show runBody mq (mqCall Q (n + 2)) [c!"s"] [c!"_"] treeNormalizeOperation [] [.str s] h = _
  rw [runBody_plain rfl (by decide) (by decide)]
  cases e : normTable.lookup (squeeze false (goLower (goTrim s))) with
  | none =>
    gorun [treeNormalizeOperation, pk_strings, pk_regSpace, g_TrimSpace, g_ToLower, l_TrimSpace, l_ToLower, g_regSpace, sel_regexp, l_regexp, g_normalize,
      fget_table, e, normOp]
  | some v =>
    gorun [treeNormalizeOperation, pk_strings, pk_regSpace, g_TrimSpace, g_ToLower, l_TrimSpace, l_ToLower, g_regSpace, sel_regexp, l_regexp, g_normalize,
      fget_table, e, normOp]

/-! ## Errors and marks -/

theorem errVal_obj (e : Err) : same (errVal e) .nil = some false := by cases e <;> rfl

theorem addError_run (e : Option Err) :
    mqCall Q (n + 1) (.meth (.ptr p) c!"AddError") [optErr errVal e] (h.put p (treeVal t)) = .ok ([], h.put p (treeVal (t.addError e))) := by
  rw [meth_tree (f := ⟨true, [c!"t", c!"err"], [], treeTreeAddError⟩) rfl rfl, runBody_plain rfl (by decide) (by decide)]
  cases e with
  | none => gorun [treeTreeAddError, optErr, Tree.addError]
  | some e =>
    have h1 := errVal_obj e
    rw [show optErr errVal (some e) = errVal e from rfl]
    generalize hv : errVal e = v at h1
    gorun [treeTreeAddError, sel_errors, h1]
    gorun [treeVal, Tree.addError, hv]

theorem addMark_run : mqCall Q (n + 1) (.meth (.ptr p) c!"AddMark") [] (h.put p (treeVal t)) = .ok ([], h.put p (treeVal t.addMark)) := by
  rw [meth_tree (f := ⟨true, [c!"t"], [], treeTreeAddMark⟩) rfl rfl, runBody_plain rfl (by decide) (by decide)]
  gorun [treeTreeAddMark, sel_marks, sel_stack]
  gorun [treeVal, Tree.addMark]

theorem popMark_nil (e : t.marks = []) : mqCall Q (n + 1) (.meth (.ptr p) c!"PopMark") [] (h.put p (treeVal t)) = .panic := by
  rw [meth_tree (f := ⟨true, [c!"t"], [c!"_"], treeTreePopMark⟩) rfl rfl, runBody_plain rfl (by decide) (by decide)]
  gorun [treeTreePopMark, sel_marks, e]

theorem popMark_cons {m ms} (e : t.marks = m :: ms) : mqCall Q (n + 1) (.meth (.ptr p) c!"PopMark") [] (h.put p (treeVal t)) =
    .ok ([.int m], h.put p (treeVal { t with marks := ms })) := by
  rw [meth_tree (f := ⟨true, [c!"t"], [c!"_"], treeTreePopMark⟩) rfl rfl, runBody_plain rfl (by decide) (by decide)]
  have h1 : ¬ ((ms.length : Int) < 0) := by omega
  have h2 : (ms.length : Int) ≤ ms.length + 1 := by omega
  gorun [treeTreePopMark, sel_marks, e, h1, h2]
  gorun [treeVal]

/-- The outcome of a method that may panic. -/
def orPanic (p : Nat) (h : Heap) : Option Tree → Vals
  | none => .panic
  | some t => .ok ([], h.put p (treeVal t))

theorem popMarked_run : mqCall Q (n + 2) (.meth (.ptr p) c!"popMarked") [] (h.put p (treeVal t)) =
    (match t.popMarked with | none => .panic | some (l, t') => .ok ([.slice (nodeVals l)], h.put p (treeVal t'))) := by
  rw [meth_tree (f := ⟨true, [c!"t"], [c!"_"], treeTreepopMarked⟩) rfl rfl, runBody_plain rfl (by decide) (by decide)]
  cases e : t.marks with
  | nil => gorun [treeTreepopMarked, m_PopMark, popMark_nil e, Tree.popMarked, e]
  | cons m ms =>
    by_cases hm : t.stack.length < m
    · have h1 : ((t.stack.length : Int) - (m : Int)) < 0 := by omega
      gorun [treeTreepopMarked, m_PopMark, popMark_cons e, sel_stack, Tree.popMarked, e, hm, h1]
    · have h1 : ¬ ((t.stack.length : Int) - (m : Int)) < 0 := by omega
      have h2 : (m : Int) ≤ t.stack.length := by omega
      have h3 : ((t.stack.length : Int) - (m : Int)).toNat = t.stack.length - m := by omega
      gorun [treeTreepopMarked, m_PopMark, popMark_cons e, sel_stack, Tree.popMarked, e, hm, h1, h2, h3, copyTo]
      gorun [treeVal]
      have e1 : nodeVals t.stack.reverse = (t.stack.map nodeVal).reverse := by simp [nodeVals_eq]
      have e2 : t.stack.length - (t.stack.length - m) = m := by omega
      constructor
      · rw [List.take_of_length_le (l := nodeVals t.stack.reverse) (by simp), e1, nodeVals_eq, List.drop_reverse, List.take_of_length_le (by simp)]
        simp [List.map_take]
      · congr 6
        rw [e1, nodeVals_eq, List.take_reverse]
        simp [List.map_drop]

theorem popArray_run : mqCall Q (n + 3) (.meth (.ptr p) c!"PopArray") [] (h.put p (treeVal t)) = orPanic p h t.popArray := by
  rw [meth_tree (f := ⟨true, [c!"t"], [], treeTreePopArray⟩) rfl rfl, runBody_plain rfl (by decide) (by decide)]
  have h1 : t.popArray = match t.popMarked with | none => none | some (l, t') => some (t'.push (.arr l)) := rfl
  cases e : t.popMarked with
  | none => gorun [treeTreePopArray, m_Push, m_popMarked, popMarked_run, e, h1, g_value, g_array, orPanic]
  | some r => gorun [treeTreePopArray, m_Push, m_popMarked, popMarked_run, e, h1, g_value, g_array, mk_Node, v_arr, push_run, orPanic]

/-! ## Operations and literals -/

theorem addOperation_run (s : Str) :
    mqCall Q (n + 4) (.meth (.ptr p) c!"AddOperation") [.str s] (h.put p (treeVal t)) = .ok ([], h.put p (treeVal (t.addOperation s))) := by
  rw [meth_tree (f := ⟨true, [c!"t", c!"s"], [], treeTreeAddOperation⟩) rfl rfl, runBody_plain rfl (by decide) (by decide)]
  gorun [treeTreeAddOperation, m_Push, g_operation, g_NormalizeOperation, normalizeOperation_run, mk_Node, v_op, push_run, Tree.addOperation]

theorem addCompare_run (s : Str) :
    mqCall Q (n + 4) (.meth (.ptr p) c!"AddCompare") [.str s] (h.put p (treeVal t)) = .ok ([], h.put p (treeVal (t.addOperation s))) := by
  rw [meth_tree (f := ⟨true, [c!"t", c!"s"], [], treeTreeAddCompare⟩) rfl rfl, runBody_plain rfl (by decide) (by decide)]
  gorun [treeTreeAddCompare, m_Push, g_operation, g_NormalizeOperation, normalizeOperation_run, mk_Node, v_op, push_run, Tree.addOperation]

theorem addLogic_run (s : Str) :
    mqCall Q (n + 4) (.meth (.ptr p) c!"AddLogic") [.str s] (h.put p (treeVal t)) = .ok ([], h.put p (treeVal (t.addOperation s))) := by
  rw [meth_tree (f := ⟨true, [c!"t", c!"s"], [], treeTreeAddLogic⟩) rfl rfl, runBody_plain rfl (by decide) (by decide)]
  gorun [treeTreeAddLogic, m_Push, g_operation, g_NormalizeOperation, normalizeOperation_run, mk_Node, v_op, push_run, Tree.addOperation]

theorem addMatch_run (s : Str) :
    mqCall Q (n + 4) (.meth (.ptr p) c!"AddMatch") [.str s] (h.put p (treeVal t)) = .ok ([], h.put p (treeVal (t.addOperation s))) := by
  rw [meth_tree (f := ⟨true, [c!"t", c!"s"], [], treeTreeAddMatch⟩) rfl rfl, runBody_plain rfl (by decide) (by decide)]
  gorun [treeTreeAddMatch, m_Push, g_operation, g_NormalizeOperation, normalizeOperation_run, mk_Node, v_op, push_run, Tree.addOperation]

theorem addString_run (s : Str) :
    mqCall Q (n + 2) (.meth (.ptr p) c!"AddString") [.str s] (h.put p (treeVal t)) = .ok ([], h.put p (treeVal (t.addString s))) := by
  rw [meth_tree (f := ⟨true, [c!"t", c!"s"], [], treeTreeAddString⟩) rfl rfl, runBody_plain rfl (by decide) (by decide)]
  gorun [treeTreeAddString, sel_stack, g_value, g_string, mk_Node]
  gorun [treeVal, Tree.addString, Tree.push, nodeVals_append, nodeVals, nodeVal, mkNode]

theorem addNull_run :
    mqCall Q (n + 2) (.meth (.ptr p) c!"AddNull") [] (h.put p (treeVal t)) = .ok ([], h.put p (treeVal t.addNull)) := by
  rw [meth_tree (f := ⟨true, [c!"t"], [], treeTreeAddNull⟩) rfl rfl, runBody_plain rfl (by decide) (by decide)]
  gorun [treeTreeAddNull, sel_stack, g_value, g_null, mk_Node]
  gorun [treeVal, Tree.addNull, Tree.push, nodeVals_append, nodeVals, nodeVal, mkNode]

theorem addBoolean_run (s : Str) :
    mqCall Q (n + 2) (.meth (.ptr p) c!"AddBoolean") [.str s] (h.put p (treeVal t)) = .ok ([], h.put p (treeVal (t.addBoolean s))) := by
  rw [meth_tree (f := ⟨true, [c!"t", c!"s"], [], treeTreeAddBoolean⟩) rfl rfl, runBody_plain rfl (by decide) (by decide)]
  gorun [treeTreeAddBoolean, pk_strconv, g_ParseBool, l_ParseBool, m_AddError, addError_run, sel_stack, g_value, g_bool, mk_Node]
  gorun [treeVal, Tree.addBoolean, Tree.push, nodeVals_append, nodeVals, nodeVal, mkNode]

theorem addInteger_run (s : Str) :
    mqCall Q (n + 2) (.meth (.ptr p) c!"AddInteger") [.str s] (h.put p (treeVal t)) = .ok ([], h.put p (treeVal (t.addInteger s))) := by
  rw [meth_tree (f := ⟨true, [c!"t", c!"s"], [], treeTreeAddInteger⟩) rfl rfl, runBody_plain rfl (by decide) (by decide)]
  gorun [treeTreeAddInteger, pk_strconv, g_Atoi, l_Atoi, m_AddError, addError_run, sel_stack, g_value, g_int, mk_Node]
  gorun [treeVal, Tree.addInteger, Tree.push, nodeVals_append, nodeVals, nodeVal, mkNode]

/-! ## Functions -/

/-- The field `Type` of a node. -/
def tyName : Node → Str
  | .nil => []
  | .int _ | .bool _ | .str _ | .null | .arr _ => c!"value"
  | .op _ => c!"operation"
  | .ident _ => c!"identifier"
  | .ref _ => c!"reference"
  | .pred _ _ => c!"predicates"
  | .cmp _ _ _ => c!"compare"
  | .logic _ _ _ => c!"logic"
  | .paren _ => c!"parentheses"
  | .not _ => c!"not"
  | .between _ _ _ _ => c!"between"
  | .func _ _ => c!"function"

/-- The field `ValueType` of a node. -/
def vtName : Node → Str
  | .int _ => c!"int"
  | .bool _ => c!"bool"
  | .str _ => c!"string"
  | .null => c!"null"
  | .arr _ => c!"array"
  | _ => []

theorem same_node {a : Node} (h : a ≠ .nil) : same (nodeVal a) .nil = some false := by cases a <;> first | exact absurd rfl h | rfl
theorem sel_Type {a : Node} (ha : a ≠ .nil) : select mq (nodeVal a) c!"Type" h = .ok ([.str (tyName a)], h) := by
  cases a <;> first | exact absurd rfl ha | rfl
theorem sel_ValueType {a : Node} (ha : a ≠ .nil) : select mq (nodeVal a) c!"ValueType" h = .ok ([.str (vtName a)], h) := by
  cases a <;> first | exact absurd rfl ha | rfl
theorem sel_Name_ident (x) : select mq (nodeVal (.ident x)) c!"Name" h = .ok ([.str x], h) := rfl
theorem sel_Array_arr (l) : select mq (nodeVal (.arr l)) c!"Array" h = .ok ([.slice (nodeVals l)], h) := by
  simp [select, nodeVal, mkNode, structOf, ownField, fget]

theorem ident_of_type {a : Node} (h : tyName a = c!"identifier") : ∃ x, a = .ident x := by cases a <;> first | exact ⟨_, rfl⟩ | simp [tyName] at h
theorem arr_of_type {a : Node} (h : vtName a = c!"array") : ∃ l, a = .arr l := by cases a <;> first | exact ⟨_, rfl⟩ | simp [vtName] at h

theorem v_badFunction : mkErr c!"fmt.Errorf" c!"invalid function exp %q %q" = optErr errVal (some .badFunction) := rfl
theorem v_nil : nodeVal .nil = .nil := by simp [nodeVal]

theorem popFunction_run :
    mqCall Q (n + 2) (.meth (.ptr p) c!"PopFunction") [] (h.put p (treeVal t)) = .ok ([], h.put p (treeVal t.popFunction)) := by
  rw [meth_tree (f := ⟨true, [c!"t"], [], treeTreePopFunction⟩) rfl rfl, runBody_plain rfl (by decide) (by decide)]
  have hq : t.popFunction = match t.pop.2.pop.1, t.pop.1 with
    | .ident name, .arr elems => t.pop.2.pop.2.push (.func name elems)
    | _, _ => t.pop.2.pop.2.addError (some .badFunction) := rfl
  rw [hq]
  by_cases ha : t.pop.1 = .nil
  · gorun [treeTreePopFunction, m_Pop, m_AddError, pop_run, ha, v_nil, pk_fmt, g_Errorf, l_Errorf, v_badFunction, addError_run]
  by_cases hn : t.pop.2.pop.1 = .nil
  · gorun [treeTreePopFunction, m_Pop, m_AddError, pop_run, same_node ha, hn, v_nil, pk_fmt, g_Errorf, l_Errorf, v_badFunction, addError_run]
  by_cases h1 : tyName t.pop.2.pop.1 = c!"identifier"
  · obtain ⟨x, ex⟩ := ident_of_type h1
    have e0 : same (nodeVal (Node.ident x)) .nil = some false := rfl
    have e1 : select mq (nodeVal (.ident x)) c!"Type" (h.put p (treeVal t.pop.2.pop.2)) = _ := sel_Type (by simp)
    by_cases h2 : vtName t.pop.1 = c!"array"
    · obtain ⟨l, el⟩ := arr_of_type h2
      have f0 : same (nodeVal (Node.arr l)) .nil = some false := rfl
      have f1 : select mq (nodeVal (.arr l)) c!"Type" (h.put p (treeVal t.pop.2.pop.2)) = _ := sel_Type (by simp)
      have f2 : select mq (nodeVal (.arr l)) c!"ValueType" (h.put p (treeVal t.pop.2.pop.2)) = _ := sel_ValueType (by simp)
      gorun [treeTreePopFunction, m_Pop, m_Push, pop_run, ex, el, e0, e1, f0, f1, f2, tyName, vtName, g_identifier, g_value, g_array, g_function,
        sel_Name_ident, sel_Array_arr, mk_Node, v_func, push_run]
    · have h3 : (match t.pop.2.pop.1, t.pop.1 with
          | .ident name, .arr elems => t.pop.2.pop.2.push (.func name elems)
          | _, _ => t.pop.2.pop.2.addError (some .badFunction)) = t.pop.2.pop.2.addError (some .badFunction) := by
        split
        · rename_i e; exact absurd (by rw [e]; rfl) h2
        · rfl
      rw [h3]
      by_cases h4 : tyName t.pop.1 = c!"value"
      · gorun [treeTreePopFunction, m_Pop, m_AddError, pop_run, same_node ha, same_node hn, sel_Type ha, sel_Type hn, sel_ValueType ha, h1, h2, h4,
          g_identifier, g_value, g_array, pk_fmt, g_Errorf, l_Errorf, v_badFunction, addError_run]
      · gorun [treeTreePopFunction, m_Pop, m_AddError, pop_run, same_node ha, same_node hn, sel_Type ha, sel_Type hn, h1, h4,
          g_identifier, g_value, pk_fmt, g_Errorf, l_Errorf, v_badFunction, addError_run]
  · have h3 : (match t.pop.2.pop.1, t.pop.1 with
        | .ident name, .arr elems => t.pop.2.pop.2.push (.func name elems)
        | _, _ => t.pop.2.pop.2.addError (some .badFunction)) = t.pop.2.pop.2.addError (some .badFunction) := by
      split
      · rename_i e _; exact absurd (by rw [e]; rfl) h1
      · rfl
    rw [h3]
    gorun [treeTreePopFunction, m_Pop, m_AddError, pop_run, same_node ha, same_node hn, sel_Type ha, sel_Type hn, h1,
      g_identifier, pk_fmt, g_Errorf, l_Errorf, v_badFunction, addError_run]

/-! ## References -/

theorem sel_Name (a : Node) : select mq (nodeVal a) c!"Name" h = (match Tree.nodeName a with | none => .panic | some x => .ok ([.str x], h)) := by
  cases a <;> rfl

theorem foldlM_names (l : List Node) (acc : List Str) :
    l.foldlM (fun acc a => (Tree.nodeName a).map (acc ++ [·])) acc = (l.mapM Tree.nodeName).map (acc ++ ·) := by
  induction l generalizing acc with
  | nil => simp
  | cons a l ih =>
    cases e : Tree.nodeName a with
    | none => simp [List.foldlM_cons, e]
    | some x =>
      simp [List.foldlM_cons, e, ih]
      cases l.mapM Tree.nodeName <;> simp

theorem popIdentifierReference_run :
    mqCall Q (n + 3) (.meth (.ptr p) c!"PopIdentifierReference") [] (h.put p (treeVal t)) = orPanic p h t.popIdentifierReference := by
  rw [meth_tree (f := ⟨true, [c!"t"], [], treeTreePopIdentifierReference⟩) rfl rfl, runBody_plain rfl (by decide) (by decide)]
  cases e : t.popMarked with
  | none => gorun [treeTreePopIdentifierReference, m_popMarked, popMarked_run, e, Tree.popIdentifierReference, orPanic]
  | some r =>
    obtain ⟨l, t'⟩ := r
    have h0 : ¬ (l.length : Int) < 0 := by omega
    have hl := loop_fold nodeVal (fun acc : List Str => ([(c!"names", .val (.slice (acc.map .str))), (c!"nodes", .val (.slice (nodeVals l))),
        (c!"t", .val (.ptr p))], h.put p (treeVal t'))) (fun acc a => (Tree.nodeName a).map (acc ++ [·]))
      (rangeBody [] c!"_" c!"node" (execs mq (mqCall Q (n + 2)) [] (loopOf (nth treeTreePopIdentifierReference 2)))) l (by
        intro i a _ acc
        cases e : Tree.nodeName a with
        | none => gorun [treeTreePopIdentifierReference, nth, loopOf, rangeBody, sel_Name, e]
        | some x => gorun [treeTreePopIdentifierReference, nth, loopOf, rangeBody, sel_Name, e]) [] 0
    rw [foldlM_names, ← nodeVals_eq] at hl
    simp only [treeTreePopIdentifierReference, nth, loopOf, List.map_nil] at hl
    have hr : t.popIdentifierReference = match l.mapM Tree.nodeName with | none => none | some names => some (t'.push (.ref names)) := by
      simp only [Tree.popIdentifierReference, e]
      rfl
    rw [hr]
    cases em : l.mapM Tree.nodeName with
    | none =>
      simp only [em, Option.map] at hl
      gorun [treeTreePopIdentifierReference, m_popMarked, popMarked_run, e, h0, hl, orPanic]
    | some xs =>
      simp only [em, Option.map, List.nil_append] at hl
      gorun [treeTreePopIdentifierReference, m_popMarked, popMarked_run, e, h0, hl, orPanic, m_Push, g_reference, mk_Node, v_ref, push_run]

end Verif.Mini
