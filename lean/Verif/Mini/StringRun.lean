import Verif.Mini.NodeRun

/-! # Running /repo/miniquery/node.go: `String` -/

namespace Verif.Mini
open Verif

variable {Q : Char → Bool} {n : Nat} {h g : Heap}

theorem f_Operation (o) : select mq (nodeVal (.op o)) c!"Operation" h = .ok ([.str o], h) := rfl
theorem f_OperationPred (a b) : select mq (nodeVal (.pred a b)) c!"Operation" h = .ok ([.str []], h) := rfl
theorem f_NameFunc (x l) : select mq (nodeVal (.func x l)) c!"Name" h = .ok ([.str x], h) := rfl
theorem f_Names (x : List Str) : select mq (nodeVal (.ref x)) c!"Names" h = .ok ([.slice (x.map .str)], h) := rfl
theorem f_Paren (x) : select mq (nodeVal (.paren x)) c!"Expression" h = .ok ([nodeVal x], h) := rfl
theorem f_Not (x) : select mq (nodeVal (.not x)) c!"Expression" h = .ok ([nodeVal x], h) := rfl
theorem f_LeftPred (l o) : select mq (nodeVal (.pred l o)) c!"Left" h = .ok ([nodeVal l], h) := rfl
theorem f_OpPred (l o) : select mq (nodeVal (.pred l o)) c!"Op" h = .ok ([nodeVal o], h) := rfl
theorem f_RightPred (l o) : select mq (nodeVal (.pred l o)) c!"Right" h = .ok ([.nil], h) := rfl
theorem f_LeftCmp (l o r) : select mq (nodeVal (.cmp l o r)) c!"Left" h = .ok ([nodeVal l], h) := rfl
theorem f_OpCmp (l o r) : select mq (nodeVal (.cmp l o r)) c!"Op" h = .ok ([nodeVal o], h) := rfl
theorem f_RightCmp (l o r) : select mq (nodeVal (.cmp l o r)) c!"Right" h = .ok ([nodeVal r], h) := rfl
theorem f_LeftLogic (l o r) : select mq (nodeVal (.logic l o r)) c!"Left" h = .ok ([nodeVal l], h) := rfl
theorem f_OpLogic (l o r) : select mq (nodeVal (.logic l o r)) c!"Op" h = .ok ([nodeVal o], h) := rfl
theorem f_RightLogic (l o r) : select mq (nodeVal (.logic l o r)) c!"Right" h = .ok ([nodeVal r], h) := rfl
theorem f_LeftBetween (l o a b) : select mq (nodeVal (.between l o a b)) c!"Left" h = .ok ([nodeVal l], h) := rfl
theorem f_OpBetween (l o a b) : select mq (nodeVal (.between l o a b)) c!"Op" h = .ok ([nodeVal o], h) := rfl
theorem f_ParamsBetween (l o a b) : select mq (nodeVal (.between l o a b)) c!"Params" h = .ok ([.slice [nodeVal a, nodeVal b]], h) := rfl
theorem f_ParamsFunc (x l) : select mq (nodeVal (.func x l)) c!"Params" h = .ok ([.slice (nodeVals l)], h) := rfl

theorem select_nil (f) : select mq .nil f h = .panic := rfl

theorem pk_buf : findPkg c!"buf" mq.decls = false := rfl
theorem pk_n : findPkg c!"n" mq.decls = false := rfl
theorem pk_v : findPkg c!"v" mq.decls = false := rfl

theorem g_Join : mqCall Q (n + 1) (.glob c!"strings.Join") [] h = .ok ([.lib c!"strings.Join"], h) := rfl
theorem g_Fprint : mqCall Q (n + 1) (.glob c!"fmt.Fprint") [] h = .ok ([.lib c!"fmt.Fprint"], h) := rfl
theorem g_Fprintf : mqCall Q (n + 1) (.glob c!"fmt.Fprintf") [] h = .ok ([.lib c!"fmt.Fprintf"], h) := rfl

theorem strVals_map (l : List Str) : strVals (l.map Val.str) = l := by
  induction l with
  | nil => rfl
  | cons s l ih => simp [strVals, ih]

theorem l_Join (l : List Str) : mqCall Q (n + 1) (.lib c!"strings.Join") [.slice (l.map .str), .str c!"."] h = .ok ([.str (goJoinDots l)], h) := by
  show Res.ok ([Val.str (goJoinDots (strVals (l.map Val.str)))], h) = _
  rw [strVals_map]

mutual
theorem printVal_go : ∀ v : GoVal, printVal (goVal v) = fmtVal v
  | .nil => rfl
  | .int _ => rfl
  | .bool _ => rfl
  | .str _ => rfl
  | .slice l => by rw [goVal, printVal, fmtVal, printVals_go l]
theorem printVals_go : ∀ l : List GoVal, printVals (goVals l) = fmtVals l
  | [] => rfl
  | [v] => by rw [goVals, goVals, printVals, fmtVals, printVal_go v]
  | v :: w :: l => by
    have h := printVals_go (w :: l)
    rw [goVals] at h
    rw [goVals, goVals, printVals, fmtVals, printVal_go v, h]
end

theorem l_Fprint {p s} (v : GoVal) : mqCall Q (n + 1) (.lib c!"fmt.Fprint") [.ptr p, goVal v] (h.put p (bufVal s)) =
    .ok ([.nil, .nil], h.put p (bufVal (s ++ fmtVal v))) := by
  show Res.ok ([Val.nil, .nil], (h.put p (bufVal s)).put p (bufVal (bufText (h.put p (bufVal s)) p ++ printVal (goVal v)))) = _
  rw [bufText_put, put_put, printVal_go]

theorem l_Fprintf {p s} (v : Str) : mqCall Q (n + 1) (.lib c!"fmt.Fprintf") [.ptr p, .str c!"%q", .str v] (h.put p (bufVal s)) =
    .ok ([.nil, .nil], h.put p (bufVal (s ++ quote Q v))) := by
  show Res.ok ([Val.nil, .nil], (h.put p (bufVal s)).put p (bufVal (bufText (h.put p (bufVal s)) p ++ quote Q v))) = _
  rw [bufText_put, put_put]

/-! ## What `String` returns -/

/-- A text or a panic. -/
def strOut (h : Heap) : Option Str → Vals
  | none => .panic
  | some s => .ok ([.str s], h)

/-- A call that returns a text or panics and leaves the memory of the caller alone. -/
def Outs (h : Heap) (r : Option Str) (v : Vals) : Prop := ∃ h', Keeps h h' ∧ v = strOut h' r

/-- A memory in which `String` may work: one cell is taken for its buffer. -/
def Good (h g : Heap) : Prop := Keeps (h.skip 1) g

theorem good_start : Good h (h.skip 1) := ⟨Nat.le_refl _, fun _ _ => rfl⟩

theorem outs_ok {s : Str} {v} (hg : Good h g) : Outs h (some s) (.ok ([.str s], g.put h.next v)) := by
  obtain ⟨h1, h2⟩ := hg
  refine ⟨_, ⟨?_, fun b hb => ?_⟩, rfl⟩
  · simp only [Heap.skip] at h1; simp only [put_next]; omega
  · rw [put_mem_other _ _ (by omega), h2 b (by simp only [Heap.skip]; omega)]; rfl

theorem outs_panic : Outs h none .panic := ⟨h, ⟨Nat.le_refl _, fun _ _ => rfl⟩, rfl⟩

/-- The memory after a call that leaves the memory of the caller alone, for a buffer of the caller. -/
theorem good_call {c : Heap → Vals} {r : Option Str} (hc : ∀ h, Outs h r (c h)) :
    ∃ H : Heap → Str → Heap, (∀ g s, Good h g → Good h (H g s)) ∧
      ∀ g s, Good h g → c (g.put h.next (bufVal s)) = strOut ((H g s).put h.next (bufVal s)) r := by
  have key : ∀ g s, ∃ g', Good h g → Good h g' ∧ c (g.put h.next (bufVal s)) = strOut (g'.put h.next (bufVal s)) r := by
    intro g s
    by_cases hg : Good h g
    · obtain ⟨h', ⟨k1, k2⟩, e⟩ := hc (g.put h.next (bufVal s))
      have hp : h.next < g.next := by have := hg.1; simp only [Heap.skip] at this; omega
      refine ⟨h'.put h.next (g.mem h.next), fun _ => ⟨⟨?_, fun b hb => ?_⟩, ?_⟩⟩
      · exact Nat.le_trans hg.1 k1
      · by_cases e1 : b = h.next
        · subst e1; rw [put_mem_same, hg.2 _ hb]
        · rw [put_mem_other _ _ e1, k2 b (Nat.lt_of_lt_of_le hb hg.1), put_mem_other _ _ e1, hg.2 _ hb]
      · rw [e, put_put]
        have : h'.mem h.next = bufVal s := by rw [k2 _ hp, put_mem_same]
        rw [put_self this]
    · exact ⟨g, fun hh => absurd hh hg⟩
  exact ⟨fun g s => Classical.choose (key g s), fun g s hg => (Classical.choose_spec (key g s) hg).1,
    fun g s hg => (Classical.choose_spec (key g s) hg).2⟩

variable {m k : Nat}

/-- The claim about `String` for nodes below a level. -/
def StringBelow (Q : Char → Bool) (m k : Nat) : Prop :=
  ∀ x : Node, x ≠ .nil → lvl x < k → ∀ h, Outs h (nodeStr x) (mqCall Q (m + 2) (.meth (nodeVal x) c!"String") [] h)

/-- The memories after calls of `String`, for a buffer of the caller. -/
theorem good_calls (ih : StringBelow Q m k) :
    ∃ H : Node → Heap → Str → Heap, (∀ a g s, Good h g → Good h (H a g s)) ∧
      ∀ a : Node, a ≠ .nil → lvl a < k → ∀ g s, Good h g →
        mqCall Q (m + 2) (.meth (nodeVal a) c!"String") [] (g.put h.next (bufVal s)) = strOut ((H a g s).put h.next (bufVal s)) (nodeStr a) := by
  have key : ∀ a : Node, ∃ H : Heap → Str → Heap, (∀ g s, Good h g → Good h (H g s)) ∧ (a ≠ .nil → lvl a < k → ∀ g s, Good h g →
        mqCall Q (m + 2) (.meth (nodeVal a) c!"String") [] (g.put h.next (bufVal s)) = strOut ((H g s).put h.next (bufVal s)) (nodeStr a)) := by
    intro a
    by_cases h0 : a ≠ .nil ∧ lvl a < k
    · obtain ⟨H, K, R⟩ := good_call (h := h) (fun h => ih a h0.1 h0.2 h)
      exact ⟨H, K, fun _ _ => R⟩
    · exact ⟨fun g _ => g, fun _ _ hg => hg, fun h1 h2 => absurd ⟨h1, h2⟩ h0⟩
  exact ⟨fun a => Classical.choose (key a), fun a => (Classical.choose_spec (key a)).1, fun a => (Classical.choose_spec (key a)).2⟩

/-- The variables and the memory in the loop of `String`. -/
def stringSt (x : Node) (h : Heap) (b : { g : Heap // Good h g } × Str) : Locals × Heap :=
  ([(c!"buf", .val (.ptr h.next)), (c!"n", .val (nodeVal x))], b.1.1.put h.next (bufVal b.2))

/-- One round of the loop of `String`. -/
def stringStep {H : Node → Heap → Str → Heap} (K : ∀ a g s, Good h g → Good h (H a g s)) (b : { g : Heap // Good h g } × Str) (a : Node) :
    Option ({ g : Heap // Good h g } × Str) :=
  (nodeStr a).map fun r => (⟨H a b.1.1 (b.2 ++ c!","), K a _ _ b.1.2⟩, b.2 ++ c!"," ++ r)

theorem foldlM_strs {H : Node → Heap → Str → Heap} (K : ∀ a g s, Good h g → Good h (H a g s)) (l : List Node) (b : { g : Heap // Good h g } × Str) :
    ∃ g, l.foldlM (stringStep K) b = (nodeStrs l).map fun r => (g, b.2 ++ r) := by
  induction l generalizing b with
  | nil => exact ⟨b.1, by simp [nodeStrs]⟩
  | cons a l ih =>
    cases e : nodeStr a with
    | none => exact ⟨b.1, by simp [List.foldlM_cons, stringStep, nodeStrs, e, cat]⟩
    | some x =>
      obtain ⟨g, hg⟩ := ih (⟨H a b.1.1 (b.2 ++ c!","), K a _ _ b.1.2⟩, b.2 ++ c!"," ++ x)
      refine ⟨g, ?_⟩
      simp only [List.foldlM_cons, stringStep, e, Option.map_some, Option.bind_eq_bind, Option.bind_some]
      refine hg.trans ?_
      cases e' : nodeStrs l <;> simp [nodeStrs, e, e', cat]

theorem str_op (o) (_hl : lvl (.op o) ≤ k) (_hm : k ≤ m) (h : Heap) :
    Outs h (nodeStr (.op o)) (mqCall Q (m + 3) (.meth (nodeVal (.op o)) c!"String") [] h) := by
  have hx : (Node.op o) ≠ .nil := by simp
  rw [meth_node hx (f := ⟨false, [c!"n"], [c!"_"], nodeNodeString⟩) rfl rfl, runBody_plain rfl (by decide) (by decide)]
  gorun [nodeNodeString, execSwitch, execFrom, anySame, endSwitch, sel_Type hx, tyName, mk_Builder, pk_strings, pk_buf, pk_n, pk_fmt, s_WriteString, w_String, s_String, r_String, g_between, g_predicates, g_logic, g_compare, g_parentheses, g_not, g_value, g_operation, g_identifier, g_reference, g_function, nodeStr, cat, f_Operation]
  exact outs_ok good_start

theorem str_ident (o) (_hl : lvl (.ident o) ≤ k) (_hm : k ≤ m) (h : Heap) :
    Outs h (nodeStr (.ident o)) (mqCall Q (m + 3) (.meth (nodeVal (.ident o)) c!"String") [] h) := by
  have hx : (Node.ident o) ≠ .nil := by simp
  rw [meth_node hx (f := ⟨false, [c!"n"], [c!"_"], nodeNodeString⟩) rfl rfl, runBody_plain rfl (by decide) (by decide)]
  gorun [nodeNodeString, execSwitch, execFrom, anySame, endSwitch, sel_Type hx, tyName, mk_Builder, pk_strings, pk_buf, pk_n, pk_fmt, s_WriteString, w_String, s_String, r_String, g_between, g_predicates, g_logic, g_compare, g_parentheses, g_not, g_value, g_operation, g_identifier, g_reference, g_function, nodeStr, cat, sel_Name_ident]
  exact outs_ok good_start

theorem str_ref (o) (_hl : lvl (.ref o) ≤ k) (_hm : k ≤ m) (h : Heap) :
    Outs h (nodeStr (.ref o)) (mqCall Q (m + 3) (.meth (nodeVal (.ref o)) c!"String") [] h) := by
  have hx : (Node.ref o) ≠ .nil := by simp
  rw [meth_node hx (f := ⟨false, [c!"n"], [c!"_"], nodeNodeString⟩) rfl rfl, runBody_plain rfl (by decide) (by decide)]
  gorun [nodeNodeString, execSwitch, execFrom, anySame, endSwitch, sel_Type hx, tyName, mk_Builder, pk_strings, pk_buf, pk_n, pk_fmt, s_WriteString, w_String, s_String, r_String, g_between, g_predicates, g_logic, g_compare, g_parentheses, g_not, g_value, g_operation, g_identifier, g_reference, g_function, nodeStr, cat, f_Names, g_Join, l_Join]
  exact outs_ok good_start

theorem str_pred (a b) (_hl : lvl (.pred a b) ≤ k) (_hm : k ≤ m) (h : Heap) :
    Outs h (nodeStr (.pred a b)) (mqCall Q (m + 3) (.meth (nodeVal (.pred a b)) c!"String") [] h) := by
  have hx : (Node.pred a b) ≠ .nil := by simp
  rw [meth_node hx (f := ⟨false, [c!"n"], [c!"_"], nodeNodeString⟩) rfl rfl, runBody_plain rfl (by decide) (by decide)]
  gorun [nodeNodeString, execSwitch, execFrom, anySame, endSwitch, sel_Type hx, tyName, mk_Builder, pk_strings, pk_buf, pk_n, pk_fmt, s_WriteString, w_String, s_String, r_String, g_between, g_predicates, g_logic, g_compare, g_parentheses, g_not, g_value, g_operation, g_identifier, g_reference, g_function, nodeStr, cat, f_OperationPred]
  exact outs_ok good_start

theorem str_int (i) (hl : lvl (.int i) ≤ k) (hm : k ≤ m) (h : Heap) :
    Outs h (nodeStr (.int i)) (mqCall Q (m + 3) (.meth (nodeVal (.int i)) c!"String") [] h) := by
  have hx : (Node.int i) ≠ .nil := by simp
  rw [meth_node hx (f := ⟨false, [c!"n"], [c!"_"], nodeNodeString⟩) rfl rfl, runBody_plain rfl (by decide) (by decide)]
  have hv := fun h => value_run (Q := Q) k (.int i) hx hl m hm h
  simp only [value, valueOut] at hv
  gorun [nodeNodeString, execSwitch, execFrom, anySame, endSwitch, sel_Type hx, tyName, mk_Builder, pk_strings, pk_buf, pk_n, pk_fmt, s_WriteString, w_String, s_String, r_String, g_between, g_predicates, g_logic, g_compare, g_parentheses, g_not, g_value, g_operation, g_identifier, g_reference, g_function, nodeStr, cat, s_Value hx, hv, g_Fprint, l_Fprint]
  exact outs_ok good_start

theorem str_bool (i) (hl : lvl (.bool i) ≤ k) (hm : k ≤ m) (h : Heap) :
    Outs h (nodeStr (.bool i)) (mqCall Q (m + 3) (.meth (nodeVal (.bool i)) c!"String") [] h) := by
  have hx : (Node.bool i) ≠ .nil := by simp
  rw [meth_node hx (f := ⟨false, [c!"n"], [c!"_"], nodeNodeString⟩) rfl rfl, runBody_plain rfl (by decide) (by decide)]
  have hv := fun h => value_run (Q := Q) k (.bool i) hx hl m hm h
  simp only [value, valueOut] at hv
  gorun [nodeNodeString, execSwitch, execFrom, anySame, endSwitch, sel_Type hx, tyName, mk_Builder, pk_strings, pk_buf, pk_n, pk_fmt, s_WriteString, w_String, s_String, r_String, g_between, g_predicates, g_logic, g_compare, g_parentheses, g_not, g_value, g_operation, g_identifier, g_reference, g_function, nodeStr, cat, s_Value hx, hv, g_Fprint, l_Fprint]
  exact outs_ok good_start

theorem str_str (i) (hl : lvl (.str i) ≤ k) (hm : k ≤ m) (h : Heap) :
    Outs h (nodeStr (.str i)) (mqCall Q (m + 3) (.meth (nodeVal (.str i)) c!"String") [] h) := by
  have hx : (Node.str i) ≠ .nil := by simp
  rw [meth_node hx (f := ⟨false, [c!"n"], [c!"_"], nodeNodeString⟩) rfl rfl, runBody_plain rfl (by decide) (by decide)]
  have hv := fun h => value_run (Q := Q) k (.str i) hx hl m hm h
  simp only [value, valueOut] at hv
  gorun [nodeNodeString, execSwitch, execFrom, anySame, endSwitch, sel_Type hx, tyName, mk_Builder, pk_strings, pk_buf, pk_n, pk_fmt, s_WriteString, w_String, s_String, r_String, g_between, g_predicates, g_logic, g_compare, g_parentheses, g_not, g_value, g_operation, g_identifier, g_reference, g_function, nodeStr, cat, s_Value hx, hv, g_Fprint, l_Fprint]
  exact outs_ok good_start

theorem str_null  (hl : lvl (.null) ≤ k) (hm : k ≤ m) (h : Heap) :
    Outs h (nodeStr (.null)) (mqCall Q (m + 3) (.meth (nodeVal (.null)) c!"String") [] h) := by
  have hx : Node.null ≠ .nil := by simp
  rw [meth_node hx (f := ⟨false, [c!"n"], [c!"_"], nodeNodeString⟩) rfl rfl, runBody_plain rfl (by decide) (by decide)]
  have hv := fun h => value_run (Q := Q) k (.null ) hx hl m hm h
  simp only [value, valueOut] at hv
  gorun [nodeNodeString, execSwitch, execFrom, anySame, endSwitch, sel_Type hx, tyName, mk_Builder, pk_strings, pk_buf, pk_n, pk_fmt, s_WriteString, w_String, s_String, r_String, g_between, g_predicates, g_logic, g_compare, g_parentheses, g_not, g_value, g_operation, g_identifier, g_reference, g_function, nodeStr, cat, s_Value hx, hv, g_Fprint, l_Fprint]
  exact outs_ok good_start

theorem str_arr (l) (hl : lvl (.arr l) ≤ k) (hm : k ≤ m) (h : Heap) :
    Outs h (nodeStr (.arr l)) (mqCall Q (m + 3) (.meth (nodeVal (.arr l)) c!"String") [] h) := by
  have hx : (Node.arr l) ≠ .nil := by simp
  rw [meth_node hx (f := ⟨false, [c!"n"], [c!"_"], nodeNodeString⟩) rfl rfl, runBody_plain rfl (by decide) (by decide)]
  have hv := fun h => value_run (Q := Q) k (.arr l) hx hl m hm h
  cases e : valueL l with
  | none =>
    simp only [value, e, Option.map_none, valueOut] at hv
    gorun [nodeNodeString, execSwitch, execFrom, anySame, endSwitch, sel_Type hx, tyName, mk_Builder, pk_strings, pk_buf, pk_n, pk_fmt, s_WriteString, w_String, s_String, r_String, g_between, g_predicates, g_logic, g_compare, g_parentheses, g_not, g_value, g_operation, g_identifier, g_reference, g_function, nodeStr, cat, s_Value hx, hv, e]
    exact outs_panic
  | some vs =>
    simp only [value, e, Option.map_some, valueOut] at hv
    gorun [nodeNodeString, execSwitch, execFrom, anySame, endSwitch, sel_Type hx, tyName, mk_Builder, pk_strings, pk_buf, pk_n, pk_fmt, s_WriteString, w_String, s_String, r_String, g_between, g_predicates, g_logic, g_compare, g_parentheses, g_not, g_value, g_operation, g_identifier, g_reference, g_function, nodeStr, cat, s_Value hx, hv, g_Fprint, l_Fprint, e]
    exact outs_ok good_start

theorem str_paren (e) (ih : StringBelow Q m k) (hl : lvl (.paren e) ≤ k) (_hm : k ≤ m) (h : Heap) :
    Outs h (nodeStr (.paren e)) (mqCall Q (m + 3) (.meth (nodeVal (.paren e)) c!"String") [] h) := by
  have hx : (Node.paren e) ≠ .nil := by simp
  rw [meth_node hx (f := ⟨false, [c!"n"], [c!"_"], nodeNodeString⟩) rfl rfl, runBody_plain rfl (by decide) (by decide)]
  rw [lvl] at hl
  by_cases ne : e = .nil
  · subst ne; gorun [nodeNodeString, execSwitch, execFrom, anySame, endSwitch, sel_Type hx, tyName, mk_Builder, pk_strings, pk_buf, pk_n, pk_fmt, s_WriteString, w_String, s_String, r_String, g_between, g_predicates, g_logic, g_compare, g_parentheses, g_not, g_value, g_operation, g_identifier, g_reference, g_function, nodeStr, cat, f_Paren,  good_start, v_nil, select_nil]; exact outs_panic
  obtain ⟨He, Ke, Re⟩ := good_call (h := h) (fun h => ih e ne (by omega) h)
  cases ee : nodeStr e with
  | none => gorun [nodeNodeString, execSwitch, execFrom, anySame, endSwitch, sel_Type hx, tyName, mk_Builder, pk_strings, pk_buf, pk_n, pk_fmt, s_WriteString, w_String, s_String, r_String, g_between, g_predicates, g_logic, g_compare, g_parentheses, g_not, g_value, g_operation, g_identifier, g_reference, g_function, nodeStr, cat, f_Paren,  s_NodeString ne, Re, Ke, strOut, ee, good_start]; exact outs_panic
  | some re =>
    gorun [nodeNodeString, execSwitch, execFrom, anySame, endSwitch, sel_Type hx, tyName, mk_Builder, pk_strings, pk_buf, pk_n, pk_fmt, s_WriteString, w_String, s_String, r_String, g_between, g_predicates, g_logic, g_compare, g_parentheses, g_not, g_value, g_operation, g_identifier, g_reference, g_function, nodeStr, cat, f_Paren,  s_NodeString ne, Re, Ke, strOut, ee, good_start]
    exact outs_ok (by simp (maxDischargeDepth := 6) [Ke, good_start])

theorem str_not (e) (ih : StringBelow Q m k) (hl : lvl (.not e) ≤ k) (_hm : k ≤ m) (h : Heap) :
    Outs h (nodeStr (.not e)) (mqCall Q (m + 3) (.meth (nodeVal (.not e)) c!"String") [] h) := by
  have hx : (Node.not e) ≠ .nil := by simp
  rw [meth_node hx (f := ⟨false, [c!"n"], [c!"_"], nodeNodeString⟩) rfl rfl, runBody_plain rfl (by decide) (by decide)]
  rw [lvl] at hl
  by_cases ne : e = .nil
  · subst ne; gorun [nodeNodeString, execSwitch, execFrom, anySame, endSwitch, sel_Type hx, tyName, mk_Builder, pk_strings, pk_buf, pk_n, pk_fmt, s_WriteString, w_String, s_String, r_String, g_between, g_predicates, g_logic, g_compare, g_parentheses, g_not, g_value, g_operation, g_identifier, g_reference, g_function, nodeStr, cat, f_Not,  good_start, v_nil, select_nil]; exact outs_panic
  obtain ⟨He, Ke, Re⟩ := good_call (h := h) (fun h => ih e ne (by omega) h)
  cases ee : nodeStr e with
  | none => gorun [nodeNodeString, execSwitch, execFrom, anySame, endSwitch, sel_Type hx, tyName, mk_Builder, pk_strings, pk_buf, pk_n, pk_fmt, s_WriteString, w_String, s_String, r_String, g_between, g_predicates, g_logic, g_compare, g_parentheses, g_not, g_value, g_operation, g_identifier, g_reference, g_function, nodeStr, cat, f_Not,  s_NodeString ne, Re, Ke, strOut, ee, good_start]; exact outs_panic
  | some re =>
    gorun [nodeNodeString, execSwitch, execFrom, anySame, endSwitch, sel_Type hx, tyName, mk_Builder, pk_strings, pk_buf, pk_n, pk_fmt, s_WriteString, w_String, s_String, r_String, g_between, g_predicates, g_logic, g_compare, g_parentheses, g_not, g_value, g_operation, g_identifier, g_reference, g_function, nodeStr, cat, f_Not,  s_NodeString ne, Re, Ke, strOut, ee, good_start]
    exact outs_ok (by simp (maxDischargeDepth := 6) [Ke, good_start])

set_option maxHeartbeats 800000 in
theorem str_cmp (l o r) (ih : StringBelow Q m k) (hl : lvl (.cmp l o r) ≤ k) (_hm : k ≤ m) (h : Heap) :
    Outs h (nodeStr (.cmp l o r)) (mqCall Q (m + 3) (.meth (nodeVal (.cmp l o r)) c!"String") [] h) := by
  have hx : (Node.cmp l o r) ≠ .nil := by simp
  rw [meth_node hx (f := ⟨false, [c!"n"], [c!"_"], nodeNodeString⟩) rfl rfl, runBody_plain rfl (by decide) (by decide)]
  rw [lvl] at hl
  by_cases nl : l = .nil
  · subst nl; gorun [nodeNodeString, execSwitch, execFrom, anySame, endSwitch, sel_Type hx, tyName, mk_Builder, pk_strings, pk_buf, pk_n, pk_fmt, s_WriteString, w_String, s_String, r_String, g_between, g_predicates, g_logic, g_compare, g_parentheses, g_not, g_value, g_operation, g_identifier, g_reference, g_function, nodeStr, cat, f_LeftCmp, f_OpCmp, f_RightCmp,  good_start, v_nil, select_nil]; exact outs_panic
  obtain ⟨Hl, Kl, Rl⟩ := good_call (h := h) (fun h => ih l nl (by omega) h)
  cases el : nodeStr l with
  | none => gorun [nodeNodeString, execSwitch, execFrom, anySame, endSwitch, sel_Type hx, tyName, mk_Builder, pk_strings, pk_buf, pk_n, pk_fmt, s_WriteString, w_String, s_String, r_String, g_between, g_predicates, g_logic, g_compare, g_parentheses, g_not, g_value, g_operation, g_identifier, g_reference, g_function, nodeStr, cat, f_LeftCmp, f_OpCmp, f_RightCmp,  s_NodeString nl, Rl, Kl, strOut, el, good_start]; exact outs_panic
  | some rl =>
    by_cases no : o = .nil
    · subst no; gorun [nodeNodeString, execSwitch, execFrom, anySame, endSwitch, sel_Type hx, tyName, mk_Builder, pk_strings, pk_buf, pk_n, pk_fmt, s_WriteString, w_String, s_String, r_String, g_between, g_predicates, g_logic, g_compare, g_parentheses, g_not, g_value, g_operation, g_identifier, g_reference, g_function, nodeStr, cat, f_LeftCmp, f_OpCmp, f_RightCmp,  s_NodeString nl, Rl, Kl, strOut, el, good_start, v_nil, select_nil]; exact outs_panic
    obtain ⟨Ho, Ko, Ro⟩ := good_call (h := h) (fun h => ih o no (by omega) h)
    cases eo : nodeStr o with
    | none => gorun [nodeNodeString, execSwitch, execFrom, anySame, endSwitch, sel_Type hx, tyName, mk_Builder, pk_strings, pk_buf, pk_n, pk_fmt, s_WriteString, w_String, s_String, r_String, g_between, g_predicates, g_logic, g_compare, g_parentheses, g_not, g_value, g_operation, g_identifier, g_reference, g_function, nodeStr, cat, f_LeftCmp, f_OpCmp, f_RightCmp,  s_NodeString nl, Rl, Kl, strOut, el, s_NodeString no, Ro, Ko, strOut, eo, good_start]; exact outs_panic
    | some ro =>
      by_cases nr : r = .nil
      · subst nr; gorun [nodeNodeString, execSwitch, execFrom, anySame, endSwitch, sel_Type hx, tyName, mk_Builder, pk_strings, pk_buf, pk_n, pk_fmt, s_WriteString, w_String, s_String, r_String, g_between, g_predicates, g_logic, g_compare, g_parentheses, g_not, g_value, g_operation, g_identifier, g_reference, g_function, nodeStr, cat, f_LeftCmp, f_OpCmp, f_RightCmp,  s_NodeString nl, Rl, Kl, strOut, el, s_NodeString no, Ro, Ko, strOut, eo, good_start, v_nil, select_nil]; exact outs_panic
      obtain ⟨Hr, Kr, Rr⟩ := good_call (h := h) (fun h => ih r nr (by omega) h)
      cases er : nodeStr r with
      | none => gorun [nodeNodeString, execSwitch, execFrom, anySame, endSwitch, sel_Type hx, tyName, mk_Builder, pk_strings, pk_buf, pk_n, pk_fmt, s_WriteString, w_String, s_String, r_String, g_between, g_predicates, g_logic, g_compare, g_parentheses, g_not, g_value, g_operation, g_identifier, g_reference, g_function, nodeStr, cat, f_LeftCmp, f_OpCmp, f_RightCmp,  s_NodeString nl, Rl, Kl, strOut, el, s_NodeString no, Ro, Ko, strOut, eo, s_NodeString nr, Rr, Kr, strOut, er, good_start]; exact outs_panic
      | some rr =>
        gorun [nodeNodeString, execSwitch, execFrom, anySame, endSwitch, sel_Type hx, tyName, mk_Builder, pk_strings, pk_buf, pk_n, pk_fmt, s_WriteString, w_String, s_String, r_String, g_between, g_predicates, g_logic, g_compare, g_parentheses, g_not, g_value, g_operation, g_identifier, g_reference, g_function, nodeStr, cat, f_LeftCmp, f_OpCmp, f_RightCmp,  s_NodeString nl, Rl, Kl, strOut, el, s_NodeString no, Ro, Ko, strOut, eo, s_NodeString nr, Rr, Kr, strOut, er, good_start]
        exact outs_ok (by simp (maxDischargeDepth := 6) [Kl, Ko, Kr, good_start])

set_option maxHeartbeats 800000 in
theorem str_logic (l o r) (ih : StringBelow Q m k) (hl : lvl (.logic l o r) ≤ k) (_hm : k ≤ m) (h : Heap) :
    Outs h (nodeStr (.logic l o r)) (mqCall Q (m + 3) (.meth (nodeVal (.logic l o r)) c!"String") [] h) := by
  have hx : (Node.logic l o r) ≠ .nil := by simp
  rw [meth_node hx (f := ⟨false, [c!"n"], [c!"_"], nodeNodeString⟩) rfl rfl, runBody_plain rfl (by decide) (by decide)]
  rw [lvl] at hl
  by_cases no : o = .nil
  · subst no; gorun [nodeNodeString, execSwitch, execFrom, anySame, endSwitch, sel_Type hx, tyName, mk_Builder, pk_strings, pk_buf, pk_n, pk_fmt, s_WriteString, w_String, s_String, r_String, g_between, g_predicates, g_logic, g_compare, g_parentheses, g_not, g_value, g_operation, g_identifier, g_reference, g_function, nodeStr, cat, f_LeftLogic, f_OpLogic, f_RightLogic,  good_start, v_nil, select_nil]; exact outs_panic
  obtain ⟨Ho, Ko, Ro⟩ := good_call (h := h) (fun h => ih o no (by omega) h)
  cases eo : nodeStr o with
  | none => gorun [nodeNodeString, execSwitch, execFrom, anySame, endSwitch, sel_Type hx, tyName, mk_Builder, pk_strings, pk_buf, pk_n, pk_fmt, s_WriteString, w_String, s_String, r_String, g_between, g_predicates, g_logic, g_compare, g_parentheses, g_not, g_value, g_operation, g_identifier, g_reference, g_function, nodeStr, cat, f_LeftLogic, f_OpLogic, f_RightLogic,  s_NodeString no, Ro, Ko, strOut, eo, good_start]; exact outs_panic
  | some ro =>
    by_cases nl : l = .nil
    · subst nl; gorun [nodeNodeString, execSwitch, execFrom, anySame, endSwitch, sel_Type hx, tyName, mk_Builder, pk_strings, pk_buf, pk_n, pk_fmt, s_WriteString, w_String, s_String, r_String, g_between, g_predicates, g_logic, g_compare, g_parentheses, g_not, g_value, g_operation, g_identifier, g_reference, g_function, nodeStr, cat, f_LeftLogic, f_OpLogic, f_RightLogic,  s_NodeString no, Ro, Ko, strOut, eo, good_start, v_nil, select_nil]; exact outs_panic
    obtain ⟨Hl, Kl, Rl⟩ := good_call (h := h) (fun h => ih l nl (by omega) h)
    cases el : nodeStr l with
    | none => gorun [nodeNodeString, execSwitch, execFrom, anySame, endSwitch, sel_Type hx, tyName, mk_Builder, pk_strings, pk_buf, pk_n, pk_fmt, s_WriteString, w_String, s_String, r_String, g_between, g_predicates, g_logic, g_compare, g_parentheses, g_not, g_value, g_operation, g_identifier, g_reference, g_function, nodeStr, cat, f_LeftLogic, f_OpLogic, f_RightLogic,  s_NodeString no, Ro, Ko, strOut, eo, s_NodeString nl, Rl, Kl, strOut, el, good_start]; exact outs_panic
    | some rl =>
      by_cases nr : r = .nil
      · subst nr; gorun [nodeNodeString, execSwitch, execFrom, anySame, endSwitch, sel_Type hx, tyName, mk_Builder, pk_strings, pk_buf, pk_n, pk_fmt, s_WriteString, w_String, s_String, r_String, g_between, g_predicates, g_logic, g_compare, g_parentheses, g_not, g_value, g_operation, g_identifier, g_reference, g_function, nodeStr, cat, f_LeftLogic, f_OpLogic, f_RightLogic,  s_NodeString no, Ro, Ko, strOut, eo, s_NodeString nl, Rl, Kl, strOut, el, good_start, v_nil, select_nil]; exact outs_panic
      obtain ⟨Hr, Kr, Rr⟩ := good_call (h := h) (fun h => ih r nr (by omega) h)
      cases er : nodeStr r with
      | none => gorun [nodeNodeString, execSwitch, execFrom, anySame, endSwitch, sel_Type hx, tyName, mk_Builder, pk_strings, pk_buf, pk_n, pk_fmt, s_WriteString, w_String, s_String, r_String, g_between, g_predicates, g_logic, g_compare, g_parentheses, g_not, g_value, g_operation, g_identifier, g_reference, g_function, nodeStr, cat, f_LeftLogic, f_OpLogic, f_RightLogic,  s_NodeString no, Ro, Ko, strOut, eo, s_NodeString nl, Rl, Kl, strOut, el, s_NodeString nr, Rr, Kr, strOut, er, good_start]; exact outs_panic
      | some rr =>
        gorun [nodeNodeString, execSwitch, execFrom, anySame, endSwitch, sel_Type hx, tyName, mk_Builder, pk_strings, pk_buf, pk_n, pk_fmt, s_WriteString, w_String, s_String, r_String, g_between, g_predicates, g_logic, g_compare, g_parentheses, g_not, g_value, g_operation, g_identifier, g_reference, g_function, nodeStr, cat, f_LeftLogic, f_OpLogic, f_RightLogic,  s_NodeString no, Ro, Ko, strOut, eo, s_NodeString nl, Rl, Kl, strOut, el, s_NodeString nr, Rr, Kr, strOut, er, good_start]
        exact outs_ok (by simp (maxDischargeDepth := 6) [Ko, Kl, Kr, good_start])

theorem str_between (l o a b) (ih : StringBelow Q m k) (hl : lvl (.between l o a b) ≤ k) (_hm : k ≤ m) (h : Heap) :
    Outs h (nodeStr (.between l o a b)) (mqCall Q (m + 3) (.meth (nodeVal (.between l o a b)) c!"String") [] h) := by
  have hx : (Node.between l o a b) ≠ .nil := by simp
  rw [meth_node hx (f := ⟨false, [c!"n"], [c!"_"], nodeNodeString⟩) rfl rfl, runBody_plain rfl (by decide) (by decide)]
  rw [lvl] at hl
  by_cases na : a = .nil
  · subst na; gorun [nodeNodeString, execSwitch, execFrom, anySame, endSwitch, sel_Type hx, tyName, mk_Builder, pk_strings, pk_buf, pk_n, pk_fmt, s_WriteString, w_String, s_String, r_String, g_between, g_predicates, g_logic, g_compare, g_parentheses, g_not, g_value, g_operation, g_identifier, g_reference, g_function, nodeStr, cat, f_ParamsBetween,  good_start, v_nil, select_nil]; exact outs_panic
  obtain ⟨Ha, Ka, Ra⟩ := good_call (h := h) (fun h => ih a na (by omega) h)
  cases ea : nodeStr a with
  | none => gorun [nodeNodeString, execSwitch, execFrom, anySame, endSwitch, sel_Type hx, tyName, mk_Builder, pk_strings, pk_buf, pk_n, pk_fmt, s_WriteString, w_String, s_String, r_String, g_between, g_predicates, g_logic, g_compare, g_parentheses, g_not, g_value, g_operation, g_identifier, g_reference, g_function, nodeStr, cat, f_ParamsBetween,  s_NodeString na, Ra, Ka, strOut, ea, good_start]; exact outs_panic
  | some ra =>
    by_cases nb : b = .nil
    · subst nb; gorun [nodeNodeString, execSwitch, execFrom, anySame, endSwitch, sel_Type hx, tyName, mk_Builder, pk_strings, pk_buf, pk_n, pk_fmt, s_WriteString, w_String, s_String, r_String, g_between, g_predicates, g_logic, g_compare, g_parentheses, g_not, g_value, g_operation, g_identifier, g_reference, g_function, nodeStr, cat, f_ParamsBetween,  s_NodeString na, Ra, Ka, strOut, ea, good_start, v_nil, select_nil]; exact outs_panic
    obtain ⟨Hb, Kb, Rb⟩ := good_call (h := h) (fun h => ih b nb (by omega) h)
    cases eb : nodeStr b with
    | none => gorun [nodeNodeString, execSwitch, execFrom, anySame, endSwitch, sel_Type hx, tyName, mk_Builder, pk_strings, pk_buf, pk_n, pk_fmt, s_WriteString, w_String, s_String, r_String, g_between, g_predicates, g_logic, g_compare, g_parentheses, g_not, g_value, g_operation, g_identifier, g_reference, g_function, nodeStr, cat, f_ParamsBetween,  s_NodeString na, Ra, Ka, strOut, ea, s_NodeString nb, Rb, Kb, strOut, eb, good_start]; exact outs_panic
    | some rb =>
      gorun [nodeNodeString, execSwitch, execFrom, anySame, endSwitch, sel_Type hx, tyName, mk_Builder, pk_strings, pk_buf, pk_n, pk_fmt, s_WriteString, w_String, s_String, r_String, g_between, g_predicates, g_logic, g_compare, g_parentheses, g_not, g_value, g_operation, g_identifier, g_reference, g_function, nodeStr, cat, f_ParamsBetween,  s_NodeString na, Ra, Ka, strOut, ea, s_NodeString nb, Rb, Kb, strOut, eb, good_start]
      exact outs_ok (by simp (maxDischargeDepth := 6) [Ka, Kb, good_start])

theorem str_func (f l) (ih : StringBelow Q m k) (hl : lvl (.func f l) ≤ k) (_hm : k ≤ m) (h : Heap) :
    Outs h (nodeStr (.func f l)) (mqCall Q (m + 3) (.meth (nodeVal (.func f l)) c!"String") [] h) := by
  have hx : (Node.func f l) ≠ .nil := by simp
  rw [meth_node hx (f := ⟨false, [c!"n"], [c!"_"], nodeNodeString⟩) rfl rfl, runBody_plain rfl (by decide) (by decide)]
  rw [lvl] at hl
  obtain ⟨H, K, R⟩ := good_calls (h := h) ih
  have hf := loop_fold nodeVal (stringSt (.func f l) h) (stringStep K)
    (rangeBody [] c!"_" c!"v" (execs mq (mqCall Q (m + 2)) [] (loopOf (nth (caseAt (swOf (nth nodeNodeString 3)) 10) 1)))) l
    (by
      intro i a ha b
      obtain ⟨⟨g, hg⟩, s⟩ := b
      by_cases h0 : a = .nil
      · subst h0
        gorun [stringSt, stringStep, nodeNodeString, nth, swOf, caseAt, loopOf, rangeBody, v_nil, select_nil, nodeStr, pk_buf, pk_v, s_WriteString, w_String]
      · have hr := R a h0 (Nat.lt_of_le_of_lt (lvl_mem ha) hl)
        cases e : nodeStr a <;>
        gorun [stringSt, stringStep, nodeNodeString, nth, swOf, caseAt, loopOf, rangeBody, e, pk_buf, pk_v, s_WriteString, w_String, s_NodeString h0, hr, hg,
          K, strOut])
    (⟨h.skip 1, good_start⟩, c!"function(" ++ f) 0
  obtain ⟨g, hg⟩ := foldlM_strs K l (⟨h.skip 1, good_start⟩, c!"function(" ++ f)
  rw [hg, ← nodeVals_eq] at hf
  simp only [nodeNodeString, nth, swOf, caseAt, loopOf, stringSt] at hf
  cases e : nodeStrs l with
  | none =>
    simp [e] at hf
    gorun [nodeNodeString, execSwitch, execFrom, anySame, endSwitch, sel_Type hx, tyName, mk_Builder, pk_strings, pk_buf, pk_n, pk_fmt, s_WriteString, w_String, s_String, r_String, g_between, g_predicates, g_logic, g_compare, g_parentheses, g_not, g_value, g_operation, g_identifier, g_reference, g_function, nodeStr, cat, f_NameFunc, f_ParamsFunc, hf, e]
    exact outs_panic
  | some r =>
    simp [e] at hf
    gorun [nodeNodeString, execSwitch, execFrom, anySame, endSwitch, sel_Type hx, tyName, mk_Builder, pk_strings, pk_buf, pk_n, pk_fmt, s_WriteString, w_String, s_String, r_String, g_between, g_predicates, g_logic, g_compare, g_parentheses, g_not, g_value, g_operation, g_identifier, g_reference, g_function, nodeStr, cat, f_NameFunc, f_ParamsFunc, hf, e]
    exact outs_ok g.2

/-- Running `String`. -/
theorem string_run (k : Nat) : ∀ x : Node, x ≠ .nil → lvl x ≤ k → ∀ m, k ≤ m → ∀ h,
    Outs h (nodeStr x) (mqCall Q (m + 3) (.meth (nodeVal x) c!"String") [] h) := by
  induction k using Nat.strongRecOn with | _ k ih =>
  intro x hx hl m hm h
  have ih : StringBelow Q m k := by
    intro x hx hl h
    obtain ⟨m', rfl⟩ : ∃ m', m = m' + 1 := ⟨m - 1, by omega⟩
    exact ih (lvl x) hl x hx (Nat.le_refl _) m' (by omega) h
  cases x with
  | nil => exact absurd rfl hx
  | int i => exact str_int i hl hm h
  | bool i => exact str_bool i hl hm h
  | str i => exact str_str i hl hm h
  | null  => exact str_null  hl hm h
  | arr l => exact str_arr l hl hm h
  | op o => exact str_op o hl hm h
  | ident o => exact str_ident o hl hm h
  | ref o => exact str_ref o hl hm h
  | pred a b => exact str_pred a b hl hm h
  | cmp l o r => exact str_cmp l o r ih hl hm h
  | logic l o r => exact str_logic l o r ih hl hm h
  | paren e => exact str_paren e ih hl hm h
  | not e => exact str_not e ih hl hm h
  | between l o a b => exact str_between l o a b ih hl hm h
  | func f l => exact str_func f l ih hl hm h

end Verif.Mini
