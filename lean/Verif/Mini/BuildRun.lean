import Verif.Mini.StringRun

/-! # Running /repo/miniquery/node.go: `Build`, `buildValue`, `printPretty` -/

namespace Verif.Mini
open Verif

variable {Q : Char → Bool} {n m k sb b0 v0 n0 : Nat} {h B : Heap} {root : Node}

theorem g_pretties : mqCall Q (n + 1) (.glob c!"pretties") [] h = .ok ([.map (.str []) (pretties.map fun kv => (kv.1, .str kv.2))], h) := rfl
theorem g_printPretty : mqCall Q (n + 1) (.glob c!"printPretty") [] h = .ok ([.fn c!"printPretty"], h) := rfl
theorem g_buildValue : mqCall Q (n + 1) (.glob c!"buildValue") [] h = .ok ([.fn c!"buildValue"], h) := rfl
theorem pk_node : findPkg c!"node" mq.decls = false := rfl

/-- Running `printPretty`. -/
theorem printPretty_run (s : Str) : mqCall Q (n + 2) (.fn c!"printPretty") [.str s] h = .ok ([.str (printPretty s)], h) := by
  have e : mqCall Q (n + 2) (.fn c!"printPretty") [.str s] h =
    runBody mq (mqCall Q (n + 1)) [c!"s"] [c!"_"] nodeprintPretty [] [.str s] h := rfl
  rw [e, runBody_plain rfl (by decide) (by decide)]
  cases e : pretties.lookup s <;> gorun [nodeprintPretty, g_pretties, fget_table, e, printPretty]

theorem w_32 {s} : mqCall Q (n + 1) (.meth (.ptr sb) c!"WriteRune") [.int 32] (h.put sb (bufVal s)) =
    .ok ([.nil, .nil], h.put sb (bufVal (s ++ [' ']))) := w_Rune ' '
theorem w_40 {s} : mqCall Q (n + 1) (.meth (.ptr sb) c!"WriteRune") [.int 40] (h.put sb (bufVal s)) =
    .ok ([.nil, .nil], h.put sb (bufVal (s ++ ['(']))) := w_Rune '('
theorem w_41 {s} : mqCall Q (n + 1) (.meth (.ptr sb) c!"WriteRune") [.int 41] (h.put sb (bufVal s)) =
    .ok ([.nil, .nil], h.put sb (bufVal (s ++ [')']))) := w_Rune ')'
theorem w_44 {s} : mqCall Q (n + 1) (.meth (.ptr sb) c!"WriteRune") [.int 44] (h.put sb (bufVal s)) =
    .ok ([.nil, .nil], h.put sb (bufVal (s ++ [',']))) := w_Rune ','
theorem w_91 {s} : mqCall Q (n + 1) (.meth (.ptr sb) c!"WriteRune") [.int 91] (h.put sb (bufVal s)) =
    .ok ([.nil, .nil], h.put sb (bufVal (s ++ ['[']))) := w_Rune '['
theorem w_93 {s} : mqCall Q (n + 1) (.meth (.ptr sb) c!"WriteRune") [.int 93] (h.put sb (bufVal s)) =
    .ok ([.nil, .nil], h.put sb (bufVal (s ++ [']']))) := w_Rune ']'

/-! ## Loops that count -/

/-- Goes through a list with the positions of its elements. -/
def foldI {α β : Type} (step : Nat → β → α → Option β) : Nat → List α → β → Option β
  | _, [], b => some b
  | i, a :: l, b => (step i b a).bind (foldI step (i + 1) l)

theorem loop_foldI {α β : Type} (val : α → Val) (st : β → Locals × Heap) (step : Nat → β → α → Option β) (body : Nat → Val → Locals → Heap → Done)
    (l : List α) (i : Nat)
    (hb : ∀ j a, l[j]? = some a → ∀ b, body (i + j) (val a) (st b).1 (st b).2 =
      match step (i + j) b a with | none => .panic | some b' => .ok (.norm, st b')) (b : β) :
    loop body i (l.map val) (st b).1 (st b).2 = match foldI step i l b with | none => .panic | some b' => .ok (.norm, st b') := by
  induction l generalizing b i with
  | nil => rfl
  | cons a l ih =>
    have h0 := hb 0 a rfl b
    rw [Nat.add_zero] at h0
    have ih := ih (i + 1) fun j x hx => by
      have := hb (j + 1) x (by simpa using hx)
      rw [show i + (j + 1) = i + 1 + j by omega] at this
      exact this
    rw [List.map_cons, loop, h0]
    cases e : step i b a with
    | none => simp [foldI, e]
    | some b' => simp [foldI, e, ih]

/-- One round of the loops of `Build` and `buildValue` over `N` nodes. -/
def commaStep (Q : Char → Bool) (root : Str) (N i : Nat) (b : Str) (a : Node) : Option Str :=
  (buildN Q root a).map fun r => b ++ (r ++ if i + 1 = N then [] else c!",")

theorem foldI_comma (root : Str) (N i : Nat) (l : List Node) (b : Str) (hN : i + l.length = N) :
    foldI (commaStep Q root N) i l b = (buildL Q root l).map (b ++ ·) := by
  induction l generalizing i b with
  | nil => simp [foldI, buildL]
  | cons a l ih =>
    have ih := fun b => ih (i + 1) b (by simp at hN; omega)
    cases e : buildN Q root a with
    | none => cases l <;> simp [foldI, commaStep, e, buildL, cat]
    | some r =>
      cases l with
      | nil =>
        have : i + 1 = N := by simpa using hN
        simp [foldI, commaStep, e, buildL, this]
      | cons a' l =>
        have : i + 1 ≠ N := by simp at hN; omega
        simp only [foldI, commaStep, e, this, if_false, Option.map_some, Option.bind_some]
        have ih := ih (b ++ (r ++ [',']))
        rw [foldI] at ih
        refine ih.trans ?_
        cases e' : buildL Q root (a' :: l) <;> simp [buildL, e, e', cat]

/-! ## The function literal of `Build` -/

/-- The body of a function literal that is assigned. -/
def litOf : Stmts → Stmts
  | .cons (.assign _ (.cons (.fn _ _ b) .nil)) _ => b
  | _ => .nil

/-- The body of `visit`. -/
def visitBody : Stmts := litOf (nth nodeBuild 2)

/-- The function `visit`: its variables are at the addresses `v0`, `b0`, `n0`. -/
def visitClo (v0 b0 n0 : Nat) : Val := .clo [c!"node"] [] visitBody [(c!"visit", .box v0), (c!"buf", .box b0), (c!"n", .box n0)]

/-- The memory while `Build` runs, apart from the buffer at `sb`. -/
structure Frame (B : Heap) (sb b0 v0 n0 : Nat) (root : Node) : Prop where
  buf : B.mem b0 = .ptr sb
  visit : B.mem v0 = visitClo v0 b0 n0
  node : B.mem n0 = nodeVal root
  hb : b0 ≠ sb
  hv : v0 ≠ sb
  hn : n0 ≠ sb
  some : root ≠ .nil

theorem Frame.rbuf (F : Frame B sb b0 v0 n0 root) (v) : (B.put sb v).mem b0 = .ptr sb := by rw [put_mem_other _ _ F.hb, F.buf]
theorem Frame.rvisit (F : Frame B sb b0 v0 n0 root) (v) : (B.put sb v).mem v0 = visitClo v0 b0 n0 := by rw [put_mem_other _ _ F.hv, F.visit]
theorem Frame.rnode (F : Frame B sb b0 v0 n0 root) (v) : (B.put sb v).mem n0 = nodeVal root := by rw [put_mem_other _ _ F.hn, F.node]

/-- What `visit` does. -/
def visOut (B : Heap) (sb : Nat) (s : Str) : Option Str → Vals
  | none => .panic
  | some r => .ok ([], B.put sb (bufVal (s ++ r)))

/-- The claim about `visit` for nodes below a level. -/
def VisitBelow (Q : Char → Bool) (B : Heap) (sb b0 v0 n0 : Nat) (root : Node) (m k : Nat) : Prop :=
  ∀ x : Node, lvl x < k → ∀ s, mqCall Q m (visitClo v0 b0 n0) [nodeVal x] (B.put sb (bufVal s)) = visOut B sb s (buildN Q (rootName root) x)

theorem visit_call (x : Node) : mqCall Q (m + 1) (visitClo v0 b0 n0) [nodeVal x] h =
    finish [] (execs mq (mqCall Q m) [] visitBody 3 (bindArgs [c!"node"] [nodeVal x] [(c!"visit", .box v0), (c!"buf", .box b0), (c!"n", .box n0)]) h) := by
  have e : mqCall Q (m + 1) (visitClo v0 b0 n0) [nodeVal x] h =
    runBody mq (mqCall Q m) [c!"node"] [] visitBody [(c!"visit", .box v0), (c!"buf", .box b0), (c!"n", .box n0)] [nodeVal x] h := rfl
  rw [e, runBody_plain rfl (by decide) (by decide)]
  rfl

theorem rootName_eq (h0 : root ≠ .nil) : Tree.nodeName root = some (rootName root) := by cases root <;> first | exact absurd rfl h0 | rfl

theorem visit_op (o) (F : Frame B sb b0 v0 n0 root) (s : Str) :
    mqCall Q (m + 4) (visitClo v0 b0 n0) [nodeVal (.op o)] (B.put sb (bufVal s)) = visOut B sb s (buildN Q (rootName root) (.op o)) := by
  rw [visit_call]
  have ht := fun h => sel_Type (h := h) (a := .op o) (by simp)
  gorun [visitBody, nodeBuild, nth, litOf, execSwitch, execFrom, anySame, endSwitch, tyName, pk_node, pk_buf, pk_n, pk_strings, F.rbuf, F.rvisit, F.rnode, s_WriteString, w_String, s_WriteRune, w_32, w_40, w_41, w_44, w_91, w_93, g_between, g_predicates, g_logic, g_compare, g_parentheses, g_not, g_value, g_operation, g_identifier, g_reference, g_function, buildN, cat, visOut, ht, f_Operation, g_printPretty, printPretty_run]

theorem visit_ident (x) (F : Frame B sb b0 v0 n0 root) (s : Str) :
    mqCall Q (m + 4) (visitClo v0 b0 n0) [nodeVal (.ident x)] (B.put sb (bufVal s)) = visOut B sb s (buildN Q (rootName root) (.ident x)) := by
  rw [visit_call]
  have ht := fun h => sel_Type (h := h) (a := .ident x) (by simp)
  gorun [visitBody, nodeBuild, nth, litOf, execSwitch, execFrom, anySame, endSwitch, tyName, pk_node, pk_buf, pk_n, pk_strings, F.rbuf, F.rvisit, F.rnode, s_WriteString, w_String, s_WriteRune, w_32, w_40, w_41, w_44, w_91, w_93, g_between, g_predicates, g_logic, g_compare, g_parentheses, g_not, g_value, g_operation, g_identifier, g_reference, g_function, buildN, cat, visOut, ht, sel_Name_ident]

theorem visit_ref (x) (F : Frame B sb b0 v0 n0 root) (s : Str) :
    mqCall Q (m + 4) (visitClo v0 b0 n0) [nodeVal (.ref x)] (B.put sb (bufVal s)) = visOut B sb s (buildN Q (rootName root) (.ref x)) := by
  rw [visit_call]
  have ht := fun h => sel_Type (h := h) (a := .ref x) (by simp)
  gorun [visitBody, nodeBuild, nth, litOf, execSwitch, execFrom, anySame, endSwitch, tyName, pk_node, pk_buf, pk_n, pk_strings, F.rbuf, F.rvisit, F.rnode, s_WriteString, w_String, s_WriteRune, w_32, w_40, w_41, w_44, w_91, w_93, g_between, g_predicates, g_logic, g_compare, g_parentheses, g_not, g_value, g_operation, g_identifier, g_reference, g_function, buildN, cat, visOut, ht, f_Names, g_Join, l_Join]

theorem visit_paren (e) (F : Frame B sb b0 v0 n0 root) (ih : VisitBelow Q B sb b0 v0 n0 root (m + 3) k) (hl : lvl (.paren e) ≤ k) (s : Str) :
    mqCall Q (m + 4) (visitClo v0 b0 n0) [nodeVal (.paren e)] (B.put sb (bufVal s)) = visOut B sb s (buildN Q (rootName root) (.paren e)) := by
  rw [visit_call]
  have ht := fun h => sel_Type (h := h) (a := .paren e) (by simp)
  rw [lvl] at hl
  have Re := ih e (by omega)
  cases ee : buildN Q (rootName root) e with
  | none => gorun [visitBody, nodeBuild, nth, litOf, execSwitch, execFrom, anySame, endSwitch, tyName, pk_node, pk_buf, pk_n, pk_strings, F.rbuf, F.rvisit, F.rnode, s_WriteString, w_String, s_WriteRune, w_32, w_40, w_41, w_44, w_91, w_93, g_between, g_predicates, g_logic, g_compare, g_parentheses, g_not, g_value, g_operation, g_identifier, g_reference, g_function, buildN, cat, visOut, ht, f_Paren, Re, ee]
  | some re =>
    gorun [visitBody, nodeBuild, nth, litOf, execSwitch, execFrom, anySame, endSwitch, tyName, pk_node, pk_buf, pk_n, pk_strings, F.rbuf, F.rvisit, F.rnode, s_WriteString, w_String, s_WriteRune, w_32, w_40, w_41, w_44, w_91, w_93, g_between, g_predicates, g_logic, g_compare, g_parentheses, g_not, g_value, g_operation, g_identifier, g_reference, g_function, buildN, cat, visOut, ht, f_Paren, Re, ee]

theorem visit_not (e) (F : Frame B sb b0 v0 n0 root) (ih : VisitBelow Q B sb b0 v0 n0 root (m + 3) k) (hl : lvl (.not e) ≤ k) (s : Str) :
    mqCall Q (m + 4) (visitClo v0 b0 n0) [nodeVal (.not e)] (B.put sb (bufVal s)) = visOut B sb s (buildN Q (rootName root) (.not e)) := by
  rw [visit_call]
  have ht := fun h => sel_Type (h := h) (a := .not e) (by simp)
  rw [lvl] at hl
  have Re := ih e (by omega)
  cases ee : buildN Q (rootName root) e with
  | none => gorun [visitBody, nodeBuild, nth, litOf, execSwitch, execFrom, anySame, endSwitch, tyName, pk_node, pk_buf, pk_n, pk_strings, F.rbuf, F.rvisit, F.rnode, s_WriteString, w_String, s_WriteRune, w_32, w_40, w_41, w_44, w_91, w_93, g_between, g_predicates, g_logic, g_compare, g_parentheses, g_not, g_value, g_operation, g_identifier, g_reference, g_function, buildN, cat, visOut, ht, f_Not, Re, ee]
  | some re =>
    gorun [visitBody, nodeBuild, nth, litOf, execSwitch, execFrom, anySame, endSwitch, tyName, pk_node, pk_buf, pk_n, pk_strings, F.rbuf, F.rvisit, F.rnode, s_WriteString, w_String, s_WriteRune, w_32, w_40, w_41, w_44, w_91, w_93, g_between, g_predicates, g_logic, g_compare, g_parentheses, g_not, g_value, g_operation, g_identifier, g_reference, g_function, buildN, cat, visOut, ht, f_Not, Re, ee]

theorem visit_pred (l o) (F : Frame B sb b0 v0 n0 root) (ih : VisitBelow Q B sb b0 v0 n0 root (m + 3) k) (hl : lvl (.pred l o) ≤ k) (s : Str) :
    mqCall Q (m + 4) (visitClo v0 b0 n0) [nodeVal (.pred l o)] (B.put sb (bufVal s)) = visOut B sb s (buildN Q (rootName root) (.pred l o)) := by
  rw [visit_call]
  have ht := fun h => sel_Type (h := h) (a := .pred l o) (by simp)
  rw [lvl] at hl
  have Rl := ih l (by omega)
  cases el : buildN Q (rootName root) l with
  | none => gorun [visitBody, nodeBuild, nth, litOf, execSwitch, execFrom, anySame, endSwitch, tyName, pk_node, pk_buf, pk_n, pk_strings, F.rbuf, F.rvisit, F.rnode, s_WriteString, w_String, s_WriteRune, w_32, w_40, w_41, w_44, w_91, w_93, g_between, g_predicates, g_logic, g_compare, g_parentheses, g_not, g_value, g_operation, g_identifier, g_reference, g_function, buildN, cat, visOut, ht, f_LeftPred, f_OpPred, f_RightPred, Rl, el]
  | some rl =>
    have Ro := ih o (by omega)
    cases eo : buildN Q (rootName root) o with
    | none => gorun [visitBody, nodeBuild, nth, litOf, execSwitch, execFrom, anySame, endSwitch, tyName, pk_node, pk_buf, pk_n, pk_strings, F.rbuf, F.rvisit, F.rnode, s_WriteString, w_String, s_WriteRune, w_32, w_40, w_41, w_44, w_91, w_93, g_between, g_predicates, g_logic, g_compare, g_parentheses, g_not, g_value, g_operation, g_identifier, g_reference, g_function, buildN, cat, visOut, ht, f_LeftPred, f_OpPred, f_RightPred, Rl, el, Ro, eo]
    | some ro =>
      gorun [visitBody, nodeBuild, nth, litOf, execSwitch, execFrom, anySame, endSwitch, tyName, pk_node, pk_buf, pk_n, pk_strings, F.rbuf, F.rvisit, F.rnode, s_WriteString, w_String, s_WriteRune, w_32, w_40, w_41, w_44, w_91, w_93, g_between, g_predicates, g_logic, g_compare, g_parentheses, g_not, g_value, g_operation, g_identifier, g_reference, g_function, buildN, cat, visOut, ht, f_LeftPred, f_OpPred, f_RightPred, Rl, el, Ro, eo]

theorem visit_between (l o a b) (F : Frame B sb b0 v0 n0 root) (ih : VisitBelow Q B sb b0 v0 n0 root (m + 3) k) (hl : lvl (.between l o a b) ≤ k) (s : Str) :
    mqCall Q (m + 4) (visitClo v0 b0 n0) [nodeVal (.between l o a b)] (B.put sb (bufVal s)) = visOut B sb s (buildN Q (rootName root) (.between l o a b)) := by
  rw [visit_call]
  have ht := fun h => sel_Type (h := h) (a := .between l o a b) (by simp)
  rw [lvl] at hl
  have Rl := ih l (by omega)
  cases el : buildN Q (rootName root) l with
  | none => gorun [visitBody, nodeBuild, nth, litOf, execSwitch, execFrom, anySame, endSwitch, tyName, pk_node, pk_buf, pk_n, pk_strings, F.rbuf, F.rvisit, F.rnode, s_WriteString, w_String, s_WriteRune, w_32, w_40, w_41, w_44, w_91, w_93, g_between, g_predicates, g_logic, g_compare, g_parentheses, g_not, g_value, g_operation, g_identifier, g_reference, g_function, buildN, cat, visOut, ht, f_LeftBetween, f_OpBetween, f_ParamsBetween, Rl, el]
  | some rl =>
    have Ro := ih o (by omega)
    cases eo : buildN Q (rootName root) o with
    | none => gorun [visitBody, nodeBuild, nth, litOf, execSwitch, execFrom, anySame, endSwitch, tyName, pk_node, pk_buf, pk_n, pk_strings, F.rbuf, F.rvisit, F.rnode, s_WriteString, w_String, s_WriteRune, w_32, w_40, w_41, w_44, w_91, w_93, g_between, g_predicates, g_logic, g_compare, g_parentheses, g_not, g_value, g_operation, g_identifier, g_reference, g_function, buildN, cat, visOut, ht, f_LeftBetween, f_OpBetween, f_ParamsBetween, Rl, el, Ro, eo]
    | some ro =>
      have Ra := ih a (by omega)
      cases ea : buildN Q (rootName root) a with
      | none => gorun [visitBody, nodeBuild, nth, litOf, execSwitch, execFrom, anySame, endSwitch, tyName, pk_node, pk_buf, pk_n, pk_strings, F.rbuf, F.rvisit, F.rnode, s_WriteString, w_String, s_WriteRune, w_32, w_40, w_41, w_44, w_91, w_93, g_between, g_predicates, g_logic, g_compare, g_parentheses, g_not, g_value, g_operation, g_identifier, g_reference, g_function, buildN, cat, visOut, ht, f_LeftBetween, f_OpBetween, f_ParamsBetween, Rl, el, Ro, eo, Ra, ea]
      | some ra =>
        have Rb := ih b (by omega)
        cases eb : buildN Q (rootName root) b with
        | none => gorun [visitBody, nodeBuild, nth, litOf, execSwitch, execFrom, anySame, endSwitch, tyName, pk_node, pk_buf, pk_n, pk_strings, F.rbuf, F.rvisit, F.rnode, s_WriteString, w_String, s_WriteRune, w_32, w_40, w_41, w_44, w_91, w_93, g_between, g_predicates, g_logic, g_compare, g_parentheses, g_not, g_value, g_operation, g_identifier, g_reference, g_function, buildN, cat, visOut, ht, f_LeftBetween, f_OpBetween, f_ParamsBetween, Rl, el, Ro, eo, Ra, ea, Rb, eb]
        | some rb =>
          gorun [visitBody, nodeBuild, nth, litOf, execSwitch, execFrom, anySame, endSwitch, tyName, pk_node, pk_buf, pk_n, pk_strings, F.rbuf, F.rvisit, F.rnode, s_WriteString, w_String, s_WriteRune, w_32, w_40, w_41, w_44, w_91, w_93, g_between, g_predicates, g_logic, g_compare, g_parentheses, g_not, g_value, g_operation, g_identifier, g_reference, g_function, buildN, cat, visOut, ht, f_LeftBetween, f_OpBetween, f_ParamsBetween, Rl, el, Ro, eo, Ra, ea, Rb, eb]

set_option maxHeartbeats 800000 in
theorem visit_cmp (l o r) (F : Frame B sb b0 v0 n0 root) (ih : VisitBelow Q B sb b0 v0 n0 root (m + 3) k) (hl : lvl (.cmp l o r) ≤ k) (s : Str) :
    mqCall Q (m + 4) (visitClo v0 b0 n0) [nodeVal (.cmp l o r)] (B.put sb (bufVal s)) = visOut B sb s (buildN Q (rootName root) (.cmp l o r)) := by
  rw [visit_call]
  have ht := fun h => sel_Type (h := h) (a := .cmp l o r) (by simp)
  by_cases nr : r = .nil
  · subst nr
    rw [lvl] at hl
    have Rl := ih l (by omega)
    cases el : buildN Q (rootName root) l with
    | none => gorun [visitBody, nodeBuild, nth, litOf, execSwitch, execFrom, anySame, endSwitch, tyName, pk_node, pk_buf, pk_n, pk_strings, F.rbuf, F.rvisit, F.rnode, s_WriteString, w_String, s_WriteRune, w_32, w_40, w_41, w_44, w_91, w_93, g_between, g_predicates, g_logic, g_compare, g_parentheses, g_not, g_value, g_operation, g_identifier, g_reference, g_function, buildN, cat, visOut, ht, f_LeftCmp, f_OpCmp, f_RightCmp, Rl, el, v_nil]
    | some rl =>
      have Ro := ih o (by omega)
      cases eo : buildN Q (rootName root) o with
      | none => gorun [visitBody, nodeBuild, nth, litOf, execSwitch, execFrom, anySame, endSwitch, tyName, pk_node, pk_buf, pk_n, pk_strings, F.rbuf, F.rvisit, F.rnode, s_WriteString, w_String, s_WriteRune, w_32, w_40, w_41, w_44, w_91, w_93, g_between, g_predicates, g_logic, g_compare, g_parentheses, g_not, g_value, g_operation, g_identifier, g_reference, g_function, buildN, cat, visOut, ht, f_LeftCmp, f_OpCmp, f_RightCmp, Rl, el, Ro, eo, v_nil]
      | some ro =>
        gorun [visitBody, nodeBuild, nth, litOf, execSwitch, execFrom, anySame, endSwitch, tyName, pk_node, pk_buf, pk_n, pk_strings, F.rbuf, F.rvisit, F.rnode, s_WriteString, w_String, s_WriteRune, w_32, w_40, w_41, w_44, w_91, w_93, g_between, g_predicates, g_logic, g_compare, g_parentheses, g_not, g_value, g_operation, g_identifier, g_reference, g_function, buildN, cat, visOut, ht, f_LeftCmp, f_OpCmp, f_RightCmp, Rl, el, Ro, eo, v_nil]
  have er' : (match r with | .nil => some [] | r => cat (some c!" ") (buildN Q (rootName root) r)) = cat (some c!" ") (buildN Q (rootName root) r) := by
    cases r <;> first | exact absurd rfl nr | rfl
  rw [lvl] at hl
  have Rl := ih l (by omega)
  cases el : buildN Q (rootName root) l with
  | none => gorun [visitBody, nodeBuild, nth, litOf, execSwitch, execFrom, anySame, endSwitch, tyName, pk_node, pk_buf, pk_n, pk_strings, F.rbuf, F.rvisit, F.rnode, s_WriteString, w_String, s_WriteRune, w_32, w_40, w_41, w_44, w_91, w_93, g_between, g_predicates, g_logic, g_compare, g_parentheses, g_not, g_value, g_operation, g_identifier, g_reference, g_function, buildN, cat, visOut, ht, f_LeftCmp, f_OpCmp, f_RightCmp, Rl, el, same_node nr, er']
  | some rl =>
    have Ro := ih o (by omega)
    cases eo : buildN Q (rootName root) o with
    | none => gorun [visitBody, nodeBuild, nth, litOf, execSwitch, execFrom, anySame, endSwitch, tyName, pk_node, pk_buf, pk_n, pk_strings, F.rbuf, F.rvisit, F.rnode, s_WriteString, w_String, s_WriteRune, w_32, w_40, w_41, w_44, w_91, w_93, g_between, g_predicates, g_logic, g_compare, g_parentheses, g_not, g_value, g_operation, g_identifier, g_reference, g_function, buildN, cat, visOut, ht, f_LeftCmp, f_OpCmp, f_RightCmp, Rl, el, Ro, eo, same_node nr, er']
    | some ro =>
      have Rr := ih r (by omega)
      cases er : buildN Q (rootName root) r with
      | none => gorun [visitBody, nodeBuild, nth, litOf, execSwitch, execFrom, anySame, endSwitch, tyName, pk_node, pk_buf, pk_n, pk_strings, F.rbuf, F.rvisit, F.rnode, s_WriteString, w_String, s_WriteRune, w_32, w_40, w_41, w_44, w_91, w_93, g_between, g_predicates, g_logic, g_compare, g_parentheses, g_not, g_value, g_operation, g_identifier, g_reference, g_function, buildN, cat, visOut, ht, f_LeftCmp, f_OpCmp, f_RightCmp, Rl, el, Ro, eo, Rr, er, same_node nr, er']
      | some rr =>
        gorun [visitBody, nodeBuild, nth, litOf, execSwitch, execFrom, anySame, endSwitch, tyName, pk_node, pk_buf, pk_n, pk_strings, F.rbuf, F.rvisit, F.rnode, s_WriteString, w_String, s_WriteRune, w_32, w_40, w_41, w_44, w_91, w_93, g_between, g_predicates, g_logic, g_compare, g_parentheses, g_not, g_value, g_operation, g_identifier, g_reference, g_function, buildN, cat, visOut, ht, f_LeftCmp, f_OpCmp, f_RightCmp, Rl, el, Ro, eo, Rr, er, same_node nr, er']

set_option maxHeartbeats 800000 in
theorem visit_logic (l o r) (F : Frame B sb b0 v0 n0 root) (ih : VisitBelow Q B sb b0 v0 n0 root (m + 3) k) (hl : lvl (.logic l o r) ≤ k) (s : Str) :
    mqCall Q (m + 4) (visitClo v0 b0 n0) [nodeVal (.logic l o r)] (B.put sb (bufVal s)) = visOut B sb s (buildN Q (rootName root) (.logic l o r)) := by
  rw [visit_call]
  have ht := fun h => sel_Type (h := h) (a := .logic l o r) (by simp)
  by_cases nr : r = .nil
  · subst nr
    rw [lvl] at hl
    have Rl := ih l (by omega)
    cases el : buildN Q (rootName root) l with
    | none => gorun [visitBody, nodeBuild, nth, litOf, execSwitch, execFrom, anySame, endSwitch, tyName, pk_node, pk_buf, pk_n, pk_strings, F.rbuf, F.rvisit, F.rnode, s_WriteString, w_String, s_WriteRune, w_32, w_40, w_41, w_44, w_91, w_93, g_between, g_predicates, g_logic, g_compare, g_parentheses, g_not, g_value, g_operation, g_identifier, g_reference, g_function, buildN, cat, visOut, ht, f_LeftLogic, f_OpLogic, f_RightLogic, Rl, el, v_nil]
    | some rl =>
      have Ro := ih o (by omega)
      cases eo : buildN Q (rootName root) o with
      | none => gorun [visitBody, nodeBuild, nth, litOf, execSwitch, execFrom, anySame, endSwitch, tyName, pk_node, pk_buf, pk_n, pk_strings, F.rbuf, F.rvisit, F.rnode, s_WriteString, w_String, s_WriteRune, w_32, w_40, w_41, w_44, w_91, w_93, g_between, g_predicates, g_logic, g_compare, g_parentheses, g_not, g_value, g_operation, g_identifier, g_reference, g_function, buildN, cat, visOut, ht, f_LeftLogic, f_OpLogic, f_RightLogic, Rl, el, Ro, eo, v_nil]
      | some ro =>
        gorun [visitBody, nodeBuild, nth, litOf, execSwitch, execFrom, anySame, endSwitch, tyName, pk_node, pk_buf, pk_n, pk_strings, F.rbuf, F.rvisit, F.rnode, s_WriteString, w_String, s_WriteRune, w_32, w_40, w_41, w_44, w_91, w_93, g_between, g_predicates, g_logic, g_compare, g_parentheses, g_not, g_value, g_operation, g_identifier, g_reference, g_function, buildN, cat, visOut, ht, f_LeftLogic, f_OpLogic, f_RightLogic, Rl, el, Ro, eo, v_nil]
  have er' : (match r with | .nil => some [] | r => cat (some c!" ") (buildN Q (rootName root) r)) = cat (some c!" ") (buildN Q (rootName root) r) := by
    cases r <;> first | exact absurd rfl nr | rfl
  rw [lvl] at hl
  have Rl := ih l (by omega)
  cases el : buildN Q (rootName root) l with
  | none => gorun [visitBody, nodeBuild, nth, litOf, execSwitch, execFrom, anySame, endSwitch, tyName, pk_node, pk_buf, pk_n, pk_strings, F.rbuf, F.rvisit, F.rnode, s_WriteString, w_String, s_WriteRune, w_32, w_40, w_41, w_44, w_91, w_93, g_between, g_predicates, g_logic, g_compare, g_parentheses, g_not, g_value, g_operation, g_identifier, g_reference, g_function, buildN, cat, visOut, ht, f_LeftLogic, f_OpLogic, f_RightLogic, Rl, el, same_node nr, er']
  | some rl =>
    have Ro := ih o (by omega)
    cases eo : buildN Q (rootName root) o with
    | none => gorun [visitBody, nodeBuild, nth, litOf, execSwitch, execFrom, anySame, endSwitch, tyName, pk_node, pk_buf, pk_n, pk_strings, F.rbuf, F.rvisit, F.rnode, s_WriteString, w_String, s_WriteRune, w_32, w_40, w_41, w_44, w_91, w_93, g_between, g_predicates, g_logic, g_compare, g_parentheses, g_not, g_value, g_operation, g_identifier, g_reference, g_function, buildN, cat, visOut, ht, f_LeftLogic, f_OpLogic, f_RightLogic, Rl, el, Ro, eo, same_node nr, er']
    | some ro =>
      have Rr := ih r (by omega)
      cases er : buildN Q (rootName root) r with
      | none => gorun [visitBody, nodeBuild, nth, litOf, execSwitch, execFrom, anySame, endSwitch, tyName, pk_node, pk_buf, pk_n, pk_strings, F.rbuf, F.rvisit, F.rnode, s_WriteString, w_String, s_WriteRune, w_32, w_40, w_41, w_44, w_91, w_93, g_between, g_predicates, g_logic, g_compare, g_parentheses, g_not, g_value, g_operation, g_identifier, g_reference, g_function, buildN, cat, visOut, ht, f_LeftLogic, f_OpLogic, f_RightLogic, Rl, el, Ro, eo, Rr, er, same_node nr, er']
      | some rr =>
        gorun [visitBody, nodeBuild, nth, litOf, execSwitch, execFrom, anySame, endSwitch, tyName, pk_node, pk_buf, pk_n, pk_strings, F.rbuf, F.rvisit, F.rnode, s_WriteString, w_String, s_WriteRune, w_32, w_40, w_41, w_44, w_91, w_93, g_between, g_predicates, g_logic, g_compare, g_parentheses, g_not, g_value, g_operation, g_identifier, g_reference, g_function, buildN, cat, visOut, ht, f_LeftLogic, f_OpLogic, f_RightLogic, Rl, el, Ro, eo, Rr, er, same_node nr, er']

/-- The variables and the memory in the loop of `visit`. -/
def funcSt (B : Heap) (sb v0 b0 n0 N : Nat) (x : Node) (b : Str) : Locals × Heap :=
  ([(c!"n", .val (.int N)), (c!"node", .val (nodeVal x)), (c!"visit", .box v0), (c!"buf", .box b0), (c!"n", .box n0)], B.put sb (bufVal b))

theorem last_eq {i N : Nat} : ((i : Int) = (N : Int) - 1) = (i + 1 = N) := by
  simp only [eq_iff_iff]; omega

theorem getElem_lt {α} {l : List α} {j : Nat} {a : α} (hj : l[j]? = some a) : j < l.length ∧ a ∈ l := by
  obtain ⟨h, e⟩ := List.getElem?_eq_some_iff.1 hj
  exact ⟨h, e ▸ List.getElem_mem h⟩

theorem visit_func (f l) (F : Frame B sb b0 v0 n0 root) (ih : VisitBelow Q B sb b0 v0 n0 root (m + 3) k) (hl : lvl (.func f l) ≤ k) (s : Str) :
    mqCall Q (m + 4) (visitClo v0 b0 n0) [nodeVal (.func f l)] (B.put sb (bufVal s)) = visOut B sb s (buildN Q (rootName root) (.func f l)) := by
  rw [visit_call]
  rw [lvl] at hl
  have ht := fun h => sel_Type (h := h) (a := .func f l) (by simp)
  have hf := loop_foldI nodeVal (funcSt B sb v0 b0 n0 l.length (.func f l)) (commaStep Q (rootName root) l.length)
    (rangeBody [] c!"i" c!"v" (execs mq (mqCall Q (m + 3)) [] (loopOf (nth (caseAt (swOf (nth visitBody 0)) 9) 3)))) l 0
    (by
      intro j a ha b
      obtain ⟨h1, h2⟩ := getElem_lt ha
      have R := ih a (Nat.lt_of_le_of_lt (lvl_mem h2) hl)
      have h3 := last_eq (i := j) (N := l.length)
      simp only [Nat.zero_add]
      cases e : buildN Q (rootName root) a with
      | none => gorun [funcSt, visitBody, nodeBuild, nth, litOf, execSwitch, execFrom, anySame, endSwitch, tyName, pk_node, pk_buf, pk_n, pk_strings, F.rbuf, F.rvisit, F.rnode, s_WriteString, w_String, s_WriteRune, w_32, w_40, w_41, w_44, w_91, w_93, g_between, g_predicates, g_logic, g_compare, g_parentheses, g_not, g_value, g_operation, g_identifier, g_reference, g_function, buildN, cat, visOut, swOf, caseAt, loopOf, rangeBody, commaStep, R, e, h3]
      | some r =>
        by_cases h4 : j + 1 = l.length <;> gorun [funcSt, visitBody, nodeBuild, nth, litOf, execSwitch, execFrom, anySame, endSwitch, tyName, pk_node, pk_buf, pk_n, pk_strings, F.rbuf, F.rvisit, F.rnode, s_WriteString, w_String, s_WriteRune, w_32, w_40, w_41, w_44, w_91, w_93, g_between, g_predicates, g_logic, g_compare, g_parentheses, g_not, g_value, g_operation, g_identifier, g_reference, g_function, buildN, cat, visOut, swOf, caseAt, loopOf, rangeBody, commaStep, R, e, h3, h4])
    (s ++ rootName root ++ c!"(")
  rw [foldI_comma _ _ _ _ _ (by simp), ← nodeVals_eq] at hf
  simp only [visitBody, nodeBuild, nth, litOf, swOf, caseAt, loopOf, funcSt] at hf
  have hr := fun h => sel_Name (h := h) root
  simp only [rootName_eq F.some] at hr
  cases e : buildL Q (rootName root) l with
  | none =>
    simp [e] at hf
    gorun [visitBody, nodeBuild, nth, litOf, execSwitch, execFrom, anySame, endSwitch, tyName, pk_node, pk_buf, pk_n, pk_strings, F.rbuf, F.rvisit, F.rnode, s_WriteString, w_String, s_WriteRune, w_32, w_40, w_41, w_44, w_91, w_93, g_between, g_predicates, g_logic, g_compare, g_parentheses, g_not, g_value, g_operation, g_identifier, g_reference, g_function, buildN, cat, visOut, ht, f_ParamsFunc, hr, hf, e]
  | some r =>
    simp [e] at hf
    gorun [visitBody, nodeBuild, nth, litOf, execSwitch, execFrom, anySame, endSwitch, tyName, pk_node, pk_buf, pk_n, pk_strings, F.rbuf, F.rvisit, F.rnode, s_WriteString, w_String, s_WriteRune, w_32, w_40, w_41, w_44, w_91, w_93, g_between, g_predicates, g_logic, g_compare, g_parentheses, g_not, g_value, g_operation, g_identifier, g_reference, g_function, buildN, cat, visOut, ht, f_ParamsFunc, hr, hf, e]

/-! ## `buildValue` -/

theorem bv_int (i) (v : Val) (s : Str) : mqCall Q (m + 3) (.fn c!"buildValue") [.ptr sb, nodeVal (.int i), v] (B.put sb (bufVal s)) =
    visOut B sb s (buildN Q (rootName root) (.int i)) := by
  have e : mqCall Q (m + 3) (.fn c!"buildValue") [.ptr sb, nodeVal (.int i), v] (B.put sb (bufVal s)) =
    runBody mq (mqCall Q (m + 2)) [c!"buf", c!"node", c!"visit"] [] nodebuildValue [] [.ptr sb, nodeVal (.int i), v] (B.put sb (bufVal s)) := rfl
  rw [e, runBody_plain rfl (by decide) (by decide)]
  have hx : (Node.int i) ≠ .nil := by simp
  have hv := fun h => value_run (Q := Q) 0 (.int i) hx (Nat.le_refl _) m (Nat.zero_le _) h
  simp only [value, valueOut] at hv
  have hs : same (goVal (.int i)) .nil = some false := rfl
  gorun [nodebuildValue, nth, execSwitch, anySame, endSwitch, vtName, pk_node, pk_buf, pk_fmt, s_WriteString, w_String, s_WriteRune, w_32, w_40, w_41, w_44, w_91, w_93, g_array, g_string, buildN, cat, visOut, sel_ValueType hx, s_Value hx, hv, hs, g_Fprint, l_Fprint, fmtVal]

theorem bv_bool (i) (v : Val) (s : Str) : mqCall Q (m + 3) (.fn c!"buildValue") [.ptr sb, nodeVal (.bool i), v] (B.put sb (bufVal s)) =
    visOut B sb s (buildN Q (rootName root) (.bool i)) := by
  have e : mqCall Q (m + 3) (.fn c!"buildValue") [.ptr sb, nodeVal (.bool i), v] (B.put sb (bufVal s)) =
    runBody mq (mqCall Q (m + 2)) [c!"buf", c!"node", c!"visit"] [] nodebuildValue [] [.ptr sb, nodeVal (.bool i), v] (B.put sb (bufVal s)) := rfl
  rw [e, runBody_plain rfl (by decide) (by decide)]
  have hx : (Node.bool i) ≠ .nil := by simp
  have hv := fun h => value_run (Q := Q) 0 (.bool i) hx (Nat.le_refl _) m (Nat.zero_le _) h
  simp only [value, valueOut] at hv
  have hs : same (goVal (.bool i)) .nil = some false := rfl
  gorun [nodebuildValue, nth, execSwitch, anySame, endSwitch, vtName, pk_node, pk_buf, pk_fmt, s_WriteString, w_String, s_WriteRune, w_32, w_40, w_41, w_44, w_91, w_93, g_array, g_string, buildN, cat, visOut, sel_ValueType hx, s_Value hx, hv, hs, g_Fprint, l_Fprint, fmtVal]

theorem bv_null  (v : Val) (s : Str) : mqCall Q (m + 3) (.fn c!"buildValue") [.ptr sb, nodeVal .null, v] (B.put sb (bufVal s)) =
    visOut B sb s (buildN Q (rootName root) .null) := by
  have e : mqCall Q (m + 3) (.fn c!"buildValue") [.ptr sb, nodeVal .null, v] (B.put sb (bufVal s)) =
    runBody mq (mqCall Q (m + 2)) [c!"buf", c!"node", c!"visit"] [] nodebuildValue [] [.ptr sb, nodeVal .null, v] (B.put sb (bufVal s)) := rfl
  rw [e, runBody_plain rfl (by decide) (by decide)]
  have hx : Node.null ≠ .nil := by simp
  have hv := fun h => value_run (Q := Q) 0 .null hx (Nat.le_refl _) m (Nat.zero_le _) h
  simp only [value, valueOut] at hv
  have hs : same (goVal (.nil)) .nil = some true := rfl
  gorun [nodebuildValue, nth, execSwitch, anySame, endSwitch, vtName, pk_node, pk_buf, pk_fmt, s_WriteString, w_String, s_WriteRune, w_32, w_40, w_41, w_44, w_91, w_93, g_array, g_string, buildN, cat, visOut, sel_ValueType hx, s_Value hx, hv, hs, g_Fprint, l_Fprint, fmtVal]

theorem bv_str (x) (v : Val) (s : Str) : mqCall Q (m + 3) (.fn c!"buildValue") [.ptr sb, nodeVal (.str x), v] (B.put sb (bufVal s)) =
    visOut B sb s (buildN Q (rootName root) (.str x)) := by
  have e : mqCall Q (m + 3) (.fn c!"buildValue") [.ptr sb, nodeVal (.str x), v] (B.put sb (bufVal s)) =
    runBody mq (mqCall Q (m + 2)) [c!"buf", c!"node", c!"visit"] [] nodebuildValue [] [.ptr sb, nodeVal (.str x), v] (B.put sb (bufVal s)) := rfl
  rw [e, runBody_plain rfl (by decide) (by decide)]
  have hx : Node.str x ≠ .nil := by simp
  gorun [nodebuildValue, nth, execSwitch, anySame, endSwitch, vtName, pk_node, pk_buf, pk_fmt, s_WriteString, w_String, s_WriteRune, w_32, w_40, w_41, w_44, w_91, w_93, g_array, g_string, buildN, cat, visOut, sel_ValueType hx, f_Str, g_Fprintf, l_Fprintf]

/-- The variables and the memory in the loop of `buildValue`. -/
def arrSt (B : Heap) (sb N : Nat) (v : Val) (x : Node) (b : Str) : Locals × Heap :=
  ([(c!"n", .val (.int N)), (c!"visit", .val v), (c!"node", .val (nodeVal x)), (c!"buf", .val (.ptr sb))], B.put sb (bufVal b))

theorem bv_arr (l) (ih : VisitBelow Q B sb b0 v0 n0 root (m + 2) k) (hl : lvl (.arr l) ≤ k) (s : Str) :
    mqCall Q (m + 3) (.fn c!"buildValue") [.ptr sb, nodeVal (.arr l), visitClo v0 b0 n0] (B.put sb (bufVal s)) =
    visOut B sb s (buildN Q (rootName root) (.arr l)) := by
  have e : mqCall Q (m + 3) (.fn c!"buildValue") [.ptr sb, nodeVal (.arr l), visitClo v0 b0 n0] (B.put sb (bufVal s)) =
    runBody mq (mqCall Q (m + 2)) [c!"buf", c!"node", c!"visit"] [] nodebuildValue [] [.ptr sb, nodeVal (.arr l), visitClo v0 b0 n0] (B.put sb (bufVal s)) := rfl
  rw [e, runBody_plain rfl (by decide) (by decide)]
  rw [lvl] at hl
  have hx : Node.arr l ≠ .nil := by simp
  have hf := loop_foldI nodeVal (arrSt B sb l.length (visitClo v0 b0 n0) (.arr l)) (commaStep Q (rootName root) l.length)
    (rangeBody [] c!"i" c!"v" (execs mq (mqCall Q (m + 2)) [] (loopOf (nth (caseAt (swOf (nth nodebuildValue 0)) 0) 2)))) l 0
    (by
      intro j a ha b
      obtain ⟨h1, h2⟩ := getElem_lt ha
      have R := ih a (Nat.lt_of_le_of_lt (lvl_mem h2) hl)
      have h3 := last_eq (i := j) (N := l.length)
      simp only [Nat.zero_add]
      cases e : buildN Q (rootName root) a with
      | none => gorun [arrSt, nodebuildValue, nth, execSwitch, anySame, endSwitch, vtName, pk_node, pk_buf, pk_fmt, s_WriteString, w_String, s_WriteRune, w_32, w_40, w_41, w_44, w_91, w_93, g_array, g_string, buildN, cat, visOut, sel_ValueType hx, swOf, caseAt, loopOf, rangeBody, commaStep, R, e, h3]
      | some r =>
        by_cases h4 : j + 1 = l.length <;> gorun [arrSt, nodebuildValue, nth, execSwitch, anySame, endSwitch, vtName, pk_node, pk_buf, pk_fmt, s_WriteString, w_String, s_WriteRune, w_32, w_40, w_41, w_44, w_91, w_93, g_array, g_string, buildN, cat, visOut, sel_ValueType hx, swOf, caseAt, loopOf, rangeBody, commaStep, R, e, h3, h4])
    (s ++ c!"[")
  rw [foldI_comma _ _ _ _ _ (by simp), ← nodeVals_eq] at hf
  simp only [nodebuildValue, nth, swOf, caseAt, loopOf, arrSt] at hf
  cases e : buildL Q (rootName root) l with
  | none =>
    simp [e] at hf
    gorun [nodebuildValue, nth, execSwitch, anySame, endSwitch, vtName, pk_node, pk_buf, pk_fmt, s_WriteString, w_String, s_WriteRune, w_32, w_40, w_41, w_44, w_91, w_93, g_array, g_string, buildN, cat, visOut, sel_ValueType hx, sel_Array_arr, hf, e]
  | some r =>
    simp [e] at hf
    gorun [nodebuildValue, nth, execSwitch, anySame, endSwitch, vtName, pk_node, pk_buf, pk_fmt, s_WriteString, w_String, s_WriteRune, w_32, w_40, w_41, w_44, w_91, w_93, g_array, g_string, buildN, cat, visOut, sel_ValueType hx, sel_Array_arr, hf, e]

theorem visit_int (i) (F : Frame B sb b0 v0 n0 root) (s : Str) :
    mqCall Q (m + 4) (visitClo v0 b0 n0) [nodeVal (.int i)] (B.put sb (bufVal s)) = visOut B sb s (buildN Q (rootName root) (.int i)) := by
  rw [visit_call]
  have ht := fun h => sel_Type (h := h) (a := (.int i)) (by simp)
  have R := bv_int (Q := Q) (m := m) (sb := sb) (B := B) (root := root) i (visitClo v0 b0 n0) s
  generalize buildN Q (rootName root) (.int i) = o at R ⊢
  cases o <;> simp only [visOut] at R ⊢ <;>
  gorun [visitBody, nodeBuild, nth, litOf, execSwitch, execFrom, anySame, endSwitch, tyName, pk_node, pk_buf, pk_n, pk_strings, F.rbuf, F.rvisit, F.rnode, s_WriteString, w_String, s_WriteRune, w_32, w_40, w_41, w_44, w_91, w_93, g_between, g_predicates, g_logic, g_compare, g_parentheses, g_not, g_value, g_operation, g_identifier, g_reference, g_function, ht, g_buildValue, R]

theorem visit_bool (i) (F : Frame B sb b0 v0 n0 root) (s : Str) :
    mqCall Q (m + 4) (visitClo v0 b0 n0) [nodeVal (.bool i)] (B.put sb (bufVal s)) = visOut B sb s (buildN Q (rootName root) (.bool i)) := by
  rw [visit_call]
  have ht := fun h => sel_Type (h := h) (a := (.bool i)) (by simp)
  have R := bv_bool (Q := Q) (m := m) (sb := sb) (B := B) (root := root) i (visitClo v0 b0 n0) s
  generalize buildN Q (rootName root) (.bool i) = o at R ⊢
  cases o <;> simp only [visOut] at R ⊢ <;>
  gorun [visitBody, nodeBuild, nth, litOf, execSwitch, execFrom, anySame, endSwitch, tyName, pk_node, pk_buf, pk_n, pk_strings, F.rbuf, F.rvisit, F.rnode, s_WriteString, w_String, s_WriteRune, w_32, w_40, w_41, w_44, w_91, w_93, g_between, g_predicates, g_logic, g_compare, g_parentheses, g_not, g_value, g_operation, g_identifier, g_reference, g_function, ht, g_buildValue, R]

theorem visit_str (i) (F : Frame B sb b0 v0 n0 root) (s : Str) :
    mqCall Q (m + 4) (visitClo v0 b0 n0) [nodeVal (.str i)] (B.put sb (bufVal s)) = visOut B sb s (buildN Q (rootName root) (.str i)) := by
  rw [visit_call]
  have ht := fun h => sel_Type (h := h) (a := (.str i)) (by simp)
  have R := bv_str (Q := Q) (m := m) (sb := sb) (B := B) (root := root) i (visitClo v0 b0 n0) s
  generalize buildN Q (rootName root) (.str i) = o at R ⊢
  cases o <;> simp only [visOut] at R ⊢ <;>
  gorun [visitBody, nodeBuild, nth, litOf, execSwitch, execFrom, anySame, endSwitch, tyName, pk_node, pk_buf, pk_n, pk_strings, F.rbuf, F.rvisit, F.rnode, s_WriteString, w_String, s_WriteRune, w_32, w_40, w_41, w_44, w_91, w_93, g_between, g_predicates, g_logic, g_compare, g_parentheses, g_not, g_value, g_operation, g_identifier, g_reference, g_function, ht, g_buildValue, R]

theorem visit_null  (F : Frame B sb b0 v0 n0 root) (s : Str) :
    mqCall Q (m + 4) (visitClo v0 b0 n0) [nodeVal .null] (B.put sb (bufVal s)) = visOut B sb s (buildN Q (rootName root) .null) := by
  rw [visit_call]
  have ht := fun h => sel_Type (h := h) (a := .null) (by simp)
  have R := bv_null (Q := Q) (m := m) (sb := sb) (B := B) (root := root) (visitClo v0 b0 n0) s
  generalize buildN Q (rootName root) .null = o at R ⊢
  cases o <;> simp only [visOut] at R ⊢ <;>
  gorun [visitBody, nodeBuild, nth, litOf, execSwitch, execFrom, anySame, endSwitch, tyName, pk_node, pk_buf, pk_n, pk_strings, F.rbuf, F.rvisit, F.rnode, s_WriteString, w_String, s_WriteRune, w_32, w_40, w_41, w_44, w_91, w_93, g_between, g_predicates, g_logic, g_compare, g_parentheses, g_not, g_value, g_operation, g_identifier, g_reference, g_function, ht, g_buildValue, R]

theorem visit_arr (l) (F : Frame B sb b0 v0 n0 root) (ih : VisitBelow Q B sb b0 v0 n0 root (m + 2) k) (hl : lvl (.arr l) ≤ k) (s : Str) :
    mqCall Q (m + 4) (visitClo v0 b0 n0) [nodeVal (.arr l)] (B.put sb (bufVal s)) = visOut B sb s (buildN Q (rootName root) (.arr l)) := by
  rw [visit_call]
  have ht := fun h => sel_Type (h := h) (a := (.arr l)) (by simp)
  have R := bv_arr l ih hl s
  generalize buildN Q (rootName root) (.arr l) = o at R ⊢
  cases o <;> simp only [visOut] at R ⊢ <;>
  gorun [visitBody, nodeBuild, nth, litOf, execSwitch, execFrom, anySame, endSwitch, tyName, pk_node, pk_buf, pk_n, pk_strings, F.rbuf, F.rvisit, F.rnode, s_WriteString, w_String, s_WriteRune, w_32, w_40, w_41, w_44, w_91, w_93, g_between, g_predicates, g_logic, g_compare, g_parentheses, g_not, g_value, g_operation, g_identifier, g_reference, g_function, ht, g_buildValue, R]

/-- Running `visit`. -/
theorem visit_run (F : Frame B sb b0 v0 n0 root) (k : Nat) : ∀ x : Node, lvl x ≤ k → ∀ m, 2 * k ≤ m → ∀ s,
    mqCall Q (m + 4) (visitClo v0 b0 n0) [nodeVal x] (B.put sb (bufVal s)) = visOut B sb s (buildN Q (rootName root) x) := by
  induction k using Nat.strongRecOn with | _ k ih =>
  intro x hl m hm s
  have ih1 : VisitBelow Q B sb b0 v0 n0 root (m + 3) k := by
    intro x hl s
    obtain ⟨m', rfl⟩ : ∃ m', m = m' + 1 := ⟨m - 1, by omega⟩
    exact ih (lvl x) hl x (Nat.le_refl _) m' (by omega) s
  have ih2 : VisitBelow Q B sb b0 v0 n0 root (m + 2) k := by
    intro x hl s
    obtain ⟨m', rfl⟩ : ∃ m', m = m' + 2 := ⟨m - 2, by omega⟩
    exact ih (lvl x) hl x (Nat.le_refl _) m' (by omega) s
  cases x with
  | nil =>
    rw [visit_call, v_nil]
    gorun [visitBody, nodeBuild, nth, litOf, select_nil, pk_node, buildN, visOut]
  | int i => exact visit_int i F s
  | bool i => exact visit_bool i F s
  | str i => exact visit_str i F s
  | null => exact visit_null F s
  | op i => exact visit_op i F s
  | ident i => exact visit_ident i F s
  | ref i => exact visit_ref i F s
  | arr l => exact visit_arr l F ih2 hl s
  | pred l o => exact visit_pred l o F ih1 hl s
  | cmp l o r => exact visit_cmp l o r F ih1 hl s
  | logic l o r => exact visit_logic l o r F ih1 hl s
  | paren e => exact visit_paren e F ih1 hl s
  | not e => exact visit_not e F ih1 hl s
  | between l o a b => exact visit_between l o a b F ih1 hl s
  | func f l => exact visit_func f l F ih1 hl s

end Verif.Mini
