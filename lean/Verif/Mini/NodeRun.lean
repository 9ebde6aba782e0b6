import Verif.Mini.Buf

/-! # Running /repo/miniquery/node.go: `Value`, `IsValue`, `IsExpression`, `printPretty` -/

namespace Verif.Mini
open Verif

variable {Q : Char → Bool} {n : Nat} {h : Heap}

mutual
/-- How deep a node is. -/
def lvl : Node → Nat
  | .nil | .int _ | .bool _ | .str _ | .null | .op _ | .ident _ | .ref _ => 0
  | .arr l => lvls l + 1
  | .pred l o => max (lvl l) (lvl o) + 1
  | .cmp l o r => max (lvl l) (max (lvl o) (lvl r)) + 1
  | .logic l o r => max (lvl l) (max (lvl o) (lvl r)) + 1
  | .paren e => lvl e + 1
  | .not e => lvl e + 1
  | .between l o a b => max (lvl l) (max (lvl o) (max (lvl a) (lvl b))) + 1
  | .func _ l => lvls l + 1
/-- The deepest of several nodes. -/
def lvls : List Node → Nat
  | [] => 0
  | x :: l => max (lvl x) (lvls l)
end

theorem lvl_mem {x : Node} {l : List Node} (hx : x ∈ l) : lvl x ≤ lvls l := by
  induction l with
  | nil => cases hx
  | cons y l ih =>
    rw [lvls]
    rcases List.mem_cons.1 hx with rfl | h
    · omega
    · have := ih h; omega

/-! ## Methods and fields -/

theorem structOf_node {x : Node} (hx : x ≠ .nil) : ∃ fs, nodeVal x = .obj c!"Node" fs := by
  cases x <;> first | exact absurd rfl hx | exact ⟨_, by rw [nodeVal, mkNode]⟩

theorem meth_node {x : Node} {m : Str} {f : Func} {args} (hx : x ≠ .nil) (hf : findFunc (c!"Node." ++ m) mq.decls = some f) (hptr : f.ptr = false) :
    mqCall Q (n + 1) (.meth (nodeVal x) m) args h = runBody mq (mqCall Q n) f.params f.results f.body [] (nodeVal x :: args) h := by
  show runMeth mq (mqLib Q) (mqCall Q n) (nodeVal x) m args _ = _
  obtain ⟨fs, e⟩ := structOf_node hx
  have e1 : c!"Node" ++ '.' :: m = c!"Node." ++ m := rfl
  simp only [runMeth, e, structOf]
  rw [e1, hf]
  simp [hptr]

theorem select_node {x : Node} {m : Str} (hx : x ≠ .nil) (h0 : ∀ fs, nodeVal x = .obj c!"Node" fs → fget m fs = none)
    (h1 : (findStruct c!"Node" mq.decls).bind (fieldType m) = none) (h2 : (findStruct c!"Node" mq.decls).bind (embedded mq m) = none) :
    select mq (nodeVal x) m h = .ok ([.meth (nodeVal x) m], h) := by
  obtain ⟨fs, e⟩ := structOf_node hx
  simp only [select, e, structOf, ownField, h0 fs e, h1, h2, Option.map_none]

theorem s_Value {x : Node} (hx : x ≠ .nil) : select mq (nodeVal x) c!"Value" h = .ok ([.meth (nodeVal x) c!"Value"], h) := by
  refine select_node hx (fun fs e => ?_) rfl rfl
  cases x <;> simp [nodeVal, mkNode] at e hx <;> subst e <;> simp [fget]
theorem s_NodeString {x : Node} (hx : x ≠ .nil) : select mq (nodeVal x) c!"String" h = .ok ([.meth (nodeVal x) c!"String"], h) := by
  refine select_node hx (fun fs e => ?_) rfl rfl
  cases x <;> simp [nodeVal, mkNode] at e hx <;> subst e <;> simp [fget]

theorem f_Int (i) : select mq (nodeVal (.int i)) c!"Int" h = .ok ([.int i], h) := rfl
theorem f_Bool (i) : select mq (nodeVal (.bool i)) c!"Bool" h = .ok ([.bool i], h) := rfl
theorem f_Str (i) : select mq (nodeVal (.str i)) c!"Str" h = .ok ([.str i], h) := rfl

/-! ## Value -/

theorem goVals_append (a b) : goVals (a ++ b) = goVals a ++ goVals b := by
  induction a with
  | nil => rfl
  | cons x l ih => simp [goVals, ih]

/-- What `Value` returns. -/
def valueOut (h : Heap) : Option GoVal → Vals
  | none => .panic
  | some v => .ok ([goVal v], h)

theorem foldlM_values (l : List Node) (acc : List GoVal) :
    l.foldlM (fun acc a => (value a).map (acc ++ [·])) acc = (valueL l).map (acc ++ ·) := by
  induction l generalizing acc with
  | nil => simp [valueL]
  | cons a l ih =>
    cases e : value a with
    | none => simp [List.foldlM_cons, valueL, e]
    | some x =>
      simp only [List.foldlM_cons, valueL, e, Option.map_some, Option.bind_eq_bind, Option.bind_some, ih]
      cases valueL l <;> simp

/-- The variables and the memory in the loop of `Value`. -/
def valueSt (x : Node) (h : Heap) (acc : List GoVal) : Locals × Heap :=
  ([(c!"s", .val (.slice (goVals acc))), (c!"n", .val (nodeVal x))], h)

theorem zero_iface : zeroOf mq (.arr (.id c!"interface")) = .slice [] := rfl

/-- The clauses of a switch. -/
def swOf : Stmts → Cases
  | .cons (.switch _ cs) _ => cs
  | _ => .nil

/-- The body of a clause. -/
def caseAt : Cases → Nat → Stmts
  | .nil, _ => .nil
  | .case _ b _, 0 => b
  | .case _ _ k, n + 1 => caseAt k n
  | .dflt b _, 0 => b
  | .dflt _ k, n + 1 => caseAt k n

/-- Running `Value`. -/
theorem value_run (k : Nat) : ∀ x : Node, x ≠ .nil → lvl x ≤ k → ∀ m, k ≤ m → ∀ h,
    mqCall Q (m + 2) (.meth (nodeVal x) c!"Value") [] h = valueOut h (value x) := by
  induction k using Nat.strongRecOn with | _ k ih =>
  intro x hx hl m hm h
  rw [meth_node hx (f := ⟨false, [c!"n"], [c!"_"], nodeNodeValue⟩) rfl rfl, runBody_plain rfl (by decide) (by decide)]
  cases x with
  | nil => exact absurd rfl hx
  | arr l =>
    rw [lvl] at hl
    obtain ⟨m, rfl⟩ : ∃ m', m = m' + 1 := ⟨m - 1, by omega⟩
    have hl := loop_fold nodeVal (valueSt (.arr l) h) (fun acc a => (value a).map (acc ++ [·]))
      (rangeBody [] c!"_" c!"v" (execs mq (mqCall Q (m + 2)) [] (loopOf (nth (caseAt (swOf (nth nodeNodeValue 0)) 5) 1)))) l
      (by
        intro i a ha b
        by_cases h0 : a = .nil
        · subst h0
          gorun [valueSt, nodeNodeValue, nth, swOf, caseAt, loopOf, rangeBody, v_nil, value, select]
        · have hv := ih (lvls l) (by omega) a h0 (lvl_mem ha) m (by omega)
          cases e : value a <;>
          gorun [valueSt, nodeNodeValue, nth, swOf, caseAt, loopOf, rangeBody, s_Value h0, hv, valueOut, e, goVals_append, goVals])
      [] 0
    rw [foldlM_values, ← nodeVals_eq] at hl
    simp only [nodeNodeValue, nth, swOf, caseAt, loopOf, valueSt, goVals] at hl
    cases e : valueL l <;> simp only [e, Option.map_none, Option.map_some] at hl <;>
    gorun [nodeNodeValue, execSwitch, anySame, endSwitch, sel_ValueType hx, vtName, g_int, g_string, g_float, g_bool, g_null, g_array, sel_Array_arr, value,
      valueOut, goVal, zero_iface, hl, e]
  | _ => gorun [nodeNodeValue, execSwitch, anySame, endSwitch, sel_ValueType hx, vtName, g_int, g_string, g_float, g_bool, g_null, g_array, f_Int, f_Bool,
      f_Str, value, valueOut, goVal]

/-- Running `IsValue`. -/
theorem isValue_run {x : Node} (hx : x ≠ .nil) : mqCall Q (n + 1) (.meth (nodeVal x) c!"IsValue") [] h = .ok ([.bool (isValue x)], h) := by
  rw [meth_node hx (f := ⟨false, [c!"n"], [c!"_"], nodeNodeIsValue⟩) rfl rfl, runBody_plain rfl (by decide) (by decide)]
  cases x with
  | nil => exact absurd rfl hx
  | _ => gorun [nodeNodeIsValue, sel_ValueType hx, vtName, isValue]

/-- Running `IsExpression`. -/
theorem isExpression_run {x : Node} (hx : x ≠ .nil) :
    mqCall Q (n + 2) (.meth (nodeVal x) c!"IsExpression") [] h = .ok ([.bool (isExpression x)], h) := by
  rw [meth_node hx (f := ⟨false, [c!"n"], [c!"_"], nodeNodeIsExpression⟩) rfl rfl, runBody_plain rfl (by decide) (by decide)]
  cases x with
  | nil => exact absurd rfl hx
  | _ => gorun [nodeNodeIsExpression, execSwitch, anySame, endSwitch, sel_Type hx, tyName, g_identifier, g_value, g_operation, g_reference, isExpression]

end Verif.Mini
