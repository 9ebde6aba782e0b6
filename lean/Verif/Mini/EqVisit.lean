import Verif.Mini.Eq
import Verif.Mini.NodeRun
import Verif.Mini.GormVisit

/-! # Running /repo/entmq/entql.go: `visit` -/

namespace Verif.Mini
open Verif

variable {Q : Char → Bool} {N n a k : Nat} {h : Heap} {L : Lib} {q : Str} {st : List EExpr}

/-- What a call does in entql.go. -/
abbrev eqCall (Q : Char → Bool) (N : Nat) : Nat → Val → List Val → Heap → Vals := call eqp (eqLib Q N)

theorem eq_Type {a : Node} (ha : a ≠ .nil) : select eqp (nodeVal a) c!"Type" h = .ok ([.str (tyName a)], h) := by
  cases a <;> first | exact absurd rfl ha | rfl
theorem eq_Operation (o) : select eqp (nodeVal (.op o)) c!"Operation" h = .ok ([.str o], h) := rfl
theorem eq_NameFunc (x l) : select eqp (nodeVal (.func x l)) c!"Name" h = .ok ([.str x], h) := rfl
theorem eq_Names (x : List Str) : select eqp (nodeVal (.ref x)) c!"Names" h = .ok ([.slice (x.map .str)], h) := rfl
theorem eq_Paren (x) : select eqp (nodeVal (.paren x)) c!"Expression" h = .ok ([nodeVal x], h) := rfl
theorem eq_Not (x) : select eqp (nodeVal (.not x)) c!"Expression" h = .ok ([nodeVal x], h) := rfl
theorem eq_LeftPred (l o) : select eqp (nodeVal (.pred l o)) c!"Left" h = .ok ([nodeVal l], h) := rfl
theorem eq_OpPred (l o) : select eqp (nodeVal (.pred l o)) c!"Op" h = .ok ([nodeVal o], h) := rfl
theorem eq_RightPred (l o) : select eqp (nodeVal (.pred l o)) c!"Right" h = .ok ([.nil], h) := rfl
theorem eq_LeftCmp (l o r) : select eqp (nodeVal (.cmp l o r)) c!"Left" h = .ok ([nodeVal l], h) := rfl
theorem eq_OpCmp (l o r) : select eqp (nodeVal (.cmp l o r)) c!"Op" h = .ok ([nodeVal o], h) := rfl
theorem eq_RightCmp (l o r) : select eqp (nodeVal (.cmp l o r)) c!"Right" h = .ok ([nodeVal r], h) := rfl
theorem eq_LeftLogic (l o r) : select eqp (nodeVal (.logic l o r)) c!"Left" h = .ok ([nodeVal l], h) := rfl
theorem eq_OpLogic (l o r) : select eqp (nodeVal (.logic l o r)) c!"Op" h = .ok ([nodeVal o], h) := rfl
theorem eq_RightLogic (l o r) : select eqp (nodeVal (.logic l o r)) c!"Right" h = .ok ([nodeVal r], h) := rfl
theorem eq_LeftBetween (l o a b) : select eqp (nodeVal (.between l o a b)) c!"Left" h = .ok ([nodeVal l], h) := rfl
theorem eq_OpBetween (l o a b) : select eqp (nodeVal (.between l o a b)) c!"Op" h = .ok ([nodeVal o], h) := rfl
theorem eq_ParamsBetween (l o a b) : select eqp (nodeVal (.between l o a b)) c!"Params" h = .ok ([.slice [nodeVal a, nodeVal b]], h) := rfl
theorem eq_ParamsFunc (x l) : select eqp (nodeVal (.func x l)) c!"Params" h = .ok ([.slice (nodeVals l)], h) := rfl
theorem eq_NameIdent (x) : select eqp (nodeVal (.ident x)) c!"Name" h = .ok ([.str x], h) := rfl
theorem eq_nil (f) : select eqp .nil f h = .panic := rfl
theorem eq_Value {x : Node} (hx : x ≠ .nil) : select eqp (nodeVal x) c!"Value" h = .ok ([.meth (nodeVal x) c!"Value"], h) := by
  cases x <;> first | exact absurd rfl hx | rfl

theorem ep_mb : findPkg c!"mb" eqp.decls = false := rfl
theorem ep_node : findPkg c!"node" eqp.decls = false := rfl
theorem ep_entql : findPkg c!"entql" eqp.decls = true := rfl
theorem ep_errors : findPkg c!"errors" eqp.decls = true := rfl
theorem ep_miniquery : findPkg c!"miniquery" eqp.decls = true := rfl
theorem ep_slog : findPkg c!"slog" eqp.decls = true := rfl

theorem et_value : call eqp L (n + 1) (.glob c!"miniquery.ValueNodeType") [] h = .ok ([.str c!"value"], h) := rfl
theorem et_operation : call eqp L (n + 1) (.glob c!"miniquery.OperationNodeType") [] h = .ok ([.str c!"operation"], h) := rfl
theorem et_identifier : call eqp L (n + 1) (.glob c!"miniquery.IdentifierNodeType") [] h = .ok ([.str c!"identifier"], h) := rfl
theorem et_reference : call eqp L (n + 1) (.glob c!"miniquery.ReferenceNodeType") [] h = .ok ([.str c!"reference"], h) := rfl
theorem et_predicates : call eqp L (n + 1) (.glob c!"miniquery.PredicatesExpressionType") [] h = .ok ([.str c!"predicates"], h) := rfl
theorem et_compare : call eqp L (n + 1) (.glob c!"miniquery.CompareExpressionType") [] h = .ok ([.str c!"compare"], h) := rfl
theorem et_logic : call eqp L (n + 1) (.glob c!"miniquery.LogicExpressionType") [] h = .ok ([.str c!"logic"], h) := rfl
theorem et_parentheses : call eqp L (n + 1) (.glob c!"miniquery.ParenthesesExpressionType") [] h = .ok ([.str c!"parentheses"], h) := rfl
theorem et_not : call eqp L (n + 1) (.glob c!"miniquery.NotExpressionType") [] h = .ok ([.str c!"not"], h) := rfl
theorem et_between : call eqp L (n + 1) (.glob c!"miniquery.BetweenExpressionType") [] h = .ok ([.str c!"between"], h) := rfl
theorem et_function : call eqp L (n + 1) (.glob c!"miniquery.FunctionExpressionType") [] h = .ok ([.str c!"function"], h) := rfl

/-- The stack in memory. -/
def stackVals (st : List EExpr) : List Val := (st.map exprVal).reverse

theorem stackVals_nil : stackVals [] = [] := rfl
theorem stackVals_cons (x : EExpr) : stackVals (x :: st) = stackVals st ++ [exprVal x] := by simp [stackVals]
theorem stackVals_length : (stackVals st).length = st.length := by simp [stackVals]

/-- A builder. -/
def bldVal (q : Str) (l : List Val) : Val := .obj c!"MiniQLToEntQLBuilder" [(c!"Query", .str q), (c!"stack", .slice l)]

/-- The memory with a builder at `a` with a stack. -/
def eHeap (h : Heap) (a : Nat) (q : Str) (st : List EExpr) : Heap := h.put a (bldVal q (stackVals st))

theorem eb_mem {l} : (h.put a (bldVal q l)).mem a = .obj c!"MiniQLToEntQLBuilder" [(c!"Query", .str q), (c!"stack", .slice l)] := put_mem_same _ _ _
theorem eb_stack {l} : select eqp (.ptr a) c!"stack" (h.put a (bldVal q l)) = .ok ([.slice l], h.put a (bldVal q l)) := by
  simp [select, structOf, bldVal, ownField, fget]
theorem eb_Query {l} : select eqp (.ptr a) c!"Query" (h.put a (bldVal q l)) = .ok ([.str q], h.put a (bldVal q l)) := by
  simp [select, structOf, bldVal, ownField, fget]
theorem eb_meth {l} (m : Str) (hm : m = c!"visit" ∨ m = c!"pop" ∨ m = c!"push" ∨ m = c!"Build") :
    select eqp (.ptr a) m (h.put a (bldVal q l)) = .ok ([.meth (.ptr a) m], h.put a (bldVal q l)) := by
  simp only [select, structOf, eb_mem]
  rcases hm with e | e | e | e <;> subst e <;> rfl
theorem eb_visit {l} : select eqp (.ptr a) c!"visit" (h.put a (bldVal q l)) = .ok ([.meth (.ptr a) c!"visit"], h.put a (bldVal q l)) := eb_meth _ (by simp)
theorem eb_pop {l} : select eqp (.ptr a) c!"pop" (h.put a (bldVal q l)) = .ok ([.meth (.ptr a) c!"pop"], h.put a (bldVal q l)) := eb_meth _ (by simp)
theorem eb_push {l} : select eqp (.ptr a) c!"push" (h.put a (bldVal q l)) = .ok ([.meth (.ptr a) c!"push"], h.put a (bldVal q l)) := eb_meth _ (by simp)
theorem eb_Build {l} : select eqp (.ptr a) c!"Build" (h.put a (bldVal q l)) = .ok ([.meth (.ptr a) c!"Build"], h.put a (bldVal q l)) := eb_meth _ (by simp)

theorem meth_bld {m : Str} {f : Func} {args l} (hf : findFunc (c!"MiniQLToEntQLBuilder." ++ m) eqp.decls = some f) (hptr : f.ptr = true) :
    call eqp L (n + 1) (.meth (.ptr a) m) args (h.put a (bldVal q l)) =
      runBody eqp (call eqp L n) f.params f.results f.body [] (.ptr a :: args) (h.put a (bldVal q l)) := by
  show runMeth eqp L (call eqp L n) (.ptr a) m args _ = _
  have e1 : c!"MiniQLToEntQLBuilder" ++ '.' :: m = c!"MiniQLToEntQLBuilder." ++ m := rfl
  simp only [runMeth, structOf, eb_mem]
  rw [e1, hf]
  simp [hptr]

/-- Running `pop`. -/
theorem epop_run (st : List EExpr) : call eqp L (n + 1) (.meth (.ptr a) c!"pop") [] (eHeap h a q st) =
    match st with | [] => .panic | x :: st => .ok ([exprVal x], eHeap h a q st) := by
  unfold eHeap
  rw [meth_bld (f := ⟨true, [c!"mb"], [c!"_"], entqlMiniQLToEntQLBuilderpop⟩) rfl rfl, runBody_plain rfl (by decide) (by decide)]
  cases st with
  | nil => gorun [entqlMiniQLToEntQLBuilderpop, ep_mb, eb_stack, stackVals_nil]
  | cons x st =>
    have e : ((stackVals st).length : Int) + 1 - 1 = ((stackVals st).length : Int) := by omega
    have e' : ¬ ((stackVals st).length : Int) < 0 := by omega
    have e'' : ((stackVals st).length : Int) ≤ (stackVals st).length + 1 := by omega
    gorun [entqlMiniQLToEntQLBuilderpop, ep_mb, eb_stack, stackVals_cons, e, e', e'', eb_mem]
    rfl

/-- Running `push`. -/
theorem epush_run (x : EExpr) (st : List EExpr) : call eqp L (n + 1) (.meth (.ptr a) c!"push") [exprVal x] (eHeap h a q st) = .ok ([], eHeap h a q (x :: st)) := by
  unfold eHeap
  rw [meth_bld (f := ⟨true, [c!"mb", c!"e"], [], entqlMiniQLToEntQLBuilderpush⟩) rfl rfl, runBody_plain rfl (by decide) (by decide)]
  gorun [entqlMiniQLToEntQLBuilderpush, ep_mb, eb_stack, stackVals_cons, eb_mem]
  rfl

/-! ## The cases of `visit` -/

theorem eh_visit : select eqp (.ptr a) c!"visit" (eHeap h a q st) = .ok ([.meth (.ptr a) c!"visit"], eHeap h a q st) := eb_visit
theorem eh_pop : select eqp (.ptr a) c!"pop" (eHeap h a q st) = .ok ([.meth (.ptr a) c!"pop"], eHeap h a q st) := eb_pop
theorem eh_push : select eqp (.ptr a) c!"push" (eHeap h a q st) = .ok ([.meth (.ptr a) c!"push"], eHeap h a q st) := eb_push

theorem epop_nil : call eqp L (n + 1) (.meth (.ptr a) c!"pop") [] (eHeap h a q []) = .panic := epop_run []
theorem epop_cons (x : EExpr) : call eqp L (n + 1) (.meth (.ptr a) c!"pop") [] (eHeap h a q (x :: st)) = .ok ([exprVal x], eHeap h a q st) := epop_run (x :: st)

theorem emk_Value (fs) : mkStruct eqp c!"entql.Value" fs h = .ok ([.obj c!"entql.Value" fs], h) := rfl
theorem emk_Binary (fs) : mkStruct eqp c!"entql.BinaryExpr" fs h = .ok ([.obj c!"entql.BinaryExpr" fs], h) := rfl
theorem eval_fold (v) : Val.obj c!"entql.Value" [(c!"V", goVal v)] = exprVal (.val v) := by rw [exprVal]
theorem ebin_fold (o x y) : Val.obj c!"entql.BinaryExpr" [(c!"Op", .lib (eopName o)), (c!"X", exprVal x), (c!"Y", exprVal y)] = exprVal (.bin o x y) := by rw [exprVal]

theorem eg_F : call eqp L (n + 1) (.glob c!"entql.F") [] h = .ok ([.lib c!"entql.F"], h) := rfl
theorem eg_Not : call eqp L (n + 1) (.glob c!"entql.Not") [] h = .ok ([.lib c!"entql.Not"], h) := rfl
theorem eg_And : call eqp L (n + 1) (.glob c!"entql.And") [] h = .ok ([.lib c!"entql.And"], h) := rfl
theorem eg_Errorf : call eqp L (n + 1) (.glob c!"errors.Errorf") [] h = .ok ([.lib c!"errors.Errorf"], h) := rfl
theorem eg_GTE : call eqp L (n + 1) (.glob c!"entql.OpGTE") [] h = .ok ([.lib (eopName .gte)], h) := rfl
theorem eg_LTE : call eqp L (n + 1) (.glob c!"entql.OpLTE") [] h = .ok ([.lib (eopName .lte)], h) := rfl
theorem eg_LT : call eqp L (n + 1) (.glob c!"entql.OpLT") [] h = .ok ([.lib (eopName .lt)], h) := rfl
theorem eg_GT : call eqp L (n + 1) (.glob c!"entql.OpGT") [] h = .ok ([.lib (eopName .gt)], h) := rfl
theorem eg_NotBetween : call eqp L (n + 1) (.glob c!"miniquery.OpNotBetween") [] h = .ok ([.str c!"not between"], h) := rfl
theorem eg_OpMap : call eqp L (n + 2) (.glob c!"entqlOpMap") [] h = .ok ([.map .nil (entqlOps.map fun kv => (kv.1, .lib (eopName kv.2)))], h) := rfl

theorem el_F (s) : eqCall Q N (n + 1) (.lib c!"entql.F") [.str s] h = .ok ([exprVal (.field s)], h) := by rw [exprVal]; rfl
theorem el_Not (x) : eqCall Q N (n + 1) (.lib c!"entql.Not") [exprVal x] h = .ok ([exprVal (.un .not x)], h) := by rw [exprVal]; rfl
theorem el_And (x y) : eqCall Q N (n + 1) (.lib c!"entql.And") [exprVal x, exprVal y] h = .ok ([exprVal (.bin .and x y)], h) := by rw [exprVal.eq_4]; rfl
theorem el_Errorf (f args) : eqCall Q N (n + 1) (.lib c!"errors.Errorf") (.str f :: args) h = .ok ([errCall c!"errors.Errorf" f args], h) := rfl
theorem el_P (x : EExpr) : eqCall Q N (n + 1) (.lib c!".(entql.P)") [exprVal x] h = if x.isP then .ok ([exprVal x], h) else .panic := by
  cases x <;> rw [exprVal] <;> rfl

theorem eq_Oper {o : Node} (ho : o ≠ .nil) : select eqp (nodeVal o) c!"Operation" h = .ok ([.str ((operation o).getD [])], h) := by
  cases o <;> first | exact absurd rfl ho | rfl
theorem operation_some {o : Node} (ho : o ≠ .nil) : operation o = some ((operation o).getD []) := by
  cases o <;> first | exact absurd rfl ho | rfl

theorem nodeVal_nil : nodeVal .nil = .nil := rfl

theorem same_eErr (e : EErr) : same (eErrVal e) .nil = some false := by cases e with | parse e => cases e <;> rfl | _ => rfl

/-- The clauses of the switch in `visit`. -/
def evisitCases : Cases := swOf (nth entqlMiniQLToEntQLBuildervisit 1)

/-- What follows the body of a clause. -/
def eAfter (C : Val → List Val → Heap → Vals) (i : Nat) : Done → Done
  | .ok (.fall, l, h) => execFrom eqp C [] (dropCases (i + 1) evisitCases) l h
  | r => r

theorem eafter_norm {C : Val → List Val → Heap → Vals} {i l} : eAfter C i (.ok (.norm, l, h)) = .ok (.norm, l, h) := rfl
theorem eafter_ret {C : Val → List Val → Heap → Vals} {i l vs} : eAfter C i (.ok (.ret vs, l, h)) = .ok (.ret vs, l, h) := rfl
theorem eafter_panic {C : Val → List Val → Heap → Vals} {i} : eAfter C i .panic = .panic := rfl
theorem endSwitch_ret {l : Locals} {vs} : endSwitch (.ok (.ret vs, l, h)) = .ok (.ret vs, l, h) := rfl

/-- The variables in the cases of `visit`. -/
def eLocals (a : Nat) (x : Node) (e : Val) : Locals :=
  [(c!"visit", .val (.meth (.ptr a) c!"visit")), (c!"err", .val e), (c!"node", .val (nodeVal x)), (c!"mb", .val (.ptr a))]

/-- The case of `visit` at a position. -/
def eVisitAt (C : Val → List Val → Heap → Vals) (i : Nat) (b : Stmts) (l : Locals) (h : Heap) : Vals :=
  finish [c!"err"] (next (endSwitch (eAfter C i (leave 4 (execs eqp C [] b 4 l h)))) fun l h =>
    execs eqp C [] (.cons (.ret (.cons (.id c!"err") .nil)) .nil) 0 l h)

/-- The case of `visit` for the type `operation`. -/
def ecase_operation : Stmts := (.cons (.ret (.cons (.call (.sel (.id c!"errors") c!"Errorf") (.cons (.str c!"unexpected op node: %q") (.cons (.id c!"node") .nil)) false) .nil))
  .nil)

/-- The case of `visit` for the type `value`. -/
def ecase_value : Stmts := (.cons (.expr (.call (.sel (.id c!"mb") c!"push") (.cons (.un c!"&" (.lit (.sel (.id c!"entql") c!"Value") (.cons (.id c!"V") .nil) (.cons (.call (.sel (.id c!"node") c!"Value") .nil false) .nil))) .nil) false))
  .nil)

/-- The case of `visit` for the type `identifier`. -/
def ecase_identifier : Stmts := (.cons (.expr (.call (.sel (.id c!"mb") c!"push") (.cons (.call (.sel (.id c!"entql") c!"F") (.cons (.sel (.id c!"node") c!"Name") .nil) false) .nil) false))
  .nil)

/-- The case of `visit` for the type `parentheses`. -/
def ecase_parentheses : Stmts := (.cons (.assign (.cons (.id c!"err") .nil) (.cons (.call (.id c!"visit") (.cons (.sel (.id c!"node") c!"Expression") .nil) false) .nil))
  .nil)

/-- The case of `visit` for the type `not`. -/
def ecase_not : Stmts := (.cons (.assign (.cons (.id c!"err") .nil) (.cons (.call (.id c!"visit") (.cons (.sel (.id c!"node") c!"Expression") .nil) false) .nil))
  (.cons (.ite .nil (.bin c!"!=" (.id c!"err") (.id c!"nil")) (.cons (.expr (.call (.sel (.id c!"mb") c!"push") (.cons (.call (.sel (.id c!"entql") c!"Not") (.cons (.cast (.call (.sel (.id c!"mb") c!"pop") .nil false) (.sel (.id c!"entql") c!"P")) .nil) false) .nil) false))
  .nil) .nil)
  .nil))

/-- The case of `visit` for the type `function`. -/
def ecase_function : Stmts := .nil

/-- The case of `visit` for the type `between`. -/
def ecase_between : Stmts := (.cons (.assign (.cons (.id c!"err") .nil) (.cons (.call (.id c!"visit") (.cons (.sel (.id c!"node") c!"Left") .nil) false) .nil))
  (.cons (.ite .nil (.bin c!"==" (.id c!"err") (.id c!"nil")) (.cons (.assign (.cons (.id c!"err") .nil) (.cons (.call (.id c!"visit") (.cons (.idx (.sel (.id c!"node") c!"Params") (.int 0)) .nil) false) .nil))
  .nil) .nil)
  (.cons (.ite .nil (.bin c!"==" (.id c!"err") (.id c!"nil")) (.cons (.assign (.cons (.id c!"err") .nil) (.cons (.call (.id c!"visit") (.cons (.idx (.sel (.id c!"node") c!"Params") (.int 1)) .nil) false) .nil))
  .nil) .nil)
  (.cons (.ite .nil (.bin c!"==" (.id c!"err") (.id c!"nil")) (.cons (.define [c!"hig"] (.cons (.call (.sel (.id c!"mb") c!"pop") .nil false) .nil))
  (.cons (.define [c!"low"] (.cons (.call (.sel (.id c!"mb") c!"pop") .nil false) .nil))
  (.cons (.define [c!"left"] (.cons (.call (.sel (.id c!"mb") c!"pop") .nil false) .nil))
  (.cons (.define [c!"lo"] (.cons (.sel (.id c!"entql") c!"OpGTE") .nil))
  (.cons (.define [c!"ro"] (.cons (.sel (.id c!"entql") c!"OpLTE") .nil))
  (.cons (.ite .nil (.bin c!"==" (.sel (.sel (.id c!"node") c!"Op") c!"Operation") (.sel (.id c!"miniquery") c!"OpNotBetween")) (.cons (.assign (.cons (.id c!"lo") .nil) (.cons (.sel (.id c!"entql") c!"OpLT") .nil))
  (.cons (.assign (.cons (.id c!"ro") .nil) (.cons (.sel (.id c!"entql") c!"OpGT") .nil))
  .nil)) .nil)
  (.cons (.expr (.call (.sel (.id c!"mb") c!"push") (.cons (.call (.sel (.id c!"entql") c!"And") (.cons (.un c!"&" (.lit (.sel (.id c!"entql") c!"BinaryExpr") (.cons (.id c!"Op") (.cons (.id c!"X") (.cons (.id c!"Y") .nil))) (.cons (.id c!"lo") (.cons (.id c!"left") (.cons (.id c!"low") .nil))))) (.cons (.un c!"&" (.lit (.sel (.id c!"entql") c!"BinaryExpr") (.cons (.id c!"Op") (.cons (.id c!"X") (.cons (.id c!"Y") .nil))) (.cons (.id c!"ro") (.cons (.id c!"left") (.cons (.id c!"hig") .nil))))) .nil)) false) .nil) false))
  .nil))))))) .nil)
  .nil))))

/-- The case of `visit` for the type `predicates`. -/
def ecase_predicates : Stmts := (.cons (.expr (.call (.id c!"panic") (.cons (.str c!"TODO") .nil) false))
  .nil)

/-- The case of `visit` for the type `logic`. -/
def ecase_logic : Stmts := (.cons .fall
  .nil)

/-- The case of `visit` for the type `compare`. -/
def ecase_compare : Stmts := (.cons (.assign (.cons (.id c!"err") .nil) (.cons (.call (.id c!"visit") (.cons (.sel (.id c!"node") c!"Left") .nil) false) .nil))
  (.cons (.ite .nil (.bin c!"==" (.id c!"err") (.id c!"nil")) (.cons (.assign (.cons (.id c!"err") .nil) (.cons (.call (.id c!"visit") (.cons (.sel (.id c!"node") c!"Right") .nil) false) .nil))
  .nil) .nil)
  (.cons (.ite .nil (.bin c!"==" (.id c!"err") (.id c!"nil")) (.cons (.define [c!"right"] (.cons (.call (.sel (.id c!"mb") c!"pop") .nil false) .nil))
  (.cons (.define [c!"left"] (.cons (.call (.sel (.id c!"mb") c!"pop") .nil false) .nil))
  (.cons (.define [c!"op", c!"found"] (.cons (.idx (.id c!"entqlOpMap") (.sel (.sel (.id c!"node") c!"Op") c!"Operation")) .nil))
  (.cons (.ite .nil (.un c!"!" (.id c!"found")) (.cons (.ret (.cons (.call (.sel (.id c!"errors") c!"Errorf") (.cons (.str c!"unexpected op %q") (.cons (.sel (.sel (.id c!"node") c!"Op") c!"Operation") .nil)) false) .nil))
  .nil) .nil)
  (.cons (.expr (.call (.sel (.id c!"mb") c!"push") (.cons (.un c!"&" (.lit (.sel (.id c!"entql") c!"BinaryExpr") (.cons (.id c!"Op") (.cons (.id c!"X") (.cons (.id c!"Y") .nil))) (.cons (.id c!"op") (.cons (.id c!"left") (.cons (.id c!"right") .nil))))) .nil) false))
  .nil))))) .nil)
  .nil)))

/-- The case of `visit` for the type `other`. -/
def ecase_other : Stmts := (.cons (.ret (.cons (.call (.sel (.id c!"errors") c!"Errorf") (.cons (.str c!"invalid type %q") (.cons (.sel (.id c!"node") c!"Type") .nil)) false) .nil))
  .nil)

theorem evisit_enter (x : Node) : call eqp L (n + 1) (.meth (.ptr a) c!"visit") [nodeVal x] (eHeap h a q st) =
    finish [c!"err"] (execs eqp (call eqp L n) [] entqlMiniQLToEntQLBuildervisit 0 [(c!"err", .val .nil), (c!"node", .val (nodeVal x)), (c!"mb", .val (.ptr a))] (eHeap h a q st)) := by
  unfold eHeap
  rw [meth_bld (f := ⟨true, [c!"mb", c!"node"], [c!"err"], entqlMiniQLToEntQLBuildervisit⟩) rfl rfl, runBody_named rfl (by decide) (by decide)]
  rfl

theorem evisit_switch {x : Node} (hx : x ≠ .nil) : call eqp L (n + 2) (.meth (.ptr a) c!"visit") [nodeVal x] (eHeap h a q st) =
    finish [c!"err"] (next (match execSwitch eqp (call eqp L (n + 1)) [] (.str (tyName x)) evisitCases (eLocals a x .nil) (eHeap h a q st) with
      | some r => endSwitch r
      | none => .ok (.norm, eLocals a x .nil, (eHeap h a q st))) fun l h =>
    execs eqp (call eqp L (n + 1)) [] (.cons (.ret (.cons (.id c!"err") .nil)) .nil) 0 l h) := by
  rw [evisit_enter]
  have ht := fun h => eq_Type (h := h) hx
  have e : entqlMiniQLToEntQLBuildervisit = .cons (.define [c!"visit"] (.cons (.sel (.id c!"mb") c!"visit") .nil)) (.cons (.switch (.sel (.id c!"node") c!"Type") evisitCases)
      (.cons (.ret (.cons (.id c!"err") .nil)) .nil)) := rfl
  rw [e]
  gorun [ep_mb, ep_node, eh_visit, ht, eLocals]
  rfl

theorem earm_operation {x : Node} (hx : tyName x = c!"operation") : call eqp L (n + 2) (.meth (.ptr a) c!"visit") [nodeVal x] (eHeap h a q st) =
    eVisitAt (call eqp L (n + 1)) 0 ecase_operation (eLocals a x .nil) (eHeap h a q st) := by
  rw [evisit_switch (by intro e; subst e; cases hx), hx]
  rfl

theorem earm_value {x : Node} (hx : tyName x = c!"value") : call eqp L (n + 2) (.meth (.ptr a) c!"visit") [nodeVal x] (eHeap h a q st) =
    eVisitAt (call eqp L (n + 1)) 1 ecase_value (eLocals a x .nil) (eHeap h a q st) := by
  rw [evisit_switch (by intro e; subst e; cases hx), hx]
  rfl

theorem earm_identifier {x : Node} (hx : tyName x = c!"identifier") : call eqp L (n + 2) (.meth (.ptr a) c!"visit") [nodeVal x] (eHeap h a q st) =
    eVisitAt (call eqp L (n + 1)) 2 ecase_identifier (eLocals a x .nil) (eHeap h a q st) := by
  rw [evisit_switch (by intro e; subst e; cases hx), hx]
  rfl

theorem earm_parentheses {x : Node} (hx : tyName x = c!"parentheses") : call eqp L (n + 2) (.meth (.ptr a) c!"visit") [nodeVal x] (eHeap h a q st) =
    eVisitAt (call eqp L (n + 1)) 3 ecase_parentheses (eLocals a x .nil) (eHeap h a q st) := by
  rw [evisit_switch (by intro e; subst e; cases hx), hx]
  rfl

theorem earm_not {x : Node} (hx : tyName x = c!"not") : call eqp L (n + 2) (.meth (.ptr a) c!"visit") [nodeVal x] (eHeap h a q st) =
    eVisitAt (call eqp L (n + 1)) 4 ecase_not (eLocals a x .nil) (eHeap h a q st) := by
  rw [evisit_switch (by intro e; subst e; cases hx), hx]
  rfl

theorem earm_function {x : Node} (hx : tyName x = c!"function") : call eqp L (n + 2) (.meth (.ptr a) c!"visit") [nodeVal x] (eHeap h a q st) =
    eVisitAt (call eqp L (n + 1)) 5 ecase_function (eLocals a x .nil) (eHeap h a q st) := by
  rw [evisit_switch (by intro e; subst e; cases hx), hx]
  rfl

theorem earm_between {x : Node} (hx : tyName x = c!"between") : call eqp L (n + 2) (.meth (.ptr a) c!"visit") [nodeVal x] (eHeap h a q st) =
    eVisitAt (call eqp L (n + 1)) 6 ecase_between (eLocals a x .nil) (eHeap h a q st) := by
  rw [evisit_switch (by intro e; subst e; cases hx), hx]
  rfl

theorem earm_predicates {x : Node} (hx : tyName x = c!"predicates") : call eqp L (n + 2) (.meth (.ptr a) c!"visit") [nodeVal x] (eHeap h a q st) =
    eVisitAt (call eqp L (n + 1)) 7 ecase_predicates (eLocals a x .nil) (eHeap h a q st) := by
  rw [evisit_switch (by intro e; subst e; cases hx), hx]
  rfl

theorem earm_logic {x : Node} (hx : tyName x = c!"logic") : call eqp L (n + 2) (.meth (.ptr a) c!"visit") [nodeVal x] (eHeap h a q st) =
    eVisitAt (call eqp L (n + 1)) 9 ecase_compare (eLocals a x .nil) (eHeap h a q st) := by
  rw [evisit_switch (by intro e; subst e; cases hx), hx]
  rfl

theorem earm_compare {x : Node} (hx : tyName x = c!"compare") : call eqp L (n + 2) (.meth (.ptr a) c!"visit") [nodeVal x] (eHeap h a q st) =
    eVisitAt (call eqp L (n + 1)) 9 ecase_compare (eLocals a x .nil) (eHeap h a q st) := by
  rw [evisit_switch (by intro e; subst e; cases hx), hx]
  rfl

theorem earm_reference {x : Node} (hx : tyName x = c!"reference") : call eqp L (n + 2) (.meth (.ptr a) c!"visit") [nodeVal x] (eHeap h a q st) =
    eVisitAt (call eqp L (n + 1)) 10 ecase_other (eLocals a x .nil) (eHeap h a q st) := by
  rw [evisit_switch (by intro e; subst e; cases hx), hx]
  rfl

/-- What `visit` does. -/
def eOut (h : Heap) (a : Nat) (q : Str) : ERes → Vals
  | .panic => .panic
  | .ok st => .ok ([.nil], eHeap h a q st)
  | .err e st => .ok ([eErrVal e], eHeap h a q st)

/-- The claim about `visit` for the nodes below a level. -/
def EBelow (Q : Char → Bool) (N : Nat) (h : Heap) (a : Nat) (q : Str) (m k : Nat) : Prop :=
  ∀ x : Node, lvl x < k → ∀ st, eqCall Q N m (.meth (.ptr a) c!"visit") [nodeVal x] (eHeap h a q st) = eOut h a q (evisit x st)

theorem ev_nil (st : List EExpr) : eqCall Q N (n + 3) (.meth (.ptr a) c!"visit") [nodeVal .nil] (eHeap h a q st) = eOut h a q (evisit .nil st) := by
  refine (evisit_enter _).trans ?_
  gorun [entqlMiniQLToEntQLBuildervisit, ep_mb, ep_node, eh_visit, nodeVal, eq_nil, evisit, eOut]

/-- What `Value` of the package miniquery does when it is called from here. -/
theorem el_Value {x : Node} (hx : x ≠ .nil) (hN : lvl x + 2 ≤ N) : eqCall Q N (n + 1) (.meth (nodeVal x) c!"Value") [] h = valueOut h (value x) := by
  obtain ⟨N, rfl⟩ : ∃ N', N = N' + 2 := ⟨N - 2, by omega⟩
  have e : eqCall Q (N + 2) (n + 1) (.meth (nodeVal x) c!"Value") [] h = mqCall Q (N + 2) (.meth (nodeVal x) c!"Value") [] h := by
    obtain ⟨fs, e⟩ := structOf_node hx
    have e1 : c!"Node" ++ '.' :: c!"Value" = c!"Node.Value" := rfl
    have e2 : findFunc c!"Node.Value" eqp.decls = none := rfl
    show runMeth eqp (eqLib Q (N + 2)) (eqCall Q (N + 2) n) (nodeVal x) c!"Value" [] h = _
    rw [e]
    simp only [runMeth, structOf]
    rw [e1, e2]
    rfl
  rw [e]
  exact value_run (Q := Q) (lvl x) x hx (Nat.le_refl _) N (by omega) h

theorem ev_op (o) (st : List EExpr) :
    eqCall Q N (n + 3) (.meth (.ptr a) c!"visit") [nodeVal (.op o)] (eHeap h a q st) = eOut h a q (evisit (.op o) st) := by
  refine (earm_operation rfl).trans ?_
  gorun [eLocals, eVisitAt, eafter_norm, eafter_ret, eafter_panic, endSwitch_norm, endSwitch_ret, endSwitch_panic, ep_mb, ep_node, ep_entql, ep_errors, ep_miniquery, eh_visit, eh_pop, eh_push, epush_run, epop_nil, epop_cons, eg_F, eg_Not, eg_And, eg_Errorf, el_F, el_Not, el_And, el_Errorf, same_eErr, evisit, eOut, ERes.andThen, ecase_operation, eErrVal]

theorem ev_ref (x) (st : List EExpr) :
    eqCall Q N (n + 3) (.meth (.ptr a) c!"visit") [nodeVal (.ref x)] (eHeap h a q st) = eOut h a q (evisit (.ref x) st) := by
  refine (earm_reference rfl).trans ?_
  have ht := fun h => eq_Type (h := h) (a := .ref x) (by simp)
  gorun [eLocals, eVisitAt, eafter_norm, eafter_ret, eafter_panic, endSwitch_norm, endSwitch_ret, endSwitch_panic, ep_mb, ep_node, ep_entql, ep_errors, ep_miniquery, eh_visit, eh_pop, eh_push, epush_run, epop_nil, epop_cons, eg_F, eg_Not, eg_And, eg_Errorf, el_F, el_Not, el_And, el_Errorf, same_eErr, evisit, eOut, ERes.andThen, ecase_other, ht, tyName, eErrVal]

theorem ev_ident (x) (st : List EExpr) :
    eqCall Q N (n + 3) (.meth (.ptr a) c!"visit") [nodeVal (.ident x)] (eHeap h a q st) = eOut h a q (evisit (.ident x) st) := by
  refine (earm_identifier rfl).trans ?_
  gorun [eLocals, eVisitAt, eafter_norm, eafter_ret, eafter_panic, endSwitch_norm, endSwitch_ret, endSwitch_panic, ep_mb, ep_node, ep_entql, ep_errors, ep_miniquery, eh_visit, eh_pop, eh_push, epush_run, epop_nil, epop_cons, eg_F, eg_Not, eg_And, eg_Errorf, el_F, el_Not, el_And, el_Errorf, same_eErr, evisit, eOut, ERes.andThen, ecase_identifier, eq_NameIdent]

theorem ev_int (i) (hN : lvl (.int i) + 2 ≤ N) (st : List EExpr) :
    eqCall Q N (n + 3) (.meth (.ptr a) c!"visit") [nodeVal (.int i)] (eHeap h a q st) = eOut h a q (evisit (.int i) st) := by
  refine (earm_value rfl).trans ?_
  have hv := fun n h => el_Value (Q := Q) (n := n) (h := h) (x := (.int i)) (by simp) hN
  have hs := fun h => eq_Value (h := h) (x := (.int i)) (by simp)
  cases e : value (.int i) <;> gorun [eLocals, eVisitAt, eafter_norm, eafter_ret, eafter_panic, endSwitch_norm, endSwitch_ret, endSwitch_panic, ep_mb, ep_node, ep_entql, ep_errors, ep_miniquery, eh_visit, eh_pop, eh_push, epush_run, epop_nil, epop_cons, eg_F, eg_Not, eg_And, eg_Errorf, el_F, el_Not, el_And, el_Errorf, same_eErr, evisit, eOut, ERes.andThen, ecase_value, eVal, hv, hs, valueOut, e, emk_Value, eval_fold]

theorem ev_bool (i) (hN : lvl (.bool i) + 2 ≤ N) (st : List EExpr) :
    eqCall Q N (n + 3) (.meth (.ptr a) c!"visit") [nodeVal (.bool i)] (eHeap h a q st) = eOut h a q (evisit (.bool i) st) := by
  refine (earm_value rfl).trans ?_
  have hv := fun n h => el_Value (Q := Q) (n := n) (h := h) (x := (.bool i)) (by simp) hN
  have hs := fun h => eq_Value (h := h) (x := (.bool i)) (by simp)
  cases e : value (.bool i) <;> gorun [eLocals, eVisitAt, eafter_norm, eafter_ret, eafter_panic, endSwitch_norm, endSwitch_ret, endSwitch_panic, ep_mb, ep_node, ep_entql, ep_errors, ep_miniquery, eh_visit, eh_pop, eh_push, epush_run, epop_nil, epop_cons, eg_F, eg_Not, eg_And, eg_Errorf, el_F, el_Not, el_And, el_Errorf, same_eErr, evisit, eOut, ERes.andThen, ecase_value, eVal, hv, hs, valueOut, e, emk_Value, eval_fold]

theorem ev_str (i) (hN : lvl (.str i) + 2 ≤ N) (st : List EExpr) :
    eqCall Q N (n + 3) (.meth (.ptr a) c!"visit") [nodeVal (.str i)] (eHeap h a q st) = eOut h a q (evisit (.str i) st) := by
  refine (earm_value rfl).trans ?_
  have hv := fun n h => el_Value (Q := Q) (n := n) (h := h) (x := (.str i)) (by simp) hN
  have hs := fun h => eq_Value (h := h) (x := (.str i)) (by simp)
  cases e : value (.str i) <;> gorun [eLocals, eVisitAt, eafter_norm, eafter_ret, eafter_panic, endSwitch_norm, endSwitch_ret, endSwitch_panic, ep_mb, ep_node, ep_entql, ep_errors, ep_miniquery, eh_visit, eh_pop, eh_push, epush_run, epop_nil, epop_cons, eg_F, eg_Not, eg_And, eg_Errorf, el_F, el_Not, el_And, el_Errorf, same_eErr, evisit, eOut, ERes.andThen, ecase_value, eVal, hv, hs, valueOut, e, emk_Value, eval_fold]

theorem ev_null  (hN : lvl .null + 2 ≤ N) (st : List EExpr) :
    eqCall Q N (n + 3) (.meth (.ptr a) c!"visit") [nodeVal .null] (eHeap h a q st) = eOut h a q (evisit .null st) := by
  refine (earm_value rfl).trans ?_
  have hv := fun n h => el_Value (Q := Q) (n := n) (h := h) (x := .null) (by simp) hN
  have hs := fun h => eq_Value (h := h) (x := .null) (by simp)
  cases e : value .null <;> gorun [eLocals, eVisitAt, eafter_norm, eafter_ret, eafter_panic, endSwitch_norm, endSwitch_ret, endSwitch_panic, ep_mb, ep_node, ep_entql, ep_errors, ep_miniquery, eh_visit, eh_pop, eh_push, epush_run, epop_nil, epop_cons, eg_F, eg_Not, eg_And, eg_Errorf, el_F, el_Not, el_And, el_Errorf, same_eErr, evisit, eOut, ERes.andThen, ecase_value, eVal, hv, hs, valueOut, e, emk_Value, eval_fold]

theorem ev_arr (l) (hN : lvl (.arr l) + 2 ≤ N) (st : List EExpr) :
    eqCall Q N (n + 3) (.meth (.ptr a) c!"visit") [nodeVal (.arr l)] (eHeap h a q st) = eOut h a q (evisit (.arr l) st) := by
  refine (earm_value rfl).trans ?_
  have hv := fun n h => el_Value (Q := Q) (n := n) (h := h) (x := (.arr l)) (by simp) hN
  have hs := fun h => eq_Value (h := h) (x := (.arr l)) (by simp)
  cases e : value (.arr l) <;> gorun [eLocals, eVisitAt, eafter_norm, eafter_ret, eafter_panic, endSwitch_norm, endSwitch_ret, endSwitch_panic, ep_mb, ep_node, ep_entql, ep_errors, ep_miniquery, eh_visit, eh_pop, eh_push, epush_run, epop_nil, epop_cons, eg_F, eg_Not, eg_And, eg_Errorf, el_F, el_Not, el_And, el_Errorf, same_eErr, evisit, eOut, ERes.andThen, ecase_value, eVal, hv, hs, valueOut, e, emk_Value, eval_fold]

theorem ev_func (x l) (st : List EExpr) :
    eqCall Q N (n + 3) (.meth (.ptr a) c!"visit") [nodeVal (.func x l)] (eHeap h a q st) = eOut h a q (evisit (.func x l) st) := by
  refine (earm_function rfl).trans ?_
  gorun [eLocals, eVisitAt, eafter_norm, eafter_ret, eafter_panic, endSwitch_norm, endSwitch_ret, endSwitch_panic, ep_mb, ep_node, ep_entql, ep_errors, ep_miniquery, eh_visit, eh_pop, eh_push, epush_run, epop_nil, epop_cons, eg_F, eg_Not, eg_And, eg_Errorf, el_F, el_Not, el_And, el_Errorf, same_eErr, evisit, eOut, ERes.andThen, ecase_function]

theorem ev_pred (l o) (st : List EExpr) :
    eqCall Q N (n + 3) (.meth (.ptr a) c!"visit") [nodeVal (.pred l o)] (eHeap h a q st) = eOut h a q (evisit (.pred l o) st) := by
  refine (earm_predicates rfl).trans ?_
  gorun [eLocals, eVisitAt, eafter_norm, eafter_ret, eafter_panic, endSwitch_norm, endSwitch_ret, endSwitch_panic, ep_mb, ep_node, ep_entql, ep_errors, ep_miniquery, eh_visit, eh_pop, eh_push, epush_run, epop_nil, epop_cons, eg_F, eg_Not, eg_And, eg_Errorf, el_F, el_Not, el_And, el_Errorf, same_eErr, evisit, eOut, ERes.andThen, ecase_predicates]

theorem ev_paren (e) (ih : EBelow Q N h a q (n + 2) k) (hl : lvl (.paren e) ≤ k) (st : List EExpr) :
    eqCall Q N (n + 3) (.meth (.ptr a) c!"visit") [nodeVal (.paren e)] (eHeap h a q st) = eOut h a q (evisit (.paren e) st) := by
  refine (earm_parentheses rfl).trans ?_
  rw [lvl] at hl
  have R := ih e (by omega)
  cases er : evisit e st <;> gorun [eLocals, eVisitAt, eafter_norm, eafter_ret, eafter_panic, endSwitch_norm, endSwitch_ret, endSwitch_panic, ep_mb, ep_node, ep_entql, ep_errors, ep_miniquery, eh_visit, eh_pop, eh_push, epush_run, epop_nil, epop_cons, eg_F, eg_Not, eg_And, eg_Errorf, el_F, el_Not, el_And, el_Errorf, same_eErr, evisit, eOut, ERes.andThen, ecase_parentheses, eq_Paren, R, er]

theorem ev_not (e) (ih : EBelow Q N h a q (n + 2) k) (hl : lvl (.not e) ≤ k) (st : List EExpr) :
    eqCall Q N (n + 3) (.meth (.ptr a) c!"visit") [nodeVal (.not e)] (eHeap h a q st) = eOut h a q (evisit (.not e) st) := by
  refine (earm_not rfl).trans ?_
  rw [lvl] at hl
  have R := ih e (by omega)
  have hP := fun n h x => el_P (Q := Q) (N := N) (n := n) (h := h) x
  cases er : evisit e st with
  | err e' s1 =>
    cases s1 with
    | nil => gorun [eLocals, eVisitAt, eafter_norm, eafter_ret, eafter_panic, endSwitch_norm, endSwitch_ret, endSwitch_panic, ep_mb, ep_node, ep_entql, ep_errors, ep_miniquery, eh_visit, eh_pop, eh_push, epush_run, epop_nil, epop_cons, eg_F, eg_Not, eg_And, eg_Errorf, el_F, el_Not, el_And, el_Errorf, same_eErr, evisit, eOut, ERes.andThen, ecase_not, eq_Not, R, er, eNot]
    | cons x s1 => cases hp : x.isP <;> gorun [eLocals, eVisitAt, eafter_norm, eafter_ret, eafter_panic, endSwitch_norm, endSwitch_ret, endSwitch_panic, ep_mb, ep_node, ep_entql, ep_errors, ep_miniquery, eh_visit, eh_pop, eh_push, epush_run, epop_nil, epop_cons, eg_F, eg_Not, eg_And, eg_Errorf, el_F, el_Not, el_And, el_Errorf, same_eErr, evisit, eOut, ERes.andThen, ecase_not, eq_Not, R, er, eNot, hP, hp]
  | _ => gorun [eLocals, eVisitAt, eafter_norm, eafter_ret, eafter_panic, endSwitch_norm, endSwitch_ret, endSwitch_panic, ep_mb, ep_node, ep_entql, ep_errors, ep_miniquery, eh_visit, eh_pop, eh_push, epush_run, epop_nil, epop_cons, eg_F, eg_Not, eg_And, eg_Errorf, el_F, el_Not, el_And, el_Errorf, same_eErr, evisit, eOut, ERes.andThen, ecase_not, eq_Not, R, er, eNot]

set_option maxHeartbeats 1000000 in
theorem ev_cmp (l o r) (ih : EBelow Q N h a q (n + 2) k) (hl : lvl (.cmp l o r) ≤ k) (st : List EExpr) :
    eqCall Q N (n + 3) (.meth (.ptr a) c!"visit") [nodeVal (.cmp l o r)] (eHeap h a q st) = eOut h a q (evisit (.cmp l o r) st) := by
  refine (earm_compare rfl).trans ?_
  rw [lvl] at hl
  have Rl := ih l (by omega)
  have Rr := ih r (by omega)
  cases el : evisit l st with
  | ok s1 =>
    cases er : evisit r s1 with
    | ok s2 =>
      match s2 with
      | [] => gorun [eLocals, eVisitAt, eafter_norm, eafter_ret, eafter_panic, endSwitch_norm, endSwitch_ret, endSwitch_panic, ep_mb, ep_node, ep_entql, ep_errors, ep_miniquery, eh_visit, eh_pop, eh_push, epush_run, epop_nil, epop_cons, eg_F, eg_Not, eg_And, eg_Errorf, el_F, el_Not, el_And, el_Errorf, same_eErr, evisit, eOut, ERes.andThen, ecase_compare, eq_LeftCmp, eq_OpCmp, eq_RightCmp, Rl, el, eBin, Rr, er]
      | [_] => gorun [eLocals, eVisitAt, eafter_norm, eafter_ret, eafter_panic, endSwitch_norm, endSwitch_ret, endSwitch_panic, ep_mb, ep_node, ep_entql, ep_errors, ep_miniquery, eh_visit, eh_pop, eh_push, epush_run, epop_nil, epop_cons, eg_F, eg_Not, eg_And, eg_Errorf, el_F, el_Not, el_And, el_Errorf, same_eErr, evisit, eOut, ERes.andThen, ecase_compare, eq_LeftCmp, eq_OpCmp, eq_RightCmp, Rl, el, eBin, Rr, er]
      | y :: x :: s =>
        by_cases ho : o = .nil
        · subst ho
          gorun [eLocals, eVisitAt, eafter_norm, eafter_ret, eafter_panic, endSwitch_norm, endSwitch_ret, endSwitch_panic, ep_mb, ep_node, ep_entql, ep_errors, ep_miniquery, eh_visit, eh_pop, eh_push, epush_run, epop_nil, epop_cons, eg_F, eg_Not, eg_And, eg_Errorf, el_F, el_Not, el_And, el_Errorf, same_eErr, evisit, eOut, ERes.andThen, ecase_compare, eq_LeftCmp, eq_OpCmp, eq_RightCmp, Rl, el, eBin, Rr, er, eg_OpMap, nodeVal_nil, eq_nil, operation]
        · have ho' := fun h => eq_Oper (h := h) ho
          have hm := operation_some ho
          generalize (operation o).getD [] = w at ho' hm
          cases hf : entqlOps.lookup w <;>
          gorun [eLocals, eVisitAt, eafter_norm, eafter_ret, eafter_panic, endSwitch_norm, endSwitch_ret, endSwitch_panic, ep_mb, ep_node, ep_entql, ep_errors, ep_miniquery, eh_visit, eh_pop, eh_push, epush_run, epop_nil, epop_cons, eg_F, eg_Not, eg_And, eg_Errorf, el_F, el_Not, el_And, el_Errorf, same_eErr, evisit, eOut, ERes.andThen, ecase_compare, eq_LeftCmp, eq_OpCmp, eq_RightCmp, Rl, el, eBin, Rr, er, eg_OpMap, ho', hm, hf, fget_lookup (fun kv : Str × EOp => Val.lib (eopName kv.2)), emk_Binary, ebin_fold, eErrVal]
    | _ => gorun [eLocals, eVisitAt, eafter_norm, eafter_ret, eafter_panic, endSwitch_norm, endSwitch_ret, endSwitch_panic, ep_mb, ep_node, ep_entql, ep_errors, ep_miniquery, eh_visit, eh_pop, eh_push, epush_run, epop_nil, epop_cons, eg_F, eg_Not, eg_And, eg_Errorf, el_F, el_Not, el_And, el_Errorf, same_eErr, evisit, eOut, ERes.andThen, ecase_compare, eq_LeftCmp, eq_OpCmp, eq_RightCmp, Rl, el, eBin, Rr, er]
  | _ => gorun [eLocals, eVisitAt, eafter_norm, eafter_ret, eafter_panic, endSwitch_norm, endSwitch_ret, endSwitch_panic, ep_mb, ep_node, ep_entql, ep_errors, ep_miniquery, eh_visit, eh_pop, eh_push, epush_run, epop_nil, epop_cons, eg_F, eg_Not, eg_And, eg_Errorf, el_F, el_Not, el_And, el_Errorf, same_eErr, evisit, eOut, ERes.andThen, ecase_compare, eq_LeftCmp, eq_OpCmp, eq_RightCmp, Rl, el, eBin]

set_option maxHeartbeats 1000000 in
theorem ev_logic (l o r) (ih : EBelow Q N h a q (n + 2) k) (hl : lvl (.logic l o r) ≤ k) (st : List EExpr) :
    eqCall Q N (n + 3) (.meth (.ptr a) c!"visit") [nodeVal (.logic l o r)] (eHeap h a q st) = eOut h a q (evisit (.logic l o r) st) := by
  refine (earm_logic rfl).trans ?_
  rw [lvl] at hl
  have Rl := ih l (by omega)
  have Rr := ih r (by omega)
  cases el : evisit l st with
  | ok s1 =>
    cases er : evisit r s1 with
    | ok s2 =>
      match s2 with
      | [] => gorun [eLocals, eVisitAt, eafter_norm, eafter_ret, eafter_panic, endSwitch_norm, endSwitch_ret, endSwitch_panic, ep_mb, ep_node, ep_entql, ep_errors, ep_miniquery, eh_visit, eh_pop, eh_push, epush_run, epop_nil, epop_cons, eg_F, eg_Not, eg_And, eg_Errorf, el_F, el_Not, el_And, el_Errorf, same_eErr, evisit, eOut, ERes.andThen, ecase_compare, eq_LeftLogic, eq_OpLogic, eq_RightLogic, Rl, el, eBin, Rr, er]
      | [_] => gorun [eLocals, eVisitAt, eafter_norm, eafter_ret, eafter_panic, endSwitch_norm, endSwitch_ret, endSwitch_panic, ep_mb, ep_node, ep_entql, ep_errors, ep_miniquery, eh_visit, eh_pop, eh_push, epush_run, epop_nil, epop_cons, eg_F, eg_Not, eg_And, eg_Errorf, el_F, el_Not, el_And, el_Errorf, same_eErr, evisit, eOut, ERes.andThen, ecase_compare, eq_LeftLogic, eq_OpLogic, eq_RightLogic, Rl, el, eBin, Rr, er]
      | y :: x :: s =>
        by_cases ho : o = .nil
        · subst ho
          gorun [eLocals, eVisitAt, eafter_norm, eafter_ret, eafter_panic, endSwitch_norm, endSwitch_ret, endSwitch_panic, ep_mb, ep_node, ep_entql, ep_errors, ep_miniquery, eh_visit, eh_pop, eh_push, epush_run, epop_nil, epop_cons, eg_F, eg_Not, eg_And, eg_Errorf, el_F, el_Not, el_And, el_Errorf, same_eErr, evisit, eOut, ERes.andThen, ecase_compare, eq_LeftLogic, eq_OpLogic, eq_RightLogic, Rl, el, eBin, Rr, er, eg_OpMap, nodeVal_nil, eq_nil, operation]
        · have ho' := fun h => eq_Oper (h := h) ho
          have hm := operation_some ho
          generalize (operation o).getD [] = w at ho' hm
          cases hf : entqlOps.lookup w <;>
          gorun [eLocals, eVisitAt, eafter_norm, eafter_ret, eafter_panic, endSwitch_norm, endSwitch_ret, endSwitch_panic, ep_mb, ep_node, ep_entql, ep_errors, ep_miniquery, eh_visit, eh_pop, eh_push, epush_run, epop_nil, epop_cons, eg_F, eg_Not, eg_And, eg_Errorf, el_F, el_Not, el_And, el_Errorf, same_eErr, evisit, eOut, ERes.andThen, ecase_compare, eq_LeftLogic, eq_OpLogic, eq_RightLogic, Rl, el, eBin, Rr, er, eg_OpMap, ho', hm, hf, fget_lookup (fun kv : Str × EOp => Val.lib (eopName kv.2)), emk_Binary, ebin_fold, eErrVal]
    | _ => gorun [eLocals, eVisitAt, eafter_norm, eafter_ret, eafter_panic, endSwitch_norm, endSwitch_ret, endSwitch_panic, ep_mb, ep_node, ep_entql, ep_errors, ep_miniquery, eh_visit, eh_pop, eh_push, epush_run, epop_nil, epop_cons, eg_F, eg_Not, eg_And, eg_Errorf, el_F, el_Not, el_And, el_Errorf, same_eErr, evisit, eOut, ERes.andThen, ecase_compare, eq_LeftLogic, eq_OpLogic, eq_RightLogic, Rl, el, eBin, Rr, er]
  | _ => gorun [eLocals, eVisitAt, eafter_norm, eafter_ret, eafter_panic, endSwitch_norm, endSwitch_ret, endSwitch_panic, ep_mb, ep_node, ep_entql, ep_errors, ep_miniquery, eh_visit, eh_pop, eh_push, epush_run, epop_nil, epop_cons, eg_F, eg_Not, eg_And, eg_Errorf, el_F, el_Not, el_And, el_Errorf, same_eErr, evisit, eOut, ERes.andThen, ecase_compare, eq_LeftLogic, eq_OpLogic, eq_RightLogic, Rl, el, eBin]

set_option maxHeartbeats 2000000 in
theorem ev_between (l o x y) (ih : EBelow Q N h a q (n + 2) k) (hl : lvl (.between l o x y) ≤ k) (st : List EExpr) :
    eqCall Q N (n + 3) (.meth (.ptr a) c!"visit") [nodeVal (.between l o x y)] (eHeap h a q st) = eOut h a q (evisit (.between l o x y) st) := by
  refine (earm_between rfl).trans ?_
  rw [lvl] at hl
  have Rl := ih l (by omega)
  have Rx := ih x (by omega)
  have Ry := ih y (by omega)
  cases el : evisit l st with
  | ok s1 =>
    cases ex : evisit x s1 with
    | ok s2 =>
      cases ey : evisit y s2 with
      | ok s3 =>
        match s3 with
        | [] => gorun [eLocals, eVisitAt, eafter_norm, eafter_ret, eafter_panic, endSwitch_norm, endSwitch_ret, endSwitch_panic, ep_mb, ep_node, ep_entql, ep_errors, ep_miniquery, eh_visit, eh_pop, eh_push, epush_run, epop_nil, epop_cons, eg_F, eg_Not, eg_And, eg_Errorf, el_F, el_Not, el_And, el_Errorf, same_eErr, evisit, eOut, ERes.andThen, ecase_between, eq_LeftBetween, eq_OpBetween, eq_ParamsBetween, Rl, el, eBetween, Rx, ex, Ry, ey]
        | [_] => gorun [eLocals, eVisitAt, eafter_norm, eafter_ret, eafter_panic, endSwitch_norm, endSwitch_ret, endSwitch_panic, ep_mb, ep_node, ep_entql, ep_errors, ep_miniquery, eh_visit, eh_pop, eh_push, epush_run, epop_nil, epop_cons, eg_F, eg_Not, eg_And, eg_Errorf, el_F, el_Not, el_And, el_Errorf, same_eErr, evisit, eOut, ERes.andThen, ecase_between, eq_LeftBetween, eq_OpBetween, eq_ParamsBetween, Rl, el, eBetween, Rx, ex, Ry, ey]
        | [_, _] => gorun [eLocals, eVisitAt, eafter_norm, eafter_ret, eafter_panic, endSwitch_norm, endSwitch_ret, endSwitch_panic, ep_mb, ep_node, ep_entql, ep_errors, ep_miniquery, eh_visit, eh_pop, eh_push, epush_run, epop_nil, epop_cons, eg_F, eg_Not, eg_And, eg_Errorf, el_F, el_Not, el_And, el_Errorf, same_eErr, evisit, eOut, ERes.andThen, ecase_between, eq_LeftBetween, eq_OpBetween, eq_ParamsBetween, Rl, el, eBetween, Rx, ex, Ry, ey]
        | e1 :: e2 :: e3 :: s =>
          by_cases ho : o = .nil
          · subst ho
            gorun [eLocals, eVisitAt, eafter_norm, eafter_ret, eafter_panic, endSwitch_norm, endSwitch_ret, endSwitch_panic, ep_mb, ep_node, ep_entql, ep_errors, ep_miniquery, eh_visit, eh_pop, eh_push, epush_run, epop_nil, epop_cons, eg_F, eg_Not, eg_And, eg_Errorf, el_F, el_Not, el_And, el_Errorf, same_eErr, evisit, eOut, ERes.andThen, ecase_between, eq_LeftBetween, eq_OpBetween, eq_ParamsBetween, Rl, el, eBetween, Rx, ex, Ry, ey, eg_GTE, eg_LTE, nodeVal_nil, eq_nil, operation]
          · have ho' := fun h => eq_Oper (h := h) ho
            have hm := operation_some ho
            generalize (operation o).getD [] = w at ho' hm
            by_cases hw : w = c!"not between"
            · subst hw
              gorun [eLocals, eVisitAt, eafter_norm, eafter_ret, eafter_panic, endSwitch_norm, endSwitch_ret, endSwitch_panic, ep_mb, ep_node, ep_entql, ep_errors, ep_miniquery, eh_visit, eh_pop, eh_push, epush_run, epop_nil, epop_cons, eg_F, eg_Not, eg_And, eg_Errorf, el_F, el_Not, el_And, el_Errorf, same_eErr, evisit, eOut, ERes.andThen, ecase_between, eq_LeftBetween, eq_OpBetween, eq_ParamsBetween, Rl, el, eBetween, Rx, ex, Ry, ey, eg_GTE, eg_LTE, eg_LT, eg_GT, eg_NotBetween, ho', hm, emk_Binary, ebin_fold]
            · gorun [eLocals, eVisitAt, eafter_norm, eafter_ret, eafter_panic, endSwitch_norm, endSwitch_ret, endSwitch_panic, ep_mb, ep_node, ep_entql, ep_errors, ep_miniquery, eh_visit, eh_pop, eh_push, epush_run, epop_nil, epop_cons, eg_F, eg_Not, eg_And, eg_Errorf, el_F, el_Not, el_And, el_Errorf, same_eErr, evisit, eOut, ERes.andThen, ecase_between, eq_LeftBetween, eq_OpBetween, eq_ParamsBetween, Rl, el, eBetween, Rx, ex, Ry, ey, eg_GTE, eg_LTE, eg_LT, eg_GT, eg_NotBetween, ho', hm, hw, emk_Binary, ebin_fold]
      | _ => gorun [eLocals, eVisitAt, eafter_norm, eafter_ret, eafter_panic, endSwitch_norm, endSwitch_ret, endSwitch_panic, ep_mb, ep_node, ep_entql, ep_errors, ep_miniquery, eh_visit, eh_pop, eh_push, epush_run, epop_nil, epop_cons, eg_F, eg_Not, eg_And, eg_Errorf, el_F, el_Not, el_And, el_Errorf, same_eErr, evisit, eOut, ERes.andThen, ecase_between, eq_LeftBetween, eq_OpBetween, eq_ParamsBetween, Rl, el, eBetween, Rx, ex, Ry, ey]
    | _ => gorun [eLocals, eVisitAt, eafter_norm, eafter_ret, eafter_panic, endSwitch_norm, endSwitch_ret, endSwitch_panic, ep_mb, ep_node, ep_entql, ep_errors, ep_miniquery, eh_visit, eh_pop, eh_push, epush_run, epop_nil, epop_cons, eg_F, eg_Not, eg_And, eg_Errorf, el_F, el_Not, el_And, el_Errorf, same_eErr, evisit, eOut, ERes.andThen, ecase_between, eq_LeftBetween, eq_OpBetween, eq_ParamsBetween, Rl, el, eBetween, Rx, ex]
  | _ => gorun [eLocals, eVisitAt, eafter_norm, eafter_ret, eafter_panic, endSwitch_norm, endSwitch_ret, endSwitch_panic, ep_mb, ep_node, ep_entql, ep_errors, ep_miniquery, eh_visit, eh_pop, eh_push, epush_run, epop_nil, epop_cons, eg_F, eg_Not, eg_And, eg_Errorf, el_F, el_Not, el_And, el_Errorf, same_eErr, evisit, eOut, ERes.andThen, ecase_between, eq_LeftBetween, eq_OpBetween, eq_ParamsBetween, Rl, el, eBetween]

/-- Running `visit`. -/
theorem evisit_run (k : Nat) : ∀ x : Node, lvl x ≤ k → lvl x + 2 ≤ N → ∀ n, k ≤ n → ∀ st,
    eqCall Q N (n + 3) (.meth (.ptr a) c!"visit") [nodeVal x] (eHeap h a q st) = eOut h a q (evisit x st) := by
  induction k with
  | zero =>
    intro x hx hN n _ st
    have ih : EBelow Q N h a q (n + 2) 0 := fun x hx => absurd hx (by omega)
    cases x with
    | nil => exact ev_nil st
    | int i => exact ev_int i hN st
    | bool i => exact ev_bool i hN st
    | str i => exact ev_str i hN st
    | null => exact ev_null hN st
    | op o => exact ev_op o st
    | ident x => exact ev_ident x st
    | ref x => exact ev_ref x st
    | _ => rw [lvl] at hx; omega
  | succ k IH =>
    intro x hx hN n hn st
    obtain ⟨n, rfl⟩ : ∃ n', n = n' + 1 := ⟨n - 1, by omega⟩
    have ih : EBelow Q N h a q (n + 3) (lvl x) := fun y hy st => IH y (by omega) (by omega) n (by omega) st
    cases x with
    | nil => exact ev_nil st
    | int i => exact ev_int i hN st
    | bool i => exact ev_bool i hN st
    | str i => exact ev_str i hN st
    | null => exact ev_null hN st
    | op o => exact ev_op o st
    | ident x => exact ev_ident x st
    | ref x => exact ev_ref x st
    | arr l => exact ev_arr l hN st
    | func x l => exact ev_func x l st
    | pred l o => exact ev_pred l o st
    | paren e => exact ev_paren e ih (Nat.le_refl _) st
    | not e => exact ev_not e ih (Nat.le_refl _) st
    | cmp l o r => exact ev_cmp l o r ih (Nat.le_refl _) st
    | logic l o r => exact ev_logic l o r ih (Nat.le_refl _) st
    | between l o x y => exact ev_between l o x y ih (Nat.le_refl _) st

end Verif.Mini
