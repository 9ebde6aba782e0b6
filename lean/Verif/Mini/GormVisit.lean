import Verif.Mini.GormRun

/-! # Running /repo/gormq/miniquery.go: `visit` -/

namespace Verif.Mini
open Verif

variable {Q : Char → Bool} {N n a k : Nat} {E : GEnv} {h : Heap} {H : GSt → Heap} {av mn jn qu : Val} {L : Lib}

theorem q_Type {a : Node} (ha : a ≠ .nil) : select gq (nodeVal a) c!"Type" h = .ok ([.str (tyName a)], h) := by
  cases a <;> first | exact absurd rfl ha | rfl
theorem q_Operation (o) : select gq (nodeVal (.op o)) c!"Operation" h = .ok ([.str o], h) := rfl
theorem q_NameFunc (x l) : select gq (nodeVal (.func x l)) c!"Name" h = .ok ([.str x], h) := rfl
theorem q_Names (x : List Str) : select gq (nodeVal (.ref x)) c!"Names" h = .ok ([.slice (x.map .str)], h) := rfl
theorem q_Paren (x) : select gq (nodeVal (.paren x)) c!"Expression" h = .ok ([nodeVal x], h) := rfl
theorem q_Not (x) : select gq (nodeVal (.not x)) c!"Expression" h = .ok ([nodeVal x], h) := rfl
theorem q_LeftPred (l o) : select gq (nodeVal (.pred l o)) c!"Left" h = .ok ([nodeVal l], h) := rfl
theorem q_OpPred (l o) : select gq (nodeVal (.pred l o)) c!"Op" h = .ok ([nodeVal o], h) := rfl
theorem q_RightPred (l o) : select gq (nodeVal (.pred l o)) c!"Right" h = .ok ([.nil], h) := rfl
theorem q_LeftCmp (l o r) : select gq (nodeVal (.cmp l o r)) c!"Left" h = .ok ([nodeVal l], h) := rfl
theorem q_OpCmp (l o r) : select gq (nodeVal (.cmp l o r)) c!"Op" h = .ok ([nodeVal o], h) := rfl
theorem q_RightCmp (l o r) : select gq (nodeVal (.cmp l o r)) c!"Right" h = .ok ([nodeVal r], h) := rfl
theorem q_LeftLogic (l o r) : select gq (nodeVal (.logic l o r)) c!"Left" h = .ok ([nodeVal l], h) := rfl
theorem q_OpLogic (l o r) : select gq (nodeVal (.logic l o r)) c!"Op" h = .ok ([nodeVal o], h) := rfl
theorem q_RightLogic (l o r) : select gq (nodeVal (.logic l o r)) c!"Right" h = .ok ([nodeVal r], h) := rfl
theorem q_LeftBetween (l o a b) : select gq (nodeVal (.between l o a b)) c!"Left" h = .ok ([nodeVal l], h) := rfl
theorem q_OpBetween (l o a b) : select gq (nodeVal (.between l o a b)) c!"Op" h = .ok ([nodeVal o], h) := rfl
theorem q_ParamsBetween (l o a b) : select gq (nodeVal (.between l o a b)) c!"Params" h = .ok ([.slice [nodeVal a, nodeVal b]], h) := rfl
theorem q_ParamsFunc (x l) : select gq (nodeVal (.func x l)) c!"Params" h = .ok ([.slice (nodeVals l)], h) := rfl
theorem q_NameIdent (x) : select gq (nodeVal (.ident x)) c!"Name" h = .ok ([.str x], h) := rfl
theorem q_nil (f) : select gq .nil f h = .panic := rfl
theorem q_Value {x : Node} (hx : x ≠ .nil) : select gq (nodeVal x) c!"Value" h = .ok ([.meth (nodeVal x) c!"Value"], h) := by
  cases x <;> first | exact absurd rfl hx | rfl

theorem gp_buf : findPkg c!"buf" gq.decls = false := rfl
theorem gp_node : findPkg c!"node" gq.decls = false := rfl
theorem gp_qb : findPkg c!"qb" gq.decls = false := rfl

theorem gt_value : call gq L (n + 1) (.glob c!"miniquery.ValueNodeType") [] h = .ok ([.str c!"value"], h) := rfl
theorem gt_operation : call gq L (n + 1) (.glob c!"miniquery.OperationNodeType") [] h = .ok ([.str c!"operation"], h) := rfl
theorem gt_identifier : call gq L (n + 1) (.glob c!"miniquery.IdentifierNodeType") [] h = .ok ([.str c!"identifier"], h) := rfl
theorem gt_reference : call gq L (n + 1) (.glob c!"miniquery.ReferenceNodeType") [] h = .ok ([.str c!"reference"], h) := rfl
theorem gt_predicates : call gq L (n + 1) (.glob c!"miniquery.PredicatesExpressionType") [] h = .ok ([.str c!"predicates"], h) := rfl
theorem gt_compare : call gq L (n + 1) (.glob c!"miniquery.CompareExpressionType") [] h = .ok ([.str c!"compare"], h) := rfl
theorem gt_logic : call gq L (n + 1) (.glob c!"miniquery.LogicExpressionType") [] h = .ok ([.str c!"logic"], h) := rfl
theorem gt_parentheses : call gq L (n + 1) (.glob c!"miniquery.ParenthesesExpressionType") [] h = .ok ([.str c!"parentheses"], h) := rfl
theorem gt_not : call gq L (n + 1) (.glob c!"miniquery.NotExpressionType") [] h = .ok ([.str c!"not"], h) := rfl
theorem gt_between : call gq L (n + 1) (.glob c!"miniquery.BetweenExpressionType") [] h = .ok ([.str c!"between"], h) := rfl
theorem gt_function : call gq L (n + 1) (.glob c!"miniquery.FunctionExpressionType") [] h = .ok ([.str c!"function"], h) := rfl

/-- A query builder. -/
def qbVal (a : Nat) (av mn jn qu : Val) : Val :=
  .obj c!"queryBuilder" [(c!"buf", .ptr a), (c!"addValue", av), (c!"mapName", mn), (c!"join", jn), (c!"quote", qu)]

theorem b_buf : select gq (qbVal a av mn jn qu) c!"buf" h = .ok ([.ptr a], h) := rfl
theorem b_addValue : select gq (qbVal a av mn jn qu) c!"addValue" h = .ok ([av], h) := rfl
theorem b_mapName : select gq (qbVal a av mn jn qu) c!"mapName" h = .ok ([mn], h) := rfl
theorem b_join : select gq (qbVal a av mn jn qu) c!"join" h = .ok ([jn], h) := rfl
theorem b_quote : select gq (qbVal a av mn jn qu) c!"quote" h = .ok ([qu], h) := rfl
theorem b_visit : select gq (qbVal a av mn jn qu) c!"visit" h = .ok ([.meth (qbVal a av mn jn qu) c!"visit"], h) := rfl
theorem b_visitIdentifier : select gq (qbVal a av mn jn qu) c!"visitIdentifier" h = .ok ([.meth (qbVal a av mn jn qu) c!"visitIdentifier"], h) := rfl
theorem b_visitReference : select gq (qbVal a av mn jn qu) c!"visitReference" h = .ok ([.meth (qbVal a av mn jn qu) c!"visitReference"], h) := rfl
theorem b_visitFunction : select gq (qbVal a av mn jn qu) c!"visitFunction" h = .ok ([.meth (qbVal a av mn jn qu) c!"visitFunction"], h) := rfl

/-- What the closure `mapName` returns. -/
def mapOut (h : Heap) (s : Str) : Option Str → Vals
  | some d => .ok ([.str d, .nil], h)
  | none => .ok ([.str s, gErrVal (.fieldNotFound s)], h)

/-- The state after a join. -/
def addJoin (s d : Str) (st : GSt) : GSt :=
  { st with joins := if st.joined.any (fun p => p.1 == s) then st.joins else st.joins ++ [s], joined := st.joined ++ [(s, d)] }

/-- What the closure `join` does. -/
def joinOut (E : GEnv) (H : GSt → Heap) (s f : Str) (st : GSt) : Vals :=
  match E.schema.rel s with
  | none => .ok ([.str [], gErrVal (.relationNotFound s)], H st)
  | some t =>
    match getDBName E.fold t f with
    | none => .ok ([.str [], gErrVal (.relationFieldNotFound s f)], H st)
    | some d => .ok ([.str (s ++ c!"." ++ d), .nil], H (addJoin s d st))

/-- How the fields of a query builder act: `H st` is the memory in the state `st` of the model. -/
structure Cbs (Q : Char → Bool) (N : Nat) (E : GEnv) (H : GSt → Heap) (a : Nat) (av mn jn qu : Val) : Prop where
  sws : ∀ st, select gq (.ptr a) c!"WriteString" (H st) = .ok ([.meth (.ptr a) c!"WriteString"], H st)
  swr : ∀ st, select gq (.ptr a) c!"WriteRune" (H st) = .ok ([.meth (.ptr a) c!"WriteRune"], H st)
  ws : ∀ n s st, gqCall Q N E.fold E.quote (n + 1) (.meth (.ptr a) c!"WriteString") [.str s] (H st) = .ok ([.nil, .nil], H (st.write s))
  wr : ∀ n (c : Char) st, gqCall Q N E.fold E.quote (n + 1) (.meth (.ptr a) c!"WriteRune") [.int c.toNat] (H st) = .ok ([.nil, .nil], H (st.write [c]))
  add : ∀ n v st, gqCall Q N E.fold E.quote (n + 6) av [goVal v] (H st) = .ok ([], H { st with vals := st.vals ++ [v] })
  map : ∀ n s st, gqCall Q N E.fold E.quote (n + 6) mn [.str s] (H st) = mapOut (H st) s (getDBName E.fold E.schema.table s)
  join : ∀ n s f st, gqCall Q N E.fold E.quote (n + 6) jn [.str s, .str f] (H st) = joinOut E H s f st
  quote : ∀ n s st, gqCall Q N E.fold E.quote (n + 6) qu [.ptr a, .str s] (H st) = .ok ([], H (st.write (E.quote s)))

theorem Cbs.add' (F : Cbs Q N E H a av mn jn qu) (n v st) : gqCall Q N E.fold E.quote (n + 7) av [goVal v] (H st) = .ok ([], H { st with vals := st.vals ++ [v] }) :=
  F.add (n + 1) v st
theorem Cbs.w32 (F : Cbs Q N E H a av mn jn qu) (n st) : gqCall Q N E.fold E.quote (n + 1) (.meth (.ptr a) c!"WriteRune") [.int 32] (H st) =
  .ok ([.nil, .nil], H (st.write c!" ")) := F.wr n ' ' st
theorem Cbs.w40 (F : Cbs Q N E H a av mn jn qu) (n st) : gqCall Q N E.fold E.quote (n + 1) (.meth (.ptr a) c!"WriteRune") [.int 40] (H st) =
  .ok ([.nil, .nil], H (st.write c!"(")) := F.wr n '(' st
theorem Cbs.w41 (F : Cbs Q N E H a av mn jn qu) (n st) : gqCall Q N E.fold E.quote (n + 1) (.meth (.ptr a) c!"WriteRune") [.int 41] (H st) =
  .ok ([.nil, .nil], H (st.write c!")")) := F.wr n ')' st
theorem Cbs.w63 (F : Cbs Q N E H a av mn jn qu) (n st) : gqCall Q N E.fold E.quote (n + 1) (.meth (.ptr a) c!"WriteRune") [.int 63] (H st) =
  .ok ([.nil, .nil], H (st.write c!"?")) := F.wr n '?' st

/-- What `visit` does. -/
def gOut (H : GSt → Heap) : GRes → Vals
  | .panic => .panic
  | .ok st => .ok ([.nil], H st)
  | .err e st => .ok ([gErrVal e], H st)

theorem meth_qb {m : Str} {f : Func} {args} (hf : findFunc (c!"queryBuilder." ++ m) gq.decls = some f) (hptr : f.ptr = true) :
    call gq L (n + 1) (.meth (qbVal a av mn jn qu) m) args h = runBody gq (call gq L n) f.params f.results f.body [] (qbVal a av mn jn qu :: args) h := by
  show runMeth gq L (call gq L n) (qbVal a av mn jn qu) m args _ = _
  have e1 : c!"queryBuilder" ++ '.' :: m = c!"queryBuilder." ++ m := rfl
  simp only [runMeth, qbVal, structOf]
  rw [e1, hf]
  simp [hptr]

theorem visit_enter (x : Node) : call gq L (n + 1) (.meth (qbVal a av mn jn qu) c!"visit") [nodeVal x] h =
    finish [c!"err"] (execs gq (call gq L n) [] gormqueryBuildervisit 0 [(c!"err", .val .nil), (c!"node", .val (nodeVal x)), (c!"qb", .val (qbVal a av mn jn qu))] h) := by
  rw [meth_qb (f := ⟨true, [c!"qb", c!"node"], [c!"err"], gormqueryBuildervisit⟩) rfl rfl, runBody_named rfl (by decide) (by decide)]
  rfl

theorem visitIdentifier_enter (x : Node) : call gq L (n + 1) (.meth (qbVal a av mn jn qu) c!"visitIdentifier") [nodeVal x] h =
    finish [c!"err"] (execs gq (call gq L n) [] gormqueryBuildervisitIdentifier 0 [(c!"err", .val .nil), (c!"node", .val (nodeVal x)), (c!"qb", .val (qbVal a av mn jn qu))] h) := by
  rw [meth_qb (f := ⟨true, [c!"qb", c!"node"], [c!"err"], gormqueryBuildervisitIdentifier⟩) rfl rfl, runBody_named rfl (by decide) (by decide)]
  rfl

theorem visitReference_enter (x : Node) : call gq L (n + 1) (.meth (qbVal a av mn jn qu) c!"visitReference") [nodeVal x] h =
    finish [c!"err"] (execs gq (call gq L n) [] gormqueryBuildervisitReference 0 [(c!"err", .val .nil), (c!"node", .val (nodeVal x)), (c!"qb", .val (qbVal a av mn jn qu))] h) := by
  rw [meth_qb (f := ⟨true, [c!"qb", c!"node"], [c!"err"], gormqueryBuildervisitReference⟩) rfl rfl, runBody_named rfl (by decide) (by decide)]
  rfl

theorem visitFunction_enter (x : Node) : call gq L (n + 1) (.meth (qbVal a av mn jn qu) c!"visitFunction") [nodeVal x] h =
    finish [c!"err"] (execs gq (call gq L n) [] gormqueryBuildervisitFunction 0 [(c!"err", .val .nil), (c!"node", .val (nodeVal x)), (c!"qb", .val (qbVal a av mn jn qu))] h) := by
  rw [meth_qb (f := ⟨true, [c!"qb", c!"node"], [c!"err"], gormqueryBuildervisitFunction⟩) rfl rfl, runBody_named rfl (by decide) (by decide)]
  rfl

theorem same_gErr (e : GErr) : same (gErrVal e) .nil = some false := by cases e <;> rfl

/-- Running `visitIdentifier`. -/
theorem visitIdentifier_run (F : Cbs Q N E H a av mn jn qu) (x : Str) (st : GSt) :
    gqCall Q N E.fold E.quote (n + 7) (.meth (qbVal a av mn jn qu) c!"visitIdentifier") [nodeVal (.ident x)] (H st) = gOut H (gIdent E x st) := by
  refine (visitIdentifier_enter _).trans ?_
  cases e : getDBName E.fold E.schema.table x <;>
  gorun [gormqueryBuildervisitIdentifier, gp_qb, gp_node, b_buf, b_mapName, b_quote, q_NameIdent, F.map, mapOut, F.quote, e, gIdent, gOut, same_gErr]

/-- Running `visitReference`. -/
theorem visitReference_run (F : Cbs Q N E H a av mn jn qu) (xs : List Str) (st : GSt) :
    gqCall Q N E.fold E.quote (n + 7) (.meth (qbVal a av mn jn qu) c!"visitReference") [nodeVal (.ref xs)] (H st) = gOut H (gRef E xs st) := by
  refine (visitReference_enter _).trans ?_
  have g2 : ∀ k : Nat, ¬ (k : Int) + 1 + 1 + 1 = 2 := by intro k; omega
  match xs with
  | [] => gorun [gormqueryBuildervisitReference, gp_qb, gp_node, gp_errors, q_Names, gg_New, gl_New, gRef, gOut, gErrVal]
  | [x] => gorun [gormqueryBuildervisitReference, gp_qb, gp_node, gp_errors, q_Names, gg_New, gl_New, gRef, gOut, gErrVal]
  | x :: y :: z :: l =>
    gorun [gormqueryBuildervisitReference, gp_qb, gp_node, gp_errors, q_Names, gg_New, gl_New, gRef, gOut, gErrVal, g2]
  | [s, f] =>
    cases e1 : E.schema.rel s with
    | none => gorun [gormqueryBuildervisitReference, gp_qb, gp_node, q_Names, b_join, F.join, joinOut, e1, gRef, gJoin, gOut, same_gErr]
    | some t =>
      cases e2 : getDBName E.fold t f with
      | none => gorun [gormqueryBuildervisitReference, gp_qb, gp_node, q_Names, b_join, F.join, joinOut, e1, e2, gRef, gJoin, gOut, same_gErr]
      | some d =>
        by_cases hj : st.joined.any fun p => p.1 == s
        · gorun [gormqueryBuildervisitReference, gp_qb, gp_node, q_Names, b_join, b_quote, b_buf, F.join, F.quote, joinOut, e1, e2, gRef, gJoin, gOut, addJoin, hj, GSt.write]
        · gorun [gormqueryBuildervisitReference, gp_qb, gp_node, q_Names, b_join, b_quote, b_buf, F.join, F.quote, joinOut, e1, e2, gRef, gJoin, gOut, addJoin, hj, GSt.write]


/-! ## The cases of `visit` -/

/-- The clauses of the switch in `visit`. -/
def visitCases : Cases := swOf (nth gormqueryBuildervisit 3)

/-- The clauses after some clauses. -/
def dropCases : Nat → Cases → Cases
  | 0, cs => cs
  | n + 1, .case _ _ k => dropCases n k
  | n + 1, .dflt _ k => dropCases n k
  | _ + 1, .nil => .nil

/-- What follows the body of a clause. -/
def afterCase (C : Val → List Val → Heap → Vals) (i : Nat) : Done → Done
  | .ok (.fall, l, h) => execFrom gq C [] (dropCases (i + 1) visitCases) l h
  | r => r

theorem after_norm {C : Val → List Val → Heap → Vals} {i l} : afterCase C i (.ok (.norm, l, h)) = .ok (.norm, l, h) := rfl
theorem after_panic {C : Val → List Val → Heap → Vals} {i} : afterCase C i .panic = .panic := rfl
theorem endSwitch_norm {l : Locals} : endSwitch (.ok (.norm, l, h)) = .ok (.norm, l, h) := rfl
theorem endSwitch_panic : endSwitch .panic = .panic := rfl

/-- The variables in the cases of `visit`. -/
def visLocals (a : Nat) (av mn jn qu : Val) (x : Node) (e : Val) : Locals :=
  [(c!"visit", .val (.meth (qbVal a av mn jn qu) c!"visit")), (c!"addValue", .val av), (c!"buf", .val (.ptr a)), (c!"err", .val e), (c!"node", .val (nodeVal x)),
    (c!"qb", .val (qbVal a av mn jn qu))]

/-- The case of `visit` at a position. -/
def visitAt (C : Val → List Val → Heap → Vals) (i : Nat) (b : Stmts) (l : Locals) (h : Heap) : Vals :=
  finish [c!"err"] (next (endSwitch (afterCase C i (leave 6 (execs gq C [] b 6 l h)))) fun l h =>
    execs gq C [] (.cons (.ret (.cons (.id c!"err") .nil)) .nil) 0 l h)

/-- The case of `visit` for the type `operation`. -/
def case_operation : Stmts := (.cons (.expr (.call (.sel (.id c!"buf") c!"WriteString") (.cons (.call (.id c!"normalizeSQL") (.cons (.sel (.id c!"node") c!"Operation") .nil) false) .nil) false))
  .nil)

/-- The case of `visit` for the type `value`. -/
def case_value : Stmts := (.cons (.expr (.call (.sel (.id c!"buf") c!"WriteRune") (.cons (.chr '?') .nil) false))
  (.cons (.expr (.call (.id c!"addValue") (.cons (.call (.sel (.id c!"node") c!"Value") .nil false) .nil) false))
  .nil))

/-- The case of `visit` for the type `identifier`. -/
def case_identifier : Stmts := (.cons (.assign (.cons (.id c!"err") .nil) (.cons (.call (.sel (.id c!"qb") c!"visitIdentifier") (.cons (.id c!"node") .nil) false) .nil))
  .nil)

/-- The case of `visit` for the type `reference`. -/
def case_reference : Stmts := (.cons (.assign (.cons (.id c!"err") .nil) (.cons (.call (.sel (.id c!"qb") c!"visitReference") (.cons (.id c!"node") .nil) false) .nil))
  .nil)

/-- The case of `visit` for the type `parentheses`. -/
def case_parentheses : Stmts := (.cons (.expr (.call (.sel (.id c!"buf") c!"WriteRune") (.cons (.chr '(') .nil) false))
  (.cons (.assign (.cons (.id c!"err") .nil) (.cons (.call (.id c!"visit") (.cons (.sel (.id c!"node") c!"Expression") .nil) false) .nil))
  (.cons (.expr (.call (.sel (.id c!"buf") c!"WriteRune") (.cons (.chr ')') .nil) false))
  .nil)))

/-- The case of `visit` for the type `not`. -/
def case_not : Stmts := (.cons (.expr (.call (.sel (.id c!"buf") c!"WriteString") (.cons (.str c!"not ") .nil) false))
  (.cons (.assign (.cons (.id c!"err") .nil) (.cons (.call (.id c!"visit") (.cons (.sel (.id c!"node") c!"Expression") .nil) false) .nil))
  .nil))

/-- The case of `visit` for the type `function`. -/
def case_function : Stmts := (.cons (.assign (.cons (.id c!"err") .nil) (.cons (.call (.sel (.id c!"qb") c!"visitFunction") (.cons (.id c!"node") .nil) false) .nil))
  .nil)

/-- The case of `visit` for the type `between`. -/
def case_between : Stmts := (.cons (.assign (.cons (.id c!"err") .nil) (.cons (.call (.id c!"visit") (.cons (.sel (.id c!"node") c!"Left") .nil) false) .nil))
  (.cons (.ite .nil (.bin c!"==" (.id c!"err") (.id c!"nil")) (.cons (.expr (.call (.sel (.id c!"buf") c!"WriteRune") (.cons (.chr ' ') .nil) false))
  (.cons (.assign (.cons (.id c!"err") .nil) (.cons (.call (.id c!"visit") (.cons (.sel (.id c!"node") c!"Op") .nil) false) .nil))
  .nil)) .nil)
  (.cons (.ite .nil (.bin c!"==" (.id c!"err") (.id c!"nil")) (.cons (.expr (.call (.sel (.id c!"buf") c!"WriteRune") (.cons (.chr ' ') .nil) false))
  (.cons (.assign (.cons (.id c!"err") .nil) (.cons (.call (.id c!"visit") (.cons (.idx (.sel (.id c!"node") c!"Params") (.int 0)) .nil) false) .nil))
  .nil)) .nil)
  (.cons (.ite .nil (.bin c!"==" (.id c!"err") (.id c!"nil")) (.cons (.expr (.call (.sel (.id c!"buf") c!"WriteString") (.cons (.str c!" and ") .nil) false))
  (.cons (.assign (.cons (.id c!"err") .nil) (.cons (.call (.id c!"visit") (.cons (.idx (.sel (.id c!"node") c!"Params") (.int 1)) .nil) false) .nil))
  .nil)) .nil)
  .nil))))

/-- The case of `visit` for the type `predicates`. -/
def case_predicates : Stmts := (.cons .fall
  .nil)

/-- The case of `visit` for the type `logic`. -/
def case_logic : Stmts := (.cons .fall
  .nil)

/-- The case of `visit` for the type `compare`. -/
def case_compare : Stmts := (.cons (.assign (.cons (.id c!"err") .nil) (.cons (.call (.id c!"visit") (.cons (.sel (.id c!"node") c!"Left") .nil) false) .nil))
  (.cons (.ite .nil (.bin c!"==" (.id c!"err") (.id c!"nil")) (.cons (.expr (.call (.sel (.id c!"buf") c!"WriteRune") (.cons (.chr ' ') .nil) false))
  (.cons (.assign (.cons (.id c!"err") .nil) (.cons (.call (.id c!"visit") (.cons (.sel (.id c!"node") c!"Op") .nil) false) .nil))
  .nil)) .nil)
  (.cons (.ite .nil (.bin c!"&&" (.bin c!"==" (.id c!"err") (.id c!"nil")) (.bin c!"!=" (.sel (.id c!"node") c!"Right") (.id c!"nil"))) (.cons (.expr (.call (.sel (.id c!"buf") c!"WriteRune") (.cons (.chr ' ') .nil) false))
  (.cons (.assign (.cons (.id c!"err") .nil) (.cons (.call (.id c!"visit") (.cons (.sel (.id c!"node") c!"Right") .nil) false) .nil))
  .nil)) .nil)
  .nil)))

/-- The case of `visit` for the type `other`. -/
def case_other : Stmts := (.cons (.ret (.cons (.call (.sel (.id c!"errors") c!"Errorf") (.cons (.str c!"invalid type %q") (.cons (.sel (.id c!"node") c!"Type") .nil)) false) .nil))
  .nil)

theorem visit_switch {x : Node} (hx : x ≠ .nil) : call gq L (n + 2) (.meth (qbVal a av mn jn qu) c!"visit") [nodeVal x] h =
    finish [c!"err"] (next (match execSwitch gq (call gq L (n + 1)) [] (.str (tyName x)) visitCases (visLocals a av mn jn qu x .nil) h with
      | some r => endSwitch r
      | none => .ok (.norm, visLocals a av mn jn qu x .nil, h)) fun l h =>
    execs gq (call gq L (n + 1)) [] (.cons (.ret (.cons (.id c!"err") .nil)) .nil) 0 l h) := by
  rw [visit_enter]
  have ht := fun h => q_Type (h := h) hx
  have e : gormqueryBuildervisit = .cons (.define [c!"buf"] (.cons (.sel (.id c!"qb") c!"buf") .nil)) (.cons (.define [c!"addValue"] (.cons (.sel (.id c!"qb") c!"addValue") .nil))
    (.cons (.define [c!"visit"] (.cons (.sel (.id c!"qb") c!"visit") .nil)) (.cons (.switch (.sel (.id c!"node") c!"Type") visitCases)
      (.cons (.ret (.cons (.id c!"err") .nil)) .nil)))) := rfl
  rw [e]
  gorun [gp_qb, gp_node, b_buf, b_addValue, b_visit, ht, visLocals]
  rfl

theorem arm_operation {x : Node} (hx : tyName x = c!"operation") : call gq L (n + 2) (.meth (qbVal a av mn jn qu) c!"visit") [nodeVal x] h =
    visitAt (call gq L (n + 1)) 0 case_operation (visLocals a av mn jn qu x .nil) h := by
  rw [visit_switch (by intro e; subst e; cases hx), hx]
  rfl

theorem arm_value {x : Node} (hx : tyName x = c!"value") : call gq L (n + 2) (.meth (qbVal a av mn jn qu) c!"visit") [nodeVal x] h =
    visitAt (call gq L (n + 1)) 1 case_value (visLocals a av mn jn qu x .nil) h := by
  rw [visit_switch (by intro e; subst e; cases hx), hx]
  rfl

theorem arm_identifier {x : Node} (hx : tyName x = c!"identifier") : call gq L (n + 2) (.meth (qbVal a av mn jn qu) c!"visit") [nodeVal x] h =
    visitAt (call gq L (n + 1)) 2 case_identifier (visLocals a av mn jn qu x .nil) h := by
  rw [visit_switch (by intro e; subst e; cases hx), hx]
  rfl

theorem arm_reference {x : Node} (hx : tyName x = c!"reference") : call gq L (n + 2) (.meth (qbVal a av mn jn qu) c!"visit") [nodeVal x] h =
    visitAt (call gq L (n + 1)) 3 case_reference (visLocals a av mn jn qu x .nil) h := by
  rw [visit_switch (by intro e; subst e; cases hx), hx]
  rfl

theorem arm_parentheses {x : Node} (hx : tyName x = c!"parentheses") : call gq L (n + 2) (.meth (qbVal a av mn jn qu) c!"visit") [nodeVal x] h =
    visitAt (call gq L (n + 1)) 4 case_parentheses (visLocals a av mn jn qu x .nil) h := by
  rw [visit_switch (by intro e; subst e; cases hx), hx]
  rfl

theorem arm_not {x : Node} (hx : tyName x = c!"not") : call gq L (n + 2) (.meth (qbVal a av mn jn qu) c!"visit") [nodeVal x] h =
    visitAt (call gq L (n + 1)) 5 case_not (visLocals a av mn jn qu x .nil) h := by
  rw [visit_switch (by intro e; subst e; cases hx), hx]
  rfl

theorem arm_function {x : Node} (hx : tyName x = c!"function") : call gq L (n + 2) (.meth (qbVal a av mn jn qu) c!"visit") [nodeVal x] h =
    visitAt (call gq L (n + 1)) 6 case_function (visLocals a av mn jn qu x .nil) h := by
  rw [visit_switch (by intro e; subst e; cases hx), hx]
  rfl

theorem arm_between {x : Node} (hx : tyName x = c!"between") : call gq L (n + 2) (.meth (qbVal a av mn jn qu) c!"visit") [nodeVal x] h =
    visitAt (call gq L (n + 1)) 7 case_between (visLocals a av mn jn qu x .nil) h := by
  rw [visit_switch (by intro e; subst e; cases hx), hx]
  rfl

theorem arm_predicates {x : Node} (hx : tyName x = c!"predicates") : call gq L (n + 2) (.meth (qbVal a av mn jn qu) c!"visit") [nodeVal x] h =
    visitAt (call gq L (n + 1)) 10 case_compare (visLocals a av mn jn qu x .nil) h := by
  rw [visit_switch (by intro e; subst e; cases hx), hx]
  rfl

theorem arm_logic {x : Node} (hx : tyName x = c!"logic") : call gq L (n + 2) (.meth (qbVal a av mn jn qu) c!"visit") [nodeVal x] h =
    visitAt (call gq L (n + 1)) 10 case_compare (visLocals a av mn jn qu x .nil) h := by
  rw [visit_switch (by intro e; subst e; cases hx), hx]
  rfl

theorem arm_compare {x : Node} (hx : tyName x = c!"compare") : call gq L (n + 2) (.meth (qbVal a av mn jn qu) c!"visit") [nodeVal x] h =
    visitAt (call gq L (n + 1)) 10 case_compare (visLocals a av mn jn qu x .nil) h := by
  rw [visit_switch (by intro e; subst e; cases hx), hx]
  rfl


/-- The claim about `visit` for the nodes below a level. -/
def GBelow (Q : Char → Bool) (N : Nat) (E : GEnv) (H : GSt → Heap) (a : Nat) (av mn jn qu : Val) (m k : Nat) : Prop :=
  ∀ x : Node, lvl x < k → ∀ st, gqCall Q N E.fold E.quote m (.meth (qbVal a av mn jn qu) c!"visit") [nodeVal x] (H st) = gOut H (gvisit E x st)

theorem gv_nil (st : GSt) :
    gqCall Q N E.fold E.quote (n + 8) (.meth (qbVal a av mn jn qu) c!"visit") [nodeVal .nil] (H st) = gOut H (gvisit E .nil st) := by
  refine (visit_enter _).trans ?_
  gorun [gormqueryBuildervisit, gp_qb, gp_node, b_buf, b_addValue, b_visit, nodeVal, q_nil, gvisit, gOut]

/-- What `Value` of the package miniquery does when it is called from here. -/
theorem gl_Value {x : Node} (hx : x ≠ .nil) (hN : lvl x + 2 ≤ N) {fold qt} : gqCall Q N fold qt (n + 1) (.meth (nodeVal x) c!"Value") [] h = valueOut h (value x) := by
  obtain ⟨N, rfl⟩ : ∃ N', N = N' + 2 := ⟨N - 2, by omega⟩
  have e : gqCall Q (N + 2) fold qt (n + 1) (.meth (nodeVal x) c!"Value") [] h = mqCall Q (N + 2) (.meth (nodeVal x) c!"Value") [] h := by
    obtain ⟨fs, e⟩ := structOf_node hx
    have e1 : c!"Node" ++ '.' :: c!"Value" = c!"Node.Value" := rfl
    have e2 : findFunc c!"Node.Value" gq.decls = none := rfl
    show runMeth gq (gqLib Q (N + 2) fold qt) (gqCall Q (N + 2) fold qt n) (nodeVal x) c!"Value" [] h = _
    rw [e]
    simp only [runMeth, structOf]
    rw [e1, e2]
    rfl
  rw [e]
  exact value_run (Q := Q) (lvl x) x hx (Nat.le_refl _) N (by omega) h

theorem gv_op (F : Cbs Q N E H a av mn jn qu) (o) (st : GSt) :
    gqCall Q N E.fold E.quote (n + 8) (.meth (qbVal a av mn jn qu) c!"visit") [nodeVal (.op o)] (H st) = gOut H (gvisit E (.op o) st) := by
  refine (arm_operation rfl).trans ?_
  gorun [visLocals, visitAt, after_norm, after_panic, endSwitch_norm, endSwitch_panic, gp_qb, gp_node, gp_buf, b_buf, b_addValue, b_visit, F.sws, F.swr, F.ws, F.w32, F.w40, F.w41, F.w63, same_gErr, gvisit, gOut, GRes.andThen, GRes.alsoWrite, case_operation, q_Operation, gg_normalizeSQL, normalizeSQL_run]

theorem gv_ident (F : Cbs Q N E H a av mn jn qu) (x) (st : GSt) :
    gqCall Q N E.fold E.quote (n + 8) (.meth (qbVal a av mn jn qu) c!"visit") [nodeVal (.ident x)] (H st) = gOut H (gvisit E (.ident x) st) := by
  refine (arm_identifier rfl).trans ?_
  have hr := visitIdentifier_run (n := n) F x st
  cases e : gIdent E x st <;> gorun [visLocals, visitAt, after_norm, after_panic, endSwitch_norm, endSwitch_panic, gp_qb, gp_node, gp_buf, b_buf, b_addValue, b_visit, F.sws, F.swr, F.ws, F.w32, F.w40, F.w41, F.w63, same_gErr, gvisit, gOut, GRes.andThen, GRes.alsoWrite, case_identifier, b_visitIdentifier, hr, e]

theorem gv_ref (F : Cbs Q N E H a av mn jn qu) (x) (st : GSt) :
    gqCall Q N E.fold E.quote (n + 8) (.meth (qbVal a av mn jn qu) c!"visit") [nodeVal (.ref x)] (H st) = gOut H (gvisit E (.ref x) st) := by
  refine (arm_reference rfl).trans ?_
  have hr := visitReference_run (n := n) F x st
  cases e : gRef E x st <;> gorun [visLocals, visitAt, after_norm, after_panic, endSwitch_norm, endSwitch_panic, gp_qb, gp_node, gp_buf, b_buf, b_addValue, b_visit, F.sws, F.swr, F.ws, F.w32, F.w40, F.w41, F.w63, same_gErr, gvisit, gOut, GRes.andThen, GRes.alsoWrite, case_reference, b_visitReference, hr, e]

theorem gv_int (F : Cbs Q N E H a av mn jn qu) (i) (hN : lvl (.int i) + 2 ≤ N) (st : GSt) :
    gqCall Q N E.fold E.quote (n + 8) (.meth (qbVal a av mn jn qu) c!"visit") [nodeVal (.int i)] (H st) = gOut H (gvisit E (.int i) st) := by
  refine (arm_value rfl).trans ?_
  have hv := fun n h => gl_Value (Q := Q) (n := n) (h := h) (x := (.int i)) (by simp) hN (fold := E.fold) (qt := E.quote)
  have hs := fun h => q_Value (h := h) (x := (.int i)) (by simp)
  cases e : value (.int i) <;> gorun [visLocals, visitAt, after_norm, after_panic, endSwitch_norm, endSwitch_panic, gp_qb, gp_node, gp_buf, b_buf, b_addValue, b_visit, F.sws, F.swr, F.ws, F.w32, F.w40, F.w41, F.w63, same_gErr, gvisit, gOut, GRes.andThen, GRes.alsoWrite, case_value, gVal, hv, hs, valueOut, e, F.add', show ∀ s, (st.write s).vals = st.vals from fun _ => rfl]

theorem gv_bool (F : Cbs Q N E H a av mn jn qu) (i) (hN : lvl (.bool i) + 2 ≤ N) (st : GSt) :
    gqCall Q N E.fold E.quote (n + 8) (.meth (qbVal a av mn jn qu) c!"visit") [nodeVal (.bool i)] (H st) = gOut H (gvisit E (.bool i) st) := by
  refine (arm_value rfl).trans ?_
  have hv := fun n h => gl_Value (Q := Q) (n := n) (h := h) (x := (.bool i)) (by simp) hN (fold := E.fold) (qt := E.quote)
  have hs := fun h => q_Value (h := h) (x := (.bool i)) (by simp)
  cases e : value (.bool i) <;> gorun [visLocals, visitAt, after_norm, after_panic, endSwitch_norm, endSwitch_panic, gp_qb, gp_node, gp_buf, b_buf, b_addValue, b_visit, F.sws, F.swr, F.ws, F.w32, F.w40, F.w41, F.w63, same_gErr, gvisit, gOut, GRes.andThen, GRes.alsoWrite, case_value, gVal, hv, hs, valueOut, e, F.add', show ∀ s, (st.write s).vals = st.vals from fun _ => rfl]

theorem gv_str (F : Cbs Q N E H a av mn jn qu) (i) (hN : lvl (.str i) + 2 ≤ N) (st : GSt) :
    gqCall Q N E.fold E.quote (n + 8) (.meth (qbVal a av mn jn qu) c!"visit") [nodeVal (.str i)] (H st) = gOut H (gvisit E (.str i) st) := by
  refine (arm_value rfl).trans ?_
  have hv := fun n h => gl_Value (Q := Q) (n := n) (h := h) (x := (.str i)) (by simp) hN (fold := E.fold) (qt := E.quote)
  have hs := fun h => q_Value (h := h) (x := (.str i)) (by simp)
  cases e : value (.str i) <;> gorun [visLocals, visitAt, after_norm, after_panic, endSwitch_norm, endSwitch_panic, gp_qb, gp_node, gp_buf, b_buf, b_addValue, b_visit, F.sws, F.swr, F.ws, F.w32, F.w40, F.w41, F.w63, same_gErr, gvisit, gOut, GRes.andThen, GRes.alsoWrite, case_value, gVal, hv, hs, valueOut, e, F.add', show ∀ s, (st.write s).vals = st.vals from fun _ => rfl]

theorem gv_null (F : Cbs Q N E H a av mn jn qu)  (hN : lvl .null + 2 ≤ N) (st : GSt) :
    gqCall Q N E.fold E.quote (n + 8) (.meth (qbVal a av mn jn qu) c!"visit") [nodeVal .null] (H st) = gOut H (gvisit E .null st) := by
  refine (arm_value rfl).trans ?_
  have hv := fun n h => gl_Value (Q := Q) (n := n) (h := h) (x := .null) (by simp) hN (fold := E.fold) (qt := E.quote)
  have hs := fun h => q_Value (h := h) (x := .null) (by simp)
  cases e : value .null <;> gorun [visLocals, visitAt, after_norm, after_panic, endSwitch_norm, endSwitch_panic, gp_qb, gp_node, gp_buf, b_buf, b_addValue, b_visit, F.sws, F.swr, F.ws, F.w32, F.w40, F.w41, F.w63, same_gErr, gvisit, gOut, GRes.andThen, GRes.alsoWrite, case_value, gVal, hv, hs, valueOut, e, F.add', show ∀ s, (st.write s).vals = st.vals from fun _ => rfl]

theorem gv_arr (F : Cbs Q N E H a av mn jn qu) (l) (hN : lvl (.arr l) + 2 ≤ N) (st : GSt) :
    gqCall Q N E.fold E.quote (n + 8) (.meth (qbVal a av mn jn qu) c!"visit") [nodeVal (.arr l)] (H st) = gOut H (gvisit E (.arr l) st) := by
  refine (arm_value rfl).trans ?_
  have hv := fun n h => gl_Value (Q := Q) (n := n) (h := h) (x := (.arr l)) (by simp) hN (fold := E.fold) (qt := E.quote)
  have hs := fun h => q_Value (h := h) (x := (.arr l)) (by simp)
  cases e : value (.arr l) <;> gorun [visLocals, visitAt, after_norm, after_panic, endSwitch_norm, endSwitch_panic, gp_qb, gp_node, gp_buf, b_buf, b_addValue, b_visit, F.sws, F.swr, F.ws, F.w32, F.w40, F.w41, F.w63, same_gErr, gvisit, gOut, GRes.andThen, GRes.alsoWrite, case_value, gVal, hv, hs, valueOut, e, F.add', show ∀ s, (st.write s).vals = st.vals from fun _ => rfl]

theorem gv_paren (F : Cbs Q N E H a av mn jn qu) (e) (ih : GBelow Q N E H a av mn jn qu (n + 7) k) (hl : lvl (.paren e) ≤ k) (st : GSt) :
    gqCall Q N E.fold E.quote (n + 8) (.meth (qbVal a av mn jn qu) c!"visit") [nodeVal (.paren e)] (H st) = gOut H (gvisit E (.paren e) st) := by
  refine (arm_parentheses rfl).trans ?_
  rw [lvl] at hl
  have R := ih e (by omega)
  cases er : gvisit E e (st.write c!"(") <;> gorun [visLocals, visitAt, after_norm, after_panic, endSwitch_norm, endSwitch_panic, gp_qb, gp_node, gp_buf, b_buf, b_addValue, b_visit, F.sws, F.swr, F.ws, F.w32, F.w40, F.w41, F.w63, same_gErr, gvisit, gOut, GRes.andThen, GRes.alsoWrite, case_parentheses, case_reference, q_Paren, R, er]

theorem gv_not (F : Cbs Q N E H a av mn jn qu) (e) (ih : GBelow Q N E H a av mn jn qu (n + 7) k) (hl : lvl (.not e) ≤ k) (st : GSt) :
    gqCall Q N E.fold E.quote (n + 8) (.meth (qbVal a av mn jn qu) c!"visit") [nodeVal (.not e)] (H st) = gOut H (gvisit E (.not e) st) := by
  refine (arm_not rfl).trans ?_
  rw [lvl] at hl
  have R := ih e (by omega)
  cases er : gvisit E e (st.write c!"not ") <;> gorun [visLocals, visitAt, after_norm, after_panic, endSwitch_norm, endSwitch_panic, gp_qb, gp_node, gp_buf, b_buf, b_addValue, b_visit, F.sws, F.swr, F.ws, F.w32, F.w40, F.w41, F.w63, same_gErr, gvisit, gOut, GRes.andThen, GRes.alsoWrite, case_not, q_Not, R, er]

theorem gv_pred (F : Cbs Q N E H a av mn jn qu) (l o) (ih : GBelow Q N E H a av mn jn qu (n + 7) k) (hl : lvl (.pred l o) ≤ k) (st : GSt) :
    gqCall Q N E.fold E.quote (n + 8) (.meth (qbVal a av mn jn qu) c!"visit") [nodeVal (.pred l o)] (H st) = gOut H (gvisit E (.pred l o) st) := by
  refine (arm_predicates rfl).trans ?_
  rw [lvl] at hl
  have Rl := ih l (by omega)
  have Ro := ih o (by omega)
  cases el : gvisit E l st with
  | ok s1 => cases eo : gvisit E o (s1.write c!" ") <;> gorun [visLocals, visitAt, after_norm, after_panic, endSwitch_norm, endSwitch_panic, gp_qb, gp_node, gp_buf, b_buf, b_addValue, b_visit, F.sws, F.swr, F.ws, F.w32, F.w40, F.w41, F.w63, same_gErr, gvisit, gOut, GRes.andThen, GRes.alsoWrite, case_compare, q_LeftPred, q_OpPred, q_RightPred, Rl, Ro, el, eo]
  | _ => gorun [visLocals, visitAt, after_norm, after_panic, endSwitch_norm, endSwitch_panic, gp_qb, gp_node, gp_buf, b_buf, b_addValue, b_visit, F.sws, F.swr, F.ws, F.w32, F.w40, F.w41, F.w63, same_gErr, gvisit, gOut, GRes.andThen, GRes.alsoWrite, case_compare, q_LeftPred, q_OpPred, q_RightPred, Rl, el]

set_option maxHeartbeats 800000 in
theorem gv_cmp (F : Cbs Q N E H a av mn jn qu) (l o r) (ih : GBelow Q N E H a av mn jn qu (n + 7) k) (hl : lvl (.cmp l o r) ≤ k) (st : GSt) :
    gqCall Q N E.fold E.quote (n + 8) (.meth (qbVal a av mn jn qu) c!"visit") [nodeVal (.cmp l o r)] (H st) = gOut H (gvisit E (.cmp l o r) st) := by
  refine (arm_compare rfl).trans ?_
  rw [lvl] at hl
  have Rl := ih l (by omega)
  have Ro := ih o (by omega)
  have Rr := ih r (by omega)
  by_cases hr : r = .nil
  · subst hr
    have e0 : nodeVal .nil = .nil := by rw [nodeVal]
    cases el : gvisit E l st with
    | ok s1 => cases eo : gvisit E o (s1.write c!" ") <;> gorun [visLocals, visitAt, after_norm, after_panic, endSwitch_norm, endSwitch_panic, gp_qb, gp_node, gp_buf, b_buf, b_addValue, b_visit, F.sws, F.swr, F.ws, F.w32, F.w40, F.w41, F.w63, same_gErr, gvisit, gOut, GRes.andThen, GRes.alsoWrite, case_compare, q_LeftCmp, q_OpCmp, q_RightCmp, Rl, Ro, el, eo, e0]
    | _ => gorun [visLocals, visitAt, after_norm, after_panic, endSwitch_norm, endSwitch_panic, gp_qb, gp_node, gp_buf, b_buf, b_addValue, b_visit, F.sws, F.swr, F.ws, F.w32, F.w40, F.w41, F.w63, same_gErr, gvisit, gOut, GRes.andThen, GRes.alsoWrite, case_compare, q_LeftCmp, q_OpCmp, q_RightCmp, Rl, el, e0]
  · have e0 : same (nodeVal r) .nil = some false := by
      obtain ⟨fs, e⟩ := structOf_node hr
      rw [e]; rfl
    have e1 : gvisit E (.cmp l o r) st =
        ((gvisit E l st).andThen fun st => gvisit E o (st.write c!" ")).andThen fun st => gvisit E r (st.write c!" ") := by
      cases r <;> first | exact absurd rfl hr | simp only [gvisit]
    rw [e1]
    cases el : gvisit E l st with
    | ok s1 =>
      cases eo : gvisit E o (s1.write c!" ") with
      | ok s2 => cases er : gvisit E r (s2.write c!" ") <;> gorun [visLocals, visitAt, after_norm, after_panic, endSwitch_norm, endSwitch_panic, gp_qb, gp_node, gp_buf, b_buf, b_addValue, b_visit, F.sws, F.swr, F.ws, F.w32, F.w40, F.w41, F.w63, same_gErr, gvisit, gOut, GRes.andThen, GRes.alsoWrite, case_compare, q_LeftCmp, q_OpCmp, q_RightCmp, Rl, Ro, Rr, el, eo, er, e0]
      | _ => gorun [visLocals, visitAt, after_norm, after_panic, endSwitch_norm, endSwitch_panic, gp_qb, gp_node, gp_buf, b_buf, b_addValue, b_visit, F.sws, F.swr, F.ws, F.w32, F.w40, F.w41, F.w63, same_gErr, gvisit, gOut, GRes.andThen, GRes.alsoWrite, case_compare, q_LeftCmp, q_OpCmp, q_RightCmp, Rl, Ro, Rr, el, eo, e0]
    | _ => gorun [visLocals, visitAt, after_norm, after_panic, endSwitch_norm, endSwitch_panic, gp_qb, gp_node, gp_buf, b_buf, b_addValue, b_visit, F.sws, F.swr, F.ws, F.w32, F.w40, F.w41, F.w63, same_gErr, gvisit, gOut, GRes.andThen, GRes.alsoWrite, case_compare, q_LeftCmp, q_OpCmp, q_RightCmp, Rl, el, e0]

set_option maxHeartbeats 800000 in
theorem gv_logic (F : Cbs Q N E H a av mn jn qu) (l o r) (ih : GBelow Q N E H a av mn jn qu (n + 7) k) (hl : lvl (.logic l o r) ≤ k) (st : GSt) :
    gqCall Q N E.fold E.quote (n + 8) (.meth (qbVal a av mn jn qu) c!"visit") [nodeVal (.logic l o r)] (H st) = gOut H (gvisit E (.logic l o r) st) := by
  refine (arm_logic rfl).trans ?_
  rw [lvl] at hl
  have Rl := ih l (by omega)
  have Ro := ih o (by omega)
  have Rr := ih r (by omega)
  by_cases hr : r = .nil
  · subst hr
    have e0 : nodeVal .nil = .nil := by rw [nodeVal]
    cases el : gvisit E l st with
    | ok s1 => cases eo : gvisit E o (s1.write c!" ") <;> gorun [visLocals, visitAt, after_norm, after_panic, endSwitch_norm, endSwitch_panic, gp_qb, gp_node, gp_buf, b_buf, b_addValue, b_visit, F.sws, F.swr, F.ws, F.w32, F.w40, F.w41, F.w63, same_gErr, gvisit, gOut, GRes.andThen, GRes.alsoWrite, case_compare, q_LeftLogic, q_OpLogic, q_RightLogic, Rl, Ro, el, eo, e0]
    | _ => gorun [visLocals, visitAt, after_norm, after_panic, endSwitch_norm, endSwitch_panic, gp_qb, gp_node, gp_buf, b_buf, b_addValue, b_visit, F.sws, F.swr, F.ws, F.w32, F.w40, F.w41, F.w63, same_gErr, gvisit, gOut, GRes.andThen, GRes.alsoWrite, case_compare, q_LeftLogic, q_OpLogic, q_RightLogic, Rl, el, e0]
  · have e0 : same (nodeVal r) .nil = some false := by
      obtain ⟨fs, e⟩ := structOf_node hr
      rw [e]; rfl
    have e1 : gvisit E (.logic l o r) st =
        ((gvisit E l st).andThen fun st => gvisit E o (st.write c!" ")).andThen fun st => gvisit E r (st.write c!" ") := by
      cases r <;> first | exact absurd rfl hr | simp only [gvisit]
    rw [e1]
    cases el : gvisit E l st with
    | ok s1 =>
      cases eo : gvisit E o (s1.write c!" ") with
      | ok s2 => cases er : gvisit E r (s2.write c!" ") <;> gorun [visLocals, visitAt, after_norm, after_panic, endSwitch_norm, endSwitch_panic, gp_qb, gp_node, gp_buf, b_buf, b_addValue, b_visit, F.sws, F.swr, F.ws, F.w32, F.w40, F.w41, F.w63, same_gErr, gvisit, gOut, GRes.andThen, GRes.alsoWrite, case_compare, q_LeftLogic, q_OpLogic, q_RightLogic, Rl, Ro, Rr, el, eo, er, e0]
      | _ => gorun [visLocals, visitAt, after_norm, after_panic, endSwitch_norm, endSwitch_panic, gp_qb, gp_node, gp_buf, b_buf, b_addValue, b_visit, F.sws, F.swr, F.ws, F.w32, F.w40, F.w41, F.w63, same_gErr, gvisit, gOut, GRes.andThen, GRes.alsoWrite, case_compare, q_LeftLogic, q_OpLogic, q_RightLogic, Rl, Ro, Rr, el, eo, e0]
    | _ => gorun [visLocals, visitAt, after_norm, after_panic, endSwitch_norm, endSwitch_panic, gp_qb, gp_node, gp_buf, b_buf, b_addValue, b_visit, F.sws, F.swr, F.ws, F.w32, F.w40, F.w41, F.w63, same_gErr, gvisit, gOut, GRes.andThen, GRes.alsoWrite, case_compare, q_LeftLogic, q_OpLogic, q_RightLogic, Rl, el, e0]

set_option maxHeartbeats 800000 in
theorem gv_between (F : Cbs Q N E H a av mn jn qu) (l o x y) (ih : GBelow Q N E H a av mn jn qu (n + 7) k) (hl : lvl (.between l o x y) ≤ k) (st : GSt) :
    gqCall Q N E.fold E.quote (n + 8) (.meth (qbVal a av mn jn qu) c!"visit") [nodeVal (.between l o x y)] (H st) = gOut H (gvisit E (.between l o x y) st) := by
  refine (arm_between rfl).trans ?_
  rw [lvl] at hl
  have Rl := ih l (by omega)
  have Ro := ih o (by omega)
  have Rx := ih x (by omega)
  have Ry := ih y (by omega)
  cases el : gvisit E l st with
  | ok s1 =>
    cases eo : gvisit E o (s1.write c!" ") with
    | ok s2 =>
      cases ex : gvisit E x (s2.write c!" ") with
      | ok s3 => cases ey : gvisit E y (s3.write c!" and ") <;> gorun [visLocals, visitAt, after_norm, after_panic, endSwitch_norm, endSwitch_panic, gp_qb, gp_node, gp_buf, b_buf, b_addValue, b_visit, F.sws, F.swr, F.ws, F.w32, F.w40, F.w41, F.w63, same_gErr, gvisit, gOut, GRes.andThen, GRes.alsoWrite, case_between, q_LeftBetween, q_OpBetween, q_ParamsBetween, Rl, Ro, Rx, Ry, el, eo, ex, ey]
      | _ => gorun [visLocals, visitAt, after_norm, after_panic, endSwitch_norm, endSwitch_panic, gp_qb, gp_node, gp_buf, b_buf, b_addValue, b_visit, F.sws, F.swr, F.ws, F.w32, F.w40, F.w41, F.w63, same_gErr, gvisit, gOut, GRes.andThen, GRes.alsoWrite, case_between, q_LeftBetween, q_OpBetween, q_ParamsBetween, Rl, Ro, Rx, el, eo, ex]
    | _ => gorun [visLocals, visitAt, after_norm, after_panic, endSwitch_norm, endSwitch_panic, gp_qb, gp_node, gp_buf, b_buf, b_addValue, b_visit, F.sws, F.swr, F.ws, F.w32, F.w40, F.w41, F.w63, same_gErr, gvisit, gOut, GRes.andThen, GRes.alsoWrite, case_between, q_LeftBetween, q_OpBetween, q_ParamsBetween, Rl, Ro, el, eo]
  | _ => gorun [visLocals, visitAt, after_norm, after_panic, endSwitch_norm, endSwitch_panic, gp_qb, gp_node, gp_buf, b_buf, b_addValue, b_visit, F.sws, F.swr, F.ws, F.w32, F.w40, F.w41, F.w63, same_gErr, gvisit, gOut, GRes.andThen, GRes.alsoWrite, case_between, q_LeftBetween, q_OpBetween, q_ParamsBetween, Rl, el]

/-- The variables in the loop of `visitFunction`. -/
def fnLocals (a : Nat) (av mn jn qu : Val) (x : Node) (e : Val) : Locals :=
  [(c!"visit", .val (.meth (qbVal a av mn jn qu) c!"visit")), (c!"buf", .val (.ptr a)), (c!"err", .val e), (c!"node", .val (nodeVal x)),
    (c!"qb", .val (qbVal a av mn jn qu))]

/-- What the loop of `visitFunction` does. -/
def loopOut (H : GSt → Heap) (l : Val → Locals) : GRes → Done
  | .panic => .panic
  | .ok st => .ok (.norm, l .nil, H st)
  | .err e st => .ok (.bare, l (gErrVal e), H st)

theorem loop_visitL (body : Nat → Val → Locals → Heap → Done) (lo : Val → Locals) (l : List Node)
    (hb : ∀ i, ∀ x ∈ l, ∀ st, body i (nodeVal x) (lo .nil) (H st) = loopOut H lo (gvisit E x st)) (i : Nat) (st : GSt) :
    loop body i (nodeVals l) (lo .nil) (H st) = loopOut H lo (gvisitL E l st) := by
  induction l generalizing i st with
  | nil => rfl
  | cons x l ih =>
    have ih := ih fun i y hy => hb i y (by simp [hy])
    rw [nodeVals, loop, hb _ x (by simp), gvisitL]
    cases gvisit E x st with
    | ok st' => exact ih _ _
    | _ => rfl

theorem visitFunction_run (F : Cbs Q N E H a av mn jn qu) (f l) (ih : GBelow Q N E H a av mn jn qu (n + 6) k) (hl : lvl (.func f l) ≤ k) (st : GSt) :
    gqCall Q N E.fold E.quote (n + 7) (.meth (qbVal a av mn jn qu) c!"visitFunction") [nodeVal (.func f l)] (H st) = gOut H (gvisit E (.func f l) st) := by
  refine (visitFunction_enter _).trans ?_
  rw [lvl] at hl
  by_cases hf : f = c!"date"
  · subst hf
    have hl := loop_visitL (E := E) (H := H) (rangeBody [] c!"_" c!"v" (execs gq (gqCall Q N E.fold E.quote (n + 6)) [] (loopOf (nth (caseAt (swOf (nth gormqueryBuildervisitFunction 2)) 0) 2))))
      (fnLocals a av mn jn qu (.func c!"date" l)) l (by
        intro i x hx st
        have R := ih x (by have := lvl_mem hx; omega) st
        cases ex : gvisit E x st <;> rw [ex] at R <;>
        gorun [gormqueryBuildervisitFunction, nth, swOf, caseAt, loopOf, rangeBody, fnLocals, R, gOut, loopOut, same_gErr])
    simp only [gormqueryBuildervisitFunction, nth, swOf, caseAt, loopOf, fnLocals] at hl
    cases ev : gvisitL E l ((st.write c!"date").write c!"(") <;> gorun [gormqueryBuildervisitFunction, execSwitch, execFrom, anySame, endSwitch, gp_qb, gp_node, gp_buf, gp_fmt, b_buf, b_visit, F.sws, F.swr, F.ws, q_NameFunc, q_ParamsFunc, gg_fmtErrorf, gl_fmtErrorf, gErrVal, gvisit, gOut, GRes.andThen, hl, ev, loopOut, fnLocals]
  · gorun [gormqueryBuildervisitFunction, execSwitch, execFrom, anySame, endSwitch, gp_qb, gp_node, gp_buf, gp_fmt, b_buf, b_visit, F.sws, F.swr, F.ws, q_NameFunc, q_ParamsFunc, gg_fmtErrorf, gl_fmtErrorf, gErrVal, gvisit, gOut, GRes.andThen, hf]

theorem gv_func (F : Cbs Q N E H a av mn jn qu) (f l) (ih : GBelow Q N E H a av mn jn qu (n + 6) k) (hl : lvl (.func f l) ≤ k) (st : GSt) :
    gqCall Q N E.fold E.quote (n + 8) (.meth (qbVal a av mn jn qu) c!"visit") [nodeVal (.func f l)] (H st) = gOut H (gvisit E (.func f l) st) := by
  refine (arm_function rfl).trans ?_
  have hr := visitFunction_run F f l ih hl st
  generalize gvisit E (.func f l) st = r at hr ⊢
  cases r <;> gorun [visLocals, visitAt, after_norm, after_panic, endSwitch_norm, endSwitch_panic, gp_qb, gp_node, gp_buf, b_buf, b_addValue, b_visit, F.sws, F.swr, F.ws, F.w32, F.w40, F.w41, F.w63, same_gErr, gvisit, gOut, GRes.andThen, GRes.alsoWrite, case_function, b_visitFunction, hr]

/-- Running `visit`. -/
theorem gvisit_run (F : Cbs Q N E H a av mn jn qu) (k : Nat) : ∀ x : Node, lvl x ≤ k → lvl x + 2 ≤ N → ∀ n, 2 * k ≤ n → ∀ st,
    gqCall Q N E.fold E.quote (n + 8) (.meth (qbVal a av mn jn qu) c!"visit") [nodeVal x] (H st) = gOut H (gvisit E x st) := by
  induction k using Nat.strongRecOn with
  | _ k ih =>
    intro x hx hN n hn st
    have i7 : GBelow Q N E H a av mn jn qu (n + 7) (lvl x) := by
      intro y hy st
      obtain ⟨n, rfl⟩ : ∃ n', n = n' + 1 := ⟨n - 1, by omega⟩
      exact ih (lvl y) (by omega) y (Nat.le_refl _) (by omega) n (by omega) st
    have i6 : GBelow Q N E H a av mn jn qu (n + 6) (lvl x) := by
      intro y hy st
      obtain ⟨n, rfl⟩ : ∃ n', n = n' + 2 := ⟨n - 2, by omega⟩
      exact ih (lvl y) (by omega) y (Nat.le_refl _) (by omega) n (by omega) st
    cases x with
    | nil => exact gv_nil st
    | int i => exact gv_int F i hN st
    | bool i => exact gv_bool F i hN st
    | str i => exact gv_str F i hN st
    | null => exact gv_null F hN st
    | arr l => exact gv_arr F l hN st
    | op o => exact gv_op F o st
    | ident x => exact gv_ident F x st
    | ref x => exact gv_ref F x st
    | pred l o => exact gv_pred F l o i7 (Nat.le_refl _) st
    | cmp l o r => exact gv_cmp F l o r i7 (Nat.le_refl _) st
    | logic l o r => exact gv_logic F l o r i7 (Nat.le_refl _) st
    | paren e => exact gv_paren F e i7 (Nat.le_refl _) st
    | not e => exact gv_not F e i7 (Nat.le_refl _) st
    | between l o x y => exact gv_between F l o x y i7 (Nat.le_refl _) st
    | func f l => exact gv_func F f l i6 (Nat.le_refl _) st

end Verif.Mini
