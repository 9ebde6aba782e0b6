import Verif.Mini.SqLib

/-! # Running /repo/entmq/entsql.go: `visit`, but for `has_edge` -/

namespace Verif.Mini
open Verif

set_option linter.unusedSimpArgs false

variable {Q : Char → Bool} {N n k kk D m e : Nat} {h g g0 g' : Heap} {L : Lib} {p : SPar} {S : Sit} {mb : MB} {Z : Sch} {args : List Val}

theorem sq_Type {a : Node} (ha : a ≠ .nil) : select sqp (nodeVal a) c!"Type" h = .ok ([.str (tyName a)], h) := by
  cases a <;> first | exact absurd rfl ha | rfl
theorem sq_ValueType {a : Node} (ha : a ≠ .nil) : select sqp (nodeVal a) c!"ValueType" h = .ok ([.str (vtName a)], h) := by
  cases a <;> first | exact absurd rfl ha | rfl
theorem sq_Value {x : Node} (hx : x ≠ .nil) : select sqp (nodeVal x) c!"Value" h = .ok ([.meth (nodeVal x) c!"Value"], h) := by
  cases x <;> first | exact absurd rfl hx | rfl
theorem sq_Oper {o : Node} (ho : o ≠ .nil) : select sqp (nodeVal o) c!"Operation" h = .ok ([.str ((operation o).getD [])], h) := by
  cases o <;> first | exact absurd rfl ho | rfl
theorem sq_NameFunc (x l) : select sqp (nodeVal (.func x l)) c!"Name" h = .ok ([.str x], h) := rfl
theorem sq_NameIdent (x) : select sqp (nodeVal (.ident x)) c!"Name" h = .ok ([.str x], h) := rfl
theorem sq_Paren (x) : select sqp (nodeVal (.paren x)) c!"Expression" h = .ok ([nodeVal x], h) := rfl
theorem sq_Not (x) : select sqp (nodeVal (.not x)) c!"Expression" h = .ok ([nodeVal x], h) := rfl
theorem sq_LeftPred (l o) : select sqp (nodeVal (.pred l o)) c!"Left" h = .ok ([nodeVal l], h) := rfl
theorem sq_OpPred (l o) : select sqp (nodeVal (.pred l o)) c!"Op" h = .ok ([nodeVal o], h) := rfl
theorem sq_LeftCmp (l o r) : select sqp (nodeVal (.cmp l o r)) c!"Left" h = .ok ([nodeVal l], h) := rfl
theorem sq_OpCmp (l o r) : select sqp (nodeVal (.cmp l o r)) c!"Op" h = .ok ([nodeVal o], h) := rfl
theorem sq_RightCmp (l o r) : select sqp (nodeVal (.cmp l o r)) c!"Right" h = .ok ([nodeVal r], h) := rfl
theorem sq_LeftLogic (l o r) : select sqp (nodeVal (.logic l o r)) c!"Left" h = .ok ([nodeVal l], h) := rfl
theorem sq_OpLogic (l o r) : select sqp (nodeVal (.logic l o r)) c!"Op" h = .ok ([nodeVal o], h) := rfl
theorem sq_RightLogic (l o r) : select sqp (nodeVal (.logic l o r)) c!"Right" h = .ok ([nodeVal r], h) := rfl
theorem sq_LeftBetween (l o a b) : select sqp (nodeVal (.between l o a b)) c!"Left" h = .ok ([nodeVal l], h) := rfl
theorem sq_OpBetween (l o a b) : select sqp (nodeVal (.between l o a b)) c!"Op" h = .ok ([nodeVal o], h) := rfl
theorem sq_ParamsBetween (l o a b) : select sqp (nodeVal (.between l o a b)) c!"Params" h = .ok ([.slice [nodeVal a, nodeVal b]], h) := rfl
theorem sq_ParamsFunc (x l) : select sqp (nodeVal (.func x l)) c!"Params" h = .ok ([.slice (nodeVals l)], h) := rfl

theorem sp_mb : findPkg c!"mb" sqp.decls = false := rfl
theorem sp_node : findPkg c!"node" sqp.decls = false := rfl
theorem sp_s : findPkg c!"s" sqp.decls = false := rfl
theorem sp_errors : findPkg c!"errors" sqp.decls = true := rfl
theorem sp_miniquery : findPkg c!"miniquery" sqp.decls = true := rfl
theorem sp_xstrings : findPkg c!"xstrings" sqp.decls = true := rfl
theorem sp_strings : findPkg c!"strings" sqp.decls = true := rfl
theorem sp_sql : findPkg c!"sql" sqp.decls = true := rfl

theorem sg_ArrayValueType : call sqp L (n + 1) (.glob c!"miniquery.ArrayValueType") [] h = .ok ([.str c!"array"], h) := rfl
theorem sg_NotBetween : call sqp L (n + 1) (.glob c!"miniquery.OpNotBetween") [] h = .ok ([.str c!"not between"], h) := rfl
theorem sg_NotLike : call sqp L (n + 1) (.glob c!"miniquery.OpNotLike") [] h = .ok ([.str c!"not like"], h) := rfl
theorem sg_And : call sqp L (n + 1) (.glob c!"miniquery.OpAnd") [] h = .ok ([.str c!"and"], h) := rfl
theorem sg_Or : call sqp L (n + 1) (.glob c!"miniquery.OpOr") [] h = .ok ([.str c!"or"], h) := rfl
theorem sg_Errorf : call sqp L (n + 1) (.glob c!"errors.Errorf") [] h = .ok ([.lib c!"errors.Errorf"], h) := rfl
theorem sg_New : call sqp L (n + 1) (.glob c!"errors.New") [] h = .ok ([.lib c!"errors.New"], h) := rfl
theorem sg_Snake : call sqp L (n + 1) (.glob c!"xstrings.ToSnakeCase") [] h = .ok ([.lib c!"xstrings.ToSnakeCase"], h) := rfl
theorem sg_Upper : call sqp L (n + 1) (.glob c!"strings.ToUpper") [] h = .ok ([.lib c!"strings.ToUpper"], h) := rfl
theorem sg_argWithCast : call sqp L (n + 1) (.glob c!"argWithCast") [] h = .ok ([.fn c!"argWithCast"], h) := rfl
theorem sg_GTE : call sqp L (n + 1) (.glob c!"sql.OpGTE") [] h = .ok ([.lib c!"sql.OpGTE"], h) := rfl
theorem sg_LTE : call sqp L (n + 1) (.glob c!"sql.OpLTE") [] h = .ok ([.lib c!"sql.OpLTE"], h) := rfl
theorem sg_LT : call sqp L (n + 1) (.glob c!"sql.OpLT") [] h = .ok ([.lib c!"sql.OpLT"], h) := rfl
theorem sg_GT : call sqp L (n + 1) (.glob c!"sql.OpGT") [] h = .ok ([.lib c!"sql.OpGT"], h) := rfl

theorem sl_Errorf (f args) : sqCall Q N D p k (n + 1) (.lib c!"errors.Errorf") (.str f :: args) h = .ok ([errCall c!"errors.Errorf" f args], h) := rfl
theorem sl_New (f args) : sqCall Q N D p k (n + 1) (.lib c!"errors.New") (.str f :: args) h = .ok ([errCall c!"errors.New" f args], h) := rfl
theorem sl_Snake (x) : sqCall Q N D p k (n + 1) (.lib c!"xstrings.ToSnakeCase") [.str x] h = .ok ([.str (p.snake x)], h) := rfl
theorem sl_Upper (x : Str) : sqCall Q N D p k (n + 1) (.lib c!"strings.ToUpper") [.str x] h = .ok ([.str (x.map Char.toUpper)], h) := rfl
theorem sl_slice (l) : sqCall Q N D p k (n + 1) (.lib c!".([]interface)") [.slice l] h = .ok ([.slice l], h) := rfl

/-- The operators of `entsqlOpMap`, their names in ent, and what `WriteOp` writes. -/
def opTriples : List (Str × Str × Str) :=
  [(c!"eq", c!"sql.OpEQ", c!" = "), (c!"neq", c!"sql.OpNEQ", c!" <> "), (c!"gt", c!"sql.OpGT", c!" > "), (c!"gte", c!"sql.OpGTE", c!" >= "),
   (c!"lt", c!"sql.OpLT", c!" < "), (c!"lte", c!"sql.OpLTE", c!" <= "), (c!"in", c!"sql.OpIn", c!" IN "), (c!"not in", c!"sql.OpNotIn", c!" NOT IN "),
   (c!"like", c!"sql.OpLike", c!" LIKE "), (c!"is null", c!"sql.OpIsNull", c!" IS NULL"), (c!"is not null", c!"sql.OpNotNull", c!" IS NOT NULL")]

/-- The operators of `entsqlOpMap`. -/
def opPairs : List (Str × Str) := opTriples.map fun t => (t.1, t.2.1)

theorem sg_OpMap : call sqp L (n + 2) (.glob c!"entsqlOpMap") [] h = .ok ([.map .nil (opPairs.map fun kv => (kv.1, .lib kv.2))], h) := rfl

theorem triple_lookup (w : Str) : ∀ l : List (Str × Str × Str), (∀ t ∈ l, sqlOps'.lookup t.2.1 = some t.2.2) →
    ((l.map fun t => (t.1, t.2.2)).lookup w = none ∧ (l.map fun t => (t.1, t.2.1)).lookup w = none) ∨
    ∃ o t, (l.map fun t => (t.1, t.2.2)).lookup w = some t ∧ (l.map fun t => (t.1, t.2.1)).lookup w = some o ∧ sqlOps'.lookup o = some t
  | [], _ => .inl ⟨rfl, rfl⟩
  | (a, o, t) :: l, hl => by
    simp only [List.map_cons, List.lookup_cons]
    cases e : w == a with
    | true => exact .inr ⟨o, t, rfl, rfl, hl (a, o, t) (by simp)⟩
    | false => exact triple_lookup w l fun t ht => hl t (by simp [ht])

theorem op_lookup (w : Str) : (entsqlOps.lookup w = none ∧ opPairs.lookup w = none) ∨
    ∃ o t, entsqlOps.lookup w = some t ∧ opPairs.lookup w = some o ∧ sqlOps'.lookup o = some t :=
  triple_lookup w opTriples (by decide)

theorem write_write (a b : Str) : (mb.write a).write b = mb.write (a ++ b) := by
  unfold MB.write; rw [put_compose]; congr 1; funext b; simp [Bld.write]

theorem sErr_unexpectedOp (o) : sErrVal (.unexpectedOp o) = errCall c!"errors.Errorf" c!"unexpected op %q" [.str o] := rfl

theorem same_sErr (e : SErr) : same (sErrVal e) .nil = some false := by cases e with | parse e => cases e <;> rfl | _ => rfl

/-- The variables of `visit` that live in memory. -/
def vcaps : List Str := capSs false entsqlMiniQLToEntSQLBuildervisit

theorem vc_visit : (c!"visit" ∈ vcaps) = False := by decide
theorem vc_s : (c!"s" ∈ vcaps) = False := by decide
theorem vc_op : (c!"op" ∈ vcaps) = False := by decide
theorem vc_found : (c!"found" ∈ vcaps) = False := by decide
theorem vc_lo : (c!"lo" ∈ vcaps) = False := by decide
theorem vc_ro : (c!"ro" ∈ vcaps) = False := by decide
theorem vc_tab : (c!"tab" ∈ vcaps) = False := by decide
theorem vc_ok : (c!"ok" ∈ vcaps) = False := by decide
theorem vc_rv : (c!"rv" ∈ vcaps) = False := by decide
theorem vc_rf : (c!"rf" ∈ vcaps) = False := by decide
theorem vc_p : (c!"p" ∈ vcaps) = False := by decide
theorem vc_params : (c!"params" ∈ vcaps) = True := by decide
theorem vc_builder : (c!"builder" ∈ vcaps) = True := by decide
theorem vc_edge : (c!"edge" ∈ vcaps) = True := by decide
theorem vc_mb : (c!"mb" ∈ vcaps) = True := by decide
theorem vc_err : (c!"err" ∈ vcaps) = True := by decide

/-- The clauses of the switch in `visit`. -/
def svisitCases : Cases := swOf (nth entsqlMiniQLToEntSQLBuildervisit 3)

/-- What follows the body of a clause. -/
def sAfter (C : Val → List Val → Heap → Vals) (i : Nat) : Done → Done
  | .ok (.fall, l, h) => execFrom sqp C vcaps (dropCases (i + 1) svisitCases) l h
  | r => r

theorem safter_norm {C : Val → List Val → Heap → Vals} {i l} : sAfter C i (.ok (.norm, l, h)) = .ok (.norm, l, h) := rfl
theorem safter_ret {C : Val → List Val → Heap → Vals} {i l vs} : sAfter C i (.ok (.ret vs, l, h)) = .ok (.ret vs, l, h) := rfl
theorem safter_panic {C : Val → List Val → Heap → Vals} {i} : sAfter C i .panic = .panic := rfl

/-- The variables in the cases of `visit`. -/
def sLocals (S : Sit) (m e : Nat) (x : Node) : Locals :=
  [(c!"s", .val (.ptr S.s)), (c!"visit", .val (.meth (.ptr S.a) c!"visit")), (c!"err", .box e), (c!"node", .val (nodeVal x)), (c!"mb", .box m)]

/-- The case of `visit` at a position. -/
def sVisitAt (C : Val → List Val → Heap → Vals) (i : Nat) (b : Stmts) (l : Locals) (h : Heap) : Vals :=
  finish [c!"err"] (next (endSwitch (sAfter C i (leave 5 (execs sqp C vcaps b 5 l h)))) fun l h =>
    execs sqp C vcaps (.cons (.ret (.cons (.id c!"err") .nil)) .nil) 0 l h)

/-- The case of `visit` for the type `operation`. -/
def scase_operation : Stmts := (.cons (.ret (.cons (.call (.sel (.id c!"errors") c!"Errorf") (.cons (.str c!"unexpected op node: %q") (.cons (.id c!"node") .nil)) false) .nil))
  .nil)

/-- The case of `visit` for the type `value`. -/
def scase_value : Stmts := (.cons (.ite .nil (.bin c!"==" (.sel (.id c!"node") c!"ValueType") (.sel (.id c!"miniquery") c!"ArrayValueType")) (.cons (.expr (.call (.sel (.id c!"s") c!"WriteString") (.cons (.str c!"(") .nil) false))
  (.cons (.expr (.call (.sel (.id c!"s") c!"Args") (.cons (.cast (.call (.sel (.id c!"node") c!"Value") .nil false) (.arr (.id c!"interface"))) .nil) true))
  (.cons (.expr (.call (.sel (.id c!"s") c!"WriteString") (.cons (.str c!")") .nil) false))
  .nil))) (.cons (.ite .nil (.sel (.id c!"mb") c!"DisableTypeCasting") (.cons (.expr (.call (.sel (.id c!"s") c!"Arg") (.cons (.call (.sel (.id c!"node") c!"Value") .nil false) .nil) false))
  .nil) (.cons (.expr (.call (.sel (.id c!"s") c!"Arg") (.cons (.call (.id c!"argWithCast") (.cons (.call (.sel (.id c!"node") c!"Value") .nil false) .nil) false) .nil) false))
  .nil))
  .nil))
  .nil)

/-- The case of `visit` for the type `identifier`. -/
def scase_identifier : Stmts := (.cons (.expr (.call (.sel (.id c!"s") c!"Ident") (.cons (.call (.sel (.id c!"xstrings") c!"ToSnakeCase") (.cons (.sel (.id c!"node") c!"Name") .nil) false) .nil) false))
  .nil)

/-- The case of `visit` for the type `parentheses`. -/
def scase_parentheses : Stmts := (.cons (.expr (.call (.sel (.id c!"s") c!"WriteString") (.cons (.str c!"(") .nil) false))
  (.cons (.assign (.cons (.id c!"err") .nil) (.cons (.call (.id c!"visit") (.cons (.sel (.id c!"node") c!"Expression") .nil) false) .nil))
  (.cons (.expr (.call (.sel (.id c!"s") c!"WriteString") (.cons (.str c!")") .nil) false))
  .nil)))

/-- The case of `visit` for the type `not`. -/
def scase_not : Stmts := (.cons (.expr (.call (.sel (.id c!"s") c!"WriteString") (.cons (.str c!"NOT ") .nil) false))
  (.cons (.assign (.cons (.id c!"err") .nil) (.cons (.call (.id c!"visit") (.cons (.sel (.id c!"node") c!"Expression") .nil) false) .nil))
  .nil))

/-- The case of `visit` for the type `function`. -/
def scase_function : Stmts := (.cons (.switch (.sel (.id c!"node") c!"Name") (.case (.cons (.str c!"date") .nil) (.cons (.expr (.call (.sel (.id c!"s") c!"WriteString") (.cons (.str c!"DATE(") .nil) false))
  (.cons (.assign (.cons (.id c!"err") .nil) (.cons (.call (.sel (.id c!"mb") c!"visit") (.cons (.idx (.sel (.id c!"node") c!"Params") (.int 0)) .nil) false) .nil))
  (.cons (.expr (.call (.sel (.id c!"s") c!"WriteString") (.cons (.str c!")") .nil) false))
  .nil)))
  (.case (.cons (.str c!"has_edge") .nil) (.cons (.define [c!"params"] (.cons (.sel (.id c!"node") c!"Params") .nil))
  (.cons (.ite .nil (.bin c!"||" (.bin c!"==" (.call (.id c!"len") (.cons (.id c!"params") .nil) false) (.int 0)) (.bin c!"==" (.sel (.idx (.id c!"params") (.int 0)) c!"Name") (.str c!""))) (.cons (.assign (.cons (.id c!"err") .nil) (.cons (.call (.sel (.id c!"errors") c!"New") (.cons (.str c!"关联参数错误") .nil) false) .nil))
  (.cons .brk
  .nil)) .nil)
  (.cons (.define [c!"tab"] (.cons (.sel (.id c!"mb") c!"Node") .nil))
  (.cons (.define [c!"builder"] (.cons (.call (.sel (.call (.sel (.call (.sel (.id c!"sql") c!"Dialect") (.cons (.call (.sel (.id c!"mb") c!"Dialect") .nil false) .nil) false) c!"Select") .nil false) c!"From") (.cons (.call (.sel (.call (.sel (.id c!"sql") c!"Table") (.cons (.sel (.id c!"tab") c!"Table") .nil) false) c!"Schema") (.cons (.sel (.id c!"tab") c!"Schema") .nil) false) .nil) false) .nil))
  (.cons (.define [c!"edge", c!"ok"] (.cons (.idx (.sel (.id c!"tab") c!"Edges") (.sel (.idx (.id c!"params") (.int 0)) c!"Name")) .nil))
  (.cons (.ite .nil (.un c!"!" (.id c!"ok")) (.cons (.assign (.cons (.id c!"err") .nil) (.cons (.call (.sel (.id c!"errors") c!"Errorf") (.cons (.str c!"不存在关联: %q") (.cons (.sel (.idx (.id c!"params") (.int 0)) c!"Name") .nil)) false) .nil))
  (.cons .brk
  .nil)) .nil)
  (.cons (.switch (.call (.id c!"len") (.cons (.id c!"params") .nil) false) (.case (.cons (.int 1) .nil) (.cons (.expr (.call (.sel (.id c!"sqlgraph") c!"HasNeighbors") (.cons (.id c!"builder") (.cons (.call (.sel (.id c!"sqlgraph") c!"NewStep") (.cons (.call (.sel (.id c!"sqlgraph") c!"From") (.cons (.sel (.id c!"tab") c!"Table") (.cons (.sel (.sel (.id c!"tab") c!"ID") c!"Column") .nil)) false) (.cons (.call (.sel (.id c!"sqlgraph") c!"To") (.cons (.sel (.sel (.id c!"edge") c!"To") c!"Table") (.cons (.sel (.sel (.sel (.id c!"edge") c!"To") c!"ID") c!"Column") .nil)) false) (.cons (.call (.sel (.id c!"sqlgraph") c!"Edge") (.cons (.sel (.sel (.id c!"edge") c!"Spec") c!"Rel") (.cons (.sel (.sel (.id c!"edge") c!"Spec") c!"Inverse") (.cons (.sel (.sel (.id c!"edge") c!"Spec") c!"Table") (.cons (.sel (.sel (.id c!"edge") c!"Spec") c!"Columns") .nil)))) true) .nil))) false) .nil)) false))
  .nil)
  (.case (.cons (.int 2) .nil) (.cons (.ite .nil (.un c!"!" (.call (.sel (.idx (.id c!"params") (.int 1)) c!"IsExpression") .nil false)) (.cons (.assign (.cons (.id c!"err") .nil) (.cons (.call (.sel (.id c!"errors") c!"Errorf") (.cons (.str c!"关联条件错误: %q") (.cons (.call (.sel (.idx (.id c!"params") (.int 1)) c!"String") .nil false) .nil)) false) .nil))
  (.cons .brk
  .nil)) .nil)
  (.cons (.expr (.call (.sel (.id c!"sqlgraph") c!"HasNeighborsWith") (.cons (.id c!"builder") (.cons (.call (.sel (.id c!"sqlgraph") c!"NewStep") (.cons (.call (.sel (.id c!"sqlgraph") c!"From") (.cons (.sel (.id c!"tab") c!"Table") (.cons (.sel (.sel (.id c!"tab") c!"ID") c!"Column") .nil)) false) (.cons (.call (.sel (.id c!"sqlgraph") c!"To") (.cons (.sel (.sel (.id c!"edge") c!"To") c!"Table") (.cons (.sel (.sel (.sel (.id c!"edge") c!"To") c!"ID") c!"Column") .nil)) false) (.cons (.call (.sel (.id c!"sqlgraph") c!"Edge") (.cons (.sel (.sel (.id c!"edge") c!"Spec") c!"Rel") (.cons (.sel (.sel (.id c!"edge") c!"Spec") c!"Inverse") (.cons (.sel (.sel (.id c!"edge") c!"Spec") c!"Table") (.cons (.sel (.sel (.id c!"edge") c!"Spec") c!"Columns") .nil)))) true) .nil))) false) (.cons (.fn [c!"selector"] [] (.cons (.expr (.call (.sel (.id c!"selector") c!"Where") (.cons (.call (.sel (.id c!"sql") c!"P") (.cons (.fn [c!"builder"] [] (.cons (.define [c!"mb"] (.cons (.un c!"&" (.lit (.id c!"MiniQLToEntSQLBuilder") (.cons (.id c!"ast") (.cons (.id c!"Node") (.cons (.id c!"DisableTypeCasting") .nil))) (.cons (.idx (.id c!"params") (.int 1)) (.cons (.sel (.id c!"edge") c!"To") (.cons (.sel (.id c!"mb") c!"DisableTypeCasting") .nil))))) .nil))
  (.cons (.expr (.call (.sel (.id c!"builder") c!"Join") (.cons (.id c!"mb") .nil) false))
  (.cons (.define [c!"err"] (.cons (.call (.sel (.id c!"mb") c!"Err") .nil false) .nil))
  (.cons (.ite .nil (.bin c!"!=" (.id c!"err") (.id c!"nil")) (.cons (.expr (.call (.sel (.id c!"builder") c!"AddError") (.cons (.id c!"err") .nil) false))
  .nil) .nil)
  .nil))))) .nil) false) .nil) false))
  .nil)) .nil))) false))
  .nil))
  (.dflt (.cons (.assign (.cons (.id c!"err") .nil) (.cons (.call (.sel (.id c!"errors") c!"New") (.cons (.str c!"关联参数错误") .nil) false) .nil))
  .nil)
  .nil))))
  (.cons (.ite .nil (.bin c!"==" (.id c!"err") (.id c!"nil")) (.cons (.define [c!"rv"] (.cons (.call (.sel (.call (.sel (.id c!"reflect") c!"ValueOf") (.cons (.id c!"builder") .nil) false) c!"Elem") .nil false) .nil))
  (.cons (.define [c!"rf"] (.cons (.call (.sel (.id c!"rv") c!"FieldByName") (.cons (.str c!"where") .nil) false) .nil))
  (.cons (.assign (.cons (.id c!"rf") .nil) (.cons (.call (.sel (.call (.sel (.id c!"reflect") c!"NewAt") (.cons (.call (.sel (.id c!"rf") c!"Type") .nil false) (.cons (.call (.sel (.id c!"unsafe") c!"Pointer") (.cons (.call (.sel (.id c!"rf") c!"UnsafeAddr") .nil false) .nil) false) .nil)) false) c!"Elem") .nil false) .nil))
  (.cons (.define [c!"p"] (.cons (.cast (.call (.sel (.id c!"rf") c!"Interface") .nil false) (.un c!"*" (.sel (.id c!"sql") c!"Predicate"))) .nil))
  (.cons (.assign (.cons (.id c!"err") .nil) (.cons (.call (.sel (.id c!"p") c!"Err") .nil false) .nil))
  (.cons (.expr (.call (.sel (.id c!"mb") c!"Join") (.cons (.id c!"p") .nil) false))
  .nil)))))) .nil)
  .nil))))))))
  (.dflt (.cons (.assign (.cons (.id c!"err") .nil) (.cons (.call (.sel (.id c!"errors") c!"Errorf") (.cons (.str c!"不支持的函数: %q") (.cons (.sel (.id c!"node") c!"Name") .nil)) false) .nil))
  .nil)
  .nil))))
  .nil)

/-- The case of `visit` for the type `between`. -/
def scase_between : Stmts := (.cons (.define [c!"lo"] (.cons (.sel (.id c!"sql") c!"OpGTE") .nil))
  (.cons (.define [c!"ro"] (.cons (.sel (.id c!"sql") c!"OpLTE") .nil))
  (.cons (.ite .nil (.bin c!"==" (.sel (.sel (.id c!"node") c!"Op") c!"Operation") (.sel (.id c!"miniquery") c!"OpNotBetween")) (.cons (.assign (.cons (.id c!"lo") .nil) (.cons (.sel (.id c!"sql") c!"OpLT") .nil))
  (.cons (.assign (.cons (.id c!"ro") .nil) (.cons (.sel (.id c!"sql") c!"OpGT") .nil))
  .nil)) .nil)
  (.cons (.assign (.cons (.id c!"err") .nil) (.cons (.call (.id c!"visit") (.cons (.sel (.id c!"node") c!"Left") .nil) false) .nil))
  (.cons (.ite .nil (.bin c!"==" (.id c!"err") (.id c!"nil")) (.cons (.expr (.call (.sel (.id c!"s") c!"WriteOp") (.cons (.id c!"lo") .nil) false))
  (.cons (.assign (.cons (.id c!"err") .nil) (.cons (.call (.id c!"visit") (.cons (.idx (.sel (.id c!"node") c!"Params") (.int 0)) .nil) false) .nil))
  .nil)) .nil)
  (.cons (.ite .nil (.bin c!"==" (.id c!"err") (.id c!"nil")) (.cons (.expr (.call (.sel (.id c!"s") c!"WriteString") (.cons (.str c!" AND ") .nil) false))
  .nil) .nil)
  (.cons (.ite .nil (.bin c!"==" (.id c!"err") (.id c!"nil")) (.cons (.assign (.cons (.id c!"err") .nil) (.cons (.call (.id c!"visit") (.cons (.sel (.id c!"node") c!"Left") .nil) false) .nil))
  .nil) .nil)
  (.cons (.ite .nil (.bin c!"==" (.id c!"err") (.id c!"nil")) (.cons (.expr (.call (.sel (.id c!"s") c!"WriteOp") (.cons (.id c!"ro") .nil) false))
  (.cons (.assign (.cons (.id c!"err") .nil) (.cons (.call (.id c!"visit") (.cons (.idx (.sel (.id c!"node") c!"Params") (.int 1)) .nil) false) .nil))
  .nil)) .nil)
  .nil))))))))

/-- The case of `visit` for the type `predicates`. -/
def scase_predicates : Stmts := (.cons (.define [c!"op", c!"found"] (.cons (.idx (.id c!"entsqlOpMap") (.sel (.sel (.id c!"node") c!"Op") c!"Operation")) .nil))
  (.cons (.ite .nil (.un c!"!" (.id c!"found")) (.cons (.ret (.cons (.call (.sel (.id c!"errors") c!"Errorf") (.cons (.str c!"unexpected predicate op %q") (.cons (.sel (.sel (.id c!"node") c!"Op") c!"Operation") .nil)) false) .nil))
  .nil) .nil)
  (.cons (.assign (.cons (.id c!"err") .nil) (.cons (.call (.id c!"visit") (.cons (.sel (.id c!"node") c!"Left") .nil) false) .nil))
  (.cons (.expr (.call (.sel (.id c!"s") c!"WriteOp") (.cons (.id c!"op") .nil) false))
  .nil))))

/-- The case of `visit` for the type `logic`. -/
def scase_logic : Stmts := (.cons .fall
  .nil)

/-- The case of `visit` for the type `compare`. -/
def scase_compare : Stmts := (.cons (.assign (.cons (.id c!"err") .nil) (.cons (.call (.id c!"visit") (.cons (.sel (.id c!"node") c!"Left") .nil) false) .nil))
  (.cons (.define [c!"op", c!"found"] (.cons (.idx (.id c!"entsqlOpMap") (.sel (.sel (.id c!"node") c!"Op") c!"Operation")) .nil))
  (.cons (.ite .nil (.un c!"!" (.id c!"found")) (.cons (.switch (.sel (.sel (.id c!"node") c!"Op") c!"Operation") (.case (.cons (.sel (.id c!"miniquery") c!"OpNotLike") .nil) (.cons .fall
  .nil)
  (.case (.cons (.sel (.id c!"miniquery") c!"OpAnd") .nil) (.cons .fall
  .nil)
  (.case (.cons (.sel (.id c!"miniquery") c!"OpOr") .nil) (.cons (.expr (.call (.sel (.call (.sel (.call (.sel (.id c!"s") c!"Pad") .nil false) c!"WriteString") (.cons (.call (.sel (.id c!"strings") c!"ToUpper") (.cons (.sel (.sel (.id c!"node") c!"Op") c!"Operation") .nil) false) .nil) false) c!"Pad") .nil false))
  (.cons (.assign (.cons (.id c!"found") .nil) (.cons (.id c!"true") .nil))
  .nil))
  .nil))))
  .nil) (.cons (.expr (.call (.sel (.id c!"s") c!"WriteOp") (.cons (.id c!"op") .nil) false))
  .nil))
  (.cons (.ite .nil (.un c!"!" (.id c!"found")) (.cons (.ret (.cons (.call (.sel (.id c!"errors") c!"Errorf") (.cons (.str c!"unexpected op %q") (.cons (.sel (.sel (.id c!"node") c!"Op") c!"Operation") .nil)) false) .nil))
  .nil) .nil)
  (.cons (.ite .nil (.bin c!"==" (.id c!"err") (.id c!"nil")) (.cons (.assign (.cons (.id c!"err") .nil) (.cons (.call (.id c!"visit") (.cons (.sel (.id c!"node") c!"Right") .nil) false) .nil))
  .nil) .nil)
  .nil)))))

/-- The case of `visit` for the type `other`. -/
def scase_other : Stmts := (.cons (.ret (.cons (.call (.sel (.id c!"errors") c!"Errorf") (.cons (.str c!"invalid type %q") (.cons (.sel (.id c!"node") c!"Type") .nil)) false) .nil))
  .nil)

theorem runBody_caps {P C ps rs body env args h} : runBody P C ps rs body env args h =
    finish rs (execs P C (capSs false body) body env.length
      (declareAll (capSs false body) rs [] (declareAll (capSs false body) ps args env h).1 (declareAll (capSs false body) ps args env h).2).1
      (declareAll (capSs false body) rs [] (declareAll (capSs false body) ps args env h).1 (declareAll (capSs false body) ps args env h).2).2) := by
  simp only [runBody]
  cases execs P C (capSs false body) body env.length
      (declareAll (capSs false body) rs [] (declareAll (capSs false body) ps args env h).1 (declareAll (capSs false body) ps args env h).2).1
      (declareAll (capSs false body) rs [] (declareAll (capSs false body) ps args env h).1 (declareAll (capSs false body) ps args env h).2).2 with
  | ok a => obtain ⟨f, l, h'⟩ := a; cases f <;> rfl
  | _ => rfl

/-- The memory outside the two builders, with the variables of `visit` in it. -/
structure SIn (Z : Sch) (S : Sit) (g0 : Heap) (m e : Nat) (g : Heap) : Prop where
  at0 : SAt Z S g0
  keeps : Keeps g0 g
  m0 : g0.next ≤ m
  e0 : g0.next ≤ e
  lm : m < g.next
  le : e < g.next
  me : m ≠ e
  hm : g.mem m = .ptr S.a

theorem SIn.at_ (I : SIn Z S g0 m e g) : SAt Z S g := I.at0.keeps I.keeps
theorem SAt.off_new {y : Nat} (A : SAt Z S g0) (hy : g0.next ≤ y) : S.off y := ⟨by have := A.lb; omega, fun hx => by have := A.lc hx; omega⟩
theorem sin_at (I : SIn Z S g0 m e g) : SAt Z S g := I.at_
theorem sin_m (I : SIn Z S g0 m e g) (hf : Fits S mb) : (sHeap S mb g).mem m = .ptr S.a := by rw [sh_mem (I.at0.off_new I.m0) hf, I.hm]
theorem sin_e (I : SIn Z S g0 m e g) (hf : Fits S mb) : (sHeap S mb g).mem e = g.mem e := by rw [sh_mem (I.at0.off_new I.e0) hf]
theorem sin_pute (I : SIn Z S g0 m e g) (hf : Fits S mb) (v) : (sHeap S mb g).put e v = sHeap S mb (g.put e v) := by rw [sh_put (I.at0.off_new I.e0) hf]
theorem sin_in (I : SIn Z S g0 m e g) (v) : SIn Z S g0 m e (g.put e v) where
  at0 := I.at0
  keeps := skeeps_put I.keeps I.e0 v
  m0 := I.m0
  e0 := I.e0
  lm := I.lm
  le := I.le
  me := I.me
  hm := by rw [put_mem_other _ _ I.me, I.hm]
theorem SIn.keep (I : SIn Z S g0 m e g) (K : Keeps g g') : SIn Z S g0 m e g' where
  at0 := I.at0
  keeps := I.keeps.trans K
  m0 := I.m0
  e0 := I.e0
  lm := Nat.lt_of_lt_of_le I.lm K.1
  le := Nat.lt_of_lt_of_le I.le K.1
  me := I.me
  hm := by rw [K.2 _ I.lm, I.hm]

theorem sin_start (A : SAt Z S g) : SIn Z S g g.next (g.next + 1) ((g.alloc (.ptr S.a)).alloc .nil) where
  at0 := A
  keeps := (keeps_alloc _).trans (keeps_alloc _)
  m0 := Nat.le_refl _
  e0 := Nat.le_succ _
  lm := by simp only [salloc_next]; omega
  le := by simp only [salloc_next]; omega
  me := by omega
  hm := by rw [alloc_mem_old (by simp only [salloc_next]; omega), alloc_mem_new]

theorem svisit_enter (A : SAt Z S g) (hf : Fits S mb) (x : Node) : call sqp L (n + 1) (.meth (.ptr S.a) c!"visit") [nodeVal x] (sHeap S mb g) =
    finish [c!"err"] (execs sqp (call sqp L n) vcaps entsqlMiniQLToEntSQLBuildervisit 0 [(c!"err", .box (g.next + 1)), (c!"node", .val (nodeVal x)), (c!"mb", .box g.next)]
      (sHeap S mb ((g.alloc (.ptr S.a)).alloc .nil))) := by
  have e0 : call sqp L (n + 1) (.meth (.ptr S.a) c!"visit") [nodeVal x] (sHeap S mb g) = runMeth sqp L (call sqp L n) (.ptr S.a) c!"visit" [nodeVal x] (sHeap S mb g) := rfl
  have e1 : findFunc (c!"MiniQLToEntSQLBuilder" ++ '.' :: c!"visit") sqp.decls = some ⟨true, [c!"mb", c!"node"], [c!"err"], entsqlMiniQLToEntSQLBuildervisit⟩ := rfl
  rw [e0, runMeth, structOf, sh_mem A.oa hf, A.mem]
  simp only [Sit.val, mbVal]
  rw [e1]
  simp only [if_true]
  rw [runBody_caps, ← sh_alloc (A.keeps (keeps_alloc _)) hf, ← sh_alloc A hf]
  have hn : (sHeap S mb g).next = g.next := sh_next
  rw [← hn]
  rfl

theorem svisit_switch (A : SAt Z S g) (hf : Fits S mb) {x : Node} (hx : x ≠ .nil) : call sqp L (n + 2) (.meth (.ptr S.a) c!"visit") [nodeVal x] (sHeap S mb g) =
    finish [c!"err"] (next (match execSwitch sqp (call sqp L (n + 1)) vcaps (.str (tyName x)) svisitCases (sLocals S g.next (g.next + 1) x) (sHeap S mb ((g.alloc (.ptr S.a)).alloc .nil)) with
      | some r => endSwitch r
      | none => .ok (.norm, sLocals S g.next (g.next + 1) x, sHeap S mb ((g.alloc (.ptr S.a)).alloc .nil))) fun l h =>
    execs sqp (call sqp L (n + 1)) vcaps (.cons (.ret (.cons (.id c!"err") .nil)) .nil) 0 l h) := by
  rw [svisit_enter A hf]
  have ht := fun h => sq_Type (h := h) hx
  have I := sin_start A
  generalize hm : g.next = m at I
  have I : SIn Z S g m (m + 1) ((g.alloc (.ptr S.a)).alloc .nil) := I
  generalize he : m + 1 = e at I
  generalize (g.alloc (.ptr S.a)).alloc .nil = g1 at I
  have e : entsqlMiniQLToEntSQLBuildervisit = .cons (.define [c!"visit"] (.cons (.sel (.id c!"mb") c!"visit") .nil)) (.cons (.define [c!"s"] (.cons (.sel (.id c!"mb") c!"SQLBuilder") .nil))
    (.cons (.ite .nil (.bin c!"==" (.id c!"s") (.id c!"nil")) (.cons (.assign (.cons (.id c!"s") .nil) (.cons (.un c!"&" (.sel (.id c!"mb") c!"Builder")) .nil)) .nil) .nil)
    (.cons (.switch (.sel (.id c!"node") c!"Type") svisitCases) (.cons (.ret (.cons (.id c!"err") .nil)) .nil)))) := rfl
  rw [e]
  have em := sin_m I hf
  have s1 := ss_visit I.at_ hf
  have s2 := ss_SQLBuilder I.at_ hf
  have s3 := ss_Builder I.at_ hf
  have sp : ∀ c, same (.ptr c) .nil = some false := fun _ => rfl
  cases hxx : S.x <;> simp only [hxx, if_true] at s2 <;> gorun [sp_mb, sp_node, s1, s2, s3, ht, em, sLocals, vc_visit, vc_s, sp, Sit.s, hxx] <;> rfl

theorem sarm_operation (A : SAt Z S g) (hf : Fits S mb) {x : Node} (hx : tyName x = c!"operation") : call sqp L (n + 2) (.meth (.ptr S.a) c!"visit") [nodeVal x] (sHeap S mb g) =
    sVisitAt (call sqp L (n + 1)) 0 scase_operation (sLocals S g.next (g.next + 1) x) (sHeap S mb ((g.alloc (.ptr S.a)).alloc .nil)) := by
  rw [svisit_switch A hf (by intro e; subst e; cases hx), hx]
  rfl

theorem sarm_value (A : SAt Z S g) (hf : Fits S mb) {x : Node} (hx : tyName x = c!"value") : call sqp L (n + 2) (.meth (.ptr S.a) c!"visit") [nodeVal x] (sHeap S mb g) =
    sVisitAt (call sqp L (n + 1)) 1 scase_value (sLocals S g.next (g.next + 1) x) (sHeap S mb ((g.alloc (.ptr S.a)).alloc .nil)) := by
  rw [svisit_switch A hf (by intro e; subst e; cases hx), hx]
  rfl

theorem sarm_identifier (A : SAt Z S g) (hf : Fits S mb) {x : Node} (hx : tyName x = c!"identifier") : call sqp L (n + 2) (.meth (.ptr S.a) c!"visit") [nodeVal x] (sHeap S mb g) =
    sVisitAt (call sqp L (n + 1)) 2 scase_identifier (sLocals S g.next (g.next + 1) x) (sHeap S mb ((g.alloc (.ptr S.a)).alloc .nil)) := by
  rw [svisit_switch A hf (by intro e; subst e; cases hx), hx]
  rfl

theorem sarm_parentheses (A : SAt Z S g) (hf : Fits S mb) {x : Node} (hx : tyName x = c!"parentheses") : call sqp L (n + 2) (.meth (.ptr S.a) c!"visit") [nodeVal x] (sHeap S mb g) =
    sVisitAt (call sqp L (n + 1)) 3 scase_parentheses (sLocals S g.next (g.next + 1) x) (sHeap S mb ((g.alloc (.ptr S.a)).alloc .nil)) := by
  rw [svisit_switch A hf (by intro e; subst e; cases hx), hx]
  rfl

theorem sarm_not (A : SAt Z S g) (hf : Fits S mb) {x : Node} (hx : tyName x = c!"not") : call sqp L (n + 2) (.meth (.ptr S.a) c!"visit") [nodeVal x] (sHeap S mb g) =
    sVisitAt (call sqp L (n + 1)) 4 scase_not (sLocals S g.next (g.next + 1) x) (sHeap S mb ((g.alloc (.ptr S.a)).alloc .nil)) := by
  rw [svisit_switch A hf (by intro e; subst e; cases hx), hx]
  rfl

theorem sarm_function (A : SAt Z S g) (hf : Fits S mb) {x : Node} (hx : tyName x = c!"function") : call sqp L (n + 2) (.meth (.ptr S.a) c!"visit") [nodeVal x] (sHeap S mb g) =
    sVisitAt (call sqp L (n + 1)) 5 scase_function (sLocals S g.next (g.next + 1) x) (sHeap S mb ((g.alloc (.ptr S.a)).alloc .nil)) := by
  rw [svisit_switch A hf (by intro e; subst e; cases hx), hx]
  rfl

theorem sarm_between (A : SAt Z S g) (hf : Fits S mb) {x : Node} (hx : tyName x = c!"between") : call sqp L (n + 2) (.meth (.ptr S.a) c!"visit") [nodeVal x] (sHeap S mb g) =
    sVisitAt (call sqp L (n + 1)) 6 scase_between (sLocals S g.next (g.next + 1) x) (sHeap S mb ((g.alloc (.ptr S.a)).alloc .nil)) := by
  rw [svisit_switch A hf (by intro e; subst e; cases hx), hx]
  rfl

theorem sarm_predicates (A : SAt Z S g) (hf : Fits S mb) {x : Node} (hx : tyName x = c!"predicates") : call sqp L (n + 2) (.meth (.ptr S.a) c!"visit") [nodeVal x] (sHeap S mb g) =
    sVisitAt (call sqp L (n + 1)) 7 scase_predicates (sLocals S g.next (g.next + 1) x) (sHeap S mb ((g.alloc (.ptr S.a)).alloc .nil)) := by
  rw [svisit_switch A hf (by intro e; subst e; cases hx), hx]
  rfl

theorem sarm_logic (A : SAt Z S g) (hf : Fits S mb) {x : Node} (hx : tyName x = c!"logic") : call sqp L (n + 2) (.meth (.ptr S.a) c!"visit") [nodeVal x] (sHeap S mb g) =
    sVisitAt (call sqp L (n + 1)) 9 scase_compare (sLocals S g.next (g.next + 1) x) (sHeap S mb ((g.alloc (.ptr S.a)).alloc .nil)) := by
  rw [svisit_switch A hf (by intro e; subst e; cases hx), hx]
  rfl

theorem sarm_compare (A : SAt Z S g) (hf : Fits S mb) {x : Node} (hx : tyName x = c!"compare") : call sqp L (n + 2) (.meth (.ptr S.a) c!"visit") [nodeVal x] (sHeap S mb g) =
    sVisitAt (call sqp L (n + 1)) 9 scase_compare (sLocals S g.next (g.next + 1) x) (sHeap S mb ((g.alloc (.ptr S.a)).alloc .nil)) := by
  rw [svisit_switch A hf (by intro e; subst e; cases hx), hx]
  rfl

theorem sarm_reference (A : SAt Z S g) (hf : Fits S mb) {x : Node} (hx : tyName x = c!"reference") : call sqp L (n + 2) (.meth (.ptr S.a) c!"visit") [nodeVal x] (sHeap S mb g) =
    sVisitAt (call sqp L (n + 1)) 10 scase_other (sLocals S g.next (g.next + 1) x) (sHeap S mb ((g.alloc (.ptr S.a)).alloc .nil)) := by
  rw [svisit_switch A hf (by intro e; subst e; cases hx), hx]
  rfl

/-- What `visit` does. -/
def sqOut (S : Sit) (g : Heap) : SRes → Vals
  | .panic => .panic
  | .ok mb => .ok ([.nil], sHeap S mb g)
  | .err e mb => .ok ([sErrVal e], sHeap S mb g)

/-- The builders of an outcome. -/
def SFits (S : Sit) : SRes → Prop
  | .panic => True
  | .ok mb => Fits S mb
  | .err _ mb => Fits S mb

/-- A call that does what the model says and leaves other memory alone. -/
def SDone (S : Sit) (g0 : Heap) (v : Vals) (r : SRes) : Prop := (∃ g', Keeps g0 g' ∧ v = sqOut S g' r) ∧ SFits S r

/-- The claim about `visit` for the nodes below a level. -/
def SBelow (Q : Char → Bool) (N D : Nat) (p : SPar) (Z : Sch) (S : Sit) (k n kk : Nat) : Prop :=
  ∀ x : Node, lvl x < kk → Complete x → ∀ g mb, SAt Z S g → Fits S mb →
    SDone S g (sqCall Q N D p k n (.meth (.ptr S.a) c!"visit") [nodeVal x] (sHeap S mb g)) (svisit (senv p Z.G (!S.dis)) S.node x mb)

theorem sv_op (o) (I : SIn Z S g0 m e g) (hf : Fits S mb) (hz : g.mem e = .nil) :
    SDone S g0 (sVisitAt (sqCall Q N D p k (n + 2)) 0 scase_operation (sLocals S m e (.op o)) (sHeap S mb g)) (svisit (senv p Z.G (!S.dis)) S.node (.op o) mb) := by
  refine ⟨⟨g, I.keeps, ?_⟩, ?_⟩
  · gorun [sLocals, sVisitAt, safter_norm, safter_ret, safter_panic, endSwitch_norm, endSwitch_ret, endSwitch_panic, sp_mb, sp_node, sp_s, sp_errors, sp_miniquery, sp_xstrings, sp_strings, sp_sql, sin_at (g0 := g0) (m := m) (e := e), sin_m (Z := Z) (g0 := g0) (m := m) (e := e), sin_e (Z := Z) (g0 := g0) (m := m) (e := e), sin_pute (Z := Z) (g0 := g0) (m := m) (e := e), sin_in, fits_put, fits_write, fits_join, hf, hz, I, write_write, ss_WriteString (Z := Z), sl_WriteString (Z := Z), same_sErr, svisit, sqOut, SRes.also, SRes.andThen, scase_operation, sg_Errorf, sl_Errorf, sErrVal]
  · simp [svisit, SFits, fits_put, fits_write, hf]

theorem sv_ref (x) (I : SIn Z S g0 m e g) (hf : Fits S mb) (hz : g.mem e = .nil) :
    SDone S g0 (sVisitAt (sqCall Q N D p k (n + 2)) 10 scase_other (sLocals S m e (.ref x)) (sHeap S mb g)) (svisit (senv p Z.G (!S.dis)) S.node (.ref x) mb) := by
  have ht := fun h => sq_Type (h := h) (a := .ref x) (by simp)
  refine ⟨⟨g, I.keeps, ?_⟩, ?_⟩
  · gorun [sLocals, sVisitAt, safter_norm, safter_ret, safter_panic, endSwitch_norm, endSwitch_ret, endSwitch_panic, sp_mb, sp_node, sp_s, sp_errors, sp_miniquery, sp_xstrings, sp_strings, sp_sql, sin_at (g0 := g0) (m := m) (e := e), sin_m (Z := Z) (g0 := g0) (m := m) (e := e), sin_e (Z := Z) (g0 := g0) (m := m) (e := e), sin_pute (Z := Z) (g0 := g0) (m := m) (e := e), sin_in, fits_put, fits_write, fits_join, hf, hz, I, write_write, ss_WriteString (Z := Z), sl_WriteString (Z := Z), same_sErr, svisit, sqOut, SRes.also, SRes.andThen, scase_other, ht, tyName, sg_Errorf, sl_Errorf, sErrVal]
  · simp [svisit, SFits, fits_put, fits_write, hf]

theorem sv_ident (x) (I : SIn Z S g0 m e g) (hf : Fits S mb) (hz : g.mem e = .nil) :
    SDone S g0 (sVisitAt (sqCall Q N D p k (n + 2)) 2 scase_identifier (sLocals S m e (.ident x)) (sHeap S mb g)) (svisit (senv p Z.G (!S.dis)) S.node (.ident x) mb) := by
  refine ⟨⟨g, I.keeps, ?_⟩, ?_⟩
  · gorun [sLocals, sVisitAt, safter_norm, safter_ret, safter_panic, endSwitch_norm, endSwitch_ret, endSwitch_panic, sp_mb, sp_node, sp_s, sp_errors, sp_miniquery, sp_xstrings, sp_strings, sp_sql, sin_at (g0 := g0) (m := m) (e := e), sin_m (Z := Z) (g0 := g0) (m := m) (e := e), sin_e (Z := Z) (g0 := g0) (m := m) (e := e), sin_pute (Z := Z) (g0 := g0) (m := m) (e := e), sin_in, fits_put, fits_write, fits_join, hf, hz, I, write_write, ss_WriteString (Z := Z), sl_WriteString (Z := Z), same_sErr, svisit, sqOut, SRes.also, SRes.andThen, scase_identifier, sq_NameIdent, sg_Snake, sl_Snake, ss_Ident (Z := Z), sl_Ident (Z := Z), senv]
  · simp [svisit, SFits, fits_put, fits_write, hf]

theorem sv_int (i) (I : SIn Z S g0 m e g) (hf : Fits S mb) (hz : g.mem e = .nil) (hN : lvl (.int i) + 2 ≤ N) (hD : 2 ≤ D) (hk : 1 ≤ k) :
    SDone S g0 (sVisitAt (sqCall Q N D p k (n + 2)) 1 scase_value (sLocals S m e (.int i)) (sHeap S mb g)) (svisit (senv p Z.G (!S.dis)) S.node (.int i) mb) := by
  obtain ⟨k, rfl⟩ : ∃ k', k = k' + 1 := ⟨k - 1, by omega⟩
  have hv := fun n h => sl_Value (Q := Q) (D := D) (p := p) (k := k + 1) (n := n) (h := h) (x := (.int i)) (by simp) hN
  have hs := fun h => sq_Value (h := h) (x := (.int i)) (by simp)
  have ht := fun h => sq_ValueType (h := h) (a := (.int i)) (by simp)
  obtain ⟨v, hr, hsl⟩ : ∃ v, value (.int i) = some v ∧ ∀ l, v ≠ .slice l := ⟨_, rfl, by simp⟩
  have hr' : ∀ E, sVal E (.int i) mb = .ok (mb.put (Bld.arg (if E.cast then .cast v else .plain v))) := by
    intro E
    rw [sVal, hr]
    cases v <;> first | rfl | exact absurd rfl (hsl _)
  have ha := fun n => sl_Arg_plain (Q := Q) (N := N) (D := D) (p := p) (k := k + 1) (n := n) I.at_ hf v
  have ha' := fun n => sl_Arg_cast (Q := Q) (N := N) (D := D) (p := p) (k := k) (n := n) I.at_ hf v hD
  rw [hr] at hv
  refine ⟨⟨g, I.keeps, ?_⟩, ?_⟩
  · cases hdis : S.dis <;> gorun [sLocals, sVisitAt, safter_norm, safter_ret, safter_panic, endSwitch_norm, endSwitch_ret, endSwitch_panic, sp_mb, sp_node, sp_s, sp_errors, sp_miniquery, sp_xstrings, sp_strings, sp_sql, sin_at (g0 := g0) (m := m) (e := e), sin_m (Z := Z) (g0 := g0) (m := m) (e := e), sin_e (Z := Z) (g0 := g0) (m := m) (e := e), sin_pute (Z := Z) (g0 := g0) (m := m) (e := e), sin_in, fits_put, fits_write, fits_join, hf, hz, I, write_write, ss_WriteString (Z := Z), sl_WriteString (Z := Z), same_sErr, svisit, sqOut, SRes.also, SRes.andThen, scase_value, hr', hv, hs, ht, valueOut, vtName, sg_ArrayValueType, ss_Disable (Z := Z), hdis, sg_argWithCast, argWithCast_run, ss_Arg (Z := Z), ha, ha', senv]
  · simp [svisit, hr', SFits, fits_put, hf]

theorem sv_bool (i) (I : SIn Z S g0 m e g) (hf : Fits S mb) (hz : g.mem e = .nil) (hN : lvl (.bool i) + 2 ≤ N) (hD : 2 ≤ D) (hk : 1 ≤ k) :
    SDone S g0 (sVisitAt (sqCall Q N D p k (n + 2)) 1 scase_value (sLocals S m e (.bool i)) (sHeap S mb g)) (svisit (senv p Z.G (!S.dis)) S.node (.bool i) mb) := by
  obtain ⟨k, rfl⟩ : ∃ k', k = k' + 1 := ⟨k - 1, by omega⟩
  have hv := fun n h => sl_Value (Q := Q) (D := D) (p := p) (k := k + 1) (n := n) (h := h) (x := (.bool i)) (by simp) hN
  have hs := fun h => sq_Value (h := h) (x := (.bool i)) (by simp)
  have ht := fun h => sq_ValueType (h := h) (a := (.bool i)) (by simp)
  obtain ⟨v, hr, hsl⟩ : ∃ v, value (.bool i) = some v ∧ ∀ l, v ≠ .slice l := ⟨_, rfl, by simp⟩
  have hr' : ∀ E, sVal E (.bool i) mb = .ok (mb.put (Bld.arg (if E.cast then .cast v else .plain v))) := by
    intro E
    rw [sVal, hr]
    cases v <;> first | rfl | exact absurd rfl (hsl _)
  have ha := fun n => sl_Arg_plain (Q := Q) (N := N) (D := D) (p := p) (k := k + 1) (n := n) I.at_ hf v
  have ha' := fun n => sl_Arg_cast (Q := Q) (N := N) (D := D) (p := p) (k := k) (n := n) I.at_ hf v hD
  rw [hr] at hv
  refine ⟨⟨g, I.keeps, ?_⟩, ?_⟩
  · cases hdis : S.dis <;> gorun [sLocals, sVisitAt, safter_norm, safter_ret, safter_panic, endSwitch_norm, endSwitch_ret, endSwitch_panic, sp_mb, sp_node, sp_s, sp_errors, sp_miniquery, sp_xstrings, sp_strings, sp_sql, sin_at (g0 := g0) (m := m) (e := e), sin_m (Z := Z) (g0 := g0) (m := m) (e := e), sin_e (Z := Z) (g0 := g0) (m := m) (e := e), sin_pute (Z := Z) (g0 := g0) (m := m) (e := e), sin_in, fits_put, fits_write, fits_join, hf, hz, I, write_write, ss_WriteString (Z := Z), sl_WriteString (Z := Z), same_sErr, svisit, sqOut, SRes.also, SRes.andThen, scase_value, hr', hv, hs, ht, valueOut, vtName, sg_ArrayValueType, ss_Disable (Z := Z), hdis, sg_argWithCast, argWithCast_run, ss_Arg (Z := Z), ha, ha', senv]
  · simp [svisit, hr', SFits, fits_put, hf]

theorem sv_str (i) (I : SIn Z S g0 m e g) (hf : Fits S mb) (hz : g.mem e = .nil) (hN : lvl (.str i) + 2 ≤ N) (hD : 2 ≤ D) (hk : 1 ≤ k) :
    SDone S g0 (sVisitAt (sqCall Q N D p k (n + 2)) 1 scase_value (sLocals S m e (.str i)) (sHeap S mb g)) (svisit (senv p Z.G (!S.dis)) S.node (.str i) mb) := by
  obtain ⟨k, rfl⟩ : ∃ k', k = k' + 1 := ⟨k - 1, by omega⟩
  have hv := fun n h => sl_Value (Q := Q) (D := D) (p := p) (k := k + 1) (n := n) (h := h) (x := (.str i)) (by simp) hN
  have hs := fun h => sq_Value (h := h) (x := (.str i)) (by simp)
  have ht := fun h => sq_ValueType (h := h) (a := (.str i)) (by simp)
  obtain ⟨v, hr, hsl⟩ : ∃ v, value (.str i) = some v ∧ ∀ l, v ≠ .slice l := ⟨_, rfl, by simp⟩
  have hr' : ∀ E, sVal E (.str i) mb = .ok (mb.put (Bld.arg (if E.cast then .cast v else .plain v))) := by
    intro E
    rw [sVal, hr]
    cases v <;> first | rfl | exact absurd rfl (hsl _)
  have ha := fun n => sl_Arg_plain (Q := Q) (N := N) (D := D) (p := p) (k := k + 1) (n := n) I.at_ hf v
  have ha' := fun n => sl_Arg_cast (Q := Q) (N := N) (D := D) (p := p) (k := k) (n := n) I.at_ hf v hD
  rw [hr] at hv
  refine ⟨⟨g, I.keeps, ?_⟩, ?_⟩
  · cases hdis : S.dis <;> gorun [sLocals, sVisitAt, safter_norm, safter_ret, safter_panic, endSwitch_norm, endSwitch_ret, endSwitch_panic, sp_mb, sp_node, sp_s, sp_errors, sp_miniquery, sp_xstrings, sp_strings, sp_sql, sin_at (g0 := g0) (m := m) (e := e), sin_m (Z := Z) (g0 := g0) (m := m) (e := e), sin_e (Z := Z) (g0 := g0) (m := m) (e := e), sin_pute (Z := Z) (g0 := g0) (m := m) (e := e), sin_in, fits_put, fits_write, fits_join, hf, hz, I, write_write, ss_WriteString (Z := Z), sl_WriteString (Z := Z), same_sErr, svisit, sqOut, SRes.also, SRes.andThen, scase_value, hr', hv, hs, ht, valueOut, vtName, sg_ArrayValueType, ss_Disable (Z := Z), hdis, sg_argWithCast, argWithCast_run, ss_Arg (Z := Z), ha, ha', senv]
  · simp [svisit, hr', SFits, fits_put, hf]

theorem sv_null  (I : SIn Z S g0 m e g) (hf : Fits S mb) (hz : g.mem e = .nil) (hN : lvl .null + 2 ≤ N) (hD : 2 ≤ D) (hk : 1 ≤ k) :
    SDone S g0 (sVisitAt (sqCall Q N D p k (n + 2)) 1 scase_value (sLocals S m e .null) (sHeap S mb g)) (svisit (senv p Z.G (!S.dis)) S.node .null mb) := by
  obtain ⟨k, rfl⟩ : ∃ k', k = k' + 1 := ⟨k - 1, by omega⟩
  have hv := fun n h => sl_Value (Q := Q) (D := D) (p := p) (k := k + 1) (n := n) (h := h) (x := .null) (by simp) hN
  have hs := fun h => sq_Value (h := h) (x := .null) (by simp)
  have ht := fun h => sq_ValueType (h := h) (a := .null) (by simp)
  obtain ⟨v, hr, hsl⟩ : ∃ v, value .null = some v ∧ ∀ l, v ≠ .slice l := ⟨_, rfl, by simp⟩
  have hr' : ∀ E, sVal E .null mb = .ok (mb.put (Bld.arg (if E.cast then .cast v else .plain v))) := by
    intro E
    rw [sVal, hr]
    cases v <;> first | rfl | exact absurd rfl (hsl _)
  have ha := fun n => sl_Arg_plain (Q := Q) (N := N) (D := D) (p := p) (k := k + 1) (n := n) I.at_ hf v
  have ha' := fun n => sl_Arg_cast (Q := Q) (N := N) (D := D) (p := p) (k := k) (n := n) I.at_ hf v hD
  rw [hr] at hv
  refine ⟨⟨g, I.keeps, ?_⟩, ?_⟩
  · cases hdis : S.dis <;> gorun [sLocals, sVisitAt, safter_norm, safter_ret, safter_panic, endSwitch_norm, endSwitch_ret, endSwitch_panic, sp_mb, sp_node, sp_s, sp_errors, sp_miniquery, sp_xstrings, sp_strings, sp_sql, sin_at (g0 := g0) (m := m) (e := e), sin_m (Z := Z) (g0 := g0) (m := m) (e := e), sin_e (Z := Z) (g0 := g0) (m := m) (e := e), sin_pute (Z := Z) (g0 := g0) (m := m) (e := e), sin_in, fits_put, fits_write, fits_join, hf, hz, I, write_write, ss_WriteString (Z := Z), sl_WriteString (Z := Z), same_sErr, svisit, sqOut, SRes.also, SRes.andThen, scase_value, hr', hv, hs, ht, valueOut, vtName, sg_ArrayValueType, ss_Disable (Z := Z), hdis, sg_argWithCast, argWithCast_run, ss_Arg (Z := Z), ha, ha', senv]
  · simp [svisit, hr', SFits, fits_put, hf]

theorem sv_arr (l) (I : SIn Z S g0 m e g) (hf : Fits S mb) (hz : g.mem e = .nil) (hN : lvl (.arr l) + 2 ≤ N) (hc : Complete (.arr l)) :
    SDone S g0 (sVisitAt (sqCall Q N D p k (n + 2)) 1 scase_value (sLocals S m e (.arr l)) (sHeap S mb g)) (svisit (senv p Z.G (!S.dis)) S.node (.arr l) mb) := by
  have hv := fun n h => sl_Value (Q := Q) (D := D) (p := p) (k := k) (n := n) (h := h) (x := (.arr l)) (by simp) hN
  have hs := fun h => sq_Value (h := h) (x := (.arr l)) (by simp)
  have ht := fun h => sq_ValueType (h := h) (a := (.arr l)) (by simp)
  obtain ⟨v, hr⟩ := value_complete hc
  obtain ⟨vs, rfl⟩ : ∃ vs, v = .slice vs := by
    rw [value] at hr
    cases e : valueL l with
    | none => rw [e] at hr; cases hr
    | some vs => rw [e] at hr; exact ⟨vs, by simpa using hr.symm⟩
  have hr' : ∀ E, sVal E (.arr l) mb = .ok (((mb.write c!"(").put (Bld.argList vs)).write c!")") := by
    intro E; rw [sVal, hr]
  rw [hr] at hv
  refine ⟨⟨g, I.keeps, ?_⟩, ?_⟩
  · gorun [sLocals, sVisitAt, safter_norm, safter_ret, safter_panic, endSwitch_norm, endSwitch_ret, endSwitch_panic, sp_mb, sp_node, sp_s, sp_errors, sp_miniquery, sp_xstrings, sp_strings, sp_sql, sin_at (g0 := g0) (m := m) (e := e), sin_m (Z := Z) (g0 := g0) (m := m) (e := e), sin_e (Z := Z) (g0 := g0) (m := m) (e := e), sin_pute (Z := Z) (g0 := g0) (m := m) (e := e), sin_in, fits_put, fits_write, fits_join, hf, hz, I, write_write, ss_WriteString (Z := Z), sl_WriteString (Z := Z), same_sErr, svisit, sqOut, SRes.also, SRes.andThen, scase_value, hr', hv, hs, ht, valueOut, vtName, sg_ArrayValueType, goVal, sl_slice, ss_Args (Z := Z), sl_Args (Z := Z)]
  · simp [svisit, hr', SFits, fits_put, fits_write, hf]

theorem sv_paren (x) (I : SIn Z S g0 m e g) (hf : Fits S mb) (hz : g.mem e = .nil) (ih : SBelow Q N D p Z S k (n + 2) kk) (hl : lvl (.paren x) ≤ kk) (hc : Complete x) :
    SDone S g0 (sVisitAt (sqCall Q N D p k (n + 2)) 3 scase_parentheses (sLocals S m e (.paren x)) (sHeap S mb g)) (svisit (senv p Z.G (!S.dis)) S.node (.paren x) mb) := by
  rw [lvl] at hl
  obtain ⟨⟨g1, K1, R⟩, F⟩ := ih x (by omega) hc g (mb.write c!"(") I.at_ (by rw [fits_write]; exact hf)
  have I1 := I.keep K1
  cases er : svisit (senv p Z.G (!S.dis)) S.node x (mb.write c!"(") with
  | panic =>
    rw [er] at R F
    refine ⟨⟨g, I.keeps, ?_⟩, ?_⟩
    · gorun [sLocals, sVisitAt, safter_norm, safter_ret, safter_panic, endSwitch_norm, endSwitch_ret, endSwitch_panic, sp_mb, sp_node, sp_s, sp_errors, sp_miniquery, sp_xstrings, sp_strings, sp_sql, sin_at (g0 := g0) (m := m) (e := e), sin_m (Z := Z) (g0 := g0) (m := m) (e := e), sin_e (Z := Z) (g0 := g0) (m := m) (e := e), sin_pute (Z := Z) (g0 := g0) (m := m) (e := e), sin_in, fits_put, fits_write, fits_join, hf, hz, I, write_write, ss_WriteString (Z := Z), sl_WriteString (Z := Z), same_sErr, svisit, sqOut, SRes.also, SRes.andThen, scase_parentheses, sq_Paren, R, er]
    · simp [svisit, er, SRes.also, SFits]
  | ok mb1 =>
    rw [er] at R F
    simp only [SFits] at F
    refine ⟨⟨g1.put e .nil, skeeps_put I1.keeps I1.e0 _, ?_⟩, ?_⟩
    · gorun [sLocals, sVisitAt, safter_norm, safter_ret, safter_panic, endSwitch_norm, endSwitch_ret, endSwitch_panic, sp_mb, sp_node, sp_s, sp_errors, sp_miniquery, sp_xstrings, sp_strings, sp_sql, sin_at (g0 := g0) (m := m) (e := e), sin_m (Z := Z) (g0 := g0) (m := m) (e := e), sin_e (Z := Z) (g0 := g0) (m := m) (e := e), sin_pute (Z := Z) (g0 := g0) (m := m) (e := e), sin_in, fits_put, fits_write, fits_join, hf, hz, I, write_write, ss_WriteString (Z := Z), sl_WriteString (Z := Z), same_sErr, svisit, sqOut, SRes.also, SRes.andThen, scase_parentheses, sq_Paren, R, er, F, I1]
    · simp [svisit, er, SRes.also, SFits, fits_write, F]
  | err e1 mb1 =>
    rw [er] at R F
    simp only [SFits] at F
    refine ⟨⟨g1.put e (sErrVal e1), skeeps_put I1.keeps I1.e0 _, ?_⟩, ?_⟩
    · gorun [sLocals, sVisitAt, safter_norm, safter_ret, safter_panic, endSwitch_norm, endSwitch_ret, endSwitch_panic, sp_mb, sp_node, sp_s, sp_errors, sp_miniquery, sp_xstrings, sp_strings, sp_sql, sin_at (g0 := g0) (m := m) (e := e), sin_m (Z := Z) (g0 := g0) (m := m) (e := e), sin_e (Z := Z) (g0 := g0) (m := m) (e := e), sin_pute (Z := Z) (g0 := g0) (m := m) (e := e), sin_in, fits_put, fits_write, fits_join, hf, hz, I, write_write, ss_WriteString (Z := Z), sl_WriteString (Z := Z), same_sErr, svisit, sqOut, SRes.also, SRes.andThen, scase_parentheses, sq_Paren, R, er, F, I1]
    · simp [svisit, er, SRes.also, SFits, fits_write, F]

theorem sv_not (x) (I : SIn Z S g0 m e g) (hf : Fits S mb) (hz : g.mem e = .nil) (ih : SBelow Q N D p Z S k (n + 2) kk) (hl : lvl (.not x) ≤ kk) (hc : Complete x) :
    SDone S g0 (sVisitAt (sqCall Q N D p k (n + 2)) 4 scase_not (sLocals S m e (.not x)) (sHeap S mb g)) (svisit (senv p Z.G (!S.dis)) S.node (.not x) mb) := by
  rw [lvl] at hl
  obtain ⟨⟨g1, K1, R⟩, F⟩ := ih x (by omega) hc g (mb.write c!"NOT ") I.at_ (by rw [fits_write]; exact hf)
  have I1 := I.keep K1
  cases er : svisit (senv p Z.G (!S.dis)) S.node x (mb.write c!"NOT ") with
  | panic =>
    rw [er] at R F
    refine ⟨⟨g, I.keeps, ?_⟩, ?_⟩
    · gorun [sLocals, sVisitAt, safter_norm, safter_ret, safter_panic, endSwitch_norm, endSwitch_ret, endSwitch_panic, sp_mb, sp_node, sp_s, sp_errors, sp_miniquery, sp_xstrings, sp_strings, sp_sql, sin_at (g0 := g0) (m := m) (e := e), sin_m (Z := Z) (g0 := g0) (m := m) (e := e), sin_e (Z := Z) (g0 := g0) (m := m) (e := e), sin_pute (Z := Z) (g0 := g0) (m := m) (e := e), sin_in, fits_put, fits_write, fits_join, hf, hz, I, write_write, ss_WriteString (Z := Z), sl_WriteString (Z := Z), same_sErr, svisit, sqOut, SRes.also, SRes.andThen, scase_not, sq_Not, R, er]
    · simp [svisit, er, SRes.also, SFits]
  | ok mb1 =>
    rw [er] at R F
    simp only [SFits] at F
    refine ⟨⟨g1.put e .nil, skeeps_put I1.keeps I1.e0 _, ?_⟩, ?_⟩
    · gorun [sLocals, sVisitAt, safter_norm, safter_ret, safter_panic, endSwitch_norm, endSwitch_ret, endSwitch_panic, sp_mb, sp_node, sp_s, sp_errors, sp_miniquery, sp_xstrings, sp_strings, sp_sql, sin_at (g0 := g0) (m := m) (e := e), sin_m (Z := Z) (g0 := g0) (m := m) (e := e), sin_e (Z := Z) (g0 := g0) (m := m) (e := e), sin_pute (Z := Z) (g0 := g0) (m := m) (e := e), sin_in, fits_put, fits_write, fits_join, hf, hz, I, write_write, ss_WriteString (Z := Z), sl_WriteString (Z := Z), same_sErr, svisit, sqOut, SRes.also, SRes.andThen, scase_not, sq_Not, R, er, F, I1]
    · simp [svisit, er, SRes.also, SFits, fits_write, F]
  | err e1 mb1 =>
    rw [er] at R F
    simp only [SFits] at F
    refine ⟨⟨g1.put e (sErrVal e1), skeeps_put I1.keeps I1.e0 _, ?_⟩, ?_⟩
    · gorun [sLocals, sVisitAt, safter_norm, safter_ret, safter_panic, endSwitch_norm, endSwitch_ret, endSwitch_panic, sp_mb, sp_node, sp_s, sp_errors, sp_miniquery, sp_xstrings, sp_strings, sp_sql, sin_at (g0 := g0) (m := m) (e := e), sin_m (Z := Z) (g0 := g0) (m := m) (e := e), sin_e (Z := Z) (g0 := g0) (m := m) (e := e), sin_pute (Z := Z) (g0 := g0) (m := m) (e := e), sin_in, fits_put, fits_write, fits_join, hf, hz, I, write_write, ss_WriteString (Z := Z), sl_WriteString (Z := Z), same_sErr, svisit, sqOut, SRes.also, SRes.andThen, scase_not, sq_Not, R, er, F, I1]
    · simp [svisit, er, SRes.also, SFits, fits_write, F]

theorem sv_pred (l o) (I : SIn Z S g0 m e g) (hf : Fits S mb) (hz : g.mem e = .nil) (ih : SBelow Q N D p Z S k (n + 2) kk) (hl : lvl (.pred l o) ≤ kk) (hc : Complete l) (hn : o ≠ .nil) :
    SDone S g0 (sVisitAt (sqCall Q N D p k (n + 2)) 7 scase_predicates (sLocals S m e (.pred l o)) (sHeap S mb g)) (svisit (senv p Z.G (!S.dis)) S.node (.pred l o) mb) := by
  rw [lvl] at hl
  have ho' := fun h => sq_Oper (h := h) hn
  have hm := operation_some hn
  generalize (operation o).getD [] = w at ho' hm
  have fl := fun s => fget_lookup (fun kv : Str × Str => Val.lib kv.2) s opPairs
  rcases op_lookup w with ⟨h1, h2⟩ | ⟨ow, t, h1, h2, h3⟩
  · refine ⟨⟨g, I.keeps, ?_⟩, ?_⟩
    · gorun [sLocals, sVisitAt, safter_norm, safter_ret, safter_panic, endSwitch_norm, endSwitch_ret, endSwitch_panic, sp_mb, sp_node, sp_s, sp_errors, sp_miniquery, sp_xstrings, sp_strings, sp_sql, sin_at (g0 := g0) (m := m) (e := e), sin_m (Z := Z) (g0 := g0) (m := m) (e := e), sin_e (Z := Z) (g0 := g0) (m := m) (e := e), sin_pute (Z := Z) (g0 := g0) (m := m) (e := e), sin_in, fits_put, fits_write, fits_join, hf, hz, I, write_write, ss_WriteString (Z := Z), sl_WriteString (Z := Z), same_sErr, svisit, sqOut, SRes.also, SRes.andThen, scase_predicates, sq_OpPred, ho', hm, sg_OpMap, fl, h1, h2, vc_op, vc_found, sg_Errorf, sl_Errorf, sErrVal]
    · simp [svisit, hm, h1, SFits, hf]
  · obtain ⟨⟨g1, K1, R⟩, F⟩ := ih l (by omega) hc g mb I.at_ hf
    have I1 := I.keep K1
    have hw := fun n g mb A hf => sl_WriteOp (Q := Q) (N := N) (D := D) (p := p) (k := k) (n := n) (g := g) (mb := mb) (S := S) (Z := Z) A hf ow t h3
    cases er : svisit (senv p Z.G (!S.dis)) S.node l mb with
    | panic =>
      rw [er] at R F
      refine ⟨⟨g, I.keeps, ?_⟩, ?_⟩
      · gorun [sLocals, sVisitAt, safter_norm, safter_ret, safter_panic, endSwitch_norm, endSwitch_ret, endSwitch_panic, sp_mb, sp_node, sp_s, sp_errors, sp_miniquery, sp_xstrings, sp_strings, sp_sql, sin_at (g0 := g0) (m := m) (e := e), sin_m (Z := Z) (g0 := g0) (m := m) (e := e), sin_e (Z := Z) (g0 := g0) (m := m) (e := e), sin_pute (Z := Z) (g0 := g0) (m := m) (e := e), sin_in, fits_put, fits_write, fits_join, hf, hz, I, write_write, ss_WriteString (Z := Z), sl_WriteString (Z := Z), same_sErr, svisit, sqOut, SRes.also, SRes.andThen, scase_predicates, sq_OpPred, sq_LeftPred, ho', hm, sg_OpMap, fl, h1, h2, vc_op, vc_found, R, er]
      · simp [svisit, hm, h1, er, SRes.also, SFits]
    | ok mb1 =>
      rw [er] at R F
      simp only [SFits] at F
      refine ⟨⟨g1.put e .nil, skeeps_put I1.keeps I1.e0 _, ?_⟩, ?_⟩
      · gorun [sLocals, sVisitAt, safter_norm, safter_ret, safter_panic, endSwitch_norm, endSwitch_ret, endSwitch_panic, sp_mb, sp_node, sp_s, sp_errors, sp_miniquery, sp_xstrings, sp_strings, sp_sql, sin_at (g0 := g0) (m := m) (e := e), sin_m (Z := Z) (g0 := g0) (m := m) (e := e), sin_e (Z := Z) (g0 := g0) (m := m) (e := e), sin_pute (Z := Z) (g0 := g0) (m := m) (e := e), sin_in, fits_put, fits_write, fits_join, hf, hz, I, write_write, ss_WriteString (Z := Z), sl_WriteString (Z := Z), same_sErr, svisit, sqOut, SRes.also, SRes.andThen, scase_predicates, sq_OpPred, sq_LeftPred, ho', hm, sg_OpMap, fl, h1, h2, vc_op, vc_found, R, er, F, I1, ss_WriteOp (Z := Z), hw]
      · simp [svisit, hm, h1, er, SRes.also, SFits, fits_write, F]
    | err e1 mb1 =>
      rw [er] at R F
      simp only [SFits] at F
      refine ⟨⟨g1.put e (sErrVal e1), skeeps_put I1.keeps I1.e0 _, ?_⟩, ?_⟩
      · gorun [sLocals, sVisitAt, safter_norm, safter_ret, safter_panic, endSwitch_norm, endSwitch_ret, endSwitch_panic, sp_mb, sp_node, sp_s, sp_errors, sp_miniquery, sp_xstrings, sp_strings, sp_sql, sin_at (g0 := g0) (m := m) (e := e), sin_m (Z := Z) (g0 := g0) (m := m) (e := e), sin_e (Z := Z) (g0 := g0) (m := m) (e := e), sin_pute (Z := Z) (g0 := g0) (m := m) (e := e), sin_in, fits_put, fits_write, fits_join, hf, hz, I, write_write, ss_WriteString (Z := Z), sl_WriteString (Z := Z), same_sErr, svisit, sqOut, SRes.also, SRes.andThen, scase_predicates, sq_OpPred, sq_LeftPred, ho', hm, sg_OpMap, fl, h1, h2, vc_op, vc_found, R, er, F, I1, ss_WriteOp (Z := Z), hw]
      · simp [svisit, hm, h1, er, SRes.also, SFits, fits_write, F]

end Verif.Mini
