import Verif.Mini.SqEdge
import Verif.Mini.SqVisit2

/-! # Running /repo/entmq/entsql.go: the statements of `has_edge` -/

namespace Verif.Mini
open Verif

set_option linter.unusedSimpArgs false

variable {Q : Char → Bool} {N n k kk D m e : Nat} {h g g0 g' : Heap} {L : Lib} {p : SPar} {S : Sit} {mb : MB} {Z : Sch} {args : List Val}

/-- The variables of the clause when the edge is unknown. -/
def edgeLocalsF (S : Sit) (m e : Nat) (x : Node) (q1 q2 q3 a : Nat) : Locals :=
  [(c!"ok", .val (.bool false)), (c!"edge", .box q3), (c!"builder", .box q2), (c!"tab", .val (.ptr a)), (c!"params", .box q1)] ++ sLocals S m e x


/-- The statements of `has_edge`, from the last on. -/
def edgeB8 : Stmts := .cons (.ite .nil (.bin c!"==" (.id c!"err") (.id c!"nil")) (.cons (.define [c!"rv"] (.cons (.call (.sel (.call (.sel (.id c!"reflect") c!"ValueOf") (.cons (.id c!"builder") .nil) false) c!"Elem") .nil false) .nil))
  (.cons (.define [c!"rf"] (.cons (.call (.sel (.id c!"rv") c!"FieldByName") (.cons (.str c!"where") .nil) false) .nil))
  (.cons (.assign (.cons (.id c!"rf") .nil) (.cons (.call (.sel (.call (.sel (.id c!"reflect") c!"NewAt") (.cons (.call (.sel (.id c!"rf") c!"Type") .nil false) (.cons (.call (.sel (.id c!"unsafe") c!"Pointer") (.cons (.call (.sel (.id c!"rf") c!"UnsafeAddr") .nil false) .nil) false) .nil)) false) c!"Elem") .nil false) .nil))
  (.cons (.define [c!"p"] (.cons (.cast (.call (.sel (.id c!"rf") c!"Interface") .nil false) (.un c!"*" (.sel (.id c!"sql") c!"Predicate"))) .nil))
  (.cons (.assign (.cons (.id c!"err") .nil) (.cons (.call (.sel (.id c!"p") c!"Err") .nil false) .nil))
  (.cons (.expr (.call (.sel (.id c!"mb") c!"Join") (.cons (.id c!"p") .nil) false))
  .nil)))))) .nil) .nil

/-- The statements of `has_edge`, from the seventh on. -/
def edgeB7 : Stmts := .cons (.switch (.call (.id c!"len") (.cons (.id c!"params") .nil) false) (.case (.cons (.int 1) .nil) (.cons (.expr (.call (.sel (.id c!"sqlgraph") c!"HasNeighbors") (.cons (.id c!"builder") (.cons (.call (.sel (.id c!"sqlgraph") c!"NewStep") (.cons (.call (.sel (.id c!"sqlgraph") c!"From") (.cons (.sel (.id c!"tab") c!"Table") (.cons (.sel (.sel (.id c!"tab") c!"ID") c!"Column") .nil)) false) (.cons (.call (.sel (.id c!"sqlgraph") c!"To") (.cons (.sel (.sel (.id c!"edge") c!"To") c!"Table") (.cons (.sel (.sel (.sel (.id c!"edge") c!"To") c!"ID") c!"Column") .nil)) false) (.cons (.call (.sel (.id c!"sqlgraph") c!"Edge") (.cons (.sel (.sel (.id c!"edge") c!"Spec") c!"Rel") (.cons (.sel (.sel (.id c!"edge") c!"Spec") c!"Inverse") (.cons (.sel (.sel (.id c!"edge") c!"Spec") c!"Table") (.cons (.sel (.sel (.id c!"edge") c!"Spec") c!"Columns") .nil)))) true) .nil))) false) .nil)) false))
  .nil)
  (.case (.cons (.int 2) .nil) (.cons (.ite .nil (.un c!"!" (.call (.sel (.idx (.id c!"params") (.int 1)) c!"IsExpression") .nil false)) (.cons (.assign (.cons (.id c!"err") .nil) (.cons (.call (.sel (.id c!"errors") c!"Errorf") (.cons (.str c!"关联条件错误: %q") (.cons (.call (.sel (.idx (.id c!"params") (.int 1)) c!"String") .nil false) .nil)) false) .nil))
  (.cons .brk
  .nil)) .nil)
  (.cons (.expr (.call (.sel (.id c!"sqlgraph") c!"HasNeighborsWith") (.cons (.id c!"builder") (.cons (.call (.sel (.id c!"sqlgraph") c!"NewStep") (.cons (.call (.sel (.id c!"sqlgraph") c!"From") (.cons (.sel (.id c!"tab") c!"Table") (.cons (.sel (.sel (.id c!"tab") c!"ID") c!"Column") .nil)) false) (.cons (.call (.sel (.id c!"sqlgraph") c!"To") (.cons (.sel (.sel (.id c!"edge") c!"To") c!"Table") (.cons (.sel (.sel (.sel (.id c!"edge") c!"To") c!"ID") c!"Column") .nil)) false) (.cons (.call (.sel (.id c!"sqlgraph") c!"Edge") (.cons (.sel (.sel (.id c!"edge") c!"Spec") c!"Rel") (.cons (.sel (.sel (.id c!"edge") c!"Spec") c!"Inverse") (.cons (.sel (.sel (.id c!"edge") c!"Spec") c!"Table") (.cons (.sel (.sel (.id c!"edge") c!"Spec") c!"Columns") .nil)))) true) .nil))) false) (.cons (.fn [c!"selector"] [] clo1) .nil))) false))
  .nil))
  (.dflt (.cons (.assign (.cons (.id c!"err") .nil) (.cons (.call (.sel (.id c!"errors") c!"New") (.cons (.str c!"关联参数错误") .nil) false) .nil))
  .nil)
  .nil)))) edgeB8

/-- The statements of `has_edge`, from the sixth on. -/
def edgeB6 : Stmts := .cons (.ite .nil (.un c!"!" (.id c!"ok")) (.cons (.assign (.cons (.id c!"err") .nil) (.cons (.call (.sel (.id c!"errors") c!"Errorf") (.cons (.str c!"不存在关联: %q") (.cons (.sel (.idx (.id c!"params") (.int 0)) c!"Name") .nil)) false) .nil))
  (.cons .brk
  .nil)) .nil) edgeB7

/-- The statements of `has_edge`, from the fifth on. -/
def edgeB5 : Stmts := .cons (.define [c!"edge", c!"ok"] (.cons (.idx (.sel (.id c!"tab") c!"Edges") (.sel (.idx (.id c!"params") (.int 0)) c!"Name")) .nil)) edgeB6

/-- The statements of `has_edge`, from the fourth on. -/
def edgeB4 : Stmts := .cons (.define [c!"builder"] (.cons (.call (.sel (.call (.sel (.call (.sel (.id c!"sql") c!"Dialect") (.cons (.call (.sel (.id c!"mb") c!"Dialect") .nil false) .nil) false) c!"Select") .nil false) c!"From") (.cons (.call (.sel (.call (.sel (.id c!"sql") c!"Table") (.cons (.sel (.id c!"tab") c!"Table") .nil) false) c!"Schema") (.cons (.sel (.id c!"tab") c!"Schema") .nil) false) .nil) false) .nil)) edgeB5

/-- The statements of `has_edge`, from the third on. -/
def edgeB3 : Stmts := .cons (.define [c!"tab"] (.cons (.sel (.id c!"mb") c!"Node") .nil)) edgeB4

/-- The statements of `has_edge`, from the second on. -/
def edgeB2 : Stmts := .cons (.ite .nil (.bin c!"||" (.bin c!"==" (.call (.id c!"len") (.cons (.id c!"params") .nil) false) (.int 0)) (.bin c!"==" (.sel (.idx (.id c!"params") (.int 0)) c!"Name") (.str c!""))) (.cons (.assign (.cons (.id c!"err") .nil) (.cons (.call (.sel (.id c!"errors") c!"New") (.cons (.str c!"关联参数错误") .nil) false) .nil))
  (.cons .brk
  .nil)) .nil) edgeB3

/-- The statements of `has_edge`, from the first on. -/
def edgeB1 : Stmts := .cons (.define [c!"params"] (.cons (.sel (.id c!"node") c!"Params") .nil)) edgeB2

theorem sq_Name {x : Node} (hx : x ≠ .nil) : select sqp (nodeVal x) c!"Name" h = .ok ([.str (nodeName x)], h) := by
  cases x <;> first | exact absurd rfl hx | rfl

theorem sp_tab : findPkg c!"tab" sqp.decls = false := rfl
theorem sp_ok : findPkg c!"ok" sqp.decls = false := rfl
theorem sp_rv : findPkg c!"rv" sqp.decls = false := rfl
theorem sp_rf : findPkg c!"rf" sqp.decls = false := rfl
theorem sp_p : findPkg c!"p" sqp.decls = false := rfl
theorem sp_sqlgraph : findPkg c!"sqlgraph" sqp.decls = true := rfl
theorem sp_reflect : findPkg c!"reflect" sqp.decls = true := rfl
theorem sp_unsafe : findPkg c!"unsafe" sqp.decls = true := rfl

theorem sg_SDialect : call sqp L (n + 1) (.glob c!"sql.Dialect") [] h = .ok ([.lib c!"sql.Dialect"], h) := rfl
theorem sg_Table : call sqp L (n + 1) (.glob c!"sql.Table") [] h = .ok ([.lib c!"sql.Table"], h) := rfl
theorem sg_P : call sqp L (n + 1) (.glob c!"sql.P") [] h = .ok ([.lib c!"sql.P"], h) := rfl
theorem sg_GFrom : call sqp L (n + 1) (.glob c!"sqlgraph.From") [] h = .ok ([.lib c!"sqlgraph.From"], h) := rfl
theorem sg_GTo : call sqp L (n + 1) (.glob c!"sqlgraph.To") [] h = .ok ([.lib c!"sqlgraph.To"], h) := rfl
theorem sg_GEdge : call sqp L (n + 1) (.glob c!"sqlgraph.Edge") [] h = .ok ([.lib c!"sqlgraph.Edge"], h) := rfl
theorem sg_GNewStep : call sqp L (n + 1) (.glob c!"sqlgraph.NewStep") [] h = .ok ([.lib c!"sqlgraph.NewStep"], h) := rfl
theorem sg_GHas : call sqp L (n + 1) (.glob c!"sqlgraph.HasNeighbors") [] h = .ok ([.lib c!"sqlgraph.HasNeighbors"], h) := rfl
theorem sg_GHasWith : call sqp L (n + 1) (.glob c!"sqlgraph.HasNeighborsWith") [] h = .ok ([.lib c!"sqlgraph.HasNeighborsWith"], h) := rfl
theorem sg_ValueOf : call sqp L (n + 1) (.glob c!"reflect.ValueOf") [] h = .ok ([.lib c!"reflect.ValueOf"], h) := rfl
theorem sg_NewAt : call sqp L (n + 1) (.glob c!"reflect.NewAt") [] h = .ok ([.lib c!"reflect.NewAt"], h) := rfl
theorem sg_Pointer : call sqp L (n + 1) (.glob c!"unsafe.Pointer") [] h = .ok ([.lib c!"unsafe.Pointer"], h) := rfl

theorem sl_SDialect (d) : sqCall Q N D p k (n + 1) (.lib c!"sql.Dialect") [d] h = .ok ([.obj c!"sql.DialectBuilder" [(c!"dialect", d)]], h) := rfl
theorem ss_Select (d) : select sqp (.obj c!"sql.DialectBuilder" [(c!"dialect", d)]) c!"Select" h = .ok ([.meth (.obj c!"sql.DialectBuilder" [(c!"dialect", d)]) c!"Select"], h) := rfl
theorem sl_Select (d) : sqCall Q N D p k (n + 1) (.meth (.obj c!"sql.DialectBuilder" [(c!"dialect", .str d)]) c!"Select") [] h = .ok ([.ptr h.next], h.alloc (selectorVal d .nil .nil)) := rfl
theorem sl_Table (t) : sqCall Q N D p k (n + 1) (.lib c!"sql.Table") [t] h = .ok ([.obj c!"sql.SelectTable" [(c!"name", t)]], h) := rfl
theorem ss_Schema (t) : select sqp (.obj c!"sql.SelectTable" [(c!"name", t)]) c!"Schema" h = .ok ([.meth (.obj c!"sql.SelectTable" [(c!"name", t)]) c!"Schema"], h) := rfl
theorem sl_Schema (t s) : sqCall Q N D p k (n + 1) (.meth (.obj c!"sql.SelectTable" [(c!"name", t)]) c!"Schema") [s] h = .ok ([.obj c!"sql.SelectTable" [(c!"name", t), (c!"schema", s)]], h) := rfl
theorem sl_P (f) : sqCall Q N D p k (n + 1) (.lib c!"sql.P") [f] h = .ok ([.obj c!"sql.Predicate" [(c!"fn", f)]], h) := rfl
theorem sl_GFrom : sqCall Q N D p k (n + 1) (.lib c!"sqlgraph.From") args h = .ok ([.obj c!"sqlgraph.From" [(c!"args", .slice args)]], h) := rfl
theorem sl_GTo : sqCall Q N D p k (n + 1) (.lib c!"sqlgraph.To") args h = .ok ([.obj c!"sqlgraph.To" [(c!"args", .slice args)]], h) := rfl
theorem sl_GEdge : sqCall Q N D p k (n + 1) (.lib c!"sqlgraph.Edge") args h = .ok ([.obj c!"sqlgraph.Edge" [(c!"args", .slice args)]], h) := rfl
theorem sl_GNewStep : sqCall Q N D p k (n + 1) (.lib c!"sqlgraph.NewStep") args h = .ok ([.obj c!"sqlgraph.NewStep" [(c!"args", .slice args)]], h) := rfl

theorem ssel_sel {q : Nat} {d : Str} {t w : Val} (hq : h.mem q = selectorVal d t w) (m : Str) (h1 : fget m [(c!"dialect", .str d), (c!"from", t), (c!"where", w)] = none) :
    select sqp (.ptr q) m h = .ok ([.meth (.ptr q) m], h) := by
  simp only [select, structOf, hq, selectorVal, ownField, h1]
  rfl
theorem smeth_sel {q : Nat} {d : Str} {t w : Val} (hq : h.mem q = selectorVal d t w) (m : Str) (hm : findFunc (c!"sql.Selector." ++ m) sqp.decls = none) :
    call sqp L (n + 1) (.meth (.ptr q) m) args h = L (c!"sql.Selector." ++ m) (.ptr q :: args) h := by
  show runMeth sqp L (call sqp L n) (.ptr q) m args _ = _
  have e1 : c!"sql.Selector" ++ '.' :: m = c!"sql.Selector." ++ m := rfl
  simp only [runMeth, structOf, hq, selectorVal]
  rw [e1, hm]
  rfl

theorem sl_From {q : Nat} {d : Str} {t w : Val} (hq : h.mem q = selectorVal d t w) (v) : sqCall Q N D p k (n + 1) (.meth (.ptr q) c!"From") [v] h = .ok ([.ptr q], h.put q (selectorVal d v w)) := by
  rw [sqCall, smeth_sel hq _ rfl]
  have e : sqLib Q N p (sqc Q N D p k) (c!"sql.Selector." ++ c!"From") [.ptr q, v] h = match h.mem q with | .obj _ [(_, .str d), _, (_, w)] => .ok ([.ptr q], h.put q (selectorVal d v w)) | _ => .stuck := rfl
  rw [e, hq]
  rfl
theorem sl_Where {q : Nat} {d : Str} {t w : Val} (hq : h.mem q = selectorVal d t w) (v) : sqCall Q N D p k (n + 1) (.meth (.ptr q) c!"Where") [v] h = .ok ([.ptr q], h.put q (selectorVal d t v)) := by
  rw [sqCall, smeth_sel hq _ rfl]
  have e : sqLib Q N p (sqc Q N D p k) (c!"sql.Selector." ++ c!"Where") [.ptr q, v] h = match h.mem q with | .obj _ [(_, .str d), (_, t), _] => .ok ([.ptr q], h.put q (selectorVal d t v)) | _ => .stuck := rfl
  rw [e, hq]
  rfl
theorem sl_Has {q : Nat} {d : Str} {t w : Val} (hq : h.mem q = selectorVal d t w) (v) : sqCall Q N D p k (n + 1) (.lib c!"sqlgraph.HasNeighbors") [.ptr q, v] h =
    .ok ([], h.put q (selectorVal d t (.obj c!"sql.Predicate" [(c!"step", v)]))) := by
  have e : sqCall Q N D p k (n + 1) (.lib c!"sqlgraph.HasNeighbors") [.ptr q, v] h = match h.mem q with
      | .obj _ [(_, .str d), (_, t), _] => .ok ([], h.put q (selectorVal d t (.obj c!"sql.Predicate" [(c!"step", v)])))
      | _ => .stuck := rfl
  rw [e, hq]
  rfl

section
variable (A : SAt Z S g) (hf : Fits S mb) {t : Nat} (ht : Z.T t)
include A hf ht

theorem ssel_fnode (m : Str) (v : Val) (hm : fget m [(c!"Table", (Z.G t).table), (c!"Schema", (Z.G t).schema), (c!"ID", .obj c!"sqlgraph.FieldSpec" [(c!"Column", (Z.G t).column)]),
    (c!"Edges", .map .nil ((Z.G t).edges.map fun kv => (kv.1, edgeVal Z.nd kv.2)))] = some v) : select sqp (.ptr (Z.nd t)) m (sHeap S mb g) = .ok ([v], sHeap S mb g) := by
  simp only [select, structOf, sh_mem (A.on t ht) hf, A.nodes t ht, fnodeVal, ownField, hm]
theorem ss_fTable : select sqp (.ptr (Z.nd t)) c!"Table" (sHeap S mb g) = .ok ([(Z.G t).table], sHeap S mb g) := ssel_fnode A hf ht _ _ rfl
theorem ss_fSchema : select sqp (.ptr (Z.nd t)) c!"Schema" (sHeap S mb g) = .ok ([(Z.G t).schema], sHeap S mb g) := ssel_fnode A hf ht _ _ rfl
theorem ss_fID : select sqp (.ptr (Z.nd t)) c!"ID" (sHeap S mb g) = .ok ([.obj c!"sqlgraph.FieldSpec" [(c!"Column", (Z.G t).column)]], sHeap S mb g) := ssel_fnode A hf ht _ _ rfl
theorem ss_fEdges : select sqp (.ptr (Z.nd t)) c!"Edges" (sHeap S mb g) = .ok ([.map .nil ((Z.G t).edges.map fun kv => (kv.1, edgeVal Z.nd kv.2))], sHeap S mb g) := ssel_fnode A hf ht _ _ rfl
end

theorem ss_Column (c) : select sqp (.obj c!"sqlgraph.FieldSpec" [(c!"Column", c)]) c!"Column" h = .ok ([c], h) := rfl
theorem ss_eRel (a b c d) : select sqp (.obj c!"sqlgraph.EdgeSpec" [(c!"Rel", a), (c!"Inverse", b), (c!"Table", c), (c!"Columns", d)]) c!"Rel" h = .ok ([a], h) := rfl
theorem ss_eInverse (a b c d) : select sqp (.obj c!"sqlgraph.EdgeSpec" [(c!"Rel", a), (c!"Inverse", b), (c!"Table", c), (c!"Columns", d)]) c!"Inverse" h = .ok ([b], h) := rfl
theorem ss_eTable (a b c d) : select sqp (.obj c!"sqlgraph.EdgeSpec" [(c!"Rel", a), (c!"Inverse", b), (c!"Table", c), (c!"Columns", d)]) c!"Table" h = .ok ([c], h) := rfl
theorem ss_eColumns (a b c d) : select sqp (.obj c!"sqlgraph.EdgeSpec" [(c!"Rel", a), (c!"Inverse", b), (c!"Table", c), (c!"Columns", d)]) c!"Columns" h = .ok ([d], h) := rfl

theorem sq_IsExpression {x : Node} (hx : x ≠ .nil) : select sqp (nodeVal x) c!"IsExpression" h = .ok ([.meth (nodeVal x) c!"IsExpression"], h) := by
  cases x <;> first | exact absurd rfl hx | rfl
theorem sq_String {x : Node} (hx : x ≠ .nil) : select sqp (nodeVal x) c!"String" h = .ok ([.meth (nodeVal x) c!"String"], h) := by
  cases x <;> first | exact absurd rfl hx | rfl
theorem sErr_edgeCond (c : Node) : errCall c!"errors.Errorf" c!"关联条件错误: %q" [.str ((nodeStr c).getD [])] = sErrVal (.edgeCond c) := rfl
theorem alloc_put_new (v w) : (h.alloc v).put h.next w = h.alloc w := by
  simp only [Heap.alloc, Heap.put, Heap.mk.injEq, true_and]
  funext y; by_cases h1 : y = h.next <;> simp [h1]

theorem sl_ValueOf (q) : sqCall Q N D p k (n + 1) (.lib c!"reflect.ValueOf") [.ptr q] h = .ok ([.obj c!"reflect.Value" [(c!"of", .ptr q)]], h) := rfl
theorem ss_Elem1 (v) : select sqp (.obj c!"reflect.Value" [(c!"of", v)]) c!"Elem" h = .ok ([.meth (.obj c!"reflect.Value" [(c!"of", v)]) c!"Elem"], h) := rfl
theorem ss_Elem2 (v f) : select sqp (.obj c!"reflect.Value" [(c!"of", v), (c!"field", f)]) c!"Elem" h = .ok ([.meth (.obj c!"reflect.Value" [(c!"of", v), (c!"field", f)]) c!"Elem"], h) := rfl
theorem sl_Elem (fs) : sqCall Q N D p k (n + 1) (.meth (.obj c!"reflect.Value" fs) c!"Elem") [] h = .ok ([.obj c!"reflect.Value" fs], h) := rfl
theorem ss_FieldByName (v) : select sqp (.obj c!"reflect.Value" [(c!"of", v)]) c!"FieldByName" h = .ok ([.meth (.obj c!"reflect.Value" [(c!"of", v)]) c!"FieldByName"], h) := rfl
theorem sl_FieldByName (v f) : sqCall Q N D p k (n + 1) (.meth (.obj c!"reflect.Value" [(c!"of", v)]) c!"FieldByName") [.str f] h = .ok ([.obj c!"reflect.Value" [(c!"of", v), (c!"field", .str f)]], h) := rfl
theorem ss_RType (v f) : select sqp (.obj c!"reflect.Value" [(c!"of", v), (c!"field", f)]) c!"Type" h = .ok ([.meth (.obj c!"reflect.Value" [(c!"of", v), (c!"field", f)]) c!"Type"], h) := rfl
theorem sl_RType (fs) : sqCall Q N D p k (n + 1) (.meth (.obj c!"reflect.Value" fs) c!"Type") [] h = .ok ([.lib c!"type"], h) := rfl
theorem ss_UnsafeAddr (v f) : select sqp (.obj c!"reflect.Value" [(c!"of", v), (c!"field", f)]) c!"UnsafeAddr" h = .ok ([.meth (.obj c!"reflect.Value" [(c!"of", v), (c!"field", f)]) c!"UnsafeAddr"], h) := rfl
theorem sl_UnsafeAddr (fs) : sqCall Q N D p k (n + 1) (.meth (.obj c!"reflect.Value" fs) c!"UnsafeAddr") [] h = .ok ([.obj c!"address" fs], h) := rfl
theorem sl_Pointer (v) : sqCall Q N D p k (n + 1) (.lib c!"unsafe.Pointer") [v] h = .ok ([v], h) := rfl
theorem sl_NewAt (v fs) : sqCall Q N D p k (n + 1) (.lib c!"reflect.NewAt") [v, .obj c!"address" fs] h = .ok ([.obj c!"reflect.Value" fs], h) := rfl
theorem ss_Interface (v f) : select sqp (.obj c!"reflect.Value" [(c!"of", v), (c!"field", f)]) c!"Interface" h = .ok ([.meth (.obj c!"reflect.Value" [(c!"of", v), (c!"field", f)]) c!"Interface"], h) := rfl
theorem sl_Interface {q : Nat} {d : Str} {t w : Val} (hq : h.mem q = selectorVal d t w) :
    sqCall Q N D p k (n + 1) (.meth (.obj c!"reflect.Value" [(c!"of", .ptr q), (c!"field", .str c!"where")]) c!"Interface") [] h = .ok ([w], h) := by
  have e : sqCall Q N D p k (n + 1) (.meth (.obj c!"reflect.Value" [(c!"of", .ptr q), (c!"field", .str c!"where")]) c!"Interface") [] h = match h.mem q with
      | .obj _ fs => match fget c!"where" fs with | some v => .ok ([v], h) | none => .stuck
      | _ => .stuck := rfl
  rw [e, hq]
  rfl
theorem sl_Pred (fs) : sqCall Q N D p k (n + 1) (.lib c!".(*sql.Predicate)") [.obj c!"sql.Predicate" fs] h = .ok ([.obj c!"sql.Predicate" fs], h) := rfl
theorem ss_PErr {fs : List (Str × Val)} (hfs : fget c!"Err" fs = none) : select sqp (.obj c!"sql.Predicate" fs) c!"Err" h = .ok ([.meth (.obj c!"sql.Predicate" fs) c!"Err"], h) := by
  simp only [select, structOf, ownField, hfs]
  rfl
theorem sl_PErr (fs) : sqCall Q N D p k (n + 1) (.meth (.obj c!"sql.Predicate" fs) c!"Err") [] h = .ok ([.nil], h) := rfl

theorem endSwitch_brk {l h} : endSwitch (.ok (.brk, l, h)) = .ok (.norm, l, h) := rfl

/-! ## Cells -/

theorem sat_alloc (A : SAt Z S g) (v) : SAt Z S (g.alloc v) := A.keeps (keeps_alloc v)
theorem SAt.offNext (A : SAt Z S g) : S.off g.next := A.off_new (Nat.le_refl _)
theorem new_mem (A : SAt Z S g) (hf : Fits S mb) (v) : (sHeap S mb (g.alloc v)).mem g.next = v := by rw [sh_mem A.offNext hf, alloc_mem_new]
theorem new_put (A : SAt Z S g) (hf : Fits S mb) (v w) : (sHeap S mb (g.alloc v)).put g.next w = sHeap S mb (g.alloc w) := by
  rw [sh_put A.offNext hf]
  congr 1
  simp only [Heap.alloc, Heap.put, Heap.mk.injEq, true_and]
  funext y; by_cases h1 : y = g.next <;> simp [h1]
theorem new_From (A : SAt Z S g) (hf : Fits S mb) (d t w) : select sqp (.ptr g.next) c!"From" (sHeap S mb (g.alloc (selectorVal d t w))) = .ok ([.meth (.ptr g.next) c!"From"], sHeap S mb (g.alloc (selectorVal d t w))) :=
  ssel_sel (new_mem A hf _) _ rfl
theorem new_lFrom (A : SAt Z S g) (hf : Fits S mb) (d t w v) : sqCall Q N D p k (n + 1) (.meth (.ptr g.next) c!"From") [v] (sHeap S mb (g.alloc (selectorVal d t w))) =
    .ok ([.ptr g.next], sHeap S mb (g.alloc (selectorVal d v w))) := by
  rw [sl_From (new_mem A hf _), new_put A hf]

/-- A cell that was made during the call. -/
structure Cell (g0 : Heap) (q : Nat) (g : Heap) (v : Val) : Prop where
  le : g0.next ≤ q
  lt : q < g.next
  mem : g.mem q = v

theorem Cell.read {q v} (c : Cell g0 q g v) (A : SAt Z S g0) (hf : Fits S mb) : (sHeap S mb g).mem q = v := by rw [sh_mem (A.off_new c.le) hf, c.mem]
theorem Cell.keep {q v} (c : Cell g0 q g v) (K : Keeps g g') : Cell g0 q g' v := ⟨c.le, Nat.lt_of_lt_of_le c.lt K.1, by rw [K.2 _ c.lt, c.mem]⟩
theorem Cell.alloc {q v} (c : Cell g0 q g v) (w) : Cell g0 q (g.alloc w) v := c.keep (keeps_alloc w)
theorem Cell.put {q v} (c : Cell g0 q g v) {r} (hr : q ≠ r) (w) : Cell g0 q (g.put r w) v := ⟨c.le, c.lt, by rw [put_mem_other _ _ hr, c.mem]⟩
theorem cell_new (K : Keeps g0 g) (v) : Cell g0 g.next (g.alloc v) v := ⟨K.1, by rw [salloc_next]; omega, alloc_mem_new _⟩
theorem Cell.write {q v} (c : Cell g0 q g v) (A : SAt Z S g0) (hf : Fits S mb) (w) : (sHeap S mb g).put q w = sHeap S mb (g.put q w) := sh_put (A.off_new c.le) hf w

/-! ## The statements -/

/-- What is done with the outcome of `has_edge`. -/
def edgeEnd (C : Val → List Val → Heap → Vals) (r : Done) : Vals :=
  finish [c!"err"] (next (endSwitch (sAfter C 5 (leave 5 (next (endSwitch (match leave 5 r with
    | .ok (.fall, l, h) => execFrom sqp C vcaps (dropCases 2 (swOf (nth scase_function 0))) l h
    | r => r)) fun l h => .ok (.norm, l, h))))) fun l h =>
    execs sqp C vcaps (.cons (.ret (.cons (.id c!"err") .nil)) .nil) 0 l h)

theorem edge_start {x : Node} {l : List Node} (hx : x = .func c!"has_edge" l) : sVisitAt (sqCall Q N D p k (n + 2)) 5 scase_function (sLocals S m e x) h =
    edgeEnd (sqCall Q N D p k (n + 2)) (execs sqp (sqCall Q N D p k (n + 2)) vcaps edgeB1 5 (sLocals S m e x) h) := by
  subst hx
  rfl

theorem edgeEnd_panic {C : Val → List Val → Heap → Vals} : edgeEnd C .panic = .panic := rfl
theorem edgeEnd_ok {C : Val → List Val → Heap → Vals} {f : Flow} (hf : f = .norm ∨ f = .brk) {x : Node} (ys : Locals) : edgeEnd C (.ok (f, ys ++ sLocals S m e x, h)) = .ok ([h.mem e], h) := by
  have e1 : cut 5 (ys ++ sLocals S m e x) = sLocals S m e x := by
    unfold cut; rw [show (ys ++ sLocals S m e x).length - 5 = ys.length by simp [sLocals]]; simp
  rcases hf with rfl | rfl <;> simp only [edgeEnd, leave, e1] <;> rfl

section
variable {x pn : Node} {l : List Node} {vs : List Val} {q1 : Nat}

theorem edge1 (hx : x = .func c!"has_edge" l) (A : SAt Z S g) (hf : Fits S mb) : execs sqp (sqCall Q N D p k (n + 2)) vcaps edgeB1 5 (sLocals S m e x) (sHeap S mb g) =
    execs sqp (sqCall Q N D p k (n + 2)) vcaps edgeB2 5 ((c!"params", .box g.next) :: sLocals S m e x) (sHeap S mb (g.alloc (.slice (nodeVals l)))) := by
  have sal := sh_alloc A hf
  subst hx
  gorun [edgeB1, sLocals, sp_node, sq_ParamsFunc, vc_params, sal, sh_next]

theorem edge2_none (c1 : Cell g0 q1 g (.slice [])) (I : SIn Z S g0 m e g) (hf : Fits S mb) :
    execs sqp (sqCall Q N D p k (n + 2)) vcaps edgeB2 5 ((c!"params", .box q1) :: sLocals S m e x) (sHeap S mb g) =
    .ok (.brk, (c!"params", .box q1) :: sLocals S m e x, sHeap S mb (g.put e (sErrVal .edgeParams))) := by
  have r1 := c1.read I.at0 hf
  have pe := sin_pute I hf
  gorun [edgeB2, sLocals, sp_params, sp_errors, r1, pe, sg_New, sl_New, sErrVal]

theorem edge2_empty (c1 : Cell g0 q1 g (.slice vs)) (hv : vs[0]? = some (nodeVal pn)) (hp : pn ≠ .nil) (hn : nodeName pn = []) (I : SIn Z S g0 m e g) (hf : Fits S mb) :
    execs sqp (sqCall Q N D p k (n + 2)) vcaps edgeB2 5 ((c!"params", .box q1) :: sLocals S m e x) (sHeap S mb g) =
    .ok (.brk, (c!"params", .box q1) :: sLocals S m e x, sHeap S mb (g.put e (sErrVal .edgeParams))) := by
  have r1 := c1.read I.at0 hf
  have pe := sin_pute I hf
  have sn := fun h => sq_Name (h := h) hp
  have h0 : vs ≠ [] := by rintro rfl; simp at hv
  gorun [edgeB2, sLocals, sp_params, sp_errors, r1, hv, h0, sn, hn, pe, sg_New, sl_New, sErrVal]

theorem edge2 (c1 : Cell g0 q1 g (.slice vs)) (hv : vs[0]? = some (nodeVal pn)) (hp : pn ≠ .nil) (hn : nodeName pn ≠ []) (I : SIn Z S g0 m e g) (hf : Fits S mb) :
    execs sqp (sqCall Q N D p k (n + 2)) vcaps edgeB2 5 ((c!"params", .box q1) :: sLocals S m e x) (sHeap S mb g) =
    execs sqp (sqCall Q N D p k (n + 2)) vcaps edgeB3 5 ((c!"params", .box q1) :: sLocals S m e x) (sHeap S mb g) := by
  have r1 := c1.read I.at0 hf
  have sn := fun h => sq_Name (h := h) hp
  have h0 : vs ≠ [] := by rintro rfl; simp at hv
  gorun [edgeB2, sLocals, sp_params, sp_errors, r1, hv, h0, sn, hn]

theorem edge3_nil (hnode : S.node = none) (I : SIn Z S g0 m e g) (hf : Fits S mb) :
    execs sqp (sqCall Q N D p k (n + 2)) vcaps edgeB3 5 ((c!"params", .box q1) :: sLocals S m e x) (sHeap S mb g) = .panic := by
  have rm := sin_m I hf
  have sN := ss_Node I.at_ hf
  have sD := ss_mbDialect I.at_ hf
  have lD := fun n => sl_Dialect (Q := Q) (N := N) (D := D) (p := p) (k := k) (n := n) I.at_ hf
  have sal := sh_alloc I.at_ hf
  have ntab : ∀ f h, select sqp .nil f h = .panic := fun _ _ => rfl
  rw [hnode] at sN
  have sF := new_From I.at_ hf
  gorun [edgeB3, edgeB4, sLocals, sp_mb, sp_sql, sp_tab, rm, sN, nodePtr, vc_tab, sD, lD, sg_SDialect, sl_SDialect, ss_Select, sl_Select, sal, sh_next, sF, sg_Table, ntab]

theorem edge34 {t : Nat} (hnode : S.node = some t) (I : SIn Z S g0 m e g) (hf : Fits S mb) :
    execs sqp (sqCall Q N D p k (n + 2)) vcaps edgeB3 5 ((c!"params", .box q1) :: sLocals S m e x) (sHeap S mb g) =
    execs sqp (sqCall Q N D p k (n + 2)) vcaps edgeB5 5 ((c!"builder", .box (g.next + 1)) :: (c!"tab", .val (.ptr (Z.nd t))) :: (c!"params", .box q1) :: sLocals S m e x)
      (sHeap S mb ((g.alloc (selectorVal mb.own.dialect (.obj c!"sql.SelectTable" [(c!"name", (Z.G t).table), (c!"schema", (Z.G t).schema)]) .nil)).alloc (.ptr g.next))) := by
  have A := I.at_
  have ht := A.node t hnode
  have rm := sin_m I hf
  have sN := ss_Node A hf
  have sD := ss_mbDialect A hf
  have lD := fun n => sl_Dialect (Q := Q) (N := N) (D := D) (p := p) (k := k) (n := n) A hf
  have sal := sh_alloc A hf
  have sal' := fun v => sh_alloc (sat_alloc A v) hf
  rw [hnode] at sN
  have sF := new_From A hf
  have lF := fun n => new_lFrom (Q := Q) (N := N) (D := D) (p := p) (k := k) (n := n) A hf
  have f1 := fun v => ss_fTable (sat_alloc A v) hf ht
  have f2 := fun v => ss_fSchema (sat_alloc A v) hf ht
  gorun [edgeB3, edgeB4, sLocals, sp_mb, sp_sql, sp_tab, rm, sN, nodePtr, vc_tab, vc_builder, sD, lD, sg_SDialect, sl_SDialect, ss_Select, sl_Select, sal, sal', sh_next, salloc_next, sF, lF, sg_Table, sl_Table, f1, f2, ss_Schema, sl_Schema]

/-! ### Looking the edge up -/

section
variable {t q2 : Nat}

theorem edge5 (c1 : Cell g0 q1 g (.slice vs)) (hv : vs[0]? = some (nodeVal pn)) (hp : pn ≠ .nil) {fe : FEdge} (hl : (Z.G t).edges.lookup (nodeName pn) = some fe) (ht : Z.T t)
    (I : SIn Z S g0 m e g) (hf : Fits S mb) :
    execs sqp (sqCall Q N D p k (n + 2)) vcaps edgeB5 5 ((c!"builder", .box q2) :: (c!"tab", .val (.ptr (Z.nd t))) :: (c!"params", .box q1) :: sLocals S m e x) (sHeap S mb g) =
    execs sqp (sqCall Q N D p k (n + 2)) vcaps edgeB7 5 (edgeLocals S m e x q1 q2 g.next (Z.nd t)) (sHeap S mb (g.alloc (edgeVal Z.nd fe))) := by
  have r1 := c1.read I.at0 hf
  have sn := fun h => sq_Name (h := h) hp
  have f1 := ss_fEdges I.at_ hf ht
  have fl := fun s => fget_lookup (fun kv : Str × FEdge => edgeVal Z.nd kv.2) s (Z.G t).edges
  have sal := sh_alloc I.at_ hf
  gorun [edgeB5, edgeB6, edgeLocals, sLocals, sp_params, sp_tab, sp_ok, r1, hv, sn, f1, fl, hl, vc_edge, vc_ok, sal, sh_next]

theorem edge5_none (c1 : Cell g0 q1 g (.slice vs)) (hv : vs[0]? = some (nodeVal pn)) (hp : pn ≠ .nil) (hl : (Z.G t).edges.lookup (nodeName pn) = none) (ht : Z.T t)
    (I : SIn Z S g0 m e g) (hf : Fits S mb) :
    execs sqp (sqCall Q N D p k (n + 2)) vcaps edgeB5 5 ((c!"builder", .box q2) :: (c!"tab", .val (.ptr (Z.nd t))) :: (c!"params", .box q1) :: sLocals S m e x) (sHeap S mb g) =
    .ok (.brk, edgeLocalsF S m e x q1 q2 g.next (Z.nd t), sHeap S mb ((g.alloc .nil).put e (sErrVal (.noEdge (nodeName pn))))) := by
  have r1 := c1.read I.at0 hf
  have r1' := (c1.alloc .nil).read I.at0 hf
  have sn := fun h => sq_Name (h := h) hp
  have f1 := ss_fEdges I.at_ hf ht
  have fl := fun s => fget_lookup (fun kv : Str × FEdge => edgeVal Z.nd kv.2) s (Z.G t).edges
  have sal := sh_alloc I.at_ hf
  have pe := sin_pute (I.keep (keeps_alloc .nil)) hf
  gorun [edgeB5, edgeB6, edgeLocalsF, sLocals, sp_params, sp_tab, sp_ok, sp_errors, r1, r1', hv, sn, f1, fl, hl, vc_edge, vc_ok, sal, sh_next, sg_Errorf, sl_Errorf, pe, sErrVal]

/-! ### The closures -/

theorem clo1_run {H : Heap} {q3 q5 a0 : Nat} {d : Str} {fr w : Val} (hq : H.mem q5 = selectorVal d fr w) :
    sqCall Q N D p k (n + 3) (.clo [c!"selector"] [] clo1 (edgeLocals S m e x q1 q2 q3 a0)) [.ptr q5] H =
    .ok ([], H.put q5 (selectorVal d fr (.obj c!"sql.Predicate" [(c!"fn", edgeCond2 S m e x q1 q2 q3 a0 q5)]))) := by
  have e0 : sqCall Q N D p k (n + 3) (.clo [c!"selector"] [] clo1 (edgeLocals S m e x q1 q2 q3 a0)) [.ptr q5] H =
      runBody sqp (sqCall Q N D p k (n + 2)) [c!"selector"] [] clo1 (edgeLocals S m e x q1 q2 q3 a0) [.ptr q5] H := rfl
  have hc : (capSs false clo1).contains c!"selector" = false := by decide +kernel
  have hc' : c!"selector" ∉ capSs false clo1 := by simpa using hc
  have s1 := ssel_sel hq c!"Where" rfl
  have l1 := fun n => sl_Where (Q := Q) (N := N) (D := D) (p := p) (k := k) (n := n) hq
  have hE : Val.clo [c!"builder"] [] clo2 ((c!"selector", .val (.ptr q5)) :: edgeLocals S m e x q1 q2 q3 a0) = edgeCond2 S m e x q1 q2 q3 a0 q5 := rfl
  rw [e0, runBody_caps]
  generalize capSs false clo1 = cs at hc hc'
  have d1 : declareAll cs [c!"selector"] [.ptr q5] (edgeLocals S m e x q1 q2 q3 a0) H = ((c!"selector", .val (.ptr q5)) :: edgeLocals S m e x q1 q2 q3 a0, H) := by
    simp [declareAll, declare, hc']
  have d2 : ∀ l h, declareAll cs [] [] l h = (l, h) := fun _ _ => rfl
  rw [d1, d2]
  have ls : lget c!"sql" (edgeLocals S m e x q1 q2 q3 a0) = none := rfl
  gorun [clo1, ls, sp_selector, sp_sql, s1, l1, sg_P, sl_P, hE]

theorem joinEdge_after {E : SEnv} {se : SEdge} (r : SRes) : joinEdge E se mb r = match afterQuery r with
    | none => .panic
    | some (s, l, mb') => .ok (mb.join (se.pre mb.own.dialect ++ s ++ se.post mb.own.dialect) l (if E.surf then mb'.own.errs else [])) := by
  cases r <;> rfl

theorem sl_JoinWith {q3 q5 a0 : Nat} {c : Node} {v0 step : Val} {fe : FEdge} (I : SIn Z S g0 m e g) (hf : Fits S mb) (c1 : Cell g0 q1 g (.slice [v0, nodeVal c])) (c3 : Cell g0 q3 g (edgeVal Z.nd fe)) (ht : Z.T fe.to)
    (hc : Complete c) (hx : c ≠ .nil) (ih : SBelow Q N (D + 3) p Z (innerSit (g.next + 1) fe.to c S.dis) k (D + 2) kk) (hl : lvl c < kk) :
    (afterQuery (svisit (senv p Z.G (!S.dis)) (some fe.to) c { own := fresh mb.own.dialect mb.own.total }) = none ∧
      sqCall Q N (D + 3) p (k + 2) (n + 1) (.meth (.ptr S.a) c!"Join") [.obj c!"sql.Predicate" [(c!"step", step), (c!"fn", edgeCond2 S m e x q1 q2 q3 a0 q5)]] (sHeap S mb g) = .panic) ∨
    ∃ s l mb' g', afterQuery (svisit (senv p Z.G (!S.dis)) (some fe.to) c { own := fresh mb.own.dialect mb.own.total }) = some (s, l, mb') ∧ Keeps g g' ∧
      sqCall Q N (D + 3) p (k + 2) (n + 1) (.meth (.ptr S.a) c!"Join") [.obj c!"sql.Predicate" [(c!"step", step), (c!"fn", edgeCond2 S m e x q1 q2 q3 a0 q5)]] (sHeap S mb g) =
        .ok ([.ptr S.b], sHeap S (mb.join (p.pre step mb.own.dialect ++ s ++ p.post step mb.own.dialect) l (if p.surf then mb'.own.errs else [])) g') := by
  have A := I.at_
  have A' := sat_alloc A (rbld (fresh mb.own.dialect mb.own.total)).val
  have hn : (sHeap S mb g).next = g.next := sh_next
  have e1 : ∀ fn, sqCall Q N (D + 3) p (k + 2) (n + 1) (.meth (.ptr S.a) c!"Join") [.obj c!"sql.Predicate" [(c!"step", step), (c!"fn", fn)]] (sHeap S mb g) =
      match rbldOf ((sHeap S mb g).mem S.b) with
      | none => .stuck
      | some b =>
        many (sqCall Q N (D + 3) p (k + 1) (D + 3) fn [.ptr (sHeap S mb g).next] ((sHeap S mb g).alloc (RBld.val ⟨b.dialect, b.total, [], [], []⟩))) fun _ h' =>
          match rbldOf (h'.mem (sHeap S mb g).next) with
          | none => .stuck
          | some r => onBld S.b (fun b => b.append (p.pre step b.dialect ++ r.sql ++ p.post step b.dialect) r.args (if p.surf then r.errs else [])) h' := fun fn => by
    rw [smeth_own A hf _ rfl (fun _ _ _ => rfl)]; rfl
  rw [e1, sh_own, rbldOf_val]
  have e2 : (sHeap S mb g).alloc (RBld.val ⟨(rbld mb.own).dialect, (rbld mb.own).total, [], [], []⟩) = sHeap S mb (g.alloc (rbld (fresh mb.own.dialect mb.own.total)).val) := sh_alloc A hf _
  simp only [e2, hn]
  have W : SchAt Z g.next (sHeap S mb (g.alloc (rbld (fresh mb.own.dialect mb.own.total)).val)) := ⟨fun t h => A.ln t h, fun t h => by rw [sh_mem (A.on t h) hf, alloc_mem_old (A.ln t h), A.nodes t h]⟩
  have hH : (sHeap S mb (g.alloc (rbld (fresh mb.own.dialect mb.own.total)).val)).next = g.next + 1 := by rw [sh_next, salloc_next]
  rw [← hH] at ih
  rcases clo2_run (D := D + 1) (n := D) (e := e) (S := S) (x := x) (q2 := q2) (q5 := q5) (a0 := a0) (dis := S.dis) W (by rw [hH]; omega) (new_mem A hf _) ht hc hx ih hl ((c1.alloc _).read I.at0 hf) ((c3.alloc _).read I.at0 hf) (sin_m (I.keep (keeps_alloc _)) hf) (ss_Disable A' hf) with ⟨ea, R⟩ | ⟨s, l, mb', H', ea, h1, h2, h3, R⟩
  · left
    exact ⟨ea, by rw [R]; rfl⟩
  · right
    have K : Keeps (sHeap S mb g) H' := by
      refine ⟨by rw [hn]; rw [hH] at h1; omega, fun y hy => ?_⟩
      rw [hn] at hy
      rw [h2 y (by rw [hH]; omega) (by omega), ← sh_alloc A hf, alloc_mem_old (by rw [hn]; exact hy)]
    obtain ⟨g', K', rfl⟩ := sh_keeps A hf K
    refine ⟨s, l, mb', g', ea, K', ?_⟩
    rw [R, many_ok, h3, rbldOf_val]
    simp only
    rw [onBld_own (f := (mb.join (p.pre step mb.own.dialect ++ s ++ p.post step mb.own.dialect) l (if p.surf then mb'.own.errs else [])).own)]
    · rfl
    · cases p.surf <;> simp [rbld, RBld.append, MB.join]

/-! ### Building the predicate -/

section
variable {q3 qs : Nat} {d : Str} {fr w : Val} {fe : FEdge}

theorem step_eq (G : Nat → FNode) (nn : FNode) (fe : FEdge) : Val.obj c!"sqlgraph.NewStep" [(c!"args", .slice [.obj c!"sqlgraph.From" [(c!"args", .slice [nn.table, nn.column])],
    .obj c!"sqlgraph.To" [(c!"args", .slice [(G fe.to).table, (G fe.to).column])],
    .obj c!"sqlgraph.Edge" [(c!"args", .slice (fe.rel :: fe.inverse :: fe.table :: fe.columns))]])] = stepVal G nn fe := rfl

theorem edge7_one (c1 : Cell g0 q1 g (.slice [nodeVal pn])) (c2 : Cell g0 q2 g (.ptr qs)) (cs : Cell g0 qs g (selectorVal d fr w)) (c3 : Cell g0 q3 g (edgeVal Z.nd fe)) (ht : Z.T t) (ht' : Z.T fe.to)
    (I : SIn Z S g0 m e g) (hf : Fits S mb) :
    execs sqp (sqCall Q N D p k (n + 2)) vcaps edgeB7 5 (edgeLocals S m e x q1 q2 q3 (Z.nd t)) (sHeap S mb g) =
    execs sqp (sqCall Q N D p k (n + 2)) vcaps edgeB8 5 (edgeLocals S m e x q1 q2 q3 (Z.nd t))
      (sHeap S mb (g.put qs (selectorVal d fr (.obj c!"sql.Predicate" [(c!"step", stepVal Z.G (Z.G t) fe)])))) := by
  have r1 := c1.read I.at0 hf
  have r2 := c2.read I.at0 hf
  have r3 := c3.read I.at0 hf
  have ws := cs.write I.at0 hf
  have l1 := fun n => sl_Has (Q := Q) (N := N) (D := D) (p := p) (k := k) (n := n) (cs.read I.at0 hf)
  have f1 := ss_fTable I.at_ hf ht
  have f2 := ss_fID I.at_ hf ht
  have f1' := ss_fTable I.at_ hf ht'
  have f2' := ss_fID I.at_ hf ht'
  gorun [edgeB7, edgeLocals, execSwitch, execFrom, anySame, endSwitch_norm, endSwitch_ret, endSwitch_panic, sp_params, sp_tab, sp_edge, sp_builder, sp_sqlgraph, r1, r2, r3, ws, l1, f1, f2, f1', f2', ss_To, ss_Spec, ss_Column,
    ss_eRel, ss_eInverse, ss_eTable, ss_eColumns, sg_GFrom, sg_GTo, sg_GEdge, sg_GNewStep, sg_GHas, sl_GFrom, sl_GTo, sl_GEdge, sl_GNewStep, step_eq]

theorem edge7_many (c1 : Cell g0 q1 g (.slice vs)) (h1 : (vs.length : Int) ≠ 1) (h2 : (vs.length : Int) ≠ 2) (I : SIn Z S g0 m e g) (hf : Fits S mb) (a0 : Nat) :
    execs sqp (sqCall Q N D p k (n + 2)) vcaps edgeB7 5 (edgeLocals S m e x q1 q2 q3 a0) (sHeap S mb g) =
    execs sqp (sqCall Q N D p k (n + 2)) vcaps edgeB8 5 (edgeLocals S m e x q1 q2 q3 a0) (sHeap S mb (g.put e (sErrVal .edgeParams))) := by
  have r1 := c1.read I.at0 hf
  have pe := sin_pute I hf
  gorun [edgeB7, edgeLocals, execSwitch, execFrom, anySame, endSwitch_norm, endSwitch_ret, endSwitch_panic, sp_params, sp_errors, r1, h1, h2, pe, sg_New, sl_New, sErrVal]

theorem edge7_cond {c : Node} {v0 : Val} (c1 : Cell g0 q1 g (.slice [v0, nodeVal c])) (hc : Complete c) (hx : c ≠ .nil) (hi : isExpression c = false) (hN : lvl c + 3 ≤ N) (I : SIn Z S g0 m e g) (hf : Fits S mb) (a0 : Nat) :
    ∃ g', Keeps g g' ∧ execs sqp (sqCall Q N D p k (n + 2)) vcaps edgeB7 5 (edgeLocals S m e x q1 q2 q3 a0) (sHeap S mb g) =
    execs sqp (sqCall Q N D p k (n + 2)) vcaps edgeB8 5 (edgeLocals S m e x q1 q2 q3 a0) (sHeap S mb (g'.put e (sErrVal (.edgeCond c)))) := by
  obtain ⟨g', K, lS⟩ := sl_String (Q := Q) (D := D) (p := p) (k := k) hc hx hN I.at_ hf
  refine ⟨g', K, ?_⟩
  have r1 := c1.read I.at0 hf
  have pe := sin_pute (I.keep K) hf
  have lI := fun n h => sl_IsExpression (Q := Q) (D := D) (p := p) (k := k) (n := n) (h := h) hx (show 2 ≤ N by omega)
  have sI := fun h => sq_IsExpression (h := h) hx
  have sS := fun h => sq_String (h := h) hx
  have eS := sErr_edgeCond c
  gorun [edgeB7, edgeLocals, execSwitch, execFrom, anySame, endSwitch_norm, endSwitch_ret, endSwitch_panic, endSwitch_brk, sp_params, sp_errors, r1, pe, sI, lI, hi, sS, lS, sg_Errorf, sl_Errorf, eS]

theorem sl_HasWith {H : Heap} {st : Val} {a0 : Nat} (hq : H.mem qs = selectorVal d fr w) : sqCall Q N (D + 3) p (k + 1) (n + 1) (.lib c!"sqlgraph.HasNeighborsWith") [.ptr qs, st, .clo [c!"selector"] [] clo1 (edgeLocals S m e x q1 q2 q3 a0)] H =
    .ok ([], (H.alloc (selectorVal d .nil (.obj c!"sql.Predicate" [(c!"fn", edgeCond2 S m e x q1 q2 q3 a0 H.next)]))).put qs
      (selectorVal d fr (.obj c!"sql.Predicate" [(c!"step", st), (c!"fn", edgeCond2 S m e x q1 q2 q3 a0 H.next)]))) := by
  have e1 : ∀ fn, sqCall Q N (D + 3) p (k + 1) (n + 1) (.lib c!"sqlgraph.HasNeighborsWith") [.ptr qs, st, fn] H = neighborsWith (sqCall Q N (D + 3) p k (D + 3)) qs st fn H := fun _ => rfl
  rw [e1, neighborsWith, hq]
  simp only [selectorVal]
  have hq' : (H.alloc (.obj c!"sql.Selector" [(c!"dialect", .str d), (c!"from", .nil), (c!"where", .nil)])).mem H.next = selectorVal d .nil .nil := alloc_mem_new _
  rw [clo1_run hq', many_ok, put_mem_same, alloc_put_new]
  rfl

theorem edge7_two {c : Node} {v0 : Val} (c1 : Cell g0 q1 g (.slice [v0, nodeVal c])) (hx : c ≠ .nil) (hi : isExpression c = true) (hN : 2 ≤ N)
    (c2 : Cell g0 q2 g (.ptr qs)) (cs : Cell g0 qs g (selectorVal d fr w)) (c3 : Cell g0 q3 g (edgeVal Z.nd fe)) (ht : Z.T t) (ht' : Z.T fe.to)
    (I : SIn Z S g0 m e g) (hf : Fits S mb) :
    execs sqp (sqCall Q N (D + 3) p (k + 1) (n + 2)) vcaps edgeB7 5 (edgeLocals S m e x q1 q2 q3 (Z.nd t)) (sHeap S mb g) =
    execs sqp (sqCall Q N (D + 3) p (k + 1) (n + 2)) vcaps edgeB8 5 (edgeLocals S m e x q1 q2 q3 (Z.nd t))
      (sHeap S mb ((g.alloc (selectorVal d .nil (.obj c!"sql.Predicate" [(c!"fn", edgeCond2 S m e x q1 q2 q3 (Z.nd t) g.next)]))).put qs
        (selectorVal d fr (.obj c!"sql.Predicate" [(c!"step", stepVal Z.G (Z.G t) fe), (c!"fn", edgeCond2 S m e x q1 q2 q3 (Z.nd t) g.next)])))) := by
  have r1 := c1.read I.at0 hf
  have r2 := c2.read I.at0 hf
  have r3 := c3.read I.at0 hf
  have l1 : ∀ n, sqCall Q N (D + 3) p (k + 1) (n + 1) (.lib c!"sqlgraph.HasNeighborsWith") [.ptr qs, stepVal Z.G (Z.G t) fe, .clo [c!"selector"] [] clo1 (edgeLocals S m e x q1 q2 q3 (Z.nd t))] (sHeap S mb g) = _ :=
    fun n => sl_HasWith (cs.read I.at0 hf)
  have ws : ∀ v w, ((sHeap S mb g).alloc v).put qs w = sHeap S mb ((g.alloc v).put qs w) := fun v w => by
    rw [sh_alloc I.at_ hf, sh_put (I.at0.off_new cs.le) hf]
  have f1 := ss_fTable I.at_ hf ht
  have f2 := ss_fID I.at_ hf ht
  have f1' := ss_fTable I.at_ hf ht'
  have f2' := ss_fID I.at_ hf ht'
  have lI := fun n h => sl_IsExpression (Q := Q) (D := D + 3) (p := p) (k := k + 1) (n := n) (h := h) hx hN
  have sI := fun h => sq_IsExpression (h := h) hx
  generalize hcl : Val.clo [c!"selector"] [] clo1 (edgeLocals S m e x q1 q2 q3 (Z.nd t)) = cl at l1
  simp only [edgeLocals] at hcl
  rw [sh_next] at l1
  generalize edgeCond2 S m e x q1 q2 q3 (Z.nd t) g.next = e2 at l1
  gorun [edgeB7, edgeLocals, execSwitch, execFrom, anySame, endSwitch_norm, endSwitch_ret, endSwitch_panic, sp_params, sp_tab, sp_edge, sp_builder, sp_sqlgraph, r1, r2, r3, ws, hcl, l1, f1, f2, f1', f2', ss_To, ss_Spec, ss_Column,
    ss_eRel, ss_eInverse, ss_eTable, ss_eColumns, sg_GFrom, sg_GTo, sg_GEdge, sg_GNewStep, sg_GHasWith, sl_GFrom, sl_GTo, sl_GEdge, sl_GNewStep, step_eq, sI, lI, hi]

/-! ### Joining it -/

theorem edge8_err {er : SErr} (he : g.mem e = sErrVal er) (I : SIn Z S g0 m e g) (hf : Fits S mb) (a0 : Nat) :
    execs sqp (sqCall Q N D p k (n + 2)) vcaps edgeB8 5 (edgeLocals S m e x q1 q2 q3 a0) (sHeap S mb g) = .ok (.norm, edgeLocals S m e x q1 q2 q3 a0, sHeap S mb g) := by
  have re := sin_e I hf
  gorun [edgeB8, edgeLocals, re, he, same_sErr]

theorem edge8 {fs : List (Str × Val)} (hfs : fget c!"Err" fs = none) (he : g.mem e = .nil) (c2 : Cell g0 q2 g (.ptr qs)) (cs : Cell g0 qs g (selectorVal d fr (.obj c!"sql.Predicate" fs))) (I : SIn Z S g0 m e g) (hf : Fits S mb) (a0 : Nat)
    {v : Val} {h1 : Heap} (hJ : sqCall Q N D p k (n + 2) (.meth (.ptr S.a) c!"Join") [.obj c!"sql.Predicate" fs] (sHeap S mb g) = .ok ([v], h1)) :
    execs sqp (sqCall Q N D p k (n + 2)) vcaps edgeB8 5 (edgeLocals S m e x q1 q2 q3 a0) (sHeap S mb g) = .ok (.norm, edgeLocals S m e x q1 q2 q3 a0, h1) := by
  have re := sin_e I hf
  have rm := sin_m I hf
  have r2 := c2.read I.at0 hf
  have pe := sin_pute I hf .nil
  rw [put_self he] at pe
  have lI := fun n => sl_Interface (Q := Q) (N := N) (D := D) (p := p) (k := k) (n := n) (cs.read I.at0 hf)
  have sE := fun h => ss_PErr (h := h) hfs
  have sJ := ss_Join I.at_ hf
  gorun [edgeB8, edgeLocals, re, rm, he, r2, pe, lI, sE, sJ, hJ, vc_rv, vc_rf, vc_p, sp_builder, sp_rv, sp_rf, sp_p, sp_mb, sp_sql, sp_reflect, sp_unsafe, sg_ValueOf, sg_NewAt, sg_Pointer, sl_ValueOf, sl_NewAt, sl_Pointer, ss_Elem1, ss_Elem2, sl_Elem, ss_FieldByName, sl_FieldByName,
    ss_RType, sl_RType, ss_UnsafeAddr, sl_UnsafeAddr, ss_Interface, sl_Pred, sl_PErr]

theorem edge8_panic {fs : List (Str × Val)} (hfs : fget c!"Err" fs = none) (he : g.mem e = .nil) (c2 : Cell g0 q2 g (.ptr qs)) (cs : Cell g0 qs g (selectorVal d fr (.obj c!"sql.Predicate" fs))) (I : SIn Z S g0 m e g) (hf : Fits S mb) (a0 : Nat)
    (hJ : sqCall Q N D p k (n + 2) (.meth (.ptr S.a) c!"Join") [.obj c!"sql.Predicate" fs] (sHeap S mb g) = .panic) :
    execs sqp (sqCall Q N D p k (n + 2)) vcaps edgeB8 5 (edgeLocals S m e x q1 q2 q3 a0) (sHeap S mb g) = .panic := by
  have re := sin_e I hf
  have rm := sin_m I hf
  have r2 := c2.read I.at0 hf
  have pe := sin_pute I hf .nil
  rw [put_self he] at pe
  have lI := fun n => sl_Interface (Q := Q) (N := N) (D := D) (p := p) (k := k) (n := n) (cs.read I.at0 hf)
  have sE := fun h => ss_PErr (h := h) hfs
  have sJ := ss_Join I.at_ hf
  gorun [edgeB8, edgeLocals, re, rm, he, r2, pe, lI, sE, sJ, hJ, vc_rv, vc_rf, vc_p, sp_builder, sp_rv, sp_rf, sp_p, sp_mb, sp_sql, sp_reflect, sp_unsafe, sg_ValueOf, sg_NewAt, sg_Pointer, sl_ValueOf, sl_NewAt, sl_Pointer, ss_Elem1, ss_Elem2, sl_Elem, ss_FieldByName, sl_FieldByName,
    ss_RType, sl_RType, ss_UnsafeAddr, sl_UnsafeAddr, ss_Interface, sl_Pred, sl_PErr]

end
end
end

end Verif.Mini
