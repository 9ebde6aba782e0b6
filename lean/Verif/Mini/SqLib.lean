import Verif.Mini.SqRun
import Verif.Props.Build

/-! # Running /repo/entmq/entsql.go: the calls of ent and of the package miniquery -/

namespace Verif.Mini
open Verif

variable {Q : Char → Bool} {N n k D : Nat} {h g g' : Heap} {L : Lib} {p : SPar} {S : Sit} {mb : MB} {Z : Sch} {args : List Val}

theorem smeth_bld {s : Nat} {r : RBld} (hs : h.mem s = r.val) (m : Str) (hm : findFunc (c!"sql.Builder." ++ m) sqp.decls = none) :
    call sqp L (n + 1) (.meth (.ptr s) m) args h = L (c!"sql.Builder." ++ m) (.ptr s :: args) h := by
  show runMeth sqp L (call sqp L n) (.ptr s) m args _ = _
  have e1 : c!"sql.Builder" ++ '.' :: m = c!"sql.Builder." ++ m := rfl
  simp only [runMeth, structOf, hs, RBld.val]
  rw [e1, hm]
  rfl

theorem flatErr_err (e : SErr) : flatErr (sErrVal e) = [sErrVal e] := by
  cases e with
  | parse e => cases e <;> rfl
  | _ => rfl

theorem ssel_bld {s : Nat} {r : RBld} (hs : h.mem s = r.val) (m : Str) (h1 : fget m [(c!"dialect", .str r.dialect), (c!"total", .int r.total), (c!"sb", .str r.sql), (c!"args", .slice r.args), (c!"errs", .slice r.errs)] = none) :
    select sqp (.ptr s) m h = .ok ([.meth (.ptr s) m], h) := by
  simp only [select, structOf, hs, RBld.val, ownField, h1]
  rfl

theorem holder_eq (b : Bld) : RBld.holder ⟨b.dialect, b.total, b.sql, b.args.map argVal, b.errs.map sErrVal⟩ = b.holder := by
  unfold RBld.holder Bld.holder; split <;> simp_all

section
variable (A : SAt Z S g) (hf : Fits S mb)
include A hf

theorem ss_WriteString : select sqp (.ptr S.s) c!"WriteString" (sHeap S mb g) = .ok ([.meth (.ptr S.s) c!"WriteString"], sHeap S mb g) := ssel_bld (sh_cur A hf) _ rfl
theorem ss_Pad : select sqp (.ptr S.s) c!"Pad" (sHeap S mb g) = .ok ([.meth (.ptr S.s) c!"Pad"], sHeap S mb g) := ssel_bld (sh_cur A hf) _ rfl
theorem ss_Ident : select sqp (.ptr S.s) c!"Ident" (sHeap S mb g) = .ok ([.meth (.ptr S.s) c!"Ident"], sHeap S mb g) := ssel_bld (sh_cur A hf) _ rfl
theorem ss_WriteOp : select sqp (.ptr S.s) c!"WriteOp" (sHeap S mb g) = .ok ([.meth (.ptr S.s) c!"WriteOp"], sHeap S mb g) := ssel_bld (sh_cur A hf) _ rfl
theorem ss_Arg : select sqp (.ptr S.s) c!"Arg" (sHeap S mb g) = .ok ([.meth (.ptr S.s) c!"Arg"], sHeap S mb g) := ssel_bld (sh_cur A hf) _ rfl
theorem ss_Args : select sqp (.ptr S.s) c!"Args" (sHeap S mb g) = .ok ([.meth (.ptr S.s) c!"Args"], sHeap S mb g) := ssel_bld (sh_cur A hf) _ rfl

theorem sl_WriteString (t : Str) : sqCall Q N D p k (n + 1) (.meth (.ptr S.s) c!"WriteString") [.str t] (sHeap S mb g) = .ok ([.ptr S.s], sHeap S (mb.write t) g) := by
  rw [sqCall, smeth_bld (sh_cur A hf) _ rfl]
  exact onBld_cur A hf (RBld.write t) (Bld.write t) fun _ => rfl
theorem sl_Pad : sqCall Q N D p k (n + 1) (.meth (.ptr S.s) c!"Pad") [] (sHeap S mb g) = .ok ([.ptr S.s], sHeap S (mb.write c!" ") g) := by
  rw [sqCall, smeth_bld (sh_cur A hf) _ rfl]
  exact onBld_cur A hf (RBld.write c!" ") (Bld.write c!" ") fun _ => rfl
theorem sl_Ident (t : Str) : sqCall Q N D p k (n + 1) (.meth (.ptr S.s) c!"Ident") [.str t] (sHeap S mb g) =
    .ok ([.ptr S.s], sHeap S (mb.put fun b => b.write (p.ident b.dialect t)) g) := by
  rw [sqCall, smeth_bld (sh_cur A hf) _ rfl]
  exact onBld_cur A hf (fun b => b.write (p.ident b.dialect t)) _ fun _ => rfl
theorem sl_WriteOp (o t : Str) (ho : sqlOps'.lookup o = some t) : sqCall Q N D p k (n + 1) (.meth (.ptr S.s) c!"WriteOp") [.lib o] (sHeap S mb g) =
    .ok ([.ptr S.s], sHeap S (mb.write t) g) := by
  rw [sqCall, smeth_bld (sh_cur A hf) _ rfl]
  have e : sqLib Q N p (sqc Q N D p k) (c!"sql.Builder." ++ c!"WriteOp") [.ptr S.s, .lib o] (sHeap S mb g) =
    (match sqlOps'.lookup o with | some t => onBld S.s (RBld.write t) (sHeap S mb g) | none => .stuck) := rfl
  rw [e, ho]
  exact onBld_cur A hf (RBld.write t) (Bld.write t) fun _ => rfl

theorem bldArg_plain {C} (v : GoVal) : bldArg C S.s (goVal v) (sHeap S mb g) = .ok ([.ptr S.s], sHeap S (mb.put (Bld.arg (.plain v))) g) := by
  have key : ∀ f : RBld, ∀ F : Bld → Bld, f = rbld (F (mbCur mb)) → (.ok ([.ptr S.s], (sHeap S mb g).put S.s f.val) : Vals) = .ok ([.ptr S.s], sHeap S (mb.put F) g) := by
    intro f F e; rw [e, sh_putCur A hf]
  cases v <;> simp only [bldArg, goVal, sh_cur A hf, rbldOf_val] <;> refine key _ _ ?_ <;> simp [rbld, Bld.arg, RBld.write, Bld.write, RBld.add, holder_eq, argVal, goVal]

theorem bldArg_cast (v : GoVal) (hD : 2 ≤ D) : bldArg (sqc Q N D p (k + 1)) S.s (argVal (.cast v)) (sHeap S mb g) =
    .ok ([.ptr S.s], sHeap S (mb.put (Bld.arg (.cast v))) g) := by
  obtain ⟨D, rfl⟩ : ∃ D', D = D' + 2 := ⟨D - 2, by omega⟩
  have e : ∀ ph d, sqc Q N (D + 2) p (k + 1) (.meth (.obj c!"typeCastParamFormatter" [(c!"v", goVal v)]) c!"FormatParam") [.str ph, .obj c!"sql.StmtInfo" [(c!"Dialect", .str d)]] (sHeap S mb g) =
    .ok ([.str (formatParam v.type ph d)], sHeap S mb g) := fun ph d => formatParam_run v ph d
  simp only [bldArg, argVal, sh_cur A hf, rbldOf_val, e, one_ok]
  rw [onBld, sh_cur A hf, rbldOf_val]
  have e2 : RBld.add (formatParam v.type (rbld (mbCur mb)).holder (rbld (mbCur mb)).dialect) (.obj c!"typeCastParamFormatter" [(c!"v", goVal v)]) (rbld (mbCur mb)) =
    rbld (Bld.arg (.cast v) (mbCur mb)) := by
    simp [rbld, Bld.arg, RBld.add, holder_eq, argVal]
  simp only [e2]
  rw [sh_putCur A hf]

theorem sl_Arg_plain (v : GoVal) : sqCall Q N D p k (n + 1) (.meth (.ptr S.s) c!"Arg") [goVal v] (sHeap S mb g) =
    .ok ([.ptr S.s], sHeap S (mb.put (Bld.arg (.plain v))) g) := by
  rw [sqCall, smeth_bld (sh_cur A hf) _ rfl]
  exact bldArg_plain A hf v
theorem sl_Arg_cast (v : GoVal) (hD : 2 ≤ D) : sqCall Q N D p (k + 1) (n + 1) (.meth (.ptr S.s) c!"Arg") [argVal (.cast v)] (sHeap S mb g) =
    .ok ([.ptr S.s], sHeap S (mb.put (Bld.arg (.cast v))) g) := by
  rw [sqCall, smeth_bld (sh_cur A hf) _ rfl]
  exact bldArg_cast A hf v hD
end

theorem put_compose (f f' : Bld → Bld) : (mb.put f).put f' = mb.put (fun b => f' (f b)) := by
  unfold MB.put; cases mb with | mk o e => cases e <;> rfl
theorem put_id : mb.put (fun b => b) = mb := by
  unfold MB.put; cases mb with | mk o e => cases e <;> rfl

theorem bldArgs_run {C} (A : SAt Z S g) (l : List GoVal) : ∀ mb : MB, Fits S mb → bldArgs C S.s (goVals l) (sHeap S mb g) = .ok ([.ptr S.s], sHeap S (mb.put (Bld.argList l)) g) := by
  induction l with
  | nil =>
    intro mb hf
    have e : Bld.argList [] = fun b => b := by funext b; rw [Bld.argList]
    rw [e, put_id]; rfl
  | cons v l ih =>
    intro mb hf
    cases l with
    | nil =>
      have e : Bld.argList [v] = Bld.arg (.plain v) := by funext b; rw [Bld.argList]
      rw [e]
      exact bldArg_plain A hf v
    | cons w l =>
      have e : Bld.argList (v :: w :: l) = fun b => Bld.argList (w :: l) (Bld.write c!", " (Bld.arg (.plain v) b)) := by funext b; rw [Bld.argList]; simp
      have e1 : bldArgs C S.s (goVals (v :: w :: l)) (sHeap S mb g) = many (bldArg C S.s (goVal v) (sHeap S mb g)) fun _ h => many (onBld S.s (RBld.write c!", ") h) fun _ h => bldArgs C S.s (goVals (w :: l)) h := rfl
      have hf1 : Fits S (mb.put (Bld.arg (.plain v))) := by rw [fits_put]; exact hf
      rw [e1, bldArg_plain A hf v, many_ok, onBld_cur A hf1 (RBld.write c!", ") (Bld.write c!", ") (fun _ => rfl), many_ok, ih _ (by rw [fits_put]; exact hf1), e, put_compose, put_compose]

theorem sl_Args (A : SAt Z S g) (hf : Fits S mb) (l : List GoVal) : sqCall Q N D p k (n + 1) (.meth (.ptr S.s) c!"Args") (goVals l) (sHeap S mb g) =
    .ok ([.ptr S.s], sHeap S (mb.put (Bld.argList l)) g) := by
  rw [sqCall, smeth_bld (sh_cur A hf) _ rfl]
  exact bldArgs_run A l mb hf

/-! ## The methods of the embedded builder -/

theorem smeth_mb (A : SAt Z S g) (hf : Fits S mb) (m : Str) (hm : findFunc (c!"MiniQLToEntSQLBuilder." ++ m) sqp.decls = none) :
    call sqp L (n + 1) (.meth (.ptr S.a) m) args (sHeap S mb g) = L (c!"MiniQLToEntSQLBuilder." ++ m) (.ptr S.a :: args) (sHeap S mb g) := by
  show runMeth sqp L (call sqp L n) (.ptr S.a) m args _ = _
  have e1 : c!"MiniQLToEntSQLBuilder" ++ '.' :: m = c!"MiniQLToEntSQLBuilder." ++ m := rfl
  simp only [runMeth, structOf, sh_mem A.oa hf, A.mem, Sit.val, mbVal]
  rw [e1, hm]
  rfl

theorem sembedded (A : SAt Z S g) (hf : Fits S mb) : embeddedBld (sHeap S mb g) S.a = some S.b := by
  rw [embeddedBld, sh_mem A.oa hf, A.mem]; rfl

theorem smeth_own (A : SAt Z S g) (hf : Fits S mb) (m : Str) (hm : findFunc (c!"MiniQLToEntSQLBuilder." ++ m) sqp.decls = none)
    (hl : ∀ C args h, sqLib Q N p C (c!"MiniQLToEntSQLBuilder." ++ m) (.ptr S.a :: args) h = match embeddedBld h S.a with | some b => bldLib p C m b args h | none => .stuck) :
    sqCall Q N D p k (n + 1) (.meth (.ptr S.a) m) args (sHeap S mb g) = bldLib p (sqc Q N D p k) m S.b args (sHeap S mb g) := by
  rw [sqCall, smeth_mb A hf m hm, hl, sembedded A hf]

section
variable (A : SAt Z S g) (hf : Fits S mb)
include A hf

theorem ssel_mb (m : Str) (v : Val) (hm : fget m [(c!"Node", nodePtr Z.nd S.node), (c!"QueryString", .str S.q), (c!"ast", S.ast), (c!"SQLBuilder", if S.x then .ptr S.c else .nil), (c!"Graph", S.graph),
    (c!"Builder", .ptr S.b), (c!"DisableTypeCasting", .bool S.dis)] = some v) : select sqp (.ptr S.a) m (sHeap S mb g) = .ok ([v], sHeap S mb g) := by
  simp only [select, structOf, sh_mem A.oa hf, A.mem, Sit.val, mbVal, ownField, hm]

theorem ss_Node : select sqp (.ptr S.a) c!"Node" (sHeap S mb g) = .ok ([nodePtr Z.nd S.node], sHeap S mb g) := ssel_mb A hf _ _ rfl
theorem ss_QueryString : select sqp (.ptr S.a) c!"QueryString" (sHeap S mb g) = .ok ([.str S.q], sHeap S mb g) := ssel_mb A hf _ _ rfl
theorem ss_ast : select sqp (.ptr S.a) c!"ast" (sHeap S mb g) = .ok ([S.ast], sHeap S mb g) := ssel_mb A hf _ _ rfl
theorem ss_SQLBuilder : select sqp (.ptr S.a) c!"SQLBuilder" (sHeap S mb g) = .ok ([if S.x then .ptr S.c else .nil], sHeap S mb g) := ssel_mb A hf _ _ rfl
theorem ss_Builder : select sqp (.ptr S.a) c!"Builder" (sHeap S mb g) = .ok ([.ptr S.b], sHeap S mb g) := ssel_mb A hf _ _ rfl
theorem ss_Disable : select sqp (.ptr S.a) c!"DisableTypeCasting" (sHeap S mb g) = .ok ([.bool S.dis], sHeap S mb g) := ssel_mb A hf _ _ rfl

theorem ssel_mb_meth (m : Str) (hm : m = c!"visit" ∨ m = c!"Dialect" ∨ m = c!"Join" ∨ m = c!"AddError" ∨ m = c!"Err") :
    select sqp (.ptr S.a) m (sHeap S mb g) = .ok ([.meth (.ptr S.a) m], sHeap S mb g) := by
  simp only [select, structOf, sh_mem A.oa hf, A.mem, Sit.val, mbVal]
  rcases hm with e | e | e | e | e <;> subst e <;> rfl
theorem ss_visit : select sqp (.ptr S.a) c!"visit" (sHeap S mb g) = .ok ([.meth (.ptr S.a) c!"visit"], sHeap S mb g) := ssel_mb_meth A hf _ (by simp)
theorem ss_mbDialect : select sqp (.ptr S.a) c!"Dialect" (sHeap S mb g) = .ok ([.meth (.ptr S.a) c!"Dialect"], sHeap S mb g) := ssel_mb_meth A hf _ (by simp)
theorem ss_Join : select sqp (.ptr S.a) c!"Join" (sHeap S mb g) = .ok ([.meth (.ptr S.a) c!"Join"], sHeap S mb g) := ssel_mb_meth A hf _ (by simp)
theorem ss_AddError : select sqp (.ptr S.a) c!"AddError" (sHeap S mb g) = .ok ([.meth (.ptr S.a) c!"AddError"], sHeap S mb g) := ssel_mb_meth A hf _ (by simp)
theorem ss_Err : select sqp (.ptr S.a) c!"Err" (sHeap S mb g) = .ok ([.meth (.ptr S.a) c!"Err"], sHeap S mb g) := ssel_mb_meth A hf _ (by simp)

theorem sl_Dialect : sqCall Q N D p k (n + 1) (.meth (.ptr S.a) c!"Dialect") [] (sHeap S mb g) = .ok ([.str mb.own.dialect], sHeap S mb g) := by
  rw [smeth_own A hf _ rfl (fun _ _ _ => rfl)]
  have e : bldLib p (sqc Q N D p k) c!"Dialect" S.b [] (sHeap S mb g) = match rbldOf ((sHeap S mb g).mem S.b) with | some b => .ok ([.str b.dialect], sHeap S mb g) | none => .stuck := rfl
  rw [e, sh_own, rbldOf_val]
  rfl

theorem sl_Err : sqCall Q N D p k (n + 1) (.meth (.ptr S.a) c!"Err") [] (sHeap S mb g) =
    .ok ([if mb.own.errs.isEmpty then .nil else .obj c!"sql.errors" [(c!"errs", .slice (mb.own.errs.map sErrVal))]], sHeap S mb g) := by
  rw [smeth_own A hf _ rfl (fun _ _ _ => rfl)]
  have e : bldLib p (sqc Q N D p k) c!"Err" S.b [] (sHeap S mb g) = bldErr S.b (sHeap S mb g) := rfl
  rw [e, bldErr, sh_own, rbldOf_val]
  simp [rbld]

theorem sl_AddError (e : SErr) : sqCall Q N D p k (n + 1) (.meth (.ptr S.a) c!"AddError") [sErrVal e] (sHeap S mb g) =
    .ok ([], sHeap S { mb with own := mb.own.addErr e } g) := by
  rw [smeth_own A hf _ rfl (fun _ _ _ => rfl)]
  have e1 : bldLib p (sqc Q N D p k) c!"AddError" S.b [sErrVal e] (sHeap S mb g) = addError S.b (sErrVal e) (sHeap S mb g) := rfl
  rw [e1, addError, onBld_own (f := mb.own.addErr e), many_ok]
  simp [flatErr_err, rbld, Bld.addErr]

theorem sl_JoinHas (step : Val) : sqCall Q N D p k (n + 1) (.meth (.ptr S.a) c!"Join") [.obj c!"sql.Predicate" [(c!"step", step)]] (sHeap S mb g) =
    .ok ([.ptr S.b], sHeap S (mb.join (p.has step mb.own.dialect) [] []) g) := by
  rw [smeth_own A hf _ rfl (fun _ _ _ => rfl)]
  have e1 : bldLib p (sqc Q N D p k) c!"Join" S.b [.obj c!"sql.Predicate" [(c!"step", step)]] (sHeap S mb g) = onBld S.b (fun b => b.write (p.has step b.dialect)) (sHeap S mb g) := rfl
  rw [e1, onBld_own (f := (mb.join (p.has step mb.own.dialect) [] []).own)]
  · rfl
  · simp [rbld, RBld.write, MB.join]
end

/-! ## Calls of the package miniquery -/

theorem smeth_node {x : Node} (hx : x ≠ .nil) (m : Str) (hm : findFunc (c!"Node." ++ m) sqp.decls = none) (hs : (((findStruct c!"Node" sqp.decls).getD []).find? fun (g, t) => t = .un c!"*" (.id g) ∧ (findFunc (g ++ '.' :: m) sqp.decls).isSome) = none)
    (hl : ∀ C, sqLib Q N p C (c!"Node." ++ m) (nodeVal x :: args) h = mqCall Q N (.meth (nodeVal x) m) args h) :
    sqCall Q N D p k (n + 1) (.meth (nodeVal x) m) args h = mqCall Q N (.meth (nodeVal x) m) args h := by
  obtain ⟨fs, e⟩ := structOf_node hx
  have e1 : c!"Node" ++ '.' :: m = c!"Node." ++ m := rfl
  show runMeth sqp (sqLib Q N p (sqc Q N D p k)) (sqCall Q N D p k n) (nodeVal x) m args h = _
  rw [← hl (sqc Q N D p k)]
  rw [e]
  simp only [runMeth, structOf]
  rw [e1, hm]
  simp only [hs]

theorem sl_Value {x : Node} (hx : x ≠ .nil) (hN : lvl x + 2 ≤ N) : sqCall Q N D p k (n + 1) (.meth (nodeVal x) c!"Value") [] h = valueOut h (value x) := by
  rw [smeth_node hx _ rfl rfl fun _ => rfl]
  obtain ⟨N, rfl⟩ : ∃ N', N = N' + 2 := ⟨N - 2, by omega⟩
  exact value_run (Q := Q) (lvl x) x hx (Nat.le_refl _) N (by omega) h

theorem sl_IsExpression {x : Node} (hx : x ≠ .nil) (hN : 2 ≤ N) : sqCall Q N D p k (n + 1) (.meth (nodeVal x) c!"IsExpression") [] h = .ok ([.bool (isExpression x)], h) := by
  rw [smeth_node hx _ rfl rfl fun _ => rfl]
  obtain ⟨N, rfl⟩ : ∃ N', N = N' + 2 := ⟨N - 2, by omega⟩
  exact isExpression_run hx

theorem sl_String {x : Node} (hc : Complete x) (hx : x ≠ .nil) (hN : lvl x + 3 ≤ N) (A : SAt Z S g) (hf : Fits S mb) :
    ∃ g', Keeps g g' ∧ ∀ n, sqCall Q N D p k (n + 1) (.meth (nodeVal x) c!"String") [] (sHeap S mb g) = .ok ([.str ((nodeStr x).getD [])], sHeap S mb g') := by
  obtain ⟨N, rfl⟩ : ∃ N', N = N' + 3 := ⟨N - 3, by omega⟩
  obtain ⟨h', K, e⟩ := string_run (Q := Q) (lvl x) x hx (Nat.le_refl _) N (by omega) (sHeap S mb g)
  obtain ⟨g', K', eh⟩ := sh_keeps A hf K
  obtain ⟨t, et⟩ := nodeStr_complete hc
  refine ⟨g', K', fun n => ?_⟩
  rw [smeth_node hx _ rfl rfl fun _ => rfl, e, et, eh]
  rfl

end Verif.Mini
