import Verif.Mini.SqQuery

/-! # Running /repo/entmq/entsql.go: `has_edge` -/

namespace Verif.Mini
open Verif

set_option linter.unusedSimpArgs false

variable {Q : Char → Bool} {N n k kk D m e : Nat} {h g g0 g' : Heap} {L : Lib} {p : SPar} {S : Sit} {mb : MB} {Z : Sch} {args : List Val}

/-- The variables of `has_edge` once the edge has been found. -/
def edgeLocals (S : Sit) (m e : Nat) (x : Node) (q1 q2 q3 a : Nat) : Locals :=
  [(c!"ok", .val (.bool true)), (c!"edge", .box q3), (c!"builder", .box q2), (c!"tab", .val (.ptr a)), (c!"params", .box q1),
   (c!"s", .val (.ptr S.s)), (c!"visit", .val (.meth (.ptr S.a) c!"visit")), (c!"err", .box e), (c!"node", .val (nodeVal x)), (c!"mb", .box m)]

/-- The condition of an edge, as a value. -/
def edgeCond2 (S : Sit) (m e : Nat) (x : Node) (q1 q2 q3 a q5 : Nat) : Val := .clo [c!"builder"] [] clo2 ((c!"selector", .val (.ptr q5)) :: edgeLocals S m e x q1 q2 q3 a)

theorem sp_params : findPkg c!"params" sqp.decls = false := rfl
theorem sp_edge : findPkg c!"edge" sqp.decls = false := rfl
theorem sp_builder : findPkg c!"builder" sqp.decls = false := rfl
theorem sp_selector : findPkg c!"selector" sqp.decls = false := rfl
theorem sf_mb : findStruct c!"MiniQLToEntSQLBuilder" sqp.decls = some [(c!"Node", .un c!"*" (.sel (.id c!"sqlgraph") c!"Node")), (c!"QueryString", .id c!"string"), (c!"ast", .un c!"*" (.sel (.id c!"miniquery") c!"Node")),
  (c!"SQLBuilder", .un c!"*" (.sel (.id c!"sql") c!"Builder")), (c!"Graph", .un c!"*" (.sel (.id c!"sqlgraph") c!"Schema")), (c!"Builder", .sel (.id c!"sql") c!"Builder"), (c!"DisableTypeCasting", .id c!"bool")] := rfl
theorem ss_To (nd e) : select sqp (edgeVal nd e) c!"To" h = .ok ([.ptr (nd e.to)], h) := rfl
theorem ss_Spec (nd e) : select sqp (edgeVal nd e) c!"Spec" h = .ok ([.obj c!"sqlgraph.EdgeSpec" [(c!"Rel", e.rel), (c!"Inverse", e.inverse), (c!"Table", e.table), (c!"Columns", .slice e.columns)]], h) := rfl

theorem clo2_run {H : Heap} {b2 tot q1 q2 q3 q5 a0 : Nat} {d : Str} {x c : Node} {v0 : Val} {fe : FEdge} {dis : Bool} (W : SchAt Z b2 H) (hb : b2 < H.next) (hB : H.mem b2 = (rbld (fresh d tot)).val) (ht : Z.T fe.to)
    (hc : Complete c) (hx : c ≠ .nil) (ih : SBelow Q N (D + 2) p Z (innerSit H.next fe.to c dis) k (D + 1) kk) (hl : lvl c < kk)
    (h1 : H.mem q1 = .slice [v0, nodeVal c]) (h3 : H.mem q3 = edgeVal Z.nd fe) (hm : H.mem m = .ptr S.a) (hd : select sqp (.ptr S.a) c!"DisableTypeCasting" H = .ok ([.bool dis], H)) :
    ((afterQuery (svisit (senv p Z.G (!dis)) (some fe.to) c { own := fresh d tot }) = none ∧
      sqCall Q N (D + 2) p (k + 1) (n + 3) (edgeCond2 S m e x q1 q2 q3 a0 q5) [.ptr b2] H = .panic) ∨
    ∃ s l mb' H', afterQuery (svisit (senv p Z.G (!dis)) (some fe.to) c { own := fresh d tot }) = some (s, l, mb') ∧
      H.next ≤ H'.next ∧ (∀ y, y < H.next → y ≠ b2 → H'.mem y = H.mem y) ∧ H'.mem b2 = RBld.val ⟨d, tot + l.length, s, l.map argVal, mb'.own.errs.map sErrVal⟩ ∧
      sqCall Q N (D + 2) p (k + 1) (n + 3) (edgeCond2 S m e x q1 q2 q3 a0 q5) [.ptr b2] H = .ok ([], H')) := by
  have e0 : sqCall Q N (D + 2) p (k + 1) (n + 3) (edgeCond2 S m e x q1 q2 q3 a0 q5) [.ptr b2] H =
      runBody sqp (sqCall Q N (D + 2) p (k + 1) (n + 2)) [c!"builder"] [] clo2 ((c!"selector", .val (.ptr q5)) :: edgeLocals S m e x q1 q2 q3 a0) [.ptr b2] H := rfl
  rw [e0, runBody_plain (by decide) (by decide) (by decide)]
  generalize hV : Val.obj c!"MiniQLToEntSQLBuilder" [(c!"Node", .ptr (Z.nd fe.to)), (c!"QueryString", .str []), (c!"ast", nodeVal c), (c!"SQLBuilder", .nil), (c!"Graph", .nil), (c!"Builder", .nil), (c!"DisableTypeCasting", .bool dis)] = V
  have sJ : select sqp (.ptr b2) c!"Join" (H.alloc V) = .ok ([.meth (.ptr b2) c!"Join"], H.alloc V) := ssel_bld (r := rbld (fresh d tot)) (by rw [alloc_mem_old hb, hB]) _ rfl
  rcases joinMb_run (n := n + 1) W hb hB ht hc hx ih hl V hV.symm with ⟨ea, R⟩ | ⟨s, l, mb', G, ea, F, A, hn, ho, hG, R⟩
  · left
    refine ⟨ea, ?_⟩
    gorun [clo2, edgeLocals, h1, h3, hm, hd, ss_To, smk_mb, sf_mb, hV, sJ, R, sp_params, sp_edge, sp_builder, sp_mb]
  · right
    have ob : (innerSit H.next fe.to c dis).off b2 := ⟨by simp only [innerSit]; omega, fun h => by simp [innerSit] at h⟩
    have of : ∀ y, y < H.next → (innerSit H.next fe.to c dis).off y := fun y hy => ⟨by simp only [innerSit]; omega, fun h => by simp [innerSit] at h⟩
    have sE := ss_Err A F
    have lE := fun n => sl_Err (Q := Q) (N := N) (D := D + 2) (p := p) (k := k + 1) (n := n) A F
    rw [show (innerSit H.next fe.to c dis).a = H.next from rfl] at sE lE
    have mB : (sHeap (innerSit H.next fe.to c dis) mb' G).mem b2 = _ := (sh_mem ob F).trans hG
    cases he : mb'.own.errs with
    | nil =>
      rw [he] at lE
      refine ⟨s, l, mb', sHeap (innerSit H.next fe.to c dis) mb' G, ea, by rw [sh_next]; exact hn, fun y hy hy' => ?_, ?_, ?_⟩
      · rw [sh_mem (of y hy) F, ho y hy hy']
      · rw [mB, he]; rfl
      · gorun [clo2, edgeLocals, h1, h3, hm, hd, ss_To, smk_mb, sf_mb, hV, sJ, R, sp_params, sp_edge, sp_builder, sp_mb, sE, lE]
    | cons er rest =>
      rw [he] at lE
      have sA : select sqp (.ptr b2) c!"AddError" (sHeap (innerSit H.next fe.to c dis) mb' G) = .ok ([.meth (.ptr b2) c!"AddError"], sHeap (innerSit H.next fe.to c dis) mb' G) := ssel_bld mB _ rfl
      have lA : ∀ n, sqCall Q N (D + 2) p (k + 1) (n + 1) (.meth (.ptr b2) c!"AddError") [.obj c!"sql.errors" [(c!"errs", .slice ((er :: rest).map sErrVal))]] (sHeap (innerSit H.next fe.to c dis) mb' G) =
          .ok ([], (sHeap (innerSit H.next fe.to c dis) mb' G).put b2 (RBld.val ⟨d, tot + l.length, s, l.map argVal, (er :: rest).map sErrVal⟩)) := by
        intro n
        rw [sqCall, smeth_bld mB _ rfl]
        have e1 : sqLib Q N p (sqc Q N (D + 2) p (k + 1)) (c!"sql.Builder." ++ c!"AddError") [.ptr b2, .obj c!"sql.errors" [(c!"errs", .slice ((er :: rest).map sErrVal))]] (sHeap (innerSit H.next fe.to c dis) mb' G) =
          addError b2 (.obj c!"sql.errors" [(c!"errs", .slice ((er :: rest).map sErrVal))]) (sHeap (innerSit H.next fe.to c dis) mb' G) := rfl
        rw [e1, addError, onBld, mB, rbldOf_val]
        simp [flatErr, many_ok]
      have hne : ∀ v, same (.obj c!"sql.errors" v) .nil = some false := fun _ => rfl
      refine ⟨s, l, mb', (sHeap (innerSit H.next fe.to c dis) mb' G).put b2 (RBld.val ⟨d, tot + l.length, s, l.map argVal, (er :: rest).map sErrVal⟩), ea, ?_, fun y hy hy' => ?_, ?_, ?_⟩
      · show H.next ≤ (sHeap (innerSit H.next fe.to c dis) mb' G).next
        rw [sh_next]; exact hn
      · rw [put_mem_other _ _ hy', sh_mem (of y hy) F, ho y hy hy']
      · rw [put_mem_same, he]
      · simp only [List.map_cons] at lA ⊢
        gorun [clo2, edgeLocals, h1, h3, hm, hd, ss_To, smk_mb, sf_mb, hV, sJ, R, sp_params, sp_edge, sp_builder, sp_mb, sE, lE, sA, lA, hne]

end Verif.Mini
