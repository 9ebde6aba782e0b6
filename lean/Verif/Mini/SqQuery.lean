import Verif.Mini.SqVisit

/-! # Running /repo/entmq/entsql.go: `Query`, and the condition of `has_edge` -/

namespace Verif.Mini
open Verif

set_option linter.unusedSimpArgs false

variable {Q : Char → Bool} {N n k kk D m e : Nat} {h g g0 g' : Heap} {L : Lib} {p : SPar} {S : Sit} {mb : MB} {Z : Sch} {args : List Val}

theorem squery_enter (A : SAt Z S g) (hf : Fits S mb) : call sqp L (n + 1) (.meth (.ptr S.a) c!"Query") [] (sHeap S mb g) =
    finish [c!"_", c!"_"] (execs sqp (call sqp L n) [] entsqlMiniQLToEntSQLBuilderQuery 0 [(c!"mb", .val (.ptr S.a))] (sHeap S mb g)) := by
  have e0 : call sqp L (n + 1) (.meth (.ptr S.a) c!"Query") [] (sHeap S mb g) = runMeth sqp L (call sqp L n) (.ptr S.a) c!"Query" [] (sHeap S mb g) := rfl
  have e1 : findFunc (c!"MiniQLToEntSQLBuilder" ++ '.' :: c!"Query") sqp.decls = some ⟨true, [c!"mb"], [c!"_", c!"_"], entsqlMiniQLToEntSQLBuilderQuery⟩ := rfl
  rw [e0, runMeth, structOf, sh_mem A.oa hf, A.mem]
  simp only [Sit.val, mbVal]
  rw [e1]
  simp only [if_true]
  rw [runBody_plain (by decide) (by decide) (by decide)]
  rfl

/-- What `Query` does after a visit. -/
def qOut (S : Sit) (g : Heap) : SRes → Vals
  | .panic => .panic
  | .ok mb => .ok ([.str mb.own.sql, .slice (mb.own.args.map argVal)], sHeap S mb g)
  | .err e mb => .ok ([.str [], .nil], sHeap S { mb with own := mb.own.addErr e } g)

theorem ss_bQuery : select sqp (.ptr S.b) c!"Query" (sHeap S mb g) = .ok ([.meth (.ptr S.b) c!"Query"], sHeap S mb g) := ssel_bld sh_own _ rfl
theorem sl_bQuery : sqCall Q N D p k (n + 1) (.meth (.ptr S.b) c!"Query") [] (sHeap S mb g) = .ok ([.str mb.own.sql, .slice (mb.own.args.map argVal)], sHeap S mb g) := by
  rw [sqCall, smeth_bld sh_own _ rfl]
  have e : sqLib Q N p (sqc Q N D p k) (c!"sql.Builder." ++ c!"Query") [.ptr S.b] (sHeap S mb g) =
    (match rbldOf ((sHeap S mb g).mem S.b) with | some b => .ok ([.str b.sql, .slice b.args], sHeap S mb g) | none => .stuck) := rfl
  rw [e, sh_own, rbldOf_val]
  rfl

/-- Running `Query` on a builder that has a tree. -/
theorem squery_ast {x : Node} (hx : x ≠ .nil) (hx' : S.ast = nodeVal x) (A : SAt Z S g) (hf : Fits S mb) {r : SRes}
    (R : SDone S g (sqCall Q N D p k (n + 1) (.meth (.ptr S.a) c!"visit") [nodeVal x] (sHeap S mb g)) r) :
    (∃ g', Keeps g g' ∧ sqCall Q N D p k (n + 2) (.meth (.ptr S.a) c!"Query") [] (sHeap S mb g) = qOut S g' r) ∧ SFits S r := by
  obtain ⟨⟨g1, K, R⟩, F⟩ := R
  refine ⟨⟨g1, K, ?_⟩, F⟩
  refine (squery_enter A hf).trans ?_
  have ha := ss_ast A hf
  have hv := ss_visit A hf
  have A1 := A.keeps K
  rw [hx'] at ha
  have hs := same_node hx
  cases r with
  | panic => gorun [entsqlMiniQLToEntSQLBuilderQuery, sp_mb, ha, hv, R, sqOut, qOut, hs]
  | ok mb1 =>
    simp only [SFits] at F
    have hb := ss_Builder A1 F
    gorun [entsqlMiniQLToEntSQLBuilderQuery, sp_mb, ha, hv, R, sqOut, qOut, hb, ss_bQuery, sl_bQuery, hs]
  | err er mb1 =>
    simp only [SFits] at F
    have hb := ss_AddError A1 F
    have hc := fun n => sl_AddError (Q := Q) (N := N) (D := D) (p := p) (k := k) (n := n) A1 F er
    gorun [entsqlMiniQLToEntSQLBuilderQuery, sp_mb, ha, hv, R, sqOut, qOut, hb, hc, same_sErr, hs]

/-! ## The condition of an edge -/

/-- The schema is in memory below an address. -/
structure SchAt (Z : Sch) (lim : Nat) (h : Heap) : Prop where
  ln : ∀ t, Z.T t → Z.nd t < lim
  nodes : ∀ t, Z.T t → h.mem (Z.nd t) = fnodeVal Z.nd (Z.G t)

/-- The builder of a condition. -/
def innerSit (a : Nat) (t : Nat) (c : Node) (dis : Bool) : Sit := { a := a, b := a + 1, c := 0, x := false, node := some t, q := [], ast := nodeVal c, graph := .nil, dis := dis }

/-- A new builder. -/
def fresh (d : Str) (tot : Nat) : Bld := { dialect := d, total := tot }

/-- What `Builder.Join` makes of a builder before it asks for its query. -/
theorem inner_heap (H : Heap) (t : Nat) (c : Node) (dis : Bool) (d : Str) (tot : Nat) (B V0 : Val) :
    ((H.alloc V0).alloc (rbld (fresh d tot)).val).put H.next (mbVal (.ptr (Z.nd t)) [] (nodeVal c) .nil .nil (H.next + 1) dis) =
    sHeap (innerSit H.next t c dis) { own := fresh d tot } ((H.alloc ((innerSit H.next t c dis).val Z)).alloc B) := by
  simp only [sHeap, innerSit, Sit.val, Heap.alloc, Heap.put, Heap.mk.injEq, true_and]
  funext y
  by_cases h1 : y = H.next <;> by_cases h2 : y = H.next + 1 <;> simp [h1, h2, nodePtr]

theorem inner_at {H : Heap} {lim : Nat} (hl : lim ≤ H.next) (W : SchAt Z lim H) {t : Nat} (ht : Z.T t) (c : Node) (dis : Bool) (B : Val) :
    SAt Z (innerSit H.next t c dis) ((H.alloc ((innerSit H.next t c dis).val Z)).alloc B) where
  la := by simp only [innerSit, salloc_next]; omega
  lb := by simp [innerSit, salloc_next]
  lc h := by simp [innerSit] at h
  oa := ⟨by simp [innerSit], fun h => by simp [innerSit] at h⟩
  bc h := by simp [innerSit] at h
  mem := by
    rw [alloc_mem_old (by simp [innerSit, salloc_next])]
    exact alloc_mem_new _
  node t' h := by simp only [innerSit, Option.some.injEq] at h; subst h; exact ht
  ln t' h := by have := W.ln t' h; simp only [salloc_next]; omega
  on t' h := ⟨by have := W.ln t' h; simp only [innerSit]; omega, fun h => by simp [innerSit] at h⟩
  nodes t' h := by
    have := W.ln t' h
    rw [alloc_mem_old (by simp only [salloc_next]; omega), alloc_mem_old (by omega), W.nodes t' h]

theorem inner_fits (a t c dis d tot) : Fits (innerSit a t c dis) { own := fresh d tot } := rfl

/-- The function that makes the condition of an edge. -/
def clo2 : Stmts := (.cons (.define [c!"mb"] (.cons (.un c!"&" (.lit (.id c!"MiniQLToEntSQLBuilder") (.cons (.id c!"ast") (.cons (.id c!"Node") (.cons (.id c!"DisableTypeCasting") .nil))) (.cons (.idx (.id c!"params") (.int 1)) (.cons (.sel (.id c!"edge") c!"To") (.cons (.sel (.id c!"mb") c!"DisableTypeCasting") .nil))))) .nil))
  (.cons (.expr (.call (.sel (.id c!"builder") c!"Join") (.cons (.id c!"mb") .nil) false))
  (.cons (.define [c!"err"] (.cons (.call (.sel (.id c!"mb") c!"Err") .nil false) .nil))
  (.cons (.ite .nil (.bin c!"!=" (.id c!"err") (.id c!"nil")) (.cons (.expr (.call (.sel (.id c!"builder") c!"AddError") (.cons (.id c!"err") .nil) false))
  .nil) .nil)
  .nil))))

/-- The function that gives a selector the condition of an edge. -/
def clo1 : Stmts := (.cons (.expr (.call (.sel (.id c!"selector") c!"Where") (.cons (.call (.sel (.id c!"sql") c!"P") (.cons (.fn [c!"builder"] [] clo2) .nil) false) .nil) false))
  .nil)

theorem smk_mb (v w z) : mkStruct sqp c!"MiniQLToEntSQLBuilder" [(c!"ast", v), (c!"Node", w), (c!"DisableTypeCasting", z)] h = .ok ([.ptr h.next], h.alloc (.obj c!"MiniQLToEntSQLBuilder"
    [(c!"Node", w), (c!"QueryString", .str []), (c!"ast", v), (c!"SQLBuilder", .nil), (c!"Graph", .nil), (c!"Builder", .nil), (c!"DisableTypeCasting", z)])) := rfl

/-- What `Query` leaves in the builder. -/
def afterQuery : SRes → Option (Str × List SArg × MB)
  | .panic => none
  | .ok mb => some (mb.own.sql, mb.own.args, mb)
  | .err e mb => some ([], [], { mb with own := mb.own.addErr e })

/-- Joining the builder of a condition. -/
theorem joinMb_run {H : Heap} {b2 tot t : Nat} {d : Str} {c : Node} {dis : Bool} (W : SchAt Z b2 H) (hb : b2 < H.next) (hB : H.mem b2 = (rbld (fresh d tot)).val) (ht : Z.T t) (hc : Complete c) (hx : c ≠ .nil)
    (ih : SBelow Q N (D + 2) p Z (innerSit H.next t c dis) k (D + 1) kk) (hl : lvl c < kk) (V : Val)
    (hV : V = .obj c!"MiniQLToEntSQLBuilder" [(c!"Node", .ptr (Z.nd t)), (c!"QueryString", .str []), (c!"ast", nodeVal c), (c!"SQLBuilder", .nil), (c!"Graph", .nil), (c!"Builder", .nil), (c!"DisableTypeCasting", .bool dis)]) :
    ((afterQuery (svisit (senv p Z.G (!dis)) (some t) c { own := fresh d tot }) = none ∧
      sqCall Q N (D + 2) p (k + 1) (n + 1) (.meth (.ptr b2) c!"Join") [.ptr H.next] (H.alloc V) = .panic) ∨
    ∃ s l mb' G, afterQuery (svisit (senv p Z.G (!dis)) (some t) c { own := fresh d tot }) = some (s, l, mb') ∧ Fits (innerSit H.next t c dis) mb' ∧
      SAt Z (innerSit H.next t c dis) G ∧ H.next ≤ G.next ∧ (∀ y, y < H.next → y ≠ b2 → G.mem y = H.mem y) ∧ G.mem b2 = RBld.val ⟨d, tot + l.length, s, l.map argVal, []⟩ ∧
      sqCall Q N (D + 2) p (k + 1) (n + 1) (.meth (.ptr b2) c!"Join") [.ptr H.next] (H.alloc V) = .ok ([.ptr b2], sHeap (innerSit H.next t c dis) mb' G)) := by
  have hm1 : (H.alloc V).mem b2 = (rbld (fresh d tot)).val := by rw [alloc_mem_old hb, hB]
  have hm2 : (H.alloc V).mem H.next = V := alloc_mem_new _
  have e0 : sqCall Q N (D + 2) p (k + 1) (n + 1) (.meth (.ptr b2) c!"Join") [.ptr H.next] (H.alloc V) = joinMb (sqCall Q N (D + 2) p k (D + 2)) b2 H.next (H.alloc V) := by
    rw [sqCall, smeth_bld hm1 _ rfl]; rfl
  rw [e0, joinMb, hm1, hm2, rbldOf_val, hV]
  have A := inner_at (Nat.le_of_lt hb) W ht c dis (rbld (fresh d tot)).val
  have F0 := inner_fits H.next t c dis d tot
  obtain ⟨⟨g1, K, R⟩, F⟩ := squery_ast (S := innerSit H.next t c dis) (Q := Q) (N := N) (p := p) (k := k) (n := D) hx rfl A F0 (ih c hl hc _ _ A F0)
  have eH := inner_heap (Z := Z) H t c dis d tot (rbld (fresh d tot)).val V
  rw [hV] at eH
  have eH' : (((H.alloc V).alloc (RBld.val ⟨(rbld (fresh d tot)).dialect, (rbld (fresh d tot)).total, [], [], []⟩)).put H.next
      (.obj c!"MiniQLToEntSQLBuilder" (fset c!"Builder" (.ptr (H.alloc V).next)
        [(c!"Node", .ptr (Z.nd t)), (c!"QueryString", .str []), (c!"ast", nodeVal c), (c!"SQLBuilder", .nil), (c!"Graph", .nil), (c!"Builder", .nil), (c!"DisableTypeCasting", .bool dis)]))) =
      sHeap (innerSit H.next t c dis) { own := fresh d tot } ((H.alloc ((innerSit H.next t c dis).val Z)).alloc (rbld (fresh d tot)).val) := by
    rw [hV]; exact eH
  rw [hV] at eH'
  have A1 := A.keeps K
  have ob : (innerSit H.next t c dis).off b2 := ⟨by simp only [innerSit]; omega, fun h => by simp [innerSit] at h⟩
  have eo : ∀ y, y < H.next → g1.mem y = H.mem y := fun y hy => by
    rw [K.2 _ (by simp only [salloc_next]; omega), alloc_mem_old (by simp only [salloc_next]; omega), alloc_mem_old hy]
  have A2 : ∀ v, SAt Z (innerSit H.next t c dis) (g1.put b2 v) := fun v =>
    { la := A1.la, lb := A1.lb, lc := A1.lc, oa := A1.oa, bc := A1.bc, node := A1.node, ln := A1.ln, on := A1.on
      mem := by rw [put_mem_other _ _ (by simp only [innerSit]; omega)]; exact A1.mem
      nodes := fun t' h => by have := W.ln t' h; rw [put_mem_other _ _ (by omega)]; exact A1.nodes t' h }
  have hn : H.next ≤ g1.next := by have := K.1; simp only [salloc_next] at this; omega
  simp only
  rw [eH']
  cases er : svisit (senv p Z.G (!dis)) (some t) c { own := fresh d tot } with
  | panic =>
    have R : sqCall Q N (D + 2) p k (D + 2) (.meth (.ptr H.next) c!"Query") [] (sHeap (innerSit H.next t c dis) { own := fresh d tot } ((H.alloc ((innerSit H.next t c dis).val Z)).alloc (rbld (fresh d tot)).val)) = _ := R
    have er' : svisit (senv p Z.G !(innerSit H.next t c dis).dis) (innerSit H.next t c dis).node c { own := fresh d tot } = _ := er
    rw [er'] at R F
    left
    refine ⟨rfl, ?_⟩
    rw [R]
    rfl
  | ok r =>
    have R : sqCall Q N (D + 2) p k (D + 2) (.meth (.ptr H.next) c!"Query") [] (sHeap (innerSit H.next t c dis) { own := fresh d tot } ((H.alloc ((innerSit H.next t c dis).val Z)).alloc (rbld (fresh d tot)).val)) = _ := R
    have er' : svisit (senv p Z.G !(innerSit H.next t c dis).dis) (innerSit H.next t c dis).node c { own := fresh d tot } = _ := er
    rw [er'] at R F
    simp only [SFits] at F
    right
    refine ⟨r.own.sql, r.own.args, r, g1.put b2 (RBld.val ⟨d, tot + r.own.args.length, r.own.sql, r.own.args.map argVal, []⟩), rfl, F, A2 _, hn, fun y hy hy' => ?_, put_mem_same _ _ _, ?_⟩
    · rw [put_mem_other _ _ hy', eo y hy]
    · rw [R]
      simp only [qOut, many_ok, onBld]
      rw [sh_mem ob F, eo _ hb, hB, rbldOf_val]
      simp only [asList]
      rw [sh_put ob F]
      simp [RBld.append, rbld, fresh]
  | err e1 r =>
    have R : sqCall Q N (D + 2) p k (D + 2) (.meth (.ptr H.next) c!"Query") [] (sHeap (innerSit H.next t c dis) { own := fresh d tot } ((H.alloc ((innerSit H.next t c dis).val Z)).alloc (rbld (fresh d tot)).val)) = _ := R
    have er' : svisit (senv p Z.G !(innerSit H.next t c dis).dis) (innerSit H.next t c dis).node c { own := fresh d tot } = _ := er
    rw [er'] at R F
    simp only [SFits] at F
    have F' : Fits (innerSit H.next t c dis) { r with own := r.own.addErr e1 } := F
    right
    refine ⟨[], [], { r with own := r.own.addErr e1 }, g1.put b2 (RBld.val ⟨d, tot, [], [], []⟩), rfl, F', A2 _, hn, fun y hy hy' => ?_, put_mem_same _ _ _, ?_⟩
    · rw [put_mem_other _ _ hy', eo y hy]
    · rw [R]
      simp only [qOut, many_ok, onBld]
      rw [sh_mem ob F', eo _ hb, hB, rbldOf_val]
      simp only [asList]
      rw [sh_put ob F']
      simp [RBld.append, rbld, fresh]

end Verif.Mini
