import Verif.Mini.BuildRun

/-! # Running /repo/miniquery/node.go: `Build` -/

namespace Verif.Mini
open Verif

variable {Q : Char → Bool} {m sb b0 v0 n0 : Nat} {h B : Heap} {root : Node}

/-- The variables of `Build` that the function literal uses. -/
def buildCaps : List Str := capSs false nodeBuild

theorem caps_n : (c!"n" ∈ buildCaps) = True := by simp only [eq_iff_iff, iff_true]; decide
theorem caps_buf : (c!"buf" ∈ buildCaps) = True := by simp only [eq_iff_iff, iff_true]; decide
theorem caps_visit : (c!"visit" ∈ buildCaps) = True := by simp only [eq_iff_iff, iff_true]; decide

/-- The memory of `Build` without its buffer. -/
def buildHeap (h : Heap) (root : Node) : Heap :=
  (((h.skip 4).put h.next (nodeVal root)).put (h.next + 2) (.ptr (h.next + 1))).put (h.next + 3) (visitClo (h.next + 3) (h.next + 2) h.next)

theorem build_start (root : Node) :
    ((((h.alloc (nodeVal root)).alloc (bufVal [])).alloc (.ptr (h.next + 1))).alloc .nil).put (h.next + 3) (visitClo (h.next + 3) (h.next + 2) h.next) =
      (buildHeap h root).put (h.next + 1) (bufVal []) := by
  simp only [Heap.alloc, buildHeap, Heap.put, Heap.skip, Heap.mk.injEq, true_and]
  funext x
  have e1 : ¬ h.next = h.next + 1 + 1 + 1 := by omega
  have e2 : ¬ h.next = h.next + 1 + 1 := by omega
  by_cases h0 : x = h.next <;> by_cases h1 : x = h.next + 1 <;> by_cases h2 : x = h.next + 2 <;> by_cases h3 : x = h.next + 3 <;>
    first | omega | simp [h0, h1, h2, h3, e1, e2]

theorem build_start' (root : Node) :
    ((((h.alloc (nodeVal root)).alloc (bufVal [])).alloc (.ptr (h.next + 1))).alloc .nil).put (h.next + 1 + 1 + 1)
      (visitClo (h.next + 1 + 1 + 1) (h.next + 1 + 1) h.next) = (buildHeap h root).put (h.next + 1) (bufVal []) := build_start root

theorem build_frame (hr : root ≠ .nil) : Frame (buildHeap h root) (h.next + 1) (h.next + 2) (h.next + 3) h.next root where
  buf := by simp [buildHeap, Heap.put]
  visit := by simp [buildHeap, Heap.put]
  node := by simp [buildHeap, Heap.put]
  hb := by omega
  hv := by omega
  hn := by omega
  some := hr

theorem build_keeps (v) : Keeps h ((buildHeap h root).put (h.next + 1) v) := by
  refine ⟨by simp [buildHeap, Heap.skip], fun b hb => ?_⟩
  rw [put_mem_other _ _ (by omega), buildHeap, put_mem_other _ _ (by omega), put_mem_other _ _ (by omega), put_mem_other _ _ (by omega)]; rfl

theorem nodeBuild_eq : nodeBuild =
    .cons (.define [c!"buf"] (.cons (.un c!"&" (.lit (.sel (.id c!"strings") c!"Builder") .nil .nil)) .nil))
    (.cons (.var c!"visit" (.id c!"func"))
    (.cons (.assign (.cons (.id c!"visit") .nil) (.cons (.fn [c!"node"] [] visitBody) .nil))
    (.cons (.expr (.call (.id c!"visit") (.cons (.id c!"n") .nil) false))
    (.cons (.ret (.cons (.call (.sel (.id c!"buf") c!"String") .nil false) .nil))
    .nil)))) := rfl

theorem alloc_next (v) : (h.alloc v).next = h.next + 1 := rfl
theorem mk_Builder' : mkStruct mq c!"strings.Builder" [] h = .ok ([.ptr h.next], h.alloc (bufVal [])) := rfl
theorem v_clo : Val.clo [c!"node"] [] visitBody [(c!"visit", .box v0), (c!"buf", .box b0), (c!"n", .box n0)] = visitClo v0 b0 n0 := rfl
theorem zero_func : zeroOf mq (.id c!"func") = .nil := rfl

/-- Running `Build`. -/
theorem build_run (x : Node) (m : Nat) (hm : 2 * lvl x ≤ m) (h : Heap) : Outs h (build Q x) (mqCall Q (m + 5) (.fn c!"Build") [nodeVal x] h) := by
  have e : mqCall Q (m + 5) (.fn c!"Build") [nodeVal x] h = runBody mq (mqCall Q (m + 4)) [c!"n"] [c!"_"] nodeBuild [] [nodeVal x] h := rfl
  rw [e]
  simp only [runBody, show capSs false nodeBuild = buildCaps from rfl, declareAll, declare, caps_n]
  rw [nodeBuild_eq]
  by_cases h0 : x = .nil
  · subst h0
    have e : ∀ v, ((buildHeap h .nil).put (h.next + 1) v).mem h.next = nodeVal .nil := fun v => by simp [buildHeap, Heap.put]
    gorun [alloc_next, mk_Builder', caps_buf, caps_visit, v_clo, zero_func, pk_strings, build_start', e, build]
    rw [visit_call, v_nil]
    gorun [visitBody, nodeBuild, nth, litOf, select_nil, pk_node, buildN]
    exact outs_panic
  · have F : Frame (buildHeap h x) (h.next + 1) (h.next + 1 + 1) (h.next + 1 + 1 + 1) h.next x := build_frame h0
    have R := visit_run (Q := Q) F (lvl x) x (Nat.le_refl _) m hm []
    cases e : buildN Q (rootName x) x with
    | none =>
      gorun [alloc_next, mk_Builder', caps_buf, caps_visit, v_clo, zero_func, pk_strings, build_start', F.rnode, R, e, visOut, build]
      exact outs_panic
    | some r =>
      gorun [alloc_next, mk_Builder', caps_buf, caps_visit, v_clo, zero_func, pk_strings, build_start', F.rnode, R, e, visOut, build, pk_buf, F.rbuf,
        s_String, r_String]
      exact ⟨_, build_keeps _, rfl⟩

end Verif.Mini
