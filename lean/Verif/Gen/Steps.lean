import Verif.Gen.Lib

/-! # The support code of the generated file: lemmas to run it -/

namespace Verif.Gen
open Verif

@[simp] theorem put_mem_same (h : Heap) (a v) : (h.put a v).mem a = v := by simp [Heap.put]
theorem put_mem_other (h : Heap) {a b : Nat} (v) (hab : b ≠ a) : (h.put a v).mem b = h.mem b := by simp [Heap.put, hab]
@[simp] theorem put_put (h : Heap) (a v w) : (h.put a v).put a w = h.put a w := by
  simp only [Heap.put, Heap.mk.injEq, true_and, and_true]; funext b; by_cases hb : b = a <;> simp [hb]
theorem put_comm {h : Heap} {a b : Nat} (hab : a ≠ b) (v w : Val) : (h.put a v).put b w = (h.put b w).put a v := by
  simp only [Heap.put, Heap.mk.injEq, true_and, and_true]
  funext x
  by_cases h1 : x = a
  · subst h1; simp [hab]
  · simp [h1]
@[simp] theorem put_next (h : Heap) (a v) : (h.put a v).next = h.next := rfl
@[simp] theorem put_out (h : Heap) (a v) : (h.put a v).out = h.out := rfl
@[simp] theorem alloc_next (h : Heap) (v) : (h.alloc v).next = h.next + 1 := rfl
@[simp] theorem alloc_out (h : Heap) (v) : (h.alloc v).out = h.out := rfl
@[simp] theorem alloc_mem_same (h : Heap) (v) : (h.alloc v).mem h.next = v := by simp [Heap.alloc]
theorem alloc_mem_other (h : Heap) {b : Nat} (v) (hb : b ≠ h.next) : (h.alloc v).mem b = h.mem b := by simp [Heap.alloc, hb]

theorem execs_nil (P C F caps base l h) : execs P C F caps .nil base l h = .ok (.norm, l, h) := rfl
theorem execs_cons (P C F caps s k base l h) :
    execs P C F caps (.cons s k) base l h = next (exec P C F caps s base l h) fun l h => execs P C F caps k base l h := rfl
theorem one_ok {β} (v : Val) (h : Heap) (k : Val → Heap → Res β) : one (.ok ([v], h)) k = k v h := rfl
theorem one_panic {β} (k : Val → Heap → Res β) : one .panic k = .panic := rfl
theorem one_deep {β} (k : Val → Heap → Res β) : one .deep k = .deep := rfl
theorem many_ok {β} (vs : List Val) (h : Heap) (k : List Val → Heap → Res β) : many (.ok (vs, h)) k = k vs h := rfl
theorem many_panic {β} (k : List Val → Heap → Res β) : many .panic k = .panic := rfl
theorem many_deep {β} (k : List Val → Heap → Res β) : many .deep k = .deep := rfl
theorem next_norm (l h) (k : Locals → Heap → Done) : next (.ok (.norm, l, h)) k = k l h := rfl
theorem next_ret (vs l h) (k : Locals → Heap → Done) : next (.ok (.ret vs, l, h)) k = .ok (.ret vs, l, h) := rfl
theorem next_cont (x l h) (k : Locals → Heap → Done) : next (.ok (.cont x, l, h)) k = .ok (.cont x, l, h) := rfl
theorem next_brk (x l h) (k : Locals → Heap → Done) : next (.ok (.brk x, l, h)) k = .ok (.brk x, l, h) := rfl
theorem next_panic (k : Locals → Heap → Done) : next .panic k = .panic := rfl
theorem next_deep (k : Locals → Heap → Done) : next .deep k = .deep := rfl
theorem leave_ok (n f l h) : leave n (.ok (f, l, h)) = .ok (f, cut n l, h) := rfl
theorem leave_panic (n) : leave n .panic = .panic := rfl
theorem leave_deep (n) : leave n .deep = .deep := rfl

theorem same_int (a b) : same (.int a) (.int b) = some (decide (a = b)) := rfl
theorem same_nil : same .nil .nil = some true := rfl
theorem same_nilp (t) : same (.nilp t) .nil = some true := rfl
theorem same_ptr (a p) : same (.ptr a p) .nil = some false := rfl

@[congr] theorem one_congr {β} {a b : Vals} {k : Val → Heap → Res β} (e : a = b) : one a k = one b k := by rw [e]
@[congr] theorem many_congr {β} {a b : Vals} {k : List Val → Heap → Res β} (e : a = b) : many a k = many b k := by rw [e]
@[congr] theorem next_congr {a b : Done} {k : Locals → Heap → Done} (e : a = b) : next a k = next b k := by rw [e]

theorem isObj_nil : isObj .nil = false := rfl
theorem isObj_nilp (t) : isObj (.nilp t) = false := rfl
theorem isObj_int (i) : isObj (.int i) = false := rfl
theorem isObj_str (i) : isObj (.str i) = false := rfl
theorem isObj_bool (i) : isObj (.bool i) = false := rfl
theorem isObj_sl (a b c) : isObj (.sl a b c) = false := rfl
theorem isObj_ptr (a b) : isObj (.ptr a b) = false := rfl
theorem isObj_lib (a) : isObj (.lib a) = false := rfl
theorem isObj_rules (a) : isObj (.rules a) = false := rfl
theorem isObj_clo (a b c d e) : isObj (.clo a b c d e) = false := rfl
theorem isObj_obj (a b) : isObj (.obj a b) = true := rfl
theorem isObj_tree (a) : isObj (treeObj a) = true := rfl
theorem isObj_tok (a b c) : isObj (tokObj a b c) = true := rfl
theorem isObj_tokVal (a) : isObj (tokVal a) = true := rfl
theorem isObj_max (a) : isObj (maxVal a) = true := rfl
theorem isObj_peg (a b c d e f g i) : isObj (pegObj a b c d e f g i) = true := rfl

/-- A statement of a block. -/
def nth : Stmts → Nat → Stmts
  | .nil, _ => .nil
  | .cons s _, 0 => .cons s .nil
  | .cons _ k, n + 1 => nth k n

/-- The body of a loop. -/
def loopOf : Stmts → Stmts
  | .cons (.range _ _ _ _ b) _ => b
  | .cons (.loop _ _ _ _ b) _ => b
  | _ => .nil

end Verif.Gen

open Lean.Parser.Tactic in
/-- Runs the program step by step, with further facts. -/
macro "grun" "[" ts:simpLemma,* "]" : tactic =>
  `(tactic| simp (maxDischargeDepth := 6) [Verif.Gen.bindParams, Verif.Gen.execs_nil, Verif.Gen.execs_cons, Verif.Gen.exec, Verif.Gen.evs, Verif.Gen.ev, Verif.Gen.builtin,
    Verif.Gen.builtins, Verif.Gen.lget, Verif.Gen.lset, Verif.Gen.pkgOf,
    Verif.Gen.one_ok, Verif.Gen.one_panic, Verif.Gen.many_ok, Verif.Gen.many_panic, Verif.Gen.next_norm, Verif.Gen.next_ret,
    Verif.Gen.one_deep, Verif.Gen.many_deep, Verif.Gen.next_deep, Verif.Gen.leave_deep,
    Verif.Gen.next_cont, Verif.Gen.next_brk, Verif.Gen.next_panic, Verif.Gen.leave_ok, Verif.Gen.leave_panic,
    Verif.Gen.runBuiltin, Verif.Gen.assignAll, Verif.Gen.assign1, Verif.Gen.assignVar, Verif.Gen.defineAll, Verif.Gen.declare,
    Verif.Gen.cut, Verif.Gen.finish, Verif.Gen.coerce, Verif.Gen.index, Verif.Gen.slice, Verif.Gen.binOp, Verif.Gen.same_int, Verif.Gen.same_nil,
    Verif.Gen.same_nilp, Verif.Gen.same_ptr, Verif.Gen.yes, Verif.Gen.isObj_nil, Verif.Gen.isObj_nilp, Verif.Gen.isObj_int, Verif.Gen.isObj_str, Verif.Gen.isObj_bool, Verif.Gen.isObj_sl, Verif.Gen.isObj_ptr, Verif.Gen.isObj_lib, Verif.Gen.isObj_rules, Verif.Gen.isObj_clo, Verif.Gen.isObj_obj, Verif.Gen.isObj_tree, Verif.Gen.isObj_tok, Verif.Gen.isObj_tokVal, Verif.Gen.isObj_max, Verif.Gen.isObj_peg,
    $ts,*])
