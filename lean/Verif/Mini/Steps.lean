import Verif.Mini.Mq

/-! # Go programs: lemmas to run them -/

namespace Verif.Mini

/-- What a function returns when its body has ended. -/
def finish (rs : List Str) : Done → Vals
  | .ok (.ret vs, _, h) => .ok (vs, h)
  | .ok (.bare, l, h) => .ok (results l h rs, h)
  | .ok (.norm, l, h) => .ok (results l h rs, h)
  | .ok _ => .stuck
  | .panic => .panic
  | .stuck => .stuck
  | .deep => .deep

/-- Parameters as local variables. -/
def bindArgs : List Str → List Val → Locals → Locals
  | [], _, l => l
  | x :: xs, vs, l => bindArgs xs vs.tail ((x, .val (vs.headD .nil)) :: l)

theorem declareAll_plain (ps : List Str) (hn : ∀ x ∈ ps, x ≠ c!"_") (vs l h) : declareAll [] ps vs l h = (bindArgs ps vs l, h) := by
  induction ps generalizing vs l h with
  | nil => rfl
  | cons x xs ih =>
    have : declare [] x (vs.headD .nil) l h = ((x, .val (vs.headD .nil)) :: l, h) := by simp [declare, hn x]
    simp only [declareAll, this, bindArgs]
    exact ih (fun y hy => hn y (by simp [hy])) _ _ _

/-- A function without function literals and without named results. -/
theorem runBody_plain {P C ps rs body env args h} (hc : capSs false body = []) (hn : ∀ x ∈ ps, x ≠ c!"_") (hr : ∀ x ∈ rs, x = c!"_") :
    runBody P C ps rs body env args h = finish rs (execs P C [] body env.length (bindArgs ps args env) h) := by
  have e : ∀ (vs : List Val) (l : Locals), declareAll [] rs vs l h = (l, h) := by
    clear hn
    induction rs with
    | nil => intros; rfl
    | cons x xs ih =>
      intro vs l
      have := hr x (by simp)
      subst this
      exact ih (fun y hy => hr y (by simp [hy])) _ _
  simp only [runBody, hc, declareAll_plain ps hn, e]
  cases execs P C [] body env.length (bindArgs ps args env) h with
  | ok a => obtain ⟨f, l, h'⟩ := a; cases f <;> rfl
  | _ => rfl

/-- A function without function literals and with named results. -/
theorem runBody_named {P C ps rs body env args h} (hc : capSs false body = []) (hn : ∀ x ∈ ps, x ≠ c!"_") (hr : ∀ x ∈ rs, x ≠ c!"_") :
    runBody P C ps rs body env args h = finish rs (execs P C [] body env.length (bindArgs rs [] (bindArgs ps args env)) h) := by
  simp only [runBody, hc, declareAll_plain ps hn, declareAll_plain rs hr]
  cases execs P C [] body env.length (bindArgs rs [] (bindArgs ps args env)) h with
  | ok a => obtain ⟨f, l, h'⟩ := a; cases f <;> rfl
  | _ => rfl

@[simp] theorem put_mem_same (h : Heap) (a v) : (h.put a v).mem a = v := by simp [Heap.put]
theorem put_mem_other (h : Heap) {a b : Nat} (v) (hab : b ≠ a) : (h.put a v).mem b = h.mem b := by simp [Heap.put, hab]
@[simp] theorem put_put (h : Heap) (a v w) : (h.put a v).put a w = h.put a w := by
  simp only [Heap.put, Heap.mk.injEq, true_and]; funext b; by_cases hb : b = a <;> simp [hb]
theorem put_self {h : Heap} {a v} (e : h.mem a = v) : h.put a v = h := by
  cases h with | mk nx mem => simp only [Heap.put, Heap.mk.injEq, true_and]; funext b; by_cases hb : b = a <;> simp_all
@[simp] theorem put_next (h : Heap) (a v) : (h.put a v).next = h.next := rfl

theorem nodeVals_append (a b) : nodeVals (a ++ b) = nodeVals a ++ nodeVals b := by
  induction a with
  | nil => rfl
  | cons x l ih => simp [nodeVals, ih]

theorem nodeVals_eq (l) : nodeVals l = l.map nodeVal := by
  induction l with
  | nil => rfl
  | cons x l ih => simp [nodeVals, ih]

@[simp] theorem nodeVals_length (l) : (nodeVals l).length = l.length := by simp [nodeVals_eq]

/-! ## One step at a time

The congruence rules keep the simplifier out of the rest of a program until it gets there. -/

theorem execs_nil (P C caps base l h) : execs P C caps .nil base l h = .ok (.norm, l, h) := rfl
theorem execs_cons (P C caps s k base l h) : execs P C caps (.cons s k) base l h = next (exec P C caps s base l h) fun l h => execs P C caps k base l h := rfl
theorem one_ok {β} (v : Val) (h : Heap) (k : Val → Heap → Res β) : one (.ok ([v], h)) k = k v h := rfl
theorem one_panic {β} (k : Val → Heap → Res β) : one .panic k = .panic := rfl
theorem many_ok {β} (vs : List Val) (h : Heap) (k : List Val → Heap → Res β) : many (.ok (vs, h)) k = k vs h := rfl
theorem many_panic {β} (k : List Val → Heap → Res β) : many .panic k = .panic := rfl
theorem next_norm (l h) (k : Locals → Heap → Done) : next (.ok (.norm, l, h)) k = k l h := rfl
theorem next_ret (vs l h) (k : Locals → Heap → Done) : next (.ok (.ret vs, l, h)) k = .ok (.ret vs, l, h) := rfl
theorem next_bare (l h) (k : Locals → Heap → Done) : next (.ok (.bare, l, h)) k = .ok (.bare, l, h) := rfl
theorem next_fall (l h) (k : Locals → Heap → Done) : next (.ok (.fall, l, h)) k = .ok (.fall, l, h) := rfl
theorem next_cont (l h) (k : Locals → Heap → Done) : next (.ok (.cont, l, h)) k = .ok (.cont, l, h) := rfl
theorem next_brk (l h) (k : Locals → Heap → Done) : next (.ok (.brk, l, h)) k = .ok (.brk, l, h) := rfl
theorem next_panic (k : Locals → Heap → Done) : next .panic k = .panic := rfl
theorem leave_ok (n f l h) : leave n (.ok (f, l, h)) = .ok (f, cut n l, h) := rfl
theorem leave_panic (n) : leave n .panic = .panic := rfl
theorem first_ok (v vs h) : first (.ok (v :: vs, h)) = .ok ([v], h) := rfl
theorem first_panic : first .panic = .panic := rfl

theorem same_str (a b) : same (.str a) (.str b) = some (decide (a = b)) := rfl
theorem same_int (a b) : same (.int a) (.int b) = some (decide (a = b)) := rfl
theorem same_bool (a b) : same (.bool a) (.bool b) = some (decide (a = b)) := rfl
theorem same_lib (a b) : same (.lib a) (.lib b) = some (decide (a = b)) := rfl
theorem same_nil : same .nil .nil = some true := rfl
theorem same_obj (a b) : same (.obj a b) .nil = some false := rfl

@[congr] theorem one_congr {β} {a b : Vals} {k : Val → Heap → Res β} (e : a = b) : one a k = one b k := by rw [e]
@[congr] theorem many_congr {β} {a b : Vals} {k : List Val → Heap → Res β} (e : a = b) : many a k = many b k := by rw [e]
@[congr] theorem next_congr {a b : Done} {k : Locals → Heap → Done} (e : a = b) : next a k = next b k := by rw [e]

@[congr] theorem loop_congr {body : Nat → Val → Locals → Heap → Done} {i vs l l' h h'} (e : l = l') (e' : h = h') :
    loop body i vs l h = loop body i vs l' h' := by rw [e, e']

/-- A statement of a block. -/
def nth : Stmts → Nat → Stmts
  | .nil, _ => .nil
  | .cons s _, 0 => .cons s .nil
  | .cons _ k, n + 1 => nth k n

/-- The body of a loop. -/
def loopOf : Stmts → Stmts
  | .cons (.range _ _ _ b) _ => b
  | _ => .nil

/-- A loop whose body changes the variables and the memory in a known way, or panics. -/
theorem loop_fold {α β : Type} (val : α → Val) (st : β → Locals × Heap) (step : β → α → Option β) (body : Nat → Val → Locals → Heap → Done)
    (l : List α)
    (hb : ∀ i, ∀ a ∈ l, ∀ b, body i (val a) (st b).1 (st b).2 = match step b a with | none => .panic | some b' => .ok (.norm, st b')) (b : β) (i : Nat) :
    loop body i (l.map val) (st b).1 (st b).2 = match l.foldlM step b with | none => .panic | some b' => .ok (.norm, st b') := by
  induction l generalizing b i with
  | nil => rfl
  | cons a l ih =>
    rw [List.map_cons, loop, hb _ a (by simp)]
    have ih := ih fun i x hx => hb i x (by simp [hx])
    cases e : step b a with
    | none => simp [List.foldlM_cons, e]
    | some b' => simp [List.foldlM_cons, e, ih]

/-- A loop whose body ends normally or with `continue`. -/
theorem loop_cont {α β : Type} (val : α → Val) (st : β → Locals × Heap) (step : β → α → β) (body : Nat → Val → Locals → Heap → Done)
    (l : List α) (hb : ∀ i, ∀ a ∈ l, ∀ b, body i (val a) (st b).1 (st b).2 = .ok (.norm, st (step b a)) ∨
      body i (val a) (st b).1 (st b).2 = .ok (.cont, st (step b a))) (b : β) (i : Nat) :
    loop body i (l.map val) (st b).1 (st b).2 = .ok (.norm, st (l.foldl step b)) := by
  induction l generalizing b i with
  | nil => rfl
  | cons a l ih =>
    have ih := ih fun i x hx => hb i x (by simp [hx])
    rcases hb i a (by simp) b with e | e <;> rw [List.map_cons, loop, e, List.foldl_cons] <;> exact ih _ _

end Verif.Mini

open Lean.Parser.Tactic in
/-- Runs a Go program step by step, with further facts. -/
macro "gorun" "[" ts:simpLemma,* "]" : tactic =>
  `(tactic| simp (maxDischargeDepth := 6) [Verif.Mini.bindArgs, Verif.Mini.execs_nil, Verif.Mini.execs_cons, Verif.Mini.exec, Verif.Mini.evr, Verif.Mini.evs, Verif.Mini.ev, Verif.Mini.builtin,
    Verif.Mini.builtins, Verif.Mini.lget, Verif.Mini.lset, Verif.Mini.readVar, Verif.Mini.pkgOf,
    Verif.Mini.one_ok, Verif.Mini.one_panic, Verif.Mini.many_ok, Verif.Mini.many_panic, Verif.Mini.next_norm, Verif.Mini.next_ret, Verif.Mini.next_bare,
    Verif.Mini.next_fall, Verif.Mini.next_cont, Verif.Mini.next_brk, Verif.Mini.next_panic, Verif.Mini.leave_ok, Verif.Mini.leave_panic,
    Verif.Mini.first_ok, Verif.Mini.first_panic,
    Verif.Mini.fget, Verif.Mini.fset, Verif.Mini.runBuiltin, Verif.Mini.spreadArgs,
    Verif.Mini.assignAll, Verif.Mini.assign1, Verif.Mini.assignVar, Verif.Mini.defineAll, Verif.Mini.declare,
    Verif.Mini.cut, Verif.Mini.results, Verif.Mini.finish, Verif.Mini.index, Verif.Mini.slice, Verif.Mini.binOp, Verif.Mini.same_str, Verif.Mini.same_int,
    Verif.Mini.same_bool, Verif.Mini.same_lib, Verif.Mini.same_nil, Verif.Mini.same_obj, Verif.Mini.yes,
    Verif.Mini.litFields, Verif.Mini.typeName, $ts,*])
