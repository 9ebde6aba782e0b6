import Verif.Mini.PegRun

/-! # Running `Execute` in /repo/miniquery/miniquery.peg.go:360-433: the loop -/

namespace Verif.Mini
open Verif

variable {Q : Char → Bool} {n a b : Nat} {h : Heap} {t : Tree} {q : Str} {buf : List Val} {toks : Val}

theorem foldlM_runEvs (l : List Tok) (x : Str) (i j : Nat) (t : Tree) :
    (l.foldlM (execStep q) (x, i, j, t)).map (·.2.2.2) = runEvs x (l.filterMap (evOf q)) t := by
  induction l generalizing x i j t with
  | nil => rfl
  | cons k l ih =>
    rw [List.foldlM_cons, List.filterMap_cons]
    cases e : evOf q k with
    | none => simp [execStep, e, ih]
    | some ev =>
      cases ev with
      | text y => simp [execStep, e, ih, runEvs]
      | act m =>
        simp only [execStep, e, runEvs]
        cases runAct m x t with
        | none => rfl
        | some t' => simp [ih]

theorem exec_loop (hab : a ≠ b) (l : List Tok) (hl : ∀ k ∈ l, k.b ≤ k.e ∧ k.e ≤ q.length) :
    loop (execBody Q (n + 5)) 0 (l.map tokVal) (execSt h a b q toks ([], 0, 0, t)).1 (execSt h a b q toks ([], 0, 0, t)).2 =
      match l.foldlM (execStep q) ([], 0, 0, t) with | none => .panic | some x => .ok (.norm, execSt h a b q toks x) := by
  refine (loop_fold tokVal (execSt h a b q toks) (execStep q) _ l ?_ ([], 0, 0, t) 0).trans (by cases l.foldlM (execStep q) ([], 0, 0, t) <;> rfl)
  intro i k hk x
  cases e : k.kind with
  | rule r => rw [body_rule i k r e]; simp [execStep, evOf, e]
  | text => rw [body_text i k e (hl k hk).1 (hl k hk).2]; simp [execStep, evOf, e]
  | act m =>
    rw [body_act hab i k m e]
    simp only [execStep, evOf, e]
    cases runAct m x.1 x.2.2.2 <;> rfl

/-- `Execute` runs the actions of the tokens. -/
theorem execute_run (hab : a ≠ b) (l : List Tok) (hl : ∀ k ∈ l, k.b ≤ k.e ∧ k.e ≤ q.length) :
    mqCall Q (n + 6) (.meth (.ptr a) c!"Execute") [] (pegHeap h a b q (runeVals q ++ [.int 1114112]) (.slice (l.map tokVal)) t) =
      match runEvs [] (l.filterMap (evOf q)) t with
      | none => .panic
      | some t' => .ok ([], pegHeap h a b q (runeVals q ++ [.int 1114112]) (.slice (l.map tokVal)) t') := by
  have e0 : mqCall Q (n + 6) (.meth (.ptr a) c!"Execute") [] (pegHeap h a b q (runeVals q ++ [.int 1114112]) (.slice (l.map tokVal)) t) =
      runBody mq (mqCall Q (n + 5)) [c!"p"] [] pegMiniQueryPegExecute [] [.ptr a] (pegHeap h a b q (runeVals q ++ [.int 1114112]) (.slice (l.map tokVal)) t) := by
    show runMeth mq (mqLib Q) (mqCall Q (n + 5)) (.ptr a) c!"Execute" [] _ = _
    simp only [runMeth, structOf, pegHeap_mem hab, pegObj]
    rfl
  rw [e0, runBody_plain rfl (by decide) (by decide)]
  have hx := exec_loop (Q := Q) (n := n) (h := h) (toks := .slice (l.map tokVal)) (t := t) hab l hl
  have hf := foldlM_runEvs (q := q) l [] 0 0 t
  simp only [execBody, pegMiniQueryPegExecute, nth, loopOf, execSt, show ((0 : Nat) : Int) = 0 from rfl] at hx
  cases e : l.foldlM (execStep q) ([], 0, 0, t) with
  | none =>
    rw [e] at hf hx
    rw [← hf]
    gorun [pegMiniQueryPegExecute, sel_Buffer hab, sel_buffer hab, sel_Tokens hab, tokens_run hab, hx]
  | some x =>
    rw [e] at hf hx
    rw [← hf]
    obtain ⟨x, i, j, t'⟩ := x
    gorun [pegMiniQueryPegExecute, sel_Buffer hab, sel_buffer hab, sel_Tokens hab, tokens_run hab, hx]

end Verif.Mini
