import Verif.Mini.Buf
import Verif.Join

/-! # Running /repo/miniquery/join.go -/

namespace Verif.Mini
open Verif

variable {Q : Char → Bool} {n : Nat} {h : Heap}

theorem pk_sb : findPkg c!"sb" mq.decls = false := rfl

/-- The variables and the memory in the loop of `Join`. -/
def joinSt (ss : List Str) (h : Heap) (b : Str) : Locals × Heap :=
  ([(c!"sb", .val (.ptr h.next)), (c!"s", .val (.slice (ss.map .str)))], (h.skip 1).put h.next (bufVal b))

theorem keeps_put (v) : Keeps h ((h.skip 1).put h.next v) := by
  refine ⟨by simp [Heap.skip], fun b hb => ?_⟩
  rw [put_mem_other _ _ (by omega)]; rfl

/-- Running `Join`. -/
theorem join_run (ss : List Str) : ∃ h', Keeps h h' ∧
    mqCall Q (n + 2) (.fn c!"Join") [.slice (ss.map .str)] h = .ok ([.str (join ss)], h') := by
  have e : mqCall Q (n + 2) (.fn c!"Join") [.slice (ss.map .str)] h =
    runBody mq (mqCall Q (n + 1)) [c!"s"] [c!"_"] joinJoin [] [.slice (ss.map .str)] h := rfl
  rw [e, runBody_plain rfl (by decide) (by decide)]
  have hl := loop_cont Val.str (joinSt ss h) joinStep (rangeBody [] c!"_" c!"v" (execs mq (mqCall Q (n + 1)) [] (loopOf (nth joinJoin 2)))) ss
    (by
      intro i a _ b
      by_cases h0 : goTrim a = []
      · right
        gorun [joinSt, joinJoin, nth, loopOf, rangeBody, pk_strings, g_TrimSpace, l_TrimSpace, h0, joinStep]
      · left
        by_cases h1 : b = [] <;>
        gorun [joinSt, joinJoin, nth, loopOf, rangeBody, pk_strings, g_TrimSpace, l_TrimSpace, h0, h1, joinStep, s_Len, r_Len, s_WriteString, w_String, pk_sb])
    [] 0
  simp only [joinJoin, nth, loopOf] at hl
  match ss, hl with
  | [], _ => exact ⟨h, ⟨Nat.le_refl _, fun _ _ => rfl⟩, by gorun [joinJoin, execSwitch, anySame, endSwitch, join]⟩
  | [s], _ => exact ⟨h, ⟨Nat.le_refl _, fun _ _ => rfl⟩, by gorun [joinJoin, execSwitch, anySame, endSwitch, join]⟩
  | s :: s' :: l, hl =>
    have h1 : ((l.length : Int) + 1 + 1 = 0) = False := by simp; omega
    have h2 : ((l.length : Int) + 1 + 1 = 1) = False := by simp; omega
    refine ⟨_, keeps_put (bufVal (join (s :: s' :: l))), ?_⟩
    simp only [joinSt, List.map_cons] at hl
    have hj : (s :: s' :: l).foldl joinStep [] = join (s :: s' :: l) := rfl
    rw [hj] at hl
    gorun [joinJoin, execSwitch, anySame, endSwitch, h1, h2, mk_Builder, hl, pk_sb, s_String, r_String]

end Verif.Mini
