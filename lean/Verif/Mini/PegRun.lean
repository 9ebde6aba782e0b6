import Verif.Mini.PegMeths

/-! # Running `Execute` in /repo/miniquery/miniquery.peg.go:360-433 -/

namespace Verif.Mini
open Verif

variable {Q : Char → Bool} {n a b : Nat} {h : Heap} {t : Tree} {q : Str} {buf : List Val} {toks : Val}

/-- One round of the loop. -/
def execStep (q : Str) : (Str × Nat × Nat × Tree) → Tok → Option (Str × Nat × Nat × Tree)
  | (x, i, j, t), k =>
    match evOf q k with
    | none => some (x, i, j, t)
    | some (.text y) => some (y, k.b, k.e, t)
    | some (.act n) => (runAct n x t).map fun t' => (x, i, j, t')

/-- The variables and the memory in the loop. -/
def execSt (h : Heap) (a b : Nat) (q : Str) (toks : Val) : (Str × Nat × Nat × Tree) → Locals × Heap
  | (x, i, j, t) =>
    ([(c!"end", .val (.int j)), (c!"begin", .val (.int i)), (c!"text", .val (.str x)), (c!"_buffer", .val (.slice (runeVals q ++ [.int 1114112]))),
      (c!"buffer", .val (.str q)), (c!"p", .val (.ptr a))], pegHeap h a b q (runeVals q ++ [.int 1114112]) toks t)

/-- The body of the loop. -/
def execBody (Q : Char → Bool) (n : Nat) : Nat → Val → Locals → Heap → Done :=
  rangeBody [] c!"_" c!"token" (execs mq (mqCall Q n) [] (loopOf (nth pegMiniQueryPegExecute 1)))

theorem sel_pegRule (k : Tok) : select mq (tokVal k) c!"pegRule" h =
    .ok ([.lib (match k.kind with | .rule _ => c!"rule" | .text => c!"rulePegText" | .act n => c!"ruleAction" ++ Nat.toDigits 10 n)], h) := by
  cases e : k.kind <;> simp [select, tokVal, structOf, ownField, fget, e]
theorem sel_begin (k : Tok) : select mq (tokVal k) c!"begin" h = .ok ([.int k.b], h) := by simp [select, tokVal, structOf, ownField, fget]
theorem sel_end (k : Tok) : select mq (tokVal k) c!"end" h = .ok ([.int k.e], h) := by simp [select, tokVal, structOf, ownField, fget]

theorem runes_runeVals (s : Str) : runes (runeVals s) = s := by
  induction s with
  | nil => rfl
  | cons c s ih => simp [runeVals, runes] at ih ⊢; simp [ih]

theorem runes_slice {i j : Nat} (h2 : j ≤ q.length) (w : List Val) :
    runes (((runeVals q ++ w).take j).drop i) = (q.drop i).take (j - i) := by
  have h3 : (runeVals q).length = q.length := by simp [runeVals]
  rw [List.take_append_of_le_length (by omega)]
  have h4 : ((runeVals q).take j).drop i = runeVals ((q.drop i).take (j - i)) := by
    simp [runeVals, ← List.map_take, ← List.map_drop, List.drop_take]
  rw [h4, runes_runeVals]

theorem toDigits_inj {i j : Nat} (h : Nat.toDigits 10 i = Nat.toDigits 10 j) : i = j := by
  have h1 := (toDigits_digits i).2.1
  rw [h, (toDigits_digits j).2.1] at h1
  exact h1.symm

theorem body_rule (i : Nat) (k : Tok) (r) (hk : k.kind = .rule r) (x) :
    execBody Q (n + 5) i (tokVal k) (execSt h a b q toks x).1 (execSt h a b q toks x).2 = .ok (.norm, execSt h a b q toks x) := by
  obtain ⟨x, i', j', t⟩ := x
  gorun [execBody, execSt, pegMiniQueryPegExecute, nth, loopOf, rangeBody, sel_pegRule, hk, execSwitch, anySame, endSwitch, g_PegText, g_act0, g_act1, g_act2, g_act3, g_act4, g_act5, g_act6, g_act7, g_act8, g_act9, g_act10, g_act11, g_act12, g_act13, g_act14, g_act15, g_act16, g_act17, g_act18, g_act19, g_act20, g_act21, g_act22, g_act23, g_act24, g_act25, g_act26, g_act27, g_act28, g_act29]

theorem body_text (i : Nat) (k : Tok) (hk : k.kind = .text) (h1 : k.b ≤ k.e) (h2 : k.e ≤ q.length) (x) :
    execBody Q (n + 5) i (tokVal k) (execSt h a b q toks x).1 (execSt h a b q toks x).2 =
      .ok (.norm, execSt h a b q toks ((q.drop k.b).take (k.e - k.b), k.b, k.e, x.2.2.2)) := by
  obtain ⟨x, i', j', t⟩ := x
  have h3 : (k.b : Int) ≤ k.e := by omega
  have h4 : k.e ≤ q.length + 1 := by omega
  have h5 : (runeVals q).length = q.length := by simp [runeVals]
  gorun [execBody, execSt, pegMiniQueryPegExecute, nth, loopOf, rangeBody, sel_pegRule, sel_begin, sel_end, hk, execSwitch, anySame, endSwitch, g_PegText,
    h3, h4, h5, runes_slice h2]

theorem body_act0 (hab : a ≠ b) (i : Nat) (k : Tok) (hk : k.kind = .act 0) (x) :
    execBody Q (n + 5) i (tokVal k) (execSt h a b q toks x).1 (execSt h a b q toks x).2 =
      (match runAct 0 x.1 x.2.2.2 with | none => .panic | some t' => .ok (.norm, execSt h a b q toks (x.1, x.2.1, x.2.2.1, t'))) := by
  obtain ⟨x, i', j', t⟩ := x
  gorun [execBody, execSt, pegMiniQueryPegExecute, nth, loopOf, rangeBody, sel_pegRule, hk, execSwitch, anySame, endSwitch, g_PegText, g_act0,
    show Nat.toDigits 10 0 = c!"0" from rfl, runAct, s_PopLogic hab, p_PopLogic hab]

theorem body_act1 (hab : a ≠ b) (i : Nat) (k : Tok) (hk : k.kind = .act 1) (x) :
    execBody Q (n + 5) i (tokVal k) (execSt h a b q toks x).1 (execSt h a b q toks x).2 =
      (match runAct 1 x.1 x.2.2.2 with | none => .panic | some t' => .ok (.norm, execSt h a b q toks (x.1, x.2.1, x.2.2.1, t'))) := by
  obtain ⟨x, i', j', t⟩ := x
  gorun [execBody, execSt, pegMiniQueryPegExecute, nth, loopOf, rangeBody, sel_pegRule, hk, execSwitch, anySame, endSwitch, g_PegText, g_act0, g_act1,
    show Nat.toDigits 10 1 = c!"1" from rfl, runAct, s_PopNot hab, p_PopNot hab]

theorem body_act2 (hab : a ≠ b) (i : Nat) (k : Tok) (hk : k.kind = .act 2) (x) :
    execBody Q (n + 5) i (tokVal k) (execSt h a b q toks x).1 (execSt h a b q toks x).2 =
      (match runAct 2 x.1 x.2.2.2 with | none => .panic | some t' => .ok (.norm, execSt h a b q toks (x.1, x.2.1, x.2.2.1, t'))) := by
  obtain ⟨x, i', j', t⟩ := x
  gorun [execBody, execSt, pegMiniQueryPegExecute, nth, loopOf, rangeBody, sel_pegRule, hk, execSwitch, anySame, endSwitch, g_PegText, g_act0, g_act1, g_act2,
    show Nat.toDigits 10 2 = c!"2" from rfl, runAct, s_PopCompare hab, p_PopCompare hab]

theorem body_act3 (hab : a ≠ b) (i : Nat) (k : Tok) (hk : k.kind = .act 3) (x) :
    execBody Q (n + 5) i (tokVal k) (execSt h a b q toks x).1 (execSt h a b q toks x).2 =
      (match runAct 3 x.1 x.2.2.2 with | none => .panic | some t' => .ok (.norm, execSt h a b q toks (x.1, x.2.1, x.2.2.1, t'))) := by
  obtain ⟨x, i', j', t⟩ := x
  gorun [execBody, execSt, pegMiniQueryPegExecute, nth, loopOf, rangeBody, sel_pegRule, hk, execSwitch, anySame, endSwitch, g_PegText, g_act0, g_act1, g_act2, g_act3,
    show Nat.toDigits 10 3 = c!"3" from rfl, runAct, s_AddCompare hab, p_AddCompare hab]

theorem body_act4 (hab : a ≠ b) (i : Nat) (k : Tok) (hk : k.kind = .act 4) (x) :
    execBody Q (n + 5) i (tokVal k) (execSt h a b q toks x).1 (execSt h a b q toks x).2 =
      (match runAct 4 x.1 x.2.2.2 with | none => .panic | some t' => .ok (.norm, execSt h a b q toks (x.1, x.2.1, x.2.2.1, t'))) := by
  obtain ⟨x, i', j', t⟩ := x
  gorun [execBody, execSt, pegMiniQueryPegExecute, nth, loopOf, rangeBody, sel_pegRule, hk, execSwitch, anySame, endSwitch, g_PegText, g_act0, g_act1, g_act2, g_act3, g_act4,
    show Nat.toDigits 10 4 = c!"4" from rfl, runAct, s_PopCompare hab, p_PopCompare hab]

theorem body_act5 (hab : a ≠ b) (i : Nat) (k : Tok) (hk : k.kind = .act 5) (x) :
    execBody Q (n + 5) i (tokVal k) (execSt h a b q toks x).1 (execSt h a b q toks x).2 =
      (match runAct 5 x.1 x.2.2.2 with | none => .panic | some t' => .ok (.norm, execSt h a b q toks (x.1, x.2.1, x.2.2.1, t'))) := by
  obtain ⟨x, i', j', t⟩ := x
  gorun [execBody, execSt, pegMiniQueryPegExecute, nth, loopOf, rangeBody, sel_pegRule, hk, execSwitch, anySame, endSwitch, g_PegText, g_act0, g_act1, g_act2, g_act3, g_act4, g_act5,
    show Nat.toDigits 10 5 = c!"5" from rfl, runAct, s_PopPredicate hab, p_PopPredicate hab]

theorem body_act6 (hab : a ≠ b) (i : Nat) (k : Tok) (hk : k.kind = .act 6) (x) :
    execBody Q (n + 5) i (tokVal k) (execSt h a b q toks x).1 (execSt h a b q toks x).2 =
      (match runAct 6 x.1 x.2.2.2 with | none => .panic | some t' => .ok (.norm, execSt h a b q toks (x.1, x.2.1, x.2.2.1, t'))) := by
  obtain ⟨x, i', j', t⟩ := x
  gorun [execBody, execSt, pegMiniQueryPegExecute, nth, loopOf, rangeBody, sel_pegRule, hk, execSwitch, anySame, endSwitch, g_PegText, g_act0, g_act1, g_act2, g_act3, g_act4, g_act5, g_act6,
    show Nat.toDigits 10 6 = c!"6" from rfl, runAct, s_AddOperation hab, p_AddOperation hab]

theorem body_act7 (hab : a ≠ b) (i : Nat) (k : Tok) (hk : k.kind = .act 7) (x) :
    execBody Q (n + 5) i (tokVal k) (execSt h a b q toks x).1 (execSt h a b q toks x).2 =
      (match runAct 7 x.1 x.2.2.2 with | none => .panic | some t' => .ok (.norm, execSt h a b q toks (x.1, x.2.1, x.2.2.1, t'))) := by
  obtain ⟨x, i', j', t⟩ := x
  gorun [execBody, execSt, pegMiniQueryPegExecute, nth, loopOf, rangeBody, sel_pegRule, hk, execSwitch, anySame, endSwitch, g_PegText, g_act0, g_act1, g_act2, g_act3, g_act4, g_act5, g_act6, g_act7,
    show Nat.toDigits 10 7 = c!"7" from rfl, runAct, s_PopBetween hab, p_PopBetween hab]

theorem body_act8 (hab : a ≠ b) (i : Nat) (k : Tok) (hk : k.kind = .act 8) (x) :
    execBody Q (n + 5) i (tokVal k) (execSt h a b q toks x).1 (execSt h a b q toks x).2 =
      (match runAct 8 x.1 x.2.2.2 with | none => .panic | some t' => .ok (.norm, execSt h a b q toks (x.1, x.2.1, x.2.2.1, t'))) := by
  obtain ⟨x, i', j', t⟩ := x
  gorun [execBody, execSt, pegMiniQueryPegExecute, nth, loopOf, rangeBody, sel_pegRule, hk, execSwitch, anySame, endSwitch, g_PegText, g_act0, g_act1, g_act2, g_act3, g_act4, g_act5, g_act6, g_act7, g_act8,
    show Nat.toDigits 10 8 = c!"8" from rfl, runAct, s_PopParentheses hab, p_PopParentheses hab]

theorem body_act9 (hab : a ≠ b) (i : Nat) (k : Tok) (hk : k.kind = .act 9) (x) :
    execBody Q (n + 5) i (tokVal k) (execSt h a b q toks x).1 (execSt h a b q toks x).2 =
      (match runAct 9 x.1 x.2.2.2 with | none => .panic | some t' => .ok (.norm, execSt h a b q toks (x.1, x.2.1, x.2.2.1, t'))) := by
  obtain ⟨x, i', j', t⟩ := x
  gorun [execBody, execSt, pegMiniQueryPegExecute, nth, loopOf, rangeBody, sel_pegRule, hk, execSwitch, anySame, endSwitch, g_PegText, g_act0, g_act1, g_act2, g_act3, g_act4, g_act5, g_act6, g_act7, g_act8, g_act9,
    show Nat.toDigits 10 9 = c!"9" from rfl, runAct, s_PopFunction hab, p_PopFunction hab]

theorem body_act10 (hab : a ≠ b) (i : Nat) (k : Tok) (hk : k.kind = .act 10) (x) :
    execBody Q (n + 5) i (tokVal k) (execSt h a b q toks x).1 (execSt h a b q toks x).2 =
      (match runAct 10 x.1 x.2.2.2 with | none => .panic | some t' => .ok (.norm, execSt h a b q toks (x.1, x.2.1, x.2.2.1, t'))) := by
  obtain ⟨x, i', j', t⟩ := x
  gorun [execBody, execSt, pegMiniQueryPegExecute, nth, loopOf, rangeBody, sel_pegRule, hk, execSwitch, anySame, endSwitch, g_PegText, g_act0, g_act1, g_act2, g_act3, g_act4, g_act5, g_act6, g_act7, g_act8, g_act9, g_act10,
    show Nat.toDigits 10 10 = c!"10" from rfl, runAct, s_AddMark hab, p_AddMark hab]

theorem body_act11 (hab : a ≠ b) (i : Nat) (k : Tok) (hk : k.kind = .act 11) (x) :
    execBody Q (n + 5) i (tokVal k) (execSt h a b q toks x).1 (execSt h a b q toks x).2 =
      (match runAct 11 x.1 x.2.2.2 with | none => .panic | some t' => .ok (.norm, execSt h a b q toks (x.1, x.2.1, x.2.2.1, t'))) := by
  obtain ⟨x, i', j', t⟩ := x
  cases e : t.popArray <;>
  gorun [execBody, execSt, pegMiniQueryPegExecute, nth, loopOf, rangeBody, sel_pegRule, hk, execSwitch, anySame, endSwitch, g_PegText, g_act0, g_act1, g_act2, g_act3, g_act4, g_act5, g_act6, g_act7, g_act8, g_act9, g_act10, g_act11,
    show Nat.toDigits 10 11 = c!"11" from rfl, runAct, s_PopArray hab, p_PopArray hab, orPanic', e]

theorem body_act12 (hab : a ≠ b) (i : Nat) (k : Tok) (hk : k.kind = .act 12) (x) :
    execBody Q (n + 5) i (tokVal k) (execSt h a b q toks x).1 (execSt h a b q toks x).2 =
      (match runAct 12 x.1 x.2.2.2 with | none => .panic | some t' => .ok (.norm, execSt h a b q toks (x.1, x.2.1, x.2.2.1, t'))) := by
  obtain ⟨x, i', j', t⟩ := x
  gorun [execBody, execSt, pegMiniQueryPegExecute, nth, loopOf, rangeBody, sel_pegRule, hk, execSwitch, anySame, endSwitch, g_PegText, g_act0, g_act1, g_act2, g_act3, g_act4, g_act5, g_act6, g_act7, g_act8, g_act9, g_act10, g_act11, g_act12,
    show Nat.toDigits 10 12 = c!"12" from rfl, runAct, s_AddMark hab, p_AddMark hab]

theorem body_act13 (hab : a ≠ b) (i : Nat) (k : Tok) (hk : k.kind = .act 13) (x) :
    execBody Q (n + 5) i (tokVal k) (execSt h a b q toks x).1 (execSt h a b q toks x).2 =
      (match runAct 13 x.1 x.2.2.2 with | none => .panic | some t' => .ok (.norm, execSt h a b q toks (x.1, x.2.1, x.2.2.1, t'))) := by
  obtain ⟨x, i', j', t⟩ := x
  cases e : t.popIdentifierReference <;>
  gorun [execBody, execSt, pegMiniQueryPegExecute, nth, loopOf, rangeBody, sel_pegRule, hk, execSwitch, anySame, endSwitch, g_PegText, g_act0, g_act1, g_act2, g_act3, g_act4, g_act5, g_act6, g_act7, g_act8, g_act9, g_act10, g_act11, g_act12, g_act13,
    show Nat.toDigits 10 13 = c!"13" from rfl, runAct, s_PopIdentifierReference hab, p_PopIdentifierReference hab, orPanic', e]

theorem body_act14 (hab : a ≠ b) (i : Nat) (k : Tok) (hk : k.kind = .act 14) (x) :
    execBody Q (n + 5) i (tokVal k) (execSt h a b q toks x).1 (execSt h a b q toks x).2 =
      (match runAct 14 x.1 x.2.2.2 with | none => .panic | some t' => .ok (.norm, execSt h a b q toks (x.1, x.2.1, x.2.2.1, t'))) := by
  obtain ⟨x, i', j', t⟩ := x
  gorun [execBody, execSt, pegMiniQueryPegExecute, nth, loopOf, rangeBody, sel_pegRule, hk, execSwitch, anySame, endSwitch, g_PegText, g_act0, g_act1, g_act2, g_act3, g_act4, g_act5, g_act6, g_act7, g_act8, g_act9, g_act10, g_act11, g_act12, g_act13, g_act14,
    show Nat.toDigits 10 14 = c!"14" from rfl, runAct, s_AddName hab, p_AddName hab]

theorem body_act15 (hab : a ≠ b) (i : Nat) (k : Tok) (hk : k.kind = .act 15) (x) :
    execBody Q (n + 5) i (tokVal k) (execSt h a b q toks x).1 (execSt h a b q toks x).2 =
      (match runAct 15 x.1 x.2.2.2 with | none => .panic | some t' => .ok (.norm, execSt h a b q toks (x.1, x.2.1, x.2.2.1, t'))) := by
  obtain ⟨x, i', j', t⟩ := x
  gorun [execBody, execSt, pegMiniQueryPegExecute, nth, loopOf, rangeBody, sel_pegRule, hk, execSwitch, anySame, endSwitch, g_PegText, g_act0, g_act1, g_act2, g_act3, g_act4, g_act5, g_act6, g_act7, g_act8, g_act9, g_act10, g_act11, g_act12, g_act13, g_act14, g_act15,
    show Nat.toDigits 10 15 = c!"15" from rfl, runAct, s_AddCompare hab, p_AddCompare hab]

theorem body_act16 (hab : a ≠ b) (i : Nat) (k : Tok) (hk : k.kind = .act 16) (x) :
    execBody Q (n + 5) i (tokVal k) (execSt h a b q toks x).1 (execSt h a b q toks x).2 =
      (match runAct 16 x.1 x.2.2.2 with | none => .panic | some t' => .ok (.norm, execSt h a b q toks (x.1, x.2.1, x.2.2.1, t'))) := by
  obtain ⟨x, i', j', t⟩ := x
  gorun [execBody, execSt, pegMiniQueryPegExecute, nth, loopOf, rangeBody, sel_pegRule, hk, execSwitch, anySame, endSwitch, g_PegText, g_act0, g_act1, g_act2, g_act3, g_act4, g_act5, g_act6, g_act7, g_act8, g_act9, g_act10, g_act11, g_act12, g_act13, g_act14, g_act15, g_act16,
    show Nat.toDigits 10 16 = c!"16" from rfl, runAct, s_AddCompare hab, p_AddCompare hab]

theorem body_act17 (hab : a ≠ b) (i : Nat) (k : Tok) (hk : k.kind = .act 17) (x) :
    execBody Q (n + 5) i (tokVal k) (execSt h a b q toks x).1 (execSt h a b q toks x).2 =
      (match runAct 17 x.1 x.2.2.2 with | none => .panic | some t' => .ok (.norm, execSt h a b q toks (x.1, x.2.1, x.2.2.1, t'))) := by
  obtain ⟨x, i', j', t⟩ := x
  gorun [execBody, execSt, pegMiniQueryPegExecute, nth, loopOf, rangeBody, sel_pegRule, hk, execSwitch, anySame, endSwitch, g_PegText, g_act0, g_act1, g_act2, g_act3, g_act4, g_act5, g_act6, g_act7, g_act8, g_act9, g_act10, g_act11, g_act12, g_act13, g_act14, g_act15, g_act16, g_act17,
    show Nat.toDigits 10 17 = c!"17" from rfl, runAct, s_AddCompare hab, p_AddCompare hab]

theorem body_act18 (hab : a ≠ b) (i : Nat) (k : Tok) (hk : k.kind = .act 18) (x) :
    execBody Q (n + 5) i (tokVal k) (execSt h a b q toks x).1 (execSt h a b q toks x).2 =
      (match runAct 18 x.1 x.2.2.2 with | none => .panic | some t' => .ok (.norm, execSt h a b q toks (x.1, x.2.1, x.2.2.1, t'))) := by
  obtain ⟨x, i', j', t⟩ := x
  gorun [execBody, execSt, pegMiniQueryPegExecute, nth, loopOf, rangeBody, sel_pegRule, hk, execSwitch, anySame, endSwitch, g_PegText, g_act0, g_act1, g_act2, g_act3, g_act4, g_act5, g_act6, g_act7, g_act8, g_act9, g_act10, g_act11, g_act12, g_act13, g_act14, g_act15, g_act16, g_act17, g_act18,
    show Nat.toDigits 10 18 = c!"18" from rfl, runAct, s_AddLogic hab, p_AddLogic hab]

theorem body_act19 (hab : a ≠ b) (i : Nat) (k : Tok) (hk : k.kind = .act 19) (x) :
    execBody Q (n + 5) i (tokVal k) (execSt h a b q toks x).1 (execSt h a b q toks x).2 =
      (match runAct 19 x.1 x.2.2.2 with | none => .panic | some t' => .ok (.norm, execSt h a b q toks (x.1, x.2.1, x.2.2.1, t'))) := by
  obtain ⟨x, i', j', t⟩ := x
  gorun [execBody, execSt, pegMiniQueryPegExecute, nth, loopOf, rangeBody, sel_pegRule, hk, execSwitch, anySame, endSwitch, g_PegText, g_act0, g_act1, g_act2, g_act3, g_act4, g_act5, g_act6, g_act7, g_act8, g_act9, g_act10, g_act11, g_act12, g_act13, g_act14, g_act15, g_act16, g_act17, g_act18, g_act19,
    show Nat.toDigits 10 19 = c!"19" from rfl, runAct, s_AddLogic hab, p_AddLogic hab]

theorem body_act20 (hab : a ≠ b) (i : Nat) (k : Tok) (hk : k.kind = .act 20) (x) :
    execBody Q (n + 5) i (tokVal k) (execSt h a b q toks x).1 (execSt h a b q toks x).2 =
      (match runAct 20 x.1 x.2.2.2 with | none => .panic | some t' => .ok (.norm, execSt h a b q toks (x.1, x.2.1, x.2.2.1, t'))) := by
  obtain ⟨x, i', j', t⟩ := x
  gorun [execBody, execSt, pegMiniQueryPegExecute, nth, loopOf, rangeBody, sel_pegRule, hk, execSwitch, anySame, endSwitch, g_PegText, g_act0, g_act1, g_act2, g_act3, g_act4, g_act5, g_act6, g_act7, g_act8, g_act9, g_act10, g_act11, g_act12, g_act13, g_act14, g_act15, g_act16, g_act17, g_act18, g_act19, g_act20,
    show Nat.toDigits 10 20 = c!"20" from rfl, runAct, s_AddMatch hab, p_AddMatch hab]

theorem body_act21 (hab : a ≠ b) (i : Nat) (k : Tok) (hk : k.kind = .act 21) (x) :
    execBody Q (n + 5) i (tokVal k) (execSt h a b q toks x).1 (execSt h a b q toks x).2 =
      (match runAct 21 x.1 x.2.2.2 with | none => .panic | some t' => .ok (.norm, execSt h a b q toks (x.1, x.2.1, x.2.2.1, t'))) := by
  obtain ⟨x, i', j', t⟩ := x
  gorun [execBody, execSt, pegMiniQueryPegExecute, nth, loopOf, rangeBody, sel_pegRule, hk, execSwitch, anySame, endSwitch, g_PegText, g_act0, g_act1, g_act2, g_act3, g_act4, g_act5, g_act6, g_act7, g_act8, g_act9, g_act10, g_act11, g_act12, g_act13, g_act14, g_act15, g_act16, g_act17, g_act18, g_act19, g_act20, g_act21,
    show Nat.toDigits 10 21 = c!"21" from rfl, runAct, s_AddMark hab, p_AddMark hab]

theorem body_act22 (hab : a ≠ b) (i : Nat) (k : Tok) (hk : k.kind = .act 22) (x) :
    execBody Q (n + 5) i (tokVal k) (execSt h a b q toks x).1 (execSt h a b q toks x).2 =
      (match runAct 22 x.1 x.2.2.2 with | none => .panic | some t' => .ok (.norm, execSt h a b q toks (x.1, x.2.1, x.2.2.1, t'))) := by
  obtain ⟨x, i', j', t⟩ := x
  cases e : t.popArray <;>
  gorun [execBody, execSt, pegMiniQueryPegExecute, nth, loopOf, rangeBody, sel_pegRule, hk, execSwitch, anySame, endSwitch, g_PegText, g_act0, g_act1, g_act2, g_act3, g_act4, g_act5, g_act6, g_act7, g_act8, g_act9, g_act10, g_act11, g_act12, g_act13, g_act14, g_act15, g_act16, g_act17, g_act18, g_act19, g_act20, g_act21, g_act22,
    show Nat.toDigits 10 22 = c!"22" from rfl, runAct, s_PopArray hab, p_PopArray hab, orPanic', e]

theorem body_act23 (hab : a ≠ b) (i : Nat) (k : Tok) (hk : k.kind = .act 23) (x) :
    execBody Q (n + 5) i (tokVal k) (execSt h a b q toks x).1 (execSt h a b q toks x).2 =
      (match runAct 23 x.1 x.2.2.2 with | none => .panic | some t' => .ok (.norm, execSt h a b q toks (x.1, x.2.1, x.2.2.1, t'))) := by
  obtain ⟨x, i', j', t⟩ := x
  gorun [execBody, execSt, pegMiniQueryPegExecute, nth, loopOf, rangeBody, sel_pegRule, hk, execSwitch, anySame, endSwitch, g_PegText, g_act0, g_act1, g_act2, g_act3, g_act4, g_act5, g_act6, g_act7, g_act8, g_act9, g_act10, g_act11, g_act12, g_act13, g_act14, g_act15, g_act16, g_act17, g_act18, g_act19, g_act20, g_act21, g_act22, g_act23,
    show Nat.toDigits 10 23 = c!"23" from rfl, runAct, s_AddMark hab, p_AddMark hab]

theorem body_act24 (hab : a ≠ b) (i : Nat) (k : Tok) (hk : k.kind = .act 24) (x) :
    execBody Q (n + 5) i (tokVal k) (execSt h a b q toks x).1 (execSt h a b q toks x).2 =
      (match runAct 24 x.1 x.2.2.2 with | none => .panic | some t' => .ok (.norm, execSt h a b q toks (x.1, x.2.1, x.2.2.1, t'))) := by
  obtain ⟨x, i', j', t⟩ := x
  cases e : t.popArray <;>
  gorun [execBody, execSt, pegMiniQueryPegExecute, nth, loopOf, rangeBody, sel_pegRule, hk, execSwitch, anySame, endSwitch, g_PegText, g_act0, g_act1, g_act2, g_act3, g_act4, g_act5, g_act6, g_act7, g_act8, g_act9, g_act10, g_act11, g_act12, g_act13, g_act14, g_act15, g_act16, g_act17, g_act18, g_act19, g_act20, g_act21, g_act22, g_act23, g_act24,
    show Nat.toDigits 10 24 = c!"24" from rfl, runAct, s_PopArray hab, p_PopArray hab, orPanic', e]

theorem body_act25 (hab : a ≠ b) (i : Nat) (k : Tok) (hk : k.kind = .act 25) (x) :
    execBody Q (n + 5) i (tokVal k) (execSt h a b q toks x).1 (execSt h a b q toks x).2 =
      (match runAct 25 x.1 x.2.2.2 with | none => .panic | some t' => .ok (.norm, execSt h a b q toks (x.1, x.2.1, x.2.2.1, t'))) := by
  obtain ⟨x, i', j', t⟩ := x
  gorun [execBody, execSt, pegMiniQueryPegExecute, nth, loopOf, rangeBody, sel_pegRule, hk, execSwitch, anySame, endSwitch, g_PegText, g_act0, g_act1, g_act2, g_act3, g_act4, g_act5, g_act6, g_act7, g_act8, g_act9, g_act10, g_act11, g_act12, g_act13, g_act14, g_act15, g_act16, g_act17, g_act18, g_act19, g_act20, g_act21, g_act22, g_act23, g_act24, g_act25,
    show Nat.toDigits 10 25 = c!"25" from rfl, runAct, s_AddInteger hab, p_AddInteger hab]

theorem body_act26 (hab : a ≠ b) (i : Nat) (k : Tok) (hk : k.kind = .act 26) (x) :
    execBody Q (n + 5) i (tokVal k) (execSt h a b q toks x).1 (execSt h a b q toks x).2 =
      (match runAct 26 x.1 x.2.2.2 with | none => .panic | some t' => .ok (.norm, execSt h a b q toks (x.1, x.2.1, x.2.2.1, t'))) := by
  obtain ⟨x, i', j', t⟩ := x
  gorun [execBody, execSt, pegMiniQueryPegExecute, nth, loopOf, rangeBody, sel_pegRule, hk, execSwitch, anySame, endSwitch, g_PegText, g_act0, g_act1, g_act2, g_act3, g_act4, g_act5, g_act6, g_act7, g_act8, g_act9, g_act10, g_act11, g_act12, g_act13, g_act14, g_act15, g_act16, g_act17, g_act18, g_act19, g_act20, g_act21, g_act22, g_act23, g_act24, g_act25, g_act26,
    show Nat.toDigits 10 26 = c!"26" from rfl, runAct, s_AddBoolean hab, p_AddBoolean hab]

theorem body_act27 (hab : a ≠ b) (i : Nat) (k : Tok) (hk : k.kind = .act 27) (x) :
    execBody Q (n + 5) i (tokVal k) (execSt h a b q toks x).1 (execSt h a b q toks x).2 =
      (match runAct 27 x.1 x.2.2.2 with | none => .panic | some t' => .ok (.norm, execSt h a b q toks (x.1, x.2.1, x.2.2.1, t'))) := by
  obtain ⟨x, i', j', t⟩ := x
  gorun [execBody, execSt, pegMiniQueryPegExecute, nth, loopOf, rangeBody, sel_pegRule, hk, execSwitch, anySame, endSwitch, g_PegText, g_act0, g_act1, g_act2, g_act3, g_act4, g_act5, g_act6, g_act7, g_act8, g_act9, g_act10, g_act11, g_act12, g_act13, g_act14, g_act15, g_act16, g_act17, g_act18, g_act19, g_act20, g_act21, g_act22, g_act23, g_act24, g_act25, g_act26, g_act27,
    show Nat.toDigits 10 27 = c!"27" from rfl, runAct, s_AddNull hab, p_AddNull hab]

theorem body_act28 (hab : a ≠ b) (i : Nat) (k : Tok) (hk : k.kind = .act 28) (x) :
    execBody Q (n + 5) i (tokVal k) (execSt h a b q toks x).1 (execSt h a b q toks x).2 =
      (match runAct 28 x.1 x.2.2.2 with | none => .panic | some t' => .ok (.norm, execSt h a b q toks (x.1, x.2.1, x.2.2.1, t'))) := by
  obtain ⟨x, i', j', t⟩ := x
  gorun [execBody, execSt, pegMiniQueryPegExecute, nth, loopOf, rangeBody, sel_pegRule, hk, execSwitch, anySame, endSwitch, g_PegText, g_act0, g_act1, g_act2, g_act3, g_act4, g_act5, g_act6, g_act7, g_act8, g_act9, g_act10, g_act11, g_act12, g_act13, g_act14, g_act15, g_act16, g_act17, g_act18, g_act19, g_act20, g_act21, g_act22, g_act23, g_act24, g_act25, g_act26, g_act27, g_act28,
    show Nat.toDigits 10 28 = c!"28" from rfl, runAct, s_AddString hab, p_AddString hab]

theorem body_act29 (hab : a ≠ b) (i : Nat) (k : Tok) (hk : k.kind = .act 29) (x) :
    execBody Q (n + 5) i (tokVal k) (execSt h a b q toks x).1 (execSt h a b q toks x).2 =
      (match runAct 29 x.1 x.2.2.2 with | none => .panic | some t' => .ok (.norm, execSt h a b q toks (x.1, x.2.1, x.2.2.1, t'))) := by
  obtain ⟨x, i', j', t⟩ := x
  gorun [execBody, execSt, pegMiniQueryPegExecute, nth, loopOf, rangeBody, sel_pegRule, hk, execSwitch, anySame, endSwitch, g_PegText, g_act0, g_act1, g_act2, g_act3, g_act4, g_act5, g_act6, g_act7, g_act8, g_act9, g_act10, g_act11, g_act12, g_act13, g_act14, g_act15, g_act16, g_act17, g_act18, g_act19, g_act20, g_act21, g_act22, g_act23, g_act24, g_act25, g_act26, g_act27, g_act28, g_act29,
    show Nat.toDigits 10 29 = c!"29" from rfl, runAct, s_AddString hab, p_AddString hab]

theorem body_other (i : Nat) (k : Tok) (m : Nat) (hk : k.kind = .act m) (hm : 30 ≤ m) (x) :
    execBody Q (n + 5) i (tokVal k) (execSt h a b q toks x).1 (execSt h a b q toks x).2 = .ok (.norm, execSt h a b q toks x) := by
  obtain ⟨x, i', j', t⟩ := x
  have hne : ∀ j, j < 30 → (Nat.toDigits 10 m = Nat.toDigits 10 j) = False := by
    intro j hj
    simp only [eq_iff_iff, iff_false]
    intro e
    have := toDigits_inj e
    omega
  have e0 : (Nat.toDigits 10 m = c!"0") = False := hne 0 (by omega)
  have e1 : (Nat.toDigits 10 m = c!"1") = False := hne 1 (by omega)
  have e2 : (Nat.toDigits 10 m = c!"2") = False := hne 2 (by omega)
  have e3 : (Nat.toDigits 10 m = c!"3") = False := hne 3 (by omega)
  have e4 : (Nat.toDigits 10 m = c!"4") = False := hne 4 (by omega)
  have e5 : (Nat.toDigits 10 m = c!"5") = False := hne 5 (by omega)
  have e6 : (Nat.toDigits 10 m = c!"6") = False := hne 6 (by omega)
  have e7 : (Nat.toDigits 10 m = c!"7") = False := hne 7 (by omega)
  have e8 : (Nat.toDigits 10 m = c!"8") = False := hne 8 (by omega)
  have e9 : (Nat.toDigits 10 m = c!"9") = False := hne 9 (by omega)
  have e10 : (Nat.toDigits 10 m = c!"10") = False := hne 10 (by omega)
  have e11 : (Nat.toDigits 10 m = c!"11") = False := hne 11 (by omega)
  have e12 : (Nat.toDigits 10 m = c!"12") = False := hne 12 (by omega)
  have e13 : (Nat.toDigits 10 m = c!"13") = False := hne 13 (by omega)
  have e14 : (Nat.toDigits 10 m = c!"14") = False := hne 14 (by omega)
  have e15 : (Nat.toDigits 10 m = c!"15") = False := hne 15 (by omega)
  have e16 : (Nat.toDigits 10 m = c!"16") = False := hne 16 (by omega)
  have e17 : (Nat.toDigits 10 m = c!"17") = False := hne 17 (by omega)
  have e18 : (Nat.toDigits 10 m = c!"18") = False := hne 18 (by omega)
  have e19 : (Nat.toDigits 10 m = c!"19") = False := hne 19 (by omega)
  have e20 : (Nat.toDigits 10 m = c!"20") = False := hne 20 (by omega)
  have e21 : (Nat.toDigits 10 m = c!"21") = False := hne 21 (by omega)
  have e22 : (Nat.toDigits 10 m = c!"22") = False := hne 22 (by omega)
  have e23 : (Nat.toDigits 10 m = c!"23") = False := hne 23 (by omega)
  have e24 : (Nat.toDigits 10 m = c!"24") = False := hne 24 (by omega)
  have e25 : (Nat.toDigits 10 m = c!"25") = False := hne 25 (by omega)
  have e26 : (Nat.toDigits 10 m = c!"26") = False := hne 26 (by omega)
  have e27 : (Nat.toDigits 10 m = c!"27") = False := hne 27 (by omega)
  have e28 : (Nat.toDigits 10 m = c!"28") = False := hne 28 (by omega)
  have e29 : (Nat.toDigits 10 m = c!"29") = False := hne 29 (by omega)
  gorun [execBody, execSt, pegMiniQueryPegExecute, nth, loopOf, rangeBody, sel_pegRule, hk, execSwitch, anySame, endSwitch, g_PegText, g_act0, g_act1, g_act2, g_act3, g_act4, g_act5, g_act6, g_act7, g_act8, g_act9, g_act10, g_act11, g_act12, g_act13, g_act14, g_act15, g_act16, g_act17, g_act18, g_act19, g_act20, g_act21, g_act22, g_act23, g_act24, g_act25, g_act26, g_act27, g_act28, g_act29,
    e0, e1, e2, e3, e4, e5, e6, e7, e8, e9, e10, e11, e12, e13, e14, e15, e16, e17, e18, e19, e20, e21, e22, e23, e24, e25, e26, e27, e28, e29]

theorem runAct_other (m : Nat) (hm : 30 ≤ m) (x : Str) (t : Tree) : runAct m x t = some t := by
  match m, hm with
  | m + 30, _ => rfl

theorem body_act (hab : a ≠ b) (i : Nat) (k : Tok) (m : Nat) (hk : k.kind = .act m) (x) :
    execBody Q (n + 5) i (tokVal k) (execSt h a b q toks x).1 (execSt h a b q toks x).2 =
      (match runAct m x.1 x.2.2.2 with | none => .panic | some t' => .ok (.norm, execSt h a b q toks (x.1, x.2.1, x.2.2.1, t'))) := by
  match m, hk with
  | 0, hk => exact body_act0 hab i k hk x
  | 1, hk => exact body_act1 hab i k hk x
  | 2, hk => exact body_act2 hab i k hk x
  | 3, hk => exact body_act3 hab i k hk x
  | 4, hk => exact body_act4 hab i k hk x
  | 5, hk => exact body_act5 hab i k hk x
  | 6, hk => exact body_act6 hab i k hk x
  | 7, hk => exact body_act7 hab i k hk x
  | 8, hk => exact body_act8 hab i k hk x
  | 9, hk => exact body_act9 hab i k hk x
  | 10, hk => exact body_act10 hab i k hk x
  | 11, hk => exact body_act11 hab i k hk x
  | 12, hk => exact body_act12 hab i k hk x
  | 13, hk => exact body_act13 hab i k hk x
  | 14, hk => exact body_act14 hab i k hk x
  | 15, hk => exact body_act15 hab i k hk x
  | 16, hk => exact body_act16 hab i k hk x
  | 17, hk => exact body_act17 hab i k hk x
  | 18, hk => exact body_act18 hab i k hk x
  | 19, hk => exact body_act19 hab i k hk x
  | 20, hk => exact body_act20 hab i k hk x
  | 21, hk => exact body_act21 hab i k hk x
  | 22, hk => exact body_act22 hab i k hk x
  | 23, hk => exact body_act23 hab i k hk x
  | 24, hk => exact body_act24 hab i k hk x
  | 25, hk => exact body_act25 hab i k hk x
  | 26, hk => exact body_act26 hab i k hk x
  | 27, hk => exact body_act27 hab i k hk x
  | 28, hk => exact body_act28 hab i k hk x
  | 29, hk => exact body_act29 hab i k hk x
  | m + 30, hk => rw [runAct_other _ (by omega)]; exact body_other i k _ hk (by omega) x

end Verif.Mini
