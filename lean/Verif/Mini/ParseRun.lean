import Verif.Mini.PegExecute

/-! # Running `Parse` in /repo/miniquery/parse.go -/

namespace Verif.Mini
open Verif

variable {Q : Char → Bool} {n a b : Nat} {h : Heap} {t : Tree} {q : Str} {buf : List Val} {toks : Val}

/-- The memory with some cells taken. -/
def Heap.skip (h : Heap) (k : Nat) : Heap := { h with next := h.next + k }

theorem mk_Tree : mkStruct mq c!"Tree" [] h = .ok ([.ptr h.next], h.alloc (treeVal {})) := rfl

theorem mk_Peg : mkStruct mq c!"MiniQueryPeg" [(c!"Tree", .ptr h.next), (c!"Buffer", .str q)] (h.alloc (treeVal {})) =
    .ok ([.ptr (h.next + 1)], pegHeap (h.skip 2) (h.next + 1) h.next q [] .nil {}) := by
  have e : mkStruct mq c!"MiniQueryPeg" [(c!"Tree", .ptr h.next), (c!"Buffer", .str q)] (h.alloc (treeVal {})) =
    .ok ([.ptr (h.next + 1)], (h.alloc (treeVal {})).alloc (pegObj h.next q [] .nil)) := rfl
  rw [e]
  congr 2
  simp only [Heap.alloc, pegHeap, Heap.put, Heap.skip, Heap.mk.injEq, true_and]
  funext x
  by_cases h1 : x = h.next + 1
  · simp [h1]
  · by_cases h2 : x = h.next <;> simp [h1, h2]

/-- A call of a method of a parser object that is in the library. -/
theorem meth_pegLib (hab : a ≠ b) {m : Str} {args} (h1 : findFunc (c!"MiniQueryPeg." ++ m) mq.decls = none)
    (h2 : (((findStruct c!"MiniQueryPeg" mq.decls).getD []).find? fun (g, t) => t = .un c!"*" (.id g) ∧ (findFunc (g ++ '.' :: m) mq.decls).isSome) = none) :
    mqCall Q (n + 1) (.meth (.ptr a) m) args (pegHeap h a b q buf toks t) =
      mqLib Q (c!"MiniQueryPeg" ++ '.' :: m) (.ptr a :: args) (pegHeap h a b q buf toks t) := by
  show runMeth mq (mqLib Q) (mqCall Q n) (.ptr a) m args _ = _
  simp only [runMeth, structOf, pegHeap_mem hab, pegObj]
  have e : c!"MiniQueryPeg" ++ '.' :: m = c!"MiniQueryPeg." ++ m := rfl
  rw [e, h1]
  simp only []
  rw [h2]

theorem put_comm (hab : a ≠ b) (v w : Val) : (h.put a v).put b w = (h.put b w).put a v := by
  simp only [Heap.put, Heap.mk.injEq, true_and]
  funext x
  by_cases h1 : x = a
  · subst h1; simp [hab]
  · simp [h1]

theorem pegHeap_put (hab : a ≠ b) (q' buf' toks') : (pegHeap h a b q buf toks t).put a (pegObj b q' buf' toks') = pegHeap h a b q' buf' toks' t := by
  rw [pegHeap, put_comm hab, put_put, ← put_comm hab]; rfl

theorem s_Init (hab : a ≠ b) : select mq (.ptr a) c!"Init" (pegHeap h a b q buf toks t) =
    .ok ([.meth (.ptr a) c!"Init"], pegHeap h a b q buf toks t) := select_peg hab rfl rfl rfl
theorem s_Parse (hab : a ≠ b) : select mq (.ptr a) c!"Parse" (pegHeap h a b q buf toks t) =
    .ok ([.meth (.ptr a) c!"Parse"], pegHeap h a b q buf toks t) := select_peg hab rfl rfl rfl
theorem s_Execute (hab : a ≠ b) : select mq (.ptr a) c!"Execute" (pegHeap h a b q buf toks t) =
    .ok ([.meth (.ptr a) c!"Execute"], pegHeap h a b q buf toks t) := select_peg hab rfl rfl rfl

theorem init_run (hab : a ≠ b) : mqCall Q (n + 1) (.meth (.ptr a) c!"Init") [] (pegHeap h a b q buf toks t) =
    .ok ([.nil], pegHeap h a b q (runeVals q ++ [.int 1114112]) toks t) := by
  rw [meth_pegLib hab rfl rfl]
  have e : mqLib Q (c!"MiniQueryPeg" ++ '.' :: c!"Init") [.ptr a] (pegHeap h a b q buf toks t) = pegInit a (pegHeap h a b q buf toks t) := rfl
  rw [e]
  simp only [pegInit, pegHeap_mem hab, pegObj]
  simp [fget, fset]
  exact pegHeap_put hab q (runeVals q ++ [.int 1114112]) toks

theorem pegParse_run (hab : a ≠ b) : mqCall Q (n + 1) (.meth (.ptr a) c!"Parse") [] (pegHeap h a b q buf toks t) =
    (match execN (mkBuf q) G (depthBound q.length) .Grammar initSt with
      | .div => .deep
      | .panic => .panic
      | .fail st => .ok ([errVal (.syntax st.max.b st.max.e)], pegHeap h a b q buf toks t)
      | .ok st =>
        if st.tree.length < st.ti then .panic else .ok ([.nil], pegHeap h a b q buf (.slice ((st.tree.take st.ti).map tokVal)) t)) := by
  rw [meth_pegLib hab rfl rfl]
  have e : mqLib Q (c!"MiniQueryPeg" ++ '.' :: c!"Parse") [.ptr a] (pegHeap h a b q buf toks t) = pegRun a (pegHeap h a b q buf toks t) := rfl
  rw [e]
  simp only [pegRun, pegHeap_mem hab, pegObj]
  have f : ∀ (x : List (Str × Val)), fget c!"Buffer" ((c!"Tree", .ptr b) :: (c!"Buffer", .str q) :: x) = some (.str q) := by intro x; simp [fget]
  rw [f]
  simp only []
  cases execN (mkBuf q) G (depthBound q.length) .Grammar initSt with
  | ok st =>
    by_cases hlt : st.tree.length < st.ti
    · simp [hlt]
    · simp [hlt, fset]
      have := pegHeap_put (h := h) (q := q) (buf := buf) (toks := toks) (t := t) hab q buf (.slice ((st.tree.take st.ti).map tokVal))
      simpa [pegObj] using this
  | _ => rfl

/-- The outcome of `Parse` and the memory afterwards. -/
def parseOut (h' : Heap) : ParseRes → Vals
  | .ok x => .ok ([nodeVal x, .nil], h')
  | .err e => .ok ([.nil, errVal e], h')
  | .panic => .panic
  | .div => .deep

/-- Memory that was in use is as before. -/
def Keeps (h h' : Heap) : Prop := h.next ≤ h'.next ∧ ∀ x < h.next, h'.mem x = h.mem x

theorem keeps_peg (q buf toks t) : Keeps h (pegHeap (h.skip 2) (h.next + 1) h.next q buf toks t) := by
  constructor
  · simp [pegHeap, Heap.skip]
  · intro x hx
    rw [pegHeap, put_mem_other _ _ (by omega), put_mem_other _ _ (by omega)]
    rfl

/-- What the recogniser can do. -/
theorem execN_cases (q : Str) : (∃ st, execN (mkBuf q) G (depthBound q.length) .Grammar initSt = .fail st) ∨
    ∃ st, execN (mkBuf q) G (depthBound q.length) .Grammar initSt = .ok st ∧ ¬ st.tree.length < st.ti ∧
      ∀ k ∈ st.tree.take st.ti, k.b ≤ k.e ∧ k.e ≤ q.length := by
  have hnd : denoteN G (depthBound q.length) .Grammar q ≠ .div := denoteN_ne_div _ _ _ (by show _ + 12 < _; unfold depthBound; omega)
  have hm := execN_match G q (depthBound q.length) .Grammar initSt q (initSt_rel q)
  cases hd : denoteN G (depthBound q.length) .Grammar q with
  | div => exact absurd hd hnd
  | fail => rw [hd] at hm; obtain ⟨st', ho, _⟩ := hm; exact .inl ⟨st', ho⟩
  | ok evs rest =>
    rw [hd] at hm
    obtain ⟨st', toks, ho, hr, hti, ht, he, hin⟩ := hm
    have ht' : st'.tree.take st'.ti = toks := by rw [ht]; rfl
    exact .inr ⟨st', ho, by have := hr.ti_le; omega, by rw [ht']; exact hin⟩

theorem length_pos_int {α} (x : α) (l : List α) : (((x :: l).length : Nat) : Int) ≠ 0 := by simp; omega

/-- Running the text of parse.go is `parse`. -/
theorem parse_run (q : Str) : ∃ h', Keeps h h' ∧ mqCall Q (n + 7) (.fn c!"Parse") [.str q] h = parseOut h' (parse q) := by
  have e0 : mqCall Q (n + 7) (.fn c!"Parse") [.str q] h = runBody mq (mqCall Q (n + 6)) [c!"s"] [c!"_", c!"_"] parseParse [] [.str q] h := rfl
  rw [e0, runBody_plain rfl (by decide) (by decide)]
  have hab : h.next + 1 ≠ h.next := by omega
  rcases execN_cases q with ⟨st, ex⟩ | ⟨st, ex, hti, hin⟩
  · refine ⟨_, keeps_peg q (runeVals q ++ [.int 1114112]) .nil {}, ?_⟩
    gorun [parseParse, mk_Tree, mk_Peg, s_Init hab, init_run hab, s_Parse hab, pegParse_run hab, ex, errVal, parse, parseOut]
  · have hp := fun buf toks t h => pegParse_run (Q := Q) (n := n + 5) (h := h) (q := q) (buf := buf) (toks := toks) (t := t) hab
    simp only [ex, hti, if_false] at hp
    have he : parse q = match execute q (st.tree.take st.ti) with
        | none => .panic
        | some t => match t.errors with | e :: _ => .err e | [] => .ok t.pop.1 := by
      simp only [parse, ex, hti, if_false]
      rfl
    generalize st.tree.take st.ti = L at hp he hin
    have hrun := fun t h => execute_run (Q := Q) (n := n) (h := h) (t := t) hab L hin
    cases ev : runEvs [] (L.filterMap (evOf q)) {} with
    | none =>
      have ep : execute q L = none := by rw [execute, if_pos hin, ev]
      refine ⟨_, keeps_peg q (runeVals q ++ [.int 1114112]) .nil {}, ?_⟩
      gorun [parseParse, mk_Tree, mk_Peg, s_Init hab, init_run hab, s_Parse hab, hp, s_Execute hab, hrun, ev, he, ep, parseOut]
    | some t =>
      have ep : execute q L = some t := by rw [execute, if_pos hin, ev]
      cases et : t.errors with
      | cons e es =>
        refine ⟨_, keeps_peg q (runeVals q ++ [.int 1114112]) (.slice (L.map tokVal)) t, ?_⟩
        have hl : ((es.length : Int) + 1 = 0) = False := by simp; omega
        gorun [parseParse, mk_Tree, mk_Peg, s_Init hab, init_run hab, s_Parse hab, hp, s_Execute hab, hrun, ev, he, ep, parseOut,
          sel_pegErrors hab, et, hl]
      | nil =>
        refine ⟨_, keeps_peg q (runeVals q ++ [.int 1114112]) (.slice (L.map tokVal)) t.pop.2, ?_⟩
        gorun [parseParse, mk_Tree, mk_Peg, s_Init hab, init_run hab, s_Parse hab, hp, s_Execute hab, hrun, ev, he, ep, parseOut,
          sel_pegErrors hab, et, s_Pop hab, p_Pop hab]

end Verif.Mini
