import Verif.Gen.AddRun

/-! # Running the functions that `Init` creates -/

namespace Verif.Gen
open Verif

variable {Q : Char → Bool} {n : Nat} {h : Heap}

/-- The function literal of a statement. -/
def bodyOf : Stmts → Stmts
  | .cons (.assign _ (.cons (.fn _ _ _ b) _)) _ => b
  | .cons (.define _ (.cons (.fn _ _ _ b) _)) _ => b
  | _ => .nil

/-- The variables around the function `reset`. -/
def envR (y : Lay) (pc : Nat) (o : Val) : Locals :=
  [(c!"buffer", .box y.buf), (c!"tokenIndex", .box y.ti), (c!"position", .box y.pos), (c!"max", .box y.max), (c!"options", .val o), (c!"p", .box pc)]

/-- The variables around the functions `parse` and `add`. -/
def envT (y : Lay) (pc : Nat) (o r : Val) : Locals := (c!"tree", .box y.tree) :: (c!"_rules", .val r) :: envR y pc o

/-- The function `add`. -/
def addFn (y : Lay) (pc : Nat) (o r : Val) : Val := .clo [c!"rule", c!"begin"] false .nil (bodyOf (nth gMiniQueryPegInit 7)) (envT y pc o r)

/-- The function `matchDot`. -/
def dotFn (y : Lay) (pc : Nat) (o r : Val) : Val :=
  .clo [] false (.cons (.id c!"bool") .nil) (bodyOf (nth gMiniQueryPegInit 8)) ((c!"add", .val (addFn y pc o r)) :: envT y pc o r)

/-- The function `reset`. -/
def resetFn (y : Lay) (pc : Nat) (o : Val) : Val := .clo [] false .nil (bodyOf (nth gMiniQueryPegInit 2)) (envR y pc o)

/-- The function `parse`. -/
def parseFn (y : Lay) (pc : Nat) (o r : Val) : Val :=
  .clo [c!"rule"] true (.cons (.id c!"error") .nil) (bodyOf (nth gMiniQueryPegInit 6)) (envT y pc o r)

/-- The array of rule functions. -/
def rulesVal (y : Lay) (pc : Nat) (o r : Val) : Val :=
  .rules ((c!"matchDot", .val (dotFn y pc o r)) :: (c!"add", .val (addFn y pc o r)) :: envT y pc o r)

/-- The cells are different. -/
structure Apart (y : Lay) (pc a : Nat) : Prop where
  n1 : y.max ≠ y.pos
  n2 : y.max ≠ y.ti
  n3 : y.max ≠ y.buf
  n4 : y.max ≠ y.tree
  n5 : y.max ≠ pc
  n6 : y.max ≠ a
  n7 : y.pos ≠ y.ti
  n8 : y.pos ≠ y.buf
  n9 : y.pos ≠ y.tree
  n10 : y.pos ≠ pc
  n11 : y.pos ≠ a
  n12 : y.ti ≠ y.buf
  n13 : y.ti ≠ y.tree
  n14 : y.ti ≠ pc
  n15 : y.ti ≠ a
  n16 : y.buf ≠ y.tree
  n17 : y.buf ≠ pc
  n18 : y.buf ≠ a
  n19 : y.tree ≠ pc
  n20 : y.tree ≠ a
  n21 : pc ≠ a

/-- The memory holds a state of the recogniser and a buffer. -/
structure Rep (y : Lay) (pc a : Nat) (st : St) (buf : List Nat) (h : Heap) : Prop where
  apart : Apart y pc a
  below : ∀ x ∈ [y.max, y.pos, y.ti, y.buf, y.tree, pc, a], x < h.next
  pos : h.mem y.pos = .int st.pos
  ti : h.mem y.ti = .int st.ti
  max : h.mem y.max = maxVal st.max
  maxOk : MaxOk st.max
  tree : ∃ v, h.mem y.tree = treeObj v ∧ Toks h v st.tree
  buf : ∃ b, b < h.next ∧ h.mem y.buf = .sl b 0 buf.length ∧ h.mem b = .arr (buf.map fun x : Nat => .int x)
  p : h.mem pc = .ptr a []
  obj : isObj (h.mem a) = true

theorem dot_run {y pc a st buf o r} (k : Rep y pc a st buf h) :
    gCall Q (n + 2) (dotFn y pc o r) [] false h = (match buf[st.pos]? with
      | none => .panic
      | some x => if x ≠ endSymbol then .ok ([.bool true], h.put y.pos (.int (st.pos + 1))) else .ok ([.bool false], h)) := by
  show runBody _ _ _ _ _ _ _ _ _ _ _ = _
  have hc : capSs false (bodyOf (nth gMiniQueryPegInit 8)) = [] := rfl
  obtain ⟨b, _, hb1, hb2⟩ := k.buf
  have hv : view h (.sl b 0 buf.length) = some (buf.map fun x : Nat => .int x) := by
    simp [view, hb2, List.take_of_length_le]
  have hg : gCall Q (n + 1) (.glob c!"endSymbol") [] false h = .ok ([.int 1114112], h) := rfl
  have hp : ¬ ((st.pos : Int) < 0) := by omega
  simp only [runBody, hc]
  cases e : buf[st.pos]? with
  | none =>
    grun [bodyOf, nth, gMiniQueryPegInit, envT, envR, hb1, hv, k.pos, nthVal, hp, e]
  | some x =>
    by_cases hx : x = endSymbol
    · grun [bodyOf, nth, gMiniQueryPegInit, envT, envR, hb1, hv, k.pos, nthVal, hp, e, hg, hx, endSymbol]
    · have hx' : ¬ ((x : Int) = 1114112) := by simp [endSymbol] at hx; omega
      grun [bodyOf, nth, gMiniQueryPegInit, envT, envR, hb1, hv, k.pos, nthVal, hp, e, hg, hx, hx']

/-- Cells that are not arrays of tokens or of the buffer stay apart from them. -/
theorem ne_of_mem {h : Heap} {x t : Nat} {l} (ht : h.mem t = .arr l) (hx : ∀ l, h.mem x ≠ .arr l) : x ≠ t := by
  intro e; rw [e] at hx; exact hx l ht

/-- The memory after `add`. -/
def addFnHeap (y : Lay) (st : St) (k : TokKind) (b : Nat) (v : Val) (h : Heap) : Heap :=
  let h1 := (addHeap h y.tree v st.tree ⟨k, b, st.pos⟩ st.ti).put y.ti (.int (st.ti + 1))
  if b ≠ st.pos ∧ st.pos > st.max.e then h1.put y.max (tokVal ⟨k, b, st.pos⟩) else h1

theorem select_end {x : Nat} {m : Tok} (hm : h.mem x = maxVal m) : select gDecls false (.ptr x []) c!"end" h = .ok ([.int m.e], h) := by
  simp [select, getPath, hm, maxVal, tokObj, fieldPath, fget]

/-- What `add` does to memory outside `tree`. -/
theorem addHeap_mem {a : Nat} {v ts} (hm : h.mem a = treeObj v) (ht : Toks h v ts) (t : Tok) (i : Nat) {x : Nat} (hx : x < h.next) (hxa : x ≠ a)
    (hl : ∀ b ts, b < h.next → v = .sl b 0 ts → x ≠ b) : (addHeap h a v ts t i).mem x = h.mem x := by
  unfold addHeap
  split
  · rw [put_mem_other _ _ hxa, alloc_mem_other _ _ (by omega)]
  · rcases ht with ⟨rfl, rfl⟩ | ⟨b, hb, rfl, e⟩
    · rfl
    · exact put_mem_other _ _ (hl b _ hb rfl)

theorem Rep.addHeap {y pc a st buf} (k : Rep y pc a st buf h) {v} (hv : h.mem y.tree = treeObj v) (ht : Toks h v st.tree) (t : Tok) {x : Nat} (hx : x < h.next)
    (hxa : x ≠ y.tree) (hl : ∀ l, h.mem x ≠ .arr l) : (addHeap h y.tree v st.tree t st.ti).mem x = h.mem x := by
  apply addHeap_mem hv ht _ _ hx hxa
  rintro b ts hb rfl
  rcases ht with ⟨h1, _⟩ | ⟨b', _, h1, e⟩
  · cases h1
  · cases h1; exact ne_of_mem e hl

/-- Cells are different. -/
macro "apart" k:term : term => `(by obtain ⟨_, _, _, _, _, _, _, _, _, _, _, _, _, _, _, _, _, _, _, _, _⟩ := ($k).apart; first | assumption | (apply Ne.symm; assumption))

theorem lit_tok (k : TokKind) (b e : Nat) :
    setFields (tokObj 0 0 0) (.cons .no (.cons .no (.cons .no .nil))) [.int (kindNum k), .int b, .int e] = tokVal ⟨k, b, e⟩ := rfl

set_option maxHeartbeats 1000000 in
/-- Running `add`. -/
theorem addFn_run {y pc a st buf o r} (k : Rep y pc a st buf h) {v} (hv : h.mem y.tree = treeObj v) (ht : Toks h v st.tree) (kd : TokKind) (b : Nat) :
    gCall Q (n + 2) (addFn y pc o r) [.int (kindNum kd), .int b] false h = .ok ([], addFnHeap y st kd b v h) := by
  show runBody _ _ _ _ _ _ _ _ _ _ _ = _
  have hc : capSs false (bodyOf (nth gMiniQueryPegInit 7)) = [c!"tree"] := rfl
  have hlt : y.tree < h.next := k.below _ (by simp)
  have hadd := add_run (Q := Q) (n := n) hv ht hlt kd b st.pos st.ti
  have hsel : select gDecls false (.ptr y.tree []) c!"Add" h = .ok ([.meth (.ptr y.tree []) c!"Add"], h) := by
    simp only [select, getPath, hv, treeObj]; rfl
  have hpos := k.addHeap hv ht ⟨kd, b, st.pos⟩ (x := y.pos) (k.below _ (by simp)) (apart k) (by simp [k.pos])
  have hti := k.addHeap hv ht ⟨kd, b, st.pos⟩ (x := y.ti) (k.below _ (by simp)) (apart k) (by simp [k.ti])
  have hmax := k.addHeap hv ht ⟨kd, b, st.pos⟩ (x := y.max) (k.below _ (by simp)) (apart k) (by simp [k.max, maxVal, tokObj])
  generalize hh : Gen.addHeap h y.tree v st.tree ⟨kd, b, st.pos⟩ st.ti = h1 at hadd hpos hti hmax
  rw [k.pos] at hpos
  rw [k.ti] at hti
  rw [k.max] at hmax
  have hpos2 : ∀ w, (h1.put y.ti w).mem y.pos = .int st.pos := fun w => by rw [put_mem_other _ _ (apart k)]; exact hpos
  have hmax2 : ∀ w, (h1.put y.ti w).mem y.max = maxVal st.max := fun w => by rw [put_mem_other _ _ (apart k)]; exact hmax
  have hend : ∀ w, select gDecls false (.ptr y.max []) c!"end" (h1.put y.ti w) = .ok ([.int st.max.e], h1.put y.ti w) := fun w => select_end (hmax2 w)
  simp only [runBody, hc]
  by_cases c1 : b = st.pos
  · subst c1
    grun [bodyOf, nth, gMiniQueryPegInit, envT, envR, hsel, hv, k.pos, k.ti, hadd, hpos2, hti, hmax2, addFnHeap, hh]
  · have c1' : ¬ ((b : Int) = st.pos) := by omega
    by_cases c2 : st.max.e < st.pos <;>
    grun [bodyOf, nth, gMiniQueryPegInit, envT, envR, hsel, hv, k.pos, k.ti, hadd, hpos2, hti, hmax2, hend, c1, c1', c2, addFnHeap, hh, zero_token32, lit_tok]

theorem addHeap_next {a v ts t i} : h.next ≤ (addHeap h a v ts t i).next := by
  unfold addHeap; split
  · simp
  · split <;> simp

theorem addHeap_out {a v ts t i} : (addHeap h a v ts t i).out = h.out := by
  unfold addHeap; split
  · simp
  · split <;> simp

theorem addHeap_tree {a : Nat} {v ts} (hm : h.mem a = treeObj v) (ht : Toks h v ts) (ha : a < h.next) (t : Tok) (i : Nat) :
    ∃ v', (addHeap h a v ts t i).mem a = treeObj v' ∧
      Toks (addHeap h a v ts t i) v' (if i ≥ ts.length then ts ++ [t] else ts.set i t) := by
  unfold addHeap
  by_cases hi : ts.length ≤ i
  · rw [if_pos hi, if_pos hi]
    refine ⟨_, put_mem_same _ _ _, .inr ⟨h.next, by simp, by simp, ?_⟩⟩
    rw [put_mem_other _ _ (by omega), alloc_mem_same]
  · rw [if_neg hi, if_neg hi]
    rcases ht with ⟨rfl, rfl⟩ | ⟨b, hb, rfl, e⟩
    · simp at hi
    · refine ⟨_, by rw [put_mem_other _ _ (ne_of_mem e (by simp [hm, treeObj]))]; exact hm, .inr ⟨b, hb, by simp, put_mem_same _ _ _⟩⟩

theorem addHeap_buf {a : Nat} {v ts} (hm : h.mem a = treeObj v) (ht : Toks h v ts) (t : Tok) (i : Nat) {b : Nat} {buf : List Nat} (hb : b < h.next)
    (e : h.mem b = .arr (buf.map fun x : Nat => .int x)) : (addHeap h a v ts t i).mem b = .arr (buf.map fun x : Nat => .int x) := by
  unfold addHeap
  have hab : a ≠ b := ne_of_mem e (by simp [hm, treeObj])
  split
  · rw [put_mem_other _ _ (Ne.symm hab), alloc_mem_other _ _ (by omega), e]
  · rename_i hi
    rcases ht with ⟨rfl, rfl⟩ | ⟨c, hc, rfl, ec⟩
    · simp at hi
    · show (h.put c _).mem b = _
      rw [put_mem_other, e]
      rintro rfl
      rw [e] at ec
      match ts, buf, ec with
      | [], _, _ => simp at hi
      | _ :: _, [], ec => simp at ec
      | _ :: _, _ :: _, ec => simp [tokVal, tokObj] at ec

theorem Toks.mono {h' : Heap} {v ts} (k : Toks h v ts) (hn : h.next ≤ h'.next) (hm : ∀ a, a < h.next → ∀ l, h.mem a = .arr l → h'.mem a = .arr l) : Toks h' v ts := by
  rcases k with ⟨rfl, rfl⟩ | ⟨b, hb, rfl, e⟩
  · exact .inl ⟨rfl, rfl⟩
  · exact .inr ⟨b, by omega, rfl, hm b hb _ e⟩

theorem put_arr {x b : Nat} {w l} (e : h.mem b = .arr l) (hx : ∀ l, h.mem x ≠ .arr l) : (h.put x w).mem b = .arr l := by
  rw [put_mem_other _ _ (Ne.symm (ne_of_mem e hx))]; exact e

/-- A cell of the state is changed. -/
theorem Rep.put {y pc a st st' buf x w} (k : Rep y pc a st buf h) (hx : ∀ l, h.mem x ≠ .arr l) (h1 : (h.put x w).mem y.pos = .int st'.pos)
    (h2 : (h.put x w).mem y.ti = .int st'.ti) (h3 : (h.put x w).mem y.max = maxVal st'.max) (h4 : MaxOk st'.max) (h5 : st'.tree = st.tree)
    (h6 : x ≠ y.tree) (h7 : x ≠ y.buf) (h8 : x ≠ pc) (h9 : isObj ((h.put x w).mem a) = true) : Rep y pc a st' buf (h.put x w) := by
  obtain ⟨v, hv, ht⟩ := k.tree
  obtain ⟨b, hb, hb1, hb2⟩ := k.buf
  refine ⟨k.apart, k.below, h1, h2, h3, h4, ⟨v, by rw [put_mem_other _ _ (Ne.symm h6)]; exact hv, h5 ▸ ht.mono (Nat.le_refl _) fun c _ l e => put_arr e hx⟩,
    ⟨b, hb, by rw [put_mem_other _ _ (Ne.symm h7)]; exact hb1, put_arr hb2 hx⟩, by rw [put_mem_other _ _ (Ne.symm h8)]; exact k.p, h9⟩

set_option maxHeartbeats 1000000 in
/-- After `add` the memory holds the state that `addTok` gives. -/
theorem addFn_rep {y pc a st buf} (k : Rep y pc a st buf h) {v} (hv : h.mem y.tree = treeObj v) (ht : Toks h v st.tree) (kd : TokKind) (b : Nat) :
    Rep y pc a (addTok kd b st) buf (addFnHeap y st kd b v h) ∧ (addFnHeap y st kd b v h).mem a = h.mem a ∧ (addFnHeap y st kd b v h).out = h.out := by
  have hna : ∀ l, h.mem a ≠ .arr l := by intro l e; have := k.obj; rw [e] at this; cases this
  have hpos := k.addHeap hv ht ⟨kd, b, st.pos⟩ (x := y.pos) (k.below _ (by simp)) (apart k) (by simp [k.pos])
  have hti := k.addHeap hv ht ⟨kd, b, st.pos⟩ (x := y.ti) (k.below _ (by simp)) (apart k) (by simp [k.ti])
  have hmax := k.addHeap hv ht ⟨kd, b, st.pos⟩ (x := y.max) (k.below _ (by simp)) (apart k) (by simp [k.max, maxVal, tokObj])
  have hp := k.addHeap hv ht ⟨kd, b, st.pos⟩ (x := pc) (k.below _ (by simp)) (apart k) (by simp [k.p])
  have ha := k.addHeap hv ht ⟨kd, b, st.pos⟩ (x := a) (k.below _ (by simp)) (apart k) hna
  obtain ⟨bf, hb, hb1, hb2⟩ := k.buf
  have hbuf := k.addHeap hv ht ⟨kd, b, st.pos⟩ (x := y.buf) (k.below _ (by simp)) (apart k) (by simp [hb1])
  have htree := addHeap_tree hv ht (k.below _ (by simp)) ⟨kd, b, st.pos⟩ st.ti
  have hb2' := addHeap_buf hv ht ⟨kd, b, st.pos⟩ st.ti hb hb2
  have hnx := addHeap_next (h := h) (a := y.tree) (v := v) (ts := st.tree) (t := ⟨kd, b, st.pos⟩) (i := st.ti)
  have hout := addHeap_out (h := h) (a := y.tree) (v := v) (ts := st.tree) (t := ⟨kd, b, st.pos⟩) (i := st.ti)
  unfold addFnHeap
  generalize Gen.addHeap h y.tree v st.tree ⟨kd, b, st.pos⟩ st.ti = h1 at *
  have k1 : Rep y pc a { st with tree := if st.ti ≥ st.tree.length then st.tree ++ [⟨kd, b, st.pos⟩] else st.tree.set st.ti ⟨kd, b, st.pos⟩ } buf h1 :=
    ⟨k.apart, fun x hx => Nat.lt_of_lt_of_le (k.below x hx) hnx, hpos.trans k.pos, hti.trans k.ti, hmax.trans k.max, k.maxOk, htree,
      ⟨bf, Nat.lt_of_lt_of_le hb hnx, hbuf.trans hb1, hb2'⟩, hp.trans k.p, by rw [ha]; exact k.obj⟩
  have k2 : Rep y pc a { st with tree := if st.ti ≥ st.tree.length then st.tree ++ [⟨kd, b, st.pos⟩] else st.tree.set st.ti ⟨kd, b, st.pos⟩, ti := st.ti + 1 } buf
      (h1.put y.ti (.int (st.ti + 1))) := by
    apply k1.put (by simp [k1.ti])
    · rw [put_mem_other _ _ (apart k)]; exact k1.pos
    · rw [put_mem_same]; rfl
    · rw [put_mem_other _ _ (apart k)]; exact k1.max
    · exact k.maxOk
    · rfl
    · exact apart k
    · exact apart k
    · exact apart k
    · rw [put_mem_other _ _ (apart k)]; exact k1.obj
  simp only []
  by_cases c : b ≠ st.pos ∧ st.pos > st.max.e
  · rw [if_pos c]
    refine ⟨?_, by rw [put_mem_other _ _ (apart k), put_mem_other _ _ (apart k), ha], hout⟩
    have e : maxVal ⟨kd, b, st.pos⟩ = tokVal ⟨kd, b, st.pos⟩ := by simp [maxVal, tokVal, c.1]
    have et : addTok kd b st = { st with tree := if st.ti ≥ st.tree.length then st.tree ++ [⟨kd, b, st.pos⟩] else st.tree.set st.ti ⟨kd, b, st.pos⟩, ti := st.ti + 1, max := ⟨kd, b, st.pos⟩ } := by
      simp only [addTok, if_pos c]
    rw [et, ← e]
    apply k2.put (by simp [k2.max, maxVal, tokObj])
    · rw [put_mem_other _ _ (apart k)]; exact k2.pos
    · rw [put_mem_other _ _ (apart k)]; exact k2.ti
    · rw [put_mem_same]
    · exact .inr c.1
    · rfl
    · exact apart k
    · exact apart k
    · exact apart k
    · rw [put_mem_other _ _ (apart k)]; exact k2.obj
  · rw [if_neg c]
    have et : addTok kd b st = { st with tree := if st.ti ≥ st.tree.length then st.tree ++ [⟨kd, b, st.pos⟩] else st.tree.set st.ti ⟨kd, b, st.pos⟩, ti := st.ti + 1 } := by
      simp only [addTok, if_neg c]
    exact ⟨et ▸ k2, by rw [put_mem_other _ _ (apart k), ha], hout⟩

end Verif.Gen
