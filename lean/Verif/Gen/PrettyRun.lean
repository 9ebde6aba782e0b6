import Verif.Gen.Session

/-! # Changing the field `Pretty` of a parser object between calls -/

namespace Verif.Gen
open Verif

variable {Q : Char → Bool} {n : Nat} {h : Heap}

/-- `p.Pretty = b`, by the caller. -/
def setPretty (a : Nat) (b : Bool) (h : Heap) : Heap := h.put a (setPath (h.mem a) [c!"Pretty"] (.bool b))

/-- A sequence of calls, each after an assignment to the field `Pretty` (/repo/miniquery/miniquery.peg.go:270): the answers. -/
def goOpsP (C : Val → List Val → Bool → Heap → Vals) (a : Nat) : Option Val → List (Bool × Op) → Heap → Res (List Ans)
  | _, [], _ => .ok []
  | bad, (b, o) :: l, h =>
    match goOp C a bad o (setPretty a b h) with
    | .ok (x, bad, h) =>
      match goOpsP C a bad l h with
      | .ok xs => .ok (x :: xs)
      | .panic => .panic
      | .stuck => .stuck
      | .deep => .deep
    | .panic => .panic
    | .stuck => .stuck
    | .deep => .deep

/-- A program that makes a parser object, calls `Init`, and then uses the object and its field `Pretty`. -/
def goRunP (P : Prog) (Q : Char → Bool) (n : Nat) (pretty : Bool) (s : Str) (l : List (Bool × Op)) : Res (List Ans) :=
  many (call P (gLib Q) n (.meth (.ptr 0 []) c!"Init") [] false ⟨1, fun _ => newPeg P s pretty, []⟩) fun _ h => goOpsP (call P (gLib Q) n) 0 .none l h

/-- The same in the model. -/
def mOpsP (Q : Char → Bool) : Mst → List (Bool × Op) → Res (List Ans)
  | _, [] => .ok []
  | m, (b, o) :: l =>
    match mOp Q b m o with
    | .ok (x, m) =>
      match mOpsP Q m l with
      | .ok xs => .ok (x :: xs)
      | .panic => .panic
      | .stuck => .stuck
      | .deep => .deep
    | .panic => .panic
    | .stuck => .stuck
    | .deep => .deep

/-- Whether a call panics, and the object after it, do not depend on `Pretty`. -/
theorem mOp_pretty (b b' : Bool) (m : Mst) (o : Op) :
    match mOp Q b m o with
    | .ok (_, m') => ∃ x, mOp Q b' m o = .ok (x, m')
    | .panic => mOp Q b' m o = .panic
    | .stuck => mOp Q b' m o = .stuck
    | .deep => mOp Q b' m o = .deep := by
  cases o with
  | ask s => simp only [mOp]; cases pegParse s m.arr <;> simp
  | askAt k s => simp only [mOp]; cases pegParseAt k s m.arr <;> simp
  | print => exact ⟨_, rfl⟩
  | message =>
    simp only [mOp]
    cases m.err with
    | none => exact ⟨_, rfl⟩
    | some t => simp only [errorText]; cases errorReport m.s t.b t.e <;> simp
  | tree => simp only [mOp, treeText]; cases printTree m.s m.toks <;> simp
  | sprint => simp only [mOp]; cases treeText Q false m.s m.toks <;> simp

/-- So what a sequence needs does not depend on it either. -/
theorem needs_pretty (b b' : Bool) : ∀ (l : List Op) (m : Mst), needs Q b m l = needs Q b' m l
  | [], _ => rfl
  | o :: l, m => by
    have := mOp_pretty (Q := Q) b b' m o
    unfold needs
    cases h : mOp Q b m o with
    | ok x =>
      rw [h] at this
      obtain ⟨y, this⟩ := this
      simp only [this, needs_pretty b b' l]
    | panic => rw [h] at this; simp only at this; rw [this]
    | stuck => rw [h] at this; simp only at this; rw [this]
    | deep => rw [h] at this; simp only at this; rw [this]

/-- The assignment. -/
theorem Idle.pretty {a pr m bad} (k : Idle a pr m bad h) (b : Bool) : Idle a b m bad (setPretty a b h) := by
  obtain ⟨⟨y, pc, o, r, tr, st, bb, v, h1, h2, h3, h4, h5, h6⟩, kn, kt, ke⟩ := k
  have hset : setPath (h.mem a) [c!"Pretty"] (.bool b) = pegObj tr m.s (.sl bb 0 (mkBuf m.s).length) (rulesVal y pc o r) (parseFn y pc o r) (resetFn y pc o) b v := by
    rw [h3]; rfl
  unfold setPretty
  rw [hset]
  have w0 : Keep h (h.put a (pegObj tr m.s (.sl bb 0 (mkBuf m.s).length) (rulesVal y pc o r) (parseFn y pc o r) (resetFn y pc o) b v)) :=
    (Keep.refl h).put _ (by rw [h3]; exact not_stable_peg)
  exact ⟨⟨y, pc, o, r, tr, st, bb, v, h1.putObj rfl, h2, put_mem_same _ _ _, h4.keep w0, h5, w0.arr _ h5 _ h6⟩, kn, kt, ke.keep w0⟩

/-- Sequences of calls. -/
theorem opsP_run {a} : ∀ (l : List (Bool × Op)) {pr m bad h}, Idle a pr m bad h → needs Q false m (l.map (·.2)) ≤ n →
    goOpsP (gCall Q (n + 5)) a bad l h = mOpsP Q m l
  | [], _, _, _, _, _, _ => rfl
  | (b, op) :: l, pr, m, bad, h, k, hn => by
    rw [needs_pretty false b] at hn
    have ho : opNeeds m op ≤ n := by
      rw [List.map_cons, needs] at hn
      split at hn
      · exact Nat.le_trans (Nat.le_max_left ..) hn
      · exact hn
    have hr := op_run (Q := Q) (n := n) (k.pretty b) op ho
    unfold goOpsP mOpsP
    cases hm : mOp Q b m op with
    | ok x =>
      obtain ⟨x, m'⟩ := x
      rw [hm] at hr
      obtain ⟨bad', h', e1, e2⟩ := hr
      have hl : needs Q false m' (l.map (·.2)) ≤ n := by
        simp only [List.map_cons, needs, hm] at hn
        rw [needs_pretty false b]
        exact Nat.le_trans (Nat.le_max_right ..) hn
      simp only [e1, opsP_run l e2 hl]
    | panic => rw [hm] at hr; simp only at hr; rw [hr]
    | stuck => rw [hm] at hr; cases hr
    | deep => rw [hm] at hr; cases hr

/-- Programs. -/
theorem goRunP_eq (pr : Bool) (s : Str) (l : List (Bool × Op)) (hn : needs Q false ⟨s, [], [], .none⟩ (l.map (·.2)) ≤ n) :
    goRunP gDecls Q (n + 5) pr s l = mOpsP Q ⟨s, [], [], .none⟩ l := by
  have hm : (⟨1, fun _ => newPeg gDecls s pr, []⟩ : Heap).mem 0 = pegObj (.nilp c!"Tree") s .nil .nil .nil .nil pr .nil := rfl
  obtain ⟨h', c1, r1, m1, o1, b1⟩ := init_run (Q := Q) (n := n + 2) (h := ⟨1, fun _ => newPeg gDecls s pr, []⟩) (Nat.lt_succ_self 0) hm (.inl ⟨rfl, rfl⟩)
  show many (gCall Q (n + 2 + 3) _ _ _ _) _ = _
  rw [c1]
  simp only [many]
  have := r1.below (layAt 1 0 0).tree (by simp)
  have hb : (layAt 1 0 0).tree = 8 := rfl
  exact opsP_run l ⟨⟨_, _, _, _, _, _, _, _, r1, rfl, m1, .inl ⟨rfl, rfl⟩, by show 7 < _; omega, b1⟩, by simp, by simp, rfl⟩ hn

end Verif.Gen
