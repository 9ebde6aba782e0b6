import Verif.Gen.Session

/-! # Using a parser object step by step, in any order

`Op` (`Verif.Gen.Session`) sets the text, resets and parses at once, which is how the object is meant to be used.  Here each of these is a step of its own, and steps come
in any order. -/

namespace Verif.Gen
open Verif

variable {Q : Char → Bool} {n : Nat} {h : Heap}

/-- What the caller of a parser object does.

* `buffer s`: `p.Buffer = s`
* `pretty b`: `p.Pretty = b`
* `reset`: `p.Reset()`
* `parse g`: `err := p.Parse()` or `err := p.Parse(k)`
* `tokens`: `p.Tokens()`
* `print`: `p.Print()`
* `message`: `err.Error()` for the last error that is not nil
* `tree`: `p.PrintSyntaxTree()`
* `sprint`: `p.SprintSyntaxTree()` -/
inductive Act where
  | buffer (s : Str)
  | pretty (b : Bool)
  | reset
  | parse (g : Option Int)
  | tokens
  | print
  | message
  | tree
  | sprint

/-- What one such step does with the object at `a`; `C` is what calls do, `bad` the last error. -/
def goAct (C : Val → List Val → Bool → Heap → Vals) (a : Nat) (bad : Option Val) : Act → Heap → Res (Ans × Option Val × Heap)
  | .buffer s, h => .ok (.none, bad, h.put a (setPath (h.mem a) [c!"Buffer"] (.str s)))
  | .pretty b, h => .ok (.none, bad, h.put a (setPath (h.mem a) [c!"Pretty"] (.bool b)))
  | .reset, h => many (C (.meth (.ptr a []) c!"Reset") [] false h) fun _ h => .ok (.none, bad, h)
  | .parse g, h => one (C (.meth (.ptr a []) c!"Parse") (ruleArgs g) false h) fun e h =>
    match e with
    | .nil => .ok (.none, bad, h)
    | e => .ok (.failed, some e, h)
  | .tokens, h => one (C (.meth (.ptr a []) c!"Tokens") [] false h) fun v h =>
    match view h v with
    | some l => .ok (.toks l, bad, h)
    | _ => .stuck
  | .print, h => goOp C a bad .print h
  | .message, h => goOp C a bad .message h
  | .tree, h => goOp C a bad .tree h
  | .sprint, h => goOp C a bad .sprint h

/-- A sequence of steps: the answers. -/
def goActs (C : Val → List Val → Bool → Heap → Vals) (a : Nat) : Option Val → List Act → Heap → Res (List Ans)
  | _, [], _ => .ok []
  | bad, o :: l, h =>
    match goAct C a bad o h with
    | .ok (x, bad, h) =>
      match goActs C a bad l h with
      | .ok xs => .ok (x :: xs)
      | .panic => .panic
      | .stuck => .stuck
      | .deep => .deep
    | .panic => .panic
    | .stuck => .stuck
    | .deep => .deep

/-- A program that makes a parser object, calls `Init`, and then uses the object step by step. -/
def goSteps (P : Prog) (Q : Char → Bool) (n : Nat) (pretty : Bool) (s : Str) (l : List Act) : Res (List Ans) :=
  many (call P (gLib Q) n (.meth (.ptr 0 []) c!"Init") [] false ⟨1, fun _ => newPeg P s pretty, []⟩) fun _ h => goActs (call P (gLib Q) n) 0 .none l h

/-- A parser object in the model: its fields `Buffer` and `Pretty`, the text in its rune buffer, the variables of the recogniser, its tokens, the farthest token of the
last error. -/
structure Pst where
  txt : Str
  pr : Bool
  s : Str
  st : St
  toks : List Tok
  err : Option Tok

/-- A step in the model, /repo/miniquery/miniquery.peg.go:274-280, 318-360, 461-487. -/
def mAct (Q : Char → Bool) (m : Pst) : Act → Res (Ans × Pst)
  | .buffer s => .ok (.none, { m with txt := s })
  | .pretty b => .ok (.none, { m with pr := b })
  | .reset => .ok (.none, { m with s := m.txt, st := { initSt with tree := m.st.tree } })
  | .parse g =>
    match runRule (mkBuf m.s) (g.getD 1) m.st with
    | .ok st => if st.tree.length < st.ti then .panic else .ok (.none, { m with st := st, toks := st.tree.take st.ti })
    | .fail st => .ok (.failed, { m with st := st, toks := st.tree, err := some st.max })
    | .panic => .panic
    | .div => .deep
  | .tokens => .ok (.toks (m.toks.map tokVal), m)
  | .print => .ok (.text (tokensText m.toks), m)
  | .message =>
    match m.err with
    | .none => .ok (.none, m)
    | some t =>
      match errorText Q m.pr m.s t with
      | some t => .ok (.text t, m)
      | .none => .panic
  | .tree =>
    match treeText Q m.pr m.txt m.toks with
    | some t => .ok (.text t, m)
    | .none => .panic
  | .sprint =>
    match treeText Q false m.txt m.toks with
    | some t => .ok (.text t, m)
    | .none => .panic

/-- A sequence of steps in the model. -/
def mActs (Q : Char → Bool) : Pst → List Act → Res (List Ans)
  | _, [] => .ok []
  | m, o :: l =>
    match mAct Q m o with
    | .ok (x, m) =>
      match mActs Q m l with
      | .ok xs => .ok (x :: xs)
      | .panic => .panic
      | .stuck => .stuck
      | .deep => .deep
    | .panic => .panic
    | .stuck => .stuck
    | .deep => .deep

/-- How deep the calls of one step go, and how often its loops run, beyond a constant. -/
def actNeeds (m : Pst) : Act → Nat
  | .tree => 2 * m.toks.length + 2
  | .sprint => 2 * m.toks.length + 2
  | _ => 0

/-- The same for a sequence of steps. -/
def actsNeed (Q : Char → Bool) : Pst → List Act → Nat
  | _, [] => 0
  | m, o :: l =>
    match mAct Q m o with
    | .ok (_, m') => max (actNeeds m o) (actsNeed Q m' l)
    | _ => actNeeds m o

/-- Between two steps. -/
structure Rests (a : Nat) (m : Pst) (bad : Option Val) (h : Heap) : Prop where
  obj : ∃ y pc o r tr bb v, Rep y pc a m.st (mkBuf m.s) h ∧
    h.mem a = pegObj tr m.txt (.sl bb 0 (mkBuf m.s).length) (rulesVal y pc o r) (parseFn y pc o r) (resetFn y pc o) m.pr v ∧ Holds h v m.toks ∧
    bb < h.next ∧ h.mem bb = .arr ((mkBuf m.s).map fun x : Nat => .int x)
  named : Named m.st
  toks : ∀ t ∈ m.toks, NameOk t.kind
  err : ErrIs a h m.err bad

/-- Steps that only use new memory. -/
theorem Rests.ext {a m bad} {h' : Heap} (k : Rests a m bad h) (w : Ext h h') : Rests a m bad h' := by
  obtain ⟨⟨y, pc, o, r, tr, bb, v, h1, h3, h4, h5, h6⟩, k2, k3, k4⟩ := k
  exact ⟨⟨y, pc, o, r, tr, bb, v, h1.ext w, (w.mem a (h1.below a (by simp))).trans h3, h4.keep w.keep, Nat.lt_of_lt_of_le h5 w.next, (w.mem bb h5).trans h6⟩,
    k2, k3, k4.keep w.keep⟩

/-- One step. -/
theorem act_run {a m bad} (k : Rests a m bad h) (op : Act) (hn : actNeeds m op ≤ n) :
    match mAct Q m op with
    | .ok (x, m') => ∃ bad' h', goAct (gCall Q (n + 5)) a bad op h = .ok (x, bad', h') ∧ Rests a m' bad' h'
    | .panic => goAct (gCall Q (n + 5)) a bad op h = .panic
    | .deep => goAct (gCall Q (n + 5)) a bad op h = .deep
    | .stuck => False := by
  have k0 := k
  obtain ⟨⟨y, pc, o, r, tr, bb, v, h1, h3, h4, h5, h6⟩, kn, kt, ke⟩ := k
  cases op with
  | buffer s =>
    have hset : setPath (h.mem a) [c!"Buffer"] (.str s) = pegObj tr s (.sl bb 0 (mkBuf m.s).length) (rulesVal y pc o r) (parseFn y pc o r) (resetFn y pc o) m.pr v := by
      rw [h3]; rfl
    have w0 : Keep h (h.put a (pegObj tr s (.sl bb 0 (mkBuf m.s).length) (rulesVal y pc o r) (parseFn y pc o r) (resetFn y pc o) m.pr v)) :=
      (Keep.refl h).put _ (by rw [h3]; exact not_stable_peg)
    refine ⟨bad, _, by simp only [goAct, hset], ⟨⟨y, pc, o, r, tr, bb, v, h1.putObj rfl, put_mem_same _ _ _, h4.keep w0, h5, w0.arr _ h5 _ h6⟩, kn, kt, ke.keep w0⟩⟩
  | pretty b =>
    have hset : setPath (h.mem a) [c!"Pretty"] (.bool b) = pegObj tr m.txt (.sl bb 0 (mkBuf m.s).length) (rulesVal y pc o r) (parseFn y pc o r) (resetFn y pc o) b v := by
      rw [h3]; rfl
    have w0 : Keep h (h.put a (pegObj tr m.txt (.sl bb 0 (mkBuf m.s).length) (rulesVal y pc o r) (parseFn y pc o r) (resetFn y pc o) b v)) :=
      (Keep.refl h).put _ (by rw [h3]; exact not_stable_peg)
    refine ⟨bad, _, by simp only [goAct, hset], ⟨⟨y, pc, o, r, tr, bb, v, h1.putObj rfl, put_mem_same _ _ _, h4.keep w0, h5, w0.arr _ h5 _ h6⟩, kn, kt, ke.keep w0⟩⟩
  | reset =>
    obtain ⟨g1, c1, r1, ⟨b1, lb1, m1, mb1⟩, o1, w1⟩ := reset_rep (Q := Q) (n := n + 2) h1 h3
    exact ⟨bad, g1, by simp only [goAct, c1, many], ⟨⟨y, pc, o, r, tr, b1, v, r1, m1, h4.keep w1, lb1, mb1⟩, .init kn.tree, kt, ke.keep w1⟩⟩
  | parse g =>
    have pr1 := parse_rule (Q := Q) (n := n + 1) g h1 h3
    have nm : NamedOut (runRule (mkBuf m.s) (g.getD 1) m.st) := runRule_named kn
    generalize hR : gCall Q (n + 5) (.meth (.ptr a []) c!"Parse") (ruleArgs g) false h = R at pr1
    simp only [mAct]
    generalize runRule (mkBuf m.s) (g.getD 1) m.st = O at pr1 nm
    cases pr1 with
    | @ok st' v' g2 q1 q2 q3 q4 q5 q6 =>
      simp only [if_neg (Nat.not_lt.2 q4)]
      exact ⟨bad, g2, by simp only [goAct, hR, one], ⟨⟨y, pc, o, r, tr, bb, v', q1, q2, q3, Nat.lt_of_lt_of_le h5 q6.next, q6.arr _ h5 _ h6⟩, nm,
        fun t ht => nm.tree t (List.mem_of_mem_take ht), ke.keep q6⟩⟩
    | @err st' v' g2 e q1 q2 q3 q4 q5 q6 q7 =>
      exact ⟨some (.ptr e []), g2, by simp only [goAct, hR, one], ⟨⟨y, pc, o, r, tr, bb, v', q1, q2, q3, Nat.lt_of_lt_of_le h5 q7.next, q7.arr _ h5 _ h6⟩, nm, nm.tree,
        ⟨nm.max, e, rfl, q4, q5⟩⟩⟩
    | short hl => simp only [if_pos hl, goAct, hR, one]
    | panic => simp only [goAct, hR, one]
    | deep => simp only [goAct, hR, one]
  | tokens =>
    have ct := tokens_run (Q := Q) (n := n + 3) h3
    exact ⟨bad, h, by simp only [goAct, ct, one, h4.view], k0⟩
  | print =>
    obtain ⟨h', e1, e2, e3⟩ := pprint_run (Q := Q) (n := n + 1) (h := { h with out := [] }) h3 (show view { h with out := [] } v = _ from h4.view) kt
    refine ⟨bad, h', ?_, k0.ext ⟨e2.next, e2.mem⟩⟩
    simp only [goAct, goOp, e1, many, e3, List.nil_append]
  | message =>
    cases he : m.err with
    | none =>
      rw [he] at ke
      simp only [mAct, he]
      have : bad = .none := ke
      subst this
      exact ⟨.none, h, rfl, k0⟩
    | some t =>
      rw [he] at ke
      obtain ⟨hk, e, rfl, e2, e3⟩ := ke
      have er := error_run (Q := Q) (n := n) e3 h3 h6 e2 (h1.below a (by simp)) h5 hk
      simp only [mAct, he]
      cases ht : errorText Q m.pr m.s t with
      | none =>
        rw [ht] at er
        have er' : gCall Q (n + 5) (.meth (.ptr e []) c!"Error") [] false h = .panic := er
        simp only [goAct, goOp, er', one]
      | some tx =>
        rw [ht] at er
        obtain ⟨h', x1, x2, x3⟩ := er
        exact ⟨_, h', by simp only [goAct, goOp, x1, one], k0.ext x2⟩
  | tree =>
    have hn' : 2 * m.toks.length + 2 ≤ n + 1 := Nat.le_succ_of_le hn
    have w := show_run (Q := Q) (n := n + 1) (h := { h with out := [] }) h3 (h1.below a (by simp)) (h4.keep (Ext.out _).keep) hn' kt
    unfold Shows at w
    simp only [mAct]
    cases ht : treeText Q m.pr m.txt m.toks with
    | none =>
      rw [ht] at w
      have w' : gCall Q (n + 5) (.meth (.ptr a []) c!"PrintSyntaxTree") [] false { h with out := [] } = .panic := w
      simp only [goAct, goOp, w', many]
    | some t =>
      rw [ht] at w
      obtain ⟨h', w1, w2⟩ := w
      have w3 : h'.out = [] ++ t := w2.text
      refine ⟨bad, h', ?_, k0.ext ⟨w2.next, fun x hx => w2.mem x hx (by simp)⟩⟩
      simp only [goAct, goOp, w1, many, w3, List.nil_append]
  | sprint =>
    have w := sprint_run (Q := Q) (n := n) h3 (h1.below a (by simp)) h4 hn kt
    simp only [mAct]
    cases ht : treeText Q false m.txt m.toks with
    | none =>
      rw [ht] at w
      have w' : gCall Q (n + 5) (.meth (.ptr a []) c!"SprintSyntaxTree") [] false h = .panic := w
      simp only [goAct, goOp, w', one]
    | some t =>
      rw [ht] at w
      obtain ⟨h', w1, w2, w3⟩ := w
      exact ⟨bad, h', by simp only [goAct, goOp, w1, one], k0.ext w2⟩

/-- Sequences of steps. -/
theorem acts_run {a} : ∀ (l : List Act) {m bad h}, Rests a m bad h → actsNeed Q m l ≤ n → goActs (gCall Q (n + 5)) a bad l h = mActs Q m l
  | [], _, _, _, _, _ => rfl
  | op :: l, m, bad, h, k, hn => by
    have ho : actNeeds m op ≤ n := by
      unfold actsNeed at hn
      split at hn
      · exact Nat.le_trans (Nat.le_max_left ..) hn
      · exact hn
    have hr := act_run (Q := Q) (n := n) k op ho
    unfold goActs mActs
    cases hm : mAct Q m op with
    | ok x =>
      obtain ⟨x, m'⟩ := x
      rw [hm] at hr
      obtain ⟨bad', h', e1, e2⟩ := hr
      have hl : actsNeed Q m' l ≤ n := by
        simp only [actsNeed, hm] at hn
        exact Nat.le_trans (Nat.le_max_right ..) hn
      simp only [e1, acts_run l e2 hl]
    | panic => rw [hm] at hr; simp only at hr; rw [hr]
    | stuck => rw [hm] at hr; cases hr
    | deep => rw [hm] at hr; simp only at hr; rw [hr]

/-- A parser object after `Init`. -/
def startPst (pr : Bool) (s : Str) : Pst := ⟨s, pr, s, initSt, [], none⟩

/-- Programs. -/
theorem goSteps_eq (pr : Bool) (s : Str) (l : List Act) (hn : actsNeed Q (startPst pr s) l ≤ n) : goSteps gDecls Q (n + 5) pr s l = mActs Q (startPst pr s) l := by
  have hm : (⟨1, fun _ => newPeg gDecls s pr, []⟩ : Heap).mem 0 = pegObj (.nilp c!"Tree") s .nil .nil .nil .nil pr .nil := rfl
  obtain ⟨h', c1, r1, m1, o1, b1⟩ := init_run (Q := Q) (n := n + 2) (h := ⟨1, fun _ => newPeg gDecls s pr, []⟩) (Nat.lt_succ_self 0) hm (.inl ⟨rfl, rfl⟩)
  show many (gCall Q (n + 2 + 3) _ _ _ _) _ = _
  rw [c1]
  simp only [many]
  have := r1.below (layAt 1 0 0).tree (by simp)
  have hb : (layAt 1 0 0).tree = 8 := rfl
  exact acts_run l ⟨⟨_, _, _, _, _, _, _, r1, m1, .inl ⟨rfl, rfl⟩, by show 7 < _; omega, b1⟩, .init (ts := []) (by simp), by simp [startPst], rfl⟩ hn

end Verif.Gen
