import Verif.Gen.TreeRun
import Verif.Gen.OptRun
import Verif.Props.Tokens

/-! # Using a parser object: sequences of calls -/

namespace Verif.Gen
open Verif

variable {Q : Char → Bool} {n : Nat} {h : Heap}

/-- What the caller of a parser object does.

* `ask s`: `p.Buffer = s; p.Reset(); err := p.Parse()`, and `p.Tokens()` if err is nil
* `askAt k s`: the same with `p.Parse(k)`: `k` is the number of a rule
* `print`: `p.Print()`
* `message`: `err.Error()` for the last error that is not nil
* `tree`: `p.PrintSyntaxTree()`
* `sprint`: `p.SprintSyntaxTree()` -/
inductive Op where
  | ask (s : Str)
  | askAt (k : Int) (s : Str)
  | print
  | message
  | tree
  | sprint

/-- What the caller sees: tokens, that there was an error, a text. -/
inductive Ans where
  | toks (l : List Val)
  | failed
  | text (s : Str)
  | none

/-- What one such use of the object at `a` does; `C` is what calls do, `bad` the last error. -/
def goOp (C : Val → List Val → Bool → Heap → Vals) (a : Nat) (bad : Option Val) : Op → Heap → Res (Ans × Option Val × Heap)
  | .ask s, h =>
    many (C (.meth (.ptr a []) c!"Reset") [] false (h.put a (setPath (h.mem a) [c!"Buffer"] (.str s)))) fun _ h =>
    one (C (.meth (.ptr a []) c!"Parse") [] false h) fun e h =>
    match e with
    | .nil => one (C (.meth (.ptr a []) c!"Tokens") [] false h) fun v h =>
      match view h v with
      | some l => .ok (.toks l, bad, h)
      | _ => .stuck
    | e => .ok (.failed, some e, h)
  | .askAt k s, h =>
    many (C (.meth (.ptr a []) c!"Reset") [] false (h.put a (setPath (h.mem a) [c!"Buffer"] (.str s)))) fun _ h =>
    one (C (.meth (.ptr a []) c!"Parse") [.int k] false h) fun e h =>
    match e with
    | .nil => one (C (.meth (.ptr a []) c!"Tokens") [] false h) fun v h =>
      match view h v with
      | some l => .ok (.toks l, bad, h)
      | _ => .stuck
    | e => .ok (.failed, some e, h)
  | .print, h => many (C (.meth (.ptr a []) c!"Print") [] false { h with out := [] }) fun _ h => .ok (.text h.out, bad, h)
  | .message, h =>
    match bad with
    | .none => .ok (.none, bad, h)
    | some e => one (C (.meth e c!"Error") [] false h) fun v h =>
      match v with
      | .str t => .ok (.text t, bad, h)
      | _ => .stuck
  | .tree, h => many (C (.meth (.ptr a []) c!"PrintSyntaxTree") [] false { h with out := [] }) fun _ h => .ok (.text h.out, bad, h)
  | .sprint, h => one (C (.meth (.ptr a []) c!"SprintSyntaxTree") [] false h) fun v h =>
    match v with
    | .str t => .ok (.text t, bad, h)
    | _ => .stuck

/-- A sequence of calls: the answers. -/
def goOps (C : Val → List Val → Bool → Heap → Vals) (a : Nat) : Option Val → List Op → Heap → Res (List Ans)
  | _, [], _ => .ok []
  | bad, o :: l, h =>
    match goOp C a bad o h with
    | .ok (x, bad, h) =>
      match goOps C a bad l h with
      | .ok xs => .ok (x :: xs)
      | .panic => .panic
      | .stuck => .stuck
      | .deep => .deep
    | .panic => .panic
    | .stuck => .stuck
    | .deep => .deep

/-- A new parser object: `&MiniQueryPeg{Buffer: s, Pretty: pretty}`. -/
def newPeg (P : Prog) (s : Str) (pretty : Bool) : Val :=
  setFields (zeroOf P 3 (.id c!"MiniQueryPeg")) (.cons (.id c!"Buffer") (.cons (.id c!"Pretty") .nil)) [.str s, .bool pretty]

/-- A program that makes a parser object, calls `Init`, and then uses the object. -/
def goRun (P : Prog) (Q : Char → Bool) (n : Nat) (pretty : Bool) (s : Str) (l : List Op) : Res (List Ans) :=
  many (call P (gLib Q) n (.meth (.ptr 0 []) c!"Init") [] false ⟨1, fun _ => newPeg P s pretty, []⟩) fun _ h => goOps (call P (gLib Q) n) 0 .none l h

/-- A program that makes a parser object, calls `Init` with options, and then uses the object. -/
def goRunWith (P : Prog) (Q : Char → Bool) (n : Nat) (os : List Opt) (pretty : Bool) (s : Str) (l : List Op) : Res (List Ans) :=
  match goOpts (call P (gLib Q) n) os ⟨1, fun _ => newPeg P s pretty, []⟩ with
  | .ok (vs, h) => many (call P (gLib Q) n (.meth (.ptr 0 []) c!"Init") vs false h) fun _ h => goOps (call P (gLib Q) n) 0 .none l h
  | .panic => .panic
  | .stuck => .stuck
  | .deep => .deep

/-- A parser object in the model: the text in its buffer, its tokens, its token array, the farthest token of the last error. -/
structure Mst where
  s : Str
  toks : List Tok
  arr : List Tok
  err : Option Tok

/-- `p.Buffer = s; p.Reset(); p.Parse(k)`, /repo/miniquery/miniquery.peg.go:461-487, of a parser whose token array holds `tree0`: recognition starts with the
rule that has the number `k`. -/
def pegParseAt (k : Int) (s : Str) (tree0 : List Tok) : PegOut :=
  match runRule (mkBuf s) k { initSt with tree := tree0 } with
  | .div => .div
  | .panic => .panic
  | .fail st => .err st.max st.tree
  | .ok st => if st.tree.length < st.ti then .panic else .ok (st.tree.take st.ti) st.tree

/-- A call in the model. -/
def mOp (Q : Char → Bool) (pretty : Bool) (m : Mst) : Op → Res (Ans × Mst)
  | .ask s =>
    match pegParse s m.arr with
    | .ok ts tr => .ok (.toks (ts.map tokVal), { m with s := s, toks := ts, arr := tr })
    | .err t tr => .ok (.failed, ⟨s, tr, tr, some t⟩)
    | .panic => .panic
    | .div => .deep
  | .askAt k s =>
    match pegParseAt k s m.arr with
    | .ok ts tr => .ok (.toks (ts.map tokVal), { m with s := s, toks := ts, arr := tr })
    | .err t tr => .ok (.failed, ⟨s, tr, tr, some t⟩)
    | .panic => .panic
    | .div => .deep
  | .print => .ok (.text (tokensText m.toks), m)
  | .message =>
    match m.err with
    | .none => .ok (.none, m)
    | some t =>
      match errorText Q pretty m.s t with
      | some t => .ok (.text t, m)
      | .none => .panic
  | .tree =>
    match treeText Q pretty m.s m.toks with
    | some t => .ok (.text t, m)
    | .none => .panic
  | .sprint =>
    match treeText Q false m.s m.toks with
    | some t => .ok (.text t, m)
    | .none => .panic

/-- A sequence of calls in the model. -/
def mOps (Q : Char → Bool) (pretty : Bool) : Mst → List Op → Res (List Ans)
  | _, [] => .ok []
  | m, o :: l =>
    match mOp Q pretty m o with
    | .ok (x, m) =>
      match mOps Q pretty m l with
      | .ok xs => .ok (x :: xs)
      | .panic => .panic
      | .stuck => .stuck
      | .deep => .deep
    | .panic => .panic
    | .stuck => .stuck
    | .deep => .deep

/-- How deep the calls of one use go, and how often its loops run, beyond a constant: only syntax trees need more. -/
def opNeeds (m : Mst) : Op → Nat
  | .tree => 2 * m.toks.length + 2
  | .sprint => 2 * m.toks.length + 2
  | _ => 0

/-- The same for a sequence of calls. -/
def needs (Q : Char → Bool) (pretty : Bool) : Mst → List Op → Nat
  | _, [] => 0
  | m, o :: l =>
    match mOp Q pretty m o with
    | .ok (_, m') => max (opNeeds m o) (needs Q pretty m' l)
    | _ => opNeeds m o

/-- The last error, in the model and in memory. -/
def ErrIs (a : Nat) (h : Heap) : Option Tok → Option Val → Prop
  | .none, bad => bad = .none
  | some t, bad => NameOk t.kind ∧ ∃ e, bad = some (.ptr e []) ∧ e < h.next ∧ h.mem e = errObj a t

theorem ErrIs.keep {a h0 t bad} (k : ErrIs a h0 t bad) (w : Keep h0 h) : ErrIs a h t bad := by
  cases t with
  | none => exact k
  | some t =>
    obtain ⟨hk, e, h1, h2, h3⟩ := k
    exact ⟨hk, e, h1, Nat.lt_of_lt_of_le h2 w.next, (w.mem e h2 (.inr ⟨_, h3⟩)).trans h3⟩

/-- Between two calls. -/
structure Idle (a : Nat) (pr : Bool) (m : Mst) (bad : Option Val) (h : Heap) : Prop where
  obj : ∃ y pc o r tr st bb v, Rep y pc a st (mkBuf m.s) h ∧ st.tree = m.arr ∧
    h.mem a = pegObj tr m.s (.sl bb 0 (mkBuf m.s).length) (rulesVal y pc o r) (parseFn y pc o r) (resetFn y pc o) pr v ∧ Holds h v m.toks ∧
    bb < h.next ∧ h.mem bb = .arr ((mkBuf m.s).map fun x : Nat => .int x)
  arr : ∀ t ∈ m.arr, NameOk t.kind
  toks : ∀ t ∈ m.toks, NameOk t.kind
  err : ErrIs a h m.err bad

theorem Rep.ext {y pc a st buf} {h' : Heap} (k : Rep y pc a st buf h) (w : Ext h h') : Rep y pc a st buf h' := by
  have b : ∀ x ∈ [y.max, y.pos, y.ti, y.buf, y.tree, pc, a], h'.mem x = h.mem x := fun x hx' => w.mem x (k.below x hx')
  obtain ⟨v, hv, ht⟩ := k.tree
  obtain ⟨c, hc, hb1, hb2⟩ := k.buf
  exact ⟨k.apart, fun x hx => Nat.lt_of_lt_of_le (k.below x hx) w.next, by rw [b _ (by simp)]; exact k.pos, by rw [b _ (by simp)]; exact k.ti,
    by rw [b _ (by simp)]; exact k.max, k.maxOk, ⟨v, by rw [b _ (by simp)]; exact hv, ht.mono w.next fun x hx' l e => (w.mem x hx').trans e⟩,
    ⟨c, Nat.lt_of_lt_of_le hc w.next, by rw [b _ (by simp)]; exact hb1, (w.mem c hc).trans hb2⟩, by rw [b _ (by simp)]; exact k.p, by rw [b _ (by simp)]; exact k.obj⟩

/-- Calls that only use new memory. -/
theorem Idle.ext {a pr m bad} {h' : Heap} (k : Idle a pr m bad h) (w : Ext h h') : Idle a pr m bad h' := by
  obtain ⟨⟨y, pc, o, r, tr, st, bb, v, h1, h2, h3, h4, h5, h6⟩, k2, k3, k4⟩ := k
  exact ⟨⟨y, pc, o, r, tr, st, bb, v, h1.ext w, h2, (w.mem a (h1.below a (by simp))).trans h3, h4.keep w.keep, Nat.lt_of_lt_of_le h5 w.next, (w.mem bb h5).trans h6⟩,
    k2, k3, k4.keep w.keep⟩

/-- `Print` on a parser object. -/
theorem pprint_run {a : Nat} {tr q bf r p rs pr v ts} (hm : h.mem a = pegObj tr q bf r p rs pr v) (hv : view h v = some (ts.map tokVal)) (hk : ∀ t ∈ ts, NameOk t.kind) :
    ∃ h', gCall Q (n + 4) (.meth (.ptr a []) c!"Print") [] false h = .ok ([], h') ∧ Ext h h' ∧ h'.out = h.out ++ tokensText ts := by
  have e0 : gCall Q (n + 4) (.meth (.ptr a []) c!"Print") [] false h = gCall Q (n + 3) (.meth (.ptr a [c!"tokens32"]) c!"Print") [] false h := by
    show runMeth _ _ _ _ _ _ _ _ _ = _
    simp only [runMeth, recvType, getPath, hm, pegObj]
    rfl
  rw [e0]
  exact print_run (by simp [hm, getPath, pegObj, fget]) hv hk

theorem Named.init {ts : List Tok} (hk : ∀ t ∈ ts, NameOk t.kind) : Named { initSt with tree := ts } := ⟨trivial, hk⟩

/-- The rule functions give tokens names. -/
theorem runRule_named {buf : List Nat} {k : Int} {st} (hs : Named st) : NamedOut (runRule buf k st) := by
  unfold runRule
  split
  · trivial
  · rename_i hk
    split
    · exact execN_named _ _ _ _ hs
    · rename_i x hx
      have hx' : NameOk (.act x) := by
        unfold kindOf at hx
        split at hx
        · cases hx
        · split at hx
          · cases hx
          · show x < 30
            split at hx
            · simp at hx; omega
            · split at hx <;> simp at hx; omega
      exact hs.addTok hx'
    · trivial

/-- The rule functions do not loop, and the token index is inside the array. -/
theorem runRule_cases (k : Int) (s : Str) (tree0 : List Tok) :
    runRule (mkBuf s) k { initSt with tree := tree0 } = .panic ∨
    (∃ st, runRule (mkBuf s) k { initSt with tree := tree0 } = .ok st ∧ st.ti ≤ st.tree.length) ∨
    (∃ st, runRule (mkBuf s) k { initSt with tree := tree0 } = .fail st) := by
  have hb : (mkBuf s).length - 1 = s.length := by simp [mkBuf]
  unfold runRule
  split
  · exact .inl rfl
  · split
    · rename_i r _
      rw [hb]
      have hr : rankG r < 16 := by cases r <;> decide
      have hnd := denoteN_ne_div r s (depthBound s.length) (by unfold depthBound; omega)
      have hm := execN_match G s (depthBound s.length) r _ s (staleSt_rel s tree0)
      cases hd : denoteN G (depthBound s.length) r s with
      | div => exact absurd hd hnd
      | fail => rw [hd] at hm; obtain ⟨st', ho, _⟩ := hm; exact .inr (.inr ⟨st', ho⟩)
      | ok e t => rw [hd] at hm; obtain ⟨st', _, ho, hr, _⟩ := hm; exact .inr (.inl ⟨st', ho, hr.ti_le⟩)
    · refine .inr (.inl ⟨_, rfl, ?_⟩)
      cases tree0 <;> simp [addTok, initSt]
    · exact .inl rfl

/-- One call. -/
theorem op_run {a pr m bad} (k : Idle a pr m bad h) (op : Op) (hn : opNeeds m op ≤ n) :
    match mOp Q pr m op with
    | .ok (x, m') => ∃ bad' h', goOp (gCall Q (n + 5)) a bad op h = .ok (x, bad', h') ∧ Idle a pr m' bad' h'
    | .panic => goOp (gCall Q (n + 5)) a bad op h = .panic
    | _ => False := by
  have k0 := k
  obtain ⟨⟨y, pc, o, r, tr, st, bb, v, h1, h2, h3, h4, h5, h6⟩, kn, kt, ke⟩ := k
  cases op with
  | print =>
    obtain ⟨h', e1, e2, e3⟩ := pprint_run (Q := Q) (n := n + 1) (h := { h with out := [] }) h3 (show view { h with out := [] } v = _ from h4.view) kt
    refine ⟨bad, h', ?_, k0.ext ⟨e2.next, e2.mem⟩⟩
    simp only [goOp, e1, many, e3, List.nil_append]
  | message =>
    cases he : m.err with
    | none =>
      rw [he] at ke
      simp only [mOp, he]
      have : bad = .none := ke
      subst this
      exact ⟨.none, h, rfl, k0⟩
    | some t =>
      rw [he] at ke
      obtain ⟨hk, e, rfl, e2, e3⟩ := ke
      have er := error_run (Q := Q) (n := n) e3 h3 h6 e2 (h1.below a (by simp)) h5 hk
      simp only [mOp, he]
      cases ht : errorText Q pr m.s t with
      | none =>
        rw [ht] at er
        have er' : gCall Q (n + 5) (.meth (.ptr e []) c!"Error") [] false h = .panic := er
        simp only [goOp, er', one]
      | some tx =>
        rw [ht] at er
        obtain ⟨h', x1, x2, x3⟩ := er
        exact ⟨_, h', by simp only [goOp, x1, one], k0.ext x2⟩
  | tree =>
    have hn' : 2 * m.toks.length + 2 ≤ n + 1 := Nat.le_succ_of_le hn
    have w := show_run (Q := Q) (n := n + 1) (h := { h with out := [] }) h3 (h1.below a (by simp)) (h4.keep (Ext.out _).keep) hn' kt
    unfold Shows at w
    simp only [mOp]
    cases ht : treeText Q pr m.s m.toks with
    | none =>
      rw [ht] at w
      have w' : gCall Q (n + 5) (.meth (.ptr a []) c!"PrintSyntaxTree") [] false { h with out := [] } = .panic := w
      simp only [goOp, w', many]
    | some t =>
      rw [ht] at w
      obtain ⟨h', w1, w2⟩ := w
      have w3 : h'.out = [] ++ t := w2.text
      refine ⟨bad, h', ?_, k0.ext ⟨w2.next, fun x hx => w2.mem x hx (by simp)⟩⟩
      simp only [goOp, w1, many, w3, List.nil_append]
  | sprint =>
    have w := sprint_run (Q := Q) (n := n) h3 (h1.below a (by simp)) h4 hn kt
    simp only [mOp]
    cases ht : treeText Q false m.s m.toks with
    | none =>
      rw [ht] at w
      have w' : gCall Q (n + 5) (.meth (.ptr a []) c!"SprintSyntaxTree") [] false h = .panic := w
      simp only [goOp, w', one]
    | some t =>
      rw [ht] at w
      obtain ⟨h', w1, w2, w3⟩ := w
      exact ⟨bad, h', by simp only [goOp, w1, one], k0.ext w2⟩
  | ask s =>
    have hset : setPath (h.mem a) [c!"Buffer"] (.str s) = pegObj tr s (.sl bb 0 (mkBuf m.s).length) (rulesVal y pc o r) (parseFn y pc o r) (resetFn y pc o) pr v := by
      rw [h3]; rfl
    generalize hg : h.put a (setPath (h.mem a) [c!"Buffer"] (.str s)) = g0
    rw [hset] at hg
    have r0 : Rep y pc a st (mkBuf m.s) g0 := by rw [← hg]; exact h1.putObj rfl
    have w0 : Keep h g0 := by rw [← hg]; exact (Keep.refl h).put _ (by rw [h3]; exact not_stable_peg)
    have m0 : g0.mem a = pegObj tr s (.sl bb 0 (mkBuf m.s).length) (rulesVal y pc o r) (parseFn y pc o r) (resetFn y pc o) pr v := by rw [← hg]; exact put_mem_same _ _ _
    obtain ⟨g1, c1, r1, ⟨b1, lb1, m1, mb1⟩, o1, w1⟩ := reset_rep (Q := Q) (n := n + 2) r0 m0
    have pr1 := parse_run (Q := Q) (n := n + 1) r1 m1
    rw [h2] at pr1
    have nm : NamedOut (execN (mkBuf s) G (depthBound s.length) .Grammar { initSt with tree := m.arr }) := execN_named _ _ _ _ (.init kn)
    generalize hR : gCall Q (n + 5) (.meth (.ptr a []) c!"Parse") [] false g1 = R at pr1
    rcases pegParse_cases s m.arr with ⟨st', ts, ev, x1, x2, x3, -, -, -⟩ | ⟨st', x1, x2, -, -, -⟩
    · rw [x1] at pr1 nm
      cases pr1 with
      | short hl =>
        simp only [pegParse, x1] at x3
        rw [if_pos hl] at x3
        cases x3
      | @ok _ v' g2 q1 q2 q3 q4 q5 q6 =>
        have ct := tokens_run (Q := Q) (n := n + 3) q2
        have w2 : Keep h g2 := (w0.trans w1).trans q6
        simp only [mOp, x3]
        rw [x2] at q3
        refine ⟨bad, g2, ?_, ⟨⟨y, pc, o, r, tr, st', b1, v', q1, rfl, q2, q3, Nat.lt_of_lt_of_le lb1 q6.next, q6.arr _ lb1 _ mb1⟩, nm.tree, ?_, ke.keep w2⟩⟩
        · simp only [goOp, hset, hg, c1, many, hR, one, ct, q3.view]
        · intro t ht
          rw [← x2] at ht
          exact nm.tree t (List.mem_of_mem_take ht)
    · rw [x1] at pr1 nm
      cases pr1 with
      | @err _ v' g2 e q1 q2 q3 q4 q5 q6 q7 =>
        have w2 : Keep h g2 := (w0.trans w1).trans q7
        simp only [mOp, x2]
        refine ⟨some (.ptr e []), g2, ?_, ⟨⟨y, pc, o, r, tr, st', b1, v', q1, rfl, q2, q3, Nat.lt_of_lt_of_le lb1 q7.next, q7.arr _ lb1 _ mb1⟩, nm.tree, nm.tree,
          ⟨nm.max, e, rfl, q4, q5⟩⟩⟩
        simp only [goOp, hset, hg, c1, many, hR, one]

  | askAt k s =>
    have hset : setPath (h.mem a) [c!"Buffer"] (.str s) = pegObj tr s (.sl bb 0 (mkBuf m.s).length) (rulesVal y pc o r) (parseFn y pc o r) (resetFn y pc o) pr v := by
      rw [h3]; rfl
    generalize hg : h.put a (setPath (h.mem a) [c!"Buffer"] (.str s)) = g0
    rw [hset] at hg
    have r0 : Rep y pc a st (mkBuf m.s) g0 := by rw [← hg]; exact h1.putObj rfl
    have w0 : Keep h g0 := by rw [← hg]; exact (Keep.refl h).put _ (by rw [h3]; exact not_stable_peg)
    have m0 : g0.mem a = pegObj tr s (.sl bb 0 (mkBuf m.s).length) (rulesVal y pc o r) (parseFn y pc o r) (resetFn y pc o) pr v := by rw [← hg]; exact put_mem_same _ _ _
    obtain ⟨g1, c1, r1, ⟨b1, lb1, m1, mb1⟩, o1, w1⟩ := reset_rep (Q := Q) (n := n + 2) r0 m0
    have pr1 := parse_rule (Q := Q) (n := n + 1) (some k) r1 m1
    rw [h2, Option.getD_some] at pr1
    have nm : NamedOut (runRule (mkBuf s) k { initSt with tree := m.arr }) := runRule_named (.init kn)
    generalize hR : gCall Q (n + 5) (.meth (.ptr a []) c!"Parse") (ruleArgs (some k)) false g1 = R at pr1
    have hR' : gCall Q (n + 5) (.meth (.ptr a []) c!"Parse") [.int k] false g1 = R := hR
    rcases runRule_cases k s m.arr with x1 | ⟨st', x1, hl⟩ | ⟨st', x1⟩
    · rw [x1] at pr1
      cases pr1
      simp only [mOp, pegParseAt, x1, goOp, hset, hg, c1, many, hR', one]
    · rw [x1] at pr1 nm
      have x3 : pegParseAt k s m.arr = .ok (st'.tree.take st'.ti) st'.tree := by simp only [pegParseAt, x1]; rw [if_neg (by omega)]
      cases pr1 with
      | short hl' => omega
      | @ok _ v' g2 q1 q2 q3 q4 q5 q6 =>
        have ct := tokens_run (Q := Q) (n := n + 3) q2
        have w2 : Keep h g2 := (w0.trans w1).trans q6
        simp only [mOp, x3]
        refine ⟨bad, g2, ?_, ⟨⟨y, pc, o, r, tr, st', b1, v', q1, rfl, q2, q3, Nat.lt_of_lt_of_le lb1 q6.next, q6.arr _ lb1 _ mb1⟩, nm.tree, ?_, ke.keep w2⟩⟩
        · simp only [goOp, hset, hg, c1, many, hR', one, ct, q3.view]
        · exact fun t ht => nm.tree t (List.mem_of_mem_take ht)
    · rw [x1] at pr1 nm
      have x3 : pegParseAt k s m.arr = .err st'.max st'.tree := by simp only [pegParseAt, x1]
      cases pr1 with
      | @err _ v' g2 e q1 q2 q3 q4 q5 q6 q7 =>
        have w2 : Keep h g2 := (w0.trans w1).trans q7
        simp only [mOp, x3]
        refine ⟨some (.ptr e []), g2, ?_, ⟨⟨y, pc, o, r, tr, st', b1, v', q1, rfl, q2, q3, Nat.lt_of_lt_of_le lb1 q7.next, q7.arr _ lb1 _ mb1⟩, nm.tree, nm.tree,
          ⟨nm.max, e, rfl, q4, q5⟩⟩⟩
        simp only [goOp, hset, hg, c1, many, hR', one]

/-- Sequences of calls. -/
theorem ops_run {a pr} : ∀ (l : List Op) {m bad h}, Idle a pr m bad h → needs Q pr m l ≤ n → goOps (gCall Q (n + 5)) a bad l h = mOps Q pr m l
  | [], _, _, _, _, _ => rfl
  | op :: l, m, bad, h, k, hn => by
    have ho : opNeeds m op ≤ n := by
      unfold needs at hn
      split at hn
      · exact Nat.le_trans (Nat.le_max_left ..) hn
      · exact hn
    have hr := op_run (Q := Q) (n := n) k op ho
    unfold goOps mOps
    cases hm : mOp Q pr m op with
    | ok x =>
      obtain ⟨x, m'⟩ := x
      rw [hm] at hr
      obtain ⟨bad', h', e1, e2⟩ := hr
      have hl : needs Q pr m' l ≤ n := by
        simp only [needs, hm] at hn
        exact Nat.le_trans (Nat.le_max_right ..) hn
      simp only [e1, ops_run l e2 hl]
    | panic => rw [hm] at hr; simp only at hr; rw [hr]
    | stuck => rw [hm] at hr; cases hr
    | deep => rw [hm] at hr; cases hr

/-- Programs. -/
theorem goRun_eq (pr : Bool) (s : Str) (l : List Op) (hn : needs Q pr ⟨s, [], [], .none⟩ l ≤ n) : goRun gDecls Q (n + 5) pr s l = mOps Q pr ⟨s, [], [], .none⟩ l := by
  have hm : (⟨1, fun _ => newPeg gDecls s pr, []⟩ : Heap).mem 0 = pegObj (.nilp c!"Tree") s .nil .nil .nil .nil pr .nil := rfl
  obtain ⟨h', c1, r1, m1, o1, b1⟩ := init_run (Q := Q) (n := n + 2) (h := ⟨1, fun _ => newPeg gDecls s pr, []⟩) (Nat.lt_succ_self 0) hm (.inl ⟨rfl, rfl⟩)
  show many (gCall Q (n + 2 + 3) _ _ _ _) _ = _
  rw [c1]
  simp only [many]
  have := r1.below (layAt 1 0 0).tree (by simp)
  have hb : (layAt 1 0 0).tree = 8 := rfl
  exact ops_run l ⟨⟨_, _, _, _, _, _, _, _, r1, rfl, m1, .inl ⟨rfl, rfl⟩, by show 7 < _; omega, b1⟩, by simp, by simp, rfl⟩ hn

theorem goRunWith_eq (os : List Opt) (pr : Bool) (s : Str) (l : List Op) (hn : ∀ pr', optsPretty pr os = some pr' → needs Q pr' ⟨s, [], [], .none⟩ l ≤ n) :
    goRunWith gDecls Q (n + 5) os pr s l =
      match optsPretty pr os with
      | none => .panic
      | some pr' => mOps Q pr' ⟨s, [], [], .none⟩ l := by
  cases os with
  | nil => exact goRun_eq pr s l (hn pr rfl)
  | cons o os =>
    have hm : (⟨1, fun _ => newPeg gDecls s pr, []⟩ : Heap).mem 0 = pegObj (.nilp c!"Tree") s .nil .nil .nil .nil pr .nil := rfl
    obtain ⟨vs, h0, e0, n0, x0, k0⟩ := opts_made (Q := Q) (n := n + 4) (a := 0) (o :: os) ⟨1, fun _ => newPeg gDecls s pr, []⟩ (Nat.lt_succ_self 0)
    obtain ⟨x, vs', rfl, -⟩ := id k0
    have n0' : 1 ≤ h0.next := n0
    have i := init_opts (Q := Q) (n := n + 2) (show 0 < h0.next by omega) ((x0 0 (Nat.lt_succ_self 0)).trans hm) (.inl ⟨rfl, rfl⟩) k0
    unfold goRunWith
    have e0' : goOpts (call gDecls (gLib Q) (n + 5)) (o :: os) ⟨1, fun _ => newPeg gDecls s pr, []⟩ = .ok (o.fn x :: vs', h0) := e0
    rw [e0']
    simp only
    cases hs : optsPretty pr (o :: os) with
    | none => rw [hs] at i; exact congrArg (fun z => many z _) i
    | some pr' =>
      rw [hs] at i
      obtain ⟨h', y, oo, tk', bb, i1, i2, i3, i4, i5, i6, i7⟩ := i
      refine Eq.trans (congrArg (fun z => many z _) i1) ?_
      exact ops_run l ⟨⟨_, _, _, _, _, _, _, _, i2, rfl, i3, i4.holds, i6, i7⟩, by simp, by simp, rfl⟩ (hn pr' hs)

end Verif.Gen
