import Verif.Gen.InitDone
import Verif.Trace

/-! # Running `Parse` -/

namespace Verif.Gen
open Verif

variable {Q : Char → Bool} {n : Nat} {h : Heap}

/-- More memory does not matter. -/
theorem Rep.alloc {y pc a st buf v} (k : Rep y pc a st buf h) : Rep y pc a st buf (h.alloc v) := by
  have hx : ∀ x < h.next, (h.alloc v).mem x = h.mem x := fun x hx => alloc_mem_other _ _ (by omega)
  have b : ∀ x ∈ [y.max, y.pos, y.ti, y.buf, y.tree, pc, a], (h.alloc v).mem x = h.mem x := fun x hx' => hx x (k.below x hx')
  obtain ⟨w, hv, ht⟩ := k.tree
  obtain ⟨c, hc, hb1, hb2⟩ := k.buf
  exact ⟨k.apart, fun x hx => Nat.lt_succ_of_lt (k.below x hx), by rw [b _ (by simp)]; exact k.pos, by rw [b _ (by simp)]; exact k.ti,
    by rw [b _ (by simp)]; exact k.max, k.maxOk, ⟨w, by rw [b _ (by simp)]; exact hv, ht.mono (Nat.le_succ _) fun x hx' l e => (hx x hx').trans e⟩,
    ⟨c, Nat.lt_succ_of_lt hc, by rw [b _ (by simp)]; exact hb1, (hx c hc).trans hb2⟩, by rw [b _ (by simp)]; exact k.p, by rw [b _ (by simp)]; exact k.obj⟩

/-- The object may change. -/
theorem Rep.putObj {y pc a st buf v} (k : Rep y pc a st buf h) (hv : isObj v = true) : Rep y pc a st buf (h.put a v) := by
  have hna : ∀ l, h.mem a ≠ .arr l := by intro l e; have := k.obj; rw [e] at this; cases this
  refine k.put (st' := st) hna ?_ ?_ ?_ k.maxOk rfl (apart k) (apart k) (apart k) (by rw [put_mem_same]; exact hv)
  · rw [put_mem_other _ _ (apart k)]; exact k.pos
  · rw [put_mem_other _ _ (apart k)]; exact k.ti
  · rw [put_mem_other _ _ (apart k)]; exact k.max

theorem decode_rep {y pc a st buf} (k : Rep y pc a st buf h) : decode y h = some (st, buf) := by
  obtain ⟨v, hv, ht⟩ := k.tree
  obtain ⟨b, hb, hb1, hb2⟩ := k.buf
  have e1 : view h (.sl b 0 buf.length) = some (buf.map fun x : Nat => .int x) := by simp [view, hb2, List.take_of_length_le]
  have e2 : allSome natOf (buf.map fun x : Nat => .int x) = some buf := by
    rw [allSome_map natOf (fun x : Nat => .int x) id (fun x => by simp [natOf])]; simp
  have e3 : allSome tokOf (st.tree.map tokVal) = some st.tree := by
    rw [allSome_map tokOf tokVal id (fun x => tokOf_tokVal x)]; simp
  simp [decode, k.pos, k.ti, hv, treeObj, k.max, tokOf_maxVal k.maxOk, hb1, e1, e2, ht.view, e3]

/-- A rule function. -/
theorem rule_rep {y pc a st st' buf} (k : Rep y pc a st buf h) (hm : MaxOk st'.max) :
    Rep y pc a st' buf (encode y st' h) ∧ (encode y st' h).mem a = h.mem a ∧ (encode y st' h).out = h.out ∧ h.next ≤ (encode y st' h).next ∧
      (encode y st' h).mem y.tree = treeObj (.sl h.next 0 st'.tree.length) := by
  obtain ⟨b, hb, hb1, hb2⟩ := k.buf
  have lx : ∀ x ∈ [y.max, y.pos, y.ti, y.buf, y.tree, pc, a], x ≠ h.next := fun x hx => Nat.ne_of_lt (k.below x hx)
  have nb : ∀ x, (∀ l, h.mem x ≠ .arr l) → b ≠ x := fun x hx => Ne.symm (ne_of_mem hb2 hx)
  obtain ⟨v, hv, ht⟩ := k.tree
  have q1 := nb y.tree (by simp [hv, treeObj])
  have q2 := nb y.max (by simp [k.max, maxVal, tokObj])
  have q3 := nb y.ti (by simp [k.ti])
  have q4 := nb y.pos (by simp [k.pos])
  obtain ⟨n1, n2, n3, n4, n5, n6, n7, n8, n9, n10, n11, n12, n13, n14, n15, n16, n17, n18, n19, n20, n21⟩ := k.apart
  have l1 := lx y.max (by simp)
  have l2 := lx y.pos (by simp)
  have l3 := lx y.ti (by simp)
  have l4 := lx y.buf (by simp)
  have l5 := lx y.tree (by simp)
  have l6 := lx pc (by simp)
  have l7 := lx a (by simp)
  refine ⟨⟨k.apart, fun x hx => Nat.lt_succ_of_lt (k.below x hx), ?_, ?_, ?_, hm, ⟨.sl h.next 0 st'.tree.length, ?_, .inr ⟨h.next, Nat.lt_succ_self _, rfl, ?_⟩⟩,
    ⟨b, Nat.lt_succ_of_lt hb, ?_, ?_⟩, ?_, ?_⟩, ?_, rfl, Nat.le_succ _, ?_⟩ <;> simp only [encode, Heap.put, Heap.alloc]
  · simp [n9, Ne.symm n1, n7]
  · simp [n13, Ne.symm n2]
  · simp [n4]
  · simp
  · simp [Ne.symm l5, Ne.symm l1, Ne.symm l3, Ne.symm l2]
  · simp [n16, Ne.symm n3, Ne.symm n12, Ne.symm n8, l4, hb1]
  · simp [q1, q2, q3, q4, Nat.ne_of_lt hb, hb2]
  · simp [Ne.symm n19, Ne.symm n5, Ne.symm n14, Ne.symm n10, l6, k.p]
  · simp [Ne.symm n20, Ne.symm n6, Ne.symm n15, Ne.symm n11, l7, k.obj]
  · simp [Ne.symm n20, Ne.symm n6, Ne.symm n15, Ne.symm n11, l7]
  · simp

/-- The farthest token of a run. -/
theorem execN_maxOk {buf : List Nat} {G : Rule → PExp} {n r st} (h : MaxOk st.max) :
    (∀ st', execN buf G n r st = .ok st' → MaxOk st'.max) ∧ (∀ st', execN buf G n r st = .fail st' → MaxOk st'.max) := by
  have key : ∀ l : List Tok, MaxOk (l.foldl maxStep st.max) := by
    intro l
    rcases foldl_maxStep l st.max with ⟨e, _⟩ | ⟨⟨_, _, _, ne, _⟩, _⟩
    · rw [e]; exact h
    · exact .inr ne
  have hl := execN_logged buf G n r st
  constructor
  · intro st' e
    rw [e] at hl
    have e2 : st'.max = _ := hl
    rw [e2]; exact key _
  · intro st' e
    rw [e] at hl
    have e2 : st'.max = _ := hl
    rw [e2]; exact key _

/-- The same for the rule function with a number. -/
theorem runRule_maxOk {buf : List Nat} {k : Int} {st} (h : MaxOk st.max) :
    (∀ st', runRule buf k st = .ok st' → MaxOk st'.max) ∧ (∀ st', runRule buf k st = .fail st' → MaxOk st'.max) := by
  unfold runRule
  split
  · exact ⟨fun _ e => (nomatch e), fun _ e => (nomatch e)⟩
  · split
    · exact execN_maxOk h
    · refine ⟨fun st' e => ?_, fun _ e => (nomatch e)⟩
      cases e
      simpa [addTok] using h
    · exact ⟨fun _ e => (nomatch e), fun _ e => (nomatch e)⟩

/-- Rule 1 is the whole grammar. -/
theorem runRule_one {s : Str} {st} : runRule (mkBuf s) 1 st = execN (mkBuf s) G (depthBound s.length) .Grammar st := by
  have : (mkBuf s).length - 1 = s.length := by simp [mkBuf]
  simp [runRule, kindOf, ruleList, this]

/-- The variable `rule` of `parse`: nil, or a slice with one number. -/
def RuleArg (h : Heap) (v : Val) : Option Int → Prop
  | none => v = .nil
  | some k => ∃ b, v = .sl b 0 1 ∧ h.mem b = .arr [.int k]

/-- `Trim` beyond the end. -/
theorem trim_panic {a v m : Nat} {tr q bf r p rs pr} (hm : h.mem a = pegObj tr q bf r p rs pr (.sl v 0 m)) {i : Nat} (hi : m < i) :
    gCall Q (n + 2) (.meth (.ptr a []) c!"Trim") [.int i] false h = .panic := by
  have e0 : gCall Q (n + 2) (.meth (.ptr a []) c!"Trim") [.int i] false h =
      runBody gDecls (gCall Q n) n [c!"t", c!"length"] false .nil gtokens32Trim [] [.ptr a [c!"tokens32"], .int i] false h := by
    show runMeth _ _ _ _ _ _ _ _ _ = _
    simp only [runMeth, recvType, getPath, hm, pegObj]
    show gCall Q (n + 1) (.meth (.ptr a [c!"tokens32"]) c!"Trim") [.int i] false h = _
    show runMeth _ _ _ _ _ _ _ _ _ = _
    simp only [runMeth, recvType, hm, pegObj]
    rfl
  rw [e0]
  have hc : capSs false gtokens32Trim = [] := rfl
  simp only [runBody, hc]
  have hi' : ¬ i ≤ m := by omega
  grun [gtokens32Trim, select, hm, getPath, treeObj, fieldPath, fget, fset, setPath, pegObj, hi']

/-- Rule functions do not change arrays. -/
theorem rule_keep {y pc a st st' buf} (k : Rep y pc a st buf h) : Keep h (encode y st' h) := by
  obtain ⟨v, hv, ht⟩ := k.tree
  obtain ⟨n1, n2, n3, n4, n5, n6, n7, n8, n9, n10, n11, n12, n13, n14, n15, n16, n17, n18, n19, n20, n21⟩ := k.apart
  refine ⟨Nat.le_succ _, fun x hx e => ?_⟩
  have q1 : x ≠ y.tree := fun r => by rw [r, hv] at e; exact not_stable_tree e
  have q2 : x ≠ y.max := fun r => by rw [r, k.max] at e; exact not_stable_tok e
  have q3 : x ≠ y.ti := fun r => by rw [r, k.ti] at e; exact not_stable_int e
  have q4 : x ≠ y.pos := fun r => by rw [r, k.pos] at e; exact not_stable_int e
  simp only [encode, Heap.put, Heap.alloc]
  simp [q1, q2, q3, q4, Nat.ne_of_lt hx]

/-- A syntax error. -/
def errObj (a : Nat) (m : Tok) : Val := .obj c!"parseError" [(c!"p", .ptr a []), (c!"max", maxVal m)]

/-- A slice at the start of an array, with these tokens. -/
def Holds (h : Heap) (v : Val) (ts : List Tok) : Prop :=
  (v = .nil ∧ ts = []) ∨ ∃ c k l, c < h.next ∧ v = .sl c 0 k ∧ h.mem c = .arr l ∧ l.take k = ts.map tokVal

theorem Holds.view {v ts} (k : Holds h v ts) : view h v = some (ts.map tokVal) := by
  rcases k with ⟨rfl, rfl⟩ | ⟨c, k, l, _, rfl, e, e2⟩
  · rfl
  · simp [Gen.view, e, e2]

theorem Holds.keep {h0 : Heap} {v ts} (k : Holds h0 v ts) (w : Keep h0 h) : Holds h v ts := by
  rcases k with h1 | ⟨c, k, l, h1, h2, h3, h4⟩
  · exact .inl h1
  · exact .inr ⟨c, k, l, Nat.lt_of_lt_of_le h1 w.next, h2, w.arr c h1 l h3, h4⟩

theorem Toks.holds {v ts} (k : Toks h v ts) : Holds h v ts := by
  rcases k with h1 | ⟨a, h1, h2, h3⟩
  · exact .inl h1
  · exact .inr ⟨a, _, _, h1, h2, h3, by simp [List.take_of_length_le]⟩

/-- What the function `parse` leaves behind, for an outcome of the recogniser. -/
inductive Parsed (a : Nat) (tr : Val) (q : Str) (bf r p rs : Val) (pr : Bool) (y : Lay) (pc : Nat) (buf : List Nat) (h0 : Heap) : Out → Vals → Prop where
  | ok {st v h} : Rep y pc a st buf h → h.mem a = pegObj tr q bf r p rs pr v → Holds h v (st.tree.take st.ti) → st.ti ≤ st.tree.length →
    h.out = h0.out → Keep h0 h → Parsed a tr q bf r p rs pr y pc buf h0 (.ok st) (.ok ([.nil], h))
  | err {st v h e} : Rep y pc a st buf h → h.mem a = pegObj tr q bf r p rs pr v → Holds h v st.tree → e < h.next → h.mem e = errObj a st.max →
    h.out = h0.out → Keep h0 h → Parsed a tr q bf r p rs pr y pc buf h0 (.fail st) (.ok ([.ptr e []], h))
  | short {st} : st.tree.length < st.ti → Parsed a tr q bf r p rs pr y pc buf h0 (.ok st) .panic
  | panic : Parsed a tr q bf r p rs pr y pc buf h0 .panic .panic
  | deep : Parsed a tr q bf r p rs pr y pc buf h0 .div .deep

theorem zero_err : zeroOf gDecls 3 (.id c!"parseError") = .obj c!"parseError" [(c!"p", .nilp c!"MiniQueryPeg"), (c!"max", tokObj 0 0 0)] := rfl

/-- The statements of the function `parse`. -/
def pStmt (i : Nat) : Stmt := stmtAt (bodyOf (nth gMiniQueryPegInit 6)) i

theorem p_split : bodyOf (nth gMiniQueryPegInit 6) = .cons (pStmt 0) (.cons (pStmt 1) (.cons (pStmt 2) (.cons (pStmt 3) (.cons (pStmt 4) (.cons (pStmt 5) .nil))))) := rfl

/-- The variables in the function `parse`. -/
def envP (y : Lay) (pc : Nat) (o r : Val) (k : Int) (w : Val) (b : Bool) : Locals :=
  (c!"matches", .val (.bool b)) :: (c!"r", .val (.int k)) :: (c!"rule", .val w) :: envT y pc o r

set_option maxHeartbeats 1000000 in
/-- Running `parse`. -/
theorem parseFn_run {y pc a o r st tr q bf rs pr tk w} {g : Option Int} {s : Str} (k : Rep y pc a st (mkBuf s) h) (hw : RuleArg h w g)
    (hm : h.mem a = pegObj tr q bf (rulesVal y pc o r) (parseFn y pc o r) rs pr tk) :
    Parsed a tr q bf (rulesVal y pc o r) (parseFn y pc o r) rs pr y pc (mkBuf s) h (runRule (mkBuf s) (g.getD 1) st)
      (gCall Q (n + 3) (parseFn y pc o r) [w] true h) := by
  have hc : capSs false (bodyOf (nth gMiniQueryPegInit 6)) = [c!"p"] := rfl
  have hd := decode_rep k
  have hlay : layOf ((c!"matchDot", .val (dotFn y pc o r)) :: (c!"add", .val (addFn y pc o r)) :: envT y pc o r) = some y := rfl
  have hrule : gCall Q (n + 2) (.rule (g.getD 1) ((c!"matchDot", .val (dotFn y pc o r)) :: (c!"add", .val (addFn y pc o r)) :: envT y pc o r)) [] false h =
      (match runRule (mkBuf s) (g.getD 1) st with
        | .ok st' => .ok ([.bool true], encode y st' h)
        | .fail st' => .ok ([.bool false], encode y st' h)
        | .panic => .panic
        | .div => .deep) := by
    show ruleRun (g.getD 1) _ h = _
    simp only [ruleRun, hlay, hd, Option.bind_some, Option.map_some]
    cases runRule (mkBuf s) (g.getD 1) st <;> rfl
  simp only [envT, envR] at hrule
  have hmx := runRule_maxOk (buf := mkBuf s) (k := g.getD 1) k.maxOk
  have e0 : gCall Q (n + 3) (parseFn y pc o r) [w] true h = finish (.cons (.id c!"error") .nil) (execs gDecls (gCall Q (n + 2)) (n + 2) [c!"p"]
      (bodyOf (nth gMiniQueryPegInit 6)) 8 ((c!"rule", .val w) :: envT y pc o r) h) := by
    show runBody _ _ _ _ _ _ _ _ _ _ _ = _
    simp only [runBody, hc]; rfl
  rw [e0, p_split]
  have hsel := (sel_peg hm).2.2.1
  simp only [rulesVal, envT, envR] at hsel
  have s0 : exec gDecls (gCall Q (n + 2)) (n + 2) [c!"p"] (pStmt 0) 8 ((c!"rule", .val w) :: envT y pc o r) h =
      .ok (.norm, (c!"r", .val (.int 1)) :: (c!"rule", .val w) :: envT y pc o r, h) := by
    grun [pStmt, stmtAt, bodyOf, nth, gMiniQueryPegInit, envT, envR]
  have s1 : exec gDecls (gCall Q (n + 2)) (n + 2) [c!"p"] (pStmt 1) 8 ((c!"r", .val (.int 1)) :: (c!"rule", .val w) :: envT y pc o r) h =
      .ok (.norm, (c!"r", .val (.int (g.getD 1))) :: (c!"rule", .val w) :: envT y pc o r, h) := by
    cases g with
    | none =>
      have hw' : w = .nil := hw
      subst hw'
      have hv0 : view h .nil = some [] := rfl
      grun [pStmt, stmtAt, bodyOf, nth, gMiniQueryPegInit, envT, envR, hv0]
    | some x =>
      obtain ⟨b, rfl, hb⟩ := hw
      have hv0 : view h (.sl b 0 1) = some [.int x] := by simp [view, hb]
      grun [pStmt, stmtAt, bodyOf, nth, gMiniQueryPegInit, envT, envR, hv0, hb, nthVal]
  have s2 : exec gDecls (gCall Q (n + 2)) (n + 2) [c!"p"] (pStmt 2) 8 ((c!"r", .val (.int (g.getD 1))) :: (c!"rule", .val w) :: envT y pc o r) h =
      (match runRule (mkBuf s) (g.getD 1) st with
        | .ok st' => .ok (.norm, envP y pc o r (g.getD 1) w true, encode y st' h)
        | .fail st' => .ok (.norm, envP y pc o r (g.getD 1) w false, encode y st' h)
        | .panic => .panic
        | .div => .deep) := by
    cases e : runRule (mkBuf s) (g.getD 1) st <;> rw [e] at hrule <;>
    grun [pStmt, stmtAt, bodyOf, nth, gMiniQueryPegInit, envP, envT, envR, k.p, hsel, hrule]
  have hlp : ∀ b, lget c!"p" (envP y pc o r (g.getD 1) w b) = some (.box pc) := fun _ => rfl
  cases e : runRule (mkBuf s) (g.getD 1) st with
  | panic =>
    rw [e] at s2
    simp only [execs_cons, s0, s1, s2, next_norm, next_panic, finish]; exact .panic
  | div =>
    rw [e] at s2
    simp only [execs_cons, s0, s1, s2, next_norm, next_deep, finish]; exact .deep
  | ok st' =>
    rw [e] at s2
    simp only [execs_cons, s0, s1, s2, next_norm]
    have w2 := rule_keep (st' := st') k
    obtain ⟨k2, ha2, ho2, hn2, ht2⟩ := rule_rep k (hmx.1 st' e)
    generalize hh2 : encode y st' h = h2 at *
    have hm2 := ha2.trans hm
    have s3 : exec gDecls (gCall Q (n + 2)) (n + 2) [c!"p"] (pStmt 3) 8 (envP y pc o r (g.getD 1) w true) h2 = _ :=
      exec_set (e := .sel (.id c!"p") c!"tokens32") (v := treeObj (.sl h.next 0 st'.tree.length)) (by simp [ev, lget, envP, envT, envR, ht2])
        ((assign_peg (P := gDecls) (C := gCall Q (n + 2)) (hlp true) k2.p hm2).2.2.2.2 (.sl h.next 0 st'.tree.length))
    generalize hh3 : h2.put a (pegObj tr q bf (rulesVal y pc o r) (parseFn y pc o r) rs pr (.sl h.next 0 st'.tree.length)) = h3 at s3
    have k3 : Rep y pc a st' (mkBuf s) h3 := by rw [← hh3]; exact k2.putObj rfl
    have hm3 : h3.mem a = pegObj tr q bf (rulesVal y pc o r) (parseFn y pc o r) rs pr (.sl h.next 0 st'.tree.length) := by rw [← hh3, put_mem_same]
    have w3 : Keep h h3 := by rw [← hh3]; exact w2.put _ (by rw [hm2]; exact not_stable_peg)
    have ht3 : h3.mem y.tree = treeObj (.sl h.next 0 st'.tree.length) := by rw [← hh3, put_mem_other _ _ (apart k), ht2]
    have hsT : select gDecls false (.ptr a []) c!"Trim" h3 = .ok ([.meth (.ptr a []) c!"Trim"], h3) := by
      simp only [select, getPath, hm3, pegObj]; rfl
    simp only [s3, next_norm]
    by_cases hl : st'.ti ≤ st'.tree.length
    · have htr := trim_run (Q := Q) (n := n) hm3 hl
      generalize hh4 : h3.put a (pegObj tr q bf (rulesVal y pc o r) (parseFn y pc o r) rs pr (.sl h.next 0 st'.ti)) = h4 at htr
      have s4 : exec gDecls (gCall Q (n + 2)) (n + 2) [c!"p"] (pStmt 4) 8 (envP y pc o r (g.getD 1) w true) h3 = .ok (.ret [.nil], envP y pc o r (g.getD 1) w true, h4) := by
        grun [pStmt, stmtAt, bodyOf, nth, gMiniQueryPegInit, envP, envT, envR, k3.p, hsT, k3.ti, htr]
      simp only [s4, next_ret, finish, coerce]
      have k4 : Rep y pc a st' (mkBuf s) h4 := by rw [← hh4]; exact k3.putObj rfl
      have hm4 : h4.mem a = pegObj tr q bf (rulesVal y pc o r) (parseFn y pc o r) rs pr (.sl h.next 0 st'.ti) := by rw [← hh4, put_mem_same]
      refine .ok k4 hm4 ?_ hl (by rw [← hh4, put_out, ← hh3, put_out, ho2])
        (by rw [← hh4]; exact w3.put _ (by rw [hm3]; exact not_stable_peg))
      obtain ⟨v, hv, ht⟩ := k4.tree
      have hv' : h4.mem y.tree = treeObj (.sl h.next 0 st'.tree.length) := by rw [← hh4, put_mem_other _ _ (apart k), ht3]
      rw [hv'] at hv
      simp only [treeObj, Val.obj.injEq, List.cons.injEq, Prod.mk.injEq, true_and, and_true] at hv
      subst hv
      rcases ht with ⟨h1, _⟩ | ⟨c, h0, h1, h2⟩
      · cases h1
      · cases h1
        exact .inr ⟨_, _, _, h0, rfl, h2, by simp⟩
    · have hb : ¬ ((st'.ti : Int) ≤ (st'.tree.length : Nat)) := by omega
      have htr : gCall Q (n + 2) (.meth (.ptr a []) c!"Trim") [.int st'.ti] false h3 = .panic := trim_panic hm3 (by omega)
      have s4 : exec gDecls (gCall Q (n + 2)) (n + 2) [c!"p"] (pStmt 4) 8 (envP y pc o r (g.getD 1) w true) h3 = .panic := by
        grun [pStmt, stmtAt, bodyOf, nth, gMiniQueryPegInit, envP, envT, envR, k3.p, hsT, k3.ti, htr]
      simp only [s4, next_panic, finish]
      exact .short (by omega)
  | fail st' =>
    rw [e] at s2
    simp only [execs_cons, s0, s1, s2, next_norm]
    have w2 := rule_keep (st' := st') k
    obtain ⟨k2, ha2, ho2, hn2, ht2⟩ := rule_rep k (hmx.2 st' e)
    generalize hh2 : encode y st' h = h2 at *
    have hm2 := ha2.trans hm
    have s3 : exec gDecls (gCall Q (n + 2)) (n + 2) [c!"p"] (pStmt 3) 8 (envP y pc o r (g.getD 1) w false) h2 = _ :=
      exec_set (e := .sel (.id c!"p") c!"tokens32") (v := treeObj (.sl h.next 0 st'.tree.length)) (by simp [ev, lget, envP, envT, envR, ht2])
        ((assign_peg (P := gDecls) (C := gCall Q (n + 2)) (hlp false) k2.p hm2).2.2.2.2 (.sl h.next 0 st'.tree.length))
    generalize hh3 : h2.put a (pegObj tr q bf (rulesVal y pc o r) (parseFn y pc o r) rs pr (.sl h.next 0 st'.tree.length)) = h3 at s3
    have k3 : Rep y pc a st' (mkBuf s) h3 := by rw [← hh3]; exact k2.putObj rfl
    have hm3 : h3.mem a = pegObj tr q bf (rulesVal y pc o r) (parseFn y pc o r) rs pr (.sl h.next 0 st'.tree.length) := by rw [← hh3, put_mem_same]
    have w3 : Keep h h3 := by rw [← hh3]; exact w2.put _ (by rw [hm2]; exact not_stable_peg)
    have ht3 : h3.mem y.tree = treeObj (.sl h.next 0 st'.tree.length) := by rw [← hh3, put_mem_other _ _ (apart k), ht2]
    simp only [s3, next_norm]
    have s4 : exec gDecls (gCall Q (n + 2)) (n + 2) [c!"p"] (pStmt 4) 8 (envP y pc o r (g.getD 1) w false) h3 = .ok (.norm, envP y pc o r (g.getD 1) w false, h3) := by
      grun [pStmt, stmtAt, bodyOf, nth, gMiniQueryPegInit, envP, envT, envR]
    have s5 : exec gDecls (gCall Q (n + 2)) (n + 2) [c!"p"] (pStmt 5) 8 (envP y pc o r (g.getD 1) w false) h3 =
        .ok (.ret [.ptr h3.next []], envP y pc o r (g.getD 1) w false, h3.alloc (errObj a st'.max)) := by
      grun [pStmt, stmtAt, bodyOf, nth, gMiniQueryPegInit, envP, envT, envR, k3.p, k3.max, zero_err, setFields, litFields, errObj]
    simp only [s4, s5, next_norm, next_ret, finish, coerce, execs_nil]
    have hx : ∀ x < h3.next, (h3.alloc (errObj a st'.max)).mem x = h3.mem x := fun x hx => alloc_mem_other _ _ (by omega)
    refine .err (k3.alloc) ((hx a (k3.below a (by simp))).trans hm3) ?_ (by simp) (by simp) (by rw [alloc_out, ← hh3, put_out, ho2]) (w3.alloc _)
    obtain ⟨v, hv, ht⟩ := (k3.alloc (v := errObj a st'.max)).tree
    rw [hx _ (k3.below y.tree (by simp)), ht3] at hv
    simp only [treeObj, Val.obj.injEq, List.cons.injEq, Prod.mk.injEq, true_and, and_true] at hv
    subst hv
    exact ht.holds

theorem Parsed.of_alloc {a tr q bf r p rs pr y pc buf o R v} (k : Parsed a tr q bf r p rs pr y pc buf (h.alloc v) o R) :
    Parsed a tr q bf r p rs pr y pc buf h o R := by
  have key : ∀ {h'}, Keep (h.alloc v) h' → Keep h h' := fun k =>
    ⟨Nat.le_trans (Nat.le_succ _) k.1, fun x hx e => by
      have q : (h.alloc v).mem x = h.mem x := alloc_mem_other _ _ (by omega)
      rw [← q]; exact k.2 x (Nat.lt_succ_of_lt hx) (by rw [q]; exact e)⟩
  cases k with
  | ok h1 h2 h3 h4 h5 h6 => exact .ok h1 h2 h3 h4 h5 (key h6)
  | err h1 h2 h3 h4 h5 h6 h7 => exact .err h1 h2 h3 h4 h5 h6 (key h7)
  | short h1 => exact .short h1
  | panic => exact .panic
  | deep => exact .deep

theorem Parsed.shape {a tr q bf r p rs pr y pc buf h0 o R} (k : Parsed a tr q bf r p rs pr y pc buf h0 o R) (h1 : Heap) :
    ∃ v h2, R = .ok ([v], h2) ∨ R = .panic ∨ R = .deep := by
  cases k
  · exact ⟨_, _, .inl rfl⟩
  · exact ⟨_, _, .inl rfl⟩
  · exact ⟨.nil, h1, .inr (.inl rfl)⟩
  · exact ⟨.nil, h1, .inr (.inl rfl)⟩
  · exact ⟨.nil, h1, .inr (.inr rfl)⟩

/-- The arguments of `Parse`. -/
def ruleArgs : Option Int → List Val
  | none => []
  | some k => [.int k]

/-- `Parse`, with or without the number of a rule. -/
theorem parse_rule {y pc a o r st tr q bf rs pr tk} {s : Str} (g : Option Int) (k : Rep y pc a st (mkBuf s) h)
    (hm : h.mem a = pegObj tr q bf (rulesVal y pc o r) (parseFn y pc o r) rs pr tk) :
    Parsed a tr q bf (rulesVal y pc o r) (parseFn y pc o r) rs pr y pc (mkBuf s) h (runRule (mkBuf s) (g.getD 1) st)
      (gCall Q (n + 4) (.meth (.ptr a []) c!"Parse") (ruleArgs g) false h) := by
  have e0 : gCall Q (n + 4) (.meth (.ptr a []) c!"Parse") (ruleArgs g) false h =
      runBody gDecls (gCall Q (n + 3)) (n + 3) [c!"p", c!"rule"] true (.cons (.id c!"error") .nil) gMiniQueryPegParse [] (.ptr a [] :: ruleArgs g) false h := by
    show runMeth _ _ _ _ _ _ _ _ _ = _
    simp only [runMeth, recvType, getPath, hm, pegObj]
    rfl
  have hc : capSs false gMiniQueryPegParse = [c!"p"] := rfl
  have la := k.below a (by simp)
  have k1 := k.alloc (v := .ptr a [])
  have hm1 : (h.alloc (.ptr a [])).mem a = _ := (alloc_mem_other _ _ (Nat.ne_of_lt la)).trans hm
  have hl1 : (h.alloc (.ptr a [])).mem h.next = .ptr a [] := alloc_mem_same _ _
  obtain ⟨w, h1, eb, hw, k2, hm2, hl2, back⟩ : ∃ w h1, bindParams [c!"p"] true false [c!"p", c!"rule"] (.ptr a [] :: ruleArgs g) [] h =
      ([(c!"rule", .val w), (c!"p", .box h.next)], h1) ∧ RuleArg h1 w g ∧ Rep y pc a st (mkBuf s) h1 ∧
      h1.mem a = pegObj tr q bf (rulesVal y pc o r) (parseFn y pc o r) rs pr tk ∧ h1.mem h.next = .ptr a [] ∧
      (∀ {out R}, Parsed a tr q bf (rulesVal y pc o r) (parseFn y pc o r) rs pr y pc (mkBuf s) h1 out R →
        Parsed a tr q bf (rulesVal y pc o r) (parseFn y pc o r) rs pr y pc (mkBuf s) h out R) := by
    cases g with
    | none => exact ⟨.nil, h.alloc (.ptr a []), by simp [bindParams, declare, ruleArgs], rfl, k1, hm1, hl1, fun z => z.of_alloc⟩
    | some x =>
      refine ⟨.sl (h.alloc (.ptr a [])).next 0 1, (h.alloc (.ptr a [])).alloc (.arr [.int x]), by simp [bindParams, declare, ruleArgs, newSlice],
        ⟨_, rfl, alloc_mem_same _ _⟩, k1.alloc, ?_, ?_, fun z => z.of_alloc.of_alloc⟩
      · exact (alloc_mem_other _ _ (Nat.ne_of_lt (k1.below a (by simp)))).trans hm1
      · exact (alloc_mem_other _ _ (by simp)).trans hl1
  have hrun := back (parseFn_run (Q := Q) (n := n) k2 hw hm2)
  have hsel := (sel_peg hm2).2.2.2.1
  generalize hR : gCall Q (n + 3) (parseFn y pc o r) [w] true h1 = R at hrun
  have e1 : gCall Q (n + 4) (.meth (.ptr a []) c!"Parse") (ruleArgs g) false h = R := by
    rw [e0]
    simp only [runBody, hc, eb]
    obtain ⟨v, h2, hR2⟩ := hrun.shape h1
    rcases hR2 with rfl | rfl | rfl <;> grun [gMiniQueryPegParse, hl2, hsel, hR]
  rw [e1]; exact hrun

/-- `Parse` without arguments. -/
theorem parse_run {y pc a o r st tr q bf rs pr tk} {s : Str} (k : Rep y pc a st (mkBuf s) h)
    (hm : h.mem a = pegObj tr q bf (rulesVal y pc o r) (parseFn y pc o r) rs pr tk) :
    Parsed a tr q bf (rulesVal y pc o r) (parseFn y pc o r) rs pr y pc (mkBuf s) h (execN (mkBuf s) G (depthBound s.length) .Grammar st)
      (gCall Q (n + 4) (.meth (.ptr a []) c!"Parse") [] false h) := by
  have := parse_rule (Q := Q) (n := n) none k hm
  rw [Option.getD_none, runRule_one] at this
  exact this

end Verif.Gen
