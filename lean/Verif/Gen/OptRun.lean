import Verif.Gen.InitDone

/-! # Running `Init` with options -/

namespace Verif.Gen
open Verif

variable {Q : Char → Bool} {n : Nat} {h : Heap}

/-- The options that the generated file has: `Pretty(b)` and `Size(k)`, /repo/miniquery/miniquery.peg.go:435-447. -/
inductive Opt where
  | pretty (b : Bool)
  | size (k : Int)

/-- The function that makes an option. -/
def Opt.name : Opt → Str
  | .pretty _ => c!"Pretty"
  | .size _ => c!"Size"

/-- Its argument. -/
def Opt.arg : Opt → Val
  | .pretty b => .bool b
  | .size k => .int k

/-- The function literal in `Pretty`. -/
def prettyBody : Stmts := .cons (.assign (.cons (.sel (.id c!"p") c!"Pretty") .nil) (.cons (.id c!"pretty") .nil)) (.cons (.ret (.cons (.id c!"nil") .nil)) .nil)

/-- The function literal in `Size`. -/
def sizeBody : Stmts :=
  .cons (.assign (.cons (.sel (.id c!"p") c!"tokens32") .nil) (.cons (.lit (.id c!"tokens32") (.cons (.id c!"tree") .nil)
    (.cons (.call (.id c!"make") (.cons (.arr (.id c!"token32")) (.cons (.int 0) (.cons (.id c!"size") .nil))) false) .nil)) .nil))
  (.cons (.ret (.cons (.id c!"nil") .nil)) .nil)

/-- An option whose argument is in memory at `x`. -/
def Opt.fn (x : Nat) : Opt → Val
  | .pretty _ => .clo [c!"p"] false (.cons (.id c!"error") .nil) prettyBody [(c!"pretty", .box x)]
  | .size _ => .clo [c!"p"] false (.cons (.id c!"error") .nil) sizeBody [(c!"size", .box x)]

theorem opt_made (o : Opt) : gCall Q (n + 1) (.fn o.name) [o.arg] false h = .ok ([o.fn h.next], h.alloc o.arg) := by
  cases o <;> rfl

theorem pretty_opt {a x : Nat} {b tr q bf r p rs pr tk} (hx : h.mem x = .bool b) (hm : h.mem a = pegObj tr q bf r p rs pr tk) :
    gCall Q (n + 1) (Opt.fn x (.pretty b)) [.ptr a []] false h = .ok ([.nil], h.put a (pegObj tr q bf r p rs b tk)) := by
  show runBody _ _ _ _ _ _ _ _ _ _ _ = _
  have hc : capSs false prettyBody = [] := rfl
  simp only [runBody, hc]
  have e1 : ∀ C, assign1 gDecls C (.sel (.id c!"p") c!"Pretty") (.bool b) [(c!"p", .val (.ptr a [])), (c!"pretty", .box x)] h =
      .ok ([(c!"p", .val (.ptr a [])), (c!"pretty", .box x)], h.put a (pegObj tr q bf r p rs b tk)) := fun C => by
    simp [assign1, ev, lget, one_ok, getPath, hm, pegObj, fieldPath, fget, setPath, fset]
  simp [bindParams, declare, prettyBody, execs, exec, evs, ev, lget, hx, isObj_bool, one_ok, many_ok, assignAll, e1, next_norm, next_ret, finish, coerce]

theorem size_opt {a x : Nat} {k : Int} {tr q bf r p rs pr tk} (ha : a < h.next) (hx : h.mem x = .int k) (hm : h.mem a = pegObj tr q bf r p rs pr tk) :
    gCall Q (n + 1) (Opt.fn x (.size k)) [.ptr a []] false h =
      if k < 0 then .panic else .ok ([.nil], (h.alloc (.arr [])).put a (pegObj tr q bf r p rs pr (.sl h.next 0 0))) := by
  show runBody _ _ _ _ _ _ _ _ _ _ _ = _
  have hc : capSs false sizeBody = [] := rfl
  simp only [runBody, hc]
  have hm' : (h.alloc (.arr [])).mem a = pegObj tr q bf r p rs pr tk := by rw [alloc_mem_other _ _ (by omega), hm]
  have e1 : ∀ C, assign1 gDecls C (.sel (.id c!"p") c!"tokens32") (treeObj (.sl h.next 0 0)) [(c!"p", .val (.ptr a [])), (c!"size", .box x)] (h.alloc (.arr [])) =
      .ok ([(c!"p", .val (.ptr a [])), (c!"size", .box x)], (h.alloc (.arr [])).put a (pegObj tr q bf r p rs pr (.sl h.next 0 0))) := fun C => by
    simp [assign1, ev, lget, one_ok, getPath, hm', pegObj, fieldPath, fget, setPath, fset]
  have e2 : mkValue gDecls (.arr (.id c!"token32")) [.int 0, .int k] h = if k < 0 then .panic else .ok ([.sl h.next 0 0], h.alloc (.arr [])) := by
    simp only [mkValue, capBelow]
    by_cases hk : k < 0 <;> simp [hk, newSlice]
  have e3 : setFields (zeroOf gDecls 3 (.id c!"tokens32")) (.cons (.id c!"tree") .nil) [.sl h.next 0 0] = treeObj (.sl h.next 0 0) := rfl
  by_cases hk : k < 0
  · simp [bindParams, declare, sizeBody, execs, exec, evs, ev, builtin, builtins, lget, hx, isObj_int, one_ok, many_ok, e2, hk, one, many, next, finish]
  · simp [bindParams, declare, sizeBody, execs, exec, evs, ev, builtin, builtins, lget, hx, isObj_int, one_ok, many_ok, e2, hk, e3, assignAll, e1, next_norm, next_ret, finish, coerce]

/-- The body of the loop over options in `Init`. -/
def optLoop : Stmts :=
  .cons (.define [c!"err"] (.cons (.call (.id c!"option") (.cons (.id c!"p") .nil) false) .nil))
    (.cons (.ite (.bin c!"!=" (.id c!"err") (.id c!"nil")) (.cons (.ret (.cons (.id c!"err") .nil)) .nil) .nil) .nil)

theorem opt_stmt : stmtAt gMiniQueryPegInit 1 = .range c!"" c!"_" c!"option" (.id c!"options") optLoop := rfl

theorem caps_opt : c!"option" ∉ capsI ∧ c!"err" ∉ capsI := by decide +kernel

theorem opt_round {y b a o v} {h' : Heap} {i : Nat} (hp : h.mem b = .ptr a []) (hv : gCall Q n v [.ptr a []] false h = .ok ([.nil], h')) {F : Nat} :
    rangeBody capsI c!"_" c!"option" (execs gDecls (gCall Q n) F capsI optLoop) i v (envR y b o) h = .ok (.norm, envR y b o, h') := by
  obtain ⟨c1, c2⟩ := caps_opt
  simp [rangeBody, declare, c1, c2, optLoop, execs, exec, evs, ev, builtin, builtins, envR, lget, hp, isObj_ptr, one_ok, many_ok, hv, defineAll, next_norm, binOp, same, yes, leave, cut]

theorem opt_round_panic {y b a o v} {i : Nat} (hp : h.mem b = .ptr a []) (hv : gCall Q n v [.ptr a []] false h = .panic) {F : Nat} :
    rangeBody capsI c!"_" c!"option" (execs gDecls (gCall Q n) F capsI optLoop) i v (envR y b o) h = .panic := by
  obtain ⟨c1, c2⟩ := caps_opt
  simp [rangeBody, declare, c1, optLoop, execs, exec, evs, ev, builtin, builtins, envR, lget, hp, isObj_ptr, one_ok, many_ok, hv, one, many, next, leave]

/-- What the options of a parser object come to: none stands for a panic. -/
def optsPretty : Bool → List Opt → Option Bool
  | pr, [] => some pr
  | _, .pretty b :: l => optsPretty b l
  | pr, .size k :: l => if k < 0 then none else optsPretty pr l

/-- Options in memory. -/
def OptsAt (h : Heap) (B a : Nat) : List Opt → List Val → Prop
  | [], vs => vs = []
  | o :: os, vs => ∃ x vs', vs = o.fn x :: vs' ∧ x < B ∧ x ≠ a ∧ h.mem x = o.arg ∧ OptsAt h B a os vs'

theorem OptsAt.mono {B a : Nat} {h' : Heap} (hm : ∀ x < B, x ≠ a → h'.mem x = h.mem x) : ∀ {os vs}, OptsAt h B a os vs → OptsAt h' B a os vs
  | [], _, k => k
  | _ :: _, _, ⟨x, vs', e, h1, h2, h3, k⟩ => ⟨x, vs', e, h1, h2, (hm x h1 h2).trans h3, k.mono hm⟩

/-- The loop over options. -/
theorem opt_loop {y b a o B tr q bf r p rs F} : ∀ {os vs h pr tk} (i : Nat), OptsAt h B a os vs → h.mem b = .ptr a [] → b ≠ a → b < h.next → a < h.next → B ≤ h.next →
    h.mem a = pegObj tr q bf r p rs pr tk → Toks h tk [] →
    match optsPretty pr os with
    | none => rangeLoop c!"" (rangeBody capsI c!"_" c!"option" (execs gDecls (gCall Q (n + 1)) F capsI optLoop)) i vs (envR y b o) h = .panic
    | some pr' => ∃ h' tk', rangeLoop c!"" (rangeBody capsI c!"_" c!"option" (execs gDecls (gCall Q (n + 1)) F capsI optLoop)) i vs (envR y b o) h =
          .ok (.norm, envR y b o, h') ∧ h'.mem a = pegObj tr q bf r p rs pr' tk' ∧ Toks h' tk' [] ∧ h.next ≤ h'.next ∧ h'.out = h.out ∧
          ∀ x < h.next, x ≠ a → h'.mem x = h.mem x
  | [], vs, h, pr, tk, i, k, hp, hba, hb, ha, hB, hm, ht => by
    cases k
    exact ⟨h, tk, rfl, hm, ht, Nat.le_refl _, rfl, fun _ _ _ => rfl⟩
  | .pretty c :: os, vs, h, pr, tk, i, ⟨x, vs', e, h1, h2, h3, k⟩, hp, hba, hb, ha, hB, hm, ht => by
    subst e
    have r1 := opt_round (y := y) (o := o) (i := i) (F := F) hp (pretty_opt (Q := Q) (n := n) h3 hm)
    generalize hh : h.put a (pegObj tr q bf r p rs c tk) = h1 at r1
    have hx : ∀ x, x ≠ a → h1.mem x = h.mem x := fun x hx => by rw [← hh, put_mem_other _ _ hx]
    have hn : h1.next = h.next := by rw [← hh]; rfl
    have ih := opt_loop (y := y) (o := o) (F := F) (i + 1) (k.mono fun x _ ne => hx x ne) ((hx b hba).trans hp) hba (by omega) (by omega) (by omega)
      (show h1.mem a = pegObj tr q bf r p rs c tk by rw [← hh, put_mem_same])
      (ht.mono (by omega) fun z hz l e => by rw [← hh]; exact put_arr e (by simp [hm, pegObj]))
    simp only [optsPretty]
    split
    · rename_i hn'
      rw [hn'] at ih
      rw [rangeLoop, r1]
      exact ih
    · rename_i pr' hs
      rw [hs] at ih
      obtain ⟨h', tk', e1, e2, e3, e4, e5, e6⟩ := ih
      refine ⟨h', tk', by rw [rangeLoop, r1]; exact e1, e2, e3, by omega, by rw [e5, ← hh]; rfl, fun x hx' ne => (e6 x (by omega) ne).trans (hx x ne)⟩
  | .size c :: os, vs, h, pr, tk, i, ⟨x, vs', e, h1, h2, h3, k⟩, hp, hba, hb, ha, hB, hm, ht => by
    subst e
    have r0 := size_opt (Q := Q) (n := n) ha h3 hm
    simp only [optsPretty]
    by_cases hc : c < 0
    · rw [if_pos hc] at r0 ⊢
      simp only
      rw [rangeLoop, opt_round_panic hp r0]
    · rw [if_neg hc] at r0 ⊢
      have r1 := opt_round (y := y) (o := o) (i := i) (F := F) hp r0
      generalize hh : (h.alloc (.arr [])).put a (pegObj tr q bf r p rs pr (.sl h.next 0 0)) = h1 at r1
      have hx : ∀ x < h.next, x ≠ a → h1.mem x = h.mem x := fun x hx ne => by rw [← hh, put_mem_other _ _ ne, alloc_mem_other _ _ (by omega)]
      have hn : h1.next = h.next + 1 := by rw [← hh]; rfl
      have ih := opt_loop (y := y) (o := o) (F := F) (i + 1) (k.mono fun x hx' ne => hx x (by omega) ne) ((hx b hb hba).trans hp) hba (by omega) (by omega) (by omega)
        (show h1.mem a = pegObj tr q bf r p rs pr (.sl h.next 0 0) by rw [← hh, put_mem_same])
        (.inr ⟨h.next, by omega, rfl, by rw [← hh, put_mem_other _ _ (by omega), alloc_mem_same]; rfl⟩)
      split
      · rename_i hn'
        rw [hn'] at ih
        rw [rangeLoop, r1]
        exact ih
      · rename_i pr' hs
        rw [hs] at ih
        obtain ⟨h', tk', e1, e2, e3, e4, e5, e6⟩ := ih
        refine ⟨h', tk', by rw [rangeLoop, r1]; exact e1, e2, e3, by omega, by rw [e5, ← hh]; rfl, fun x hx' ne => (e6 x (by omega) ne).trans (hx x hx' ne)⟩

/-- `Init` with options. -/
theorem init_opts {a tr q bf r p rs pr tk os v vs} (ha : a < h.next) (hm : h.mem a = pegObj tr q bf r p rs pr tk) (ht : Toks h tk [])
    (ko : OptsAt h h.next a os (v :: vs)) :
    match optsPretty pr os with
    | none => gCall Q (n + 3) (.meth (.ptr a []) c!"Init") (v :: vs) false h = .panic
    | some pr' => ∃ h' y o tk' bb, gCall Q (n + 3) (.meth (.ptr a []) c!"Init") (v :: vs) false h = .ok ([.nil], h') ∧ Rep y h.next a initSt (mkBuf q) h' ∧
        h'.mem a = pegObj tr q (.sl bb 0 (mkBuf q).length) (rulesVal y h.next o r) (parseFn y h.next o r) (resetFn y h.next o) pr' tk' ∧ Toks h' tk' [] ∧
        h'.out = h.out ∧ bb < h'.next ∧ h'.mem bb = .arr ((mkBuf q).map fun x : Nat => .int x) := by
  have e0 : gCall Q (n + 3) (.meth (.ptr a []) c!"Init") (v :: vs) false h =
      runBody gDecls (gCall Q (n + 2)) (n + 2) [c!"p", c!"options"] true (.cons (.id c!"error") .nil) gMiniQueryPegInit [] (.ptr a [] :: v :: vs) false h := by
    show runMeth _ _ _ _ _ _ _ _ _ = _
    simp only [runMeth, recvType, getPath, hm, pegObj]
    rfl
  obtain ⟨c1, c2, c3, c4, c5, c6, d1, d2, d3, d4, d5, d6⟩ := capsI_mem
  generalize hh1 : (h.alloc (.ptr a [])).alloc (.arr (v :: vs)) = h1
  generalize hoo : Val.sl (h.next + 1) 0 (v :: vs).length = oo
  generalize hh5 : (((h1.alloc (tokObj 0 0 0)).alloc (.int 0)).alloc (.int 0)).alloc .nil = h5
  have hn1 : h1.next = h.next + 2 := by rw [← hh1]; rfl
  have hx1 : ∀ x < h.next, h1.mem x = h.mem x := by
    intro x hx
    rw [← hh1]; simp only [Heap.alloc]
    simp [show x ≠ h.next + 1 by omega, show x ≠ h.next by omega]
  have m0' : h1.mem h.next = .ptr a [] := by rw [← hh1]; simp [Heap.alloc]
  have ma' : h1.mem (h.next + 1) = .arr (v :: vs) := by rw [← hh1]; simp [Heap.alloc]
  have hn5 : h5.next = h.next + 6 := by rw [← hh5]; simp only [Heap.alloc]; omega
  have hx5 : ∀ x < h.next + 2, h5.mem x = h1.mem x := by
    intro x hx
    rw [← hh5]; simp only [Heap.alloc]
    simp [show x ≠ h1.next + 1 + 1 + 1 by omega, show x ≠ h1.next + 1 + 1 by omega, show x ≠ h1.next + 1 by omega, show x ≠ h1.next by omega]
  have m0 : h5.mem h.next = .ptr a [] := (hx5 _ (by omega)).trans m0'
  have ma : h5.mem (h.next + 1) = .arr (v :: vs) := (hx5 _ (by omega)).trans ma'
  have m1 : h5.mem (h.next + 1 + 1) = tokObj 0 0 0 := by rw [← hh5, show h.next + 1 + 1 = h1.next by omega]; simp [Heap.alloc, show h1.next ≠ h1.next + 1 + 1 + 1 by omega, show h1.next ≠ h1.next + 1 + 1 by omega]
  have m2 : h5.mem (h.next + 1 + 2) = .int 0 := by rw [← hh5, show h.next + 1 + 2 = h1.next + 1 by omega]; simp [Heap.alloc]
  have m3 : h5.mem (h.next + 1 + 3) = .int 0 := by rw [← hh5, show h.next + 1 + 3 = h1.next + 1 + 1 by omega]; simp [Heap.alloc]
  have m4 : h5.mem (h.next + 1 + 4) = .nil := by rw [← hh5, show h.next + 1 + 4 = h1.next + 1 + 1 + 1 by omega]; simp [Heap.alloc]
  have hx : ∀ x < h.next, h5.mem x = h.mem x := fun x hx => (hx5 x (by omega)).trans (hx1 x hx)
  have ht5 : Toks h5 tk [] := ht.mono (by omega) fun c hc l e => by rw [hx c hc, e]
  have ho5 : h5.out = h.out := by rw [← hh5, ← hh1]; rfl
  have hview : view h5 oo = some (v :: vs) := by rw [← hoo]; simp [view, ma]
  have eb : bindParams capsI true false [c!"p", c!"options"] (.ptr a [] :: v :: vs) [] h = ([(c!"options", .val oo), (c!"p", .box h.next)], h1) := by
    simp [bindParams, declare, c1, d1, newSlice, hh1, ← hoo, alloc_next]
  have s0 : ∀ c, exec gDecls (gCall Q (n + 2)) (n + 2) capsI (stmtAt gMiniQueryPegInit 0) 0 [(c!"options", .val oo), (c!"p", .box h.next)] h1 =
      .ok (.norm, envR (layAt h.next 1 c) h.next oo, h5) := fun c => by
    have z1 : zeroOf gDecls 3 (.id c!"uint32") = .int 0 := rfl
    have z2 : zeroOf gDecls 3 (.arr (.id c!"rune")) = .nil := rfl
    simp [stmtAt, gMiniQueryPegInit, exec, varAll, declare, c2, c3, c4, c5, zero_token32, z1, z2, hh5, envR, layAt, alloc_next, hn1]
  have s1 : ∀ c, exec gDecls (gCall Q (n + 2)) (n + 2) capsI (stmtAt gMiniQueryPegInit 1) 0 (envR (layAt h.next 1 c) h.next oo) h5 =
      rangeLoop c!"" (rangeBody capsI c!"_" c!"option" (execs gDecls (gCall Q (n + 2)) (n + 2) capsI optLoop)) 0 (v :: vs) (envR (layAt h.next 1 c) h.next oo) h5 := fun c => by
    rw [opt_stmt]
    simp only [exec, ev, envR, lget]
    simp [one_ok, hview]
  have lp : ∀ c, _ := fun c => opt_loop (Q := Q) (n := n + 1) (y := layAt h.next 1 c) (b := h.next) (o := oo) (B := h.next) (F := n + 2) 0 (ko.mono fun x hx' _ => hx x hx') m0 (by omega) (by omega) (by omega)
    (by omega) ((hx a ha).trans hm) ht5
  have er : runBody gDecls (gCall Q (n + 2)) (n + 2) [c!"p", c!"options"] true (.cons (.id c!"error") .nil) gMiniQueryPegInit [] (.ptr a [] :: v :: vs) false h =
      finish (.cons (.id c!"error") .nil) (execs gDecls (gCall Q (n + 2)) (n + 2) capsI gMiniQueryPegInit 0 [(c!"options", .val oo), (c!"p", .box h.next)] h1) := by
    rw [runBody]
    show finish _ (execs _ _ _ capsI _ _ (bindParams capsI _ _ _ _ _ _).1 (bindParams capsI _ _ _ _ _ _).2) = _
    rw [eb]; rfl
  rw [e0, er, init_split]
  cases hs : optsPretty pr os with
  | none =>
    have lp := lp 0
    rw [hs] at lp
    simp only at lp ⊢
    rw [execs_cons _ _ _ _ (stmtAt gMiniQueryPegInit 0), s0 0, next_norm, execs_cons _ _ _ _ (stmtAt gMiniQueryPegInit 1), s1, lp]
    rfl
  | some pr' =>
    have lp0 := lp 0
    rw [hs] at lp0
    simp only at lp0 ⊢
    obtain ⟨h6, tk', e1, e2, e3, e4, e5, e6⟩ := lp0
    obtain ⟨c, hc⟩ : ∃ c, h6.next = h.next + 1 + c + 5 := ⟨h6.next - (h.next + 6), by omega⟩
    have en : envR (layAt h.next 1 c) h.next oo = envR (layAt h.next 1 0) h.next oo := rfl
    obtain ⟨h', l', k1, k2, k3, k4, k5, k6⟩ := init_rest (Q := Q) (n := n) (d := 1) (c := c) (o := oo) ha hc ((e6 _ (by omega) (by omega)).trans m0) e2 e3
      ((e6 _ (by omega) (by omega)).trans m1) ((e6 _ (by omega) (by omega)).trans m2) ((e6 _ (by omega) (by omega)).trans m3) ((e6 _ (by omega) (by omega)).trans m4)
    have hb := k2.below (layAt h.next 1 c).tree (by simp)
    refine ⟨h', layAt h.next 1 c, oo, tk', h.next + 1 + c + 6, ?_, k2, k3, k6, by rw [k4, e5, ho5], by simp only [layAt] at hb; omega, k5⟩
    rw [en] at k1
    simp only [execs_cons _ _ _ _ (stmtAt gMiniQueryPegInit 0), execs_cons _ _ _ _ (stmtAt gMiniQueryPegInit 1), s0 0, s1, e1, next_norm, k1, finish, coerce]

/-- Makes options: `Pretty(b)`, `Size(k)`, … -/
def goOpts (C : Val → List Val → Bool → Heap → Vals) : List Opt → Heap → Res (List Val × Heap)
  | [], h => .ok ([], h)
  | o :: os, h =>
    one (C (.fn o.name) [o.arg] false h) fun v h =>
      match goOpts C os h with
      | .ok (vs, h) => .ok (v :: vs, h)
      | .panic => .panic
      | .stuck => .stuck
      | .deep => .deep

theorem opts_made {a : Nat} : ∀ (os : List Opt) (h : Heap), a < h.next → ∃ vs h', goOpts (gCall Q (n + 1)) os h = .ok (vs, h') ∧ h.next ≤ h'.next ∧
    (∀ x < h.next, h'.mem x = h.mem x) ∧ OptsAt h' h'.next a os vs
  | [], h, _ => ⟨[], h, rfl, Nat.le_refl _, fun _ _ => rfl, rfl⟩
  | o :: os, h, ha => by
    obtain ⟨vs, h', e, hn, hx, k⟩ := opts_made os (h.alloc o.arg) (Nat.lt_succ_of_lt ha)
    have hn' : h.next + 1 ≤ h'.next := hn
    refine ⟨o.fn h.next :: vs, h', ?_, by omega, fun x hx' => ?_, h.next, vs, rfl, by omega, by omega, ?_, k⟩
    · rw [goOpts, opt_made, one_ok, e]
    · rw [hx x (Nat.lt_succ_of_lt hx'), alloc_mem_other _ _ (by omega)]
    · rw [hx h.next (Nat.lt_succ_self _), alloc_mem_same]

end Verif.Gen
