import Verif.Gen.ResetRun

/-! # Running `Init` -/

namespace Verif.Gen
open Verif

variable {Q : Char → Bool} {n : Nat} {h : Heap}

/-- Where `Init` puts its variables, when it starts with the free address `b`, its options take `d` addresses, and running them takes `c`. -/
def layAt (b d c : Nat) : Lay := ⟨b + d + 1, b + d + 2, b + d + 3, b + d + 4, b + d + c + 7⟩

theorem layAt_apart {b d c a : Nat} (ha : a < b) : Apart (layAt b d c) b a := by
  constructor <;> simp [layAt] <;> omega

/-- The statement at a place. -/
def stmtAt : Stmts → Nat → Stmt
  | .cons s _, 0 => s
  | .cons _ k, n + 1 => stmtAt k n
  | .nil, _ => .ret .nil

theorem init_split : gMiniQueryPegInit = .cons (stmtAt gMiniQueryPegInit 0) (.cons (stmtAt gMiniQueryPegInit 1) (.cons (stmtAt gMiniQueryPegInit 2)
    (.cons (stmtAt gMiniQueryPegInit 3) (.cons (stmtAt gMiniQueryPegInit 4) (.cons (stmtAt gMiniQueryPegInit 5) (.cons (stmtAt gMiniQueryPegInit 6)
    (.cons (stmtAt gMiniQueryPegInit 7) (.cons (stmtAt gMiniQueryPegInit 8) (.cons (stmtAt gMiniQueryPegInit 9) (.cons (stmtAt gMiniQueryPegInit 10)
    (.cons (stmtAt gMiniQueryPegInit 11) .nil))))))))))) := rfl

/-- The variables of `Init` that live in memory. -/
def capsI : List Str := capSs false gMiniQueryPegInit

theorem capsI_mem : c!"p" ∈ capsI ∧ c!"max" ∈ capsI ∧ c!"position" ∈ capsI ∧ c!"tokenIndex" ∈ capsI ∧ c!"buffer" ∈ capsI ∧ c!"tree" ∈ capsI ∧
    c!"options" ∉ capsI ∧ c!"_rules" ∉ capsI ∧ c!"add" ∉ capsI ∧ c!"matchDot" ∉ capsI ∧ c!"option" ∉ capsI ∧ c!"err" ∉ capsI := by decide

/-- One assignment. -/
theorem exec_set {P C F caps e x base l h v h1 l2 h2} (he : ev P C l false x h = .ok ([v], h1)) (ha : assign1 P C e v l h1 = .ok (l2, h2)) :
    exec P C F caps (.assign (.cons e .nil) (.cons x .nil)) base l h = .ok (.norm, l2, h2) := by
  simp [exec, evs, he, one_ok, many_ok, assignAll, ha]

set_option maxHeartbeats 1000000 in
/-- `Init` after the options have run. -/
theorem init_rest {b d c a tr q bf r p rs pr tk ts o} (ha : a < b) (hn : h.next = b + d + c + 5) (hp : h.mem b = .ptr a [])
    (hm : h.mem a = pegObj tr q bf r p rs pr tk) (ht : Toks h tk ts) (hmx : h.mem (b + d + 1) = tokObj 0 0 0) (hps : h.mem (b + d + 2) = .int 0)
    (hti : h.mem (b + d + 3) = .int 0) (hbf : h.mem (b + d + 4) = .nil) :
    ∃ h' l', execs gDecls (gCall Q (n + 2)) (n + 2) capsI
      (.cons (stmtAt gMiniQueryPegInit 2)
    (.cons (stmtAt gMiniQueryPegInit 3) (.cons (stmtAt gMiniQueryPegInit 4) (.cons (stmtAt gMiniQueryPegInit 5) (.cons (stmtAt gMiniQueryPegInit 6)
    (.cons (stmtAt gMiniQueryPegInit 7) (.cons (stmtAt gMiniQueryPegInit 8) (.cons (stmtAt gMiniQueryPegInit 9) (.cons (stmtAt gMiniQueryPegInit 10)
    (.cons (stmtAt gMiniQueryPegInit 11) .nil)))))))))) 0 (envR (layAt b d c) b o) h = .ok (.ret [.nil], l', h') ∧
      Rep (layAt b d c) b a { initSt with tree := ts } (mkBuf q) h' ∧
      h'.mem a = pegObj tr q (.sl (b + d + c + 6) 0 (mkBuf q).length) (rulesVal (layAt b d c) b o r) (parseFn (layAt b d c) b o r) (resetFn (layAt b d c) b o) pr tk ∧ h'.out = h.out ∧
      h'.mem (b + d + c + 6) = .arr ((mkBuf q).map fun x : Nat => .int x) ∧ Toks h' tk ts := by
  obtain ⟨c1, c2, c3, c4, c5, c6, d1, d2, d3, d4, d5, d6⟩ := capsI_mem
  have ap := layAt_apart (d := d) (c := c) ha
  have hl : ∀ (y : Lay), lget c!"p" (envR y b o) = some (.box b) := fun _ => rfl
  -- p.reset = …
  have s2 : exec gDecls (gCall Q (n + 2)) (n + 2) capsI (stmtAt gMiniQueryPegInit 2) 0 (envR (layAt b d c) b o) h =
      .ok (.norm, envR (layAt b d c) b o, h.put a (pegObj tr q bf r p (resetFn (layAt b d c) b o) pr tk)) := by
    have e := (assign_peg (P := gDecls) (C := gCall Q (n + 2)) (hl (layAt b d c)) hp hm).2.2.2.1 (resetFn (layAt b d c) b o)
    exact exec_set (e := .sel (.id c!"p") c!"reset") (by simp only [ev]; rfl) e
  generalize hh3 : h.put a (pegObj tr q bf r p (resetFn (layAt b d c) b o) pr tk) = h3 at s2
  have hn3 : h3.next = b + d + c + 5 := by rw [← hh3]; exact hn
  have hp3 : h3.mem b = .ptr a [] := by rw [← hh3, put_mem_other _ _ (by omega), hp]
  have hm3 : h3.mem a = pegObj tr q bf r p (resetFn (layAt b d c) b o) pr tk := by rw [← hh3, put_mem_same]
  have hx3 : ∀ x, x ≠ a → h3.mem x = h.mem x := fun x hx => by rw [← hh3, put_mem_other _ _ hx]
  have ho3 : h3.out = h.out := by rw [← hh3]; rfl
  -- p.reset()
  have hrun := resetFn_run (Q := Q) (n := n) (o := o) ap hp3 hm3 (by omega) (by omega)
  have hmem := resetHeap_mem (h := h3) (tr := tr) (q := q) (r := r) (p := p) (rs := resetFn (layAt b d c) b o) (pr := pr) (tk := tk) ap
    (by simp [layAt]; omega)
  generalize resetHeap (layAt b d c) a tr q r p (resetFn (layAt b d c) b o) pr tk h3 = h4 at hrun hmem
  simp only [hn3] at hmem
  obtain ⟨hn4, ho4, m1, m2, m3, m4, m5, m6, m7⟩ := hmem
  have hp4 : h4.mem b = .ptr a [] := by
    rw [m7 b (by omega) (by simp only [layAt]; omega) (by simp only [layAt]; omega) (by simp only [layAt]; omega) (by simp only [layAt]; omega) (by omega), hp3]
  have s3 : exec gDecls (gCall Q (n + 2)) (n + 2) capsI (stmtAt gMiniQueryPegInit 3) 0 (envR (layAt b d c) b o) h3 =
      .ok (.norm, envR (layAt b d c) b o, h4) := by
    grun [stmtAt, gMiniQueryPegInit, envR, hp3, sel_peg hm3, hrun]
  -- _rules := p.rules
  have s4 : exec gDecls (gCall Q (n + 2)) (n + 2) capsI (stmtAt gMiniQueryPegInit 4) 0 (envR (layAt b d c) b o) h4 =
      .ok (.norm, (c!"_rules", .val r) :: envR (layAt b d c) b o, h4) := by
    grun [stmtAt, gMiniQueryPegInit, envR, hp4, sel_peg m6, d2]
  have s5 : exec gDecls (gCall Q (n + 2)) (n + 2) capsI (stmtAt gMiniQueryPegInit 5) 0 ((c!"_rules", .val r) :: envR (layAt b d c) b o) h4 =
      .ok (.norm, envT (layAt b d c) b o r, h4.alloc (treeObj tk)) := by
    grun [stmtAt, gMiniQueryPegInit, envR, envT, layAt, hp4, sel_peg m6, c6, hn4]
  generalize hh5 : h4.alloc (treeObj tk) = h5 at s5
  have hn5 : h5.next = b + d + c + 8 := by rw [← hh5, alloc_next, hn4]
  have ho5 : h5.out = h4.out := by rw [← hh5]; rfl
  have ht5 : h5.mem (b + d + c + 7) = treeObj tk := by rw [← hh5, show b + d + c + 7 = h4.next by omega, alloc_mem_same]
  have hx5 : ∀ x, x ≠ b + d + c + 7 → h5.mem x = h4.mem x := fun x hx => by rw [← hh5, alloc_mem_other _ _ (by omega)]
  have hp5 : h5.mem b = .ptr a [] := by rw [hx5 _ (by omega), hp4]
  have hm5 : h5.mem a = _ := (hx5 a (by omega)).trans m6
  have hlT : lget c!"p" (envT (layAt b d c) b o r) = some (.box b) := rfl
  have s6 : exec gDecls (gCall Q (n + 2)) (n + 2) capsI (stmtAt gMiniQueryPegInit 6) 0 (envT (layAt b d c) b o r) h5 = _ :=
    exec_set (e := .sel (.id c!"p") c!"parse") (v := parseFn (layAt b d c) b o r) (by simp only [ev]; rfl)
      ((assign_peg (P := gDecls) (C := gCall Q (n + 2)) hlT hp5 hm5).2.2.1 (parseFn (layAt b d c) b o r))
  generalize hh6 : h5.put a (pegObj tr q (.sl (b + d + c + 5 + 1) 0 (mkBuf q).length) r (parseFn (layAt b d c) b o r) (resetFn (layAt b d c) b o) pr tk) = h6 at s6
  have hp6 : h6.mem b = .ptr a [] := by rw [← hh6, put_mem_other _ _ (by omega), hp5]
  have hm6 : h6.mem a = pegObj tr q (.sl (b + d + c + 5 + 1) 0 (mkBuf q).length) r (parseFn (layAt b d c) b o r) (resetFn (layAt b d c) b o) pr tk := by rw [← hh6, put_mem_same]
  have s7 : exec gDecls (gCall Q (n + 2)) (n + 2) capsI (stmtAt gMiniQueryPegInit 7) 0 (envT (layAt b d c) b o r) h6 =
      .ok (.norm, (c!"add", .val (addFn (layAt b d c) b o r)) :: envT (layAt b d c) b o r, h6) := by
    have e : ∀ l, defineAll capsI 0 [c!"add"] [addFn (layAt b d c) b o r] (envT (layAt b d c) b o r) l = .ok (.norm, (c!"add", .val (addFn (layAt b d c) b o r)) :: envT (layAt b d c) b o r, l) := by
      intro l; simp [defineAll, envT, envR, lget, declare, d3]
    rw [← e]; simp only [stmtAt, gMiniQueryPegInit, exec, evs, ev, one_ok, many_ok]; rfl
  have s8 : exec gDecls (gCall Q (n + 2)) (n + 2) capsI (stmtAt gMiniQueryPegInit 8) 0 ((c!"add", .val (addFn (layAt b d c) b o r)) :: envT (layAt b d c) b o r) h6 =
      .ok (.norm, (c!"matchDot", .val (dotFn (layAt b d c) b o r)) :: (c!"add", .val (addFn (layAt b d c) b o r)) :: envT (layAt b d c) b o r, h6) := by
    have e : ∀ l, defineAll capsI 0 [c!"matchDot"] [dotFn (layAt b d c) b o r] ((c!"add", .val (addFn (layAt b d c) b o r)) :: envT (layAt b d c) b o r) l =
        .ok (.norm, (c!"matchDot", .val (dotFn (layAt b d c) b o r)) :: (c!"add", .val (addFn (layAt b d c) b o r)) :: envT (layAt b d c) b o r, l) := by
      intro l; simp [defineAll, envT, envR, lget, declare, d4]
    rw [← e]; simp only [stmtAt, gMiniQueryPegInit, exec, evs, ev, one_ok, many_ok]; rfl
  have s9 : exec gDecls (gCall Q (n + 2)) (n + 2) capsI (stmtAt gMiniQueryPegInit 9) 0
      ((c!"matchDot", .val (dotFn (layAt b d c) b o r)) :: (c!"add", .val (addFn (layAt b d c) b o r)) :: envT (layAt b d c) b o r) h6 =
      .ok (.norm, (c!"matchDot", .val (dotFn (layAt b d c) b o r)) :: (c!"add", .val (addFn (layAt b d c) b o r)) :: envT (layAt b d c) b o (rulesVal (layAt b d c) b o r), h6) :=
    exec_set (e := .id c!"_rules") (v := rulesVal (layAt b d c) b o r) (by simp only [ev]; rfl) rfl
  have s10 : exec gDecls (gCall Q (n + 2)) (n + 2) capsI (stmtAt gMiniQueryPegInit 10) 0
      ((c!"matchDot", .val (dotFn (layAt b d c) b o r)) :: (c!"add", .val (addFn (layAt b d c) b o r)) :: envT (layAt b d c) b o (rulesVal (layAt b d c) b o r)) h6 = _ :=
    exec_set (e := .sel (.id c!"p") c!"rules") (v := rulesVal (layAt b d c) b o r) (by simp only [ev]; rfl)
      ((assign_peg (P := gDecls) (C := gCall Q (n + 2)) (l := ((c!"matchDot", .val (dotFn (layAt b d c) b o r)) :: (c!"add", .val (addFn (layAt b d c) b o r)) :: envT (layAt b d c) b o (rulesVal (layAt b d c) b o r))) rfl hp6 hm6).2.1 (rulesVal (layAt b d c) b o r))
  generalize hh7 : h6.put a (pegObj tr q (.sl (b + d + c + 5 + 1) 0 (mkBuf q).length) (rulesVal (layAt b d c) b o r) (parseFn (layAt b d c) b o r) (resetFn (layAt b d c) b o) pr tk) = h7 at s10
  have s11 : ∀ l, lget c!"nil" l = none → exec gDecls (gCall Q (n + 2)) (n + 2) capsI (stmtAt gMiniQueryPegInit 11) 0 l h7 = .ok (.ret [.nil], l, h7) := by
    intro l hl
    simp [stmtAt, gMiniQueryPegInit, exec, evs, ev, hl, one_ok, many_ok]
  have hmem7 : ∀ x, x ≠ a → h7.mem x = h5.mem x := fun x hx => by rw [← hh7, put_mem_other _ _ hx, ← hh6, put_mem_other _ _ hx]
  have hma : h7.mem a = pegObj tr q (.sl (b + d + c + 5 + 1) 0 (mkBuf q).length) (rulesVal (layAt b d c) b o r) (parseFn (layAt b d c) b o r) (resetFn (layAt b d c) b o) pr tk := by rw [← hh7, put_mem_same]
  have hn7 : h7.next = b + d + c + 8 := by rw [← hh7, ← hh6]; exact hn5
  have hm57 : ∀ x, x ≠ a → x ≠ b + d + c + 7 → h7.mem x = h4.mem x := fun x h1 h2 => (hmem7 x h1).trans (hx5 x h2)
  have ht7 : Toks h7 tk ts := by
    refine ht.mono (by omega) fun c hc l e => ?_
    have ne : ∀ x, (∀ l, h.mem x ≠ .arr l) → c ≠ x := fun x hx => Ne.symm (ne_of_mem e hx)
    have n0 := ne a (by simp [hm, pegObj])
    have n1 := ne (b + d + 1) (by simp [hmx, tokObj])
    have n2 := ne (b + d + 2) (by simp [hps])
    have n3 := ne (b + d + 3) (by simp [hti])
    have n4 := ne (b + d + 4) (by simp [hbf])
    rw [hm57 c n0 (by omega), m7 c (by omega) n1 n2 n3 n4 n0, hx3 c n0, e]
  refine ⟨h7, (c!"matchDot", .val (dotFn (layAt b d c) b o r)) :: (c!"add", .val (addFn (layAt b d c) b o r)) :: envT (layAt b d c) b o (rulesVal (layAt b d c) b o r), ?_, ?_, hma, by rw [← hh7, ← hh6]; exact ho5.trans (ho4.trans ho3),
    ((hmem7 _ (by omega)).trans (hx5 _ (by omega))).trans m5, ht7⟩
  · simp only [execs_cons, s2, s3, s4, s5, s6, s7, s8, s9, s10, next_norm]
    rw [s11 _ rfl]; rfl
  · refine ⟨ap, by simp [layAt]; omega, ?_, ?_, ?_, .inl rfl, ⟨tk, ?_, ?_⟩, ⟨b + d + c + 6, by omega, ?_, ?_⟩, ?_, ?_⟩
    · exact (hm57 _ (by simp [layAt]; omega) (by simp only [layAt]; omega)).trans m2
    · exact (hm57 _ (by simp [layAt]; omega) (by simp only [layAt]; omega)).trans m3
    · exact (hm57 _ (by simp [layAt]; omega) (by simp only [layAt]; omega)).trans m1
    · exact (hmem7 _ (by simp [layAt]; omega)).trans ht5
    · exact ht7
    · exact (hm57 _ (by simp [layAt]; omega) (by simp only [layAt]; omega)).trans m4
    · exact (hm57 _ (by omega) (by omega)).trans m5
    · exact (hm57 _ (by omega) (by omega)).trans hp4
    · rw [hma]; rfl

/-- `Init` without options. -/
theorem init_run {a tr q bf r p rs pr tk ts} (ha : a < h.next) (hm : h.mem a = pegObj tr q bf r p rs pr tk) (ht : Toks h tk ts) :
    ∃ h', gCall Q (n + 3) (.meth (.ptr a []) c!"Init") [] false h = .ok ([.nil], h') ∧
      Rep (layAt h.next 0 0) h.next a { initSt with tree := ts } (mkBuf q) h' ∧
      h'.mem a = pegObj tr q (.sl (h.next + 6) 0 (mkBuf q).length) (rulesVal (layAt h.next 0 0) h.next .nil r) (parseFn (layAt h.next 0 0) h.next .nil r)
        (resetFn (layAt h.next 0 0) h.next .nil) pr tk ∧ h'.out = h.out ∧ h'.mem (h.next + 6) = .arr ((mkBuf q).map fun x : Nat => .int x) := by
  have e0 : gCall Q (n + 3) (.meth (.ptr a []) c!"Init") [] false h =
      runBody gDecls (gCall Q (n + 2)) (n + 2) [c!"p", c!"options"] true (.cons (.id c!"error") .nil) gMiniQueryPegInit [] [.ptr a []] false h := by
    show runMeth _ _ _ _ _ _ _ _ _ = _
    simp only [runMeth, recvType, getPath, hm, pegObj]
    rfl
  obtain ⟨c1, c2, c3, c4, c5, c6, d1, d2, d3, d4, d5, d6⟩ := capsI_mem
  generalize hh5 : ((((h.alloc (.ptr a [])).alloc (tokObj 0 0 0)).alloc (.int 0)).alloc (.int 0)).alloc .nil = h5
  have hn5 : h5.next = h.next + 5 := by rw [← hh5]; rfl
  have hx5 : ∀ x < h.next, h5.mem x = h.mem x := by
    intro x hx
    rw [← hh5]; simp only [Heap.alloc]
    simp [show x ≠ h.next + 1 + 1 + 1 + 1 by omega, show x ≠ h.next + 1 + 1 + 1 by omega, show x ≠ h.next + 1 + 1 by omega, show x ≠ h.next + 1 by omega, show x ≠ h.next by omega]
  have m0 : h5.mem h.next = .ptr a [] := by
    rw [← hh5]; simp [Heap.alloc, show h.next ≠ h.next + 1 + 1 by omega, show h.next ≠ h.next + 1 + 1 + 1 by omega, show h.next ≠ h.next + 1 + 1 + 1 + 1 by omega]
  have m1 : h5.mem (h.next + 1) = tokObj 0 0 0 := by rw [← hh5]; simp [Heap.alloc]
  have m2 : h5.mem (h.next + 2) = .int 0 := by rw [← hh5]; simp [Heap.alloc]
  have m3 : h5.mem (h.next + 3) = .int 0 := by rw [← hh5]; simp [Heap.alloc]
  have m4 : h5.mem (h.next + 4) = .nil := by rw [← hh5]; simp [Heap.alloc]
  have ht5 : Toks h5 tk ts := ht.mono (by omega) fun c hc l e => by rw [hx5 c hc, e]
  obtain ⟨h', l', k1, k2, k3, k4, k5, -⟩ := init_rest (Q := Q) (n := n) (d := 0) (c := 0) (o := .nil) ha hn5 m0 ((hx5 a ha).trans hm) ht5 m1 m2 m3 m4
  refine ⟨h', ?_, k2, k3, by rw [k4, ← hh5]; rfl, k5⟩
  rw [e0, runBody]
  show finish _ (execs _ _ _ capsI _ _ (bindParams capsI _ _ _ _ _ _).1 (bindParams capsI _ _ _ _ _ _).2) = _
  have eb : bindParams capsI true false [c!"p", c!"options"] [.ptr a []] [] h =
      ([(c!"options", .val .nil), (c!"p", .box h.next)], h.alloc (.ptr a [])) := by
    simp [bindParams, declare, c1, d1]
  have s0 : exec gDecls (gCall Q (n + 2)) (n + 2) capsI (stmtAt gMiniQueryPegInit 0) 0 [(c!"options", .val .nil), (c!"p", .box h.next)] (h.alloc (.ptr a [])) =
      .ok (.norm, envR (layAt h.next 0 0) h.next .nil, h5) := by
    have z1 : zeroOf gDecls 3 (.id c!"uint32") = .int 0 := rfl
    have z2 : zeroOf gDecls 3 (.arr (.id c!"rune")) = .nil := rfl
    simp [stmtAt, gMiniQueryPegInit, exec, varAll, declare, c2, c3, c4, c5, zero_token32, z1, z2, hh5, envR, layAt]
  have s1 : exec gDecls (gCall Q (n + 2)) (n + 2) capsI (stmtAt gMiniQueryPegInit 1) 0 (envR (layAt h.next 0 0) h.next .nil) h5 =
      .ok (.norm, envR (layAt h.next 0 0) h.next .nil, h5) := by
    simp [stmtAt, gMiniQueryPegInit, exec, ev, envR, lget, one_ok, view, rangeLoop]
  rw [eb, init_split]
  simp only [execs_cons _ _ _ _ (stmtAt gMiniQueryPegInit 0), execs_cons _ _ _ _ (stmtAt gMiniQueryPegInit 1), List.length_nil, s0, s1, next_norm, k1, finish, coerce]

/-- Values that no later call changes where they are: arrays and syntax errors. -/
def Stable (v : Val) : Prop := (∃ l, v = .arr l) ∨ ∃ fs, v = .obj c!"parseError" fs

theorem not_stable_peg {tr q bf r p rs pr tk} : ¬ Stable (pegObj tr q bf r p rs pr tk) := by
  rintro (⟨_, e⟩ | ⟨_, e⟩)
  · cases e
  · simp [pegObj] at e
theorem not_stable_tok {m} : ¬ Stable (maxVal m) := by
  rintro (⟨_, e⟩ | ⟨_, e⟩)
  · cases e
  · simp [maxVal, tokObj] at e
theorem not_stable_tree {v} : ¬ Stable (treeObj v) := by
  rintro (⟨_, e⟩ | ⟨_, e⟩)
  · cases e
  · simp [treeObj] at e
theorem not_stable_int {i} : ¬ Stable (.int i) := by
  rintro (⟨_, e⟩ | ⟨_, e⟩) <;> cases e
theorem not_stable_sl {a b c} : ¬ Stable (.sl a b c) := by
  rintro (⟨_, e⟩ | ⟨_, e⟩) <;> cases e

/-- Such values stay as they are. -/
structure Keep (h0 h : Heap) : Prop where
  next : h0.next ≤ h.next
  mem : ∀ x, x < h0.next → Stable (h0.mem x) → h.mem x = h0.mem x

theorem Keep.arr {h0 : Heap} (k : Keep h0 h) : ∀ x, x < h0.next → ∀ l, h0.mem x = .arr l → h.mem x = .arr l :=
  fun x hx l e => (k.mem x hx (.inl ⟨l, e⟩)).trans e

theorem Keep.refl (h : Heap) : Keep h h := ⟨Nat.le_refl _, fun _ _ _ => rfl⟩

theorem Keep.trans {h0 h1 : Heap} (k : Keep h0 h1) (k' : Keep h1 h) : Keep h0 h :=
  ⟨Nat.le_trans k.next k'.next, fun x hx s => (k'.mem x (Nat.lt_of_lt_of_le hx k.next) (by rw [k.mem x hx s]; exact s)).trans (k.mem x hx s)⟩

theorem Keep.alloc {h0 : Heap} (k : Keep h0 h) (v : Val) : Keep h0 (h.alloc v) :=
  ⟨Nat.le_succ_of_le k.1, fun x hx s => by rw [alloc_mem_other _ _ (by have := k.1; omega)]; exact k.2 x hx s⟩

theorem Keep.put {h0 : Heap} {a : Nat} (k : Keep h0 h) (v : Val) (hn : ¬ Stable (h.mem a)) : Keep h0 (h.put a v) :=
  ⟨k.1, fun x hx s => by
    have := k.2 x hx s
    rw [put_mem_other _ _ (fun (e : x = a) => hn (by rw [← e, this]; exact s))]; exact this⟩

/-- `Reset`: the parser is at the start of the query in `Buffer`. -/
theorem reset_rep {y pc a o tr q bf r p pr tk st buf} (k : Rep y pc a st buf h) (hm : h.mem a = pegObj tr q bf r p (resetFn y pc o) pr tk) :
    ∃ h', gCall Q (n + 3) (.meth (.ptr a []) c!"Reset") [] false h = .ok ([], h') ∧
      Rep y pc a { initSt with tree := st.tree } (mkBuf q) h' ∧
      (∃ bb, bb < h'.next ∧ h'.mem a = pegObj tr q (.sl bb 0 (mkBuf q).length) r p (resetFn y pc o) pr tk ∧ h'.mem bb = .arr ((mkBuf q).map fun x : Nat => .int x)) ∧ h'.out = h.out ∧
      Keep h h' := by
  have e0 : gCall Q (n + 3) (.meth (.ptr a []) c!"Reset") [] false h =
      runBody gDecls (gCall Q (n + 2)) (n + 2) [c!"p"] false .nil gMiniQueryPegReset [] [.ptr a []] false h := by
    show runMeth _ _ _ _ _ _ _ _ _ = _
    simp only [runMeth, recvType, getPath, hm, pegObj]
    rfl
  have hc : capSs false gMiniQueryPegReset = [c!"p"] := rfl
  have lp := k.below pc (by simp)
  have la := k.below a (by simp)
  generalize hh1 : h.alloc (.ptr a []) = h1
  have hx1 : ∀ x < h.next, h1.mem x = h.mem x := fun x hx => by rw [← hh1, alloc_mem_other _ _ (by omega)]
  have hn1 : h1.next = h.next + 1 := by rw [← hh1]; rfl
  have hm1 := (hx1 a la).trans hm
  have hp1 := (hx1 pc lp).trans k.p
  have hrun := resetFn_run (Q := Q) (n := n) (o := o) k.apart hp1 hm1 (by omega) (by omega)
  have hmem := resetHeap_mem (h := h1) (tr := tr) (q := q) (r := r) (p := p) (rs := resetFn y pc o) (pr := pr) (tk := tk) k.apart
    (fun x hx => by have := k.below x (by simp at hx ⊢; omega); omega)
  generalize resetHeap y a tr q r p (resetFn y pc o) pr tk h1 = h4 at hrun hmem
  obtain ⟨hn4, ho4, m1, m2, m3, m4, m5, m6, m7⟩ := hmem
  have hkp : Keep h h4 := ⟨by omega, fun c hc hs => by
    obtain ⟨v, hv, _⟩ := k.tree
    have n0 : c ≠ a := fun r => by rw [r, hm] at hs; exact not_stable_peg hs
    have n1 : c ≠ y.max := fun r => by rw [r, k.max] at hs; exact not_stable_tok hs
    have n2 : c ≠ y.pos := fun r => by rw [r, k.pos] at hs; exact not_stable_int hs
    have n3 : c ≠ y.ti := fun r => by rw [r, k.ti] at hs; exact not_stable_int hs
    have n4 : c ≠ y.buf := fun r => by obtain ⟨_, _, e, _⟩ := k.buf; rw [r, e] at hs; exact not_stable_sl hs
    rw [m7 c (by omega) n1 n2 n3 n4 n0, hx1 c hc]⟩
  have htk : ∀ v ts, Toks h v ts → Toks h4 v ts := fun v ts ht => ht.mono (by omega) hkp.arr
  refine ⟨h4, ?_, ?_, ⟨_, by omega, m6, m5⟩, by rw [ho4, ← hh1]; rfl, hkp⟩
  · rw [e0]
    simp only [runBody, hc]
    have hsel := (sel_peg hm1).2.2.2.2.1
    grun [gMiniQueryPegReset, hh1, ← hn1]
    have hl1 : h1.mem h.next = .ptr a [] := by rw [← hh1, alloc_mem_same]
    grun [hl1, hsel, hrun]
  · obtain ⟨v, hv, ht⟩ := k.tree
    refine ⟨k.apart, fun x hx => by have := k.below x hx; omega, m2, m3, m1, .inl rfl, ⟨v, ?_, htk v _ ht⟩, ⟨_, by omega, m4, m5⟩, ?_, by rw [m6]; rfl⟩
    · have := k.below y.tree (by simp)
      rw [m7 _ (by omega) (apart k) (apart k) (apart k) (apart k) (apart k), hx1 _ this, hv]
    · rw [m7 _ (by omega) (apart k) (apart k) (apart k) (apart k) (apart k), hp1]

end Verif.Gen
