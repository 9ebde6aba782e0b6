import Verif.Gen.NameRun

/-! # Running `translatePositions` -/

namespace Verif.Gen
open Verif

variable {Q : Char → Bool} {n : Nat} {h : Heap}

/-- The first branch of an `if`. -/
def thenOf : Stmt → Stmts
  | .ite _ t _ => t
  | _ => .nil

/-- The body of the loop of `translatePositions`. -/
def trBody : Stmts := loopOf (nth gtranslatePositions 2)

/-- The first branch of its last statement. -/
def trThen : Stmts := thenOf (stmtAt trBody 1)

theorem trThen_split : trThen = .cons (stmtAt trThen 0) (.cons (stmtAt trThen 1) (.cons (.brk c!"search") .nil)) := rfl

/-- A loop. -/
def loopRun (P : Prog) (C : Val → List Val → Bool → Heap → Vals) (F : Nat) (caps : List Str) (lab : Str) (c : Expr) (post body : Stmts) (l : Locals) (h : Heap) : Done :=
  whileLoop lab (fun l h => ev P C l false c h) (fun l h => execs P C F caps post l.length l h) (fun l h => leave l.length (execs P C F caps body l.length l h)) F l h

theorem exec_loop {P C F caps lab i c p b base l h} : exec P C F caps (.loop lab i c p b) base l h =
    leave l.length (next (execs P C F caps i l.length l h) fun l h => loopRun P C F caps lab c p b l h) := by
  simp only [exec, loopRun]

/-- A text position. -/
def posObj (l s : Nat) : Val := .obj c!"textPosition" [(c!"line", .int l), (c!"symbol", .int s)]

/-- A map of positions. -/
def mapVals (m : PosMap) : List (Int × Val) := m.map fun x => ((x.1 : Int), posObj x.2.1 x.2.2)

theorem mget_mapVals (m : PosMap) (p : Nat) : (mget p (mapVals m)).getD (posObj 0 0) = posObj (m.get p).1 (m.get p).2 := by
  induction m with
  | nil => rfl
  | cons x m ih =>
    obtain ⟨q, l, s⟩ := x
    by_cases hq : p = q
    · subst hq; simp [mget, mapVals, PosMap.get, List.lookup]
    · have h1 : ¬ ((p : Int) = q) := by omega
      have h2 : (p == q) = false := by simp [hq]
      simp only [PosMap.get, List.lookup, h2] at ih ⊢
      simp only [mapVals, List.map_cons, mget, if_neg h1] at ih ⊢
      exact ih

/-- The variables of `translatePositions`. -/
def trLoc (len : Nat) (m : PosMap) (j line sym : Nat) (pv bv : Val) : Locals :=
  [(c!"symbol", .val (.int sym)), (c!"line", .val (.int line)), (c!"j", .val (.int j)), (c!"translations", .val (.map (posObj 0 0) (mapVals m))),
    (c!"length", .val (.int len)), (c!"positions", .val pv), (c!"buffer", .val bv)]

/-- The variables in its loop. -/
def trIn (i c : Nat) (l : Locals) : Locals := (c!"c", .val (.int c)) :: (c!"i", .val (.int i)) :: l

/-- The condition, the step and the body of the inner loop. -/
def inC : Expr := match stmtAt trThen 1 with | .loop _ _ c _ _ => c | _ => .no
def inP : Stmts := match stmtAt trThen 1 with | .loop _ _ _ p _ => p | _ => .nil
def inB : Stmts := match stmtAt trThen 1 with | .loop _ _ _ _ b => b | _ => .nil

theorem drop_cons_of_lt {α : Type} {l : List α} {j : Nat} (hj : j < l.length) : ∃ x, l[j]? = some x ∧ l.drop j = x :: l.drop (j + 1) :=
  ⟨l[j], List.getElem?_eq_getElem hj, (List.drop_eq_getElem_cons hj)⟩

/-- The inner loop skips equal positions. -/
theorem inner_loop {C F} {P : List Nat} {pa : Nat} {bv : Val} (hv : view h (.sl pa 0 P.length) = some (P.map fun x : Nat => .int x)) (i c line sym : Nat) (m : PosMap) :
    ∀ (k j f : Nat), j + k = P.length → k < f →
    ∃ j', j ≤ j' ∧ j' ≤ P.length ∧ P.drop j' = (P.drop j).dropWhile (· == i) ∧
      whileLoop [] (fun l h => ev gDecls C l false inC h) (fun l h => execs gDecls C F [c!"sort"] inP l.length l h)
        (fun l h => leave l.length (execs gDecls C F [c!"sort"] inB l.length l h)) f (trIn i c (trLoc P.length m j line sym (.sl pa 0 P.length) bv)) h =
      .ok (if j' = P.length then .norm else .cont c!"search", trIn i c (trLoc P.length m j' line sym (.sl pa 0 P.length) bv), h) := by
  intro k
  induction k with
  | zero =>
    intro j f hj hf
    obtain ⟨f, rfl⟩ : ∃ g, f = g + 1 := ⟨f - 1, by omega⟩
    have hj' : j = P.length := by omega
    refine ⟨j, Nat.le_refl _, by omega, by rw [hj']; simp, ?_⟩
    have hnl : ¬ j < P.length := by omega
    have hcnd : ev gDecls C (trIn i c (trLoc P.length m j line sym (.sl pa 0 P.length) bv)) false inC h = .ok ([.bool false], h) := by
      grun [inC, stmtAt, trThen, thenOf, trBody, loopOf, nth, gtranslatePositions, trIn, trLoc, hnl]
    simp only [whileLoop, hcnd, one_ok, if_pos hj']
  | succ k ih =>
    intro j f hj hf
    obtain ⟨f, rfl⟩ : ∃ g, f = g + 1 := ⟨f - 1, by omega⟩
    have hlt : j < P.length := by omega
    obtain ⟨p, hp, hd⟩ := drop_cons_of_lt hlt
    have hcnd : ev gDecls C (trIn i c (trLoc P.length m j line sym (.sl pa 0 P.length) bv)) false inC h = .ok ([.bool true], h) := by
      grun [inC, stmtAt, trThen, thenOf, trBody, loopOf, nth, gtranslatePositions, trIn, trLoc, hlt]
    have hnn : ¬ ((j : Int) < 0) := by omega
    have hpost : execs gDecls C F [c!"sort"] inP (trIn i c (trLoc P.length m j line sym (.sl pa 0 P.length) bv)).length (trIn i c (trLoc P.length m j line sym (.sl pa 0 P.length) bv)) h =
        .ok (.norm, trIn i c (trLoc P.length m (j + 1) line sym (.sl pa 0 P.length) bv), h) := by
      grun [inP, stmtAt, trThen, thenOf, trBody, loopOf, nth, gtranslatePositions, trIn, trLoc]
    by_cases hpi : p = i
    · have hbody : leave (trIn i c (trLoc P.length m j line sym (.sl pa 0 P.length) bv)).length (execs gDecls C F [c!"sort"] inB (trIn i c (trLoc P.length m j line sym (.sl pa 0 P.length) bv)).length
          (trIn i c (trLoc P.length m j line sym (.sl pa 0 P.length) bv)) h) = .ok (.norm, trIn i c (trLoc P.length m j line sym (.sl pa 0 P.length) bv), h) := by
        grun [inB, stmtAt, trThen, thenOf, trBody, loopOf, nth, gtranslatePositions, trIn, trLoc, hv, nthVal, hnn, hp, hpi]
      obtain ⟨j', h1, h2, h3, h4⟩ := ih (j + 1) f (by omega) (by omega)
      refine ⟨j', by omega, h2, by rw [h3, hd, hpi]; simp, ?_⟩
      rw [whileLoop]
      simp only [hcnd, one_ok, hbody, hpost, next_norm, h4]
    · have hbody : leave (trIn i c (trLoc P.length m j line sym (.sl pa 0 P.length) bv)).length (execs gDecls C F [c!"sort"] inB (trIn i c (trLoc P.length m j line sym (.sl pa 0 P.length) bv)).length
          (trIn i c (trLoc P.length m j line sym (.sl pa 0 P.length) bv)) h) = .ok (.cont c!"search", trIn i c (trLoc P.length m j line sym (.sl pa 0 P.length) bv), h) := by
        have hpi' : ¬ ((i : Int) = p) := by omega
        grun [inB, stmtAt, trThen, thenOf, trBody, loopOf, nth, gtranslatePositions, trIn, trLoc, hv, nthVal, hnn, hp, hpi']
      refine ⟨j, Nat.le_refl _, by omega, by rw [hd]; simp [hpi], ?_⟩
      rw [whileLoop]
      simp only [hcnd, one_ok, hbody, if_neg (Nat.ne_of_lt hlt)]
      simp

/-- The line and the symbol after a character. -/
def lineAfter (c line : Nat) : Nat := if c = 10 then line + 1 else line
def symAfter (c sym : Nat) : Nat := if c = 10 then 0 else sym + 1

/-- One round of the outer loop. -/
theorem tr_round {C F} {P : List Nat} {pa : Nat} {bv : Val} (hv : view h (.sl pa 0 P.length) = some (P.map fun x : Nat => .int x)) (hF : P.length < F)
    (i c line sym j : Nat) (m : PosMap) (hj : j < P.length) (p : Nat) (hp : P[j]? = some p) :
    ∃ f j', rangeBody [c!"sort"] c!"i" c!"c" (execs gDecls C F [c!"sort"] trBody) i (.int c) (trLoc P.length m j line sym (.sl pa 0 P.length) bv) h =
      .ok (f, trLoc P.length (if i = p then (p, (lineAfter c line, symAfter c sym)) :: m else m) j' (lineAfter c line) (symAfter c sym) (.sl pa 0 P.length) bv, h) ∧
      (i ≠ p → f = .norm ∧ j' = j) ∧
      (i = p → (P.drop (j + 1)).dropWhile (· == i) = P.drop j' ∧ ((j' = P.length ∧ f = .brk c!"search") ∨ (j' < P.length ∧ f = .cont c!"search"))) := by
  have hnn : ¬ ((j : Int) < 0) := by omega
  have e0 : rangeBody [c!"sort"] c!"i" c!"c" (execs gDecls C F [c!"sort"] trBody) i (.int c) (trLoc P.length m j line sym (.sl pa 0 P.length) bv) h =
      leave 7 (execs gDecls C F [c!"sort"] trBody 7 (trIn i c (trLoc P.length m j line sym (.sl pa 0 P.length) bv)) h) := rfl
  have es : trBody = .cons (stmtAt trBody 0) (.cons (stmtAt trBody 1) .nil) := rfl
  have s0 : exec gDecls C F [c!"sort"] (stmtAt trBody 0) 7 (trIn i c (trLoc P.length m j line sym (.sl pa 0 P.length) bv)) h =
      .ok (.norm, trIn i c (trLoc P.length m j (lineAfter c line) (symAfter c sym) (.sl pa 0 P.length) bv), h) := by
    by_cases hc : c = 10
    · subst hc
      grun [stmtAt, trBody, loopOf, nth, gtranslatePositions, trIn, trLoc, lineAfter, symAfter]
    · have hc' : ¬ ((c : Int) = 10) := by omega
      grun [stmtAt, trBody, loopOf, nth, gtranslatePositions, trIn, trLoc, lineAfter, symAfter, hc, hc']
  generalize lineAfter c line = line' at *
  generalize symAfter c sym = sym' at *
  have e1 : stmtAt trBody 1 = .ite (.bin c!"==" (.id c!"i") (.idx (.id c!"positions") (.id c!"j"))) trThen .nil := rfl
  have hcnd : ev gDecls C (trIn i c (trLoc P.length m j line' sym' (.sl pa 0 P.length) bv)) false (.bin c!"==" (.id c!"i") (.idx (.id c!"positions") (.id c!"j"))) h =
      .ok ([.bool (decide (i = p))], h) := by
    grun [trIn, trLoc, hv, nthVal, hnn, hp]
    omega
  rw [e0, es]
  simp only [execs_cons, s0, next_norm, execs_nil]
  by_cases hi : i = p
  · subst hi
    rw [decide_eq_true rfl] at hcnd
    have a0 : exec gDecls C F [c!"sort"] (stmtAt trThen 0) 9 (trIn i c (trLoc P.length m j line' sym' (.sl pa 0 P.length) bv)) h =
        .ok (.norm, trIn i c (trLoc P.length ((i, (line', sym')) :: m) j line' sym' (.sl pa 0 P.length) bv), h) := by
      have z : zeroOf gDecls 3 (.id c!"textPosition") = posObj 0 0 := rfl
      grun [stmtAt, trThen, thenOf, trBody, loopOf, nth, gtranslatePositions, trIn, trLoc, hv, nthVal, hnn, hp, z, posObj, setFields, litFields, mapVals]
    obtain ⟨j', h1, h2, h3, h4⟩ := inner_loop (C := C) (F := F) (bv := bv) hv i c line' sym' ((i, (line', sym')) :: m) (P.length - (j + 1)) (j + 1) F (by omega) (by omega)
    have e2 : stmtAt trThen 1 = .loop [] inP inC inP inB := rfl
    have a1 : exec gDecls C F [c!"sort"] (stmtAt trThen 1) 9 (trIn i c (trLoc P.length ((i, (line', sym')) :: m) j line' sym' (.sl pa 0 P.length) bv)) h =
        .ok (if j' = P.length then .norm else .cont c!"search", trIn i c (trLoc P.length ((i, (line', sym')) :: m) j' line' sym' (.sl pa 0 P.length) bv), h) := by
      have hpost : ∀ l, l = trIn i c (trLoc P.length ((i, (line', sym')) :: m) j line' sym' (.sl pa 0 P.length) bv) → execs gDecls C F [c!"sort"] inP l.length l h =
          .ok (.norm, trIn i c (trLoc P.length ((i, (line', sym')) :: m) (j + 1) line' sym' (.sl pa 0 P.length) bv), h) := by
        rintro l rfl
        grun [inP, stmtAt, trThen, thenOf, trBody, loopOf, nth, gtranslatePositions, trIn, trLoc]
      rw [e2, exec_loop, hpost _ rfl, next_norm, loopRun, h4, leave_ok]
      rfl
    refine ⟨if j' = P.length then .brk c!"search" else .cont c!"search", j', ?_, fun hc => absurd rfl hc, fun _ => ⟨h3.symm, ?_⟩⟩
    · rw [e1]
      have e3 : exec gDecls C F [c!"sort"] (.ite (.bin c!"==" (.id c!"i") (.idx (.id c!"positions") (.id c!"j"))) trThen .nil) 7
          (trIn i c (trLoc P.length m j line' sym' (.sl pa 0 P.length) bv)) h = leave 9 (execs gDecls C F [c!"sort"] trThen 9 (trIn i c (trLoc P.length m j line' sym' (.sl pa 0 P.length) bv)) h) := by
        simp only [exec, hcnd, one_ok]; rfl
      rw [e3, trThen_split]
      by_cases hj' : j' = P.length
      · simp only [execs_cons, a0, next_norm, a1, if_pos hj', exec, next_brk, leave_ok]
        rfl
      · simp only [execs_cons, a0, next_norm, a1, if_neg hj', next_cont, leave_ok]
        rfl
    · by_cases hj' : j' = P.length
      · exact .inl ⟨hj', if_pos hj'⟩
      · exact .inr ⟨by omega, if_neg hj'⟩
  · rw [decide_eq_false hi] at hcnd
    refine ⟨.norm, j, ?_, fun _ => ⟨rfl, rfl⟩, fun hc => absurd hc hi⟩
    rw [e1]
    simp only [exec, hcnd, one_ok, execs_nil, leave_ok, next_norm, if_neg hi]
    rfl

/-- The outer loop. -/
theorem tr_loop {C F} {P : List Nat} {pa : Nat} {bv : Val} (hv : view h (.sl pa 0 P.length) = some (P.map fun x : Nat => .int x)) (hF : P.length < F) :
    ∀ (buf : List Nat) (i line sym j : Nat) (m : PosMap), j < P.length → ∃ m' j' l' s', trLoop buf i line sym (P.drop j) m = some m' ∧
      rangeLoop c!"search" (rangeBody [c!"sort"] c!"i" c!"c" (execs gDecls C F [c!"sort"] trBody)) i (buf.map fun x : Nat => .int x)
        (trLoc P.length m j line sym (.sl pa 0 P.length) bv) h = .ok (.norm, trLoc P.length m' j' l' s' (.sl pa 0 P.length) bv, h) := by
  intro buf
  induction buf with
  | nil => intro i line sym j m _; exact ⟨m, j, line, sym, rfl, rfl⟩
  | cons c buf ih =>
    intro i line sym j m hj
    obtain ⟨p, hp, hd⟩ := drop_cons_of_lt hj
    obtain ⟨f, j', h1, h2, h3⟩ := tr_round (C := C) (F := F) (bv := bv) hv hF i c line sym j m hj p hp
    rw [hd]
    simp only [List.map_cons, rangeLoop, h1]
    show ∃ m' j2 l' s', (if i = p then match (P.drop (j + 1)).dropWhile (· == i) with
        | [] => some ((p, (lineAfter c line, symAfter c sym)) :: m)
        | q :: qs => trLoop buf (i + 1) (lineAfter c line) (symAfter c sym) (q :: qs) ((p, (lineAfter c line, symAfter c sym)) :: m)
      else trLoop buf (i + 1) (lineAfter c line) (symAfter c sym) (p :: P.drop (j + 1)) m) = some m' ∧ _
    by_cases hi : i = p
    · obtain ⟨h4, h5⟩ := h3 hi
      simp only [if_pos hi, h4]
      rcases h5 with ⟨h5, rfl⟩ | ⟨h5, rfl⟩
      · rw [h5, List.drop_length]
        exact ⟨_, P.length, lineAfter c line, symAfter c sym, rfl, by simp⟩
      · obtain ⟨q, _, hq⟩ := drop_cons_of_lt h5
        obtain ⟨m', j2, l', s', k1, k2⟩ := ih (i + 1) (lineAfter c line) (symAfter c sym) j' ((p, (lineAfter c line, symAfter c sym)) :: m) h5
        rw [hq] at k1 ⊢
        exact ⟨m', j2, l', s', k1, by simpa using k2⟩
    · obtain ⟨rfl, rfl⟩ := h2 hi
      obtain ⟨m', j2, l', s', k1, k2⟩ := ih (i + 1) (lineAfter c line) (symAfter c sym) j' m hj
      rw [hd] at k1
      simp only [if_neg hi]
      exact ⟨m', j2, l', s', k1, k2⟩

/-- `translatePositions`. -/
theorem translate_run {buf : List Nat} {b e pa : Nat} {bv : Val} (hp : h.mem pa = .arr [.int b, .int e]) (hb : ∀ v, view (h.put pa v) bv = some (buf.map fun x : Nat => .int x)) :
    ∃ m h', translatePositions buf b e = some m ∧
      gCall Q (n + 4) (.fn c!"translatePositions") [bv, .sl pa 0 2] false h = .ok ([.map (posObj 0 0) (mapVals m)], h') ∧
      h' = h.put pa (h'.mem pa) := by
  have e0 : gCall Q (n + 4) (.fn c!"translatePositions") [bv, .sl pa 0 2] false h =
      runBody gDecls (gCall Q (n + 3)) (n + 3) [c!"buffer", c!"positions"] false (.cons (.id c!"textPositionMap") .nil) gtranslatePositions [] [bv, .sl pa 0 2] false h := rfl
  have hc : capSs false gtranslatePositions = [c!"sort"] := rfl
  generalize hP : (if b ≤ e then [b, e] else [e, b]) = P
  have hlen : P.length = 2 := by rw [← hP]; split <;> rfl
  have hsort : sortVals [.int b, .int e] = P.map fun x : Nat => .int x := by
    rw [← hP]
    by_cases hbe : b ≤ e
    · have : (b : Int) ≤ e := by omega
      simp [sortVals, insertVal, hbe]
    · have : ¬ (b : Int) ≤ e := by omega
      simp [sortVals, insertVal, hbe]
  generalize hh1 : h.put pa (.arr (P.map fun x : Nat => .int x)) = h1
  have hv1 : view h1 (.sl pa 0 P.length) = some (P.map fun x : Nat => .int x) := by
    rw [← hh1]; simp [view, List.take_of_length_le]
  have hb1 : view h1 bv = some (buf.map fun x : Nat => .int x) := by rw [← hh1]; exact hb _
  obtain ⟨m, j', l', s', k1, k2⟩ := tr_loop (C := gCall Q (n + 3)) (F := n + 3) (bv := bv) hv1 (by omega) buf 0 1 0 0 [] (by omega)
  refine ⟨m, h1, by rw [translatePositions, hP]; exact k1, ?_, by rw [← hh1, put_mem_same]⟩
  rw [e0]
  simp only [runBody, hc]
  have es : gtranslatePositions = .cons (stmtAt gtranslatePositions 0) (.cons (stmtAt gtranslatePositions 1) (.cons (stmtAt gtranslatePositions 2)
    (.cons (stmtAt gtranslatePositions 3) .nil))) := rfl
  have eb : bindParams [c!"sort"] false false [c!"buffer", c!"positions"] [bv, .sl pa 0 2] [] h = ([(c!"positions", .val (.sl pa 0 2)), (c!"buffer", .val bv)], h) := by
    simp [bindParams, declare]
  have hv0 : view h (.sl pa 0 2) = some [.int b, .int e] := by simp [view, hp]
  have s0 : exec gDecls (gCall Q (n + 3)) (n + 3) [c!"sort"] (stmtAt gtranslatePositions 0) 0 [(c!"positions", .val (.sl pa 0 2)), (c!"buffer", .val bv)] h =
      .ok (.norm, trLoc P.length [] 0 1 0 (.sl pa 0 P.length) bv, h) := by
    have z : mkValue gDecls (.id c!"textPositionMap") [.int 2] h = .ok ([.map (posObj 0 0) []], h) := rfl
    grun [stmtAt, gtranslatePositions, hv0, z, trLoc, mapVals, hlen]
  have s1 : exec gDecls (gCall Q (n + 3)) (n + 3) [c!"sort"] (stmtAt gtranslatePositions 1) 0 (trLoc P.length [] 0 1 0 (.sl pa 0 P.length) bv) h =
      .ok (.norm, trLoc P.length [] 0 1 0 (.sl pa 0 P.length) bv, h1) := by
    have hl : gCall Q (n + 3) (.lib c!"sort.Ints") [.sl pa 0 P.length] false h = .ok ([], h1) := by
      show libFn Q c!"sort.Ints" [.sl pa 0 P.length] h = _
      simp [libFn, hp, hsort, hh1]
    have hf : (findVal c!"sort" gDecls) = none := rfl
    grun [stmtAt, gtranslatePositions, trLoc, hf, hl]
  have s2 : exec gDecls (gCall Q (n + 3)) (n + 3) [c!"sort"] (stmtAt gtranslatePositions 2) 0 (trLoc P.length [] 0 1 0 (.sl pa 0 P.length) bv) h1 =
      .ok (.norm, trLoc P.length m j' l' s' (.sl pa 0 P.length) bv, h1) := by
    have e2 : stmtAt gtranslatePositions 2 = .range c!"search" c!"i" c!"c" (.id c!"buffer") trBody := rfl
    have hbv : ev gDecls (gCall Q (n + 3)) (trLoc P.length [] 0 1 0 (.sl pa 0 P.length) bv) false (.id c!"buffer") h1 = .ok ([bv], h1) := by simp [ev, trLoc, lget]
    rw [e2]
    simp only [exec, hbv, one_ok, hb1, k2]
  have s3 : exec gDecls (gCall Q (n + 3)) (n + 3) [c!"sort"] (stmtAt gtranslatePositions 3) 0 (trLoc P.length m j' l' s' (.sl pa 0 P.length) bv) h1 =
      .ok (.ret [.map (posObj 0 0) (mapVals m)], trLoc P.length m j' l' s' (.sl pa 0 P.length) bv, h1) := by
    grun [stmtAt, gtranslatePositions, trLoc]
  rw [eb, es]
  simp only [execs_cons, List.length_nil, s0, s1, s2, s3, next_norm, next_ret, finish, coerce]

end Verif.Gen
