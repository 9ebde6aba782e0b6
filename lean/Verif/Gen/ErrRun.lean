import Verif.Gen.PosRun

/-! # Running `parseError.Error` -/

namespace Verif.Gen
open Verif

variable {Q : Char → Bool} {n : Nat} {h : Heap}

theorem runes_ints (l : List Nat) : runes (l.map fun x : Nat => .int x) = l.map Char.ofNat := by
  induction l with
  | nil => rfl
  | cons x l ih => simp [runes, ih]

/-- The plain format of messages. -/
theorem format_plain (k q : Str) (a b c d : Nat) :
    format c!"parse error near %v (line %v symbol %v - line %v symbol %v):\n%v\n" [.str k, .int a, .int b, .int c, .int d, .str q] =
      c!"parse error near " ++ k ++ c!" (line " ++ natText a ++ c!" symbol " ++ natText b ++ c!" - line " ++ natText c ++ c!" symbol " ++ natText d ++
      c!"):\n" ++ q ++ c!"\n" := by
  simp [format, showVal]

/-- The coloured format of messages. -/
theorem format_pretty (k q : Str) (a b c d : Nat) :
    format c!"parse error near \x1b[34m%v\x1b[m (line %v symbol %v - line %v symbol %v):\n%v\n" [.str k, .int a, .int b, .int c, .int d, .str q] =
      c!"parse error near " ++ coloured true c!"34" k ++ c!" (line " ++ natText a ++ c!" symbol " ++ natText b ++ c!" - line " ++ natText c ++ c!" symbol " ++ natText d ++
      c!"):\n" ++ q ++ c!"\n" := by
  have he : esc = '\x1b' := by decide
  simp [format, showVal, coloured, he]

theorem name_max (m : Tok) (hk : NameOk m.kind) : nameVals[(if m.b = m.e then 0 else kindNum m.kind)]? = some (.str (maxName m)) := by
  unfold maxName
  split
  · rfl
  · exact name_kind _ hk

/-- The statements of `Error`. -/
def eStmt (i : Nat) : Stmt := stmtAt gparseErrorError i

theorem e_split : gparseErrorError = .cons (eStmt 0) (.cons (eStmt 1) (.cons (eStmt 2) (.cons (eStmt 3) (.cons (eStmt 4) (.cons (eStmt 5) (.cons (eStmt 6)
    (.cons (eStmt 7) .nil))))))) := rfl

/-- The variables of `Error`. -/
def eLoc1 (e t : Nat) (err : Str) : Locals := [(c!"err", .val (.str err)), (c!"tokens", .val (.sl t 0 1)), (c!"e", .val (.ptr e []))]
def eLoc2 (e t p : Nat) (k : Nat) (err : Str) : Locals := (c!"p", .val (.int k)) :: (c!"positions", .val (.sl p 0 2)) :: eLoc1 e t err
def eLoc3 (e t p : Nat) (m : PosMap) (fm err : Str) : Locals :=
  (c!"format", .val (.str fm)) :: (c!"translations", .val (.map (posObj 0 0) (mapVals m))) :: eLoc2 e t p 2 err

theorem sel_err {e a : Nat} {m : Tok} (hm : h.mem e = errObj a m) :
    select gDecls false (.ptr e []) c!"max" h = .ok ([maxVal m], h) ∧ (∀ b, select gDecls b (.ptr e []) c!"p" h = .ok ([.ptr a []], h)) := by
  refine ⟨?_, fun b => ?_⟩ <;> simp [select, getPath, hm, errObj, fieldPath, fget, isObj_ptr]

theorem sel_maxv {m : Tok} {b : Bool} : select gDecls b (maxVal m) c!"begin" h = .ok ([.int m.b], h) ∧ select gDecls b (maxVal m) c!"end" h = .ok ([.int m.e], h) ∧
    select gDecls b (maxVal m) c!"pegRule" h = .ok ([.int ((if m.b = m.e then 0 else kindNum m.kind : Nat))], h) := by
  refine ⟨?_, ?_, ?_⟩ <;> simp [select, maxVal, tokObj, getPath, fieldPath, fget]

theorem sel_pos {l s : Nat} {b : Bool} : select gDecls b (posObj l s) c!"line" h = .ok ([.int l], h) ∧ select gDecls b (posObj l s) c!"symbol" h = .ok ([.int s], h) := by
  refine ⟨?_, ?_⟩ <;> simp [select, posObj, getPath, fieldPath, fget]

set_option maxHeartbeats 1000000 in
/-- `parseError.Error`. -/
theorem error_run {e a bb : Nat} {m : Tok} {tr q r p rs pr tk} {s : Str} (he : h.mem e = errObj a m)
    (hm : h.mem a = pegObj tr q (.sl bb 0 (mkBuf s).length) r p rs pr tk) (hb : h.mem bb = .arr ((mkBuf s).map fun x : Nat => .int x))
    (le : e < h.next) (la : a < h.next) (lb : bb < h.next) (hk : NameOk m.kind) :
    match errorText Q pr s m with
    | none => gCall Q (n + 5) (.meth (.ptr e []) c!"Error") [] false h = .panic
    | some t => ∃ h', gCall Q (n + 5) (.meth (.ptr e []) c!"Error") [] false h = .ok ([.str t], h') ∧ Ext h h' ∧ h'.out = h.out := by
  have e0 : gCall Q (n + 5) (.meth (.ptr e []) c!"Error") [] false h =
      runBody gDecls (gCall Q (n + 4)) (n + 4) [c!"e"] false (.cons (.id c!"string") .nil) gparseErrorError [] [.ptr e []] false h := by
    show runMeth _ _ _ _ _ _ _ _ _ = _
    simp only [runMeth, recvType, getPath, he, errObj]
    rfl
  have hc : ∃ c, capSs false gparseErrorError = c ∧ c!"e" ∉ c ∧ c!"tokens" ∉ c ∧ c!"err" ∉ c ∧ c!"positions" ∉ c ∧ c!"p" ∉ c ∧ c!"token" ∉ c ∧ c!"translations" ∉ c ∧
      c!"format" ∉ c ∧ c!"begin" ∉ c ∧ c!"end" ∉ c := ⟨_, rfl, by decide⟩
  obtain ⟨c, hc, d1, d2, d3, d4, d5, d6, d7, d8, d9, d10⟩ := hc
  have x1 : Ext h (h.alloc (.arr [maxVal m])) := .alloc _
  have o1 : (h.alloc (.arr [maxVal m])).out = h.out := rfl
  have n1 : (h.alloc (.arr [maxVal m])).next = h.next + 1 := rfl
  have t1 : (h.alloc (.arr [maxVal m])).mem h.next = .arr [maxVal m] := alloc_mem_same _ _
  generalize hh1 : h.alloc (.arr [maxVal m]) = h1 at *
  have x2 : Ext h (h1.alloc (.arr [.int 0, .int 0])) := x1.trans (.alloc _)
  have o2 : (h1.alloc (.arr [.int 0, .int 0])).out = h.out := o1
  have t2 : (h1.alloc (.arr [.int 0, .int 0])).mem h.next = .arr [maxVal m] := by rw [alloc_mem_other _ _ (by omega), t1]
  have p2 : (h1.alloc (.arr [.int 0, .int 0])).mem (h.next + 1) = .arr [.int 0, .int 0] := by rw [← n1, alloc_mem_same]
  have n2 : (h1.alloc (.arr [.int 0, .int 0])).next = h.next + 2 := by simp [n1]
  generalize hh2 : h1.alloc (.arr [.int 0, .int 0]) = h2 at *
  have px : ∀ (k : Heap) (v : Val), Ext h k → Ext h (k.put (h.next + 1) v) := fun k v x => ⟨x.next, fun y hy => by rw [put_mem_other _ _ (by omega)]; exact x.mem y hy⟩
  have x3 : Ext h (h2.put (h.next + 1) (.arr [.int m.b, .int m.e])) := px _ _ x2
  have t3 : (h2.put (h.next + 1) (.arr [.int m.b, .int m.e])).mem h.next = .arr [maxVal m] := by rw [put_mem_other _ _ (by omega), t2]
  have p3 : (h2.put (h.next + 1) (.arr [.int m.b, .int m.e])).mem (h.next + 1) = .arr [.int m.b, .int m.e] := put_mem_same _ _ _
  have o3 : (h2.put (h.next + 1) (.arr [.int m.b, .int m.e])).out = h.out := o2
  generalize hh3 : h2.put (h.next + 1) (.arr [.int m.b, .int m.e]) = h3 at *
  obtain ⟨tm, h4, kt, kr, kh⟩ := translate_run (Q := Q) (n := n) (bv := .sl bb 0 (mkBuf s).length) (buf := mkBuf s) p3 fun v => by
    have : (h3.put (h.next + 1) v).mem bb = .arr ((mkBuf s).map fun x : Nat => .int x) := by rw [put_mem_other _ _ (by omega), x3.mem _ lb, hb]
    simp [view, this, List.take_of_length_le]
  have x4 : Ext h h4 := by rw [kh]; exact px _ _ x3
  have t4 : h4.mem h.next = .arr [maxVal m] := by rw [kh, put_mem_other _ _ (by omega), t3]
  have o4 : h4.out = h.out := by rw [kh, put_out, o3]
  clear kh
  have s0 : exec gDecls (gCall Q (n + 4)) (n + 4) c (eStmt 0) 0 [(c!"e", .val (.ptr e []))] h = .ok (.norm, eLoc1 e h.next c!"\n", h1) := by
    grun [eStmt, stmtAt, gparseErrorError, sel_err he, newSlice, d2, d3, hh1, eLoc1]
  have s1 : exec gDecls (gCall Q (n + 4)) (n + 4) c (eStmt 1) 0 (eLoc1 e h.next c!"\n") h1 = .ok (.norm, eLoc2 e h.next (h.next + 1) 0 c!"\n", h2) := by
    have v1 : view h1 (.sl h.next 0 1) = some [maxVal m] := by simp [view, t1]
    have z : mkValue gDecls (.arr (.id c!"int")) [.int 2] h1 = .ok ([.sl (h.next + 1) 0 2], h2) := by
      rw [← hh2, ← n1]; rfl
    grun [eStmt, stmtAt, gparseErrorError, eLoc1, v1, z, d4, d5, eLoc2]
  have s2 : exec gDecls (gCall Q (n + 4)) (n + 4) c (eStmt 2) 0 (eLoc2 e h.next (h.next + 1) 0 c!"\n") h2 = .ok (.norm, eLoc2 e h.next (h.next + 1) 2 c!"\n", h3) := by
    have v1 : view h2 (.sl h.next 0 1) = some [maxVal m] := by simp [view, t2]
    grun [eStmt, stmtAt, gparseErrorError, eLoc1, eLoc2, v1, rangeLoop, rangeBody, d6, sel_maxv, setElem, p2, hh3]
  have s3 : exec gDecls (gCall Q (n + 4)) (n + 4) c (eStmt 3) 0 (eLoc2 e h.next (h.next + 1) 2 c!"\n") h3 =
      .ok (.norm, (c!"translations", .val (.map (posObj 0 0) (mapVals tm))) :: eLoc2 e h.next (h.next + 1) 2 c!"\n", h4) := by
    have hg : gCall Q (n + 4) (.glob c!"translatePositions") [] false h3 = .ok ([.fn c!"translatePositions"], h3) := rfl
    have he3 := sel_err ((x3.mem e le).trans he)
    have hm3 := (sel_peg ((x3.mem a la).trans hm)).2.1
    grun [eStmt, stmtAt, gparseErrorError, eLoc1, eLoc2, hg, he3, hm3, kr, d7]
  have s4 : exec gDecls (gCall Q (n + 4)) (n + 4) c (eStmt 4) 0 ((c!"translations", .val (.map (posObj 0 0) (mapVals tm))) :: eLoc2 e h.next (h.next + 1) 2 c!"\n") h4 =
      .ok (.norm, eLoc3 e h.next (h.next + 1) tm c!"parse error near %v (line %v symbol %v - line %v symbol %v):\n%v\n" c!"\n", h4) := by
    grun [eStmt, stmtAt, gparseErrorError, eLoc1, eLoc2, eLoc3, d8]
  have he4 := sel_err ((x4.mem e le).trans he)
  have hm4 := sel_peg ((x4.mem a la).trans hm)
  have s5 : exec gDecls (gCall Q (n + 4)) (n + 4) c (eStmt 5) 0 (eLoc3 e h.next (h.next + 1) tm c!"parse error near %v (line %v symbol %v - line %v symbol %v):\n%v\n" c!"\n") h4 =
      .ok (.norm, eLoc3 e h.next (h.next + 1) tm (if pr then c!"parse error near \x1b[34m%v\x1b[m (line %v symbol %v - line %v symbol %v):\n%v\n" else
        c!"parse error near %v (line %v symbol %v - line %v symbol %v):\n%v\n") c!"\n", h4) := by
    cases pr <;> grun [eStmt, stmtAt, gparseErrorError, eLoc1, eLoc2, eLoc3, he4, hm4]
  generalize hfm : (if pr then c!"parse error near \x1b[34m%v\x1b[m (line %v symbol %v - line %v symbol %v):\n%v\n" else
        c!"parse error near %v (line %v symbol %v - line %v symbol %v):\n%v\n") = fm at s5
  have hff : ∀ (k q : Str) (a b c d : Nat), format fm [.str k, .int a, .int b, .int c, .int d, .str q] =
      c!"parse error near " ++ coloured pr c!"34" k ++ c!" (line " ++ natText a ++ c!" symbol " ++ natText b ++ c!" - line " ++ natText c ++ c!" symbol " ++ natText d ++
      c!"):\n" ++ q ++ c!"\n" := by
    intro k q a b c d
    cases pr
    · rw [← hfm]; exact format_plain ..
    · rw [← hfm]; exact format_pretty ..
  have v4 : view h4 (.sl h.next 0 1) = some [maxVal m] := by simp [view, t4]
  have vb4 : ∀ i j, view h4 (.sl bb i j) = some ((((mkBuf s).map fun x : Nat => .int x).drop i).take j) := fun i j => by simp [view, x4.mem bb lb, hb]
  have hmg := fun p => mget_mapVals tm p
  have hl1 : ∀ t vs h, gCall Q (n + 4) (.lib c!"fmt.Sprintf") (.str t :: vs) false h = .ok ([.str (format t vs)], h) := fun _ _ _ => rfl
  have hl2 : ∀ t h, gCall Q (n + 4) (.lib c!"strconv.Quote") [.str t] false h = .ok ([.str (quote Q t)], h) := fun _ _ => rfl
  have hgr := rul3s_run (Q := Q) (n := n + 3) (h := h4)
  have hf1 : (findVal c!"fmt" gDecls) = none := rfl
  have hf2 : (findVal c!"strconv" gDecls) = none := rfl
  have hnm := name_max m hk
  have hnn : ¬ (((if m.b = m.e then 0 else kindNum m.kind : Nat) : Int) < 0) := by omega
  have eb : bindParams c false false [c!"e"] [.ptr e []] [] h = ([(c!"e", .val (.ptr e []))], h) := by simp [bindParams, declare, d1]
  generalize hkn : (if m.b = m.e then 0 else kindNum m.kind : Nat) = kn at *
  have hsm : ∀ h b, select gDecls b (maxVal m) c!"pegRule" h = .ok ([.int kn], h) := fun h b => by rw [sel_maxv.2.2, hkn]
  by_cases hin : m.b ≤ m.e ∧ m.e ≤ (mkBuf s).length
  · have het : errorText Q pr s m = some (c!"\nparse error near " ++ coloured pr c!"34" (maxName m) ++
      c!" (line " ++ natText (tm.get m.b).1 ++ c!" symbol " ++ natText (tm.get m.b).2 ++ c!" - line " ++ natText (tm.get m.e).1 ++ c!" symbol " ++ natText (tm.get m.e).2 ++
      c!"):\n" ++ quote Q ((((mkBuf s).drop m.b).take (m.e - m.b)).map Char.ofNat) ++ c!"\n") := by
      simp only [errorText, errorReport, kt, if_pos hin, Option.map_some]
    generalize htx : (c!"\nparse error near " ++ coloured pr c!"34" (maxName m) ++
      c!" (line " ++ natText (tm.get m.b).1 ++ c!" symbol " ++ natText (tm.get m.b).2 ++ c!" - line " ++ natText (tm.get m.e).1 ++ c!" symbol " ++ natText (tm.get m.e).2 ++
      c!"):\n" ++ quote Q ((((mkBuf s).drop m.b).take (m.e - m.b)).map Char.ofNat) ++ c!"\n") = tx at het
    have hx : c!"\n" ++ format fm [.str (maxName m), .int (tm.get m.b).1, .int (tm.get m.b).2, .int (tm.get m.e).1, .int (tm.get m.e).2,
        .str (quote Q (runes ((((mkBuf s).map fun x : Nat => .int x).drop m.b).take (m.e - m.b))))] = tx := by
      rw [hff, ← List.map_drop, ← List.map_take, runes_ints, ← htx]
      simp
    have s6 : exec gDecls (gCall Q (n + 4)) (n + 4) c (eStmt 6) 0 (eLoc3 e h.next (h.next + 1) tm fm c!"\n") h4 =
        .ok (.norm, eLoc3 e h.next (h.next + 1) tm fm tx, h4) := by
      grun [eStmt, stmtAt, gparseErrorError, eLoc1, eLoc2, eLoc3, v4, rangeLoop, rangeBody, d6, d9, d10, sel_maxv, hsm, hgr, hnn, hnm, nthVal, hf1, hf2, hl1, hl2, hin, he4, hm4, vb4,
        hmg, sel_pos, hx]
    rw [het]
    refine ⟨h4, ?_, x4, o4⟩
    have s7 : exec gDecls (gCall Q (n + 4)) (n + 4) c (eStmt 7) 0 (eLoc3 e h.next (h.next + 1) tm fm tx) h4 = .ok (.ret [.str tx], eLoc3 e h.next (h.next + 1) tm fm tx, h4) := by
      grun [eStmt, stmtAt, gparseErrorError, eLoc1, eLoc2, eLoc3]
    rw [e0]
    simp only [runBody, hc, List.append_nil, eb]
    rw [e_split]
    simp only [List.length_nil, execs_cons, s0, s1, s2, s3, s4, s5, s6, s7, next_norm, next_ret, finish, coerce]
  · have het : errorText Q pr s m = none := by
      simp only [errorText, errorReport, kt, if_neg hin, Option.map_none]
    have s6 : exec gDecls (gCall Q (n + 4)) (n + 4) c (eStmt 6) 0 (eLoc3 e h.next (h.next + 1) tm fm c!"\n") h4 = .panic := by
      grun [eStmt, stmtAt, gparseErrorError, eLoc1, eLoc2, eLoc3, v4, rangeLoop, rangeBody, d6, d9, d10, sel_maxv, hsm, hgr, hnn, hnm, nthVal, hf1, hf2, hl1, hl2, hin, he4, hm4, vb4,
        hmg, sel_pos]
    rw [het]
    show gCall Q (n + 5) (.meth (.ptr e []) c!"Error") [] false h = .panic
    rw [e0]
    simp only [runBody, hc, List.append_nil, eb]
    rw [e_split]
    simp only [List.length_nil, execs_cons, s0, s1, s2, s3, s4, s5, s6, next_norm, next_panic, finish]

end Verif.Gen
