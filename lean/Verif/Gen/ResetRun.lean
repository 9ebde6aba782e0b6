import Verif.Gen.InitRun

/-! # Running `reset`, `Reset`, `Init` -/

namespace Verif.Gen
open Verif

variable {Q : Char → Bool} {n : Nat} {h : Heap}

theorem sel_peg {a : Nat} {tr q bf r p rs pr tk} (hm : h.mem a = pegObj tr q bf r p rs pr tk) :
    select gDecls false (.ptr a []) c!"Buffer" h = .ok ([.str q], h) ∧
    select gDecls false (.ptr a []) c!"buffer" h = .ok ([bf], h) ∧
    select gDecls false (.ptr a []) c!"rules" h = .ok ([r], h) ∧
    select gDecls false (.ptr a []) c!"parse" h = .ok ([p], h) ∧
    select gDecls false (.ptr a []) c!"reset" h = .ok ([rs], h) ∧
    select gDecls false (.ptr a []) c!"Pretty" h = .ok ([.bool pr], h) ∧
    select gDecls false (.ptr a []) c!"tokens32" h = .ok ([treeObj tk], h) := by
  refine ⟨?_, ?_, ?_, ?_, ?_, ?_, ?_⟩ <;> simp [select, getPath, hm, pegObj, fieldPath, fget, isObj_str]

/-- Assignments to fields of the parser object. -/
theorem assign_peg {P C} {l : Locals} {pc a : Nat} {tr q bf r p rs pr tk} (hl : lget c!"p" l = some (.box pc)) (hp : h.mem pc = .ptr a [])
    (hm : h.mem a = pegObj tr q bf r p rs pr tk) :
    (∀ v, assign1 P C (.sel (.id c!"p") c!"buffer") v l h = .ok (l, h.put a (pegObj tr q v r p rs pr tk))) ∧
    (∀ v, assign1 P C (.sel (.id c!"p") c!"rules") v l h = .ok (l, h.put a (pegObj tr q bf v p rs pr tk))) ∧
    (∀ v, assign1 P C (.sel (.id c!"p") c!"parse") v l h = .ok (l, h.put a (pegObj tr q bf r v rs pr tk))) ∧
    (∀ v, assign1 P C (.sel (.id c!"p") c!"reset") v l h = .ok (l, h.put a (pegObj tr q bf r p v pr tk))) ∧
    (∀ v, assign1 P C (.sel (.id c!"p") c!"tokens32") (treeObj v) l h = .ok (l, h.put a (pegObj tr q bf r p rs pr v))) := by
  refine ⟨?_, ?_, ?_, ?_, ?_⟩ <;> intro v <;>
    simp [assign1, ev, hl, hp, isObj_ptr, one_ok, getPath, hm, pegObj, fieldPath, fget, setPath, fset]

/-- The runes of a text. -/
def runeVals (q : Str) : List Val := q.map fun c => .int c.toNat

/-- The memory after `reset`. -/
def resetHeap (y : Lay) (a : Nat) (tr : Val) (q : Str) (r p rs : Val) (pr : Bool) (tk : Val) (h : Heap) : Heap :=
  let h2 := ((h.put y.max (tokObj 0 0 0)).put y.pos (.int 0)).put y.ti (.int 0)
  let h3 := (h2.alloc (.arr (runeVals q))).put a (pegObj tr q (.sl h.next 0 q.length) r p rs pr tk)
  let h4 := (h3.alloc (.arr (runeVals q ++ [.int 1114112]))).put a (pegObj tr q (.sl (h.next + 1) 0 (q.length + 1)) r p rs pr tk)
  h4.put y.buf (.sl (h.next + 1) 0 (q.length + 1))

/-- The last rune of a text is not the end symbol. -/
theorem last_rune (q : Str) (hq : q ≠ []) : ∃ c : Char, (runeVals q)[q.length - 1]? = some (.int c.toNat) ∧ (c.toNat : Int) ≠ 1114112 := by
  have hlt : q.length - 1 < q.length := by have := List.length_pos_iff.mpr hq; omega
  refine ⟨q[q.length - 1], ?_, ?_⟩
  · rw [runeVals, List.getElem?_map, List.getElem?_eq_getElem hlt]; rfl
  · have := (q[q.length - 1]).valid
    have h2 : (q[q.length - 1]).toNat < 1114112 := by
      rcases this with h | ⟨_, h⟩
      · exact Nat.lt_trans h (by decide)
      · exact h
    omega

/-- Running `reset`. -/
theorem resetFn_run {y pc a o tr q bf r p rs pr tk} (ap : Apart y pc a) (hp : h.mem pc = .ptr a []) (hm : h.mem a = pegObj tr q bf r p rs pr tk)
    (hpc : pc < h.next) (ha : a < h.next) :
    gCall Q (n + 2) (resetFn y pc o) [] false h = .ok ([], resetHeap y a tr q r p rs pr tk h) := by
  show runBody _ _ _ _ _ _ _ _ _ _ _ = _
  have hc : capSs false (bodyOf (nth gMiniQueryPegInit 2)) = [] := rfl
  simp only [runBody, hc, resetHeap]
  generalize hh2 : ((h.put y.max (tokObj 0 0 0)).put y.pos (.int 0)).put y.ti (.int 0) = h2
  have hn2 : h2.next = h.next := by rw [← hh2]; rfl
  have hp2 : h2.mem pc = .ptr a [] := by
    rw [← hh2, put_mem_other _ _ (Ne.symm ap.n14), put_mem_other _ _ (Ne.symm ap.n10), put_mem_other _ _ (Ne.symm ap.n5), hp]
  have hm2 : h2.mem a = pegObj tr q bf r p rs pr tk := by
    rw [← hh2, put_mem_other _ _ (Ne.symm ap.n15), put_mem_other _ _ (Ne.symm ap.n11), put_mem_other _ _ (Ne.symm ap.n6), hm]
  generalize hh2a : h2.alloc (.arr (runeVals q)) = h2a
  have hp2a : h2a.mem pc = .ptr a [] := by rw [← hh2a, alloc_mem_other _ _ (by omega), hp2]
  have hm2a : h2a.mem a = pegObj tr q bf r p rs pr tk := by rw [← hh2a, alloc_mem_other _ _ (by omega), hm2]
  have hr2a : h2a.mem h.next = .arr (runeVals q) := by rw [← hh2a, ← hn2, alloc_mem_same]
  have hn2a : h2a.next = h.next + 1 := by rw [← hh2a, alloc_next, hn2]
  generalize hh3 : h2a.put a (pegObj tr q (.sl h.next 0 q.length) r p rs pr tk) = h3
  have hp3 : h3.mem pc = .ptr a [] := by rw [← hh3, put_mem_other _ _ ap.n21, hp2a]
  have hm3 : h3.mem a = pegObj tr q (.sl h.next 0 q.length) r p rs pr tk := by rw [← hh3, put_mem_same]
  have hr3 : h3.mem h.next = .arr (runeVals q) := by rw [← hh3, put_mem_other _ _ (by omega), hr2a]
  have hn3 : h3.next = h.next + 1 := by rw [← hh3, put_next, hn2a]
  have hv3 : view h3 (.sl h.next 0 q.length) = some (runeVals q) := by
    simp [view, hr3, List.take_of_length_le, runeVals]
  generalize hh3a : h3.alloc (.arr (runeVals q ++ [.int 1114112])) = h3a
  have hp3a : h3a.mem pc = .ptr a [] := by rw [← hh3a, alloc_mem_other _ _ (by omega), hp3]
  have hm3a : h3a.mem a = pegObj tr q (.sl h.next 0 q.length) r p rs pr tk := by rw [← hh3a, alloc_mem_other _ _ (by omega), hm3]
  generalize hh4 : h3a.put a (pegObj tr q (.sl (h.next + 1) 0 (q.length + 1)) r p rs pr tk) = h4
  have hp4 : h4.mem pc = .ptr a [] := by rw [← hh4, put_mem_other _ _ ap.n21, hp3a]
  have hm4 : h4.mem a = pegObj tr q (.sl (h.next + 1) 0 (q.length + 1)) r p rs pr tk := by rw [← hh4, put_mem_same]
  have hz : setFields (zeroOf gDecls 3 (.id c!"token32")) .nil [] = tokObj 0 0 0 := rfl
  have hl : lget c!"p" (envR y pc o) = some (.box pc) := rfl
  have hg : gCall Q (n + 1) (.glob c!"endSymbol") [] false h3 = .ok ([.int 1114112], h3) := rfl
  have as2 := (assign_peg (P := gDecls) (C := gCall Q (n + 1)) hl hp2a hm2a).1 (.sl h.next 0 q.length)
  have as3 := (assign_peg (P := gDecls) (C := gCall Q (n + 1)) hl hp3a hm3a).1 (.sl (h.next + 1) 0 (q.length + 1))
  rw [hh3] at as2
  rw [hh4] at as3
  have e0 : bodyOf (nth gMiniQueryPegInit 2) = .cons (.assign (.cons (.id c!"max") .nil) (.cons (.lit (.id c!"token32") .nil .nil) .nil))
      (.cons (.assign (.cons (.id c!"position") (.cons (.id c!"tokenIndex") .nil)) (.cons (.int 0) (.cons (.int 0) .nil)))
      (.cons (.assign (.cons (.sel (.id c!"p") c!"buffer") .nil) (.cons (.call (.arr (.id c!"rune")) (.cons (.sel (.id c!"p") c!"Buffer") .nil) false) .nil))
      (.cons (.ite (.bin c!"||" (.bin c!"==" (.call (.id c!"len") (.cons (.sel (.id c!"p") c!"buffer") .nil) false) (.int 0))
        (.bin c!"!=" (.idx (.sel (.id c!"p") c!"buffer") (.bin c!"-" (.call (.id c!"len") (.cons (.sel (.id c!"p") c!"buffer") .nil) false) (.int 1))) (.id c!"endSymbol")))
        (.cons (.assign (.cons (.sel (.id c!"p") c!"buffer") .nil) (.cons (.call (.id c!"append") (.cons (.sel (.id c!"p") c!"buffer") (.cons (.id c!"endSymbol") .nil)) false) .nil)) .nil) .nil)
      (.cons (.assign (.cons (.id c!"buffer") .nil) (.cons (.sel (.id c!"p") c!"buffer") .nil)) .nil)))) := rfl
  rw [e0]
  have s0 : exec gDecls (gCall Q (n + 1)) (n + 1) [] (.assign (.cons (.id c!"max") .nil) (.cons (.lit (.id c!"token32") .nil .nil) .nil)) 6 (envR y pc o) h =
      .ok (.norm, envR y pc o, h.put y.max (tokObj 0 0 0)) := by
    grun [hz, envR]
  have s1 : exec gDecls (gCall Q (n + 1)) (n + 1) [] (.assign (.cons (.id c!"position") (.cons (.id c!"tokenIndex") .nil)) (.cons (.int 0) (.cons (.int 0) .nil))) 6 (envR y pc o)
      (h.put y.max (tokObj 0 0 0)) = .ok (.norm, envR y pc o, h2) := by
    grun [envR, hh2]
  have s2 : exec gDecls (gCall Q (n + 1)) (n + 1) [] (.assign (.cons (.sel (.id c!"p") c!"buffer") .nil) (.cons (.call (.arr (.id c!"rune")) (.cons (.sel (.id c!"p") c!"Buffer") .nil) false) .nil)) 6 (envR y pc o)
      h2 = .ok (.norm, envR y pc o, h3) := by
    have hh : newSlice (q.map fun c => .int c.toNat) h2 = (.sl h.next 0 q.length, h2a) := by simp [newSlice, hn2, ← hh2a, runeVals]
    grun [envR, hp2, sel_peg hm2, hh, getPath, hm2a, hp2a, fieldPath, fget, setPath, fset, pegObj, ← hh3]
  have s3 : exec gDecls (gCall Q (n + 1)) (n + 1) [] (.ite (.bin c!"||" (.bin c!"==" (.call (.id c!"len") (.cons (.sel (.id c!"p") c!"buffer") .nil) false) (.int 0))
        (.bin c!"!=" (.idx (.sel (.id c!"p") c!"buffer") (.bin c!"-" (.call (.id c!"len") (.cons (.sel (.id c!"p") c!"buffer") .nil) false) (.int 1))) (.id c!"endSymbol")))
        (.cons (.assign (.cons (.sel (.id c!"p") c!"buffer") .nil) (.cons (.call (.id c!"append") (.cons (.sel (.id c!"p") c!"buffer") (.cons (.id c!"endSymbol") .nil)) false) .nil)) .nil) .nil) 6 (envR y pc o)
      h3 = .ok (.norm, envR y pc o, h4) := by
    have hh : newSlice (runeVals q ++ [.int 1114112]) h3 = (.sl (h.next + 1) 0 (q.length + 1), h3a) := by simp [newSlice, hn3, ← hh3a, runeVals]
    have hrl : (runeVals q).length = q.length := by simp [runeVals]
    by_cases hq : q = []
    · have hq0 : ((q.length : Nat) : Int) = 0 := by simp [hq]
      grun [envR, hp3, sel_peg hm3, hh, getPath, hm3a, hp3a, fieldPath, fget, setPath, fset, pegObj, ← hh4, hv3, hrl, hq0, hg]
    · obtain ⟨c, hc1, hc2⟩ := last_rune q hq
      have hq0 : ¬ ((q.length : Nat) : Int) = 0 := by have := List.length_pos_iff.mpr hq; omega
      have hq1 : ¬ ((q.length : Nat) : Int) - 1 < 0 := by have := List.length_pos_iff.mpr hq; omega
      grun [envR, hp3, sel_peg hm3, hh, getPath, hm3a, hp3a, fieldPath, fget, setPath, fset, pegObj, ← hh4, hv3, hrl, hq, hq0, hq1, hg, nthVal, hc1, hc2]
  have s4 : exec gDecls (gCall Q (n + 1)) (n + 1) [] (.assign (.cons (.id c!"buffer") .nil) (.cons (.sel (.id c!"p") c!"buffer") .nil)) 6 (envR y pc o)
      h4 = .ok (.norm, envR y pc o, h4.put y.buf (.sl (h.next + 1) 0 (q.length + 1))) := by
    grun [envR, hp4, sel_peg hm4]
  have hb : bindParams [] false false [] [] (envR y pc o) h = (envR y pc o, h) := rfl
  have hlen : (envR y pc o).length = 6 := rfl
  rw [hb, hlen]
  simp only [execs_cons, execs_nil, s0, s1, s2, s3, s4, next_norm, finish]

theorem runeVals_end (q : Str) : runeVals q ++ [.int 1114112] = (mkBuf q).map fun x : Nat => .int x := by
  simp [runeVals, mkBuf, endSymbol]

/-- What `reset` leaves in memory. -/
theorem resetHeap_mem {y pc a tr q r p rs pr tk} (ap : Apart y pc a) (hb : ∀ x ∈ [y.max, y.pos, y.ti, y.buf, a], x < h.next) :
    let h' := resetHeap y a tr q r p rs pr tk h
    h'.next = h.next + 2 ∧ h'.out = h.out ∧ h'.mem y.max = tokObj 0 0 0 ∧ h'.mem y.pos = .int 0 ∧ h'.mem y.ti = .int 0 ∧
    h'.mem y.buf = .sl (h.next + 1) 0 (mkBuf q).length ∧ h'.mem (h.next + 1) = .arr ((mkBuf q).map fun x : Nat => .int x) ∧
    h'.mem a = pegObj tr q (.sl (h.next + 1) 0 (mkBuf q).length) r p rs pr tk ∧
    ∀ x < h.next, x ≠ y.max → x ≠ y.pos → x ≠ y.ti → x ≠ y.buf → x ≠ a → h'.mem x = h.mem x := by
  have b1 := hb y.max (by simp)
  have b2 := hb y.pos (by simp)
  have b3 := hb y.ti (by simp)
  have b4 := hb y.buf (by simp)
  have b5 := hb a (by simp)
  obtain ⟨n1, n2, n3, n4, n5, n6, n7, n8, n9, n10, n11, n12, n13, n14, n15, n16, n17, n18, n19, n20, n21⟩ := ap
  have hl : (mkBuf q).length = q.length + 1 := by simp [mkBuf]
  rw [← runeVals_end, hl]
  simp only [resetHeap, Heap.put, Heap.alloc]
  refine ⟨trivial, trivial, ?_, ?_, ?_, ?_, ?_, ?_, ?_⟩
  · simp [n3, n6, Nat.ne_of_lt b1, n1, n2, show y.max ≠ h.next + 1 by omega]
  · simp [n8, n11, Nat.ne_of_lt b2, n7, show y.pos ≠ h.next + 1 by omega]
  · simp [n12, n15, Nat.ne_of_lt b3, show y.ti ≠ h.next + 1 by omega]
  · simp
  · simp [show h.next + 1 ≠ y.buf by omega, show h.next + 1 ≠ a by omega]
  · simp [Ne.symm n18]
  · intro x hx h1 h2 h3 h4 h5
    simp [h1, h2, h3, h4, h5, Nat.ne_of_lt hx, show x ≠ h.next + 1 by omega]

end Verif.Gen
