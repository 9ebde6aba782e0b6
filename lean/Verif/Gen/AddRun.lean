import Verif.Gen.Steps

/-! # Running the methods of `tokens32` -/

namespace Verif.Gen
open Verif

variable {Q : Char → Bool} {n : Nat} {h : Heap}

/-- A slice of tokens. -/
def Toks (h : Heap) (v : Val) (ts : List Tok) : Prop := (v = .nil ∧ ts = []) ∨ ∃ a, a < h.next ∧ v = .sl a 0 ts.length ∧ h.mem a = .arr (ts.map tokVal)

theorem Toks.view {v ts} (k : Toks h v ts) : view h v = some (ts.map tokVal) := by
  rcases k with ⟨rfl, rfl⟩ | ⟨a, _, rfl, e⟩
  · rfl
  · simp [Gen.view, e, List.take_of_length_le]

/-- The memory after `Add` on a `tokens32` at `a` with the slice `v`. -/
def addHeap (h : Heap) (a : Nat) (v : Val) (ts : List Tok) (t : Tok) (i : Nat) : Heap :=
  if ts.length ≤ i then ((h.alloc (.arr ((ts ++ [t]).map tokVal))).put a (treeObj (.sl h.next 0 (ts.length + 1))))
  else match v with
    | .sl b _ _ => h.put b (.arr ((ts.set i t).map tokVal))
    | _ => h

theorem zero_token32 : zeroOf gDecls 3 (.id c!"token32") = tokObj 0 0 0 := rfl
theorem lit_named (k b e : Val) : setFields (tokObj 0 0 0) (.cons (.id c!"pegRule") (.cons (.id c!"begin") (.cons (.id c!"end") .nil))) [k, b, e] =
    .obj c!"token32" [(c!"pegRule", k), (c!"begin", b), (c!"end", e)] := rfl
theorem lit_plain (k b e : Val) : setFields (tokObj 0 0 0) (.cons .no (.cons .no (.cons .no .nil))) [k, b, e] =
    .obj c!"token32" [(c!"pegRule", k), (c!"begin", b), (c!"end", e)] := rfl

/-- `Add`. -/
theorem add_run {a : Nat} {v ts} (hm : h.mem a = treeObj v) (ht : Toks h v ts) (ha : a < h.next) (k : TokKind) (b e i : Nat) :
    gCall Q (n + 1) (.meth (.ptr a []) c!"Add") [.int (kindNum k), .int b, .int e, .int i] false h = .ok ([], addHeap h a v ts ⟨k, b, e⟩ i) := by
  have e0 : gCall Q (n + 1) (.meth (.ptr a []) c!"Add") [.int (kindNum k), .int b, .int e, .int i] false h =
      runBody gDecls (gCall Q n) n [c!"t", c!"rule", c!"begin", c!"end", c!"index"] false .nil gtokens32Add []
        [.ptr a [], .int (kindNum k), .int b, .int e, .int i] false h := by
    show runMeth _ _ _ _ _ _ _ _ _ = _
    simp only [runMeth, recvType, getPath, hm, treeObj]
    rfl
  rw [e0]
  have hc : capSs false gtokens32Add = [] := rfl
  simp only [runBody, hc]
  have hv := ht.view
  have hsel : select gDecls false (.ptr a []) c!"tree" h = .ok ([v], h) := by simp [select, getPath, hm, treeObj, fieldPath, fget]
  have hn : a ≠ h.next := Nat.ne_of_lt ha
  by_cases hi : ts.length ≤ i
  · grun [gtokens32Add, hsel, hv, hi, newSlice, zero_token32, setFields, litFields, fset, alloc_mem_other, hn, hm, getPath, treeObj, fieldPath, fget, fset, setPath, addHeap,
      tokVal, tokObj]
  · rcases ht with ⟨rfl, rfl⟩ | ⟨t, htn, rfl, hmt⟩
    · simp at hi
    · have h2 : i < ts.length := by omega
      grun [gtokens32Add, hsel, hv, hi, zero_token32, setFields, litFields, fset, addHeap, setElem, hmt, h2, tokVal, tokObj, List.map_set]

/-- `Trim`. -/
theorem trim_run {a v m : Nat} {tr q bf r p rs pr} (hm : h.mem a = pegObj tr q bf r p rs pr (.sl v 0 m)) {i : Nat} (hi : i ≤ m) :
    gCall Q (n + 2) (.meth (.ptr a []) c!"Trim") [.int i] false h = .ok ([], h.put a (pegObj tr q bf r p rs pr (.sl v 0 i))) := by
  have e0 : gCall Q (n + 2) (.meth (.ptr a []) c!"Trim") [.int i] false h =
      runBody gDecls (gCall Q n) n [c!"t", c!"length"] false .nil gtokens32Trim [] [.ptr a [c!"tokens32"], .int i] false h := by
    show runMeth _ _ _ _ _ _ _ _ _ = _
    simp only [runMeth, recvType, getPath, hm, pegObj]
    show gCall Q (n + 1) (.meth (.ptr a [c!"tokens32"]) c!"Trim") [.int i] false h = _
    show runMeth _ _ _ _ _ _ _ _ _ = _
    simp only [runMeth, recvType, hm, pegObj]
    rfl
  rw [e0]
  have hc : capSs false gtokens32Trim = [] := rfl
  simp only [runBody, hc]
  grun [gtokens32Trim, select, hm, getPath, treeObj, fieldPath, fget, fset, setPath, pegObj, hi]

end Verif.Gen
