import Verif.Mini.ParseRun

/-! # Running `strings.Builder` -/

namespace Verif.Mini
open Verif

variable {Q : Char → Bool} {n a : Nat} {h : Heap} {s : Str}

theorem bufText_put : bufText (h.put a (bufVal s)) a = s := by cases s <;> simp [bufText, bufVal]

theorem alloc_put (v : Val) : h.alloc v = (h.skip 1).put h.next v := rfl

theorem mk_Builder : mkStruct mq c!"strings.Builder" [] h = .ok ([.ptr h.next], (h.skip 1).put h.next (bufVal [])) := rfl

theorem structOf_buf : ∃ fs, structOf (h.put a (bufVal s)) (.ptr a) = some (c!"strings.Builder", fs) ∧ (fs = [] ∨ ∃ x, fs = [(c!"s", x)]) := by
  cases s with
  | nil => exact ⟨[], by simp [structOf, bufVal], .inl rfl⟩
  | cons c s => exact ⟨_, by simp [structOf, bufVal]; rfl, .inr ⟨_, rfl⟩⟩

theorem select_buf {m : Str} (hm : m ≠ c!"s") :
    select mq (.ptr a) m (h.put a (bufVal s)) = .ok ([.meth (.ptr a) m], h.put a (bufVal s)) := by
  obtain ⟨fs, e, h1⟩ := structOf_buf (h := h) (a := a) (s := s)
  have e1 : fget m fs = none := by rcases h1 with rfl | ⟨x, rfl⟩ <;> simp [fget, hm]
  have e2 : findStruct c!"strings.Builder" mq.decls = none := rfl
  simp [select, e, ownField, e1, e2]

theorem s_WriteString : select mq (.ptr a) c!"WriteString" (h.put a (bufVal s)) = .ok ([.meth (.ptr a) c!"WriteString"], h.put a (bufVal s)) :=
  select_buf (by decide)
theorem s_WriteRune : select mq (.ptr a) c!"WriteRune" (h.put a (bufVal s)) = .ok ([.meth (.ptr a) c!"WriteRune"], h.put a (bufVal s)) :=
  select_buf (by decide)
theorem s_String : select mq (.ptr a) c!"String" (h.put a (bufVal s)) = .ok ([.meth (.ptr a) c!"String"], h.put a (bufVal s)) :=
  select_buf (by decide)
theorem s_Len : select mq (.ptr a) c!"Len" (h.put a (bufVal s)) = .ok ([.meth (.ptr a) c!"Len"], h.put a (bufVal s)) :=
  select_buf (by decide)

theorem meth_buf {m : Str} {args} (hf : findFunc (c!"strings.Builder." ++ m) mq.decls = none) :
    mqCall Q (n + 1) (.meth (.ptr a) m) args (h.put a (bufVal s)) = mqLib Q (c!"strings.Builder." ++ m) (.ptr a :: args) (h.put a (bufVal s)) := by
  show runMeth mq (mqLib Q) (mqCall Q n) (.ptr a) m args _ = _
  obtain ⟨fs, e, h1⟩ := structOf_buf (h := h) (a := a) (s := s)
  have e1 : c!"strings.Builder" ++ '.' :: m = c!"strings.Builder." ++ m := rfl
  have e2 : findStruct c!"strings.Builder" mq.decls = none := rfl
  simp only [runMeth, e, e1, hf, e2, Option.getD_none, List.find?_nil]

theorem w_String (x : Str) : mqCall Q (n + 1) (.meth (.ptr a) c!"WriteString") [.str x] (h.put a (bufVal s)) =
    .ok ([.nil, .nil], h.put a (bufVal (s ++ x))) := by
  rw [meth_buf rfl]
  show Res.ok ([Val.nil, .nil], (h.put a (bufVal s)).put a (bufVal (bufText (h.put a (bufVal s)) a ++ x))) = _
  rw [bufText_put, put_put]

theorem w_Rune (c : Char) : mqCall Q (n + 1) (.meth (.ptr a) c!"WriteRune") [.int c.toNat] (h.put a (bufVal s)) =
    .ok ([.nil, .nil], h.put a (bufVal (s ++ [c]))) := by
  rw [meth_buf rfl]
  show Res.ok ([Val.nil, .nil], (h.put a (bufVal s)).put a (bufVal (bufText (h.put a (bufVal s)) a ++ [Char.ofNat (c.toNat : Int).toNat]))) = _
  rw [bufText_put, put_put, Int.toNat_natCast, Char.ofNat_toNat]

theorem r_String : mqCall Q (n + 1) (.meth (.ptr a) c!"String") [] (h.put a (bufVal s)) = .ok ([.str s], h.put a (bufVal s)) := by
  rw [meth_buf rfl]
  show Res.ok ([Val.str (bufText (h.put a (bufVal s)) a)], _) = _
  rw [bufText_put]

theorem r_Len : mqCall Q (n + 1) (.meth (.ptr a) c!"Len") [] (h.put a (bufVal s)) = .ok ([.int s.length], h.put a (bufVal s)) := by
  rw [meth_buf rfl]
  show Res.ok ([Val.int (bufText (h.put a (bufVal s)) a).length], _) = _
  rw [bufText_put]

end Verif.Mini
