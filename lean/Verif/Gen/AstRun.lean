import Verif.Gen.ErrRun

/-! # Running `AST` -/

namespace Verif.Gen
open Verif

variable {Q : Char → Bool} {n : Nat} {h : Heap}

theorem Ext.keep {h h' : Heap} (k : Ext h h') : Keep h h' := ⟨k.next, fun x hx _ => k.mem x hx⟩

/-- `Tokens`. -/
theorem tokens_run {a : Nat} {tr q bf r p rs pr v} (hm : h.mem a = pegObj tr q bf r p rs pr v) :
    gCall Q (n + 2) (.meth (.ptr a []) c!"Tokens") [] false h = .ok ([v], h) := by
  have e0 : gCall Q (n + 2) (.meth (.ptr a []) c!"Tokens") [] false h =
      runBody gDecls (gCall Q n) n [c!"t"] false (.cons (.arr (.id c!"token32")) .nil) gtokens32Tokens [] [.ptr a [c!"tokens32"]] false h := by
    show runMeth _ _ _ _ _ _ _ _ _ = _
    simp only [runMeth, recvType, getPath, hm, pegObj]
    show gCall Q (n + 1) (.meth (.ptr a [c!"tokens32"]) c!"Tokens") [] false h = _
    show runMeth _ _ _ _ _ _ _ _ _ = _
    simp only [runMeth, recvType, hm, pegObj]
    rfl
  rw [e0]
  have hc : capSs false gtokens32Tokens = [] := rfl
  simp only [runBody, hc]
  grun [gtokens32Tokens, select, hm, getPath, treeObj, fieldPath, fget, pegObj]

/-- A node of a syntax tree. -/
def nodeObj (t : Tok) (u nx : Val) : Val := .obj c!"node32" [(c!"token32", tokVal t), (c!"up", u), (c!"next", nx)]

/-- An element of the stack. -/
def elemObj (x : Nat) (s : Val) : Val := .obj c!"element" [(c!"node", .ptr x []), (c!"down", s)]

mutual
/-- A node of a syntax tree at an address; its descendants are at addresses from `lo`. -/
def NodeAt (h : Heap) : Nat → Nat → N32 → Val → Prop
  | lo, x, .mk t ups, nx => lo ≤ x ∧ ∃ u, h.mem x = nodeObj t u nx ∧ ListAt h lo x u ups
/-- A list of nodes, at addresses from `lo` and below `hi`. -/
def ListAt (h : Heap) : Nat → Nat → Val → List N32 → Prop
  | _, _, v, [] => v = .nilp c!"node32"
  | lo, hi, v, n :: ns => ∃ x nx, v = .ptr x [] ∧ x < hi ∧ NodeAt h lo x n nx ∧ ListAt h (x + 1) hi nx ns
end

mutual
theorem NodeAt.frame {h' : Heap} {lo x nx} : ∀ {nd}, NodeAt h lo x nd nx → (∀ a, lo ≤ a → a ≤ x → h'.mem a = h.mem a) → NodeAt h' lo x nd nx
  | .mk t ups, k, f => by
    obtain ⟨h1, u, h2, h3⟩ := k
    exact ⟨h1, u, (f x h1 (Nat.le_refl _)).trans h2, h3.frame fun a ha hb => f a ha (Nat.le_of_lt hb)⟩
theorem ListAt.frame {h' : Heap} {lo hi v} : ∀ {ns}, ListAt h lo hi v ns → (∀ a, lo ≤ a → a < hi → h'.mem a = h.mem a) → ListAt h' lo hi v ns
  | [], k, _ => k
  | nd :: ns, k, f => by
    obtain ⟨x, nx, h1, h2, h3, h4⟩ := k
    have hl : lo ≤ x := by cases nd; exact h3.1
    exact ⟨x, nx, h1, h2, h3.frame fun a ha hb => f a ha (by omega), h4.frame fun a ha hb => f a (by omega) hb⟩
end

mutual
theorem NodeAt.low {lo lo' x nx} (hl : lo' ≤ lo) : ∀ {nd}, NodeAt h lo x nd nx → NodeAt h lo' x nd nx
  | .mk t ups, k => by
    obtain ⟨h1, u, h2, h3⟩ := k
    exact ⟨Nat.le_trans hl h1, u, h2, h3.low hl⟩
theorem ListAt.low {lo lo' hi v} (hl : lo' ≤ lo) : ∀ {ns}, ListAt h lo hi v ns → ListAt h lo' hi v ns
  | [], k => k
  | nd :: ns, k => by
    obtain ⟨x, nx, h1, h2, h3, h4⟩ := k
    exact ⟨x, nx, h1, h2, h3.low hl, h4⟩
end

/-- The stack of `AST`: the trees of its elements are at addresses below `hi`, each above those of the elements below it; all are from `base`. -/
def StackAt (base : Nat) (h : Heap) : Nat → Val → List N32 → Prop
  | hi, v, [] => v = .nilp c!"element" ∧ base ≤ hi
  | hi, v, nd :: S => ∃ e x s lo, v = .ptr e [] ∧ e < h.next ∧ h.mem e = elemObj x s ∧ x < hi ∧ NodeAt h lo x nd (.nilp c!"node32") ∧ StackAt base h lo s S

theorem StackAt.base_le {base} : ∀ {S hi v}, StackAt base h hi v S → base ≤ hi
  | [], _, _, k => k.2
  | nd :: S, hi, v, k => by
    obtain ⟨e, x, s, lo, _, _, _, h2, h3, h4⟩ := k
    have : lo ≤ x := by cases nd; exact h3.1
    have := h4.base_le
    omega

theorem StackAt.frame {base} {h' : Heap} (hn : h.next ≤ h'.next) (hf : ∀ e x s, e < h.next → h.mem e = elemObj x s → h'.mem e = h.mem e) :
    ∀ {S hi v}, StackAt base h hi v S → (∀ a, base ≤ a → a < hi → h'.mem a = h.mem a) → StackAt base h' hi v S
  | [], _, _, k, _ => k
  | nd :: S, hi, v, k, f => by
    obtain ⟨e, x, s, lo, h0, h00, h1, h2, h3, h4⟩ := k
    have hl : lo ≤ x := by cases nd; exact h3.1
    have hb := h4.base_le
    exact ⟨e, x, s, lo, h0, by omega, (hf e x s h00 h1).trans h1, h2, h3.frame fun a ha hb => f a (by omega) (by omega), h4.frame hn hf fun a ha hb => f a ha (by omega)⟩

theorem StackAt.high {base hi hi'} {v S} (k : StackAt base h hi v S) (hh : hi ≤ hi') : StackAt base h hi' v S := by
  cases S with
  | nil => exact ⟨k.1, Nat.le_trans k.2 hh⟩
  | cons nd S =>
    obtain ⟨e, x, s, lo, h0, h00, h1, h2, h3, h4⟩ := k
    exact ⟨e, x, s, lo, h0, h00, h1, by omega, h3, h4⟩

theorem sel_node {x : Nat} {t u nx} (hm : h.mem x = nodeObj t u nx) (hu : isObj u = false) (hx : isObj nx = false) (b : Bool) :
    select gDecls b (.ptr x []) c!"begin" h = .ok ([.int t.b], h) ∧ select gDecls b (.ptr x []) c!"end" h = .ok ([.int t.e], h) ∧
    select gDecls b (.ptr x []) c!"pegRule" h = .ok ([.int (kindNum t.kind)], h) ∧
    select gDecls b (.ptr x []) c!"up" h = .ok ([u], h) ∧ select gDecls b (.ptr x []) c!"next" h = .ok ([nx], h) := by
  have e1 : ∀ us, fieldPath gDecls c!"begin" [(c!"token32", tokVal t), (c!"up", u), (c!"next", us)] = some [c!"token32", c!"begin"] := fun _ => rfl
  have e2 : ∀ us, fieldPath gDecls c!"end" [(c!"token32", tokVal t), (c!"up", u), (c!"next", us)] = some [c!"token32", c!"end"] := fun _ => rfl
  have e3 : ∀ us, fieldPath gDecls c!"pegRule" [(c!"token32", tokVal t), (c!"up", u), (c!"next", us)] = some [c!"token32", c!"pegRule"] := fun _ => rfl
  refine ⟨?_, ?_, ?_, ?_, ?_⟩ <;> simp only [select, getPath, hm, nodeObj, e1, e2, e3] <;> simp [fieldPath, getPath, fget, tokVal, tokObj, isObj_int, hu, hx]

theorem sel_elem {e x : Nat} {s} (hm : h.mem e = elemObj x s) (hs : isObj s = false) (b : Bool) :
    select gDecls b (.ptr e []) c!"node" h = .ok ([.ptr x []], h) ∧ select gDecls b (.ptr e []) c!"down" h = .ok ([s], h) := by
  refine ⟨?_, ?_⟩ <;> simp [select, getPath, hm, elemObj, fieldPath, fget, isObj_ptr, hs]

theorem ListAt.notObj {lo hi v ns} (k : ListAt h lo hi v ns) : isObj v = false := by
  cases ns with
  | nil => rw [show v = _ from k]; rfl
  | cons => obtain ⟨x, nx, rfl, _⟩ := k; rfl

theorem StackAt.notObj {base hi v S} (k : StackAt base h hi v S) : isObj v = false := by
  cases S with
  | nil => rw [k.1]; rfl
  | cons => obtain ⟨x, nx, _, _, rfl, _⟩ := k; rfl

/-- The body of the loop of `AST`. -/
def aBody : Stmts := loopOf (nth gtokens32AST 3)

/-- The inner loop. -/
def aCond : Expr := .bin c!"&&" (.bin c!"&&" (.bin c!"!=" (.id c!"stack") (.id c!"nil")) (.bin c!">=" (.sel (.sel (.id c!"stack") c!"node") c!"begin") (.sel (.id c!"token") c!"begin"))) (.bin c!"<=" (.sel (.sel (.id c!"stack") c!"node") c!"end") (.sel (.id c!"token") c!"end"))
def aIn : Stmts := .cons (.assign (.cons (.sel (.sel (.id c!"stack") c!"node") c!"next") .nil) (.cons (.sel (.id c!"node") c!"up") .nil))
  (.cons (.assign (.cons (.sel (.id c!"node") c!"up") .nil) (.cons (.sel (.id c!"stack") c!"node") .nil))
  (.cons (.assign (.cons (.id c!"stack") .nil) (.cons (.sel (.id c!"stack") c!"down") .nil)) .nil))

theorem aIn_eq : stmtAt aBody 2 = .loop c!"" .nil aCond .nil aIn := rfl

/-- The variables in the loop. -/
def aLoc (tv tb : Val) (p : Nat) : Locals := [(c!"stack", .val tb), (c!"tokens", .val tv), (c!"t", .box p)]
def aLoc2 (z : Nat) (t : Tok) (s tv : Val) (p : Nat) : Locals := (c!"node", .val (.ptr z [])) :: (c!"token", .val (tokVal t)) :: aLoc tv s p

theorem sel_tokv {t : Tok} {b : Bool} : select gDecls b (tokVal t) c!"begin" h = .ok ([.int t.b], h) ∧ select gDecls b (tokVal t) c!"end" h = .ok ([.int t.e], h) := by
  refine ⟨?_, ?_⟩ <;> simp [select, tokVal, tokObj, getPath, fieldPath, fget]

/-- The inner loop, on any stack. -/
theorem a_inner (t : Tok) (z p base : Nat) (tv : Val) (C : Val → List Val → Bool → Heap → Vals) (F : Nat) : ∀ (S up : List N32) (k : Nat) (h : Heap) (hi : Nat) (v u : Val),
    S.length < k → StackAt base h hi v S → hi ≤ z → h.mem z = nodeObj t u (.nilp c!"node32") → ListAt h hi z u up →
    ∃ h' hi' v' u', whileLoop c!"" (fun l h => ev gDecls C l false aCond h) (fun l h => execs gDecls C F [c!"t"] .nil l.length l h)
        (fun l h => leave l.length (execs gDecls C F [c!"t"] aIn l.length l h)) k (aLoc2 z t v tv p) h = .ok (.norm, aLoc2 z t v' tv p, h') ∧
      StackAt base h' hi' v' (popInto t S up).2 ∧ hi' ≤ z ∧ h'.mem z = nodeObj t u' (.nilp c!"node32") ∧ ListAt h' hi' z u' (popInto t S up).1 ∧
      h'.next = h.next ∧ h'.out = h.out ∧ (∀ a, a < base → h'.mem a = h.mem a)
  | S, up, 0, _, _, _, _, hk, _, _, _, _ => by omega
  | [], up, k + 1, h, hi, v, u, hk, hS, hz, hm, hu => by
    obtain ⟨rfl, hb⟩ := hS
    refine ⟨h, hi, _, u, ?_, ⟨rfl, hb⟩, hz, hm, hu, rfl, rfl, fun _ _ => rfl⟩
    have hc : ev gDecls C (aLoc2 z t (.nilp c!"element") tv p) false aCond h = .ok ([.bool false], h) := by
      grun [aCond, aLoc2, aLoc]
    simp only [whileLoop, hc, one_ok]
  | nd :: S, up, k + 1, h, hi, v, u, hk, hS, hz, hm, hu => by
    have hS0 := hS
    obtain ⟨e, x, s, lo, rfl, le, h1, h2, h3, h4⟩ := hS
    obtain ⟨t', ups⟩ := nd
    obtain ⟨hlo, w, h5, h6⟩ := h3
    have se := sel_elem h1 h4.notObj
    have sn := sel_node h5 h6.notObj (isObj_nilp _)
    have sz := sel_node hm hu.notObj (isObj_nilp _)
    have hb := h4.base_le
    have hc : ev gDecls C (aLoc2 z t (.ptr e []) tv p) false aCond h = .ok ([.bool (decide (t'.b ≥ t.b ∧ t'.e ≤ t.e))], h) := by
      by_cases c1 : t'.b ≥ t.b
      · have c1' : t.b ≤ t'.b := c1
        by_cases c2 : t'.e ≤ t.e <;> grun [aCond, aLoc2, aLoc, se, sn, sel_tokv, c1', c2]
      · have c1' : ¬ t.b ≤ t'.b := c1
        grun [aCond, aLoc2, aLoc, se, sn, sel_tokv, c1']
    by_cases hd : t'.b ≥ t.b ∧ t'.e ≤ t.e
    · have hbody : leave 5 (execs gDecls C F [c!"t"] aIn 5 (aLoc2 z t (.ptr e []) tv p) h) =
          .ok (.norm, aLoc2 z t s tv p, (h.put x (nodeObj t' w u)).put z (nodeObj t (.ptr x []) (.nilp c!"node32"))) := by
        have hne : z ≠ x := by omega
        have hxz : x ≠ z := by omega
        have a1 : e ≠ x := by intro h0; rw [h0, h5] at h1; simp [nodeObj, elemObj] at h1
        have a2 : e ≠ z := by intro h0; rw [h0, hm] at h1; simp [nodeObj, elemObj] at h1
        simp only [nodeObj, elemObj] at h1 h5 hm
        grun [aIn, put_mem_other, hne, hxz, a1, a2, setPath, fset, aLoc2, aLoc, select, getPath, fieldPath, fget, h1, h5, hm, h4.notObj, h6.notObj, hu.notObj, isObj_ptr, isObj_nilp]
        rfl
      generalize hh1 : (h.put x (nodeObj t' w u)).put z (nodeObj t (.ptr x []) (.nilp c!"node32")) = h1' at hbody
      have m1 : ∀ a, a ≠ x → a ≠ z → h1'.mem a = h.mem a := fun a ha hb => by rw [← hh1, put_mem_other _ _ hb, put_mem_other _ _ ha]
      have mx : h1'.mem x = nodeObj t' w u := by rw [← hh1, put_mem_other _ _ (by omega), put_mem_same]
      have mz : h1'.mem z = nodeObj t (.ptr x []) (.nilp c!"node32") := by rw [← hh1, put_mem_same]
      have n1 : h1'.next = h.next := by rw [← hh1]; rfl
      have o1 : h1'.out = h.out := by rw [← hh1]; rfl
      have S1 : StackAt base h1' lo s S := h4.frame (by omega)
        (fun e x' s he hm' => m1 e (fun h0 => by rw [h0, h5] at hm'; simp [nodeObj, elemObj] at hm') (fun h0 => by rw [h0, hm] at hm'; simp [nodeObj, elemObj] at hm'))
        (fun a _ hb => m1 a (by omega) (by omega))
      have L1 : ListAt h1' lo z (.ptr x []) (.mk t' ups :: up) :=
        ⟨x, u, rfl, by omega, ⟨hlo, w, mx, h6.frame fun a ha hb => m1 a (by omega) (by omega)⟩, (hu.low (by omega)).frame fun a ha hb => by
          exact m1 a (by omega) (by omega)⟩
      obtain ⟨h', hi', v', u', r1, r2, r3, r4, r5, r6, r7, r8⟩ := a_inner t z p base tv C F S (.mk t' ups :: up) k h1' lo s (.ptr x []) (by simpa using hk) S1 (by omega) mz L1
      have hp : popInto t (.mk t' ups :: S) up = popInto t S (.mk t' ups :: up) := by rw [popInto, if_pos (by exact hd)]
      refine ⟨h', hi', v', u', ?_, by rw [hp]; exact r2, r3, r4, by rw [hp]; exact r5, r6.trans n1, r7.trans o1, fun a ha => (r8 a ha).trans (m1 a (by omega) (by omega))⟩
      have hl : (aLoc2 z t (.ptr e []) tv p).length = 5 := rfl
      have hl2 : (aLoc2 z t s tv p).length = 5 := rfl
      simp only [whileLoop, hc, one_ok, decide_eq_true hd, hl, hbody, hl2, execs_nil, next_norm]
      exact r1
    · refine ⟨h, hi, .ptr e [], u, ?_, ?_, hz, hm, ?_, rfl, rfl, fun _ _ => rfl⟩
      · simp only [whileLoop, hc, one_ok, decide_eq_false hd]
      · rw [popInto, if_neg (by exact hd)]; exact hS0
      · rw [popInto, if_neg (by exact hd)]; exact hu


theorem aBody_split : aBody = .cons (stmtAt aBody 0) (.cons (stmtAt aBody 1) (.cons (stmtAt aBody 2) (.cons (stmtAt aBody 3) .nil))) := rfl

/-- One round of the loop of `AST`. -/
theorem a_round {C : Val → List Val → Bool → Heap → Vals} {F : Nat} (t : Tok) (p base : Nat) (tv : Val) {S : List N32} {hi : Nat} {v : Val} (hF : S.length < F) (hS : StackAt base h hi v S) (hz : hi ≤ h.next) (i : Nat) :
    ∃ f h' hi' v', rangeBody [c!"t"] c!"_" c!"token" (execs gDecls C F [c!"t"] aBody) i (tokVal t) (aLoc tv v p) h = .ok (f, aLoc tv v' p, h') ∧ (f = .norm ∨ f = .cont []) ∧
      StackAt base h' hi' v' (astStep S t) ∧ hi' ≤ h'.next ∧ h.next ≤ h'.next ∧ h'.out = h.out ∧ (∀ a, a < base → h'.mem a = h.mem a) := by
  have hb := hS.base_le
  by_cases ht : t.b = t.e
  · refine ⟨.cont [], h, hi, v, ?_, .inr rfl, by rw [astStep, if_pos ht]; exact hS, hz, Nat.le_refl _, rfl, fun _ _ => rfl⟩
    have s0 : exec gDecls C F [c!"t"] (stmtAt aBody 0) 3 ((c!"token", .val (tokVal t)) :: aLoc tv v p) h = .ok (.cont [], (c!"token", .val (tokVal t)) :: aLoc tv v p, h) := by
      grun [stmtAt, aBody, loopOf, nth, gtokens32AST, aLoc, sel_tokv, ht]
    have hr : rangeBody [c!"t"] c!"_" c!"token" (execs gDecls C F [c!"t"] aBody) i (tokVal t) (aLoc tv v p) h =
        leave 3 (execs gDecls C F [c!"t"] aBody 3 ((c!"token", .val (tokVal t)) :: aLoc tv v p) h) := rfl
    rw [hr, aBody_split]
    simp only [execs_cons, s0, next_cont, leave_ok]
    rfl
  · have hr : rangeBody [c!"t"] c!"_" c!"token" (execs gDecls C F [c!"t"] aBody) i (tokVal t) (aLoc tv v p) h =
        leave 3 (execs gDecls C F [c!"t"] aBody 3 ((c!"token", .val (tokVal t)) :: aLoc tv v p) h) := rfl
    have htI : ¬ ((t.b : Int) = t.e) := by omega
    have s0 : exec gDecls C F [c!"t"] (stmtAt aBody 0) 3 ((c!"token", .val (tokVal t)) :: aLoc tv v p) h = .ok (.norm, (c!"token", .val (tokVal t)) :: aLoc tv v p, h) := by
      grun [stmtAt, aBody, loopOf, nth, gtokens32AST, aLoc, sel_tokv, htI]
    have s1 : exec gDecls C F [c!"t"] (stmtAt aBody 1) 3 ((c!"token", .val (tokVal t)) :: aLoc tv v p) h =
        .ok (.norm, aLoc2 h.next t v tv p, h.alloc (nodeObj t (.nilp c!"node32") (.nilp c!"node32"))) := by
      grun [stmtAt, aBody, loopOf, nth, gtokens32AST, aLoc2, aLoc, nodeObj]
      rfl
    have S1 : StackAt base (h.alloc (nodeObj t (.nilp c!"node32") (.nilp c!"node32"))) hi v S :=
      hS.frame (Nat.le_succ _) (fun e _ _ he _ => alloc_mem_other _ _ (by omega)) (fun a _ ha => alloc_mem_other _ _ (by omega))
    have m1 : (h.alloc (nodeObj t (.nilp c!"node32") (.nilp c!"node32"))).mem h.next = nodeObj t (.nilp c!"node32") (.nilp c!"node32") := alloc_mem_same _ _
    have f1 : ∀ a, a < base → (h.alloc (nodeObj t (.nilp c!"node32") (.nilp c!"node32"))).mem a = h.mem a := fun a ha => alloc_mem_other _ _ (by omega)
    have n1 : (h.alloc (nodeObj t (.nilp c!"node32") (.nilp c!"node32"))).next = h.next + 1 := rfl
    have o1 : (h.alloc (nodeObj t (.nilp c!"node32") (.nilp c!"node32"))).out = h.out := rfl
    generalize h.alloc (nodeObj t (.nilp c!"node32") (.nilp c!"node32")) = h1 at *
    obtain ⟨h2, hi2, v2, u2, r1, r2, r3, r4, r5, r6, r7, r8⟩ := a_inner t h.next p base tv C F S [] F h1 hi v (.nilp c!"node32") hF S1 hz m1 rfl
    have s2 : exec gDecls C F [c!"t"] (stmtAt aBody 2) 3 (aLoc2 h.next t v tv p) h1 = .ok (.norm, aLoc2 h.next t v2 tv p, h2) := by
      rw [aIn_eq, exec_loop, execs_nil, next_norm, loopRun, r1, leave_ok]
      rfl
    have s3 : exec gDecls C F [c!"t"] (stmtAt aBody 3) 3 (aLoc2 h.next t v2 tv p) h2 = .ok (.norm, aLoc2 h.next t (.ptr h2.next []) tv p, h2.alloc (elemObj h.next v2)) := by
      grun [stmtAt, aBody, loopOf, nth, gtokens32AST, aLoc2, aLoc, elemObj]
      rfl
    have S3 : StackAt base (h2.alloc (elemObj h.next v2)) hi2 v2 (popInto t S []).2 :=
      r2.frame (Nat.le_succ _) (fun e _ _ he _ => alloc_mem_other _ _ (by omega)) (fun a _ ha => alloc_mem_other _ _ (by omega))
    refine ⟨.norm, h2.alloc (elemObj h.next v2), h.next + 1, .ptr h2.next [], ?_, .inl rfl, ?_, ?_, ?_, r7.trans o1, fun a ha => ?_⟩
    · rw [hr, aBody_split]
      simp only [execs_cons, s0, s1, s2, s3, next_norm, execs_nil, leave_ok]
      rfl
    · rw [astStep, if_neg ht]
      exact ⟨h2.next, h.next, v2, hi2, rfl, Nat.lt_succ_self _, alloc_mem_same _ _, Nat.lt_succ_self _,
        ⟨r3, u2, (alloc_mem_other _ _ (by omega)).trans r4, r5.frame fun a _ ha => alloc_mem_other _ _ (by omega)⟩, S3⟩
    · simp only [alloc_next]; omega
    · simp only [alloc_next]; omega
    · exact (alloc_mem_other _ _ (by omega)).trans ((r8 a ha).trans (f1 a ha))

theorem astStep_len (S : List N32) (t : Tok) : (astStep S t).length ≤ S.length + 1 := by
  have : ∀ (S up : List N32), (popInto t S up).2.length ≤ S.length := by
    intro S
    induction S with
    | nil => intro up; exact Nat.le_refl _
    | cons nd S ih =>
      intro up
      rw [popInto]
      split
      · exact Nat.le_succ_of_le (ih _)
      · exact Nat.le_refl _
  rw [astStep]
  split
  · exact Nat.le_succ _
  · simpa using this S []

/-- The loop of `AST`. -/
theorem a_loop {C : Val → List Val → Bool → Heap → Vals} {F : Nat} (p base : Nat) (tv : Val) : ∀ (ts : List Tok) (S : List N32) (h : Heap) (hi : Nat) (v : Val) (i : Nat),
    S.length + ts.length ≤ F → StackAt base h hi v S → hi ≤ h.next →
    ∃ h' hi' v', rangeLoop [] (rangeBody [c!"t"] c!"_" c!"token" (execs gDecls C F [c!"t"] aBody)) i (ts.map tokVal) (aLoc tv v p) h = .ok (.norm, aLoc tv v' p, h') ∧
      StackAt base h' hi' v' (ts.foldl astStep S) ∧ hi' ≤ h'.next ∧ h.next ≤ h'.next ∧ h'.out = h.out ∧ (∀ a, a < base → h'.mem a = h.mem a)
  | [], S, h, hi, v, _, _, hS, hz => ⟨h, hi, v, rfl, hS, hz, Nat.le_refl _, rfl, fun _ _ => rfl⟩
  | t :: ts, S, h, hi, v, i, hF, hS, hz => by
    obtain ⟨f, h1, hi1, v1, r1, r0, r2, r3, r4, r5, r6⟩ := a_round (C := C) (F := F) t p base tv (by simp at hF; omega) hS hz i
    obtain ⟨h2, hi2, v2, q1, q2, q3, q4, q5, q6⟩ := a_loop (C := C) (F := F) p base tv ts (astStep S t) h1 hi1 v1 (i + 1)
      (by have := astStep_len S t; simp at hF; omega) r2 r3
    refine ⟨h2, hi2, v2, ?_, q2, q3, by omega, q5.trans r5, fun a ha => (q6 a ha).trans (r6 a ha)⟩
    rcases r0 with rfl | rfl <;> simp [rangeLoop, r1, q1]

theorem tokens_run' {a : Nat} {tr q bf r p rs pr v} (hm : h.mem a = pegObj tr q bf r p rs pr v) :
    gCall Q (n + 1) (.meth (.ptr a [c!"tokens32"]) c!"Tokens") [] false h = .ok ([v], h) := by
  have := tokens_run (Q := Q) (n := n) hm
  have e : gCall Q (n + 2) (.meth (.ptr a []) c!"Tokens") [] false h = gCall Q (n + 1) (.meth (.ptr a [c!"tokens32"]) c!"Tokens") [] false h := by
    show runMeth _ _ _ _ _ _ _ _ _ = _
    simp only [runMeth, recvType, getPath, hm, pegObj]
    rfl
  exact e.symm.trans this

/-- `AST`. -/
theorem ast_run {a : Nat} {tr q bf r p rs pr v} {ts : List Tok} (hm : h.mem a = pegObj tr q bf r p rs pr v) (ha : a < h.next) (hv : Holds h v ts) (hF : ts.length ≤ n + 1) :
    ∃ h' lo hi w, gCall Q (n + 2) (.meth (.ptr a [c!"tokens32"]) c!"AST") [] false h = .ok ([w], h') ∧ Ext h h' ∧ h'.out = h.out ∧ h.next ≤ lo ∧ hi ≤ h'.next ∧
      ListAt h' lo hi w (ast ts).toList := by
  have e0 : gCall Q (n + 2) (.meth (.ptr a [c!"tokens32"]) c!"AST") [] false h =
      runBody gDecls (gCall Q (n + 1)) (n + 1) [c!"t"] false (.cons (.un c!"*" (.id c!"node32")) .nil) gtokens32AST [] [.ptr a [c!"tokens32"]] false h := by
    show runMeth _ _ _ _ _ _ _ _ _ = _
    simp only [runMeth, recvType, getPath, hm, pegObj]
    rfl
  have hc : capSs false gtokens32AST = [c!"t"] := rfl
  have m1 : (h.alloc (.ptr a [c!"tokens32"])).mem h.next = .ptr a [c!"tokens32"] := alloc_mem_same _ _
  have hm1 : (h.alloc (.ptr a [c!"tokens32"])).mem a = pegObj tr q bf r p rs pr v := (alloc_mem_other _ _ (by omega)).trans hm
  have hv1 : view (h.alloc (.ptr a [c!"tokens32"])) v = some (ts.map tokVal) := (hv.keep (Ext.alloc _).keep).view
  have x1 : Ext h (h.alloc (.ptr a [c!"tokens32"])) := .alloc _
  have n1 : (h.alloc (.ptr a [c!"tokens32"])).next = h.next + 1 := rfl
  have o1 : (h.alloc (.ptr a [c!"tokens32"])).out = h.out := rfl
  have hb : runBody gDecls (gCall Q (n + 1)) (n + 1) [c!"t"] false (.cons (.un c!"*" (.id c!"node32")) .nil) gtokens32AST [] [.ptr a [c!"tokens32"]] false h =
      finish (.cons (.un c!"*" (.id c!"node32")) .nil) (execs gDecls (gCall Q (n + 1)) (n + 1) [c!"t"] gtokens32AST 0 [(c!"t", .box h.next)] (h.alloc (.ptr a [c!"tokens32"]))) := rfl
  rw [e0, hb]
  generalize h.alloc (.ptr a [c!"tokens32"]) = h1 at *
  have hs : gtokens32AST = .cons (stmtAt gtokens32AST 0) (.cons (stmtAt gtokens32AST 1) (.cons (stmtAt gtokens32AST 2) (.cons (.range c!"" c!"_" c!"token" (.id c!"tokens") aBody)
    (.cons (stmtAt gtokens32AST 4) (.cons (stmtAt gtokens32AST 5) .nil))))) := rfl
  have ht := tokens_run' (Q := Q) (n := n) hm1
  have s0 : exec gDecls (gCall Q (n + 1)) (n + 1) [c!"t"] (stmtAt gtokens32AST 0) 0 [(c!"t", .box h.next)] h1 = .ok (.norm, [(c!"t", .box h.next)], h1) := by
    grun [stmtAt, gtokens32AST]
  have hsel : select gDecls false (.ptr a [c!"tokens32"]) c!"Tokens" h1 = .ok ([.meth (.ptr a [c!"tokens32"]) c!"Tokens"], h1) := by
    simp only [select, getPath, hm1, pegObj]; rfl
  have s1 : exec gDecls (gCall Q (n + 1)) (n + 1) [c!"t"] (stmtAt gtokens32AST 1) 0 [(c!"t", .box h.next)] h1 = .ok (.norm, [(c!"tokens", .val v), (c!"t", .box h.next)], h1) := by
    grun [stmtAt, gtokens32AST, m1, hsel, ht]
  have s2 : exec gDecls (gCall Q (n + 1)) (n + 1) [c!"t"] (stmtAt gtokens32AST 2) 0 [(c!"tokens", .val v), (c!"t", .box h.next)] h1 =
      .ok (.norm, aLoc v (.nilp c!"element") h.next, h1) := by
    grun [stmtAt, gtokens32AST, aLoc]
    rfl
  obtain ⟨h2, hi2, v2, q1, q2, q3, q4, q5, q6⟩ := a_loop (C := gCall Q (n + 1)) (F := n + 1) h.next h1.next v ts [] h1 h1.next (.nilp c!"element") 0 (by simpa using hF) ⟨rfl, Nat.le_refl _⟩ (Nat.le_refl _)
  have s3 : exec gDecls (gCall Q (n + 1)) (n + 1) [c!"t"] (.range c!"" c!"_" c!"token" (.id c!"tokens") aBody) 0 (aLoc v (.nilp c!"element") h.next) h1 = .ok (.norm, aLoc v v2 h.next, h2) := by
    simp only [aLoc] at q1
    grun [aLoc, hv1, q1]
  have x2 : Ext h1 h2 := ⟨q4, fun x hx => q6 x hx⟩
  cases hS : ts.foldl astStep [] with
  | nil =>
    rw [hS] at q2
    obtain ⟨rfl, q2⟩ := q2
    refine ⟨h2, h2.next, h2.next, .nilp c!"node32", ?_, x1.trans x2, q5.trans o1, by omega, Nat.le_refl _, ?_⟩
    · have s4 : exec gDecls (gCall Q (n + 1)) (n + 1) [c!"t"] (stmtAt gtokens32AST 4) 0 (aLoc v (.nilp c!"element") h.next) h2 = .ok (.norm, aLoc v (.nilp c!"element") h.next, h2) := by
        grun [stmtAt, gtokens32AST, aLoc]
      have s5 : exec gDecls (gCall Q (n + 1)) (n + 1) [c!"t"] (stmtAt gtokens32AST 5) 0 (aLoc v (.nilp c!"element") h.next) h2 = .ok (.ret [.nil], aLoc v (.nilp c!"element") h.next, h2) := by
        grun [stmtAt, gtokens32AST, aLoc]
      rw [hs]
      simp only [execs_cons, s0, s1, s2, s3, s4, s5, next_norm, next_ret, finish, coerce]
    · rw [ast, hS]; rfl
  | cons nd S =>
    rw [hS] at q2
    have hb2 := q2.base_le
    obtain ⟨e, x, s, lo, rfl, g0, g1, g2, g3, g4⟩ := q2
    have hl : lo ≤ x := by cases nd; exact g3.1
    have hb3 := g4.base_le
    have se := sel_elem g1 g4.notObj
    refine ⟨h2, lo, hi2, .ptr x [], ?_, x1.trans x2, q5.trans o1, by omega, q3, ?_⟩
    · have s4 : exec gDecls (gCall Q (n + 1)) (n + 1) [c!"t"] (stmtAt gtokens32AST 4) 0 (aLoc v (.ptr e []) h.next) h2 = .ok (.ret [.ptr x []], aLoc v (.ptr e []) h.next, h2) := by
        grun [stmtAt, gtokens32AST, aLoc, se]
      rw [hs]
      simp only [execs_cons, s0, s1, s2, s3, s4, next_norm, next_ret, finish, coerce]
    · rw [ast, hS]; exact ⟨x, _, rfl, g2, g3, rfl⟩

end Verif.Gen
