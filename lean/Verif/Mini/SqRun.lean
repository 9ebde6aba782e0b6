import Verif.Mini.Sq
import Verif.Mini.EqTop
import Verif.Mini.StringRun

/-! # Running /repo/entmq/entsql_util.go, and the memory of /repo/entmq/entsql.go -/

namespace Verif.Mini
open Verif

variable {Q : Char → Bool} {N n k D : Nat} {h g g' : Heap} {L : Lib} {p : SPar}

/-- What a call does in entsql.go, if ent may call back `k` times one inside the other. -/
abbrev sqCall (Q : Char → Bool) (N D : Nat) (p : SPar) (k : Nat) : Nat → Val → List Val → Heap → Vals := call sqp (sqLib Q N p (sqc Q N D p k))

/-! ## entsql_util.go -/

theorem sg_Postgres : call sqp L (n + 1) (.glob c!"dialect.Postgres") [] h = .ok ([.str c!"postgres"], h) := rfl
theorem smk_cast (fs) : mkStruct sqp c!"typeCastParamFormatter" fs h = .ok ([.obj c!"typeCastParamFormatter" fs], h) := rfl
theorem sf_cast : findStruct c!"typeCastParamFormatter" sqp.decls = some [(c!"v", .id c!"interface")] := rfl
theorem sp_info : findPkg c!"info" sqp.decls = false := rfl
theorem sp_f : findPkg c!"f" sqp.decls = false := rfl
theorem sp_dialect : findPkg c!"dialect" sqp.decls = true := rfl
theorem ss_Dialect (d) : select sqp (.obj c!"sql.StmtInfo" [(c!"Dialect", .str d)]) c!"Dialect" h = .ok ([.str d], h) := rfl
theorem ss_v (v) : select sqp (.obj c!"typeCastParamFormatter" [(c!"v", v)]) c!"v" h = .ok ([v], h) := rfl

/-- Running `argWithCast`. -/
theorem argWithCast_run (v : GoVal) : call sqp L (n + 1) (.fn c!"argWithCast") [goVal v] h = .ok ([argVal (.cast v)], h) := by
  have e : call sqp L (n + 1) (.fn c!"argWithCast") [goVal v] h = runBody sqp (call sqp L n) [c!"in"] [c!"_"] utilargWithCast [] [goVal v] h := rfl
  rw [e, runBody_plain rfl (by decide) (by decide)]
  gorun [utilargWithCast, smk_cast, sf_cast, argVal]

/-- Running `FormatParam`. -/
theorem formatParam_run (v : GoVal) (ph d : Str) :
    call sqp L (n + 2) (.meth (argVal (.cast v)) c!"FormatParam") [.str ph, .obj c!"sql.StmtInfo" [(c!"Dialect", .str d)]] h = .ok ([.str (formatParam v.type ph d)], h) := by
  have e : call sqp L (n + 2) (.meth (argVal (.cast v)) c!"FormatParam") [.str ph, .obj c!"sql.StmtInfo" [(c!"Dialect", .str d)]] h =
    runBody sqp (call sqp L (n + 1)) [c!"f", c!"placeholder", c!"info"] [c!"_"] utiltypeCastParamFormatterFormatParam []
      [argVal (.cast v), .str ph, .obj c!"sql.StmtInfo" [(c!"Dialect", .str d)]] h := rfl
  rw [e, runBody_plain rfl (by decide) (by decide)]
  by_cases hd : d = c!"postgres"
  · subst hd
    cases v <;> gorun [utiltypeCastParamFormatterFormatParam, argVal, goVal, sp_info, sp_f, sp_dialect, sg_Postgres, ss_Dialect, ss_v, execTypes, anyType, endSwitch, formatParam, GoVal.type, zeroOf, zeroBase]
  · gorun [utiltypeCastParamFormatterFormatParam, argVal, sp_info, sp_f, sp_dialect, sg_Postgres, ss_Dialect, ss_v, formatParam, hd]

/-- Running `Value`. -/
theorem castValue_run (v : GoVal) : call sqp L (n + 2) (.meth (argVal (.cast v)) c!"Value") [] h = .ok ([goVal v, .nil], h) := by
  have e : call sqp L (n + 2) (.meth (argVal (.cast v)) c!"Value") [] h = runBody sqp (call sqp L (n + 1)) [c!"f"] [c!"_", c!"_"] utiltypeCastParamFormatterValue [] [argVal (.cast v)] h := rfl
  rw [e, runBody_plain rfl (by decide) (by decide)]
  gorun [utiltypeCastParamFormatterValue, argVal, sp_f, ss_v]

/-! ## Builders in memory -/

theorem rbldOf_val (b : RBld) : rbldOf b.val = some b := rfl

/-- Where a `MiniQLToEntSQLBuilder` is, with the builder embedded in it and the other one, and the fields of it that do not change. -/
structure Sit where
  a : Nat
  b : Nat
  c : Nat
  x : Bool
  node : Option Nat
  q : Str
  ast : Val
  graph : Val
  dis : Bool

/-- The builder that `visit` writes to. -/
def Sit.s (S : Sit) : Nat := if S.x then S.c else S.b

/-- The memory with the two builders. -/
def sHeap (S : Sit) (mb : MB) (g : Heap) : Heap :=
  (match mb.ext with | none => g | some e => g.put S.c (rbld e).val).put S.b (rbld mb.own).val

/-- There is a second builder if the field says so. -/
def Fits (S : Sit) (mb : MB) : Prop := mb.ext.isSome = S.x

/-- An address that is not one of a builder. -/
def Sit.off (S : Sit) (y : Nat) : Prop := y ≠ S.b ∧ (S.x = true → y ≠ S.c)

/-- A schema: nodes, where they are, and which ones are there. -/
structure Sch where
  G : Nat → FNode
  nd : Nat → Nat
  T : Nat → Prop
  closed : ∀ t, T t → ∀ kv ∈ (G t).edges, T kv.2.to

/-- The address of a node. -/
def nodePtr (nd : Nat → Nat) : Option Nat → Val
  | none => .nil
  | some t => .ptr (nd t)

/-- The `MiniQLToEntSQLBuilder` of a situation. -/
def Sit.val (Z : Sch) (S : Sit) : Val := mbVal (nodePtr Z.nd S.node) S.q S.ast (if S.x then .ptr S.c else .nil) S.graph S.b S.dis

/-- Everything is in memory. -/
structure SAt (Z : Sch) (S : Sit) (g : Heap) : Prop where
  la : S.a < g.next
  lb : S.b < g.next
  lc : S.x = true → S.c < g.next
  oa : S.off S.a
  bc : S.x = true → S.b ≠ S.c
  mem : g.mem S.a = S.val Z
  node : ∀ t, S.node = some t → Z.T t
  ln : ∀ t, Z.T t → Z.nd t < g.next
  on : ∀ t, Z.T t → S.off (Z.nd t)
  nodes : ∀ t, Z.T t → g.mem (Z.nd t) = fnodeVal Z.nd (Z.G t)

theorem SAt.keeps {Z S} (A : SAt Z S g) (K : Keeps g g') : SAt Z S g' where
  la := Nat.lt_of_lt_of_le A.la K.1
  lb := Nat.lt_of_lt_of_le A.lb K.1
  lc h := Nat.lt_of_lt_of_le (A.lc h) K.1
  oa := A.oa
  bc := A.bc
  mem := by rw [K.2 _ A.la, A.mem]
  node := A.node
  ln t h := Nat.lt_of_lt_of_le (A.ln t h) K.1
  on := A.on
  nodes t h := by rw [K.2 _ (A.ln t h), A.nodes t h]

theorem keeps_alloc (v) : Keeps g (g.alloc v) :=
  ⟨by simp [Heap.alloc], fun x hx => by simp [Heap.alloc, show ¬ x = g.next by omega]⟩
theorem skeeps_put {g0 : Heap} (K : Keeps g0 g) {e : Nat} (h : g0.next ≤ e) (v) : Keeps g0 (g.put e v) :=
  ⟨K.1, fun x hx => by rw [put_mem_other _ _ (by omega), K.2 x hx]⟩
theorem sput_comm {a b : Nat} (hab : a ≠ b) (v w) : (g.put a v).put b w = (g.put b w).put a v := by
  simp only [Heap.put, Heap.mk.injEq, true_and]; funext y; by_cases h1 : y = a <;> by_cases h2 : y = b <;> simp [h1, h2] <;> omega
theorem salloc_put {a : Nat} (ha : a < g.next) (v w) : (g.put a v).alloc w = (g.alloc w).put a v := by
  simp only [Heap.put, Heap.alloc, Heap.mk.injEq, true_and]; funext y; by_cases h1 : y = a <;> by_cases h2 : y = g.next <;> simp [h1, h2] <;> omega
theorem alloc_mem_new (v) : (g.alloc v).mem g.next = v := by simp [Heap.alloc]
theorem alloc_mem_old {y : Nat} (hy : y < g.next) (v) : (g.alloc v).mem y = g.mem y := (keeps_alloc v).2 y hy
theorem salloc_next (v) : (g.alloc v).next = g.next + 1 := rfl

variable {S : Sit} {mb : MB} {Z : Sch}

theorem sh_next : (sHeap S mb g).next = g.next := by unfold sHeap; split <;> rfl
theorem fits_none (hf : Fits S mb) (e : mb.ext = none) : S.x = false := by rw [Fits, e] at hf; simpa using hf.symm
theorem fits_some {b} (hf : Fits S mb) (e : mb.ext = some b) : S.x = true := by rw [Fits, e] at hf; simpa using hf.symm
theorem sh_mem {y : Nat} (hy : S.off y) (hf : Fits S mb) : (sHeap S mb g).mem y = g.mem y := by
  unfold sHeap
  rw [put_mem_other _ _ hy.1]
  split
  · rfl
  · next b e => rw [put_mem_other _ _ (hy.2 (fits_some hf e))]
theorem sh_put {y : Nat} (hy : S.off y) (hf : Fits S mb) (v) : (sHeap S mb g).put y v = sHeap S mb (g.put y v) := by
  unfold sHeap
  rw [sput_comm (Ne.symm hy.1)]
  split
  · rfl
  · next b e => rw [sput_comm (Ne.symm (hy.2 (fits_some hf e)))]
theorem sh_alloc (A : SAt Z S g) (hf : Fits S mb) (v) : (sHeap S mb g).alloc v = sHeap S mb (g.alloc v) := by
  unfold sHeap
  split
  · rw [salloc_put A.lb]
  · next b e => rw [salloc_put (by simpa using A.lb), salloc_put (A.lc (fits_some hf e))]
theorem sh_own : (sHeap S mb g).mem S.b = (rbld mb.own).val := put_mem_same _ _ _
theorem sh_putOwn (f) : (sHeap S mb g).put S.b (rbld f).val = sHeap S { mb with own := f } g := by
  unfold sHeap; rw [put_put]

theorem fits_put (f) : Fits S (mb.put f) = Fits S mb := by
  unfold MB.put Fits; split <;> simp [*]
theorem fits_write (t) : Fits S (mb.write t) = Fits S mb := fits_put _
theorem fits_join (t a e) : Fits S (mb.join t a e) = Fits S mb := rfl
theorem fits_own (o) : Fits S { mb with own := o } = Fits S mb := rfl

/-- The builder that `visit` writes to. -/
def mbCur (mb : MB) : Bld := mb.ext.getD mb.own

theorem sh_cur (A : SAt Z S g) (hf : Fits S mb) : (sHeap S mb g).mem S.s = (rbld (mbCur mb)).val := by
  unfold sHeap Sit.s mbCur
  cases e : mb.ext with
  | none => simp [fits_none hf e]
  | some b => have hx := fits_some hf e; simp [hx]; rw [put_mem_other _ _ (Ne.symm (A.bc hx))]; simp
theorem sh_putCur (A : SAt Z S g) (hf : Fits S mb) (f : Bld → Bld) : (sHeap S mb g).put S.s (rbld (f (mbCur mb))).val = sHeap S (mb.put f) g := by
  unfold sHeap Sit.s mbCur MB.put
  cases e : mb.ext with
  | none => simp [fits_none hf e, e]
  | some b => have hx := fits_some hf e; simp [hx]; rw [sput_comm (A.bc hx)]; simp

theorem onBld_cur (A : SAt Z S g) (hf : Fits S mb) (F : RBld → RBld) (f : Bld → Bld) (hF : ∀ b, F (rbld b) = rbld (f b)) :
    onBld S.s F (sHeap S mb g) = .ok ([.ptr S.s], sHeap S (mb.put f) g) := by
  rw [onBld, sh_cur A hf, rbldOf_val]
  simp only [hF]
  rw [sh_putCur A hf]
theorem onBld_own (F : RBld → RBld) (f : Bld) (hF : F (rbld mb.own) = rbld f) :
    onBld S.b F (sHeap S mb g) = .ok ([.ptr S.b], sHeap S { mb with own := f } g) := by
  rw [onBld, sh_own, rbldOf_val]
  simp only [hF]
  rw [sh_putOwn]

/-- If memory in use stays as it is, the builders do. -/
theorem sh_keeps (A : SAt Z S g) (hf : Fits S mb) (K : Keeps (sHeap S mb g) h) : ∃ g', Keeps g g' ∧ h = sHeap S mb g' := by
  have hn : (sHeap S mb g).next = g.next := sh_next
  have K1 := K.1
  have K2 := K.2
  rw [hn] at K1 K2
  cases e : mb.ext with
  | none =>
    refine ⟨h.put S.b (g.mem S.b), ⟨K1, fun y hy => ?_⟩, ?_⟩
    · by_cases hb : y = S.b
      · subst hb; simp
      · rw [put_mem_other _ _ hb, K2 y hy]; simp only [sHeap, e]; rw [put_mem_other _ _ hb]
    · simp only [sHeap, e, put_put]
      rw [put_self]
      rw [K2 _ A.lb, sh_own]
  | some b =>
    have hx := fits_some hf e
    have bc := A.bc hx
    refine ⟨(h.put S.c (g.mem S.c)).put S.b (g.mem S.b), ⟨K1, fun y hy => ?_⟩, ?_⟩
    · by_cases hb : y = S.b
      · subst hb; simp
      · rw [put_mem_other _ _ hb]
        by_cases hc : y = S.c
        · subst hc; simp
        · rw [put_mem_other _ _ hc, K2 y hy, sh_mem ⟨hb, fun _ => hc⟩ hf]
    · simp only [sHeap, e]
      rw [sput_comm bc, put_put, put_put, sput_comm (Ne.symm bc), put_self, put_self]
      · rw [K2 _ A.lb, sh_own]
      · have e1 : h.mem S.b = (rbld mb.own).val := by rw [K2 _ A.lb, sh_own]
        rw [put_self e1]
        have hs := sh_cur A hf
        simp only [Sit.s, hx, if_true, mbCur, e, Option.getD_some] at hs
        rw [K2 _ (A.lc hx), hs]

end Verif.Mini
