import Verif.Mini.VisitorRun

/-! # Running `Init` of /repo/miniquery/visitor.go -/

namespace Verif.Mini
open Verif

variable {L : Lib} {n : Nat} {h : Heap}

/-- Function values. -/
def isFunc : Val → Bool
  | .nil | .clo _ _ _ _ | .lib _ | .fn _ | .meth _ _ => true
  | _ => false

/-- The variables of `Init` that its function literals use. -/
def initCaps : List Str := capSs false visitorVisitorInit

/-- One default of `Init`. -/
abbrev initStep (f : Str) (e : Expr) : Stmt :=
  .ite .nil (.bin c!"==" (.sel (.id c!"v") f) (.id c!"nil")) (.cons (.assign (.cons (.sel (.id c!"v") f) .nil) (.cons e .nil)) .nil) .nil

theorem cbOf_fset {fs : List (Str × Val)} {f g : Str} {w : Val} : cbOf (fset f w fs) g = if g = f then w else cbOf fs g := by
  have : fget g (fset f w fs) = if g = f then some w else fget g fs := by
    induction fs with
    | nil => by_cases hg : g = f <;> simp [fset, fget, hg]
    | cons p fs ih =>
      obtain ⟨y, v⟩ := p
      by_cases hy : f = y
      · by_cases hg : g = y <;> simp [fset, fget, hy, hg]
      · by_cases hg : g = y
        · subst hg; simp [fset, fget, hy, Ne.symm hy]
        · simp [fset, fget, hy, hg, ih]
  unfold cbOf
  rw [this]
  by_cases hg : g = f <;> simp [hg]

/-- One step of `Init` changes the copy of the receiver only. -/
theorem initStep_run {f : Str} {e : Expr} {w : Val} {C : Val → List Val → Heap → Vals} {base : Nat} {l : Locals} {a : Nat} {fs : List (Str × Val)}
    (hv : lget c!"v" l = some (.box a)) (hm : h.mem a = .obj c!"Visitor" fs) (hi : ∀ g, isFunc (cbOf fs g) = true) (hw : isFunc w = true)
    (hn : lget c!"nil" l = none)
    (he2 : ∀ h, evr mq C l 1 (.cons e .nil) h = .ok ([w], h))
    (hf : (findStruct c!"Visitor" mq.decls).bind (fieldType f) = some (.id c!"VisitFunc")) :
    ∃ fs', exec mq C initCaps (initStep f e) base l h = .ok (.norm, l, h.put a (.obj c!"Visitor" fs')) ∧ (∀ g, isFunc (cbOf fs' g) = true) ∧
      fs' = if isFunc (cbOf fs f) = true ∧ same (cbOf fs f) .nil = some true then fset f w fs else fs := by
  have hpk : pkgOf mq l (.id c!"v") = none := by simp [pkgOf, hv]
  have hs : select mq (.obj c!"Visitor" fs) f h = .ok ([cbOf fs f], h) := sel_cb hf
  have hcut : cut l.length l = l := by simp [cut]
  have hb : same (cbOf fs f) .nil = some true ∨ same (cbOf fs f) .nil = some false := by
    have := hi f
    cases ec : cbOf fs f <;> rw [ec] at this <;> simp [isFunc] at this <;> simp [same]
  refine ⟨_, ?_, ?_, rfl⟩
  · rcases hb with hb | hb
    · simp [initStep, exec, execs_nil, execs_cons, next_norm, ev, hpk, hv, hn, readVar, one_ok, hm, hs, binOp, hb, yes, leave_ok, hcut, he2, many_ok, assignAll,
        assign1, assignVar, hi f]
    · simp [initStep, exec, execs_nil, execs_cons, next_norm, ev, hpk, hv, hn, readVar, one_ok, hm, hs, binOp, hb, yes, leave_ok, hcut, put_self hm]
  · intro g
    split
    · rw [cbOf_fset]; split
      · exact hw
      · exact hi g
    · exact hi g

/-- What the rest of `Init` comes to. -/
def InitEnds (h0 : Heap) (a : Nat) (r : Done) : Prop := ∃ fs l, r = .ok (.norm, l, h0.put a (.obj c!"Visitor" fs))

theorem initStep_cons {f : Str} {e : Expr} {k : Stmts} {w : Val} {C : Val → List Val → Heap → Vals} {base : Nat} {l : Locals} {a : Nat}
    {fs : List (Str × Val)} {h0 : Heap} (hf : (findStruct c!"Visitor" mq.decls).bind (fieldType f) = some (.id c!"VisitFunc"))
    (hv : lget c!"v" l = some (.box a)) (hn : lget c!"nil" l = none) (hw : isFunc w = true)
    (he2 : ∀ h, evr mq C l 1 (.cons e .nil) h = .ok ([w], h))
    (hi : ∀ g, isFunc (cbOf fs g) = true)
    (H : ∀ fs', (∀ g, isFunc (cbOf fs' g) = true) → InitEnds h0 a (execs mq C initCaps k base l (h0.put a (.obj c!"Visitor" fs')))) :
    InitEnds h0 a (execs mq C initCaps (.cons (initStep f e) k) base l (h0.put a (.obj c!"Visitor" fs))) := by
  obtain ⟨fs', e1, h1, _⟩ := initStep_run (C := C) (base := base) (h := h0.put a (.obj c!"Visitor" fs)) hv (put_mem_same _ _ _) hi hw hn he2 hf
  rw [execs_cons, e1, next_norm, put_put]
  exact H fs' h1

/-- The body of `Init`. -/
theorem init_body {C : Val → List Val → Heap → Vals} {a : Nat} {fs : List (Str × Val)} {h0 : Heap} (hi : ∀ g, isFunc (cbOf fs g) = true) :
    InitEnds h0 a (execs mq C initCaps visitorVisitorInit 0 [(c!"v", .box a)] (h0.put a (.obj c!"Visitor" fs))) := by
  unfold visitorVisitorInit
  have hd : ∀ x ∈ [c!"noop", c!"binary"], x ∉ initCaps := by decide
  have e1 : ∀ ps rs b h, exec mq C initCaps (.define [c!"noop"] (.cons (.fn ps rs b) .nil)) 0 [(c!"v", .box a)] h =
      .ok (.norm, [(c!"noop", .val (.clo ps rs b [(c!"v", .box a)])), (c!"v", .box a)], h) := by
    intro ps rs b h
    simp [exec, evr, evs, ev, many_ok, defineAll, lget, declare, hd c!"noop" (by simp)]
  have e2 : ∀ ps rs b c h, exec mq C initCaps (.define [c!"binary"] (.cons (.fn ps rs b) .nil)) 0 [(c!"noop", .val c), (c!"v", .box a)] h =
      .ok (.norm, [(c!"binary", .val (.clo ps rs b [(c!"noop", .val c), (c!"v", .box a)])), (c!"noop", .val c), (c!"v", .box a)], h) := by
    intro ps rs b c h
    simp [exec, evr, evs, ev, many_ok, defineAll, lget, declare, hd c!"binary" (by simp)]
  rw [execs_cons, e1, next_norm]
  refine initStep_cons rfl rfl rfl ?_ (fun _ => rfl) hi fun fs hi => ?_
  · rfl
  refine initStep_cons rfl rfl rfl ?_ (fun _ => rfl) hi fun fs hi => ?_
  · rfl
  refine initStep_cons rfl rfl rfl ?_ (fun _ => rfl) hi fun fs hi => ?_
  · rfl
  refine initStep_cons rfl rfl rfl ?_ (fun _ => rfl) hi fun fs hi => ?_
  · rfl
  refine initStep_cons rfl rfl rfl ?_ (fun _ => rfl) hi fun fs hi => ?_
  · rfl
  rw [execs_cons, e2, next_norm]
  refine initStep_cons rfl rfl rfl ?_ (fun _ => rfl) hi fun fs hi => ?_
  · rfl
  refine initStep_cons rfl rfl rfl ?_ (fun _ => rfl) hi fun fs hi => ?_
  · rfl
  refine initStep_cons rfl rfl rfl ?_ (fun _ => rfl) hi fun fs hi => ?_
  · rfl
  refine initStep_cons rfl rfl rfl ?_ (fun _ => rfl) hi fun fs hi => ?_
  · rfl
  refine initStep_cons rfl rfl rfl ?_ (fun _ => rfl) hi fun fs hi => ?_
  · rfl
  exact ⟨_, _, rfl⟩

theorem init_eq : findFunc c!"Visitor.Init" mq.decls = some ⟨false, [c!"v"], [], visitorVisitorInit⟩ := rfl

/-- Running `Init` does not change anything that existed before. -/
theorem visitorInit_run {fs : List (Str × Val)} (hi : ∀ g, isFunc (cbOf fs g) = true) :
    ∃ w, call mq L (n + 1) (.meth (.obj c!"Visitor" fs) c!"Init") [] h = .ok ([], (h.alloc (.obj c!"Visitor" fs)).put h.next w) := by
  rw [meth_visitor init_eq rfl]
  obtain ⟨fs', l', e⟩ := init_body (C := call mq L n) (a := h.next) (h0 := h.alloc (.obj c!"Visitor" fs)) hi
  refine ⟨.obj c!"Visitor" fs', ?_⟩
  have hc : c!"v" ∈ initCaps := by decide
  rw [put_self (by simp [Heap.alloc])] at e
  have hd : declareAll initCaps [c!"v"] [.obj c!"Visitor" fs] [] h = ([(c!"v", .box h.next)], h.alloc (.obj c!"Visitor" fs)) := by
    simp [declareAll, declare, hc]
  simp only [runBody]
  rw [show capSs false visitorVisitorInit = initCaps from rfl, hd]
  simp [declareAll, e, results]

end Verif.Mini
