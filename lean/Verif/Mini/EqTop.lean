import Verif.Mini.EqVisit
import Verif.Mini.ParseRun
import Verif.Props.Parse

/-! # Running /repo/entmq/entql.go: `Build`, `BuildEntQL`, `ApplyEntQL` -/

namespace Verif.Mini
open Verif

variable {Q : Char → Bool} {N n a k w : Nat} {h : Heap} {L : Lib} {q : Str} {st : List EExpr}

theorem ep_q : findPkg c!"q" eqp.decls = false := rfl
theorem eg_Parse : call eqp L (n + 1) (.glob c!"miniquery.Parse") [] h = .ok ([.lib c!"miniquery.Parse"], h) := rfl
theorem el_Parse (args) : eqCall Q N (n + 1) (.lib c!"miniquery.Parse") args h = mqCall Q N (.fn c!"Parse") args h := rfl
theorem eg_With : call eqp L (n + 1) (.glob c!"slog.With") [] h = .ok ([.lib c!"slog.With"], h) := rfl
theorem el_With (args) : eqCall Q N (n + 1) (.lib c!"slog.With") args h = .ok ([.obj c!"slog.Logger" []], h) := rfl
theorem es_Error : select eqp (.obj c!"slog.Logger" []) c!"Error" h = .ok ([.meth (.obj c!"slog.Logger" []) c!"Error"], h) := rfl
theorem el_Error (args) : eqCall Q N (n + 1) (.meth (.obj c!"slog.Logger" []) c!"Error") args h = .ok ([], h) := rfl
theorem eh_stack : select eqp (.ptr a) c!"stack" (eHeap h a q st) = .ok ([.slice (stackVals st)], eHeap h a q st) := eb_stack
theorem eh_Query : select eqp (.ptr a) c!"Query" (eHeap h a q st) = .ok ([.str q], eHeap h a q st) := eb_Query
theorem same_eParse (e : Err) : same (errVal e) .nil = some false := by cases e <;> rfl
theorem same_nodeVal {x : Node} (hx : x ≠ .nil) : same (nodeVal x) .nil = some false := by
  cases x <;> first | exact absurd rfl hx | rfl

/-- What `Build` returns. -/
def bOut (h : Heap) (a : Nat) (q : Str) : BRes × List EExpr → Vals
  | (.panic, _) => .panic
  | (.nil, st) => .ok ([.nil, .nil], eHeap h a q st)
  | (.pred p, st) => .ok ([exprVal p, .nil], eHeap h a q st)
  | (.err e, st) => .ok ([.nil, eErrVal e], eHeap h a q st)

theorem ebuild_enter : call eqp L (n + 1) (.meth (.ptr a) c!"Build") [] (eHeap h a q st) =
    finish [c!"p", c!"err"] (execs eqp (call eqp L n) [] entqlMiniQLToEntQLBuilderBuild 0 [(c!"err", .val .nil), (c!"p", .val .nil), (c!"mb", .val (.ptr a))] (eHeap h a q st)) := by
  unfold eHeap
  rw [meth_bld (f := ⟨true, [c!"mb"], [c!"p", c!"err"], entqlMiniQLToEntQLBuilderBuild⟩) rfl rfl, runBody_named rfl (by decide) (by decide)]
  rfl

set_option maxHeartbeats 1000000 in
/-- Running `Build`. -/
theorem ebuild_run (ha : a < h.next) (hN : 7 ≤ N) (hx : ∀ x, parse q = .ok x → lvl x + 2 ≤ N ∧ lvl x ≤ n) :
    ∃ h1, Keeps (eHeap h a q st) h1 ∧ eqCall Q N (n + 4) (.meth (.ptr a) c!"Build") [] (eHeap h a q st) = bOut h1 a q (eBuild q st) := by
  by_cases hq : q = []
  · subst hq
    refine ⟨eHeap h a [] st, ⟨Nat.le_refl _, fun _ _ => rfl⟩, (ebuild_enter).trans ?_⟩
    have e : eHeap (eHeap h a [] st) a [] st = eHeap h a [] st := by simp [eHeap]
    gorun [entqlMiniQLToEntQLBuilderBuild, ep_mb, eh_Query, eBuild, bOut, e]
  · obtain ⟨N, rfl⟩ : ∃ N', N = N' + 7 := ⟨N - 7, by omega⟩
    obtain ⟨h1, K, hp⟩ := parse_run (Q := Q) (n := N) (h := eHeap h a q st) q
    have hm : h1.mem a = bldVal q (stackVals st) := by rw [K.2 a ha]; simp [eHeap]
    have e1 : h1 = eHeap h1 a q st := (put_self hm).symm
    refine ⟨h1, K, (ebuild_enter).trans ?_⟩
    rcases (C01_parse_total q).1 with ⟨x, ex⟩ | ⟨e, ex⟩
    · obtain ⟨hxN, hxn⟩ := hx x ex
      rw [ex] at hp
      have hp : mqCall Q (N + 7) (.fn c!"Parse") [.str q] (eHeap h a q st) = .ok ([nodeVal x, .nil], eHeap h1 a q st) := by rw [← e1]; exact hp
      have hv := evisit_run (Q := Q) (N := N + 7) (h := h1) (a := a) (q := q) (lvl x) x (Nat.le_refl _) hxN n hxn st
      have hP := fun n h x => el_P (Q := Q) (N := N + 7) (n := n) (h := h) x
      have hb : eBuild q st = match evisit x st with
        | .panic => (.panic, st)
        | .err e st => (.err e, st)
        | .ok [] => (.nil, [])
        | .ok (p :: st) => if p.isP then (.pred p, st) else (.panic, st) := by simp only [eBuild, hq, if_false, ex]; rfl
      cases er : evisit x st with
      | panic => gorun [entqlMiniQLToEntQLBuilderBuild, ep_mb, ep_miniquery, eg_Parse, el_Parse, eh_Query, hq, hp, eh_visit, hv, er, eOut, hb, bOut]
      | err e s1 => gorun [entqlMiniQLToEntQLBuilderBuild, ep_mb, ep_miniquery, eg_Parse, el_Parse, eh_Query, hq, hp, eh_visit, hv, er, eOut, hb, bOut, same_eErr]
      | ok s1 =>
        cases s1 with
        | nil =>
          gorun [entqlMiniQLToEntQLBuilderBuild, ep_mb, ep_miniquery, eg_Parse, el_Parse, eh_Query, hq, hp, eh_visit, hv, er, eOut, hb, bOut, eh_stack, stackVals_length]
        | cons p s1 =>
          have g0 : (0 : Int) < (s1.length : Int) + 1 := by omega
          cases hip : p.isP with
          | false =>
            gorun [entqlMiniQLToEntQLBuilderBuild, ep_mb, ep_miniquery, eg_Parse, el_Parse, eh_Query, hq, hp, eh_visit, hv, er, eOut, hb, bOut, eh_stack, stackVals_length, g0,
              eh_pop, epop_cons, hP, hip]
          | true =>
            by_cases hl : 1 < s1.length
            · have hl' : (1 : Int) < (s1.length : Int) := by omega
              gorun [entqlMiniQLToEntQLBuilderBuild, ep_mb, ep_miniquery, eg_Parse, el_Parse, eh_Query, hq, hp, eh_visit, hv, er, eOut, hb, bOut, eh_stack, stackVals_length, g0,
                eh_pop, epop_cons, hP, hip, hl, hl', ep_slog, eg_With, el_With, es_Error, el_Error]
            · have hl' : ¬ (1 : Int) < (s1.length : Int) := by omega
              gorun [entqlMiniQLToEntQLBuilderBuild, ep_mb, ep_miniquery, eg_Parse, el_Parse, eh_Query, hq, hp, eh_visit, hv, er, eOut, hb, bOut, eh_stack, stackVals_length, g0,
                eh_pop, epop_cons, hP, hip, hl, hl']
    · rw [ex] at hp
      have hp : mqCall Q (N + 7) (.fn c!"Parse") [.str q] (eHeap h a q st) = .ok ([.nil, errVal e], eHeap h1 a q st) := by rw [← e1]; exact hp
      have hb : eBuild q st = (.err (.parse e), st) := by simp only [eBuild, hq, if_false, ex]
      gorun [entqlMiniQLToEntQLBuilderBuild, ep_mb, ep_miniquery, eg_Parse, el_Parse, eh_Query, hq, hp, hb, bOut, same_eParse, eErrVal]

theorem eh_Build : select eqp (.ptr a) c!"Build" (eHeap h a q st) = .ok ([.meth (.ptr a) c!"Build"], eHeap h a q st) := eb_Build
theorem emk_bld (v : Str) : mkStruct eqp c!"MiniQLToEntQLBuilder" [(c!"Query", .str v)] h = .ok ([.ptr h.next], eHeap (h.alloc .nil) h.next v []) := by
  have e : mkStruct eqp c!"MiniQLToEntQLBuilder" [(c!"Query", .str v)] h = .ok ([.ptr h.next], h.alloc (bldVal v [])) := rfl
  have e' : h.alloc (bldVal v []) = eHeap (h.alloc .nil) h.next v [] := by
    simp only [eHeap, Heap.put, Heap.alloc, Heap.mk.injEq, true_and]; funext b; by_cases hb : b = h.next <;> simp [hb, stackVals]
  rw [e, e']
theorem eg_Wrapf : call eqp L (n + 1) (.glob c!"errors.Wrapf") [] h = .ok ([.lib c!"errors.Wrapf"], h) := rfl
theorem el_Wrapf (e f args) : eqCall Q N (n + 1) (.lib c!"errors.Wrapf") (e :: .str f :: args) h = .ok ([wrapErr e f args], h) := rfl

theorem Keeps.refl (h : Heap) : Keeps h h := ⟨Nat.le_refl _, fun _ _ => rfl⟩
theorem Keeps.trans {h h' h'' : Heap} (k : Keeps h h') (k' : Keeps h' h'') : Keeps h h'' :=
  ⟨Nat.le_trans k.1 k'.1, fun x hx => by rw [k'.2 x (Nat.lt_of_lt_of_le hx k.1), k.2 x hx]⟩

theorem keeps_new {h1 : Heap} (k : Keeps (eHeap (h.alloc .nil) h.next q st) h1) (st') : Keeps h (eHeap h1 h.next q st') := by
  have k1 : h.next + 1 ≤ h1.next := k.1
  refine ⟨by simp [eHeap]; omega, fun x hx => ?_⟩
  rw [eHeap, put_mem_other _ _ (by omega), k.2 x (by simp [eHeap, Heap.alloc]; omega), eHeap, put_mem_other _ _ (by omega)]
  simp [Heap.alloc, show ¬ x = h.next by omega]

/-- What `BuildEntQL` returns. -/
def beOut (h : Heap) (v : Str) : BRes → Vals
  | .panic => .panic
  | .nil => .ok ([.nil, .nil], h)
  | .pred p => .ok ([exprVal p, .nil], h)
  | .err e => .ok ([.nil, wrapErr (eErrVal e) c!"failed to build query: %q" [.str v]], h)

set_option maxHeartbeats 1000000 in
/-- Running `BuildEntQL`. -/
theorem buildEntQL_run (v : Str) (hN : 7 ≤ N) (hx : ∀ x, parse v = .ok x → lvl x + 2 ≤ N ∧ lvl x ≤ n) :
    ∃ h1, Keeps h h1 ∧ eqCall Q N (n + 5) (.fn c!"BuildEntQL") [.str v] h = beOut h1 v (buildEntQL v) := by
  have e : eqCall Q N (n + 5) (.fn c!"BuildEntQL") [.str v] h = runBody eqp (eqCall Q N (n + 4)) [c!"v"] [c!"_", c!"_"] entqlBuildEntQL [] [.str v] h := rfl
  obtain ⟨h1, k, hb⟩ := ebuild_run (Q := Q) (N := N) (n := n) (q := v) (h := h.alloc .nil) (a := h.next) (st := []) (by simp [Heap.alloc]) hN hx
  refine ⟨eHeap h1 h.next v (eBuild v []).2, keeps_new k _, ?_⟩
  rw [e, runBody_plain rfl (by decide) (by decide)]
  rcases er : eBuild v [] with ⟨r, s⟩
  cases r <;> gorun [entqlBuildEntQL, ep_mb, emk_bld, eh_Build, hb, er, bOut, buildEntQL, beOut, same_eErr, ep_errors, eg_Wrapf, el_Wrapf]

/-! ## ApplyEntQL -/

/-- The argument of a call of `Where`. -/
def predVal : Option EExpr → Val
  | none => .nil
  | some p => exprVal p

theorem sel_Where {l} (hw : h.mem w = whereVal l) : select eqp (.ptr w) c!"Where" h = .ok ([.meth (.ptr w) c!"Where"], h) := by
  simp only [select, structOf, hw, whereVal]
  rfl
theorem call_Where {l} (hw : h.mem w = whereVal l) (v) : eqCall Q N (n + 1) (.meth (.ptr w) c!"Where") [v] h = .ok ([], h.put w (whereVal (l ++ [v]))) := by
  show runMeth eqp (eqLib Q N) (eqCall Q N n) (.ptr w) c!"Where" [v] h = _
  have e2 : findFunc c!"Where.Where" eqp.decls = none := rfl
  have e3 : findStruct c!"Where" eqp.decls = none := rfl
  have e1 : c!"Where" ++ '.' :: c!"Where" = c!"Where.Where" := rfl
  simp only [runMeth, structOf, hw, whereVal]
  rw [e1, e2, e3]
  show eqLib Q N c!"Where.Where" [.ptr w, v] h = _
  have e4 : eqLib Q N c!"Where.Where" [.ptr w, v] h = (match h.mem w with | .obj _ [(_, .slice l)] => .ok ([], h.put w (whereVal (l ++ [v]))) | _ => .stuck) := rfl
  rw [e4, hw]
  rfl

/-- Memory that was in use is as before, but for one cell. -/
def KeepsBut (w : Nat) (h h' : Heap) : Prop := h.next ≤ h'.next ∧ ∀ x < h.next, x ≠ w → h'.mem x = h.mem x

/-- The variables in the loop of `ApplyEntQL`. -/
def aLocals (w : Nat) (qs : List Val) : Locals := [(c!"queries", .val (.slice qs)), (c!"q", .val (.ptr w))]

/-- How the loop of `ApplyEntQL` ends. -/
def aLoop (l : Locals) (h : Heap) : AEnd → Done
  | .done => .ok (.norm, l, h)
  | .failed q e => .ok (.ret [wrapErr (eErrVal e) c!"failed to apply query: %q" [.str q]], l, h)
  | .panic => .panic

/-- The body of the loop in `ApplyEntQL`. -/
def applyBody : Stmts := loopOf entqlApplyEntQL

set_option maxHeartbeats 1000000 in
theorem apply_step (v : Str) (vs : List Val) (l : List Val) (i : Nat) (hw : w < h.next) (hm : h.mem w = whereVal l) (hN : 7 ≤ N) (hx : ∀ x, parse v = .ok x → lvl x + 2 ≤ N ∧ lvl x ≤ n) :
    ∃ h1, Keeps h h1 ∧ rangeBody [] c!"_" c!"v" (execs eqp (eqCall Q N (n + 4)) [] applyBody) i (.str v) (aLocals w vs) h =
      match (eBuild v []).1 with
      | .panic => .panic
      | .err e => .ok (.ret [wrapErr (eErrVal e) c!"failed to apply query: %q" [.str v]], aLocals w vs, h1)
      | .nil => .ok (.norm, aLocals w vs, h1.put w (whereVal (l ++ [.nil])))
      | .pred p => .ok (.norm, aLocals w vs, h1.put w (whereVal (l ++ [exprVal p]))) := by
  obtain ⟨h1, k, hb⟩ := ebuild_run (Q := Q) (N := N) (n := n) (q := v) (h := h.alloc .nil) (a := h.next) (st := []) (by simp [Heap.alloc]) hN hx
  have K := keeps_new k (eBuild v []).2
  have hm' : (eHeap h1 h.next v (eBuild v []).2).mem w = whereVal l := by rw [K.2 w hw, hm]
  refine ⟨eHeap h1 h.next v (eBuild v []).2, K, ?_⟩
  rcases er : eBuild v [] with ⟨r, s⟩
  rw [er] at hm'
  have h1' := sel_Where hm'
  have h2' := fun n v => call_Where (Q := Q) (N := N) (n := n) hm' v
  have ea : applyBody = loopOf entqlApplyEntQL := rfl
  cases r <;> gorun [ea, loopOf, entqlApplyEntQL, rangeBody, aLocals, ep_mb, ep_q, emk_bld, eh_Build, hb, er, bOut, same_eErr, ep_errors, eg_Wrapf, el_Wrapf, h1', h2']

theorem KeepsBut.trans {h h' h'' : Heap} (k : KeepsBut w h h') (k' : KeepsBut w h' h'') : KeepsBut w h h'' :=
  ⟨Nat.le_trans k.1 k'.1, fun x hx hw => by rw [k'.2 x (Nat.lt_of_lt_of_le hx k.1) hw, k.2 x hx hw]⟩

theorem Keeps.put {h1 : Heap} (k : Keeps h h1) (w : Nat) (v : Val) : KeepsBut w h (h1.put w v) :=
  ⟨k.1, fun x hx hw => by rw [put_mem_other _ _ hw, k.2 x hx]⟩

theorem Keeps.but {h1 : Heap} (k : Keeps h h1) (w : Nat) : KeepsBut w h h1 := ⟨k.1, fun x hx _ => k.2 x hx⟩

/-- The loop of `ApplyEntQL`. -/
theorem apply_loop (hN : 7 ≤ N) (vs : List Val) : ∀ (qs : List Str) (i : Nat) (h : Heap) (l : List Val), w < h.next → h.mem w = whereVal l →
    (∀ v ∈ qs, ∀ x, parse v = .ok x → lvl x + 2 ≤ N ∧ lvl x ≤ n) →
    ∃ h1, KeepsBut w h h1 ∧ h1.mem w = whereVal (l ++ (applyEntQL qs).1.map predVal) ∧
      loop (rangeBody [] c!"_" c!"v" (execs eqp (eqCall Q N (n + 4)) [] applyBody)) i (qs.map Val.str) (aLocals w vs) h = aLoop (aLocals w vs) h1 (applyEntQL qs).2
  | [], i, h, l, hw, hm, hx => ⟨h, ⟨Nat.le_refl _, fun _ _ _ => rfl⟩, by simp [applyEntQL, hm], rfl⟩
  | v :: qs, i, h, l, hw, hm, hx => by
    obtain ⟨h1, k, hs⟩ := apply_step (Q := Q) (N := N) (n := n) v vs l i hw hm hN (hx v (by simp))
    have hm1 : h1.mem w = whereVal l := by rw [k.2 w hw, hm]
    have hw1 : w < h1.next := Nat.lt_of_lt_of_le hw k.1
    have tail := fun p : Val => apply_loop hN vs qs (i + 1) (h1.put w (whereVal (l ++ [p]))) (l ++ [p]) hw1 (by simp) (fun v hv => hx v (by simp [hv]))
    rw [List.map_cons, loop, hs]
    simp only [applyEntQL]
    cases (eBuild v []).1 with
    | panic => exact ⟨h1, k.but w, by simp [hm1], rfl⟩
    | nil =>
      obtain ⟨h2, k2, m2, l2⟩ := tail .nil
      exact ⟨h2, (k.put w _).trans k2, by simpa [predVal] using m2, l2⟩
    | pred p =>
      obtain ⟨h2, k2, m2, l2⟩ := tail (exprVal p)
      exact ⟨h2, (k.put w _).trans k2, by simpa [predVal] using m2, l2⟩
    | err e => exact ⟨h1, k.but w, by simp [hm1], rfl⟩

/-- What `ApplyEntQL` returns. -/
def aOut (h : Heap) : AEnd → Vals
  | .done => .ok ([.nil], h)
  | .failed q e => .ok ([wrapErr (eErrVal e) c!"failed to apply query: %q" [.str q]], h)
  | .panic => .panic

set_option maxHeartbeats 1000000 in
/-- Running `ApplyEntQL`. -/
theorem applyEntQL_run (qs : List Str) (l : List Val) (hw : w < h.next) (hm : h.mem w = whereVal l) (hN : 7 ≤ N)
    (hx : ∀ v ∈ qs, ∀ x, parse v = .ok x → lvl x + 2 ≤ N ∧ lvl x ≤ n) :
    ∃ h1, KeepsBut w h h1 ∧ h1.mem w = whereVal (l ++ (applyEntQL qs).1.map predVal) ∧
      eqCall Q N (n + 5) (.fn c!"ApplyEntQL") [.ptr w, .slice (qs.map Val.str)] h = aOut h1 (applyEntQL qs).2 := by
  have e : eqCall Q N (n + 5) (.fn c!"ApplyEntQL") [.ptr w, .slice (qs.map Val.str)] h =
    runBody eqp (eqCall Q N (n + 4)) [c!"q", c!"queries"] [c!"_"] entqlApplyEntQL [] [.ptr w, .slice (qs.map Val.str)] h := rfl
  obtain ⟨h1, k, m, hl⟩ := apply_loop (Q := Q) (N := N) (n := n) hN (qs.map Val.str) qs 0 h l hw hm hx
  refine ⟨h1, k, m, ?_⟩
  rw [e, runBody_plain rfl (by decide) (by decide)]
  simp only [applyBody, entqlApplyEntQL, loopOf, aLocals] at hl
  cases er : (applyEntQL qs).2 <;> rw [er] at hl <;> gorun [entqlApplyEntQL, hl, aLoop, aOut, aLocals]

end Verif.Mini
