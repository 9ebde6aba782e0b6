import Verif.Props.GoGorm
import Verif.Props.EntQL
import Verif.Mini.EqTop

/-!
# C84: entql.go, run as written

`entqlProgram` reads the text of /repo/entmq/entql.go (and of node.go, whose types and constants it uses) as a program.  The calls that leave the file go to
`eqLib`: the functions of the package miniquery, run as written (C81), and the package entql.  The theorems say that running a function gives what the model says.
-/

namespace Verif
open Mini

/-- The package entmq as entql.go says. -/
def entqlProgram : Option Prog :=
  match readGo entqlText, readGo nodeText with
  | some ds, some ns => some { decls := ds ++ exported ns, cells := [c!"MiniQLToEntQLBuilder"] }
  | _, _ => none

/-- C84: the file is a program of the language that `call` runs. -/
theorem C84_program : entqlProgram = some eqp := by
  unfold entqlProgram
  rw [entql_read, node_read]
  rfl

theorem eqp_of {P : Prog} (hP : entqlProgram = some P) : P = eqp := (Option.some.inj (C84_program.symm.trans hP)).symm

/-- C84: `Build` of a builder with any query and any stack, so of one used before as well: the result is that of the model, and the builder has the query and the stack of the
model afterwards.  No other memory that was in use changes. -/
theorem C84_builder {P : Prog} (hP : entqlProgram = some P) (Q : Char → Bool) (q : Str) (st : List EExpr) (N n : Nat)
    (hN : 5 * q.length + 7 ≤ N) (hn : 5 * q.length + 4 ≤ n) (h : Heap) {a : Nat} (ha : a < h.next) (e : h.mem a = bldVal q (stackVals st)) :
    ∃ h', KeepsBut a h h' ∧
      match eBuild q st with
      | (.panic, _) => call P (eqLib Q N) n (.meth (.ptr a) c!"Build") [] h = .panic
      | (.nil, st') => call P (eqLib Q N) n (.meth (.ptr a) c!"Build") [] h = .ok ([.nil, .nil], h') ∧ h'.mem a = bldVal q (stackVals st')
      | (.pred p, st') => call P (eqLib Q N) n (.meth (.ptr a) c!"Build") [] h = .ok ([exprVal p, .nil], h') ∧ h'.mem a = bldVal q (stackVals st')
      | (.err x, st') => call P (eqLib Q N) n (.meth (.ptr a) c!"Build") [] h = .ok ([.nil, eErrVal x], h') ∧ h'.mem a = bldVal q (stackVals st') := by
  obtain ⟨n, rfl⟩ : ∃ n', n = n' + 4 := ⟨n - 4, by omega⟩
  rw [eqp_of hP]
  obtain ⟨h1, k, r⟩ := ebuild_run (Q := Q) (N := N) (n := n) (q := q) (h := h) (a := a) (st := st) ha (by omega) (fun x hx => by have := lvl_parse hx; omega)
  have eh : eHeap h a q st = h := put_self e
  rw [eh] at k r
  refine ⟨eHeap h1 a q (eBuild q st).2, ⟨k.1, fun x hx hne => by rw [eHeap, put_mem_other _ _ hne, k.2 x hx]⟩, ?_⟩
  rcases eb : eBuild q st with ⟨r', s⟩
  rw [eb] at r
  cases r' with
  | panic => exact r
  | nil => exact ⟨r, by simp [eHeap]⟩
  | pred p => exact ⟨r, by simp [eHeap]⟩
  | err x => exact ⟨r, by simp [eHeap]⟩

/-- C84: `BuildEntQL`.  No memory that was in use changes. -/
theorem C84_build {P : Prog} (hP : entqlProgram = some P) (Q : Char → Bool) (q : Str) (N n : Nat)
    (hN : 5 * q.length + 7 ≤ N) (hn : 5 * q.length + 5 ≤ n) (h : Heap) :
    ∃ h', Keeps h h' ∧ call P (eqLib Q N) n (.fn c!"BuildEntQL") [.str q] h =
      match buildEntQL q with
      | .panic => .panic
      | .nil => .ok ([.nil, .nil], h')
      | .pred p => .ok ([exprVal p, .nil], h')
      | .err e => .ok ([.nil, wrapErr (eErrVal e) c!"failed to build query: %q" [.str q]], h') := by
  obtain ⟨n, rfl⟩ : ∃ n', n = n' + 5 := ⟨n - 5, by omega⟩
  rw [eqp_of hP]
  obtain ⟨h1, k, r⟩ := buildEntQL_run (Q := Q) (N := N) (n := n) (h := h) q (by omega) (fun x hx => by have := lvl_parse hx; omega)
  refine ⟨h1, k, r.trans ?_⟩
  cases buildEntQL q <;> rfl

/-- C84: `ApplyEntQL` on an object that notes the arguments of `Where`: behind those noted before are those of the model, and nothing else that was in use changes. -/
theorem C84_apply {P : Prog} (hP : entqlProgram = some P) (Q : Char → Bool) (qs : List Str) (N n : Nat)
    (hN : ∀ q ∈ qs, 5 * q.length + 7 ≤ N) (h7 : 7 ≤ N) (hn : ∀ q ∈ qs, 5 * q.length + 5 ≤ n) (h5 : 5 ≤ n) (h : Heap) {w : Nat} {l : List Mini.Val}
    (hw : w < h.next) (e : h.mem w = whereVal l) :
    ∃ h', KeepsBut w h h' ∧ h'.mem w = whereVal (l ++ (applyEntQL qs).1.map predVal) ∧
      call P (eqLib Q N) n (.fn c!"ApplyEntQL") [.ptr w, .slice (qs.map .str)] h =
        match (applyEntQL qs).2 with
        | .done => .ok ([.nil], h')
        | .failed q x => .ok ([wrapErr (eErrVal x) c!"failed to apply query: %q" [.str q]], h')
        | .panic => .panic := by
  obtain ⟨n, rfl⟩ : ∃ n', n = n' + 5 := ⟨n - 5, by omega⟩
  rw [eqp_of hP]
  obtain ⟨h1, k, m, r⟩ := applyEntQL_run (Q := Q) (N := N) (n := n) qs l hw e h7
    (fun v hv x hx => by have := lvl_parse hx; have := hN v hv; have := hn v hv; omega)
  refine ⟨h1, k, m, r.trans ?_⟩
  cases (applyEntQL qs).2 <;> rfl

theorem exprVal_not_nil (p : EExpr) : exprVal p ≠ .nil := by cases p <;> simp [exprVal]

/-- C84: when `BuildEntQL` returns a predicate, without the model of the translation: exactly for the queries that the parser reads as a supported condition. -/
theorem C84_predicate {P : Prog} (hP : entqlProgram = some P) (Q : Char → Bool) (q : Str) (N n : Nat)
    (hN : 5 * q.length + 7 ≤ N) (hn : 5 * q.length + 5 ≤ n) (h : Heap) :
    (∃ v h', v ≠ .nil ∧ call P (eqLib Q N) n (.fn c!"BuildEntQL") [.str q] h = .ok ([v, .nil], h')) ↔ ∃ x, parse q = .ok x ∧ Sup x ∧ isCond x = true := by
  obtain ⟨h', _, r⟩ := C84_build hP Q q N n hN hn h
  rw [← C37_predicate_partial q, r]
  constructor
  · rintro ⟨v, h'', hv, e⟩
    cases eb : buildEntQL q with
    | panic => rw [eb] at e; cases e
    | nil => rw [eb] at e; cases e; exact absurd rfl hv
    | pred p => exact ⟨p, rfl⟩
    | err x => rw [eb] at e; cases e
  · rintro ⟨p, eb⟩
    rw [eb]
    exact ⟨_, h', exprVal_not_nil p, rfl⟩

/-- C84: the file loses `not`: for a query `e` that gives a predicate, the query that reads as `not e` gives the same one. -/
theorem C84_not {P : Prog} (hP : entqlProgram = some P) (Q : Char → Bool) {q q' : Str} {e : Node} (h' : parse q' = .ok e) (hp : parse q = .ok (.not e)) (N n : Nat)
    (hN : 5 * q.length + 7 ≤ N) (hn : 5 * q.length + 5 ≤ n) (hN' : 5 * q'.length + 7 ≤ N) (hn' : 5 * q'.length + 5 ≤ n) (h : Heap) {v : Mini.Val} {h1 : Heap}
    (hv : v ≠ .nil) (r : call P (eqLib Q N) n (.fn c!"BuildEntQL") [.str q'] h = .ok ([v, .nil], h1)) :
    ∃ h2, call P (eqLib Q N) n (.fn c!"BuildEntQL") [.str q] h = .ok ([v, .nil], h2) := by
  obtain ⟨h2, _, r'⟩ := C84_build hP Q q' N n hN' hn' h
  obtain ⟨h3, _, r3⟩ := C84_build hP Q q N n hN hn h
  rw [r] at r'
  cases eb : buildEntQL q' with
  | panic => rw [eb] at r'; cases r'
  | nil => rw [eb] at r'; cases r'; exact absurd rfl hv
  | err x => rw [eb] at r'; cases r'
  | pred p =>
    rw [eb] at r'
    cases r'
    have := C36_not_refuted h' hp eb
    rw [r3, this.1]
    exact ⟨h3, rfl⟩

/-! ## Concrete runs -/

/-- The name of an object, and the names and texts in its fields. -/
def shape : Mini.Val → List Str
  | .obj t fs => t :: (fs.map fun f => match f.2 with | .lib x => x | .str x => x | .obj t _ => t | _ => c!"?")
  | .nil => [c!"nil"]
  | _ => []

/-- Runs `BuildEntQL`; `none` is a panic. -/
def tryBuild (q : Str) : Option (List (List Str)) :=
  match call eqp (eqLib (fun _ => true) 100) 100 (.fn c!"BuildEntQL") [.str q] { next := 0, mem := fun _ => .nil } with
  | .ok (vs, _) => some (vs.map shape)
  | .panic => none
  | _ => some []

example : tryBuild c!"a = 1" = some [[c!"entql.BinaryExpr", c!"entql.OpEQ", c!"entql.Field", c!"entql.Value"], [c!"nil"]] := by decide +kernel
example : tryBuild c!"not a = 1" = tryBuild c!"a = 1" := by decide +kernel
example : tryBuild c!"a = 1 or b > 2" = some [[c!"entql.BinaryExpr", c!"entql.OpOr", c!"entql.BinaryExpr", c!"entql.BinaryExpr"], [c!"nil"]] := by decide +kernel
example : tryBuild c!"" = some [[c!"nil"], [c!"nil"]] := by decide +kernel
example : tryBuild c!"a.b = 1" = some [[c!"nil"], [c!"errors.Wrapf", c!"errors.Errorf", c!"failed to build query: %q", c!"?"]] := by decide +kernel
example : tryBuild c!"a is null" = none := by decide +kernel

/-- Runs `ApplyEntQL` on an object that has noted nothing; the shapes of what it has noted afterwards, and whether an error came back. -/
def tryApply (qs : List Str) : Option (List (List Str) × Bool) :=
  match call eqp (eqLib (fun _ => true) 100) 100 (.fn c!"ApplyEntQL") [.ptr 0, .slice (qs.map .str)] { next := 1, mem := fun _ => whereVal [] } with
  | .ok ([e], h) => match h.mem 0 with
    | .obj _ [(_, .slice l)] => some (l.map shape, match e with | .nil => false | _ => true)
    | _ => none
  | _ => none

example : tryApply [c!"a = 1", c!"", c!"a >", c!"b = 2"] =
    some ([[c!"entql.BinaryExpr", c!"entql.OpEQ", c!"entql.Field", c!"entql.Value"], [c!"nil"]], true) := by decide +kernel

end Verif
