import Verif.Props.GoText
import Verif.Props.Size
import Verif.Props.Gorm
import Verif.Mini.GormDone

/-!
# C83: the file of gormq, run as written

`gormProgram` reads the text of /repo/gormq/miniquery.go (and of node.go, whose types and constants it uses) as a program.  The calls that leave the file go to
`gqLib`: the functions of the package miniquery, run as written (C81), and gorm.  The theorems say that running a function gives what the model says.  In memory
there is a `gorm.DB` at the address `d`, whose statement is at the address `b`.
-/

namespace Verif
open Mini

/-- The package gormq as its file says. -/
def gormProgram : Option Prog :=
  match readGo gormText, readGo nodeText with
  | some ds, some ns => some { decls := ds ++ exported ns, cells := [c!"strings.Builder"] }
  | _, _ => none

/-- C83: the file is a program of the language that `call` runs. -/
theorem C83_program : gormProgram = some gq := by
  unfold gormProgram
  rw [gorm_read, node_read]
  rfl

theorem gq_of {P : Prog} (hP : gormProgram = some P) : P = gq := (Option.some.inj (C83_program.symm.trans hP)).symm

mutual
theorem lvl_le_depth : ∀ n : Node, lvl n ≤ depth n
  | .nil | .int _ | .bool _ | .null | .str _ | .op _ | .ident _ | .ref _ => by simp [depth, lvl]
  | .arr l => by have := lvls_le_depth l; simp only [depth, lvl]; omega
  | .pred l o => by have := lvl_le_depth l; have := lvl_le_depth o; simp only [depth, lvl]; omega
  | .cmp l o r => by have := lvl_le_depth l; have := lvl_le_depth o; have := lvl_le_depth r; simp only [depth, lvl]; omega
  | .logic l o r => by have := lvl_le_depth l; have := lvl_le_depth o; have := lvl_le_depth r; simp only [depth, lvl]; omega
  | .paren e => by have := lvl_le_depth e; simp only [depth, lvl]; omega
  | .not e => by have := lvl_le_depth e; simp only [depth, lvl]; omega
  | .between l o a b => by
    have := lvl_le_depth l; have := lvl_le_depth o; have := lvl_le_depth a; have := lvl_le_depth b
    simp only [depth, lvl]; omega
  | .func f l => by have := lvls_le_depth l; simp only [depth, lvl]; omega
theorem lvls_le_depth : ∀ l : List Node, lvls l ≤ depthL l
  | [] => Nat.le_refl _
  | n :: l => by have := lvl_le_depth n; have := lvls_le_depth l; simp only [depthL, lvls]; omega
end

/-- The tree of a query is not deeper than the query is long. -/
theorem lvl_parse {q : Str} {x : Node} (h : parse q = .ok x) : lvl x < 5 * q.length := Nat.lt_of_le_of_lt (lvl_le_depth x) (C65_depth h)

theorem wire_ok (schema : Option GSchema) (quote : Str → Str) (fold : Str → Str → Bool) (db : Db) (q : Str) : ∃ o, wire schema quote fold db q = .ok o := by
  unfold wire
  by_cases hq0 : q = []
  · exact ⟨db, by rw [if_pos hq0]⟩
  · rw [if_neg hq0]
    rcases (C01_parse_total q).1 with ⟨n, hp⟩ | ⟨e, hp⟩
    · rw [hp]
      cases schema with
      | none => exact ⟨_, rfl⟩
      | some s =>
        have ha := gvisit_agrees ⟨s, quote, fold⟩ (C02_complete_tree q n hp) {}
        cases hx : gtext ⟨s, quote, fold⟩ n with
        | none =>
          rw [hx] at ha
          obtain ⟨e, st', hr⟩ := ha
          simp only [hr]
          exact ⟨_, rfl⟩
        | some t =>
          rw [hx] at ha
          obtain ⟨st', hr, _⟩ := ha
          simp only [hr]
          exact ⟨_, rfl⟩
    · rw [hp]; exact ⟨_, rfl⟩

/-- The model of `WireMiniQuery` on a statement is the model on some schema. -/
theorem wireStmt_wire (quote : Str → Str) (fold : Str → Str → Bool) (st : Verif.Stmt) (db : Db) (q : Str) :
    ∃ sc st', wireStmt quote fold st db q = (wire sc quote fold db q, st') := by
  unfold wireStmt
  by_cases hq : q = []
  · exact ⟨none, st, by rw [if_pos hq, wire, if_pos hq]⟩
  · rw [if_neg hq]
    split
    · split
      · exact ⟨_, _, rfl⟩
      · exact ⟨_, _, rfl⟩
    · exact ⟨_, _, rfl⟩

theorem wireOut_ok {qt fold h d b cl es js ws f q r} (W : WireOut qt fold h d b cl es js ws f q r) :
    ∃ o st' a h' f', wireStmt qt fold f.stmt {} q = (.ok o, st') ∧ f'.stmt = st' ∧ Wired h h' d b cl es js ws f f' o a ∧ r = .ok ([.ptr a], h') := by
  obtain ⟨sc, st', e⟩ := wireStmt_wire qt fold f.stmt {} q
  obtain ⟨o, eo⟩ := wire_ok sc qt fold {} q
  rw [eo] at e
  rw [WireOut, e] at W
  obtain ⟨a, h', f', h1, h2, h3⟩ := W
  exact ⟨o, st', a, h', f', e, h1, h2, h3⟩

/-- C83: `WireMiniQuery` adds what the model adds (`Wired`): to the `gorm.DB` it was given, or to a copy where gorm copies.  It does not panic. -/
theorem C83_wire {P : Prog} (hP : gormProgram = some P) (Q : Char → Bool) (fold : Str → Str → Bool) (qt : Str → Str) (q : Str) (N n : Nat)
    (hN : 5 * q.length + 7 ≤ N) (hn : 10 * q.length + 9 ≤ n) (h : Heap) {d b : Nat} {cl : Bool} {es js ws : List Mini.Val} (f : FStmt)
    (hd : d < h.next) (hb : b < h.next) (hdb : d ≠ b) (e1 : h.mem d = mkDb cl (.ptr b) es js ws) (e2 : h.mem b = stmtVal f) :
    ∃ o st' a h' f', wireStmt qt fold f.stmt {} q = (.ok o, st') ∧ f'.stmt = st' ∧ Wired h h' d b cl es js ws f f' o a ∧
      call P (gqLib Q N fold qt) n (.fn c!"WireMiniQuery") [.ptr d, .str q] h = .ok ([.ptr a], h') := by
  obtain ⟨n, rfl⟩ : ∃ n', n = n' + 9 := ⟨n - 9, by omega⟩
  rw [gq_of hP]
  exact wireOut_ok (wire_out (Q := Q) (N := N) (n := n) (q := q) (fold := fold) (qt := qt) f hd hb hdb e1 e2 (by omega)
    (fun x hx => by have := lvl_parse hx; omega))

/-- C83: `Scope` does what `WireMiniQuery` does for the joined queries. -/
theorem C83_scope {P : Prog} (hP : gormProgram = some P) (Q : Char → Bool) (fold : Str → Str → Bool) (qt : Str → Str) (qs : List Str) (N n : Nat)
    (hN : 5 * (join qs).length + 7 ≤ N) (hn : 10 * (join qs).length + 10 ≤ n) (h : Heap) {d b : Nat} {cl : Bool} {es js ws : List Mini.Val} (f : FStmt)
    (hd : d < h.next) (hb : b < h.next) (hdb : d ≠ b) (e1 : h.mem d = mkDb cl (.ptr b) es js ws) (e2 : h.mem b = stmtVal f) :
    ∃ o st' a h' f', wireStmt qt fold f.stmt {} (join qs) = (.ok o, st') ∧ f'.stmt = st' ∧ Wired h h' d b cl es js ws f f' o a ∧
      call P (gqLib Q N fold qt) n (.meth (.obj c!"MiniQuery" [(c!"Query", .slice (qs.map .str))]) c!"Scope") [.ptr d] h = .ok ([.ptr a], h') := by
  obtain ⟨n, rfl⟩ : ∃ n', n = n' + 10 := ⟨n - 10, by omega⟩
  rw [gq_of hP]
  exact wireOut_ok (scope_run (Q := Q) (N := N) (n := n) (fold := fold) (qt := qt) f qs hd hb hdb e1 e2 (by omega)
    (fun x hx => by have := lvl_parse hx; omega))

/-- C83: `ApplyMiniQuery` returns a function that can be kept: whenever it is called (the memory `h2` is any later one), it does what `WireMiniQuery` does for the query. -/
theorem C83_apply {P : Prog} (hP : gormProgram = some P) (Q : Char → Bool) (fold : Str → Str → Bool) (qt : Str → Str) (q : Str) (N m : Nat) (hm : 1 ≤ m) (h : Heap) :
    ∃ g h1, call P (gqLib Q N fold qt) m (.fn c!"ApplyMiniQuery") [.str q] h = .ok ([g], h1) ∧ Keeps h h1 ∧
      ∀ h2, Keeps h1 h2 → ∀ n d, 1 ≤ n →
        call P (gqLib Q N fold qt) (n + 1) g [.ptr d] h2 = call P (gqLib Q N fold qt) n (.fn c!"WireMiniQuery") [.ptr d, .str q] h2 := by
  obtain ⟨m, rfl⟩ : ∃ m', m = m' + 1 := ⟨m - 1, by omega⟩
  rw [gq_of hP]
  obtain ⟨g, h1, e, k, H⟩ := apply_run (Q := Q) (N := N) (n := m) (fold := fold) (qt := qt) (h := h) q
  refine ⟨g, h1, e, k, fun h2 k2 n d hn => ?_⟩
  obtain ⟨n, rfl⟩ : ∃ n', n = n' + 1 := ⟨n - 1, by omega⟩
  exact H h2 k2 n d

/-- C83: `GetOrParseSchema`: the schema of the statement; else that of its model, which the statement keeps; else an error. -/
theorem C83_schema {P : Prog} (hP : gormProgram = some P) (Q : Char → Bool) (fold : Str → Str → Bool) (qt : Str → Str) (N n : Nat) (hn : 3 ≤ n) (h : Heap) {d b : Nat}
    {cl : Bool} {es js ws : List Mini.Val} (f : FStmt) (e1 : h.mem d = mkDb cl (.ptr b) es js ws) (e2 : h.mem b = stmtVal f) :
    ∃ f', f'.stmt = (getOrParseSchema f.stmt).2 ∧
      ((∃ s, (getOrParseSchema f.stmt).1 = .ok s.schema ∧
          call P (gqLib Q N fold qt) n (.fn c!"GetOrParseSchema") [.ptr d] h = .ok ([schemaVal s, .nil], h.put b (stmtVal f'))) ∨
       (∃ e, (getOrParseSchema f.stmt).1 = .error e ∧
          call P (gqLib Q N fold qt) n (.fn c!"GetOrParseSchema") [.ptr d] h = .ok ([.nil, schemaErrVal e], h.put b (stmtVal f')))) := by
  obtain ⟨n, rfl⟩ : ∃ n', n = n' + 3 := ⟨n - 3, by omega⟩
  rw [gq_of hP]
  have e := getOrParse_run (Q := Q) (N := N) (n := n) (fold := fold) (qt := qt) f e1 e2
  have g := getSchema_stmt f
  refine ⟨(getSchema f).2, by rw [g], ?_⟩
  rw [g]
  cases hs : (getSchema f).1 with
  | ok s => rw [hs] at e; exact .inl ⟨s, rfl, e⟩
  | error x => rw [hs] at e; exact .inr ⟨x, rfl, e⟩

/-- C83: `getDBName`, for a schema with any further fields. -/
theorem C83_name {P : Prog} (hP : gormProgram = some P) (Q : Char → Bool) (fold : Str → Str → Bool) (qt : Str → Str) (N n : Nat) (hn : 2 ≤ n) (h : Heap)
    (t : FTable) (more : List (Str × Mini.Val)) (s : Str) :
    call P (gqLib Q N fold qt) n (.fn c!"getDBName") [anySchema t more, .str s] h =
      match getDBName fold t.table s with
      | some c => .ok ([.str c, .bool true], h)
      | none => .ok ([.str s, .bool false], h) := by
  obtain ⟨n, rfl⟩ : ∃ n', n = n' + 2 := ⟨n - 2, by omega⟩
  rw [gq_of hP]
  exact getDBName_run t more s

/-- C83: `normalizeSQL`. -/
theorem C83_normalize {P : Prog} (hP : gormProgram = some P) (L : Lib) (n : Nat) (hn : 2 ≤ n) (h : Heap) (s : Str) :
    call P L n (.fn c!"normalizeSQL") [.str s] h = .ok ([.str (normalizeSQL s)], h) := by
  obtain ⟨n, rfl⟩ : ∃ n', n = n' + 2 := ⟨n - 2, by omega⟩
  rw [gq_of hP]
  exact normalizeSQL_run s

/-- C83: what comes out, without the model: the returned `gorm.DB` has the statement, errors, joins and conditions it had before, and behind them, unless the query is empty,
either one condition, which is not empty, or one error. -/
theorem C83_outcome {P : Prog} (hP : gormProgram = some P) (Q : Char → Bool) (fold : Str → Str → Bool) (qt : Str → Str) (hq0 : ∀ x, qt x ≠ []) (q : Str) (N n : Nat)
    (hN : 5 * q.length + 7 ≤ N) (hn : 10 * q.length + 9 ≤ n) (h : Heap) {d b : Nat} {cl : Bool} {es js ws : List Mini.Val} (f : FStmt)
    (hd : d < h.next) (hb : b < h.next) (hdb : d ≠ b) (e1 : h.mem d = mkDb cl (.ptr b) es js ws) (e2 : h.mem b = stmtVal f) :
    ∃ a h' c js', call P (gqLib Q N fold qt) n (.fn c!"WireMiniQuery") [.ptr d, .str q] h = .ok ([.ptr a], h') ∧
      ((q = [] ∧ h'.mem a = mkDb c (.ptr b) es js ws) ∨
       (q ≠ [] ∧ ∃ t args, t ≠ [] ∧ h'.mem a = mkDb c (.ptr b) es (js ++ js') (ws ++ [mkCond t args])) ∨
       (q ≠ [] ∧ ∃ e, h'.mem a = mkDb c (.ptr b) (es ++ [e]) (js ++ js') ws)) := by
  obtain ⟨o, st', a, h', f', e, _, W, r⟩ := C83_wire hP Q fold qt q N n hN hn h f hd hb hdb e1 e2
  obtain ⟨sc, st'', e'⟩ := wireStmt_wire qt fold f.stmt {} q
  obtain ⟨o', eo, C⟩ := C22_fails_closed sc qt fold hq0 {} q
  have : o = o' := by rw [e, eo] at e'; cases e'; rfl
  subst this
  obtain ⟨c, hc⟩ := W.res
  refine ⟨a, h', c, o.joins.map .str, r, ?_⟩
  rcases C with ⟨hq, ho⟩ | ⟨hq, he, t, vs, ht, hw⟩ | ⟨hq, hw, x, he⟩
  · subst ho; exact .inl ⟨hq, by simpa using hc⟩
  · refine .inr (.inl ⟨hq, t, goVals vs, ht, ?_⟩)
    rw [hc, he, hw]; simp [condVal, mkCond]
  · refine .inr (.inr ⟨hq, wireErrVal f x, ?_⟩)
    rw [hc, he, hw]; simp

/-! ## Concrete runs -/

/-- A table with the columns `name` and `age`, and a relation `owner` whose table has a column `city`. -/
def tryStmt : FStmt where
  model := some (some { table := { db := [c!"name", c!"age"], named := [(c!"Name", c!"name")], fields := [(c!"Name", c!"name"), (c!"Age", c!"age")] },
                        rels := [(c!"owner", { db := [c!"city"], named := [], fields := [(c!"City", c!"city")] })] })

/-- A memory with a `gorm.DB` at 0 and its statement at 1. -/
def tryHeap (cl : Bool) (f : FStmt) : Heap where
  next := 2
  mem x := if x = 0 then mkDb cl (.ptr 1) [] [] [] else if x = 1 then stmtVal f else .nil

/-- Texts and numbers. -/
def seen : Mini.Val → List Str
  | .str s => [s]
  | .int i => [(toString i).toList]
  | _ => []

/-- What a run left. -/
structure Ran where
  /-- where the result is -/
  at_ : Nat
  /-- how many errors it has -/
  errs : Nat
  joins : List Str
  /-- the texts of its conditions, each followed by the arguments -/
  conds : List (List Str)
deriving DecidableEq

/-- What a run left. -/
def ranDb : Vals → Option Ran
  | .ok ([.ptr a], h) =>
    match dbParts (h.mem a) with
    | some p => some ⟨a, p.es.length, p.js.flatMap seen, p.ws.map fun w => match w with
      | .obj _ [(_, .str t), (_, .slice vs)] => t :: vs.flatMap seen
      | _ => []⟩
    | none => none
  | _ => none

/-- Quotes as ANSI SQL does. -/
def tryQuote (s : Str) : Str := c!"\"" ++ s ++ c!"\""

/-- Runs `WireMiniQuery`. -/
def tryWire (cl : Bool) (f : FStmt) (q : Str) : Option Ran :=
  ranDb (call gq (gqLib (fun _ => true) 40 (fun a b => a == b) tryQuote) 60 (.fn c!"WireMiniQuery") [.ptr 0, .str q] (tryHeap cl f))

example : tryWire false tryStmt c!"Age > 18" = some ⟨0, 0, [], [[c!"\"age\" > ?", c!"18"]]⟩ := by decide +kernel
example : (tryWire false tryStmt c!"owner.city = 'x'").map (·.joins) = some [c!"owner"] := by decide +kernel
example : (tryWire true tryStmt c!"age > 18").map (·.at_ == 0) = some false := by decide +kernel
example : tryWire false tryStmt c!"nope > 18" = some ⟨0, 1, [], []⟩ := by decide +kernel
example : tryWire false tryStmt c!"age >" = some ⟨0, 1, [], []⟩ := by decide +kernel
example : tryWire false {} c!"age > 1" = some ⟨0, 1, [], []⟩ := by decide +kernel
example : tryWire true tryStmt c!"" = some ⟨0, 0, [], []⟩ := by decide +kernel

end Verif
