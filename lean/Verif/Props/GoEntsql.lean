import Verif.Props.GoEntql
import Verif.Props.EntSQL
import Verif.Mini.SqTop

/-!
# C85: entsql.go and entsql_util.go, run as written

`entsqlProgram` reads the texts of /repo/entmq/entsql.go and /repo/entmq/entsql_util.go (and of node.go, whose types and constants they use) as a program.  The calls that
leave the files go to `sqLib`: the functions of the package miniquery, run as written (C81), ent and reflection; ent calls functions of the files in turn (`sqc`).  What ent
writes for identifiers and edges is open (`SPar`).  The theorems say that running a function gives what the model says, and some of what that means.
-/

namespace Verif
open Mini

/-- The package entmq as entsql.go and entsql_util.go say, with the one constant of ent that they use. -/
def entsqlProgram : Option Prog :=
  match readGo entsqlText, readGo utilText, readGo nodeText with
  | some ds, some us, some ns => some { decls := ds ++ us ++ exported ns ++ [.val c!"dialect.Postgres" (.str c!"postgres")], cells := [c!"MiniQLToEntSQLBuilder"] }
  | _, _, _ => none

/-- C85: the files are a program of the language that `call` runs. -/
theorem C85_program : entsqlProgram = some sqp := by
  unfold entsqlProgram
  rw [entsql_read, util_read, node_read]
  rfl

theorem sqp_of {P : Prog} (hP : entsqlProgram = some P) : P = sqp := (Option.some.inj (C85_program.symm.trans hP)).symm

/-- C85: `Query` of a builder in memory, with any schema around it, any contents, with or without a second builder to write to, and with or without the tree of its query, so
of one used before as well.  `Holds` says what is in memory; `queryDone` says that the result is that of the model, that the builder holds what the model says afterwards,
and that no other memory that was in use changes. -/
theorem C85_query {P : Prog} (hP : entsqlProgram = some P) (Q : Char → Bool) (p : SPar) {Z : Sch} {S : Sit} {h : Heap} {b : SB}
    (hq : S.q = b.query) (hn : S.node = b.node) (ha : S.ast = astVal b.ast) (ht : ∀ x, b.ast = some x → parse b.query = .ok x) (H : Holds Z S b.mb h) {N n D k : Nat}
    (hN : 5 * b.query.length + 7 ≤ N) (hn' : 5 * b.query.length + 3 ≤ n) (hD : 5 * b.query.length + 2 ≤ D) (hk : 10 * b.query.length + 1 ≤ k) :
    queryDone Z S h (call P (sqLib Q N p (sqc Q N D p k)) n (.meth (.ptr S.a) c!"Query") [] h) (sQuery (senv p Z.G (!S.dis)) b) := by
  rw [sqp_of hP]
  exact squery_run (B := 5 * b.query.length) hq hn ha H (fun x hx => ⟨C02_complete_tree _ _ (ht x hx), lvl_parse (ht x hx)⟩) (fun _ x hx => lvl_parse hx) hN hn' hD (by omega)

/-- C85: `FormatParam` of an argument made by `argWithCast`. -/
theorem C85_format {P : Prog} (hP : entsqlProgram = some P) (L : Lib) (v : GoVal) (ph d : Str) (n : Nat) (h : Heap) :
    call P L (n + 2) (.meth (.obj c!"typeCastParamFormatter" [(c!"v", goVal v)]) c!"FormatParam") [.str ph, .obj c!"sql.StmtInfo" [(c!"Dialect", .str d)]] h =
      .ok ([.str (formatParam v.type ph d)], h) := by
  rw [sqp_of hP]; exact formatParam_run v ph d

/-- C85: `argWithCast` wraps a value, and `Value` takes it out. -/
theorem C85_value {P : Prog} (hP : entsqlProgram = some P) (L : Lib) (v : GoVal) (n : Nat) (h : Heap) :
    ∃ w, call P L (n + 2) (.fn c!"argWithCast") [goVal v] h = .ok ([w], h) ∧ call P L (n + 2) (.meth w c!"Value") [] h = .ok ([goVal v, .nil], h) := by
  rw [sqp_of hP]
  exact ⟨_, argWithCast_run v, castValue_run v⟩

/-! ## Builders that have not been used -/

/-- A builder that has not been used, for a dialect, with a count of parameters before it, which writes to its own embedded builder. -/
def Unused (Z : Sch) (S : Sit) (d : Str) (k0 : Nat) (h : Heap) : Prop := S.ast = .nil ∧ Holds Z S { own := { dialect := d, total := k0 } } h

theorem unused_query {P : Prog} (hP : entsqlProgram = some P) (Q : Char → Bool) (p : SPar) {Z : Sch} {S : Sit} {h : Heap} {d : Str} {k0 : Nat} (H : Unused Z S d k0 h) {N n D k : Nat}
    (hN : 5 * S.q.length + 7 ≤ N) (hn : 5 * S.q.length + 3 ≤ n) (hD : 5 * S.q.length + 2 ≤ D) (hk : 10 * S.q.length + 1 ≤ k) :
    queryDone Z S h (call P (sqLib Q N p (sqc Q N D p k)) n (.meth (.ptr S.a) c!"Query") [] h) (sQuery (senv p Z.G (!S.dis)) (SB.fresh d k0 S.node S.q)) :=
  C85_query (b := SB.fresh d k0 S.node S.q) hP Q p rfl rfl H.1 (fun _ h => by cases h) H.2 hN hn hD hk

/-- C85: on postgres the placeholders in the text that `Query` returns are numbered consecutively, in order, from the count of parameters before, and there are as many as
arguments, if what ent writes for identifiers and edges has no placeholders. -/
theorem C85_numbered {P : Prog} (hP : entsqlProgram = some P) (Q : Char → Bool) (p : SPar) {Z : Sch} {S : Sit} {h : Heap} {k0 : Nat} (H : Unused Z S pg k0 h)
    (hE : NoMarks (senv p Z.G (!S.dis))) {N n D k : Nat}
    (hN : 5 * S.q.length + 7 ≤ N) (hn : 5 * S.q.length + 3 ≤ n) (hD : 5 * S.q.length + 2 ≤ D) (hk : 10 * S.q.length + 1 ≤ k)
    {s : Str} {w : Mini.Val} {h' : Heap} (r : call P (sqLib Q N p (sqc Q N D p k)) n (.meth (.ptr S.a) c!"Query") [] h = .ok ([.str s, w], h')) :
    ∃ l, argsOf w = some l ∧ marks s = List.range' (k0 + 1) l.length := by
  have R := unused_query hP Q p H hN hn hD hk
  rw [r] at R
  rcases eq : sQuery (senv p Z.G (!S.dis)) (SB.fresh pg k0 S.node S.q) with ⟨o, b⟩
  rw [eq] at R
  cases o with
  | panic => cases R
  | ret t as =>
    obtain ⟨w', h1, e, ew, _⟩ := R
    cases e
    exact ⟨_, ew, by rw [List.length_map]; exact C27_numbered hE eq⟩

/-- C85: `Query` returns if there is no `date()` without arguments in the query, and either a schema node or no `has_edge`. -/
theorem C85_no_panic {P : Prog} (hP : entsqlProgram = some P) (Q : Char → Bool) (p : SPar) {Z : Sch} {S : Sit} {h : Heap} {d : Str} {k0 : Nat} (H : Unused Z S d k0 h)
    (h1 : ∀ x, parse S.q = .ok x → ¬ Sub (.func c!"date" []) x) (h2 : S.node ≠ none ∨ ∀ x, parse S.q = .ok x → ∀ ps, ¬ Sub (.func c!"has_edge" ps) x) {N n D k : Nat}
    (hN : 5 * S.q.length + 7 ≤ N) (hn : 5 * S.q.length + 3 ≤ n) (hD : 5 * S.q.length + 2 ≤ D) (hk : 10 * S.q.length + 1 ≤ k) :
    ∃ s w h', call P (sqLib Q N p (sqc Q N D p k)) n (.meth (.ptr S.a) c!"Query") [] h = .ok ([.str s, w], h') := by
  have R := unused_query hP Q p H hN hn hD hk
  have np := C30_no_panic_partial (E := senv p Z.G (!S.dis)) (d := d) (k := k0) h1 h2
  rcases eq : sQuery (senv p Z.G (!S.dis)) (SB.fresh d k0 S.node S.q) with ⟨o, b⟩
  rw [eq] at R np
  cases o with
  | panic => exact absurd rfl np
  | ret t as =>
    obtain ⟨w', h1, e, _⟩ := R
    exact ⟨_, _, _, e⟩

/-- C85: `Query` panics on the query `date()`, and on `has_edge(owner)` without a schema node. -/
theorem C85_panic {P : Prog} (hP : entsqlProgram = some P) (Q : Char → Bool) (p : SPar) {Z : Sch} {S : Sit} {h : Heap} {d : Str} {k0 : Nat} (H : Unused Z S d k0 h)
    (hq : S.q = c!"date()" ∨ (S.q = c!"has_edge(owner)" ∧ S.node = none)) {N n D k : Nat}
    (hN : 5 * S.q.length + 7 ≤ N) (hn : 5 * S.q.length + 3 ≤ n) (hD : 5 * S.q.length + 2 ≤ D) (hk : 10 * S.q.length + 1 ≤ k) :
    call P (sqLib Q N p (sqc Q N D p k)) n (.meth (.ptr S.a) c!"Query") [] h = .panic := by
  have R := unused_query hP Q p H hN hn hD hk
  have np : (sQuery (senv p Z.G (!S.dis)) (SB.fresh d k0 S.node S.q)).1 = .panic := by
    rcases hq with e | ⟨e, e'⟩
    · rw [e]; exact (C30_refuted _ _ _ _).1
    · rw [e, e']; exact (C30_refuted _ _ _ none).2
  rcases eq : sQuery (senv p Z.G (!S.dis)) (SB.fresh d k0 S.node S.q) with ⟨o, b⟩
  rw [eq] at R np
  cases np
  exact R

/-- C85: a second call of `Query` does not return what the first returned: if the first call returned a text and recorded no error, the second returns this text with
something behind it, and all the arguments twice. -/
theorem C85_again {P : Prog} (hP : entsqlProgram = some P) (Q : Char → Bool) (p : SPar) {Z : Sch} {S : Sit} {h : Heap} {d : Str} {k0 : Nat} (H : Unused Z S d k0 h) {N n D k : Nat}
    (hN : 5 * S.q.length + 7 ≤ N) (hn : 5 * S.q.length + 3 ≤ n) (hD : 5 * S.q.length + 2 ≤ D) (hk : 10 * S.q.length + 1 ≤ k)
    {s : Str} {w : Mini.Val} {h1 : Heap} (r : call P (sqLib Q N p (sqc Q N D p k)) n (.meth (.ptr S.a) c!"Query") [] h = .ok ([.str s, w], h1))
    {rb : RBld} (hb : rbldOf (h1.mem S.b) = some rb) (he : rb.errs = []) :
    ∃ t w' h2 l, argsOf w = some l ∧ call P (sqLib Q N p (sqc Q N D p k)) n (.meth (.ptr S.a) c!"Query") [] h1 = .ok ([.str (s ++ t), w'], h2) ∧ argsOf w' = some (l ++ l) := by
  have R := unused_query hP Q p H hN hn hD hk
  rw [r] at R
  rcases eq : sQuery (senv p Z.G (!S.dis)) (SB.fresh d k0 S.node S.q) with ⟨o, b⟩
  rw [eq] at R
  cases o with
  | panic => cases R
  | ret t as =>
    obtain ⟨w', h', e, ew, _, H'⟩ := R
    cases e
    have eo := H'.own
    have hb' : rbldOf (h1.mem S.b) = some (rbld b.mb.own) := by rw [show h1.mem S.b = (rbld b.mb.own).val from eo, rbldOf_val]
    rw [hb] at hb'
    cases hb'
    have hf : b.failed = false := by
      have : b.mb.own.errs = [] := by simpa [rbld] using he
      simp [SB.failed, this]
    cases hp : parse S.q with
    | ok x =>
      have hbq : b.query = S.q ∧ b.node = S.node ∧ b.ast = some x := by
        simp only [sQuery, SB.fresh, hp] at eq
        cases ev : svisit (senv p Z.G (!S.dis)) S.node x { own := { dialect := d, total := k0 } } <;> rw [ev] at eq <;> cases eq <;> exact ⟨rfl, rfl, rfl⟩
      obtain ⟨t, b', _, e2⟩ := C33_second_call hp eq hf
      have R2 := C85_query (Z := Z) (S := { S with ast := astVal b.ast }) (b := b) hP Q p hbq.1.symm hbq.2.1.symm rfl (fun y hy => by rw [hbq.1, hp]; rw [hbq.2.2] at hy; cases hy; rfl) H'
        (by rw [hbq.1]; exact hN) (by rw [hbq.1]; exact hn) (by rw [hbq.1]; exact hD) (by rw [hbq.1]; exact hk)
      rcases eq2 : sQuery (senv p Z.G (!S.dis)) b with ⟨o2, b2⟩
      rw [eq2] at e2
      simp only at R2 e2
      rw [eq2, e2] at R2
      obtain ⟨w2, h2, r2, ew2, _⟩ := R2
      exact ⟨t, w2, h2, _, ew, r2, by rw [ew2, List.map_append]⟩
    | err er => simp only [sQuery, SB.fresh, hp] at eq; cases eq; simp [SB.failed, Bld.addErr] at hf
    | panic => simp only [sQuery, SB.fresh, hp] at eq; cases eq
    | div => simp only [sQuery, SB.fresh, hp] at eq; cases eq

/-! ## Concrete runs -/

/-- What ent writes, for the runs below: the names of the tables of a step are shown. -/
def runPar (surf : Bool) : SPar where
  snake x := x.map Char.toLower
  ident _ x := '"' :: x ++ c!"\""
  has v _ := c!"HAS " ++ tables v
  pre v _ := c!"HAS " ++ tables v ++ c!" WITH ("
  post _ _ := c!")"
  surf := surf
where
  /-- The table on each side of a step. -/
  tables : Mini.Val → Str
    | .obj _ [(_, .slice [.obj _ [(_, .slice (.str a :: _))], .obj _ [(_, .slice (.str b :: _))], _])] => a ++ '-' :: b
    | _ => []

/-- Two nodes, `users` and `pets`, each with an edge to the other. -/
def runG : Nat → FNode
  | 0 => { table := .str c!"users", schema := .str [], column := .str c!"id", edges := [(c!"pets", ⟨1, .int 1, .bool false, .str c!"pets", [.str c!"owner_id"]⟩)] }
  | _ => { table := .str c!"pets", schema := .str [], column := .str c!"id", edges := [(c!"owner", ⟨0, .int 2, .bool true, .str c!"pets", [.str c!"owner_id"]⟩)] }

/-- Their addresses. -/
def runZ : Sch where
  G := runG
  nd t := t + 2
  T t := t < 2
  closed t _ kv h := by
    match t with
    | 0 => simp only [runG, List.mem_singleton] at h; subst h; decide
    | t + 1 => simp only [runG, List.mem_singleton] at h; subst h; decide

/-- A builder at address 0 with its embedded builder at address 1. -/
def runS (node : Option Nat) (dis : Bool) (q : Str) : Sit := { a := 0, b := 1, c := 0, x := false, node := node, q := q, ast := .nil, graph := .nil, dis := dis }

/-- The memory. -/
def runHeap (node : Option Nat) (dis : Bool) (d q : Str) : Heap where
  next := 4
  mem
    | 0 => (runS node dis q).val runZ
    | 1 => (rbld { dialect := d, total := 0 }).val
    | 2 => fnodeVal runZ.nd (runG 0)
    | 3 => fnodeVal runZ.nd (runG 1)
    | _ => .nil

/-- It holds an unused builder, as the theorems ask. -/
theorem run_unused (dis : Bool) (d q : Str) (node : Option Nat) (hn : ∀ t, node = some t → t < 2) : Unused runZ (runS node dis q) d 0 (runHeap node dis d q) where
  left := rfl
  right :=
    { at_ :=
        { la := by show 0 < 4; omega
          lb := by show 1 < 4; omega
          lc := fun h => by cases h
          oa := ⟨by show 0 ≠ 1; omega, fun h => by cases h⟩
          bc := fun h => by cases h
          mem := rfl
          node := hn
          ln := fun t (h : t < 2) => by show t + 2 < 4; omega
          on := fun t _ => ⟨by show t + 2 ≠ 1; omega, fun h => by cases h⟩
          nodes := fun t (h : t < 2) => by
            match t, h with
            | 0, _ => rfl
            | 1, _ => rfl }
      fits := rfl
      own := rfl
      ext := fun _ h => by cases h }

/-- The hypothesis of `C85_numbered` holds for what ent writes here, if `ToSnakeCase` leaves names as they are. -/
example : NoMarks (senv { runPar true with snake := id } runG true) := by
  refine ⟨exE_noMarks.1, fun t x e h => ?_⟩
  match t with
  | 0 =>
    simp only [senv, runG, List.map_cons, List.map_nil, List.mem_singleton, Prod.mk.injEq] at h
    obtain ⟨rfl, rfl⟩ := h
    refine ⟨⟨by decide, ?_⟩, ⟨by decide, ?_⟩, ⟨by decide, ?_⟩⟩ <;> (intro c t h; cases h; decide)
  | t + 1 =>
    simp only [senv, runG, List.map_cons, List.map_nil, List.mem_singleton, Prod.mk.injEq] at h
    obtain ⟨rfl, rfl⟩ := h
    refine ⟨⟨by decide, ?_⟩, ⟨by decide, ?_⟩, ⟨by decide, ?_⟩⟩ <;> (intro c t h; cases h; decide)

/-- Runs `Query` once: the text, the number of arguments and the number of recorded errors; `none` is a panic. -/
def tryQuery (surf : Bool) (node : Option Nat) (dis : Bool) (d q : Str) : Option (Str × Nat × Nat) :=
  match call sqp (sqLib (fun _ => true) 100 (runPar surf) (sqc (fun _ => true) 100 100 (runPar surf) 100)) 100 (.meth (.ptr 0) c!"Query") [] (runHeap node dis d q) with
  | .ok ([.str s, w], h) => some (s, ((argsOf w).getD []).length, (((rbldOf (h.mem 1)).map (·.errs.length)).getD 0))
  | .panic => none
  | _ => some ([], 77, 77)

example : tryQuery true none false pg c!"A = 1 and b in [2, 'x']" = some (c!"\"a\" = $1::int AND \"b\" IN ($2, $3)", 3, 0) := by decide +kernel
example : tryQuery true none true pg c!"a = 1" = some (c!"\"a\" = $1", 1, 0) := by decide +kernel
example : tryQuery true (some 0) false pg c!"has_edge(pets)" = some (c!"HAS users-pets", 0, 0) := by decide +kernel
example : tryQuery true (some 0) false pg c!"a = 1 or has_edge(pets, b = true and has_edge(owner, c = 2))" =
    some (c!"\"a\" = $1::int OR HAS users-pets WITH (\"b\" = $2::bool AND HAS pets-users WITH (\"c\" = $3::int))", 3, 0) := by decide +kernel
example : tryQuery false (some 0) false pg c!"has_edge(pets, foo(b))" = some (c!"HAS users-pets WITH ()", 0, 0) := by decide +kernel
example : tryQuery true (some 0) false pg c!"has_edge(pets, foo(b))" = some (c!"HAS users-pets WITH ()", 0, 1) := by decide +kernel
example : tryQuery true (some 0) false pg c!"has_edge(cats)" = some ([], 0, 1) := by decide +kernel
example : tryQuery true none false pg c!"has_edge(owner)" = none := by decide +kernel
example : tryQuery true none false pg c!"date()" = none := by decide +kernel
example : tryQuery true none false pg c!"a =" = some ([], 0, 1) := by decide +kernel

end Verif
