import Verif.Props.GoGorm
import Verif.Props.GoEntql
import Verif.Props.GoEntsql
import Verif.Props.Build
import Verif.Props.Accept
import Verif.Props.Structure
import Verif.Props.GormSql
import Verif.Props.GormText
import Verif.Props.GormComments
import Verif.Props.EntSQLSql

/-!
# C86: what the files do when they are run, without the model

The theorems of C81 to C85 say that running the files gives what the model says.  Here the properties proved about the model are stated about the runs themselves: the
functions of the model (`parse`, `build`, `join`, `wire`, `sQuery`, `buildEntQL`) do not occur in the statements.  `ParsesTo` says that `Parse`, run as written,
returns a tree; `Query`, `Spaced`, `Shape`, `mean`, `ReadsQ`, … are specifications (`Verif.Spec`).
-/

namespace Verif
open Mini

mutual
/-- Different trees are different values. -/
theorem nodeVal_inj : ∀ a b : Node, nodeVal a = nodeVal b → a = b
  | .arr l, b, h => by
    cases b <;> simp [nodeVal, mkNode] at h
    rw [nodeVals_inj _ _ h]
  | .pred l o, b, h => by
    cases b <;> simp [nodeVal, mkNode] at h
    rw [nodeVal_inj _ _ h.1, nodeVal_inj _ _ h.2]
  | .cmp l o r, b, h => by
    cases b <;> simp [nodeVal, mkNode] at h
    rw [nodeVal_inj _ _ h.1, nodeVal_inj _ _ h.2.1, nodeVal_inj _ _ h.2.2]
  | .logic l o r, b, h => by
    cases b <;> simp [nodeVal, mkNode] at h
    rw [nodeVal_inj _ _ h.1, nodeVal_inj _ _ h.2.1, nodeVal_inj _ _ h.2.2]
  | .paren e, b, h => by
    cases b <;> simp [nodeVal, mkNode] at h
    rw [nodeVal_inj _ _ h]
  | .not e, b, h => by
    cases b <;> simp [nodeVal, mkNode] at h
    rw [nodeVal_inj _ _ h]
  | .between l o x y, b, h => by
    cases b <;> simp [nodeVal, mkNode] at h
    rw [nodeVal_inj _ _ h.1, nodeVal_inj _ _ h.2.1, nodeVal_inj _ _ h.2.2.1, nodeVal_inj _ _ h.2.2.2]
  | .func f l, b, h => by
    cases b <;> simp [nodeVal, mkNode] at h
    rw [h.1, nodeVals_inj _ _ h.2]
  | .nil, b, h | .int _, b, h | .bool _, b, h | .null, b, h | .str _, b, h | .op _, b, h | .ident _, b, h => by
    cases b <;> simp [nodeVal, mkNode] at h <;> simp [h]
  | .ref xs, b, h => by
    cases b <;> simp [nodeVal, mkNode] at h
    rename_i ys
    rw [List.map_inj_right (fun _ _ e => by cases e; rfl)] at h
    rw [h]
theorem nodeVals_inj : ∀ a b : List Node, nodeVals a = nodeVals b → a = b
  | [], [], _ => rfl
  | [], _ :: _, h => by simp [nodeVals] at h
  | _ :: _, [], h => by simp [nodeVals] at h
  | x :: a, y :: b, h => by
    simp only [nodeVals, List.cons.injEq] at h
    rw [nodeVal_inj _ _ h.1, nodeVals_inj _ _ h.2]
end

/-! ## The package miniquery -/

/-- `Parse` of the package, run with any bound on the depth of calls that is large enough and in any memory, returns this tree and no error, and leaves the memory alone. -/
def ParsesTo (P : Prog) (Q : Char → Bool) (q : Str) (x : Node) : Prop :=
  ∀ n h, 7 ≤ n → ∃ h', Keeps h h' ∧ call P (mqLib Q) n (.fn c!"Parse") [.str q] h = .ok ([nodeVal x, .nil], h')

/-- `Parse` returns an error and no tree. -/
def Rejects (P : Prog) (Q : Char → Bool) (q : Str) : Prop :=
  ∀ n h, 7 ≤ n → ∃ e h', e ≠ .nil ∧ Keeps h h' ∧ call P (mqLib Q) n (.fn c!"Parse") [.str q] h = .ok ([.nil, e], h')

/-- A call has one outcome. -/
theorem one_outcome {v : Vals} {a b a' b' : Mini.Val} {h h' : Heap} (r : v = .ok ([a, b], h)) (r' : v = .ok ([a', b'], h')) : a = a' ∧ b = b' := by
  subst r
  cases r'
  exact ⟨rfl, rfl⟩

theorem errVal_ne_nil (e : Err) : errVal e ≠ .nil := by cases e <;> simp [errVal, mkErr]

theorem parsesTo_iff {P : Prog} (hP : goProgram = some P) (Q : Char → Bool) (q : Str) (x : Node) : ParsesTo P Q q x ↔ parse q = .ok x := by
  constructor
  · intro H
    obtain ⟨h1, _, r⟩ := H 7 noHeap (Nat.le_refl _)
    obtain ⟨h2, _, ⟨y, hy, r'⟩ | ⟨e, he, r'⟩⟩ := C81_parse hP Q q 7 (Nat.le_refl _) noHeap
    · rw [hy, nodeVal_inj _ _ (one_outcome r r').1]
    · exact absurd (one_outcome r r').2.symm (errVal_ne_nil e)
  · intro hx n h hn
    obtain ⟨h', k, ⟨y, hy, r⟩ | ⟨e, he, r⟩⟩ := C81_parse hP Q q n hn h
    · rw [hx] at hy; cases hy; exact ⟨h', k, r⟩
    · rw [hx] at he; cases he

/-- C86: every query is either parsed, to one tree, or rejected, and never both. -/
theorem C86_decides {P : Prog} (hP : goProgram = some P) (Q : Char → Bool) (q : Str) :
    ((∃ x, ParsesTo P Q q x) ∨ Rejects P Q q) ∧ (∀ x y, ParsesTo P Q q x → ParsesTo P Q q y → x = y) ∧ ¬ ((∃ x, ParsesTo P Q q x) ∧ Rejects P Q q) := by
  refine ⟨?_, fun x y hx hy => ?_, ?_⟩
  · rcases (C01_parse_total q).1 with ⟨x, hx⟩ | ⟨e, he⟩
    · exact .inl ⟨x, (parsesTo_iff hP Q q x).2 hx⟩
    · refine .inr fun n h hn => ?_
      obtain ⟨h', k, ⟨y, hy, r⟩ | ⟨e', he', r⟩⟩ := C81_parse hP Q q n hn h
      · rw [he] at hy; cases hy
      · exact ⟨_, h', errVal_ne_nil _, k, r⟩
  · have a := (parsesTo_iff hP Q q x).1 hx
    have b := (parsesTo_iff hP Q q y).1 hy
    rw [a] at b; cases b; rfl
  · rintro ⟨⟨x, hx⟩, hr⟩
    obtain ⟨h1, _, r⟩ := hx 7 noHeap (Nat.le_refl _)
    obtain ⟨e, h2, he, _, r'⟩ := hr 7 noHeap (Nat.le_refl _)
    exact he (one_outcome r r').2.symm

/-- C86: what is parsed reads as its tree (`Query`, the declarative grammar), and the tree obeys the stratification; for queries without `->`. -/
theorem C86_sound {P : Prog} (hP : goProgram = some P) {Q : Char → Bool} {q : Str} {x : Node} (h : ParsesTo P Q q x) (ha : Balanced q false) : Query q x ∧ Shape .logic x :=
  have hp := (parsesTo_iff hP Q q x).1 h
  ⟨C05_accepted_grammatical q x hp ha, C05_stratified hp ha⟩

/-- C86: what is clearly spelled is parsed, as the tree it spells. -/
theorem C86_clear {P : Prog} (hP : goProgram = some P) (Q : Char → Bool) {q : Str} {x : Node} (h : Spaced q x) : ParsesTo P Q q x :=
  (parsesTo_iff hP Q q x).2 (C48_accepted h)

/-- C86: `Build` prints a tree that obeys the stratification and is fit for printing, and `Parse` reads the same tree back from the text. -/
theorem C86_round_trip {P : Prog} (hP : goProgram = some P) (Q : Char → Bool) {x : Node} (hs : Shape .logic x) (hf : Fit Q (rootName x) x) :
    ∃ t, (∀ n h, 2 * lvl x + 5 ≤ n → ∃ h', Keeps h h' ∧ call P (mqLib Q) n (.fn c!"Build") [nodeVal x] h = .ok ([.str t], h')) ∧ ParsesTo P Q t x := by
  obtain ⟨t, ht, hp⟩ := C06_build_parse Q x hs hf
  refine ⟨t, fun n h hn => ?_, (parsesTo_iff hP Q t x).2 hp⟩
  obtain ⟨h', k, r⟩ := C81_build hP Q x n hn h
  rw [ht] at r
  exact ⟨h', k, r⟩

/-- C86: `Join` of queries that parse on their own, and contain no `->`, parses as their conjunction; blank entries are left out. -/
theorem C86_join {P : Prog} (hP : goProgram = some P) (Q : Char → Bool) (f : Str → Node) (qs : List Str) (h2 : 2 ≤ qs.length)
    (h : ∀ q ∈ qs, goTrim q ≠ [] → ParsesTo P Q q (f q) ∧ Balanced q false) (q : Str) (rest : List Str) (hf : qs.filter written = q :: rest) :
    ∃ t, (∀ n h, 2 ≤ n → ∃ h', Keeps h h' ∧ call P (mqLib Q) n (.fn c!"Join") [.slice (qs.map .str)] h = .ok ([.str t], h')) ∧
      ParsesTo P Q t (rest.foldl (fun n q => .logic n (.op c!"and") (.paren (f q))) (.paren (f q))) :=
  ⟨join qs, fun n h hn => C81_join hP Q qs n hn h,
    (parsesTo_iff hP Q _ _).2 (C15_join_partial f qs h2 (fun q hq hn => ⟨(parsesTo_iff hP Q q _).1 (h q hq hn).1, (h q hq hn).2⟩) q rest hf)⟩

/-- `Value`, run on each of the nodes, returns these values. -/
def Values (P : Prog) (Q : Char → Bool) : List Node → List Mini.Val → Prop
  | [], [] => True
  | x :: xs, v :: vs => (∀ n h, lvl x + 2 ≤ n → call P (mqLib Q) n (.meth (nodeVal x) c!"Value") [] h = .ok ([v], h)) ∧ Values P Q xs vs
  | _, _ => False

theorem values_of {P : Prog} (hP : goProgram = some P) (Q : Char → Bool) : ∀ (xs : List Node) (vs : List GoVal), xs.map value = vs.map some → Values P Q xs (goVals vs)
  | [], [], _ => trivial
  | [], _ :: _, h => by simp at h
  | _ :: _, [], h => by simp at h
  | x :: xs, v :: vs, h => by
    simp only [List.map_cons, List.cons.injEq] at h
    refine ⟨fun n g hn => ?_, values_of hP Q xs vs h.2⟩
    have hx : x ≠ .nil := by rintro rfl; simp [value] at h
    rw [C81_value hP Q hx n hn g, h.1]

/-! ## The package gormq -/

/-- The schema that a statement has, or gets from its model. -/
def FStmt.has (f : FStmt) (s : FSchema) : Prop := f.schema = some s ∨ f.schema = none ∧ f.model = some (some s)

theorem wireStmt_has {f : FStmt} {s : FSchema} (hs : FStmt.has f s) {qt fold} {db : Db} {q : Str} {o : Db} {st'} (h : wireStmt qt fold f.stmt db q = (.ok o, st'))
    (hp : ∃ x, parse q = .ok x) : wire (some s.schema) qt fold db q = .ok o := by
  obtain ⟨x, hx⟩ := hp
  unfold wireStmt at h
  by_cases hq : q = []
  · subst hq
    rw [if_pos rfl] at h
    cases h
    rfl
  · rw [if_neg hq, hx] at h
    have e : getOrParseSchema f.stmt = (.ok s.schema, (getSchema f).2.stmt) := by
      rw [getSchema_stmt]
      obtain ⟨a, m⟩ := f
      rcases hs with h1 | ⟨h1, h2⟩
      · simp only at h1; subst h1; rfl
      · simp only at h1 h2; subst h1 h2; rfl
    rw [e] at h
    simp only [Prod.mk.injEq] at h
    exact h.1

/-- What `WireMiniQuery`, run in a memory with a `gorm.DB` at `d` and its statement at `b`, leaves if it adds a condition: the text and the arguments. -/
def WiresTo (P : Prog) (Q : Char → Bool) (fold : Str → Str → Bool) (qt : Str → Str) (f : FStmt) (q t : Str) (args : List Mini.Val) (joins : List Str) : Prop :=
  ∀ (h : Heap) (d b : Nat) (cl : Bool) (es js ws : List Mini.Val) (N n : Nat), 5 * q.length + 7 ≤ N → 10 * q.length + 9 ≤ n → d < h.next → b < h.next → d ≠ b →
    h.mem d = mkDb cl (.ptr b) es js ws → h.mem b = stmtVal f →
    ∃ a h' c, call P (gqLib Q N fold qt) n (.fn c!"WireMiniQuery") [.ptr d, .str q] h = .ok ([.ptr a], h') ∧
      h'.mem a = mkDb c (.ptr b) es (js ++ joins.map .str) (ws ++ [mkCond t args])

/-- … and if it does not: one more error, and no condition. -/
def Refuses (P : Prog) (Q : Char → Bool) (fold : Str → Str → Bool) (qt : Str → Str) (f : FStmt) (q : Str) : Prop :=
  ∀ (h : Heap) (d b : Nat) (cl : Bool) (es js ws : List Mini.Val) (N n : Nat), 5 * q.length + 7 ≤ N → 10 * q.length + 9 ≤ n → d < h.next → b < h.next → d ≠ b →
    h.mem d = mkDb cl (.ptr b) es js ws → h.mem b = stmtVal f →
    ∃ a h' c e js', call P (gqLib Q N fold qt) n (.fn c!"WireMiniQuery") [.ptr d, .str q] h = .ok ([.ptr a], h') ∧
      h'.mem a = mkDb c (.ptr b) (es ++ [e]) js' ws

theorem wiresTo_of {P : Prog} (hP : gormProgram = some P) (Q : Char → Bool) (fold : Str → Str → Bool) (qt : Str → Str) {f : FStmt} {q : Str} {o : Db} {st'}
    (e : wireStmt qt fold f.stmt {} q = (.ok o, st')) {t vs} (hw : o.wheres = [(t, vs)]) (he : o.errors = []) : WiresTo P Q fold qt f q t (goVals vs) o.joins := by
  intro h d b cl es js ws N n hN hn hd hb hdb e1 e2
  obtain ⟨o', st2, a, h', f', e', _, W, r⟩ := C83_wire hP Q fold qt q N n hN hn h f hd hb hdb e1 e2
  rw [e] at e'
  cases e'
  obtain ⟨c, hc⟩ := W.res
  refine ⟨a, h', c, r, ?_⟩
  rw [hc, hw, he]
  simp [condVal, mkCond]

/-- A memory with a `gorm.DB` and its statement. -/
def dbHeap (f : FStmt) : Heap where
  next := 2
  mem x := if x = 0 then mkDb false (.ptr 1) [] [] [] else stmtVal f

mutual
theorem goVal_inj : ∀ a b : GoVal, goVal a = goVal b → a = b
  | .slice l, b, h => by
    cases b <;> simp [goVal] at h
    rw [goVals_inj _ _ h]
  | .nil, b, h | .int _, b, h | .bool _, b, h | .str _, b, h => by cases b <;> simp [goVal] at h <;> simp [h]
theorem goVals_inj : ∀ a b : List GoVal, goVals a = goVals b → a = b
  | [], [], _ => rfl
  | [], _ :: _, h => by simp [goVals] at h
  | _ :: _, [], h => by simp [goVals] at h
  | x :: a, y :: b, h => by
    simp only [goVals, List.cons.injEq] at h
    rw [goVal_inj _ _ h.1, goVals_inj _ _ h.2]
end

theorem goVals_length : ∀ vs : List GoVal, (goVals vs).length = vs.length
  | [] => rfl
  | _ :: vs => by simp [goVals, goVals_length vs]

/-- From a run that adds a condition back to the model. -/
theorem wiresTo_wire {P : Prog} (hP : gormProgram = some P) {Q : Char → Bool} {fold : Str → Str → Bool} {qt : Str → Str} {f : FStmt} {q t : Str} {args : List Mini.Val}
    {joins : List Str} (H : WiresTo P Q fold qt f q t args joins) :
    ∃ o st' vs, wireStmt qt fold f.stmt {} q = (.ok o, st') ∧ o.wheres = [(t, vs)] ∧ o.errors = [] ∧ o.joins = joins ∧ args = goVals vs := by
  have hd : (0 : Nat) < (dbHeap f).next := by show 0 < 2; omega
  have hb : (1 : Nat) < (dbHeap f).next := by show 1 < 2; omega
  obtain ⟨a, h', c, r, hm⟩ := H (dbHeap f) 0 1 false [] [] [] _ _ (Nat.le_refl _) (Nat.le_refl _) hd hb (by omega) rfl rfl
  obtain ⟨o, st', a', h2, f', e, _, W, r'⟩ := C83_wire hP Q fold qt q _ _ (Nat.le_refl _) (Nat.le_refl _) (dbHeap f) f hd hb (by omega) rfl rfl
  rw [r] at r'
  cases r'
  obtain ⟨c', hc⟩ := W.res
  rw [hm] at hc
  simp only [mkDb, List.nil_append, Mini.Val.obj.injEq, List.cons.injEq, Prod.mk.injEq, true_and, and_true, Mini.Val.slice.injEq] at hc
  obtain ⟨_, h3, h4, h5⟩ := hc
  have h6 : o.errors = [] := by simpa using h3.symm
  have h7 : o.joins = joins := by
    rw [List.map_inj_right (fun _ _ e => by cases e; rfl)] at h4
    exact h4.symm
  obtain ⟨er, jo, wh⟩ := o
  match wh, h5 with
  | [(t', vs)], h5 =>
    simp only [List.map_cons, List.map_nil, List.cons.injEq, and_true, mkCond, condVal, Mini.Val.obj.injEq, Prod.mk.injEq, true_and, Mini.Val.str.injEq, Mini.Val.slice.injEq] at h5
    exact ⟨_, st', vs, e, by rw [h5.1], h6, h7, h5.2⟩
  | [], h5 => simp at h5
  | _ :: _ :: _, h5 => simp at h5

/-- C86: a query that is not empty, on a statement with a schema: `WireMiniQuery` either adds one condition and no error, and then `Parse` accepts the query, or adds one error
and no condition. -/
theorem C86_gorm_closed {P M : Prog} (hP : gormProgram = some P) (hM : goProgram = some M) (Q : Char → Bool) (fold : Str → Str → Bool) (qt : Str → Str) (hq0 : ∀ x, qt x ≠ [])
    (f : FStmt) (q : Str) (hq : q ≠ []) :
    (∃ x t args joins, ParsesTo M Q q x ∧ t ≠ [] ∧ WiresTo P Q fold qt f q t args joins) ∨ Refuses P Q fold qt f q := by
  obtain ⟨sc, st', e⟩ := wireStmt_wire qt fold f.stmt {} q
  obtain ⟨o, eo, C⟩ := C22_fails_closed sc qt fold hq0 {} q
  rw [eo] at e
  rcases C with ⟨h, _⟩ | ⟨_, he, t, vs, ht, hw⟩ | ⟨_, hw, x, he⟩
  · exact absurd h hq
  · obtain ⟨x, hx, _⟩ := C18_values eo hw
    exact .inl ⟨x, t, goVals vs, o.joins, (parsesTo_iff hM Q q x).2 hx, ht, wiresTo_of hP Q fold qt e (by simpa using hw) he⟩
  · refine .inr fun h d b cl es js ws N n hN hn hd hb hdb e1 e2 => ?_
    obtain ⟨o', st2, a, h', f', e', _, W, r⟩ := C83_wire hP Q fold qt q N n hN hn h f hd hb hdb e1 e2
    rw [e] at e'
    cases e'
    obtain ⟨c, hc⟩ := W.res
    refine ⟨a, h', c, wireErrVal f x, js ++ o.joins.map .str, r, ?_⟩
    rw [hc, hw, he]
    simp

/-- C86: if `WireMiniQuery` adds a condition, then the query is not empty and, with the tree that `Parse` returns for it: the arguments are what `Value` returns for its
literals, in reading order; the relations joined are those referred to, each once, in order of first reference; every name is known to the schema, every call is one of
`date`; no argument is without its placeholder, and there are no others if the query has no comment and quoting writes none. -/
theorem C86_gorm_parts {P M : Prog} (hP : gormProgram = some P) (hM : goProgram = some M) {Q : Char → Bool} {fold : Str → Str → Bool} {qt : Str → Str} {f : FStmt} {s : FSchema}
    (hs : FStmt.has f s) {q t : Str} {args : List Mini.Val} {joins : List Str} (H : WiresTo P Q fold qt f q t args joins) :
    ∃ x, ParsesTo M Q q x ∧ Values M Q (lits x) args ∧ joins = firsts (rels x) ∧
      (∀ y, Occ (.ident y) x → ∃ d, Resolves fold s.schema.table y d) ∧
      (∀ l, Occ (.ref l) x → ∃ r c tb d, l = [r, c] ∧ s.schema.rel r = some tb ∧ Resolves fold tb c d) ∧
      (∀ g ps, Occ (.func g ps) x → g = c!"date") ∧
      args.length ≤ t.count '?' ∧ ((∀ y, '?' ∉ qt y) → NoComment q → t.count '?' = args.length) := by
  obtain ⟨o, st', vs, e, hw, he, hj, rfl⟩ := wiresTo_wire hP H
  have hp : ∃ x, parse q = .ok x := by
    obtain ⟨sc, st2, e'⟩ := wireStmt_wire qt fold f.stmt {} q
    rw [e] at e'
    obtain ⟨x, hx, _⟩ := C18_values (Prod.mk.inj e').1.symm (sql := t) (vals := vs) (by simpa using hw)
    exact ⟨x, hx⟩
  have w := wireStmt_has hs e hp
  have hw' : o.wheres = ({} : Db).wheres ++ [(t, vs)] := by simpa using hw
  obtain ⟨x, hx, hv⟩ := C18_values w hw'
  obtain ⟨x2, hx2, hj2⟩ := C21_joins w hw'
  obtain ⟨s2, x3, hs2, hx3, k1, k2⟩ := C20_names_known w hw'
  obtain ⟨x4, hx4, k3⟩ := C23_only_date w hw'
  rw [hx] at hx2 hx3 hx4
  cases hx2; cases hx3; cases hx4; cases hs2
  refine ⟨x, (parsesTo_iff hM Q q x).2 hx, values_of hM Q _ _ hv, by rw [← hj, hj2]; rfl, k1, k2, k3, ?_, fun hqq hf => ?_⟩
  · rw [goVals_length]; exact C18_no_fewer w hw'
  · rw [goVals_length]; exact C18_query_partial hqq w hw' hf

/-- C86: the condition that `WireMiniQuery` adds, read as SQL, means the tree that `Parse` returns, where no `and` follows an `or` without parentheses; in general it means the
tree regrouped so that `and` binds tighter.  For queries without `->` and without comments inside operators, whose tree compares plain operands. -/
theorem C86_gorm_means {P M : Prog} (hP : gormProgram = some P) (hM : goProgram = some M) {Q : Char → Bool} {fold : Str → Str → Bool} {qt : Str → Str} {D : Type} {s : FSchema}
    (hq : QuotesNames s.schema qt fold) (J : Interp D) :
    ∃ I, OnColumns s.schema qt fold I J ∧ ∀ f q x t args joins, FStmt.has f s → ParsesTo M Q q x → WiresTo P Q fold qt f q t args joins → Balanced q false → CommentsOutside x →
      tame x = true → ∃ vs, args = goVals vs ∧ ConditionMeans I J t vs (regroup x) ∧ (safe x = true → ConditionMeans I J t vs x) := by
  obtain ⟨I, hI, H⟩ := C25_regrouped_partial hq J
  refine ⟨I, hI, fun f q x t args joins hs hx hA hb hc ht => ?_⟩
  have hp := (parsesTo_iff hM Q q x).1 hx
  obtain ⟨o, st', vs, e, hw, _, _, rfl⟩ := wiresTo_wire hP hA
  have w := wireStmt_has hs e ⟨x, hp⟩
  have := H {} q o t vs x w (by simpa using hw) hb hc hp ht
  refine ⟨vs, rfl, this, fun hsafe => ?_⟩
  rwa [(regroup_safe (parse_shape hp hb) hsafe).1] at this

/-! ## The package entmq -/

/-- `BuildEntQL` returns this predicate and no error. -/
def BuildsTo (P : Prog) (Q : Char → Bool) (q : Str) (p : EExpr) : Prop :=
  ∀ N n h, 5 * q.length + 7 ≤ N → 5 * q.length + 5 ≤ n → ∃ h', Keeps h h' ∧ call P (eqLib Q N) n (.fn c!"BuildEntQL") [.str q] h = .ok ([exprVal p, .nil], h')

theorem exprVal_ne_nil (p : EExpr) : exprVal p ≠ .nil := by cases p <;> simp [exprVal]

theorem eopName_inj : ∀ a b : EOp, eopName a = eopName b → a = b := by
  intro a b h
  cases a <;> cases b <;> first | rfl | (revert h; decide)

theorem exprVal_inj : ∀ a b : EExpr, exprVal a = exprVal b → a = b
  | .val v, b, h => by
    cases b <;> simp [exprVal] at h
    rw [goVal_inj _ _ h]
  | .field x, b, h => by
    cases b <;> simp [exprVal] at h
    rw [h]
  | .un o x, b, h => by
    cases b <;> simp [exprVal] at h
    rw [eopName_inj _ _ h.1, exprVal_inj _ _ h.2]
  | .bin o x y, b, h => by
    cases b <;> simp [exprVal] at h
    rw [eopName_inj _ _ h.1, exprVal_inj _ _ h.2.1, exprVal_inj _ _ h.2.2]

theorem buildsTo_iff {P : Prog} (hP : entqlProgram = some P) (Q : Char → Bool) (q : Str) (p : EExpr) : BuildsTo P Q q p ↔ buildEntQL q = .pred p := by
  constructor
  · intro H
    obtain ⟨h1, _, r⟩ := H _ _ noHeap (Nat.le_refl _) (Nat.le_refl _)
    obtain ⟨h2, _, r'⟩ := C84_build hP Q q _ _ (Nat.le_refl _) (Nat.le_refl _) noHeap
    cases e : buildEntQL q with
    | panic => rw [e] at r'; rw [r'] at r; cases r
    | nil => rw [e] at r'; exact absurd (one_outcome r r').1 (exprVal_ne_nil p)
    | err x => rw [e] at r'; exact absurd (one_outcome r r').1 (exprVal_ne_nil p)
    | pred p' => rw [e] at r'; rw [exprVal_inj _ _ (one_outcome r r').1]
  · intro hq N n h hN hn
    obtain ⟨h', k, r⟩ := C84_build hP Q q N n hN hn h
    rw [hq] at r
    exact ⟨h', k, r⟩

/-- C86: a predicate comes back for exactly the queries whose tree is a supported condition. -/
theorem C86_entql_builds {P M : Prog} (hP : entqlProgram = some P) (hM : goProgram = some M) (Q : Char → Bool) (q : Str) :
    (∃ p, BuildsTo P Q q p) ↔ ∃ x, ParsesTo M Q q x ∧ Sup x ∧ isCond x = true := by
  simp only [buildsTo_iff hP, parsesTo_iff hM]
  exact C37_predicate_partial q

/-- C86: the predicate means, in every interpretation, what the tree means that `Parse` returns; if there is no negation and no `not between`, and the query has no `->`. -/
theorem C86_entql_means {P M : Prog} (hP : entqlProgram = some P) (hM : goProgram = some M) {Q : Char → Bool} {D : Type} (I : Interp D) {q : Str} {x : Node} {p : EExpr}
    (hx : ParsesTo M Q q x) (hr : BuildsTo P Q q p) (hb : Balanced q false) (hbt : ∀ l o a b, Sub (.between l (.op o) a b) x → o = c!"between") (hn : ∀ e, ¬ Sub (.not e) x) :
    ∃ d, evalE I p = some d ∧ mean I x = some d :=
  C35_meaning_partial I ((parsesTo_iff hM Q q x).1 hx) hb ((buildsTo_iff hP Q q p).1 hr) hbt hn

/-- C86: negation is lost.  If a predicate is returned for a query, and another query parses as the negation of its tree, then for that the same is returned. -/
theorem C86_entql_not {P M : Prog} (hP : entqlProgram = some P) (hM : goProgram = some M) {Q : Char → Bool} {q q' : Str} {e : Node} {p : EExpr}
    (h' : ParsesTo M Q q' e) (h : ParsesTo M Q q (.not e)) (hr : BuildsTo P Q q' p) : BuildsTo P Q q p :=
  (buildsTo_iff hP Q q p).2 (C36_not_refuted ((parsesTo_iff hM Q q' e).1 h') ((parsesTo_iff hM Q q _).1 h) ((buildsTo_iff hP Q q' p).1 hr)).1

/-- C86: the text and the arguments that `Query` of a builder not used before returns, with no error recorded, read as SQL in exactly one way, and read so mean the tree that
`Parse` returns, regrouped so that `and` binds tighter; the tree itself where no `and` follows an `or` without parentheses.  For queries without `->` whose tree
compares plain operands, has arrays only after `in` and not empty ones, no negated range, and no call but `date` of one argument. -/
theorem C86_entsql_means {P M : Prog} (hP : entsqlProgram = some P) (hM : goProgram = some M) (Q : Char → Bool) (p : SPar) {Z : Sch} {S : Sit} {h : Heap} {d : Str} {k0 : Nat}
    (H : Unused Z S d k0 h) {D : Type} {J : Interp D} (hE : QuotesIdents (senv p Z.G (!S.dis)) d) (hJ : ∀ x y z, J.and (J.and x y) z = J.and x (J.and y z)) {N n D' k : Nat}
    (hN : 5 * S.q.length + 7 ≤ N) (hn : 5 * S.q.length + 3 ≤ n) (hD : 5 * S.q.length + 2 ≤ D') (hk : 10 * S.q.length + 1 ≤ k)
    {s : Str} {w : Mini.Val} {h1 : Heap} (r : call P (sqLib Q N p (sqc Q N D' p k)) n (.meth (.ptr S.a) c!"Query") [] h = .ok ([.str s, w], h1))
    {rb : RBld} (hb : rbldOf (h1.mem S.b) = some rb) (he : rb.errs = []) {x : Node} (hx : ParsesTo M Q S.q x) (ha : Balanced S.q false) (ht : tameSql x = true) :
    ∃ as, argsOf w = some (as.map argVal) ∧ SqlMeans (senv p Z.G (!S.dis)) J d k0 s as (regroup x) ∧ (safe x = true → SqlMeans (senv p Z.G (!S.dis)) J d k0 s as x) := by
  have hp := (parsesTo_iff hM Q S.q x).1 hx
  have R := unused_query hP Q p H hN hn hD hk
  rw [r] at R
  rcases eq : sQuery (senv p Z.G (!S.dis)) (SB.fresh d k0 S.node S.q) with ⟨o, b⟩
  rw [eq] at R
  cases o with
  | panic => cases R
  | ret t as =>
    obtain ⟨w', h', e, ew, _, H'⟩ := R
    cases e
    have hb' : rbldOf (h1.mem S.b) = some (rbld b.mb.own) := by rw [show h1.mem S.b = (rbld b.mb.own).val from H'.own, rbldOf_val]
    rw [hb] at hb'
    cases hb'
    have hf : b.failed = false := by
      have : b.mb.own.errs = [] := by simpa [rbld] using he
      simp [SB.failed, this]
    exact ⟨as, ew, C32_regrouped_partial hE hJ eq hf ha hp ht, fun hs => C32_meaning_partial hE hJ eq hf ha hp ht hs⟩

/-! ## Concrete runs -/

/-- `Parse` of the files on a query with a range and a call. -/
example : ParsesTo mq (fun _ => true) c!"a between 1 and 2 or date(b) = 'x'" (.logic (.between (.ident c!"a") (.op c!"between") (.int 1) (.int 2)) (.op c!"or")
    (.cmp (.func c!"date" [.ident c!"b"]) (.op c!"eq") (.str c!"x"))) := (parsesTo_iff C81_program _ _ _).2 (by decide +kernel)

/-- … and on one that is not a query. -/
example : Rejects mq (fun _ => true) c!"a >" := ((C86_decides C81_program _ _).1).resolve_left fun ⟨x, hx⟩ => by
  have := (parsesTo_iff C81_program _ _ _).1 hx
  have e : ∀ x, parse c!"a >" ≠ .ok x := by
    intro x h
    have : (match parse c!"a >" with | .ok _ => true | _ => false) = false := by decide +kernel
    rw [h] at this; cases this
  exact e x this

/-- A table with a relation. -/
def endSchema : FSchema where
  table := { db := [c!"a", c!"b"], named := [(c!"A", c!"a"), (c!"B", c!"b")], fields := [(c!"A", c!"a"), (c!"B", c!"b")] }
  rels := [(c!"R", { db := [c!"c"], named := [(c!"C", c!"c")], fields := [(c!"C", c!"c")] })]

/-- `WireMiniQuery` of the files, on a statement that gets this schema from its model. -/
example : WiresTo gq (fun _ => true) exampleFold exampleQuote { model := some (some endSchema) } c!"B = 1 and R.c in ['x', 'y']" c!"`b` = ? and `R`.`c` in ?"
    [.int 1, .slice [.str c!"x", .str c!"y"]] [c!"R"] := by
  have e : (wireStmt exampleQuote exampleFold (FStmt.stmt { model := some (some endSchema) }) {} c!"B = 1 and R.c in ['x', 'y']").1 =
      .ok { joins := [c!"R"], wheres := [(c!"`b` = ? and `R`.`c` in ?", [.int 1, .slice [.str c!"x", .str c!"y"]])] } := by decide +kernel
  rcases hw : wireStmt exampleQuote exampleFold (FStmt.stmt { model := some (some endSchema) }) {} c!"B = 1 and R.c in ['x', 'y']" with ⟨r, st'⟩
  rw [hw] at e
  cases e
  exact wiresTo_of C83_program _ _ _ hw rfl rfl

/-- `BuildEntQL` of the files. -/
example : BuildsTo eqp (fun _ => true) c!"a = 1 or b > 2" (.bin .or (.bin .eq (.field c!"a") (.val (.int 1))) (.bin .gt (.field c!"b") (.val (.int 2)))) :=
  (buildsTo_iff C84_program _ _ _).2 (by decide +kernel)

end Verif
