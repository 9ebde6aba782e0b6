import Verif.Mini.GormWire

/-! # Running /repo/gormq/miniquery.go: `GetOrParseSchema`, `WireMiniQuery`, `Scope`, `ApplyMiniQuery` -/

namespace Verif.Mini
open Verif

variable {Q : Char → Bool} {N n A B d b : Nat} {fold : Str → Str → Bool} {qt : Str → Str} {h : Heap} {s : Str} {cl : Bool} {stv : Val} {es js ws : List Val}
  {sc : FSchema} {q : Str} {x : Node} {L : Lib}

theorem wire_cbs (F : Lay h A B d cl stv es js ws sc) :
    Cbs Q N ⟨sc.schema, qt, fold⟩ (wheap h A B d cl stv es js ws) (B + 2) (addClo A B q x) (mapClo A B q x) (joinClo A B q x) (quoteClo A B q x) where
  sws st := gbuf_select (by decide) (w_buf F)
  swr st := gbuf_select (by decide) (w_buf F)
  ws n s st := by
    have e := gw_String (Q := Q) (N := N) (n := n) (fold := fold) (qt := qt) s (w_buf (st := st) F)
    rwa [w_write F] at e
  wr n c st := by
    have e := gw_Rune (Q := Q) (N := N) (n := n) (fold := fold) (qt := qt) c (w_buf (st := st) F)
    rwa [w_write F] at e
  add n v st := add_run (n := n + 4) F v
  map n s st := map_run (n := n + 3) F s
  join n s f st := join_run' (n := n + 3) F s f
  quote n s st := quote_run (n := n + 4) F s

/-! ## GetOrParseSchema -/

/-- The errors of `GetOrParseSchema`. -/
def schemaErrVal : SchemaErr → Val
  | .missingModel => errCall c!"fmt.Errorf" c!"missing model" []
  | .parse => errCall c!"gorm.Statement.Parse" c!"unsupported data type" []

/-- `getOrParseSchema` with finite schemas. -/
def getSchema (f : FStmt) : Except SchemaErr FSchema × FStmt :=
  match f.schema with
  | some s => (.ok s, f)
  | none =>
    match f.model with
    | none => (.error .missingModel, f)
    | some none => (.error .parse, f)
    | some (some s) => (.ok s, { f with schema := some s })

theorem getSchema_stmt (f : FStmt) : getOrParseSchema f.stmt = ((getSchema f).1.map FSchema.schema, (getSchema f).2.stmt) := by
  obtain ⟨a, m⟩ := f
  cases a with
  | some a => rfl
  | none => rcases m with _ | _ | m <;> rfl

/-- What `GetOrParseSchema` returns. -/
def schemaOut (h : Heap) : Except SchemaErr FSchema → Vals
  | .ok s => .ok ([schemaVal s, .nil], h)
  | .error e => .ok ([.nil, schemaErrVal e], h)

theorem st_Schema {f : FStmt} (e : h.mem b = stmtVal f) : select gq (.ptr b) c!"Schema" h = .ok ([schemaOrNil f.schema], h) := by
  simp [select, structOf, e, stmtVal, ownField, fget]
theorem st_Model {f : FStmt} (e : h.mem b = stmtVal f) : select gq (.ptr b) c!"Model" h = .ok ([modelVal f.model], h) := by
  simp [select, structOf, e, stmtVal, ownField, fget]
theorem st_Parse {f : FStmt} (e : h.mem b = stmtVal f) : select gq (.ptr b) c!"Parse" h = .ok ([.meth (.ptr b) c!"Parse"], h) := by
  have e2 : findStruct c!"gorm.Statement" gq.decls = none := rfl
  simp [select, structOf, e, stmtVal, ownField, fget, e2]
theorem st_parse {f : FStmt} (e : h.mem b = stmtVal f) (args) :
    gqCall Q N fold qt (n + 1) (.meth (.ptr b) c!"Parse") args h = gqLib Q N fold qt c!"gorm.Statement.Parse" (.ptr b :: args) h := by
  show runMeth gq (gqLib Q N fold qt) (gqCall Q N fold qt n) (.ptr b) c!"Parse" args _ = _
  have e2 : findStruct c!"gorm.Statement" gq.decls = none := rfl
  have e3 : findFunc (c!"gorm.Statement" ++ '.' :: c!"Parse") gq.decls = none := rfl
  simp only [runMeth, structOf, e, stmtVal, e2, e3, Option.getD_none, List.find?_nil]
  rfl
theorem gl_parseOk (v : Val) (h) : gqLib Q N fold qt c!"gorm.Statement.Parse" [.ptr b, .obj c!"model" [(c!"schema", v)]] h =
    .ok ([.nil], h.put b (.obj c!"gorm.Statement" [(c!"Schema", v), (c!"Model", .obj c!"model" [(c!"schema", v)])])) := rfl
theorem gl_parseErr (h) : gqLib Q N fold qt c!"gorm.Statement.Parse" [.ptr b, .obj c!"model" []] h = .ok ([schemaErrVal .parse], h) := rfl
theorem db_Statement (e : h.mem d = mkDb cl stv es js ws) : select gq (.ptr d) c!"Statement" h = .ok ([stv], h) := by
  simp [select, structOf, e, mkDb, ownField, fget]
theorem gp_stat : findPkg c!"stat" gq.decls = false := rfl
theorem same_schema : same (schemaVal sc) .nil = some false := rfl
theorem same_serr (e) : same (schemaErrVal e) .nil = some false := by cases e <;> rfl
theorem same_model (m) : same (modelVal (some m)) .nil = some false := by cases m <;> rfl

/-- Running `GetOrParseSchema`. -/
theorem getOrParse_run (f : FStmt) (e1 : h.mem d = mkDb cl (.ptr b) es js ws) (e2 : h.mem b = stmtVal f) :
    gqCall Q N fold qt (n + 3) (.fn c!"GetOrParseSchema") [.ptr d] h = schemaOut (h.put b (stmtVal (getSchema f).2)) (getSchema f).1 := by
  have e : gqCall Q N fold qt (n + 3) (.fn c!"GetOrParseSchema") [.ptr d] h =
    runBody gq (gqCall Q N fold qt (n + 2)) [c!"db"] [c!"schema", c!"err"] gormGetOrParseSchema [] [.ptr d] h := rfl
  rw [e, runBody_named rfl (by decide) (by decide)]
  have s1 := st_Schema e2
  have s2 := st_Model e2
  have s3 := st_Parse e2
  have s4 := fun n args => st_parse (Q := Q) (N := N) (n := n) (fold := fold) (qt := qt) e2 args
  have s5 := db_Statement e1
  obtain ⟨a, m⟩ := f
  cases a with
  | some a => gorun [gormGetOrParseSchema, gp_db, gp_stat, s1, s5, schemaOrNil, same_schema, schemaOut, getSchema, put_self e2]
  | none =>
    rcases m with _ | _ | m
    · gorun [gormGetOrParseSchema, gp_db, gp_stat, gp_fmt, gg_fmtErrorf, gl_fmtErrorf, s1, s2, s5, schemaOrNil, modelVal, schemaOut, schemaErrVal, getSchema, put_self e2]
    · gorun [gormGetOrParseSchema, gp_db, gp_stat, s1, s2, s3, s4, s5, schemaOrNil, modelVal, same_model, gl_parseErr, same_serr, schemaOut, getSchema, put_self e2]
    · have e3 : ∀ f, select gq (.ptr b) c!"Schema" (h.put b (stmtVal f)) = .ok ([schemaOrNil f.schema], h.put b (stmtVal f)) := fun f => st_Schema (put_mem_same _ _ _)
      have e4 := e3 ⟨some m, some (some m)⟩
      simp only [stmtVal, schemaOrNil, modelVal] at e4
      gorun [gormGetOrParseSchema, gp_db, gp_stat, s1, s2, s3, s4, s5, schemaOrNil, modelVal, same_model, gl_parseOk, schemaOut, getSchema, e4, stmtVal]

/-! ## WireMiniQuery -/

/-- The variables of `WireMiniQuery` that its function literals use. -/
def wireCaps : List Str := capSs false gormWireMiniQuery

theorem wc_db : (c!"db" ∈ wireCaps) = True := by simp only [eq_iff_iff, iff_true]; decide
theorem wc_schema : (c!"schema" ∈ wireCaps) = True := by simp only [eq_iff_iff, iff_true]; decide
theorem wc_vals : (c!"vals" ∈ wireCaps) = True := by simp only [eq_iff_iff, iff_true]; decide
theorem wc_joined : (c!"joined" ∈ wireCaps) = True := by simp only [eq_iff_iff, iff_true]; decide
theorem wc_query : (c!"query" ∈ wireCaps) = False := by simp only [eq_iff_iff, iff_false]; decide
theorem wc_ast : (c!"ast" ∈ wireCaps) = False := by simp only [eq_iff_iff, iff_false]; decide
theorem wc_err : (c!"err" ∈ wireCaps) = False := by simp only [eq_iff_iff, iff_false]; decide
theorem wc_buf : (c!"buf" ∈ wireCaps) = False := by simp only [eq_iff_iff, iff_false]; decide
theorem wc_quote : (c!"quote" ∈ wireCaps) = False := by simp only [eq_iff_iff, iff_false]; decide
theorem wc_qb : (c!"qb" ∈ wireCaps) = False := by simp only [eq_iff_iff, iff_false]; decide

/-- The memory when `visit` is called. -/
def startHeap (h : Heap) (sc : FSchema) : Heap := (((h.alloc (schemaVal sc)).alloc (.slice [])).alloc (bufVal [])).alloc (.map (.slice []) [])

theorem start_wheap (hd : d < A) (hA : A < h.next) (eA : h.mem A = .ptr d) (js) : startHeap h sc = wheap (startHeap h sc) A h.next d cl stv es js ws {} := by
  refine heap_ext rfl fun x => ?_
  by_cases h1 : x = A
  · subst h1; simp [wheap, startHeap, Heap.alloc, eA, show ¬ x = h.next + 1 + 1 + 1 by omega, show ¬ x = h.next + 1 + 1 by omega, show ¬ x = h.next + 1 by omega,
      show ¬ x = h.next by omega]
  · by_cases h2 : x = h.next + 1
    · subst h2; simp [wheap, startHeap, Heap.alloc, h1, goVals]
    · by_cases h3 : x = h.next + 2
      · subst h3; simp [wheap, startHeap, Heap.alloc, h1]
      · by_cases h4 : x = h.next + 3
        · subst h4; simp [wheap, startHeap, Heap.alloc, h1, joinedEntries, joinedMap]
        · simp [wheap, h1, h2, h3, h4]

theorem start_lay (hd : d < A) (hA : A < h.next) (e : h.mem d = mkDb cl stv es js ws) : Lay (startHeap h sc) A h.next d cl stv es js ws sc where
  hd := hd
  hA := hA
  hn := rfl
  schema := by simp [startHeap, Heap.alloc, show ¬ h.next = h.next + 1 + 1 + 1 by omega, show ¬ h.next = h.next + 1 + 1 by omega, show ¬ h.next = h.next + 1 by omega]
  db := by simp [startHeap, Heap.alloc, show ¬ d = h.next + 1 + 1 + 1 by omega, show ¬ d = h.next + 1 + 1 by omega, show ¬ d = h.next + 1 by omega,
      show ¬ d = h.next by omega, e]

/-- The text of `WireMiniQuery` with names for the function literals. -/
theorem wire_text : gormWireMiniQuery =
    .cons (.ite .nil (.bin c!"==" (.id c!"query") (.str c!"")) (.cons (.ret (.cons (.id c!"db") .nil)) .nil) .nil)
    (.cons (.define [c!"ast", c!"err"] (.cons (.call (.sel (.id c!"miniquery") c!"Parse") (.cons (.id c!"query") .nil) false) .nil))
    (.cons (.ite .nil (.bin c!"!=" (.id c!"err") (.id c!"nil"))
      (.cons (.assign (.cons (.id c!"_") .nil) (.cons (.call (.sel (.id c!"db") c!"AddError") (.cons (.call (.sel (.id c!"fmt") c!"Errorf")
        (.cons (.str c!"invalid query syntax: %v") (.cons (.id c!"err") .nil)) false) .nil) false) .nil))
      (.cons (.ret (.cons (.id c!"db") .nil)) .nil)) .nil)
    (.cons (.define [c!"schema", c!"err"] (.cons (.call (.id c!"GetOrParseSchema") (.cons (.id c!"db") .nil) false) .nil))
    (.cons (.ite .nil (.bin c!"!=" (.id c!"err") (.id c!"nil"))
      (.cons (.assign (.cons (.id c!"_") .nil) (.cons (.call (.sel (.id c!"db") c!"AddError") (.cons (.id c!"err") .nil) false) .nil))
      (.cons (.ret (.cons (.id c!"db") .nil)) .nil)) .nil)
    (.cons (.var c!"vals" (.arr (.id c!"interface")))
    (.cons (.define [c!"buf"] (.cons (.un c!"&" (.lit (.sel (.id c!"strings") c!"Builder") .nil .nil)) .nil))
    (.cons (.define [c!"joined"] (.cons (.lit (.map (.id c!"string") (.arr (.id c!"string"))) .nil .nil) .nil))
    (.cons (.define [c!"quote"] (.cons (.fn [c!"builder", c!"name"] [] (fnOf (nth gormWireMiniQuery 8))) .nil))
    (.cons (.define [c!"qb"] (.cons (.un c!"&" (.lit (.id c!"queryBuilder")
      (.cons (.id c!"buf") (.cons (.id c!"addValue") (.cons (.id c!"mapName") (.cons (.id c!"join") (.cons (.id c!"quote") .nil)))))
      (.cons (.id c!"buf") (.cons (.fn [c!"i"] [] (fieldFn 1 (nth gormWireMiniQuery 9))) (.cons (.fn [c!"s"] [c!"_", c!"_"] (fieldFn 2 (nth gormWireMiniQuery 9)))
        (.cons (.fn [c!"s", c!"fieldName"] [c!"_", c!"_"] (fieldFn 3 (nth gormWireMiniQuery 9))) (.cons (.id c!"quote") .nil))))))) .nil))
    (.cons (.assign (.cons (.id c!"err") .nil) (.cons (.call (.sel (.id c!"qb") c!"visit") (.cons (.id c!"ast") .nil) false) .nil))
    (.cons (.ite .nil (.bin c!"!=" (.id c!"err") (.id c!"nil"))
      (.cons (.assign (.cons (.id c!"_") .nil) (.cons (.call (.sel (.id c!"db") c!"AddError") (.cons (.id c!"err") .nil) false) .nil)) .nil)
      (.cons (.assign (.cons (.id c!"db") .nil) (.cons (.call (.sel (.id c!"db") c!"Where") (.cons (.call (.sel (.id c!"buf") c!"String") .nil false)
        (.cons (.id c!"vals") .nil)) true) .nil)) .nil))
    (.cons (.ret (.cons (.id c!"db") .nil))
    .nil)))))))))))) := rfl

/-- What is added to the errors of a `gorm.DB`. -/
def wireErrVal (f : FStmt) : DbErr → Val
  | .parse e => errCall c!"fmt.Errorf" c!"invalid query syntax: %v" [errVal e]
  | .schema => match (getSchema f).1 with | .error e => schemaErrVal e | .ok _ => .nil
  | .build e => gErrVal e

/-- What `WireMiniQuery` did: `r` is the address of the `gorm.DB` that it returned, `o` what was added. -/
structure Wired (h h' : Heap) (d b : Nat) (cl : Bool) (es js ws : List Val) (f f' : FStmt) (o : Db) (r : Nat) : Prop where
  res : ∃ c, h'.mem r = mkDb c (.ptr b) (es ++ o.errors.map (wireErrVal f)) (js ++ o.joins.map .str) (ws ++ o.wheres.map condVal)
  stmt : h'.mem b = stmtVal f'
  keeps : h.next ≤ h'.next ∧ ∀ x < h.next, x ≠ d → x ≠ b → h'.mem x = h.mem x
  given : r ≠ d → h'.mem d = h.mem d
  same : r = d ↔ cl = false ∨ o.joins = [] ∧ o.wheres = []

theorem gg_Parse : call gq L (n + 1) (.glob c!"miniquery.Parse") [] h = .ok ([.lib c!"miniquery.Parse"], h) := rfl
theorem gg_GetOrParse : call gq L (n + 1) (.glob c!"GetOrParseSchema") [] h = .ok ([.fn c!"GetOrParseSchema"], h) := rfl
theorem gl_Parse (args) : gqCall Q N fold qt (n + 1) (.lib c!"miniquery.Parse") args h = mqCall Q N (.fn c!"Parse") args h := rfl
theorem gmk_Builder : mkStruct gq c!"strings.Builder" [] h = .ok ([.ptr h.next], h.alloc (bufVal [])) := rfl
theorem gmk_qb (fs) : mkStruct gq c!"queryBuilder" fs h = .ok ([.obj c!"queryBuilder" fs], h) := rfl
theorem same_err (e : Err) : same (errVal e) .nil = some false := by cases e <;> rfl

theorem wire_enter : gqCall Q N fold qt (n + 1) (.fn c!"WireMiniQuery") [.ptr d, .str q] h =
    finish [c!"_"] (execs gq (gqCall Q N fold qt n) wireCaps gormWireMiniQuery 0 [(c!"query", .val (.str q)), (c!"db", .box h.next)] (h.alloc (.ptr d))) := by
  have e : gqCall Q N fold qt (n + 1) (.fn c!"WireMiniQuery") [.ptr d, .str q] h =
    runBody gq (gqCall Q N fold qt n) [c!"db", c!"query"] [c!"_"] gormWireMiniQuery [] [.ptr d, .str q] h := rfl
  rw [e]
  simp only [runBody, show capSs false gormWireMiniQuery = wireCaps from rfl, declareAll, declare, wc_db, wc_query]
  generalize hr : execs gq (gqCall Q N fold qt n) wireCaps gormWireMiniQuery 0 [(c!"query", .val (.str q)), (c!"db", .box h.next)] (h.alloc (.ptr d)) = r
  simp [hr]
  rcases r with ⟨f, l, h⟩ | _ | _ | _ <;> rfl

theorem wire_empty (n : Nat) : gqCall Q N fold qt (n + 1) (.fn c!"WireMiniQuery") [.ptr d, .str []] h = .ok ([.ptr d], h.alloc (.ptr d)) := by
  rw [wire_enter, wire_text]
  have e : (h.alloc (.ptr d)).mem h.next = .ptr d := by simp [Heap.alloc]
  gorun [e]

theorem wire_parseErr {h' : Heap} {e : Err} (hq : q ≠ []) (hA : h'.mem h.next = .ptr d) (hd : h'.mem d = mkDb cl stv es js ws)
    (hp : mqCall Q N (.fn c!"Parse") [.str q] (h.alloc (.ptr d)) = .ok ([.nil, errVal e], h')) (hne : h.next ≠ d) :
    gqCall Q N fold qt (n + 3) (.fn c!"WireMiniQuery") [.ptr d, .str q] h =
      .ok ([.ptr d], h'.put d (mkDb cl stv (es ++ [errCall c!"fmt.Errorf" c!"invalid query syntax: %v" [errVal e]]) js ws)) := by
  rw [wire_enter, wire_text]
  have e1 := gdb_select (m := c!"AddError") (by decide) hd
  have e2 := fun n v => db_AddError (Q := Q) (N := N) (n := n) (fold := fold) (qt := qt) v hd
  have e3 : ∀ v, (h'.put d v).mem h.next = .ptr d := fun v => by rw [put_mem_other _ _ hne, hA]
  gorun [hq, gp_miniquery, gg_Parse, gl_Parse, hp, wc_ast, wc_err, same_err, hA, gp_db, e1, e2, e3, gp_fmt, gg_fmtErrorf, gl_fmtErrorf]

theorem wire_schemaErr {h' h'' : Heap} {e : SchemaErr} (hq : q ≠ []) (hA : h''.mem h.next = .ptr d) (hA' : h'.mem h.next = .ptr d) (hd : h''.mem d = mkDb cl stv es js ws)
    (hp : mqCall Q N (.fn c!"Parse") [.str q] (h.alloc (.ptr d)) = .ok ([nodeVal x, .nil], h'))
    (hs : gqCall Q N fold qt (n + 3) (.fn c!"GetOrParseSchema") [.ptr d] h' = .ok ([.nil, schemaErrVal e], h'')) (hne : h.next ≠ d) (hlt : h.next < h''.next)
    (hdlt : d < h''.next) :
    gqCall Q N fold qt (n + 4) (.fn c!"WireMiniQuery") [.ptr d, .str q] h =
      .ok ([.ptr d], (h''.alloc .nil).put d (mkDb cl stv (es ++ [schemaErrVal e]) js ws)) := by
  rw [wire_enter, wire_text]
  have hd' : (h''.alloc .nil).mem d = mkDb cl stv es js ws := by simp [Heap.alloc, show ¬ d = h''.next by omega, hd]
  have hA'' : (h''.alloc .nil).mem h.next = .ptr d := by simp [Heap.alloc, show ¬ h.next = h''.next by omega, hA]
  have e1 := gdb_select (m := c!"AddError") (by decide) hd'
  have e2 := fun n v => db_AddError (Q := Q) (N := N) (n := n) (fold := fold) (qt := qt) v hd'
  have e3 : ∀ v, ((h''.alloc .nil).put d v).mem h.next = .ptr d := fun v => by rw [put_mem_other _ _ hne, hA'']
  gorun [hq, gp_miniquery, gg_Parse, gl_Parse, hp, wc_ast, wc_err, wc_schema, same_serr, hA', hA'', gp_db, e1, e2, e3, gg_GetOrParse, hs]

/-- What happens after `visit`. -/
def wireEnd (cl : Bool) (stv : Val) (es js ws : List Val) (h0 : Heap) (A B d : Nat) : GRes → Vals
  | .panic => .panic
  | .err e st => .ok ([.ptr (curDb cl h0 d st)], (wheap h0 A B d cl stv es js ws st).put (curDb cl h0 d st)
      (mkDb (cl && st.joins.isEmpty) stv (es ++ [gErrVal e]) (js ++ st.joins.map .str) ws))
  | .ok st =>
    match chain (wheap h0 A B d cl stv es js ws st) (curDb cl h0 d st) (cl && st.joins.isEmpty)
      (mkDb false stv es (js ++ st.joins.map .str) (ws ++ [condVal (st.buf, st.vals)])) with
    | .ok ([v], k) => .ok ([v], k.put A v)
    | r => r

theorem curDb_lt (hd : d < A) (hA : A < h.next) (st) : curDb cl h d st ≠ A := by
  unfold curDb joinAddr
  split
  · omega
  · split <;> omega

theorem fold_quote : Val.clo [c!"builder", c!"name"] [] (fnOf (nth gormWireMiniQuery 8))
    [(c!"joined", .box (B + 1 + 1 + 1)), (c!"buf", .val (.ptr (B + 1 + 1))), (c!"vals", .box (B + 1)), (c!"schema", .box B), (c!"err", .val .nil),
      (c!"ast", .val (nodeVal x)), (c!"query", .val (.str q)), (c!"db", .box A)] = quoteClo A B q x := rfl
theorem fold_add : Val.clo [c!"i"] [] (fieldFn 1 (nth gormWireMiniQuery 9))
    [(c!"quote", .val (quoteClo A B q x)), (c!"joined", .box (B + 1 + 1 + 1)), (c!"buf", .val (.ptr (B + 1 + 1))), (c!"vals", .box (B + 1)), (c!"schema", .box B),
      (c!"err", .val .nil), (c!"ast", .val (nodeVal x)), (c!"query", .val (.str q)), (c!"db", .box A)] = addClo A B q x := rfl
theorem fold_map : Val.clo [c!"s"] [c!"_", c!"_"] (fieldFn 2 (nth gormWireMiniQuery 9))
    [(c!"quote", .val (quoteClo A B q x)), (c!"joined", .box (B + 1 + 1 + 1)), (c!"buf", .val (.ptr (B + 1 + 1))), (c!"vals", .box (B + 1)), (c!"schema", .box B),
      (c!"err", .val .nil), (c!"ast", .val (nodeVal x)), (c!"query", .val (.str q)), (c!"db", .box A)] = mapClo A B q x := rfl
theorem fold_join : Val.clo [c!"s", c!"fieldName"] [c!"_", c!"_"] (fieldFn 3 (nth gormWireMiniQuery 9))
    [(c!"quote", .val (quoteClo A B q x)), (c!"joined", .box (B + 1 + 1 + 1)), (c!"buf", .val (.ptr (B + 1 + 1))), (c!"vals", .box (B + 1)), (c!"schema", .box B),
      (c!"err", .val .nil), (c!"ast", .val (nodeVal x)), (c!"query", .val (.str q)), (c!"db", .box A)] = joinClo A B q x := rfl
theorem gmk_qb' (a av mn jn qu) : mkStruct gq c!"queryBuilder" [(c!"buf", .ptr a), (c!"addValue", av), (c!"mapName", mn), (c!"join", jn), (c!"quote", qu)] h =
    .ok ([qbVal a av mn jn qu], h) := rfl
theorem fold_start : (((h.alloc (schemaVal sc)).alloc (.slice [])).alloc (bufVal [])).alloc (.map (.slice []) []) = startHeap h sc := rfl
theorem anext (v) : (h.alloc v).next = h.next + 1 := rfl

set_option maxHeartbeats 1000000 in
theorem wire_visit {h' h'' : Heap} (hq : q ≠ []) (hA : h''.mem h.next = .ptr d) (hA' : h'.mem h.next = .ptr d) (hd : h''.mem d = mkDb cl stv es js ws)
    (hp : mqCall Q N (.fn c!"Parse") [.str q] (h.alloc (.ptr d)) = .ok ([nodeVal x, .nil], h'))
    (hs : gqCall Q N fold qt (n + 8) (.fn c!"GetOrParseSchema") [.ptr d] h' = .ok ([schemaVal sc, .nil], h'')) (hdl : d < h.next) (hlt : h.next < h''.next)
    (hN : lvl x + 2 ≤ N) (hn : 2 * lvl x ≤ n) :
    gqCall Q N fold qt (n + 9) (.fn c!"WireMiniQuery") [.ptr d, .str q] h =
      wireEnd cl stv es js ws (startHeap h'' sc) h.next h''.next d (gvisit ⟨sc.schema, qt, fold⟩ x {}) := by
  rw [wire_enter, wire_text]
  have F : Lay (startHeap h'' sc) h.next h''.next d cl stv es js ws sc := start_lay hdl hlt hd
  have C := wire_cbs (Q := Q) (N := N) (qt := qt) (fold := fold) (q := q) (x := x) F
  have R := gvisit_run C (lvl x) x (Nat.le_refl _) hN n hn {}
  rw [← start_wheap hdl hlt hA js] at R
  have R : gqCall Q N fold qt (n + 8) (.meth (qbVal (h''.next + 1 + 1) (addClo h.next h''.next q x) (mapClo h.next h''.next q x) (joinClo h.next h''.next q x)
    (quoteClo h.next h''.next q x)) c!"visit") [nodeVal x] (startHeap h'' sc) = _ := R
  have z1 : zeroOf gq (.arr (.id c!"interface")) = .slice [] := rfl
  have z2 : zeroOf gq (.arr (.id c!"string")) = .slice [] := rfl
  cases er : gvisit ⟨sc.schema, qt, fold⟩ x {} with
  | panic =>
    rw [er] at R
    gorun [hq, gp_miniquery, gg_Parse, gl_Parse, hp, wc_ast, wc_err, wc_schema, wc_vals, wc_buf, wc_joined, wc_quote, wc_qb, hA', gp_db, gp_qb, gp_strings, gg_GetOrParse, hs,
      z1, z2, gmk_Builder, gmk_qb', fold_quote, fold_add, fold_map, fold_join, fold_start, anext, mapEntries, b_visit, R, gOut, wireEnd]
  | err e st =>
    rw [er] at R
    have hne : h.next ≠ curDb cl (startHeap h'' sc) d st := (curDb_lt hdl (by simp [startHeap, Heap.alloc]; omega) st).symm
    have e1 := gdb_select (m := c!"AddError") (by decide) (w_cur (st := st) F)
    have e2 := fun n v => db_AddError (Q := Q) (N := N) (n := n) (fold := fold) (qt := qt) v (w_cur (st := st) F)
    have e3 : ∀ v, ((wheap (startHeap h'' sc) h.next h''.next d cl stv es js ws st).put (curDb cl (startHeap h'' sc) d st) v).mem h.next = _ :=
      fun v => by rw [put_mem_other _ _ hne, w_db]
    gorun [hq, gp_miniquery, gg_Parse, gl_Parse, hp, wc_ast, wc_err, wc_schema, wc_vals, wc_buf, wc_joined, wc_quote, wc_qb, hA', gp_db, gp_qb, gp_strings, gg_GetOrParse, hs,
      z1, z2, gmk_Builder, gmk_qb', fold_quote, fold_add, fold_map, fold_join, fold_start, anext, mapEntries, b_visit, R, gOut, wireEnd, same_gErr, w_db, e1, e2, e3]
  | ok st =>
    rw [er] at R
    have e1 := gdb_select (m := c!"Where") (by decide) (w_cur (st := st) F)
    have e2 := fun n s v => db_Where (Q := Q) (N := N) (n := n) (fold := fold) (qt := qt) s v (w_cur (st := st) F)
    have e4 : select gq (.ptr (h''.next + 1 + 1)) c!"String" (wheap (startHeap h'' sc) h.next h''.next d cl stv es js ws st) = _ := gbuf_select (by decide) (w_buf (st := st) F)
    have e5 : ∀ n, gqCall Q N fold qt (n + 1) (.meth (.ptr (h''.next + 1 + 1)) c!"String") [] (wheap (startHeap h'' sc) h.next h''.next d cl stv es js ws st) = _ :=
      fun n => gr_String (w_buf (st := st) F)
    obtain ⟨v, k, ek⟩ : ∃ v k, chain (wheap (startHeap h'' sc) h.next h''.next d cl stv es js ws st) (curDb cl (startHeap h'' sc) d st) (cl && st.joins.isEmpty)
      (mkDb false stv es (js ++ st.joins.map .str) (ws ++ [mkCond st.buf (goVals st.vals)])) = .ok ([v], k) := by
      unfold chain; split <;> exact ⟨_, _, rfl⟩
    have e6 : condVal (st.buf, st.vals) = mkCond st.buf (goVals st.vals) := rfl
    gorun [hq, gp_miniquery, gg_Parse, gl_Parse, hp, wc_ast, wc_err, wc_schema, wc_vals, wc_buf, wc_joined, wc_quote, wc_qb, hA', gp_db, gp_qb, gp_strings, gg_GetOrParse, hs,
      z1, z2, gmk_Builder, gmk_qb', fold_quote, fold_add, fold_map, fold_join, fold_start, anext, mapEntries, b_visit, R, gOut, wireEnd, w_db, w_vals F, e1, e2, e4, e5, e6, ek, gp_buf]

end Verif.Mini
