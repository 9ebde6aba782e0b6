import Verif.Mini.GormVisit
import Verif.Mini.JoinRun

/-! # Running /repo/gormq/miniquery.go: the memory of `WireMiniQuery` -/

namespace Verif.Mini
open Verif

variable {Q : Char → Bool} {N n a : Nat} {fold : Str → Str → Bool} {qt : Str → Str} {h : Heap} {s : Str}

/-! ## Buffers -/

theorem gbuf_structOf (e : h.mem a = bufVal s) : ∃ fs, structOf h (.ptr a) = some (c!"strings.Builder", fs) ∧ (fs = [] ∨ ∃ x, fs = [(c!"s", x)]) := by
  cases s with
  | nil => exact ⟨[], by simp [structOf, e, bufVal], .inl rfl⟩
  | cons c s => exact ⟨_, by simp [structOf, e, bufVal]; rfl, .inr ⟨_, rfl⟩⟩

theorem gbuf_select {m : Str} (hm : m ≠ c!"s") (e : h.mem a = bufVal s) : select gq (.ptr a) m h = .ok ([.meth (.ptr a) m], h) := by
  obtain ⟨fs, e, h1⟩ := gbuf_structOf e
  have e1 : fget m fs = none := by rcases h1 with rfl | ⟨x, rfl⟩ <;> simp [fget, hm]
  have e2 : findStruct c!"strings.Builder" gq.decls = none := rfl
  simp [select, e, ownField, e1, e2]

theorem gbuf_meth {m : Str} {args} (hf : findFunc (c!"strings.Builder." ++ m) gq.decls = none) (e : h.mem a = bufVal s) :
    gqCall Q N fold qt (n + 1) (.meth (.ptr a) m) args h = gqLib Q N fold qt (c!"strings.Builder." ++ m) (.ptr a :: args) h := by
  show runMeth gq (gqLib Q N fold qt) (gqCall Q N fold qt n) (.ptr a) m args _ = _
  obtain ⟨fs, e, h1⟩ := gbuf_structOf e
  have e1 : c!"strings.Builder" ++ '.' :: m = c!"strings.Builder." ++ m := rfl
  have e2 : findStruct c!"strings.Builder" gq.decls = none := rfl
  simp only [runMeth, e, e1, hf, e2, Option.getD_none, List.find?_nil]

theorem bufText_of (e : h.mem a = bufVal s) : bufText h a = s := by cases s <;> simp [bufText, e, bufVal]

theorem gw_String (x : Str) (e : h.mem a = bufVal s) : gqCall Q N fold qt (n + 1) (.meth (.ptr a) c!"WriteString") [.str x] h =
    .ok ([.nil, .nil], h.put a (bufVal (s ++ x))) := by
  rw [gbuf_meth rfl e]
  show Res.ok ([Val.nil, .nil], h.put a (bufVal (bufText h a ++ x))) = _
  rw [bufText_of e]

theorem gw_Rune (c : Char) (e : h.mem a = bufVal s) : gqCall Q N fold qt (n + 1) (.meth (.ptr a) c!"WriteRune") [.int c.toNat] h =
    .ok ([.nil, .nil], h.put a (bufVal (s ++ [c]))) := by
  rw [gbuf_meth rfl e]
  show Res.ok ([Val.nil, .nil], h.put a (bufVal (bufText h a ++ [Char.ofNat (c.toNat : Int).toNat]))) = _
  rw [bufText_of e, Int.toNat_natCast, Char.ofNat_toNat]

theorem gr_String (e : h.mem a = bufVal s) : gqCall Q N fold qt (n + 1) (.meth (.ptr a) c!"String") [] h = .ok ([.str s], h) := by
  rw [gbuf_meth rfl e]
  show Res.ok ([Val.str (bufText h a)], _) = _
  rw [bufText_of e]

/-! ## gorm.DB -/

variable {d : Nat} {cl : Bool} {stv : Val} {es js ws : List Val}

theorem gdb_select {m : Str} (hm : m ∉ [c!"clone", c!"Statement", c!"errors", c!"joins", c!"wheres"]) (e : h.mem d = mkDb cl stv es js ws) :
    select gq (.ptr d) m h = .ok ([.meth (.ptr d) m], h) := by
  simp only [List.mem_cons, not_or] at hm
  obtain ⟨h1, h2, h3, h4, h5, _⟩ := hm
  have e2 : findStruct c!"gorm.DB" gq.decls = none := rfl
  simp [select, structOf, e, mkDb, ownField, fget, h1, h2, h3, h4, h5, e2]

theorem gdb_meth {m : Str} {args} (hf : findFunc (c!"gorm.DB." ++ m) gq.decls = none) (e : h.mem d = mkDb cl stv es js ws) :
    gqCall Q N fold qt (n + 1) (.meth (.ptr d) m) args h = gqLib Q N fold qt (c!"gorm.DB." ++ m) (.ptr d :: args) h := by
  show runMeth gq (gqLib Q N fold qt) (gqCall Q N fold qt n) (.ptr d) m args _ = _
  have e1 : c!"gorm.DB" ++ '.' :: m = c!"gorm.DB." ++ m := rfl
  have e2 : findStruct c!"gorm.DB" gq.decls = none := rfl
  simp only [runMeth, structOf, e, mkDb, e1, hf, e2, Option.getD_none, List.find?_nil]

theorem dbParts_mk : dbParts (mkDb cl stv es js ws) = some ⟨cl, stv, es, js, ws⟩ := rfl

theorem db_AddError (v : Val) (e : h.mem d = mkDb cl stv es js ws) :
    gqCall Q N fold qt (n + 1) (.meth (.ptr d) c!"AddError") [v] h = .ok ([v], h.put d (mkDb cl stv (es ++ [v]) js ws)) := by
  rw [gdb_meth rfl e]
  show (match dbParts (h.mem d) with | some p => _ | none => _) = _
  rw [e, dbParts_mk]

theorem db_Joins (x : Str) (e : h.mem d = mkDb cl stv es js ws) :
    gqCall Q N fold qt (n + 1) (.meth (.ptr d) c!"Joins") [.str x] h = chain h d cl (mkDb false stv es (js ++ [.str x]) ws) := by
  rw [gdb_meth rfl e]
  show (match dbParts (h.mem d) with | some p => _ | none => _) = _
  rw [e, dbParts_mk]

theorem db_Where (x : Str) (vs : List Val) (e : h.mem d = mkDb cl stv es js ws) :
    gqCall Q N fold qt (n + 1) (.meth (.ptr d) c!"Where") (.str x :: vs) h = chain h d cl (mkDb false stv es js (ws ++ [mkCond x vs])) := by
  rw [gdb_meth rfl e]
  show (match dbParts (h.mem d) with | some p => _ | none => _) = _
  rw [e, dbParts_mk]

theorem db_QuoteTo (x : Str) (e : h.mem d = mkDb cl stv es js ws) :
    gqCall Q N fold qt (n + 1) (.meth (.ptr d) c!"QuoteTo") [.ptr a, .str x] h = .ok ([], h.put a (bufVal (bufText h a ++ qt x))) := by
  rw [gdb_meth rfl e]; rfl

/-! ## The map `joined` -/

/-- `m[s] = append(m[s], d)` -/
def addTo (s d : Str) : List (Str × List Str) → List (Str × List Str)
  | [] => [(s, [d])]
  | (t, ds) :: m => if s = t then (t, ds ++ [d]) :: m else (t, ds) :: addTo s d m

/-- The map `joined`, from the pairs that were added to it. -/
def joinedMap (l : List (Str × Str)) : List (Str × List Str) := l.foldl (fun m p => addTo p.1 p.2 m) []

/-- A slice of texts. -/
def strsVal (kv : Str × List Str) : Val := .slice (kv.2.map .str)

/-- The entries of the map `joined`. -/
def joinedEntries (l : List (Str × Str)) : List (Str × Val) := (joinedMap l).map fun kv => (kv.1, strsVal kv)

theorem addTo_lookup (s d t : Str) (m : List (Str × List Str)) : ((addTo s d m).lookup t).isSome = ((m.lookup t).isSome || t == s) := by
  induction m with
  | nil => cases e : t == s <;> simp [addTo, List.lookup, e]
  | cons kv m ih =>
    obtain ⟨k, ds⟩ := kv
    by_cases hs : s = k
    · subst hs
      cases e : t == s <;> simp [addTo, List.lookup, e]
    · cases e : t == k <;> simp [addTo, hs, List.lookup, e, ih]

theorem joinedMap_snoc (l : List (Str × Str)) (s d : Str) : joinedMap (l ++ [(s, d)]) = addTo s d (joinedMap l) := by simp [joinedMap]

theorem foldl_lookup (l : List (Str × Str)) (m : List (Str × List Str)) (s : Str) :
    ((l.foldl (fun m p => addTo p.1 p.2 m) m).lookup s).isSome = ((m.lookup s).isSome || l.any fun p => p.1 == s) := by
  induction l generalizing m with
  | nil => simp
  | cons p l ih =>
    have : (s == p.1) = (p.1 == s) := by rw [Bool.eq_iff_iff, beq_iff_eq, beq_iff_eq]; exact eq_comm
    rw [List.foldl_cons, ih, addTo_lookup, List.any_cons, this, Bool.or_assoc]

theorem joinedMap_lookup (l : List (Str × Str)) (s : Str) : ((joinedMap l).lookup s).isSome = l.any fun p => p.1 == s := by
  rw [joinedMap, foldl_lookup]; rfl

theorem fset_addTo (s d : Str) (m : List (Str × List Str)) :
    fset s (.slice (((m.lookup s).getD []).map .str ++ [.str d])) (m.map fun kv => (kv.1, strsVal kv)) = (addTo s d m).map fun kv => (kv.1, strsVal kv) := by
  induction m with
  | nil => rfl
  | cons kv m ih =>
    obtain ⟨k, ds⟩ := kv
    by_cases hs : s = k
    · subst hs
      simp [fset, addTo, strsVal, List.lookup]
    · have : (s == k) = false := by simpa using hs
      simp [fset, addTo, hs, List.lookup, this, ih]

theorem joined_get (l : List (Str × Str)) (s : Str) : fget s (joinedEntries l) = ((joinedMap l).lookup s).map fun ds => .slice (ds.map .str) :=
  fget_lookup strsVal s (joinedMap l)

theorem joined_set (l : List (Str × Str)) (s d : Str) :
    fset s (.slice ((((joinedMap l).lookup s).getD []).map .str ++ [.str d])) (joinedEntries l) = joinedEntries (l ++ [(s, d)]) := by
  rw [joinedEntries, fset_addTo, joinedEntries, joinedMap_snoc]

/-! ## The memory while `visit` runs -/

/-- The address of the `gorm.DB` after `Joins`. -/
def joinAddr (cl : Bool) (h : Heap) (d : Nat) : Nat := if cl then h.next else d

/-- The memory in the state `st`: `h` is the memory before `visit`, `A` the address of the variable `db`, `B` that of `schema`, followed by those of `vals`, of
the buffer, and of `joined`; `d` is the address of the `gorm.DB` that was given. -/
def wheap (h : Heap) (A B d : Nat) (cl : Bool) (stv : Val) (es js ws : List Val) (st : GSt) : Heap where
  next := if st.joins = [] then h.next else if cl then h.next + 1 else h.next
  mem x :=
    if x = A then .ptr (if st.joins = [] then d else joinAddr cl h d)
    else if x = B + 1 then .slice (goVals st.vals)
    else if x = B + 2 then bufVal st.buf
    else if x = B + 3 then .map (.slice []) (joinedEntries st.joined)
    else if x = joinAddr cl h d ∧ st.joins ≠ [] then mkDb false stv es (js ++ st.joins.map .str) ws
    else h.mem x

/-- The addresses are different, and hold the schema and the `gorm.DB`. -/
structure Lay (h : Heap) (A B d : Nat) (cl : Bool) (stv : Val) (es js ws : List Val) (sc : FSchema) : Prop where
  hd : d < A
  hA : A < B
  hn : h.next = B + 4
  schema : h.mem B = schemaVal sc
  db : h.mem d = mkDb cl stv es js ws

variable {A B : Nat} {sc : FSchema} {st : GSt}

/-- The address of the current `gorm.DB`. -/
def curDb (cl : Bool) (h : Heap) (d : Nat) (st : GSt) : Nat := if st.joins = [] then d else joinAddr cl h d

theorem w_db : (wheap h A B d cl stv es js ws st).mem A = .ptr (curDb cl h d st) := by simp [wheap, curDb]
theorem w_vals (F : Lay h A B d cl stv es js ws sc) : (wheap h A B d cl stv es js ws st).mem (B + 1) = .slice (goVals st.vals) := by
  have := F.hA; simp [wheap, show ¬ B + 1 = A by omega]
theorem w_buf (F : Lay h A B d cl stv es js ws sc) : (wheap h A B d cl stv es js ws st).mem (B + 2) = bufVal st.buf := by
  have := F.hA; simp [wheap, show ¬ B + 2 = A by omega]
theorem w_joined (F : Lay h A B d cl stv es js ws sc) : (wheap h A B d cl stv es js ws st).mem (B + 3) = .map (.slice []) (joinedEntries st.joined) := by
  have := F.hA; simp [wheap, show ¬ B + 3 = A by omega]
theorem w_schema (F : Lay h A B d cl stv es js ws sc) : (wheap h A B d cl stv es js ws st).mem B = schemaVal sc := by
  have := F.hA
  have := F.hd
  have := F.hn
  have : B ≠ joinAddr cl h d := by cases cl <;> simp [joinAddr] <;> omega
  simp [wheap, show ¬ B = A by omega, this, F.schema]
theorem w_cur (F : Lay h A B d cl stv es js ws sc) : (wheap h A B d cl stv es js ws st).mem (curDb cl h d st) =
    mkDb (cl && st.joins.isEmpty) stv es (js ++ st.joins.map .str) ws := by
  have := F.hA
  have := F.hd
  have := F.hn
  by_cases hj : st.joins = []
  · have h1 : ¬ d = A := by omega
    have h2 : ¬ d = B + 1 := by omega
    have h3 : ¬ d = B + 2 := by omega
    have h4 : ¬ d = B + 3 := by omega
    simp [curDb, wheap, hj, h1, h2, h3, h4, F.db]
  · have h1 : joinAddr cl h d ≠ A := by cases cl <;> simp [joinAddr] <;> omega
    have h2 : joinAddr cl h d ≠ B + 1 := by cases cl <;> simp [joinAddr] <;> omega
    have h3 : joinAddr cl h d ≠ B + 2 := by cases cl <;> simp [joinAddr] <;> omega
    have h4 : joinAddr cl h d ≠ B + 3 := by cases cl <;> simp [joinAddr] <;> omega
    have h5 : st.joins.isEmpty = false := by simpa using hj
    simp [curDb, wheap, hj, h1, h2, h3, h4, h5]

theorem heap_ext {h k : Heap} (e : h.next = k.next) (f : ∀ x, h.mem x = k.mem x) : h = k := by
  cases h; cases k; simp only [Heap.mk.injEq]; exact ⟨e, funext f⟩

theorem w_addVal (F : Lay h A B d cl stv es js ws sc) (v : GoVal) : (wheap h A B d cl stv es js ws st).put (B + 1) (.slice (goVals st.vals ++ [goVal v])) =
    wheap h A B d cl stv es js ws { st with vals := st.vals ++ [v] } := by
  have := F.hA
  have e : goVals (st.vals ++ [v]) = goVals st.vals ++ [goVal v] := by
    generalize st.vals = l
    induction l with
    | nil => rfl
    | cons x l ih => simp [goVals, ih]
  refine heap_ext rfl fun x => ?_
  by_cases h1 : x = B + 1
  · subst h1; simp [Heap.put, wheap, e, show ¬ B + 1 = A by omega]
  · simp [Heap.put, wheap, h1]

theorem w_write (F : Lay h A B d cl stv es js ws sc) (x : Str) : (wheap h A B d cl stv es js ws st).put (B + 2) (bufVal (st.buf ++ x)) =
    wheap h A B d cl stv es js ws (st.write x) := by
  have := F.hA
  refine heap_ext rfl fun x => ?_
  by_cases h1 : x = B + 2
  · subst h1; simp [Heap.put, wheap, GSt.write, show ¬ B + 2 = A by omega]
  · simp [Heap.put, wheap, h1, GSt.write]; rfl

theorem w_note (F : Lay h A B d cl stv es js ws sc) (s x : Str) : (wheap h A B d cl stv es js ws st).put (B + 3) (.map (.slice []) (joinedEntries (st.joined ++ [(s, x)]))) =
    wheap h A B d cl stv es js ws { st with joined := st.joined ++ [(s, x)] } := by
  have := F.hA
  refine heap_ext rfl fun x => ?_
  by_cases h1 : x = B + 3
  · subst h1; simp [Heap.put, wheap, show ¬ B + 3 = A by omega]
  · simp [Heap.put, wheap, h1]

/-- `db = db.Joins(s)` -/
theorem w_join (F : Lay h A B d cl stv es js ws sc) (s : Str) : ∃ k, chain (wheap h A B d cl stv es js ws st) (curDb cl h d st) (cl && st.joins.isEmpty)
      (mkDb false stv es (js ++ st.joins.map .str ++ [.str s]) ws) = .ok ([.ptr (joinAddr cl h d)], k) ∧
    k.put A (.ptr (joinAddr cl h d)) = wheap h A B d cl stv es js ws { st with joins := st.joins ++ [s] } := by
  have := F.hA
  have := F.hd
  have := F.hn
  have h1 : joinAddr cl h d ≠ A := by cases cl <;> simp [joinAddr] <;> omega
  have h2 : joinAddr cl h d ≠ B + 1 := by cases cl <;> simp [joinAddr] <;> omega
  have h3 : joinAddr cl h d ≠ B + 2 := by cases cl <;> simp [joinAddr] <;> omega
  have h4 : joinAddr cl h d ≠ B + 3 := by cases cl <;> simp [joinAddr] <;> omega
  by_cases hc : (cl && st.joins.isEmpty) = true
  · have hcl : cl = true := by simp_all
    have hj : st.joins = [] := by simp_all
    subst hcl
    have ej : joinAddr true h d = h.next := rfl
    refine ⟨(wheap h A B d true stv es js ws st).alloc (mkDb false stv es (js ++ st.joins.map .str ++ [.str s]) ws), ?_, ?_⟩
    · simp [chain, hj, ej, wheap]
    · refine heap_ext (by simp [wheap, Heap.alloc, hj]) fun x => ?_
      rw [ej] at h1 h2 h3 h4
      by_cases hx : x = A
      · subst hx; simp [Heap.put, wheap]
      · by_cases hx' : x = h.next
        · subst hx'; simp [Heap.put, Heap.alloc, wheap, h1, h2, h3, h4, hj, ej]
        · simp [Heap.put, Heap.alloc, wheap, hx, hx', hj, ej]
  · have ec : curDb cl h d st = joinAddr cl h d := by
      unfold curDb
      split
      · rename_i hj; have : cl = false := by simp_all
        subst this; rfl
      · rfl
    rw [ec]
    refine ⟨(wheap h A B d cl stv es js ws st).put (joinAddr cl h d) (mkDb false stv es (js ++ st.joins.map .str ++ [.str s]) ws), by simp [chain, hc], ?_⟩
    refine heap_ext ?_ fun x => ?_
    · simp [wheap]
      intro hj
      have : cl = false := by simp_all
      simp [this]
    · by_cases hx : x = A
      · subst hx; simp [Heap.put, wheap]
      · by_cases hx' : x = joinAddr cl h d
        · subst hx'; simp [Heap.put, wheap, h1, h2, h3, h4]
        · simp [Heap.put, wheap, hx, hx']

/-! ## The function literals of `WireMiniQuery` -/

/-- The body of a function literal that is defined by a statement. -/
def fnOf : Stmts → Stmts
  | .cons (.define _ (.cons (.fn _ _ b) .nil)) _ => b
  | _ => .nil

/-- The body of the function literal in a field of a struct literal that is defined by a statement. -/
def fieldFn (i : Nat) : Stmts → Stmts
  | .cons (.define _ (.cons (.un _ (.lit _ _ vs)) .nil)) _ => go i vs
  | _ => .nil
where
  /-- The expression at a place. -/
  go : Nat → Exprs → Stmts
    | 0, .cons (.fn _ _ b) _ => b
    | n + 1, .cons _ es => go n es
    | _, _ => .nil

/-- The variables before `quote` is defined. -/
def wireEnv (A B : Nat) (q : Str) (x : Node) : Locals :=
  [(c!"joined", .box (B + 3)), (c!"buf", .val (.ptr (B + 2))), (c!"vals", .box (B + 1)), (c!"schema", .box B), (c!"err", .val .nil), (c!"ast", .val (nodeVal x)),
    (c!"query", .val (.str q)), (c!"db", .box A)]

/-- The function `quote`. -/
def quoteClo (A B : Nat) (q : Str) (x : Node) : Val := .clo [c!"builder", c!"name"] [] (fnOf (nth gormWireMiniQuery 8)) (wireEnv A B q x)

/-- The variables when the query builder is made. -/
def wireEnv' (A B : Nat) (q : Str) (x : Node) : Locals := (c!"quote", .val (quoteClo A B q x)) :: wireEnv A B q x

/-- The function `addValue`. -/
def addClo (A B : Nat) (q : Str) (x : Node) : Val := .clo [c!"i"] [] (fieldFn 1 (nth gormWireMiniQuery 9)) (wireEnv' A B q x)

/-- The function `mapName`. -/
def mapClo (A B : Nat) (q : Str) (x : Node) : Val := .clo [c!"s"] [c!"_", c!"_"] (fieldFn 2 (nth gormWireMiniQuery 9)) (wireEnv' A B q x)

/-- The function `join`. -/
def joinClo (A B : Nat) (q : Str) (x : Node) : Val := .clo [c!"s", c!"fieldName"] [c!"_", c!"_"] (fieldFn 3 (nth gormWireMiniQuery 9)) (wireEnv' A B q x)

variable {q : Str} {x : Node}

theorem gp_db : findPkg c!"db" gq.decls = false := rfl
theorem gp_r : findPkg c!"r" gq.decls = false := rfl

theorem quote_run (F : Lay h A B d cl stv es js ws sc) (y : Str) :
    gqCall Q N fold qt (n + 2) (quoteClo A B q x) [.ptr (B + 2), .str y] (wheap h A B d cl stv es js ws st) =
      .ok ([], wheap h A B d cl stv es js ws (st.write (qt y))) := by
  have e : gqCall Q N fold qt (n + 2) (quoteClo A B q x) [.ptr (B + 2), .str y] (wheap h A B d cl stv es js ws st) =
    runBody gq (gqCall Q N fold qt (n + 1)) [c!"builder", c!"name"] [] (fnOf (nth gormWireMiniQuery 8)) (wireEnv A B q x) [.ptr (B + 2), .str y]
      (wheap h A B d cl stv es js ws st) := rfl
  rw [e, runBody_plain rfl (by decide) (by decide)]
  have e1 := gdb_select (m := c!"QuoteTo") (by decide) (w_cur (st := st) F)
  have e2 := db_QuoteTo (Q := Q) (N := N) (n := n) (fold := fold) (qt := qt) (a := B + 2) y (w_cur (st := st) F)
  rw [bufText_of (w_buf F), w_write F] at e2
  gorun [gormWireMiniQuery, nth, fnOf, wireEnv, gp_db, w_db, e1, e2]

theorem add_run (F : Lay h A B d cl stv es js ws sc) (v : GoVal) :
    gqCall Q N fold qt (n + 2) (addClo A B q x) [goVal v] (wheap h A B d cl stv es js ws st) =
      .ok ([], wheap h A B d cl stv es js ws { st with vals := st.vals ++ [v] }) := by
  have e : gqCall Q N fold qt (n + 2) (addClo A B q x) [goVal v] (wheap h A B d cl stv es js ws st) =
    runBody gq (gqCall Q N fold qt (n + 1)) [c!"i"] [] (fieldFn 1 (nth gormWireMiniQuery 9)) (wireEnv' A B q x) [goVal v]
      (wheap h A B d cl stv es js ws st) := rfl
  rw [e, runBody_plain rfl (by decide) (by decide)]
  gorun [gormWireMiniQuery, nth, fieldFn, fieldFn.go, wireEnv, wireEnv', w_vals F, w_addVal F]

theorem map_run (F : Lay h A B d cl stv es js ws sc) (y : Str) :
    gqCall Q N fold qt (n + 3) (mapClo A B q x) [.str y] (wheap h A B d cl stv es js ws st) =
      mapOut (wheap h A B d cl stv es js ws st) y (getDBName fold sc.table.table y) := by
  have e : gqCall Q N fold qt (n + 3) (mapClo A B q x) [.str y] (wheap h A B d cl stv es js ws st) =
    runBody gq (gqCall Q N fold qt (n + 2)) [c!"s"] [c!"_", c!"_"] (fieldFn 2 (nth gormWireMiniQuery 9)) (wireEnv' A B q x) [.str y]
      (wheap h A B d cl stv es js ws st) := rfl
  rw [e, runBody_plain rfl (by decide) (by decide)]
  have e1 := fun more h => getDBName_run (Q := Q) (N := N) (n := n) (fold := fold) (qt := qt) (h := h) sc.table more y
  cases er : getDBName fold sc.table.table y <;> rw [er] at e1 <;>
  gorun [gormWireMiniQuery, nth, fieldFn, fieldFn.go, wireEnv, wireEnv', w_schema F, gg_getDBName, e1, gp_fmt, gg_fmtErrorf, gl_fmtErrorf, mapOut, gErrVal,
    show schemaVal sc = anySchema sc.table _ from rfl]

theorem sel_rels (sc : FSchema) : select gq (schemaVal sc) c!"Relationships" h = .ok ([.obj c!"schema.Relationships" [(c!"Relations",
    .map .nil (sc.rels.map fun kv => (kv.1, .obj c!"schema.Relationship" [(c!"FieldSchema", tableVal kv.2)])))]], h) := rfl
theorem sel_relations (v : Val) : select gq (.obj c!"schema.Relationships" [(c!"Relations", v)]) c!"Relations" h = .ok ([v], h) := rfl
theorem sel_fieldSchema (v : Val) : select gq (.obj c!"schema.Relationship" [(c!"FieldSchema", v)]) c!"FieldSchema" h = .ok ([v], h) := rfl

/-- The body of `join`. -/
def joinBody : Stmts := fieldFn 3 (nth gormWireMiniQuery 9)

/-- The first statements of a block. -/
def takeS : Nat → Stmts → Stmts
  | 0, _ => .nil
  | _ + 1, .nil => .nil
  | n + 1, .cons s k => .cons s (takeS n k)

theorem rel_some {s : Str} {t : FTable} (e : sc.rels.lookup s = some t) : sc.schema.rel s = some t.table := by simp [FSchema.schema, e]
theorem rel_none {s : Str} (e : sc.rels.lookup s = none) : sc.schema.rel s = none := by simp [FSchema.schema, e]

theorem gl_fmtErrorf' (f args h) : gqLib Q N fold qt c!"fmt.Errorf" (.str f :: args) h = .ok ([errCall c!"fmt.Errorf" f args], h) := rfl

theorem join_run' (F : Lay h A B d cl stv es js ws sc) (s f : Str) :
    gqCall Q N fold qt (n + 3) (joinClo A B q x) [.str s, .str f] (wheap h A B d cl stv es js ws st) =
      joinOut ⟨sc.schema, qt, fold⟩ (wheap h A B d cl stv es js ws) s f st := by
  have e : gqCall Q N fold qt (n + 3) (joinClo A B q x) [.str s, .str f] (wheap h A B d cl stv es js ws st) =
    runBody gq (gqCall Q N fold qt (n + 2)) [c!"s", c!"fieldName"] [c!"_", c!"_"] joinBody (wireEnv' A B q x) [.str s, .str f]
      (wheap h A B d cl stv es js ws st) := rfl
  rw [e, runBody_plain rfl (by decide) (by decide)]
  have hr := fget_lookup (fun kv : Str × FTable => .obj c!"schema.Relationship" [(c!"FieldSchema", tableVal kv.2)]) s sc.rels
  cases er : sc.rels.lookup s with
  | none =>
    rw [er] at hr
    gorun [joinBody, gormWireMiniQuery, nth, fieldFn, fieldFn.go, wireEnv, wireEnv', w_schema F, sel_rels, sel_relations, hr, gp_fmt, gg_fmtErrorf, gl_fmtErrorf,
      joinOut, gErrVal, rel_none er]
  | some t =>
    rw [er] at hr
    have e1 := fun h => getDBName_run (Q := Q) (N := N) (n := n) (fold := fold) (qt := qt) (h := h) t [] f
    have e0 : tableVal t = anySchema t [] := rfl
    cases ed : getDBName fold t.table f with
    | none =>
      simp only [ed] at e1
      gorun [joinBody, gormWireMiniQuery, nth, fieldFn, fieldFn.go, wireEnv, wireEnv', w_schema F, sel_rels, sel_relations, hr, gp_fmt, gg_fmtErrorf, gl_fmtErrorf,
        joinOut, gErrVal, rel_some er, gg_getDBName, sel_fieldSchema, e0, e1, ed, gp_r]
    | some y =>
      simp only [ed] at e1
      have eg := joined_get st.joined s
      have el := joinedMap_lookup st.joined s
      cases em : (joinedMap st.joined).lookup s with
      | some ds =>
        rw [em] at eg el
        have es' := joined_set st.joined s y
        simp only [em, Option.getD_some, Option.getD_none, List.map_nil, List.nil_append] at es'
        have ea : st.joined.any (fun p => p.1 == s) = true := el.symm
        gorun [joinBody, gormWireMiniQuery, nth, fieldFn, fieldFn.go, wireEnv, wireEnv', w_schema F, sel_rels, sel_relations, hr, gp_fmt, gg_fmtErrorf, gl_fmtErrorf,
          joinOut, gErrVal, rel_some er, gg_getDBName, sel_fieldSchema, e0, e1, ed, gp_r, w_joined F, eg, ea, addJoin, es', w_note F]
      | none =>
        rw [em] at eg el
        have ea : st.joined.any (fun p => p.1 == s) = false := el.symm
        obtain ⟨k, ek, ek'⟩ := w_join (st := st) F s
        have e2 := gdb_select (m := c!"Joins") (by decide) (w_cur (st := st) F)
        have e3 := db_Joins (Q := Q) (N := N) (n := n + 1) (fold := fold) (qt := qt) s (w_cur (st := st) F)
        rw [ek] at e3
        have es' := joined_set st.joined s y
        simp only [em, Option.getD_some, Option.getD_none, List.map_nil, List.nil_append] at es'
        gorun [joinBody, gormWireMiniQuery, nth, fieldFn, fieldFn.go, wireEnv, wireEnv', w_schema F, sel_rels, sel_relations, hr, gp_fmt, gg_fmtErrorf, gl_fmtErrorf,
          joinOut, gErrVal, rel_some er, gg_getDBName, sel_fieldSchema, e0, e1, ed, gp_r, w_joined F, eg, ea, addJoin, es', w_note F, w_db, gp_db, e2, e3, ek']

end Verif.Mini
