import Verif.Mini.GormTop
import Verif.Props.Parse
import Verif.Mini.VisitorRun

/-! # Running /repo/gormq/miniquery.go: the whole of `WireMiniQuery`, `Scope`, `ApplyMiniQuery` -/

namespace Verif.Mini
open Verif

variable {Q : Char → Bool} {N n A B d b : Nat} {fold : Str → Str → Bool} {qt : Str → Str} {h : Heap} {s : Str} {cl : Bool} {stv : Val} {es js ws : List Val}
  {sc : FSchema} {q : Str} {x : Node} {L : Lib}

theorem w_low {H0 : Heap} {y : Nat} (hA : A < B) (hB : H0.next = B + 4) (hy : y < A) (hd : y ≠ d) (st : GSt) :
    (wheap H0 A B d cl stv es js ws st).mem y = H0.mem y := by
  have : y ≠ joinAddr cl H0 d := by cases cl <;> simp [joinAddr] <;> omega
  simp [wheap, show ¬ y = A by omega, show ¬ y = B + 1 by omega, show ¬ y = B + 2 by omega, show ¬ y = B + 3 by omega, this]

theorem w_given {H0 : Heap} (hA : A < B) (hB : H0.next = B + 4) (hd : d < A) (st : GSt) :
    (wheap H0 A B d true stv es js ws st).mem d = H0.mem d := by
  have : d ≠ joinAddr true H0 d := by simp [joinAddr]; omega
  simp [wheap, show ¬ d = A by omega, show ¬ d = B + 1 by omega, show ¬ d = B + 2 by omega, show ¬ d = B + 3 by omega, this]

theorem start_low {y : Nat} (hy : y < h.next) : (startHeap h sc).mem y = h.mem y := by
  simp [startHeap, Heap.alloc, show ¬ y = h.next + 1 + 1 + 1 by omega, show ¬ y = h.next + 1 + 1 by omega, show ¬ y = h.next + 1 by omega, show ¬ y = h.next by omega]

theorem w_next {H0 : Heap} (st : GSt) : H0.next ≤ (wheap H0 A B d cl stv es js ws st).next := by
  simp only [wheap]; split
  · omega
  · split <;> omega

/-- What was added when `visit` has ended. -/
def addedOf : GRes → Db
  | .panic => {}
  | .err e st => { joins := st.joins, errors := [.build e] }
  | .ok st => { joins := st.joins, wheres := [(st.buf, st.vals)] }

theorem wireEnd_done {k : Heap} {f f' : FStmt} (hd : d < h.next) (hb : b < h.next) (hdb : d ≠ b) (hk : h.next < k.next) (ed : k.mem d = h.mem d)
    (eb : k.mem b = stmtVal f') (ek : ∀ y < h.next, y ≠ d → y ≠ b → k.mem y = h.mem y) (r : GRes) :
    (r = .panic ∧ wireEnd cl (.ptr b) es js ws (startHeap k sc) h.next k.next d r = .panic) ∨
    ∃ a h', wireEnd cl (.ptr b) es js ws (startHeap k sc) h.next k.next d r = .ok ([.ptr a], h') ∧ Wired h h' d b cl es js ws f f' (addedOf r) a := by
  have hB : (startHeap k sc).next = k.next + 4 := rfl
  have low : ∀ y st, y < h.next → y ≠ d → (wheap (startHeap k sc) h.next k.next d cl (.ptr b) es js ws st).mem y = k.mem y := fun y st hy hyd => by
    rw [w_low hk hB hy hyd, start_low (by omega)]
  have giv : cl = true → ∀ st, (wheap (startHeap k sc) h.next k.next d cl (.ptr b) es js ws st).mem d = h.mem d := fun e st => by
    subst e; rw [w_given hk hB hd, start_low (by omega), ed]
  have cur : ∀ st, curDb cl (startHeap k sc) d st = d ∨ (cl = true ∧ curDb cl (startHeap k sc) d st = k.next + 4) := by
    intro st; unfold curDb joinAddr
    split
    · exact .inl rfl
    · cases cl <;> simp [hB]
  have cur' : ∀ st, curDb cl (startHeap k sc) d st = d ↔ cl = false ∨ st.joins = [] := by
    intro st; unfold curDb joinAddr
    split
    · simp_all
    · cases cl <;> simp_all; omega
  cases r with
  | panic => exact .inl ⟨rfl, rfl⟩
  | err e st =>
    refine .inr ⟨_, _, rfl, ?_, ?_, ?_, ?_, ?_⟩
    · exact ⟨cl && st.joins.isEmpty, by rw [put_mem_same]; simp [addedOf, wireErrVal]⟩
    · rw [put_mem_other _ _ (by rcases cur st with e | ⟨_, e⟩ <;> rw [e] <;> omega), low _ _ hb (Ne.symm hdb), eb]
    · refine ⟨?_, fun y hy h1 h2 => ?_⟩
      · have := w_next (A := h.next) (B := k.next) (d := d) (cl := cl) (stv := .ptr b) (es := es) (js := js) (ws := ws) (H0 := startHeap k sc) st
        rw [put_next]; omega
      · rw [put_mem_other _ _ (by rcases cur st with e | ⟨_, e⟩ <;> rw [e] <;> omega), low _ _ hy h1, ek y hy h1 h2]
    · intro hr
      rw [put_mem_other _ _ (Ne.symm hr)]
      rcases cur st with e | ⟨e, _⟩
      · exact absurd e hr
      · exact giv e st
    · rw [cur' st]; simp [addedOf]
  | ok st =>
    right
    have hne : h.next ≠ curDb cl (startHeap k sc) d st := (curDb_lt hd (by rw [hB]; omega) st).symm
    have hnx := w_next (A := h.next) (B := k.next) (d := d) (cl := cl) (stv := .ptr b) (es := es) (js := js) (ws := ws) (H0 := startHeap k sc) st
    by_cases hc : (cl && st.joins.isEmpty) = true
    · have hcl : cl = true := by simp_all
      have hj : st.joins = [] := by simp_all
      have ew : (wheap (startHeap k sc) h.next k.next d cl (.ptr b) es js ws st).next = k.next + 4 := by simp [wheap, hj, hB]
      refine ⟨k.next + 4, ((wheap (startHeap k sc) h.next k.next d cl (.ptr b) es js ws st).alloc
        (mkDb false (.ptr b) es (js ++ st.joins.map .str) (ws ++ [condVal (st.buf, st.vals)]))).put h.next (.ptr (k.next + 4)), ?_, ?_, ?_, ?_, ?_, ?_⟩
      · simp only [wireEnd, chain, hc, if_true, ew]
      · exact ⟨false, by rw [put_mem_other _ _ (by omega)]; simp [Heap.alloc, ew, addedOf]⟩
      · rw [put_mem_other _ _ (by omega)]; simp only [Heap.alloc, ew, show ¬ b = k.next + 4 by omega, if_false]; rw [low _ _ hb (Ne.symm hdb), eb]
      · refine ⟨by simp [Heap.alloc, ew]; omega, fun y hy h1 h2 => ?_⟩
        rw [put_mem_other _ _ (by omega)]; simp only [Heap.alloc, ew, show ¬ y = k.next + 4 by omega, if_false]; rw [low _ _ hy h1, ek y hy h1 h2]
      · intro _
        rw [put_mem_other _ _ (by omega)]; simp only [Heap.alloc, ew, show ¬ d = k.next + 4 by omega, if_false]; exact giv hcl st
      · simp [addedOf, hcl]; omega
    · have hcd : curDb cl (startHeap k sc) d st = d ↔ cl = false := by
        rw [cur' st]
        constructor
        · intro o; rcases o with o | o
          · exact o
          · simp_all
        · exact .inl
      refine ⟨curDb cl (startHeap k sc) d st, ((wheap (startHeap k sc) h.next k.next d cl (.ptr b) es js ws st).put (curDb cl (startHeap k sc) d st)
        (mkDb false (.ptr b) es (js ++ st.joins.map .str) (ws ++ [condVal (st.buf, st.vals)]))).put h.next (.ptr (curDb cl (startHeap k sc) d st)), ?_, ?_, ?_, ?_, ?_, ?_⟩
      · simp [wireEnd, chain, hc]
      · exact ⟨false, by rw [put_mem_other _ _ hne.symm, put_mem_same]; simp [addedOf]⟩
      · rw [put_mem_other _ _ (by omega), put_mem_other _ _ (by rcases cur st with e | ⟨_, e⟩ <;> rw [e] <;> omega), low _ _ hb (Ne.symm hdb), eb]
      · refine ⟨by rw [put_next, put_next]; omega, fun y hy h1 h2 => ?_⟩
        rw [put_mem_other _ _ (by omega), put_mem_other _ _ (by rcases cur st with e | ⟨_, e⟩ <;> rw [e] <;> omega), low _ _ hy h1, ek y hy h1 h2]
      · intro hr
        rw [put_mem_other _ _ (by omega), put_mem_other _ _ (Ne.symm hr)]
        rcases cur st with e | ⟨e, _⟩
        · exact absurd e hr
        · exact giv e st
      · rw [hcd]; simp [addedOf]

/-- Running `WireMiniQuery`. -/
theorem wire_run (f : FStmt) (hd : d < h.next) (hb : b < h.next) (hdb : d ≠ b) (e1 : h.mem d = mkDb cl (.ptr b) es js ws) (e2 : h.mem b = stmtVal f)
    (hN : 7 ≤ N) (hx : ∀ x, parse q = .ok x → lvl x + 2 ≤ N ∧ 2 * lvl x ≤ n) :
    match wireStmt qt fold f.stmt {} q with
    | (.panic, _) => gqCall Q N fold qt (n + 9) (.fn c!"WireMiniQuery") [.ptr d, .str q] h = .panic
    | (.ok o, st') => ∃ a h' f', f'.stmt = st' ∧ Wired h h' d b cl es js ws f f' o a ∧
        gqCall Q N fold qt (n + 9) (.fn c!"WireMiniQuery") [.ptr d, .str q] h = .ok ([.ptr a], h') := by
  by_cases hq : q = []
  · subst hq
    simp only [wireStmt, if_true]
    refine ⟨d, _, f, rfl, ?_, wire_empty (n + 8)⟩
    refine ⟨⟨cl, ?_⟩, ?_, ⟨by simp [Heap.alloc], fun y hy _ _ => ?_⟩, fun hr => absurd rfl hr, by simp⟩
    · simp [Heap.alloc, show ¬ d = h.next by omega, e1]
    · simp [Heap.alloc, show ¬ b = h.next by omega, e2]
    · simp [Heap.alloc, show ¬ y = h.next by omega]
  · obtain ⟨N, rfl⟩ : ∃ N', N = N' + 7 := ⟨N - 7, by omega⟩
    obtain ⟨h', ⟨hk, hk'⟩, hp⟩ := parse_run (Q := Q) (n := N) (h := h.alloc (.ptr d)) q
    have hk : h.next + 1 ≤ h'.next := hk
    have low : ∀ y < h.next, h'.mem y = h.mem y := fun y hy => by
      rw [hk' y (by simp [Heap.alloc]; omega)]; simp [Heap.alloc, show ¬ y = h.next by omega]
    have hA : h'.mem h.next = .ptr d := by rw [hk' _ (by simp [Heap.alloc])]; simp [Heap.alloc]
    rcases (C01_parse_total q).1 with ⟨x, ex⟩ | ⟨e, ex⟩
    · obtain ⟨hxN, hxn⟩ := hx x ex
      rw [ex] at hp
      have hs := fun n => getOrParse_run (Q := Q) (N := N + 7) (n := n) (fold := fold) (qt := qt) f (by rw [low d hd]; exact e1) (by rw [low b hb]; exact e2)
      have hg := getSchema_stmt f
      have hAb : (h'.put b (stmtVal (getSchema f).2)).mem h.next = .ptr d := by rw [put_mem_other _ _ (by omega), hA]
      have hdb' : (h'.put b (stmtVal (getSchema f).2)).mem d = h.mem d := by rw [put_mem_other _ _ hdb, low d hd]
      cases eg : (getSchema f).1 with
      | error e =>
        rw [eg] at hs hg
        have ew := wire_schemaErr (n := n + 5) (e := e) hq hAb hA (by rw [hdb', e1]) hp (hs _) (by omega) (by rw [put_next]; omega) (by rw [put_next]; omega)
        simp only [wireStmt, hq, if_false, ex, hg, Except.map, wire]
        refine ⟨d, _, (getSchema f).2, rfl, ?_, ew⟩
        refine ⟨⟨cl, ?_⟩, ?_, ⟨by simp [Heap.alloc]; omega, fun y hy h1 h2 => ?_⟩, fun hr => absurd rfl hr, by simp⟩
        · rw [put_mem_same]; simp [wireErrVal, eg]
        · rw [put_mem_other _ _ (Ne.symm hdb)]; simp only [Heap.alloc, put_next, show ¬ b = h'.next by omega, if_false]; rw [put_mem_same]
        · rw [put_mem_other _ _ h1]; simp only [Heap.alloc, put_next, show ¬ y = h'.next by omega, if_false]; rw [put_mem_other _ _ h2, low y hy]
      | ok sc =>
        rw [eg] at hs hg
        have ew := wire_visit (n := n) hq hAb hA (by rw [hdb', e1]) hp (hs (n + 5)) hd (by rw [put_next]; omega) hxN hxn
        have D := wireEnd_done (h := h) (k := h'.put b (stmtVal (getSchema f).2)) (sc := sc) (cl := cl) (es := es) (js := js) (ws := ws) (f := f) (f' := (getSchema f).2) hd hb hdb
          (by rw [put_next]; omega) hdb' (put_mem_same _ _ _) (fun y hy h1 h2 => by rw [put_mem_other _ _ h2, low y hy]) (gvisit ⟨sc.schema, qt, fold⟩ x {})
        rw [← ew] at D
        simp only [wireStmt, hq, if_false, ex, hg, Except.map, wire]
        cases er : gvisit ⟨sc.schema, qt, fold⟩ x {} with
        | panic =>
          rw [er] at D
          rcases D with ⟨_, D⟩ | ⟨_, _, D, _⟩
          · exact D
          · rw [ew, er] at D; cases D
        | err e st =>
          rw [er] at D
          rcases D with ⟨D, _⟩ | ⟨a, k, D, W⟩
          · cases D
          · exact ⟨a, k, _, rfl, by simpa [addedOf] using W, D⟩
        | ok st =>
          rw [er] at D
          rcases D with ⟨D, _⟩ | ⟨a, k, D, W⟩
          · cases D
          · exact ⟨a, k, _, rfl, by simpa [addedOf] using W, D⟩
    · rw [ex] at hp
      have ew := wire_parseErr (n := n + 6) (fold := fold) (qt := qt) hq hA (by rw [low d hd, e1]) hp (by omega)
      simp only [wireStmt, hq, if_false, ex, wire]
      refine ⟨d, _, f, rfl, ?_, ew⟩
      refine ⟨⟨cl, ?_⟩, ?_, ⟨by rw [put_next]; omega, fun y hy h1 h2 => ?_⟩, fun hr => absurd rfl hr, by simp⟩
      · rw [put_mem_same]; simp [wireErrVal]
      · rw [put_mem_other _ _ (Ne.symm hdb), low b hb, e2]
      · rw [put_mem_other _ _ h1, low y hy]

/-! ## Scope and ApplyMiniQuery -/

/-- What calling `WireMiniQuery` on a `gorm.DB` does, for a call `C`. -/
def WireOut (qt : Str → Str) (fold : Str → Str → Bool) (h : Heap) (d b : Nat) (cl : Bool) (es js ws : List Val) (f : FStmt) (q : Str) (r : Vals) : Prop :=
  match wireStmt qt fold f.stmt {} q with
  | (.panic, _) => r = .panic
  | (.ok o, st') => ∃ a h' f', f'.stmt = st' ∧ Wired h h' d b cl es js ws f f' o a ∧ r = .ok ([.ptr a], h')

theorem Wired.from {h0 h' : Heap} {f f' : FStmt} {o : Db} {a : Nat} (k : Keeps h0 h) (hd : d < h0.next) (W : Wired h h' d b cl es js ws f f' o a) :
    Wired h0 h' d b cl es js ws f f' o a where
  res := W.res
  stmt := W.stmt
  keeps := ⟨Nat.le_trans k.1 W.keeps.1, fun x hx h1 h2 => by rw [W.keeps.2 x (Nat.lt_of_lt_of_le hx k.1) h1 h2, k.2 x hx]⟩
  given e := by rw [W.given e, k.2 d hd]
  same := W.same

theorem WireOut.from {h0 : Heap} {f : FStmt} {r : Vals} (k : Keeps h0 h) (hd : d < h0.next) (W : WireOut qt fold h d b cl es js ws f q r) :
    WireOut qt fold h0 d b cl es js ws f q r := by
  unfold WireOut at W ⊢
  split
  · rename_i e; rw [e] at W; exact W
  · rename_i e; rw [e] at W
    obtain ⟨a, h', f', h1, h2, h3⟩ := W
    exact ⟨a, h', f', h1, h2.from k hd, h3⟩

theorem wire_out (f : FStmt) (hd : d < h.next) (hb : b < h.next) (hdb : d ≠ b) (e1 : h.mem d = mkDb cl (.ptr b) es js ws) (e2 : h.mem b = stmtVal f)
    (hN : 7 ≤ N) (hx : ∀ x, parse q = .ok x → lvl x + 2 ≤ N ∧ 2 * lvl x ≤ n) :
    WireOut qt fold h d b cl es js ws f q (gqCall Q N fold qt (n + 9) (.fn c!"WireMiniQuery") [.ptr d, .str q] h) := wire_run f hd hb hdb e1 e2 hN hx

theorem gg_Wire : call gq L (n + 1) (.glob c!"WireMiniQuery") [] h = .ok ([.fn c!"WireMiniQuery"], h) := rfl
theorem gg_Join : call gq L (n + 1) (.glob c!"miniquery.Join") [] h = .ok ([.lib c!"miniquery.Join"], h) := rfl
theorem gl_Join (args) : gqCall Q N fold qt (n + 1) (.lib c!"miniquery.Join") args h = mqCall Q N (.fn c!"Join") args h := rfl
theorem gp_q : findPkg c!"q" gq.decls = false := rfl
theorem sel_Query (v : Val) : select gq (.obj c!"MiniQuery" [(c!"Query", v)]) c!"Query" h = .ok ([v], h) := rfl

/-- Returning what a call returns. -/
theorem finish_many (r : Vals) (l : Locals) : finish [c!"_"] (next (many r fun vs h => .ok (.ret vs, l, h)) fun l h => .ok (.norm, l, h)) = r := by
  rcases r with ⟨vs, h⟩ | _ | _ | _ <;> rfl

/-- Running `Scope`. -/
theorem scope_run (f : FStmt) (qs : List Str) (hd : d < h.next) (hb : b < h.next) (hdb : d ≠ b) (e1 : h.mem d = mkDb cl (.ptr b) es js ws) (e2 : h.mem b = stmtVal f)
    (hN : 7 ≤ N) (hx : ∀ x, parse (join qs) = .ok x → lvl x + 2 ≤ N ∧ 2 * lvl x ≤ n) :
    WireOut qt fold h d b cl es js ws f (join qs)
      (gqCall Q N fold qt (n + 10) (.meth (.obj c!"MiniQuery" [(c!"Query", .slice (qs.map .str))]) c!"Scope") [.ptr d] h) := by
  obtain ⟨N, rfl⟩ : ∃ N', N = N' + 2 := ⟨N - 2, by omega⟩
  obtain ⟨h1, k, ej⟩ := join_run (Q := Q) (n := N) (h := h) qs
  have W := (wire_out (Q := Q) (N := N + 2) (n := n) (h := h1) (cl := cl) (es := es) (js := js) (ws := ws) (q := join qs) (fold := fold) (qt := qt) f (Nat.lt_of_lt_of_le hd k.1) (Nat.lt_of_lt_of_le hb k.1) hdb
    (by rw [k.2 d hd, e1]) (by rw [k.2 b hb, e2]) hN hx).from k hd
  have e : gqCall Q (N + 2) fold qt (n + 10) (.meth (.obj c!"MiniQuery" [(c!"Query", .slice (qs.map .str))]) c!"Scope") [.ptr d] h =
    runBody gq (gqCall Q (N + 2) fold qt (n + 9)) [c!"q", c!"db"] [c!"_"] gormMiniQueryScope [] [.obj c!"MiniQuery" [(c!"Query", .slice (qs.map .str))], .ptr d] h := rfl
  have e' : gqCall Q (N + 2) fold qt (n + 10) (.meth (.obj c!"MiniQuery" [(c!"Query", .slice (qs.map .str))]) c!"Scope") [.ptr d] h =
    gqCall Q (N + 2) fold qt (n + 9) (.fn c!"WireMiniQuery") [.ptr d, .str (join qs)] h1 := by
    rw [e, runBody_plain rfl (by decide) (by decide)]
    generalize hr : gqCall Q (N + 2) fold qt (n + 9) (.fn c!"WireMiniQuery") [.ptr d, .str (join qs)] h1 = r
    rcases r with ⟨vs, h'⟩ | _ | _ | _ <;>
    gorun [gormMiniQueryScope, gg_Wire, gp_miniquery, gg_Join, gl_Join, gp_q, sel_Query, ej, hr, many_stuck, many_deep, next_stuck, next_deep]
  rw [e']
  exact W

theorem clo_enter (ps rs b env args) : call gq L (n + 1) (.clo ps rs b env) args h = runBody gq (call gq L n) ps rs b env args h := rfl

/-- Running `ApplyMiniQuery`: it returns a function; calling that is calling `WireMiniQuery`. -/
theorem apply_run (q : Str) : ∃ g h1, gqCall Q N fold qt (n + 1) (.fn c!"ApplyMiniQuery") [.str q] h = .ok ([g], h1) ∧ Keeps h h1 ∧
    ∀ h2, Keeps h1 h2 → ∀ m d, gqCall Q N fold qt (m + 2) g [.ptr d] h2 = gqCall Q N fold qt (m + 1) (.fn c!"WireMiniQuery") [.ptr d, .str q] h2 := by
  refine ⟨.clo [c!"db"] [c!"_"] (.cons (.ret (.cons (.call (.id c!"WireMiniQuery") (.cons (.id c!"db") (.cons (.id c!"query") .nil)) false) .nil)) .nil) [(c!"query", .box h.next)],
    h.alloc (.str q), rfl, ⟨by simp [Heap.alloc], fun y hy => by simp [Heap.alloc, show ¬ y = h.next by omega]⟩, fun h2 k m d => ?_⟩
  have eq : h2.mem h.next = .str q := by rw [k.2 _ (by simp [Heap.alloc])]; simp [Heap.alloc]
  refine (clo_enter _ _ _ _ _).trans ?_
  rw [runBody_plain rfl (by decide) (by decide)]
  generalize hr : gqCall Q N fold qt (m + 1) (.fn c!"WireMiniQuery") [.ptr d, .str q] h2 = r
  rcases r with ⟨vs, h'⟩ | _ | _ | _ <;> gorun [gg_Wire, eq, hr, many_stuck, many_deep, next_stuck, next_deep]

end Verif.Mini
