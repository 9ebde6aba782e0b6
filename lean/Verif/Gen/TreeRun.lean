import Verif.Gen.AstRun

/-! # Running the functions that print syntax trees -/

namespace Verif.Gen
open Verif

variable {Q : Char → Bool} {n : Nat} {h : Heap}

/-- Where the text goes: the standard output, or a `strings.Builder` at an address. -/
inductive Sink where
  | out
  | cell (a : Nat)

/-- The `io.Writer`. -/
def Sink.val : Sink → Val
  | .out => .lib c!"os.Stdout"
  | .cell a => .ptr a []

/-- A `strings.Builder`. -/
def bldObj (s : Str) : Val := .obj c!"strings.Builder" [(c!"text", .str s)]

/-- It can be written to. -/
def Sink.ok (h : Heap) : Sink → Prop
  | .out => True
  | .cell a => a < h.next ∧ ∃ s, h.mem a = bldObj s

/-- It is at an address below. -/
def Sink.below (b : Nat) : Sink → Prop
  | .out => True
  | .cell a => a < b

/-- A text has been written. -/
structure Wrote (k : Sink) (t : Str) (h h' : Heap) : Prop where
  next : h.next ≤ h'.next
  mem : ∀ x < h.next, k ≠ .cell x → h'.mem x = h.mem x
  text : match k with
    | .out => h'.out = h.out ++ t
    | .cell a => h'.out = h.out ∧ a < h.next ∧ ∃ s, h.mem a = bldObj s ∧ h'.mem a = bldObj (s ++ t)

theorem Wrote.ok {k t h h'} (w : Wrote k t h h') : k.ok h' := by
  cases k with
  | out => trivial
  | cell a => obtain ⟨_, h1, s, _, h2⟩ := w.text; exact ⟨Nat.lt_of_lt_of_le h1 w.next, _, h2⟩

theorem Wrote.trans {k t t' h h' h''} (w : Wrote k t h h') (w' : Wrote k t' h' h'') : Wrote k (t ++ t') h h'' := by
  refine ⟨Nat.le_trans w.next w'.next, fun x hx hk => (w'.mem x (Nat.lt_of_lt_of_le hx w.next) hk).trans (w.mem x hx hk), ?_⟩
  have a := w.text
  have b := w'.text
  cases k with
  | out => simp only at a b ⊢; rw [b, a, List.append_assoc]
  | cell c =>
    obtain ⟨a1, a2, s, a3, a4⟩ := a
    obtain ⟨b1, b2, s', b3, b4⟩ := b
    rw [a4] at b3
    have : s ++ t = s' := by simpa [bldObj] using b3
    exact ⟨b1.trans a1, a2, s, a3, by rw [b4, ← this, List.append_assoc]⟩

theorem Wrote.refl {k h} (w : Sink.ok h k) : Wrote k [] h h := by
  refine ⟨Nat.le_refl _, fun _ _ _ => rfl, ?_⟩
  cases k with
  | out => simp
  | cell a => obtain ⟨h1, s, h2⟩ := w; exact ⟨rfl, h1, s, h2, by rw [h2]; simp⟩

theorem Wrote.alloc {k h} (w : Sink.ok h k) (v : Val) : Wrote k [] h (h.alloc v) := by
  refine ⟨Nat.le_succ _, fun x hx _ => alloc_mem_other _ _ (by omega), ?_⟩
  cases k with
  | out => simp
  | cell a => obtain ⟨h1, s, h2⟩ := w; exact ⟨rfl, h1, s, h2, by rw [alloc_mem_other _ _ (by omega), h2]; simp⟩

theorem fprintf_run {k : Sink} (w : Sink.ok h k) (f : Str) (vs : List Val) :
    ∃ h', gCall Q (n + 1) (.lib c!"fmt.Fprintf") (k.val :: .str f :: vs) false h = .ok ([], h') ∧ Wrote k (format f vs) h h' := by
  have e : gCall Q (n + 1) (.lib c!"fmt.Fprintf") (k.val :: .str f :: vs) false h = write k.val (format f vs) h := rfl
  rw [e]
  cases k with
  | out => exact ⟨_, rfl, Nat.le_refl _, fun _ _ _ => rfl, rfl⟩
  | cell a =>
    obtain ⟨h1, s, h2⟩ := w
    refine ⟨h.put a (bldObj (s ++ format f vs)), by simp only [write, Sink.val, h2, bldObj], Nat.le_refl _, fun x _ hk => put_mem_other _ _ fun h0 => hk (by rw [h0]), rfl, h1, s, h2, put_mem_same _ _ _⟩

mutual
/-- The tokens of a tree. -/
def toksN : N32 → List Tok
  | .mk t ups => t :: toksL ups
/-- The tokens of a list of trees. -/
def toksL : List N32 → List Tok
  | [] => []
  | n :: ns => toksN n ++ toksL ns
end

theorem popInto_toks (t x : Tok) : ∀ S up, (x ∈ toksL (popInto t S up).1 ∨ x ∈ toksL (popInto t S up).2 → x ∈ toksL S ∨ x ∈ toksL up) ∧
    (toksL (popInto t S up).1).length + (toksL (popInto t S up).2).length = (toksL S).length + (toksL up).length
  | [], up => by simp [popInto, toksL]
  | nd :: S, up => by
    rw [popInto]
    split
    · obtain ⟨h1, h2⟩ := popInto_toks t x S (nd :: up)
      constructor
      · intro h
        have := h1 h
        simp only [toksL, List.mem_append] at this ⊢
        rcases this with h | h | h <;> simp [h]
      · rw [h2]; simp [toksL]; omega
    · constructor
      · exact fun h => h.symm
      · simp only [toksL, List.length_append]; omega

theorem fold_toks (x : Tok) : ∀ (ts : List Tok) S, (x ∈ toksL (ts.foldl astStep S) → x ∈ toksL S ∨ x ∈ ts) ∧
    (toksL (ts.foldl astStep S)).length ≤ (toksL S).length + ts.length
  | [], S => ⟨.inl, Nat.le_refl _⟩
  | t :: ts, S => by
    obtain ⟨h1, h2⟩ := fold_toks x ts (astStep S t)
    have hp := popInto_toks t x S []
    rw [List.foldl_cons]
    by_cases hb : t.b = t.e
    · have : astStep S t = S := by rw [astStep, if_pos hb]
      rw [this] at h1 h2 ⊢
      exact ⟨fun h => (h1 h).imp id (List.mem_cons_of_mem _), by simp; omega⟩
    · have : astStep S t = .mk t (popInto t S []).1 :: (popInto t S []).2 := by rw [astStep, if_neg hb]
      rw [this] at h1 h2 ⊢
      constructor
      · intro h
        rcases h1 h with h | h
        · simp only [toksL, toksN, List.cons_append, List.mem_cons, List.mem_append] at h
          rcases h with h | h
          · exact .inr (by simp [h])
          · have := hp.1 h; simpa [toksL] using Or.inl this
        · exact .inr (List.mem_cons_of_mem _ h)
      · have := hp.2
        simp only [toksL, toksN, List.length_append, List.length_cons, List.length_nil] at h2 this ⊢
        omega

theorem ast_toks (ts : List Tok) : (∀ x, x ∈ toksL (ast ts).toList → x ∈ ts) ∧ (toksL (ast ts).toList).length ≤ ts.length := by
  have := fun x => fold_toks x ts []
  rw [ast]
  cases hS : ts.foldl astStep [] with
  | nil => simp [toksL]
  | cons nd S =>
    rw [hS] at this
    simp only [toksL, List.mem_append, List.length_append, List.length_nil] at this
    constructor
    · intro x hx
      have := (this x).1 (.inl (by simpa [toksL] using hx))
      simpa using this
    · have := (this ⟨.text, 0, 0⟩).2
      simp [toksL]; omega

/-- The body of the loop of `print`. -/
def pRound : Stmts := match stmtAt gnode32print 1 with
  | .assign _ (.cons (.fn _ _ _ b) _) => loopOf b
  | _ => .nil

/-- The function `print`. -/
def pFn (env : Locals) : Val := .clo [c!"node", c!"depth"] false .nil (.cons (.loop c!"" .nil (.bin c!"!=" (.id c!"node") (.id c!"nil")) .nil pRound) .nil) env

/-- The variables of `node32.print`. -/
def pEnv (B : Nat) : Locals := [(c!"print", .box (B + 4)), (c!"buffer", .box (B + 3)), (c!"pretty", .box (B + 2)), (c!"w", .box (B + 1)), (c!"node", .box B)]

structure PEnv (k : Sink) (pr : Bool) (s : Str) (B : Nat) (h : Heap) : Prop where
  next : B + 5 ≤ h.next
  below : k.below B
  w : h.mem (B + 1) = k.val
  pretty : h.mem (B + 2) = .bool pr
  buffer : h.mem (B + 3) = .str s
  print : h.mem (B + 4) = pFn (pEnv B)

theorem below_ne {k : Sink} {B x : Nat} (hb : k.below B) (hx : B ≤ x) : k ≠ .cell x := by
  rintro rfl; exact absurd (show x < B from hb) (by omega)

theorem PEnv.wrote {k pr s B t} {h' : Heap} (e : PEnv k pr s B h) (w : Wrote k t h h') : PEnv k pr s B h' := by
  have hn := e.next
  have f : ∀ x, B ≤ x → x < B + 5 → h'.mem x = h.mem x := fun x hx hy => w.mem x (by omega) (below_ne e.below hx)
  exact ⟨Nat.le_trans e.next w.next, e.below, (f _ (by omega) (by omega)).trans e.w, (f _ (by omega) (by omega)).trans e.pretty,
    (f _ (by omega) (by omega)).trans e.buffer, (f _ (by omega) (by omega)).trans e.print⟩

theorem ListAt.wrote {k t lo hi v ns} {h' : Heap} (l : ListAt h lo hi v ns) (w : Wrote k t h h') (hb : k.below lo) (hh : hi ≤ h.next) : ListAt h' lo hi v ns :=
  l.frame fun a ha hb' => w.mem a (by omega) (below_ne hb ha)

/-- The variables in the function `print`. -/
def pLoc (v : Val) (d B : Nat) : Locals := (c!"depth", .val (.int d)) :: (c!"node", .val v) :: pEnv B

theorem pRound_split : pRound = .cons (stmtAt pRound 0) (.cons (stmtAt pRound 1) (.cons (stmtAt pRound 2) (.cons (stmtAt pRound 3) (.cons (stmtAt pRound 4) (.cons (stmtAt pRound 5) .nil))))) := rfl

/-- The captured variables of the function `print`. -/
abbrev pCaps : List Str := capSs false (.cons (.loop c!"" .nil (.bin c!"!=" (.id c!"node") (.id c!"nil")) .nil pRound) .nil)

theorem pCaps_eq : pCaps = [c!"fmt", c!"strconv", c!"fmt", c!"fmt"] := rfl

/-- The loop that indents. -/
def iBody : Stmts := .cons (.expr (.call (.sel (.id c!"fmt") c!"Fprintf") (.cons (.id c!"w") (.cons (.str c!" ") .nil)) false)) .nil
def iPost : Stmts := .cons (.assign (.cons (.id c!"c") .nil) (.cons (.bin c!"+" (.id c!"c") (.int 1)) .nil)) .nil

theorem stmt0_eq : stmtAt pRound 0 = .loop c!"" (.cons (.define [c!"c"] (.cons (.int 0) .nil)) .nil) (.bin c!"<" (.id c!"c") (.id c!"depth")) iPost iBody := rfl

theorem fmt_none : (findVal c!"fmt" gDecls) = none := rfl
theorem strconv_none : (findVal c!"strconv" gDecls) = none := rfl

theorem indent_loop {k : Sink} {pr s B} (v : Val) (d F m : Nat) : ∀ (j i f : Nat) (h : Heap), i + j = d → j < f → PEnv k pr s B h → k.ok h →
    ∃ h', whileLoop c!"" (fun l h => ev gDecls (gCall Q (m + 1)) l false (.bin c!"<" (.id c!"c") (.id c!"depth")) h) (fun l h => execs gDecls (gCall Q (m + 1)) F pCaps iPost l.length l h)
      (fun l h => leave l.length (execs gDecls (gCall Q (m + 1)) F pCaps iBody l.length l h)) f ((c!"c", .val (.int i)) :: pLoc v d B) h =
        .ok (.norm, (c!"c", .val (.int d)) :: pLoc v d B, h') ∧ Wrote k (List.replicate j ' ') h h'
  | j, i, 0, _, _, hf, _, _ => by omega
  | 0, i, f + 1, h, hi, hf, _, ho => by
    refine ⟨h, ?_, .refl ho⟩
    have : i = d := by omega
    subst this
    have hc : ev gDecls (gCall Q (m + 1)) ((c!"c", .val (.int i)) :: pLoc v i B) false (.bin c!"<" (.id c!"c") (.id c!"depth")) h = .ok ([.bool false], h) := by
      grun [pLoc]
    simp only [whileLoop, hc, one_ok]
  | j + 1, i, f + 1, h, hi, hf, he, ho => by
    have hlt : i < d := by omega
    have hc : ev gDecls (gCall Q (m + 1)) ((c!"c", .val (.int i)) :: pLoc v d B) false (.bin c!"<" (.id c!"c") (.id c!"depth")) h = .ok ([.bool true], h) := by
      grun [pLoc, hlt]
    obtain ⟨h1, w1, w2⟩ := fprintf_run (Q := Q) (n := m) ho c!" " []
    have hb : leave 8 (execs gDecls (gCall Q (m + 1)) F pCaps iBody 8 ((c!"c", .val (.int i)) :: pLoc v d B) h) = .ok (.norm, (c!"c", .val (.int i)) :: pLoc v d B, h1) := by
      have := he.w
      grun [iBody, pLoc, pEnv, fmt_none, this, w1]
    have hp : execs gDecls (gCall Q (m + 1)) F pCaps iPost 8 ((c!"c", .val (.int i)) :: pLoc v d B) h1 = .ok (.norm, (c!"c", .val (.int (i + 1 : Nat))) :: pLoc v d B, h1) := by
      grun [iPost, pLoc]
    obtain ⟨h2, q1, q2⟩ := indent_loop v d F m j (i + 1) f h1 (by omega) (by omega) (he.wrote w2) w2.ok
    refine ⟨h2, ?_, w2.trans q2⟩
    have hl : ((c!"c", Slot.val (.int i)) :: pLoc v d B).length = 8 := rfl
    simp only [whileLoop, hc, one_ok, hl, hb, hp, next_norm]
    exact q1

theorem stmt0_run {k : Sink} {pr s B} (v : Val) {d F m : Nat} (hF : d < F) (he : PEnv k pr s B h) (ho : k.ok h) :
    ∃ h', exec gDecls (gCall Q (m + 1)) F pCaps (stmtAt pRound 0) 7 (pLoc v d B) h = .ok (.norm, pLoc v d B, h') ∧ Wrote k (List.replicate d ' ') h h' := by
  obtain ⟨h', q1, q2⟩ := indent_loop (Q := Q) v d F m d 0 F h (by omega) hF he ho
  refine ⟨h', ?_, q2⟩
  rw [stmt0_eq, exec_loop]
  have hi : execs gDecls (gCall Q (m + 1)) F pCaps (.cons (.define [c!"c"] (.cons (.int 0) .nil)) .nil) (pLoc v d B).length (pLoc v d B) h = .ok (.norm, (c!"c", .val (.int (0 : Nat))) :: pLoc v d B, h) := by
    rw [pCaps_eq]
    grun [pLoc, pEnv]
  rw [hi, next_norm, loopRun, q1]
  rfl

/-- The variables after the second statement. -/
def pLoc2 (t : Tok) (v : Val) (d B : Nat) : Locals := (c!"rule", .val (.str (kindName t.kind))) :: pLoc v d B

/-- The variables after the third statement. -/
def pLoc3 (s : Str) (t : Tok) (v : Val) (d B : Nat) : Locals := (c!"quote", .val (.str (quote Q ((s.drop t.b).take (t.e - t.b))))) :: pLoc2 t v d B

theorem stmt1_run {x : Nat} {t u nx d B F m} (hm : h.mem x = nodeObj t u nx) (hu : isObj u = false) (hx : isObj nx = false) (hk : NameOk t.kind) :
    exec gDecls (gCall Q (m + 1)) F pCaps (stmtAt pRound 1) 7 (pLoc (.ptr x []) d B) h = .ok (.norm, pLoc2 t (.ptr x []) d B, h) := by
  have hk' := name_kind t.kind hk
  have hi : ¬ ((kindNum t.kind : Int) < 0) := by omega
  rw [pCaps_eq]
  grun [stmtAt, pRound, loopOf, gnode32print, pLoc2, pLoc, pEnv, sel_node hm hu hx, rul3s_run, nthVal, hk', hi]

theorem stmt2_run {k : Sink} {pr s B} {x : Nat} {t u nx d F m} (hm : h.mem x = nodeObj t u nx) (hu : isObj u = false) (hx : isObj nx = false) (hxn : x < h.next) (he : PEnv k pr s B h) (ho : k.ok h) :
    if t.b ≤ t.e ∧ t.e ≤ s.length then
      ∃ h', exec gDecls (gCall Q (m + 1)) F pCaps (stmtAt pRound 2) 7 (pLoc2 t (.ptr x []) d B) h =
        .ok (.norm, pLoc3 (Q := Q) s t (.ptr x []) d B, h') ∧ Wrote k [] h h'
    else exec gDecls (gCall Q (m + 1)) F pCaps (stmtAt pRound 2) 7 (pLoc2 t (.ptr x []) d B) h = .panic := by
  have hb := he.buffer
  have hl : ∀ t h, gCall Q (m + 1) (.lib c!"strconv.Quote") [.str t] false h = .ok ([.str (quote Q t)], h) := fun _ _ => rfl
  have hn1 : (newSlice (List.map (fun c : Char => Val.int c.toNat) s) h).1 = .sl h.next 0 s.length := by simp [newSlice]
  have hn2 : (newSlice (List.map (fun c : Char => Val.int c.toNat) s) h).2 = h.alloc (.arr (List.map (fun c : Char => Val.int c.toNat) s)) := rfl
  have w := Wrote.alloc ho (.arr (List.map (fun c : Char => Val.int c.toNat) s))
  have hx' : x ≠ h.next → (h.alloc (.arr (List.map (fun c : Char => Val.int c.toNat) s))).mem x = nodeObj t u nx := fun hn => (alloc_mem_other _ _ hn).trans hm
  replace hx' := hx' (by omega)
  have hv : view (h.alloc (.arr (List.map (fun c : Char => Val.int c.toNat) s))) (.sl h.next t.b (t.e - t.b)) = some (((s.drop t.b).take (t.e - t.b)).map fun c : Char => Val.int c.toNat) := by
    simp [view]
  have hr : runes (((s.drop t.b).take (t.e - t.b)).map fun c : Char => Val.int c.toNat) = (s.drop t.b).take (t.e - t.b) := by
    have := runes_ints (((s.drop t.b).take (t.e - t.b)).map Char.toNat)
    simpa [Function.comp_def] using this
  generalize h.alloc (.arr (List.map (fun c : Char => Val.int c.toNat) s)) = h1 at *
  have sn := sel_node hx' hu hx
  split
  · rename_i hin
    refine ⟨h1, ?_, w⟩
    rw [pCaps_eq]
    grun [stmtAt, pRound, loopOf, gnode32print, pLoc3, pLoc2, pLoc, pEnv, strconv_none, hl, hb, hin, hn1, hn2, sn]
    rw [hv]
    simp only [hr]
    grun [hl]
  · rename_i hin
    rw [pCaps_eq]
    grun [stmtAt, pRound, loopOf, gnode32print, pLoc3, pLoc2, pLoc, pEnv, strconv_none, hl, hb, hin, hn1, hn2, sn]

theorem format_line (k q : Str) : format c!"%v %v\n" [.str k, .str q] = coloured false c!"36" k ++ ' ' :: (q ++ c!"\n") := by
  simp [format, showVal, coloured]

theorem format_line_pretty (k q : Str) : format c!"\x1b[36m%v\x1b[m %v\n" [.str k, .str q] = coloured true c!"36" k ++ ' ' :: (q ++ c!"\n") := by
  have he : esc = '\x1b' := by decide
  simp [format, showVal, coloured, he]

theorem stmt3_run {k : Sink} {pr s B} {v : Val} {t : Tok} {d F m : Nat} (he : PEnv k pr s B h) (ho : k.ok h) :
    ∃ h', exec gDecls (gCall Q (m + 1)) F pCaps (stmtAt pRound 3) 7 (pLoc3 (Q := Q) s t v d B) h = .ok (.norm, pLoc3 (Q := Q) s t v d B, h') ∧
      Wrote k (coloured pr c!"36" (kindName t.kind) ++ ' ' :: (quote Q ((s.drop t.b).take (t.e - t.b)) ++ c!"\n")) h h' := by
  have hw := he.w
  have hp := he.pretty
  rw [pCaps_eq]
  cases pr with
  | false =>
    obtain ⟨h1, w1, w2⟩ := fprintf_run (Q := Q) (n := m) ho c!"%v %v\n" [.str (kindName t.kind), .str (quote Q ((s.drop t.b).take (t.e - t.b)))]
    rw [format_line] at w2
    refine ⟨h1, ?_, w2⟩
    grun [stmtAt, pRound, loopOf, gnode32print, pLoc3, pLoc2, pLoc, pEnv, fmt_none, hp, hw, w1]
  | true =>
    obtain ⟨h1, w1, w2⟩ := fprintf_run (Q := Q) (n := m) ho c!"\x1b[36m%v\x1b[m %v\n" [.str (kindName t.kind), .str (quote Q ((s.drop t.b).take (t.e - t.b)))]
    rw [format_line_pretty] at w2
    refine ⟨h1, ?_, w2⟩
    grun [stmtAt, pRound, loopOf, gnode32print, pLoc3, pLoc2, pLoc, pEnv, fmt_none, hp, hw, w1]

theorem stmt4_run {C : Val → List Val → Bool → Heap → Vals} {k : Sink} {pr s B} {x : Nat} {t u nx d F lo hi ups} (hm : h.mem x = nodeObj t u nx) (hu : ListAt h lo hi u ups) (hx : isObj nx = false) (he : PEnv k pr s B h) (ho : k.ok h)
    (ih : match printL s (d + 1) ups with
      | some ls => ∃ h', C (pFn (pEnv B)) [u, .int (d + 1 : Nat)] false h = .ok ([], h') ∧ Wrote k (ls.flatMap (lineText Q pr)) h h'
      | none => C (pFn (pEnv B)) [u, .int (d + 1 : Nat)] false h = .panic) :
    match printL s (d + 1) ups with
      | some ls => ∃ h', exec gDecls C F pCaps (stmtAt pRound 4) 7 (pLoc3 (Q := Q) s t (.ptr x []) d B) h = .ok (.norm, pLoc3 (Q := Q) s t (.ptr x []) d B, h') ∧ Wrote k (ls.flatMap (lineText Q pr)) h h'
      | none => exec gDecls C F pCaps (stmtAt pRound 4) 7 (pLoc3 (Q := Q) s t (.ptr x []) d B) h = .panic := by
  have hp := he.print
  have sn := sel_node hm hu.notObj hx
  rw [pCaps_eq]
  cases ups with
  | nil =>
    rw [printL]
    refine ⟨h, ?_, .refl ho⟩
    rw [show u = _ from hu] at sn
    grun [stmtAt, pRound, loopOf, gnode32print, pLoc3, pLoc2, pLoc, pEnv, sn]
  | cons nd ups =>
    obtain ⟨y, ny, rfl, _⟩ := hu
    have hd : ((d + 1 : Nat) : Int) = d + 1 := by omega
    simp only [pEnv, hd] at hp ih
    cases hl : printL s (d + 1) (nd :: ups) with
    | none =>
      rw [hl] at ih
      grun [stmtAt, pRound, loopOf, gnode32print, pLoc3, pLoc2, pLoc, pEnv, sn, hp, ih]
    | some ls =>
      rw [hl] at ih
      obtain ⟨h1, i1, i2⟩ := ih
      refine ⟨h1, ?_, i2⟩
      grun [stmtAt, pRound, loopOf, gnode32print, pLoc3, pLoc2, pLoc, pEnv, sn, hp, i1]

theorem stmt5_run {C : Val → List Val → Bool → Heap → Vals} {s B} {x : Nat} {t u nx d F} (hm : h.mem x = nodeObj t u nx) (hu : isObj u = false) (hx : isObj nx = false) :
    exec gDecls C F pCaps (stmtAt pRound 5) 7 (pLoc3 (Q := Q) s t (.ptr x []) d B) h = .ok (.norm, pLoc3 (Q := Q) s t nx d B, h) := by
  grun [stmtAt, pRound, loopOf, gnode32print, pLoc3, pLoc2, pLoc, pEnv, sel_node hm hu hx]

theorem toksL_length : ∀ ns : List N32, ns.length ≤ (toksL ns).length
  | [] => Nat.le_refl _
  | .mk t ups :: ns => by have := toksL_length ns; simp only [toksL, toksN, List.cons_append, List.length_cons, List.length_append]; omega

/-- What running `print` on a list of nodes does. -/
def Prints (Q : Char → Bool) (k : Sink) (pr : Bool) (s : Str) (d : Nat) (ns : List N32) (h : Heap) (run : Vals) : Prop :=
  match printL s d ns with
  | some ls => ∃ h', run = .ok ([], h') ∧ Wrote k (ls.flatMap (lineText Q pr)) h h'
  | none => run = .panic

/-- The loop of the function `print`. -/
theorem print_while {k : Sink} {pr s B} (d m : Nat) (ih : ∀ (ups : List N32) (h : Heap) (lo hi : Nat) (v : Val), d + 1 + 2 * (toksL ups).length + 2 ≤ m + 1 → PEnv k pr s B h → k.ok h → ListAt h lo hi v ups → k.below lo → hi ≤ h.next →
      (∀ t ∈ toksL ups, NameOk t.kind) → Prints Q k pr s (d + 1) ups h (gCall Q (m + 1) (pFn (pEnv B)) [v, .int (d + 1 : Nat)] false h)) :
    ∀ (ns : List N32) (f : Nat) (h : Heap) (lo hi : Nat) (v : Val), ns.length < f → d + 2 * (toksL ns).length + 2 ≤ m + 2 → PEnv k pr s B h → k.ok h → ListAt h lo hi v ns → k.below lo → hi ≤ h.next →
      (∀ t ∈ toksL ns, NameOk t.kind) →
      match printL s d ns with
      | some ls => ∃ v' h', whileLoop c!"" (fun l h => ev gDecls (gCall Q (m + 1)) l false (.bin c!"!=" (.id c!"node") (.id c!"nil")) h) (fun l h => execs gDecls (gCall Q (m + 1)) (m + 1) pCaps .nil l.length l h)
          (fun l h => leave l.length (execs gDecls (gCall Q (m + 1)) (m + 1) pCaps pRound l.length l h)) f (pLoc v d B) h = .ok (.norm, pLoc v' d B, h') ∧ Wrote k (ls.flatMap (lineText Q pr)) h h'
      | none => whileLoop c!"" (fun l h => ev gDecls (gCall Q (m + 1)) l false (.bin c!"!=" (.id c!"node") (.id c!"nil")) h) (fun l h => execs gDecls (gCall Q (m + 1)) (m + 1) pCaps .nil l.length l h)
          (fun l h => leave l.length (execs gDecls (gCall Q (m + 1)) (m + 1) pCaps pRound l.length l h)) f (pLoc v d B) h = .panic
  | ns, 0, _, _, _, _, hf, _, _, _, _, _, _, _ => by omega
  | [], f + 1, h, lo, hi, v, hf, hn, he, ho, hl, hb, hh, hk => by
    rw [printL]
    refine ⟨v, h, ?_, .refl ho⟩
    rw [show v = _ from hl]
    have hc : ev gDecls (gCall Q (m + 1)) (pLoc (.nilp c!"node32") d B) false (.bin c!"!=" (.id c!"node") (.id c!"nil")) h = .ok ([.bool false], h) := by
      grun [pLoc, pEnv]
    simp only [whileLoop, hc, one_ok]
  | .mk t ups :: ns, f + 1, h, lo, hi, v, hf, hn, he, ho, hl, hb, hh, hk => by
    obtain ⟨x, nx, rfl, h2, ⟨h3, u, h4, h5⟩, h6⟩ := hl
    simp only [toksL, toksN, List.length_append, List.length_cons] at hn
    have hc : ev gDecls (gCall Q (m + 1)) (pLoc (.ptr x []) d B) false (.bin c!"!=" (.id c!"node") (.id c!"nil")) h = .ok ([.bool true], h) := by
      grun [pLoc, pEnv]
    have hlen : ∀ v, (pLoc v d B).length = 7 := fun _ => rfl
    have hkt : NameOk t.kind := hk t (by simp [toksL, toksN])
    have hb6 : k.below (x + 1) := by cases k with | out => trivial | cell a => exact show a < x + 1 from Nat.lt_of_lt_of_le hb (by omega)
    obtain ⟨g0, a0, w0⟩ := stmt0_run (Q := Q) (m := m) (F := m + 1) (.ptr x []) (d := d) (by omega) he ho
    have e0 := he.wrote w0
    have hne : k ≠ .cell x := below_ne hb h3
    have m0 : g0.mem x = nodeObj t u nx := (w0.mem x (by omega) hne).trans h4
    have a1 := stmt1_run (Q := Q) (F := m + 1) (m := m) (B := B) (d := d) m0 h5.notObj h6.notObj hkt
    have n0 := w0.next
    have a2 := stmt2_run (Q := Q) (F := m + 1) (m := m) (d := d) m0 h5.notObj h6.notObj (by omega) e0 w0.ok
    by_cases hin : t.b ≤ t.e ∧ t.e ≤ s.length
    · rw [if_pos hin] at a2
      obtain ⟨g2, a2, w2⟩ := a2
      have e2 := e0.wrote w2
      obtain ⟨g3, a3, w3⟩ := stmt3_run (Q := Q) (m := m) (F := m + 1) (v := .ptr x []) (t := t) (d := d) e2 w2.ok
      have e3 := e2.wrote w3
      have n2 := w2.next
      have n3 := w3.next
      have w03 := (w0.trans w2).trans w3
      have m3 : g3.mem x = nodeObj t u nx := (w03.mem x (by omega) hne).trans h4
      have l3 : ListAt g3 lo x u ups := h5.wrote w03 hb (by omega)
      have l3' : ListAt g3 (x + 1) hi nx ns := h6.wrote w03 hb6 hh
      have a4 := stmt4_run (Q := Q) (C := gCall Q (m + 1)) (F := m + 1) (d := d) m3 l3 h6.notObj e3 w3.ok
        (ih ups g3 lo x u (by omega) e3 w3.ok l3 hb (by omega) fun t ht => hk t (by simp [toksL, toksN, ht]))
      cases hu : printL s (d + 1) ups with
      | none =>
        rw [hu] at a4
        have hp : printL s d (.mk t ups :: ns) = none := by simp [printL, printN, hin, hu]
        rw [hp]
        simp only at a4
        have hbody : leave 7 (execs gDecls (gCall Q (m + 1)) (m + 1) pCaps pRound 7 (pLoc (.ptr x []) d B) h) = .panic := by
          rw [pRound_split]
          simp only [execs_cons, a0, a1, a2, a3, a4, next_norm, next_panic, leave_panic]
        simp only [whileLoop, hc, one_ok, hlen, hbody]
      | some ls =>
        rw [hu] at a4
        obtain ⟨g4, a4, w4⟩ := a4
        have w04 := w03.trans w4
        have n4 := w4.next
        have m4 : g4.mem x = nodeObj t u nx := (w04.mem x (by omega) hne).trans h4
        have a5 := stmt5_run (Q := Q) (C := gCall Q (m + 1)) (s := s) (B := B) (d := d) (F := m + 1) m4 h5.notObj h6.notObj
        have hbody : leave 7 (execs gDecls (gCall Q (m + 1)) (m + 1) pCaps pRound 7 (pLoc (.ptr x []) d B) h) = .ok (.norm, pLoc nx d B, g4) := by
          rw [pRound_split]
          simp only [execs_cons, a0, a1, a2, a3, a4, a5, next_norm, execs_nil, leave_ok]
          rfl
        have r := print_while d m ih ns f g4 (x + 1) hi nx (by simpa using hf) (by omega) (e3.wrote w4) w4.ok (l3'.wrote w4 hb6 (by omega)) hb6 (by omega)
          fun t ht => hk t (by simp [toksL, ht])
        cases hr : printL s d ns with
        | none =>
          rw [hr] at r
          have hp : printL s d (.mk t ups :: ns) = none := by simp [printL, hr]
          rw [hp]
          simp only [whileLoop, hc, one_ok, hlen, hbody, execs_nil, next_norm]
          exact r
        | some ls' =>
          rw [hr] at r
          obtain ⟨v', g5, r1, r2⟩ := r
          have hp : printL s d (.mk t ups :: ns) = some (((d, t.kind, (s.drop t.b).take (t.e - t.b)) :: ls) ++ ls') := by simp [printL, printN, hin, hu, hr]
          rw [hp]
          refine ⟨v', g5, ?_, ?_⟩
          · simp only [whileLoop, hc, one_ok, hlen, hbody, execs_nil, next_norm]
            exact r1
          · have := w04.trans r2
            simpa [lineText] using this
    · rw [if_neg hin] at a2
      have hp : printL s d (.mk t ups :: ns) = none := by simp [printL, printN, hin]
      rw [hp]
      have hbody : leave 7 (execs gDecls (gCall Q (m + 1)) (m + 1) pCaps pRound 7 (pLoc (.ptr x []) d B) h) = .panic := by
        rw [pRound_split]
        simp only [execs_cons, a0, a1, a2, next_norm, next_panic, leave_panic]
      simp only [whileLoop, hc, one_ok, hlen, hbody]

/-- The function `print`. -/
theorem print_fn {k : Sink} {pr s B} : ∀ (m d : Nat) (ns : List N32) (h : Heap) (lo hi : Nat) (v : Val), d + 2 * (toksL ns).length + 2 ≤ m → PEnv k pr s B h → k.ok h → ListAt h lo hi v ns → k.below lo → hi ≤ h.next →
      (∀ t ∈ toksL ns, NameOk t.kind) → Prints Q k pr s d ns h (gCall Q m (pFn (pEnv B)) [v, .int d] false h)
  | 0, d, ns, _, _, _, _, hn, _, _, _, _, _, _ => by omega
  | 1, d, ns, _, _, _, _, hn, _, _, _, _, _, _ => by omega
  | m + 2, d, ns, h, lo, hi, v, hn, he, ho, hl, hb, hh, hk => by
    have e0 : gCall Q (m + 2) (pFn (pEnv B)) [v, .int d] false h =
        finish .nil (next (exec gDecls (gCall Q (m + 1)) (m + 1) pCaps (.loop c!"" .nil (.bin c!"!=" (.id c!"node") (.id c!"nil")) .nil pRound) 5 (pLoc v d B) h) fun l h => .ok (.norm, l, h)) := rfl
    have hlen := toksL_length ns
    have r := print_while (Q := Q) d m (fun ups h lo hi v hn he ho hl hb hh hk => print_fn (m + 1) (d + 1) ups h lo hi v hn he ho hl hb hh hk) ns (m + 1) h lo hi v (by omega) hn he ho hl hb hh hk
    unfold Prints
    rw [e0, exec_loop, execs_nil, next_norm, loopRun]
    cases hp : printL s d ns with
    | none =>
      rw [hp] at r
      simp only [r, leave_panic, next_panic, finish]
    | some ls =>
      rw [hp] at r
      obtain ⟨v', h', r1, r2⟩ := r
      exact ⟨h', by simp only [r1, leave_ok, next_norm, finish], r2⟩

/-- `node32.print`. -/
theorem node_print {k : Sink} {pr s} {ns : List N32} {lo hi : Nat} {v : Val} (hn : 2 * (toksL ns).length + 2 ≤ n) (ho : k.ok h) (hl : ListAt h lo hi v ns) (hb : k.below lo) (hh : hi ≤ h.next)
    (hk : ∀ t ∈ toksL ns, NameOk t.kind) : Prints Q k pr s 0 ns h (gCall Q (n + 1) (.meth v c!"print") [k.val, .bool pr, .str s] false h) := by
  have e0 : gCall Q (n + 1) (.meth v c!"print") [k.val, .bool pr, .str s] false h =
      runBody gDecls (gCall Q n) n [c!"node", c!"w", c!"pretty", c!"buffer"] false .nil gnode32print [] [v, k.val, .bool pr, .str s] false h := by
    show runMeth _ _ _ _ _ _ _ _ _ = _
    cases ns with
    | nil => rw [show v = _ from hl]; rfl
    | cons nd ns =>
      obtain ⟨x, nx, rfl, _, h3, _⟩ := hl
      obtain ⟨t, ups⟩ := nd
      obtain ⟨_, u, h4, _⟩ := h3
      simp only [runMeth, recvType, getPath, h4, nodeObj]
      rfl
  have e1 : runBody gDecls (gCall Q n) n [c!"node", c!"w", c!"pretty", c!"buffer"] false .nil gnode32print [] [v, k.val, .bool pr, .str s] false h =
      finish .nil (execs gDecls (gCall Q n) n (capSs false gnode32print) gnode32print 0 (pEnv h.next).tail ((((h.alloc v).alloc k.val).alloc (.bool pr)).alloc (.str s))) := rfl
  rw [e0, e1]
  have m4 : ∀ x, x < h.next → ((((h.alloc v).alloc k.val).alloc (.bool pr)).alloc (.str s)).mem x = h.mem x := fun x hx => by
    rw [alloc_mem_other _ _ (by simp; omega), alloc_mem_other _ _ (by simp; omega), alloc_mem_other _ _ (by simp; omega), alloc_mem_other _ _ (by omega)]
  have q0 : ((((h.alloc v).alloc k.val).alloc (.bool pr)).alloc (.str s)).mem h.next = v := by
    rw [alloc_mem_other _ _ (by simp; omega), alloc_mem_other _ _ (by simp; omega), alloc_mem_other _ _ (by simp), alloc_mem_same]
  have q1 : ((((h.alloc v).alloc k.val).alloc (.bool pr)).alloc (.str s)).mem (h.next + 1) = k.val := by
    rw [alloc_mem_other _ _ (by simp), alloc_mem_other _ _ (by simp)]; exact alloc_mem_same (h.alloc v) _
  have q2 : ((((h.alloc v).alloc k.val).alloc (.bool pr)).alloc (.str s)).mem (h.next + 2) = .bool pr := by
    rw [alloc_mem_other _ _ (by simp)]; exact alloc_mem_same ((h.alloc v).alloc k.val) _
  have q3 : ((((h.alloc v).alloc k.val).alloc (.bool pr)).alloc (.str s)).mem (h.next + 3) = .str s := alloc_mem_same (((h.alloc v).alloc k.val).alloc (.bool pr)) _
  have n4 : ((((h.alloc v).alloc k.val).alloc (.bool pr)).alloc (.str s)).next = h.next + 4 := rfl
  have o4 : ((((h.alloc v).alloc k.val).alloc (.bool pr)).alloc (.str s)).out = h.out := rfl
  generalize (((h.alloc v).alloc k.val).alloc (.bool pr)).alloc (.str s) = h4 at *
  have hs : gnode32print = .cons (stmtAt gnode32print 0) (.cons (stmtAt gnode32print 1) (.cons (stmtAt gnode32print 2) .nil)) := rfl
  have s0 : exec gDecls (gCall Q n) n (capSs false gnode32print) (stmtAt gnode32print 0) 0 (pEnv h.next).tail h4 = .ok (.norm, pEnv h.next, h4.alloc .nil) := by
    have : exec gDecls (gCall Q n) n (capSs false gnode32print) (stmtAt gnode32print 0) 0 (pEnv h.next).tail h4 = .ok (.norm, (c!"print", .box h4.next) :: (pEnv h.next).tail, h4.alloc .nil) := rfl
    rw [this, n4]; rfl
  have m5 : ∀ x, x < h.next + 4 → (h4.alloc .nil).mem x = h4.mem x := fun x hx => alloc_mem_other _ _ (by omega)
  have n5 : (h4.alloc .nil).next = h.next + 5 := by simp [n4]
  have o5 : (h4.alloc .nil).out = h.out := o4
  generalize h4.alloc .nil = h5 at *
  have s1 : exec gDecls (gCall Q n) n (capSs false gnode32print) (stmtAt gnode32print 1) 0 (pEnv h.next) h5 = .ok (.norm, pEnv h.next, h5.put (h.next + 4) (pFn (pEnv h.next))) := rfl
  generalize capSs false gnode32print = caps at *
  have m6 : ∀ x, x < h.next + 4 → (h5.put (h.next + 4) (pFn (pEnv h.next))).mem x = h4.mem x := fun x hx => (put_mem_other _ _ (by omega)).trans (m5 x hx)
  have p6 : (h5.put (h.next + 4) (pFn (pEnv h.next))).mem (h.next + 4) = pFn (pEnv h.next) := put_mem_same _ _ _
  have n6 : (h5.put (h.next + 4) (pFn (pEnv h.next))).next = h.next + 5 := n5
  have o6 : (h5.put (h.next + 4) (pFn (pEnv h.next))).out = h.out := o5
  generalize h5.put (h.next + 4) (pFn (pEnv h.next)) = h6 at *
  have w6 : Wrote k [] h h6 := by
    refine ⟨by omega, fun x hx _ => (m6 x (by omega)).trans (m4 x hx), ?_⟩
    cases k with
    | out => simp [o6]
    | cell a => obtain ⟨h1, s, h2⟩ := ho; exact ⟨o6, h1, s, h2, by rw [m6 a (by omega), m4 a h1, h2]; simp⟩
  have hb' : k.below h.next := by cases k with | out => trivial | cell a => exact ho.1
  have e6 : PEnv k pr s h.next h6 := ⟨by omega, hb', (m6 _ (by omega)).trans q1, (m6 _ (by omega)).trans q2, (m6 _ (by omega)).trans q3, p6⟩
  have r := print_fn (Q := Q) (k := k) (pr := pr) (s := s) (B := h.next) n 0 ns h6 lo hi v (by omega) e6 w6.ok (hl.wrote w6 hb hh) hb (by omega) hk
  have v6 : h6.mem h.next = v := (m6 _ (by omega)).trans q0
  unfold Prints at r ⊢
  rw [hs]
  simp only [execs_cons, s0, s1, next_norm]
  simp only [pEnv] at p6 r
  cases hp : printL s 0 ns with
  | none =>
    rw [hp] at r
    have s2 : exec gDecls (gCall Q n) n caps (stmtAt gnode32print 2) 0 (pEnv h.next) h6 = .panic := by
      have r' : gCall Q n (pFn (pEnv h.next)) [v, .int 0] false h6 = .panic := r
      simp only [pEnv] at r'
      grun [stmtAt, gnode32print, pEnv, v6, p6, r']
    simp only [s2, next_panic, finish]
  | some ls =>
    rw [hp] at r
    obtain ⟨h', r1, r2⟩ := r
    have s2 : exec gDecls (gCall Q n) n caps (stmtAt gnode32print 2) 0 (pEnv h.next) h6 = .ok (.norm, pEnv h.next, h') := by
      have r' : gCall Q n (pFn (pEnv h.next)) [v, .int 0] false h6 = .ok ([], h') := r1
      simp only [pEnv] at r'
      grun [stmtAt, gnode32print, pEnv, v6, p6, r']
    refine ⟨h', by simp only [s2, next_norm, execs_nil, finish], ?_⟩
    have := w6.trans r2
    simpa using this

theorem Prints.after {k : Sink} {pr s d ns} {h1 : Heap} {run : Vals} (r : Prints Q k pr s d ns h1 run) (w : Wrote k [] h h1) : Prints Q k pr s d ns h run := by
  unfold Prints at r ⊢
  cases hp : printL s d ns with
  | none => rw [hp] at r; exact r
  | some ls =>
    rw [hp] at r
    obtain ⟨h', r1, r2⟩ := r
    refine ⟨h', r1, ?_⟩
    have := w.trans r2
    simpa using this

/-- A function that only calls another one. -/
theorem Prints.call {k : Sink} {pr s d ns} {run : Vals} {l : Locals} (r : Prints Q k pr s d ns h run) :
    Prints Q k pr s d ns h (finish .nil (next (many run fun _ h => .ok (.norm, l, h)) fun l h => .ok (.norm, l, h))) := by
  unfold Prints at r ⊢
  cases hp : printL s d ns with
  | none => rw [hp] at r; simp only [r, many_panic, next_panic, finish]
  | some ls =>
    rw [hp] at r
    obtain ⟨h', r1, r2⟩ := r
    exact ⟨h', by simp only [r1, many_ok, next_norm, finish], r2⟩

theorem Prints.map {k : Sink} {pr s d ns} {run run' : Vals} (r : Prints Q k pr s d ns h run) (h1 : run = .panic → run' = .panic) (h2 : ∀ h', run = .ok ([], h') → run' = .ok ([], h')) :
    Prints Q k pr s d ns h run' := by
  unfold Prints at r ⊢
  cases hp : printL s d ns with
  | none => rw [hp] at r; exact h1 r
  | some ls =>
    rw [hp] at r
    obtain ⟨h', r1, r2⟩ := r
    exact ⟨h', h2 h' r1, r2⟩

theorem sel_print {lo hi : Nat} {v : Val} {ns} (hl : ListAt h lo hi v ns) : select gDecls false v c!"print" h = .ok ([.meth v c!"print"], h) ∧
    select gDecls false v c!"Print" h = .ok ([.meth v c!"Print"], h) ∧ select gDecls false v c!"PrettyPrint" h = .ok ([.meth v c!"PrettyPrint"], h) := by
  cases ns with
  | nil => rw [show v = _ from hl]; exact ⟨rfl, rfl, rfl⟩
  | cons nd ns =>
    obtain ⟨x, nx, rfl, _, h3, _⟩ := hl
    obtain ⟨t, ups⟩ := nd
    obtain ⟨_, u, h4, _⟩ := h3
    refine ⟨?_, ?_, ?_⟩ <;> (simp only [select, getPath, h4, nodeObj]; rfl)

/-- `node32.Print` and `node32.PrettyPrint`. -/
theorem node_Print {k : Sink} {pr s} {ns : List N32} {lo hi : Nat} {v : Val} (hn : 2 * (toksL ns).length + 2 ≤ n) (ho : k.ok h) (hl : ListAt h lo hi v ns) (hb : k.below lo) (hh : hi ≤ h.next)
    (hk : ∀ t ∈ toksL ns, NameOk t.kind) : Prints Q k pr s 0 ns h (gCall Q (n + 2) (.meth v (if pr then c!"PrettyPrint" else c!"Print")) [k.val, .str s] false h) := by
  have e0 : gCall Q (n + 2) (.meth v (if pr then c!"PrettyPrint" else c!"Print")) [k.val, .str s] false h =
      finish .nil (execs gDecls (gCall Q (n + 1)) (n + 1) [c!"node"] (if pr then gnode32PrettyPrint else gnode32Print) 0 [(c!"buffer", .val (.str s)), (c!"w", .val k.val), (c!"node", .box h.next)] (h.alloc v)) := by
    show runMeth _ _ _ _ _ _ _ _ _ = _
    cases ns with
    | nil => rw [show v = _ from hl]; cases pr <;> rfl
    | cons nd ns =>
      obtain ⟨x, nx, rfl, _, h3, _⟩ := hl
      obtain ⟨t, ups⟩ := nd
      obtain ⟨_, u, h4, _⟩ := h3
      simp only [runMeth, recvType, getPath, h4, nodeObj]
      cases pr <;> rfl
  have w1 := Wrote.alloc ho v
  have v1 : (h.alloc v).mem h.next = v := alloc_mem_same _ _
  rw [e0]
  generalize h.alloc v = h1 at *
  have hl1 := hl.wrote w1 hb hh
  have hs := sel_print hl1
  have r := (node_print (Q := Q) (n := n) (pr := pr) (s := s) hn w1.ok hl1 hb (Nat.le_trans hh w1.next) hk).call (l := [(c!"buffer", .val (.str s)), (c!"w", .val k.val), (c!"node", .box h.next)])
  have r' := r.after w1
  cases pr with
  | false =>
    have e : execs gDecls (gCall Q (n + 1)) (n + 1) [c!"node"] gnode32Print 0 [(c!"buffer", .val (.str s)), (c!"w", .val k.val), (c!"node", .box h.next)] h1 =
      next (many (gCall Q (n + 1) (.meth v c!"print") [k.val, .bool false, .str s] false h1) fun _ h' => .ok (.norm, [(c!"buffer", .val (.str s)), (c!"w", .val k.val), (c!"node", .box h.next)], h')) fun l h => .ok (.norm, l, h) := by
      grun [gnode32Print, v1, hs, hl1.notObj]
    simp only [reduceIte, Bool.false_eq_true, e]
    exact r'
  | true =>
    have e : execs gDecls (gCall Q (n + 1)) (n + 1) [c!"node"] gnode32PrettyPrint 0 [(c!"buffer", .val (.str s)), (c!"w", .val k.val), (c!"node", .box h.next)] h1 =
      next (many (gCall Q (n + 1) (.meth v c!"print") [k.val, .bool true, .str s] false h1) fun _ h' => .ok (.norm, [(c!"buffer", .val (.str s)), (c!"w", .val k.val), (c!"node", .box h.next)], h')) fun l h => .ok (.norm, l, h) := by
      grun [gnode32PrettyPrint, v1, hs, hl1.notObj]
    simp only [reduceIte, Bool.false_eq_true, e]
    exact r'

theorem printTree_eq (s : Str) (ts : List Tok) : printTree s ts = printL s 0 (ast ts).toList := by
  unfold printTree
  cases ast ts with
  | none => rfl
  | some nd => simp only [Option.toList, printL]; cases printN s 0 nd <;> simp

/-- What a function that prints a syntax tree does. -/
def Shows (Q : Char → Bool) (k : Sink) (pr : Bool) (s : Str) (ts : List Tok) (h : Heap) (run : Vals) : Prop :=
  match treeText Q pr s ts with
  | some t => ∃ h', run = .ok ([], h') ∧ Wrote k t h h'
  | none => run = .panic

theorem Prints.shows {k : Sink} {pr s ts} {run : Vals} (r : Prints Q k pr s 0 (ast ts).toList h run) : Shows Q k pr s ts h run := by
  unfold Prints at r
  rw [← printTree_eq] at r
  unfold Shows treeText
  cases hp : printTree s ts with
  | none => rw [hp] at r; exact r
  | some ls => rw [hp] at r; exact r

theorem Wrote.of_ext {k h} {h' : Heap} (ho : Sink.ok h k) (w : Ext h h') (e : h'.out = h.out) : Wrote k [] h h' := by
  refine ⟨w.next, fun x hx _ => w.mem x hx, ?_⟩
  cases k with
  | out => simp [e]
  | cell a => obtain ⟨h1, s, h2⟩ := ho; exact ⟨e, h1, s, h2, by rw [w.mem a h1, h2]; simp⟩

/-- The statement `t.AST().Print(w, buffer)`. -/
theorem ast_print {k : Sink} {prr : Bool} {s a tr q bf r p rs pr v ts} (hm : h.mem a = pegObj tr q bf r p rs pr v) (ha : a < h.next) (hv : Holds h v ts) (hF : 2 * ts.length + 2 ≤ n) (hk : ∀ t ∈ ts, NameOk t.kind) (ho : k.ok h) :
    ∃ w h1, gCall Q (n + 2) (.meth (.ptr a [c!"tokens32"]) c!"AST") [] false h = .ok ([w], h1) ∧
      (select gDecls false w c!"Print" h1 = .ok ([.meth w c!"Print"], h1) ∧ select gDecls false w c!"PrettyPrint" h1 = .ok ([.meth w c!"PrettyPrint"], h1)) ∧
      Prints Q k prr s 0 (ast ts).toList h (gCall Q (n + 2) (.meth w (if prr then c!"PrettyPrint" else c!"Print")) [k.val, .str s] false h1) := by
  obtain ⟨h1, lo, hi, w, e1, e2, e3, e4, e5, e6⟩ := ast_run (Q := Q) (n := n) hm ha hv (by omega)
  have ho1 := Wrote.of_ext ho e2 e3
  have hb : k.below lo := by cases k with | out => trivial | cell a => exact show a < lo from Nat.lt_of_lt_of_le ho.1 e4
  have hs := sel_print e6
  have ht := ast_toks ts
  refine ⟨w, h1, e1, ⟨hs.2.1, hs.2.2⟩, Prints.after ?_ ho1⟩
  exact node_Print (by omega) ho1.ok e6 hb e5 fun t ht' => hk t (ht.1 t ht')

/-- `tokens32.PrintSyntaxTree`, `tokens32.PrettyPrintSyntaxTree`. -/
theorem toks_print {s a tr q bf r p rs pr v ts} (prr : Bool) (hm : h.mem a = pegObj tr q bf r p rs pr v) (ha : a < h.next) (hv : Holds h v ts) (hF : 2 * ts.length + 2 ≤ n) (hk : ∀ t ∈ ts, NameOk t.kind) :
    Prints Q .out prr s 0 (ast ts).toList h (gCall Q (n + 3) (.meth (.ptr a [c!"tokens32"]) (if prr then c!"PrettyPrintSyntaxTree" else c!"PrintSyntaxTree")) [.str s] false h) := by
  have e0 : gCall Q (n + 3) (.meth (.ptr a [c!"tokens32"]) (if prr then c!"PrettyPrintSyntaxTree" else c!"PrintSyntaxTree")) [.str s] false h =
      finish .nil (execs gDecls (gCall Q (n + 2)) (n + 2) (if prr then [c!"t"] else [c!"t"]) (if prr then gtokens32PrettyPrintSyntaxTree else gtokens32PrintSyntaxTree) 0 [(c!"buffer", .val (.str s)), (c!"t", .box h.next)] (h.alloc (.ptr a [c!"tokens32"]))) := by
    show runMeth _ _ _ _ _ _ _ _ _ = _
    simp only [runMeth, recvType, getPath, hm, pegObj]
    cases prr <;> rfl
  have w1 := Wrote.alloc (k := .out) (h := h) trivial (.ptr a [c!"tokens32"])
  have v1 : (h.alloc (.ptr a [c!"tokens32"])).mem h.next = .ptr a [c!"tokens32"] := alloc_mem_same _ _
  have hm1 := (w1.mem a ha (by simp)).trans hm
  have hv1 := hv.keep (Ext.alloc (.ptr a [c!"tokens32"])).keep
  rw [e0]
  generalize h.alloc (.ptr a [c!"tokens32"]) = h1 at *
  obtain ⟨w, h2, r1, r2, r3⟩ := ast_print (Q := Q) (k := .out) (prr := prr) (s := s) hm1 (Nat.lt_of_lt_of_le ha w1.next) hv1 hF hk trivial
  have hsel : select gDecls false (.ptr a [c!"tokens32"]) c!"AST" h1 = .ok ([.meth (.ptr a [c!"tokens32"]) c!"AST"], h1) := by
    simp only [select, getPath, hm1, pegObj]; rfl
  have ho : (findVal c!"os" gDecls) = none := rfl
  have r' := (r3.call (l := [(c!"buffer", .val (.str s)), (c!"t", .box h.next)])).after w1
  cases prr with
  | false =>
    have e : execs gDecls (gCall Q (n + 2)) (n + 2) [c!"t"] gtokens32PrintSyntaxTree 0 [(c!"buffer", .val (.str s)), (c!"t", .box h.next)] h1 =
      next (many (gCall Q (n + 2) (.meth w c!"Print") [Sink.out.val, .str s] false h2) fun _ h' => .ok (.norm, [(c!"buffer", .val (.str s)), (c!"t", .box h.next)], h')) fun l h => .ok (.norm, l, h) := by
      grun [gtokens32PrintSyntaxTree, v1, hsel, r1, r2, ho, Sink.val]
    simp only [reduceIte, Bool.false_eq_true, e]
    exact r'
  | true =>
    have e : execs gDecls (gCall Q (n + 2)) (n + 2) [c!"t"] gtokens32PrettyPrintSyntaxTree 0 [(c!"buffer", .val (.str s)), (c!"t", .box h.next)] h1 =
      next (many (gCall Q (n + 2) (.meth w c!"PrettyPrint") [Sink.out.val, .str s] false h2) fun _ h' => .ok (.norm, [(c!"buffer", .val (.str s)), (c!"t", .box h.next)], h')) fun l h => .ok (.norm, l, h) := by
      grun [gtokens32PrettyPrintSyntaxTree, v1, hsel, r1, r2, ho, Sink.val]
    simp only [reduceIte, e]
    exact r'

/-- `tokens32.WriteSyntaxTree`. -/
theorem toks_write {k : Sink} {s a tr q bf r p rs pr v ts} (hm : h.mem a = pegObj tr q bf r p rs pr v) (ha : a < h.next) (hka : k ≠ .cell a) (hv : Holds h v ts) (hF : 2 * ts.length + 2 ≤ n) (hk : ∀ t ∈ ts, NameOk t.kind) (ho : k.ok h) :
    Prints Q k false s 0 (ast ts).toList h (gCall Q (n + 3) (.meth (.ptr a [c!"tokens32"]) c!"WriteSyntaxTree") [k.val, .str s] false h) := by
  have e0 : gCall Q (n + 3) (.meth (.ptr a [c!"tokens32"]) c!"WriteSyntaxTree") [k.val, .str s] false h =
      finish .nil (execs gDecls (gCall Q (n + 2)) (n + 2) [c!"t"] gtokens32WriteSyntaxTree 0 [(c!"buffer", .val (.str s)), (c!"w", .val k.val), (c!"t", .box h.next)] (h.alloc (.ptr a [c!"tokens32"]))) := by
    show runMeth _ _ _ _ _ _ _ _ _ = _
    simp only [runMeth, recvType, getPath, hm, pegObj]
    rfl
  have w1 := Wrote.alloc (k := k) (h := h) ho (.ptr a [c!"tokens32"])
  have v1 : (h.alloc (.ptr a [c!"tokens32"])).mem h.next = .ptr a [c!"tokens32"] := alloc_mem_same _ _
  have hm1 := (w1.mem a ha hka).trans hm
  have hv1 := hv.keep (Ext.alloc (.ptr a [c!"tokens32"])).keep
  rw [e0]
  generalize h.alloc (.ptr a [c!"tokens32"]) = h1 at *
  obtain ⟨w, h2, r1, r2, r3⟩ := ast_print (Q := Q) (k := k) (prr := false) (s := s) hm1 (Nat.lt_of_lt_of_le ha w1.next) hv1 hF hk w1.ok
  have hsel : select gDecls false (.ptr a [c!"tokens32"]) c!"AST" h1 = .ok ([.meth (.ptr a [c!"tokens32"]) c!"AST"], h1) := by
    simp only [select, getPath, hm1, pegObj]; rfl
  have r' := (r3.call (l := [(c!"buffer", .val (.str s)), (c!"w", .val k.val), (c!"t", .box h.next)])).after w1
  have e : execs gDecls (gCall Q (n + 2)) (n + 2) [c!"t"] gtokens32WriteSyntaxTree 0 [(c!"buffer", .val (.str s)), (c!"w", .val k.val), (c!"t", .box h.next)] h1 =
      next (many (gCall Q (n + 2) (.meth w c!"Print") [k.val, .str s] false h2) fun _ h' => .ok (.norm, [(c!"buffer", .val (.str s)), (c!"w", .val k.val), (c!"t", .box h.next)], h')) fun l h => .ok (.norm, l, h) := by
    grun [gtokens32WriteSyntaxTree, v1, hsel, r1, r2]
  rw [e]
  exact r'

theorem sel_pegT {a : Nat} {tr q bf r p rs pr v} (hm : h.mem a = pegObj tr q bf r p rs pr v) (b : Bool) :
    select gDecls b (.ptr a []) c!"Buffer" h = .ok ([.str q], h) ∧ select gDecls b (.ptr a []) c!"Pretty" h = .ok ([.bool pr], h) ∧
    select gDecls true (.ptr a []) c!"tokens32" h = .ok ([.ptr a [c!"tokens32"]], h) ∧
    select gDecls false (.ptr a [c!"tokens32"]) c!"PrintSyntaxTree" h = .ok ([.meth (.ptr a [c!"tokens32"]) c!"PrintSyntaxTree"], h) ∧
    select gDecls false (.ptr a [c!"tokens32"]) c!"PrettyPrintSyntaxTree" h = .ok ([.meth (.ptr a [c!"tokens32"]) c!"PrettyPrintSyntaxTree"], h) ∧
    select gDecls false (.ptr a [c!"tokens32"]) c!"WriteSyntaxTree" h = .ok ([.meth (.ptr a [c!"tokens32"]) c!"WriteSyntaxTree"], h) ∧
    select gDecls false (.ptr a []) c!"WriteSyntaxTree" h = .ok ([.meth (.ptr a []) c!"WriteSyntaxTree"], h) := by
  refine ⟨?_, ?_, ?_, ?_, ?_, ?_, ?_⟩
  · cases b <;> simp [select, getPath, hm, pegObj, fieldPath, fget, isObj_str]
  · cases b <;> simp [select, getPath, hm, pegObj, fieldPath, fget, isObj_bool]
  · simp only [select, getPath, hm, pegObj]; rfl
  · simp only [select, getPath, hm, pegObj]; rfl
  · simp only [select, getPath, hm, pegObj]; rfl
  · simp only [select, getPath, hm, pegObj]; rfl
  · simp only [select, getPath, hm, pegObj]; rfl

/-- `MiniQueryPeg.PrintSyntaxTree`. -/
theorem show_run {a tr q bf r p rs pr v ts} (hm : h.mem a = pegObj tr q bf r p rs pr v) (ha : a < h.next) (hv : Holds h v ts) (hF : 2 * ts.length + 2 ≤ n) (hk : ∀ t ∈ ts, NameOk t.kind) :
    Shows Q .out pr q ts h (gCall Q (n + 4) (.meth (.ptr a []) c!"PrintSyntaxTree") [] false h) := by
  have e0 : gCall Q (n + 4) (.meth (.ptr a []) c!"PrintSyntaxTree") [] false h =
      finish .nil (execs gDecls (gCall Q (n + 3)) (n + 3) [] gMiniQueryPegPrintSyntaxTree 0 [(c!"p", .val (.ptr a []))] h) := by
    show runMeth _ _ _ _ _ _ _ _ _ = _
    simp only [runMeth, recvType, getPath, hm, pegObj]
    rfl
  have hs := sel_pegT hm
  have hst := hs true
  have hsf := hs false
  have r := toks_print (Q := Q) (s := q) pr hm ha hv hF hk
  refine Prints.shows ?_
  rw [e0]
  refine r.map (fun r' => ?_) (fun h' r' => ?_)
  · cases pr <;> simp only [reduceIte, Bool.false_eq_true] at r' <;> grun [gMiniQueryPegPrintSyntaxTree, hsf, hst, r']
  · cases pr <;> simp only [reduceIte, Bool.false_eq_true] at r' <;> grun [gMiniQueryPegPrintSyntaxTree, hsf, hst, r']

/-- `MiniQueryPeg.WriteSyntaxTree`. -/
theorem write_run {k : Sink} {a tr q bf r p rs pr v ts} (hm : h.mem a = pegObj tr q bf r p rs pr v) (ha : a < h.next) (hka : k ≠ .cell a) (hv : Holds h v ts) (hF : 2 * ts.length + 2 ≤ n) (hk : ∀ t ∈ ts, NameOk t.kind) (ho : k.ok h) :
    Shows Q k false q ts h (gCall Q (n + 4) (.meth (.ptr a []) c!"WriteSyntaxTree") [k.val] false h) := by
  have e0 : gCall Q (n + 4) (.meth (.ptr a []) c!"WriteSyntaxTree") [k.val] false h =
      finish .nil (execs gDecls (gCall Q (n + 3)) (n + 3) [] gMiniQueryPegWriteSyntaxTree 0 [(c!"w", .val k.val), (c!"p", .val (.ptr a []))] h) := by
    show runMeth _ _ _ _ _ _ _ _ _ = _
    simp only [runMeth, recvType, getPath, hm, pegObj]
    rfl
  have hs := sel_pegT hm
  have hst := hs true
  have hsf := hs false
  have r := toks_write (Q := Q) (s := q) hm ha hka hv hF hk ho
  refine Prints.shows ?_
  rw [e0]
  have r' := r.call (l := [(c!"w", .val k.val), (c!"p", .val (.ptr a []))])
  have e : execs gDecls (gCall Q (n + 3)) (n + 3) [] gMiniQueryPegWriteSyntaxTree 0 [(c!"w", .val k.val), (c!"p", .val (.ptr a []))] h =
      next (many (gCall Q (n + 3) (.meth (.ptr a [c!"tokens32"]) c!"WriteSyntaxTree") [k.val, .str q] false h) fun _ h' => .ok (.norm, [(c!"w", .val k.val), (c!"p", .val (.ptr a []))], h')) fun l h => .ok (.norm, l, h) := by
    grun [gMiniQueryPegWriteSyntaxTree, hsf, hst]
  rw [e]
  exact r'

/-- `MiniQueryPeg.SprintSyntaxTree`. -/
theorem sprint_run {a tr q bf r p rs pr v ts} (hm : h.mem a = pegObj tr q bf r p rs pr v) (ha : a < h.next) (hv : Holds h v ts) (hF : 2 * ts.length + 2 ≤ n) (hk : ∀ t ∈ ts, NameOk t.kind) :
    match treeText Q false q ts with
    | some t => ∃ h', gCall Q (n + 5) (.meth (.ptr a []) c!"SprintSyntaxTree") [] false h = .ok ([.str t], h') ∧ Ext h h' ∧ h'.out = h.out
    | none => gCall Q (n + 5) (.meth (.ptr a []) c!"SprintSyntaxTree") [] false h = .panic := by
  have e0 : gCall Q (n + 5) (.meth (.ptr a []) c!"SprintSyntaxTree") [] false h =
      finish (.cons (.id c!"string") .nil) (execs gDecls (gCall Q (n + 4)) (n + 4) [c!"p", c!"bldr", c!"bldr"] gMiniQueryPegSprintSyntaxTree 0 [(c!"p", .box h.next)] (h.alloc (.ptr a []))) := by
    show runMeth _ _ _ _ _ _ _ _ _ = _
    simp only [runMeth, recvType, getPath, hm, pegObj]
    rfl
  have s0 : ∀ h0, exec gDecls (gCall Q (n + 4)) (n + 4) [c!"p", c!"bldr", c!"bldr"] (stmtAt gMiniQueryPegSprintSyntaxTree 0) 0 [(c!"p", .box h.next)] h0 =
      .ok (.norm, [(c!"bldr", .box h0.next), (c!"p", .box h.next)], h0.alloc (bldObj [])) := fun _ => rfl
  have x1 : Ext h ((h.alloc (.ptr a [])).alloc (bldObj [])) := (Ext.alloc _).trans (Ext.alloc _)
  have o1 : ((h.alloc (.ptr a [])).alloc (bldObj [])).out = h.out := rfl
  have n1 : ((h.alloc (.ptr a [])).alloc (bldObj [])).next = h.next + 2 := rfl
  have b1 : ((h.alloc (.ptr a [])).alloc (bldObj [])).mem (h.next + 1) = bldObj [] := alloc_mem_same (h.alloc (.ptr a [])) _
  have p1 : ((h.alloc (.ptr a [])).alloc (bldObj [])).mem h.next = .ptr a [] := by rw [alloc_mem_other _ _ (by simp), alloc_mem_same]
  have hs : gMiniQueryPegSprintSyntaxTree = .cons (stmtAt gMiniQueryPegSprintSyntaxTree 0) (.cons (stmtAt gMiniQueryPegSprintSyntaxTree 1) (.cons (stmtAt gMiniQueryPegSprintSyntaxTree 2) .nil)) := rfl
  rw [e0, hs]
  simp only [execs_cons, s0, next_norm, alloc_next]
  generalize (h.alloc (.ptr a [])).alloc (bldObj []) = h1 at *
  have hm1 := (x1.mem a ha).trans hm
  have hs1 := sel_pegT hm1 false
  have w := write_run (Q := Q) (k := .cell (h.next + 1)) hm1 (by omega) (by simp; omega) (hv.keep x1.keep) hF hk ⟨by omega, _, b1⟩
  unfold Shows at w
  simp only [Sink.val] at w
  cases ht : treeText Q false q ts with
  | none =>
    rw [ht] at w
    have w' : gCall Q (n + 4) (.meth (.ptr a []) c!"WriteSyntaxTree") [.ptr (h.next + 1) []] false h1 = .panic := w
    have s1 : exec gDecls (gCall Q (n + 4)) (n + 4) [c!"p", c!"bldr", c!"bldr"] (stmtAt gMiniQueryPegSprintSyntaxTree 1) 0 [(c!"bldr", .box (h.next + 1)), (c!"p", .box h.next)] h1 = .panic := by
      grun [stmtAt, gMiniQueryPegSprintSyntaxTree, p1, hs1, w']
    simp only [s1, next_panic, finish]
  | some t =>
    rw [ht] at w
    obtain ⟨h2, w1, w2⟩ := w
    obtain ⟨o2, _, s, c1, c2⟩ := w2.text
    have hnil : s = [] := by rw [b1] at c1; simpa [bldObj] using c1.symm
    subst hnil
    have c2' : h2.mem (h.next + 1) = .obj c!"strings.Builder" [(c!"text", .str t)] := c2
    have s1 : exec gDecls (gCall Q (n + 4)) (n + 4) [c!"p", c!"bldr", c!"bldr"] (stmtAt gMiniQueryPegSprintSyntaxTree 1) 0 [(c!"bldr", .box (h.next + 1)), (c!"p", .box h.next)] h1 =
        .ok (.norm, [(c!"bldr", .box (h.next + 1)), (c!"p", .box h.next)], h2) := by
      grun [stmtAt, gMiniQueryPegSprintSyntaxTree, p1, hs1, w1]
    have hb : gCall Q (n + 4) (.meth (.ptr (h.next + 1) []) c!"String") [] false h2 = .ok ([.str t], h2) := by
      show runMeth _ _ _ _ _ _ _ _ _ = _
      simp only [runMeth, recvType, getPath, c2']
      have f1 : findFunc (c!"strings.Builder" ++ c!".String") gDecls = none := rfl
      have f2 : methodIn gDecls c!"String" [(c!"text", .str t)] = none := rfl
      rw [f1, f2]
      simp [gLib, libFn, c2']
    have hsb : select gDecls false (.ptr (h.next + 1) []) c!"String" h2 = .ok ([.meth (.ptr (h.next + 1) []) c!"String"], h2) := by
      simp only [select, getPath, c2']; rfl
    have s2 : exec gDecls (gCall Q (n + 4)) (n + 4) [c!"p", c!"bldr", c!"bldr"] (stmtAt gMiniQueryPegSprintSyntaxTree 2) 0 [(c!"bldr", .box (h.next + 1)), (c!"p", .box h.next)] h2 =
        .ok (.ret [.str t], [(c!"bldr", .box (h.next + 1)), (c!"p", .box h.next)], h2) := by
      grun [stmtAt, gMiniQueryPegSprintSyntaxTree, c2', hsb, hb]
    refine ⟨h2, by simp only [s1, s2, next_norm, next_ret, finish, coerce], ⟨Nat.le_trans x1.next w2.next, fun x hx => ?_⟩, o2.trans o1⟩
    exact (w2.mem x (by omega) (by simp; omega)).trans (x1.mem x hx)

end Verif.Gen
