import Verif.Gen.ParseRun

/-! # Running `String` and `Print` of tokens -/

namespace Verif.Gen
open Verif

variable {Q : Char → Bool} {n : Nat} {h : Heap}

/-- The names in the table `rul3s`. -/
def nameStrs : List Str :=
  match grul3sVal with
  | .lit _ _ vs => go vs
  | _ => []
where
  go : Exprs → List Str
  | .cons (.str s) k => s :: go k
  | _ => []

/-- The same as values. -/
def nameVals : List Val := nameStrs.map .str

theorem rul3s_run : gCall Q (n + 1) (.glob c!"rul3s") [] false h = .ok ([.arr nameVals], h) := by
  show ev gDecls (gCall Q n) [] false grul3sVal h = _
  rw [grul3sVal]
  simp only [ev, evs, one_ok, many_ok]
  rfl

/-- The table has a name for the kind: the grammar has 30 actions. -/
def NameOk : TokKind → Prop
  | .act n => n < 30
  | _ => True

theorem name_kind (k : TokKind) (hk : NameOk k) : nameVals[kindNum k]? = some (.str (kindName k)) := by
  cases k with
  | rule r => cases r <;> rfl
  | text => rfl
  | act n =>
    have hn : n < 30 := hk
    have : ∀ n : Fin 30, nameStrs[kindNum (.act n)]? = some (kindName (.act n)) := by decide +kernel
    rw [nameVals, List.getElem?_map, this ⟨n, hn⟩]; rfl

/-- The kinds of all tokens of a state have names. -/
structure Named (st : St) : Prop where
  max : NameOk st.max.kind
  tree : ∀ t ∈ st.tree, NameOk t.kind

/-- The state after a run is named. -/
def NamedOut : Out → Prop
  | .ok st => Named st
  | .fail st => Named st
  | _ => True

/-- The actions of an expression have names. -/
def actsOk : PExp → Bool
  | .act n => n < 30
  | .seq a b => actsOk a && actsOk b
  | .alt a b => actsOk a && actsOk b
  | .sw _ a b => actsOk a && actsOk b
  | .star a => actsOk a
  | .opt a => actsOk a
  | .notP a => actsOk a
  | .txt a => actsOk a
  | _ => true

theorem actsOk_G (r : Rule) : actsOk (G r) = true := by cases r <;> decide

theorem Named.set {st : St} (k : Named st) (p t : Nat) : Named { st with pos := p, ti := t } := ⟨k.max, k.tree⟩

theorem Named.addTok {st : St} (k : Named st) {kd b} (hk : NameOk kd) : Named (addTok kd b st) := by
  constructor
  · simp only [Verif.addTok]; split
    · exact hk
    · exact k.max
  · intro t ht
    simp only [Verif.addTok] at ht
    split at ht
    · rcases List.mem_append.mp ht with ht | ht
      · exact k.tree t ht
      · simp only [List.mem_singleton] at ht; subst ht; exact hk
    · rcases List.mem_or_eq_of_mem_set ht with ht | rfl
      · exact k.tree t ht
      · exact hk

theorem execStar_named {p : St → Out} (hp : ∀ st, Named st → NamedOut (p st)) : ∀ n st, Named st → NamedOut (execStar p n st)
  | 0, _, _ => trivial
  | n + 1, st, hs => by
    unfold execStar
    have h := hp st hs
    cases ho : p st with
    | ok st' => rw [ho] at h; exact execStar_named hp n st' h
    | fail st' => rw [ho] at h; exact Named.set h _ _
    | panic => trivial
    | div => trivial

theorem exec_named {buf : List Nat} {env : Rule → St → Out} (henv : ∀ r st, Named st → NamedOut (env r st)) :
    ∀ e, actsOk e = true → ∀ st, Named st → NamedOut (Verif.exec buf env e st) := by
  intro e
  induction e with
  | eps => intro _ st hs; exact hs
  | any => intro _ st hs; unfold Verif.exec; split <;> try trivial
           split
           · exact hs.set _ _
           · exact hs
  | chr c => intro _ st hs; unfold Verif.exec; split <;> try trivial
             split
             · exact hs
             · exact hs.set _ _
  | rng lo hi => intro _ st hs; unfold Verif.exec; split <;> try trivial
                 split
                 · exact hs
                 · exact hs.set _ _
  | seq a b iha ihb =>
    intro hk st hs
    simp only [actsOk, Bool.and_eq_true] at hk
    have h := iha hk.1 st hs
    unfold Verif.exec
    cases ho : Verif.exec buf env a st with
    | ok st' => rw [ho] at h; exact ihb hk.2 st' h
    | _ => rw [ho] at h; exact h
  | alt a b iha ihb =>
    intro hk st hs
    simp only [actsOk, Bool.and_eq_true] at hk
    have h := iha hk.1 st hs
    unfold Verif.exec
    cases ho : Verif.exec buf env a st with
    | fail st' => rw [ho] at h; exact ihb hk.2 _ (Named.set h _ _)
    | _ => rw [ho] at h; exact h
  | star a iha => intro hk st hs; exact execStar_named (iha hk) _ st hs
  | opt a iha =>
    intro hk st hs
    have h := iha hk st hs
    unfold Verif.exec
    cases ho : Verif.exec buf env a st with
    | fail st' => rw [ho] at h; exact Named.set h _ _
    | _ => rw [ho] at h; exact h
  | notP a iha =>
    intro hk st hs
    have h := iha hk st hs
    unfold Verif.exec
    cases ho : Verif.exec buf env a st with
    | fail st' => rw [ho] at h; exact Named.set h _ _
    | _ => rw [ho] at h; exact h
  | call r => intro _ st hs; exact henv r st hs
  | txt a iha =>
    intro hk st hs
    have h := iha hk st hs
    unfold Verif.exec
    cases ho : Verif.exec buf env a st with
    | ok st' => rw [ho] at h; exact Named.addTok h trivial
    | _ => rw [ho] at h; exact h
  | act n => intro hk st hs; exact hs.addTok (by simpa [actsOk, NameOk] using hk)
  | sw cs a b iha ihb =>
    intro hk st hs
    simp only [actsOk, Bool.and_eq_true] at hk
    unfold Verif.exec
    cases buf[st.pos]? with
    | none => trivial
    | some x =>
      simp only
      split
      · exact iha hk.1 st hs
      · exact ihb hk.2 st hs

/-- A run keeps to kinds with names. -/
theorem execN_named (buf : List Nat) : ∀ n r st, Named st → NamedOut (execN buf G n r st) := by
  intro n
  induction n with
  | zero => intro r st _; trivial
  | succ n ih =>
    intro r st hs
    have h := exec_named (buf := buf) ih (G r) (actsOk_G r) st hs
    unfold execN
    cases ho : Verif.exec buf (execN buf G n) (G r) st with
    | ok st' => rw [ho] at h; exact Named.addTok h trivial
    | fail st' => rw [ho] at h; exact Named.set h _ _
    | panic => trivial
    | div => trivial

/-- Memory that has grown. -/
structure Ext (h h' : Heap) : Prop where
  next : h.next ≤ h'.next
  mem : ∀ x < h.next, h'.mem x = h.mem x

theorem Ext.refl : Ext h h := ⟨Nat.le_refl _, fun _ _ => rfl⟩
theorem Ext.trans {h' h'' : Heap} (k : Ext h h') (k' : Ext h' h'') : Ext h h'' :=
  ⟨Nat.le_trans k.next k'.next, fun x hx => (k'.mem x (Nat.lt_of_lt_of_le hx k.next)).trans (k.mem x hx)⟩
theorem Ext.alloc (v) : Ext h (h.alloc v) := ⟨Nat.le_succ _, fun _ hx => alloc_mem_other _ _ (Nat.ne_of_lt hx)⟩
theorem Ext.out (o) : Ext h { h with out := o } := ⟨Nat.le_refl _, fun _ _ => rfl⟩

theorem sel_tok {x : Nat} {t : Tok} (hm : h.mem x = tokVal t) :
    select gDecls false (.ptr x []) c!"pegRule" h = .ok ([.int (kindNum t.kind)], h) ∧
    select gDecls false (.ptr x []) c!"begin" h = .ok ([.int t.b], h) ∧ select gDecls false (.ptr x []) c!"end" h = .ok ([.int t.e], h) := by
  refine ⟨?_, ?_, ?_⟩ <;> simp [select, getPath, hm, tokVal, tokObj, fieldPath, fget]

theorem format_tok (k : Str) (b e : Nat) : format c!"\x1b[34m%v\x1b[m %v %v" [.str k, .int b, .int e] =
    esc :: (c!"[34m" ++ k ++ esc :: (c!"[m " ++ natText b ++ ' ' :: natText e)) := by
  simp [format, showVal]; decide

/-- `token32.String`. -/
theorem tokString_run {x : Nat} {t : Tok} (hm : h.mem x = tokVal t) (hk : NameOk t.kind) :
    gCall Q (n + 2) (.meth (.ptr x []) c!"String") [] false h = .ok ([.str (tokText t)], h) := by
  have e0 : gCall Q (n + 2) (.meth (.ptr x []) c!"String") [] false h =
      runBody gDecls (gCall Q (n + 1)) (n + 1) [c!"t"] false (.cons (.id c!"string") .nil) gtoken32String [] [.ptr x []] false h := by
    show runMeth _ _ _ _ _ _ _ _ _ = _
    simp only [runMeth, recvType, getPath, hm, tokVal, tokObj]
    rfl
  have hc : capSs false gtoken32String = [c!"fmt"] := rfl
  have hl : ∀ vs, gCall Q (n + 1) (.lib c!"fmt.Sprintf") vs false h = libFn Q c!"fmt.Sprintf" vs h := fun _ => rfl
  have hf : (findVal c!"fmt" gDecls) = none := rfl
  have hk' := name_kind t.kind hk
  rw [e0]
  simp only [runBody, hc]
  have hi : ¬ ((kindNum t.kind : Int) < 0) := by omega
  grun [gtoken32String, sel_tok hm, rul3s_run, nthVal, hk', hl, libFn, hf, hi, format_tok, tokText]

theorem sel_string {x : Nat} {t : Tok} (hm : h.mem x = tokVal t) : select gDecls false (.ptr x []) c!"String" h = .ok ([.meth (.ptr x []) c!"String"], h) := by
  simp only [select, getPath, hm, tokVal, tokObj]; rfl

/-- The loop of `Print`. -/
theorem print_loop (l : Locals) (hl : lget c!"fmt" l = none) : ∀ (ts : List Tok) (i : Nat) (h : Heap), (∀ t ∈ ts, NameOk t.kind) →
    ∃ h', rangeLoop [] (rangeBody [c!"fmt", c!"token"] c!"_" c!"token" (execs gDecls (gCall Q (n + 2)) (n + 2) [c!"fmt", c!"token"] (loopOf gtokens32Print))) i
      (ts.map tokVal) l h = .ok (.norm, l, h') ∧ Ext h h' ∧ h'.out = h.out ++ tokensText ts
  | [], _, h, _ => ⟨h, rfl, .refl, by simp [tokensText]⟩
  | t :: ts, i, h, hk => by
    have e1 : (h.alloc (tokVal t)).mem h.next = tokVal t := alloc_mem_same _ _
    have hs := tokString_run (Q := Q) (n := n) e1 (hk t (List.mem_cons_self ..))
    have hsel := sel_string e1
    have x1 : Ext h (h.alloc (tokVal t)) := .alloc _
    have o1 : (h.alloc (tokVal t)).out = h.out := rfl
    have hpr : ∀ s h, gCall Q (n + 2) (.lib c!"fmt.Println") [.str s] false h = .ok ([], { h with out := h.out ++ s ++ ['\n'] }) := fun _ _ => rfl
    have hf : (findVal c!"fmt" gDecls) = none := rfl
    have hb : rangeBody [c!"fmt", c!"token"] c!"_" c!"token" (execs gDecls (gCall Q (n + 2)) (n + 2) [c!"fmt", c!"token"] (loopOf gtokens32Print)) i (tokVal t) l h =
        .ok (.norm, l, { (h.alloc (tokVal t)) with out := (h.alloc (tokVal t)).out ++ tokText t ++ ['\n'] }) := by
      simp only [rangeBody, declare]
      generalize hh1 : h.alloc (tokVal t) = h1 at *
      grun [gtokens32Print, loopOf, hl, hf, hh1, e1, hsel, hs, hpr]
    generalize h.alloc (tokVal t) = h1 at *
    obtain ⟨h', k1, k2, k3⟩ := print_loop l hl ts (i + 1) { h1 with out := h1.out ++ tokText t ++ ['\n'] } fun t ht => hk t (List.mem_cons_of_mem _ ht)
    refine ⟨h', ?_, (x1.trans (.out _)).trans k2, ?_⟩
    · simp only [List.map_cons, rangeLoop, hb, k1]
    · rw [k3, o1]; simp [tokensText]

/-- `tokens32.Print`. -/
theorem print_run {x : Nat} {path : List Str} {v : Val} {ts : List Tok} (hm : getPath (h.mem x) path = some (treeObj v)) (hv : view h v = some (ts.map tokVal))
    (hk : ∀ t ∈ ts, NameOk t.kind) :
    ∃ h', gCall Q (n + 3) (.meth (.ptr x path) c!"Print") [] false h = .ok ([], h') ∧ Ext h h' ∧ h'.out = h.out ++ tokensText ts := by
  have e0 : gCall Q (n + 3) (.meth (.ptr x path) c!"Print") [] false h =
      runBody gDecls (gCall Q (n + 2)) (n + 2) [c!"t"] false .nil gtokens32Print [] [.ptr x path] false h := by
    show runMeth _ _ _ _ _ _ _ _ _ = _
    simp only [runMeth, recvType, hm, treeObj]
    rfl
  have hc : capSs false gtokens32Print = [c!"fmt", c!"token"] := rfl
  obtain ⟨h', k1, k2, k3⟩ := print_loop (Q := Q) (n := n) [(c!"t", .val (.ptr x path))] rfl ts 0 h hk
  refine ⟨h', ?_, k2, k3⟩
  rw [e0]
  simp only [runBody, hc]
  have hsel : select gDecls false (.ptr x path) c!"tree" h = .ok ([v], h) := by simp [select, hm, treeObj, getPath, fieldPath, fget]
  simp only [loopOf, gtokens32Print] at k1
  grun [gtokens32Print, hsel, hv, k1]

end Verif.Gen
