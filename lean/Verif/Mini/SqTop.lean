import Verif.Mini.SqEdge3

/-! # Running /repo/entmq/entsql.go: `visit` and `Query` do what the model says -/

namespace Verif.Mini
open Verif

set_option linter.unusedSimpArgs false

variable {Q : Char → Bool} {N n k kk D : Nat} {h g g0 g' : Heap} {p : SPar} {S : Sit} {mb : MB} {Z : Sch}

/-- Running `visit`. -/
theorem svisit_run (kk : Nat) : ∀ S k n D, 2 * kk + 1 ≤ k → kk + 2 ≤ n → kk + 2 ≤ D → kk + 2 ≤ N → SBelow Q N D p Z S k n kk := by
  induction kk with
  | zero => intro S k n D _ _ _ _ x hx; omega
  | succ kk ih =>
    intro S k n D hk hn hD hN x hx hc g mb A hf
    obtain ⟨n, rfl⟩ : ∃ n', n = n' + 3 := ⟨n - 3, by omega⟩
    have ih1 := ih S k (n + 2) D (by omega) (by omega) (by omega) (by omega)
    have I := sin_start A
    have hz : ((g.alloc (.ptr S.a)).alloc .nil).mem (g.next + 1) = .nil := alloc_mem_new _
    have hl : lvl x ≤ kk := by omega
    have hN' : lvl x + 3 ≤ N := by omega
    cases hc with
    | int => rw [sqCall, sarm_value A hf rfl]; exact sv_int _ I hf hz (by omega) (by omega) (by omega)
    | bool => rw [sqCall, sarm_value A hf rfl]; exact sv_bool _ I hf hz (by omega) (by omega) (by omega)
    | str => rw [sqCall, sarm_value A hf rfl]; exact sv_str _ I hf hz (by omega) (by omega) (by omega)
    | null => rw [sqCall, sarm_value A hf rfl]; exact sv_null I hf hz (by omega) (by omega) (by omega)
    | arr h => rw [sqCall, sarm_value A hf rfl]; exact sv_arr _ I hf hz (by omega) (.arr h)
    | op => rw [sqCall, sarm_operation A hf rfl]; exact sv_op _ I hf hz
    | ident => rw [sqCall, sarm_identifier A hf rfl]; exact sv_ident _ I hf hz
    | ref => rw [sqCall, sarm_reference A hf rfl]; exact sv_ref _ I hf hz
    | pred h1 h2 => rw [sqCall, sarm_predicates A hf rfl]; exact sv_pred _ _ I hf hz ih1 hl h1 (complete_ne h2)
    | cmp h1 h2 h3 => rw [sqCall, sarm_compare A hf rfl]; exact sv_cmp _ _ _ I hf hz ih1 hl h1 h3 (complete_ne h2)
    | logic h1 h2 h3 => rw [sqCall, sarm_logic A hf rfl]; exact sv_logic _ _ _ I hf hz ih1 hl h1 h3 (complete_ne h2)
    | paren h1 => rw [sqCall, sarm_parentheses A hf rfl]; exact sv_paren _ I hf hz ih1 hl h1
    | not h1 => rw [sqCall, sarm_not A hf rfl]; exact sv_not _ I hf hz ih1 hl h1
    | between h1 h2 h3 h4 => rw [sqCall, sarm_between A hf rfl]; exact sv_between _ _ _ _ I hf hz ih1 hl h1 h3 h4 (complete_ne h2)
    | @func f l h1 =>
      rw [sqCall, sarm_function A hf rfl]
      by_cases e1 : f = c!"date"
      · subst e1; exact sv_date _ I hf hz ih1 hl h1
      · by_cases e2 : f = c!"has_edge"
        · subst e2
          obtain ⟨D, rfl⟩ : ∃ D', D = D' + 3 := ⟨D - 3, by omega⟩
          obtain ⟨k, rfl⟩ : ∃ k', k = k' + 2 := ⟨k - 2, by omega⟩
          exact sv_edge l I hf hz (fun S' => ih S' k (D + 2) (D + 3) (by omega) (by omega) (by omega) (by omega)) hl h1 hN'
        · exact sv_unknown f l I hf hz e1 e2

/-! ## `Query` -/

/-- The builder after its query has been parsed. -/
def Sit.parsed (S : Sit) (x : Node) : Sit := { S with ast := nodeVal x }

/-- The builder of a situation has these contents. -/
structure Holds (Z : Sch) (S : Sit) (mb : MB) (h : Heap) : Prop where
  at_ : SAt Z S h
  fits : Fits S mb
  own : h.mem S.b = (rbld mb.own).val
  ext : ∀ e, mb.ext = some e → h.mem S.c = (rbld e).val

theorem Holds.eq (H : Holds Z S mb h) : sHeap S mb h = h := by
  unfold sHeap
  cases e : mb.ext with
  | none => exact put_self H.own
  | some b =>
    simp only
    rw [put_self (H.ext b e), put_self H.own]

theorem holds_sHeap (A : SAt Z S g) (hf : Fits S mb) : Holds Z S mb (sHeap S mb g) where
  at_ := {
    la := by rw [sh_next]; exact A.la
    lb := by rw [sh_next]; exact A.lb
    lc := fun h => by rw [sh_next]; exact A.lc h
    oa := A.oa
    bc := A.bc
    mem := by rw [sh_mem A.oa hf]; exact A.mem
    node := A.node
    ln := fun t h => by rw [sh_next]; exact A.ln t h
    on := A.on
    nodes := fun t h => by rw [sh_mem (A.on t h) hf]; exact A.nodes t h }
  fits := hf
  own := sh_own
  ext e he := by
    have hx := fits_some hf he
    unfold sHeap
    rw [put_mem_other _ _ (fun h => A.bc hx h.symm), he]
    exact put_mem_same ..

/-- Other memory is as before. -/
theorem sHeap_keeps (H : Holds Z S mb h) (K : Keeps h g') (mb' : MB) (hf : Fits S mb') {y : Nat} (hy : y < h.next) (h2 : y ≠ S.b) (h3 : S.x = true → y ≠ S.c) : (sHeap S mb' g').mem y = h.mem y := by
  rw [sh_mem ⟨h2, h3⟩ hf, K.2 y hy]

theorem parsed_at (A : SAt Z S g) (x : Node) (hna : ∀ t, Z.T t → Z.nd t ≠ S.a) : SAt Z (S.parsed x) (g.put S.a ((S.parsed x).val Z)) where
  la := A.la
  lb := A.lb
  lc := A.lc
  oa := A.oa
  bc := A.bc
  mem := put_mem_same ..
  node := A.node
  ln := A.ln
  on := A.on
  nodes t h := by rw [put_mem_other _ _ (hna t h)]; exact A.nodes t h

theorem node_ne (A : SAt Z S g) (t : Nat) (h : Z.T t) : Z.nd t ≠ S.a := by
  intro e
  have h1 := A.nodes t h
  rw [e, A.mem] at h1
  simp [Sit.val, mbVal, fnodeVal] at h1

theorem sp_ast : findPkg c!"ast" sqp.decls = false := rfl
theorem sp_err : findPkg c!"err" sqp.decls = false := rfl
theorem sg_Parse {L : Lib} : call sqp L (n + 1) (.glob c!"miniquery.Parse") [] h = .ok ([.lib c!"miniquery.Parse"], h) := rfl
theorem sl_Parse (v) : sqCall Q N D p k (n + 1) (.lib c!"miniquery.Parse") [v] h = mqCall Q N (.fn c!"Parse") [v] h := rfl

/-- Running `Query` on a builder without a tree, when the parser reports an error. -/
theorem squery_fail (hx : S.ast = .nil) (A : SAt Z S g) (hf : Fits S mb) {e : Err} (hp : parse S.q = .err e) (hN : 7 ≤ N) :
    ∃ g', Keeps g g' ∧ sqCall Q N D p k (n + 2) (.meth (.ptr S.a) c!"Query") [] (sHeap S mb g) = .ok ([.str [], .nil], sHeap S { mb with own := mb.own.addErr (.parse e) } g') := by
  obtain ⟨N, rfl⟩ : ∃ N', N = N' + 7 := ⟨N - 7, by omega⟩
  obtain ⟨h1, K, R⟩ := parse_run (Q := Q) (n := N) (h := sHeap S mb g) S.q
  obtain ⟨g', K', rfl⟩ := sh_keeps A hf K
  refine ⟨g', K', (squery_enter A hf).trans ?_⟩
  have ha := ss_ast A hf
  have hq := ss_QueryString A hf
  rw [hx] at ha
  rw [hp, parseOut] at R
  have A1 := A.keeps K'
  have hb := ss_AddError A1 hf
  have hc := fun n => sl_AddError (Q := Q) (N := N + 7) (D := D) (p := p) (k := k) (n := n) A1 hf (.parse e)
  rw [show sErrVal (.parse e) = errVal e from rfl] at hc
  have hse : same (errVal e) .nil = some false := same_sErr (.parse e)
  gorun [entsqlMiniQLToEntSQLBuilderQuery, sp_mb, sp_miniquery, sp_ast, sp_err, ha, hq, sg_Parse, sl_Parse, R, hse, hb, hc]

/-- Running `Query` on a builder without a tree is running it on the same builder with the tree. -/
theorem squery_parse (hx : S.ast = .nil) (A : SAt Z S g) (hf : Fits S mb) {x : Node} (hp : parse S.q = .ok x) (hN : 7 ≤ N) :
    ∃ g', Keeps g g' ∧ sqCall Q N D p k (n + 2) (.meth (.ptr S.a) c!"Query") [] (sHeap S mb g) =
      sqCall Q N D p k (n + 2) (.meth (.ptr S.a) c!"Query") [] (sHeap (S.parsed x) mb (g'.put S.a ((S.parsed x).val Z))) := by
  have hne := complete_ne (C02_complete_tree _ _ hp)
  obtain ⟨N, rfl⟩ : ∃ N', N = N' + 7 := ⟨N - 7, by omega⟩
  obtain ⟨h1, K, R⟩ := parse_run (Q := Q) (n := N) (h := sHeap S mb g) S.q
  obtain ⟨g', K', rfl⟩ := sh_keeps A hf K
  have A1 := A.keeps K'
  have A2 := parsed_at A1 x (node_ne A1)
  have hf2 : Fits (S.parsed x) mb := hf
  refine ⟨g', K', (squery_enter A hf).trans (Eq.trans ?_ (squery_enter (L := sqLib Q (N + 7) p (sqc Q (N + 7) D p k)) (n := n + 1) A2 hf2).symm)⟩
  have ha := ss_ast A hf
  have hq := ss_QueryString A hf
  rw [hx] at ha
  rw [hp, parseOut] at R
  have ha2 := ss_ast A2 hf2
  have hv2 := ss_visit A2 hf2
  rw [show (S.parsed x).a = S.a from rfl] at ha2 hv2
  rw [show (S.parsed x).ast = nodeVal x from rfl] at ha2
  have hs := same_node hne
  obtain ⟨sb, hsb⟩ : ∃ sb, (if S.x then Val.ptr S.c else .nil) = sb := ⟨_, rfl⟩
  have hm : (sHeap S mb g').mem S.a = .obj c!"MiniQLToEntSQLBuilder" [(c!"Node", nodePtr Z.nd S.node), (c!"QueryString", .str S.q), (c!"ast", .nil), (c!"SQLBuilder", sb), (c!"Graph", S.graph), (c!"Builder", .ptr S.b),
      (c!"DisableTypeCasting", .bool S.dis)] := by
    rw [sh_mem A.oa hf, A1.mem, Sit.val, hx, hsb]; rfl
  have hput : (sHeap S mb g').put S.a (.obj c!"MiniQLToEntSQLBuilder" [(c!"Node", nodePtr Z.nd S.node), (c!"QueryString", .str S.q), (c!"ast", nodeVal x), (c!"SQLBuilder", sb), (c!"Graph", S.graph), (c!"Builder", .ptr S.b),
      (c!"DisableTypeCasting", .bool S.dis)]) = sHeap (S.parsed x) mb (g'.put S.a ((S.parsed x).val Z)) := by
    rw [← hsb]; exact sh_put A.oa hf _
  have ea : (S.parsed x).a = S.a := rfl
  generalize sHeap (S.parsed x) mb (g'.put S.a ((S.parsed x).val Z)) = H at ha2 hv2 hput
  rw [ea]
  gorun [entsqlMiniQLToEntSQLBuilderQuery, sp_mb, sp_miniquery, sp_ast, sp_err, ha, hq, sg_Parse, sl_Parse, R, hm, hput, ha2, hv2, hs]

/-- The tree of a builder, as a value. -/
def astVal : Option Node → Val
  | none => .nil
  | some x => nodeVal x

/-- The arguments in a result: none for the nil that is returned with an error. -/
def argsOf : Val → Option (List Val)
  | .nil => some []
  | .slice l => some l
  | _ => none

/-- Memory other than that of the builder is as before. -/
def Others (S : Sit) (h h' : Heap) : Prop := h.next ≤ h'.next ∧ ∀ y < h.next, y ≠ S.a → y ≠ S.b → (S.x = true → y ≠ S.c) → h'.mem y = h.mem y

/-- What a call of `Query` has to do. -/
def queryDone (Z : Sch) (S : Sit) (h : Heap) (v : Vals) (r : QRes × SB) : Prop :=
  match r with
  | (.panic, _) => v = .panic
  | (.ret s l, b) => ∃ w h', v = .ok ([.str s, w], h') ∧ argsOf w = some (l.map argVal) ∧ Others S h h' ∧ Holds Z { S with ast := astVal b.ast } b.mb h'

/-- The outcome of `Query` after a visit. -/
def visited (b : SB) (x : Node) : SRes → QRes × SB
  | .panic => (.panic, { b with ast := some x })
  | .err e mb => (.ret [] [], { b with ast := some x, mb := { mb with own := mb.own.addErr e } })
  | .ok mb => (.ret mb.own.sql mb.own.args, { b with ast := some x, mb := mb })

theorem queryDone_of {S0 : Sit} {g1 : Heap} {x : Node} {b : SB} (hx : S.ast = nodeVal x) (hS : S0.a = S.a ∧ S0.b = S.b ∧ S0.c = S.c ∧ S0.x = S.x ∧ { S0 with ast := nodeVal x } = S) (K0 : Others S0 h g) (A : SAt Z S g) (K : Keeps g g1) {r : SRes} (F : SFits S r) :
    queryDone Z S0 h (qOut S g1 r) (visited b x r) := by
  obtain ⟨ha, hb, hc, hx', hS⟩ := hS
  have ho : ∀ mb, Fits S mb → Others S0 h (sHeap S mb g1) := fun mb F =>
    ⟨by rw [sh_next]; exact Nat.le_trans K0.1 K.1, fun y hy h1 h2 h3 => by
      rw [sh_mem ⟨by rw [← hb]; exact h2, by rw [← hx', ← hc]; exact h3⟩ F, K.2 y (Nat.lt_of_lt_of_le hy K0.1), K0.2 y hy h1 h2 h3]⟩
  have e : ∀ b' : SB, b'.ast = some x → { S0 with ast := astVal b'.ast } = S := fun b' h => by rw [h]; exact hS
  cases r with
  | panic => rfl
  | ok mb =>
    refine ⟨_, _, rfl, rfl, ho mb F, ?_⟩
    rw [e _ rfl]
    exact holds_sHeap (A.keeps K) F
  | err er mb =>
    refine ⟨_, _, rfl, rfl, ho _ F, ?_⟩
    rw [e _ rfl]
    exact holds_sHeap (A.keeps K) F

/-- Running `Query`. -/
theorem squery_run {b : SB} (hq : S.q = b.query) (hn : S.node = b.node) (ha : S.ast = astVal b.ast) (H : Holds Z S b.mb h) {B : Nat}
    (h1 : ∀ x, b.ast = some x → Complete x ∧ lvl x < B) (h2 : b.ast = none → ∀ x, parse b.query = .ok x → lvl x < B)
    (hN : B + 7 ≤ N) (hn' : B + 3 ≤ n) (hD : B + 2 ≤ D) (hk : 2 * B + 1 ≤ k) :
    queryDone Z S h (sqCall Q N D p k n (.meth (.ptr S.a) c!"Query") [] h) (sQuery (senv p Z.G (!S.dis)) b) := by
  obtain ⟨n, rfl⟩ : ∃ n', n = n' + 2 := ⟨n - 2, by omega⟩
  have A := H.at_
  have hf := H.fits
  have run := fun S' => svisit_run (Q := Q) (N := N) (p := p) (Z := Z) B S' k (n + 1) D hk (by omega) hD (by omega)
  cases hb : b.ast with
  | some x =>
    obtain ⟨hc, hl⟩ := h1 x hb
    rw [hb] at ha
    obtain ⟨⟨g', K, R⟩, F⟩ := squery_ast (complete_ne hc) ha A hf (run S x hl hc h b.mb A hf)
    rw [H.eq] at R
    rw [R]
    have e : sQuery (senv p Z.G (!S.dis)) b = visited b x (svisit (senv p Z.G (!S.dis)) S.node x b.mb) := by
      rw [sQuery, hb, hn]
      simp only
      cases svisit (senv p Z.G (!S.dis)) b.node x b.mb <;> rfl
    rw [e]
    exact queryDone_of (b := b) (S0 := S) (g := h) ha ⟨rfl, rfl, rfl, rfl, by rw [← show S.ast = nodeVal x from ha]⟩ ⟨Nat.le_refl _, fun _ _ _ _ _ => rfl⟩ A K F
  | none =>
    rw [hb] at ha
    rcases (C01_parse_total b.query).1 with ⟨x, ex⟩ | ⟨er, ex⟩
    · have hc := C02_complete_tree _ _ ex
      obtain ⟨g', K, R⟩ := squery_parse (Q := Q) (N := N) (D := D) (p := p) (k := k) (n := n) ha A hf (hq.symm ▸ ex) (by omega)
      rw [H.eq] at R
      rw [R]
      have A1 := A.keeps K
      have A2 := parsed_at A1 x (node_ne A1)
      obtain ⟨⟨g1, K1, R1⟩, F⟩ := squery_ast (S := S.parsed x) (complete_ne hc) rfl A2 hf (run (S.parsed x) x (h2 hb x ex) hc _ b.mb A2 hf)
      rw [show (S.parsed x).a = S.a from rfl] at R1
      rw [R1]
      have e : sQuery (senv p Z.G (!S.dis)) b = visited b x (svisit (senv p Z.G (!(S.parsed x).dis)) (S.parsed x).node x b.mb) := by
        rw [sQuery, hb, show (S.parsed x).node = b.node from hn]
        simp only [ex, show (S.parsed x).dis = S.dis from rfl]
        cases svisit (senv p Z.G (!S.dis)) b.node x b.mb <;> rfl
      rw [e]
      refine queryDone_of (b := b) (S := S.parsed x) (S0 := S) (g := g'.put S.a ((S.parsed x).val Z)) rfl ⟨rfl, rfl, rfl, rfl, rfl⟩ ⟨K.1, fun y hy h1 _ _ => ?_⟩ A2 K1 F
      rw [put_mem_other _ _ h1, K.2 y hy]
    · obtain ⟨g', K, R⟩ := squery_fail (Q := Q) (N := N) (D := D) (p := p) (k := k) (n := n) ha A hf (hq.symm ▸ ex) (by omega)
      rw [H.eq] at R
      have e : sQuery (senv p Z.G (!S.dis)) b = (.ret [] [], { b with mb := { b.mb with own := b.mb.own.addErr (.parse er) } }) := by
        rw [sQuery, hb]
        simp only [ex]
      have hf' : Fits S { b.mb with own := b.mb.own.addErr (.parse er) } := hf
      rw [e, R]
      refine ⟨_, _, rfl, rfl, ⟨by rw [sh_next]; exact K.1, fun y hy _ hy2 hy3 => by rw [sh_mem ⟨hy2, hy3⟩ hf', K.2 y hy]⟩, ?_⟩
      have e1 : { S with ast := astVal b.ast } = S := by rw [hb, ← ha]
      show Holds Z { S with ast := astVal b.ast } _ _
      rw [e1]
      exact holds_sHeap (A.keeps K) hf'

end Verif.Mini
