import Verif.Mini.SqEdge2

/-! # Running /repo/entmq/entsql.go: `has_edge` does what the model says -/

namespace Verif.Mini
open Verif

variable {Q : Char → Bool} {N n k kk D m e : Nat} {h g g0 g' : Heap} {p : SPar} {S : Sit} {mb : MB} {Z : Sch}

theorem edge_err {C : Val → List Val → Heap → Vals} {x : Node} {f : Flow} (hf' : f = .norm ∨ f = .brk) (ys : Locals) (I : SIn Z S g0 m e g) (hf : Fits S mb) (er : SErr) :
    SDone S g0 (edgeEnd C (.ok (f, ys ++ sLocals S m e x, sHeap S mb (g.put e (sErrVal er))))) (.err er mb) := by
  refine ⟨⟨g.put e (sErrVal er), skeeps_put I.keeps I.e0 _, ?_⟩, hf⟩
  rw [edgeEnd_ok hf', sin_e (sin_in I _) hf, put_mem_same]
  rfl

theorem edge_ok {C : Val → List Val → Heap → Vals} {x : Node} (ys : Locals) (I : SIn Z S g0 m e g) (hf : Fits S mb) (hz : g.mem e = .nil) :
    SDone S g0 (edgeEnd C (.ok (.norm, ys ++ sLocals S m e x, sHeap S mb g))) (.ok mb) := by
  refine ⟨⟨g, I.keeps, ?_⟩, hf⟩
  rw [edgeEnd_ok (.inl rfl), sin_e I hf, hz]
  rfl

theorem sin_put (I : SIn Z S g0 m e g) {q : Nat} (hq : g0.next ≤ q) (h1 : m ≠ q) (v) : SIn Z S g0 m e (g.put q v) where
  at0 := I.at0
  keeps := skeeps_put I.keeps hq v
  m0 := I.m0
  e0 := I.e0
  lm := I.lm
  le := I.le
  me := I.me
  hm := by rw [put_mem_other _ _ h1, I.hm]

/-- The edge of the model. -/
def senvEdge (p : SPar) (G : Nat → FNode) (t : Nat) (fe : FEdge) : SEdge :=
  { to := fe.to, has := p.has (stepVal G (G t) fe), pre := p.pre (stepVal G (G t) fe), post := p.post (stepVal G (G t) fe) }

theorem senv_lookup (G : Nat → FNode) (b : Bool) (t : Nat) (s : Str) : ((senv p G b).edges t).lookup s = ((G t).edges.lookup s).map (senvEdge p G t) := by
  show ((G t).edges.map fun kv => (kv.1, senvEdge p G t kv.2)).lookup s = _
  induction (G t).edges with
  | nil => rfl
  | cons kv l ih =>
    obtain ⟨a, b⟩ := kv
    simp only [List.map_cons, List.lookup_cons]
    cases s == a <;> simp [ih]

theorem lookup_mem {β : Type} {s : Str} {v : β} {l : List (Str × β)} (h : l.lookup s = some v) : (s, v) ∈ l := by
  induction l with
  | nil => cases h
  | cons kv l ih =>
    obtain ⟨a, b⟩ := kv
    rw [List.lookup_cons] at h
    cases hs : s == a with
    | true => rw [hs] at h; cases h; have := eq_of_beq hs; subst this; simp
    | false => rw [hs] at h; exact List.mem_cons_of_mem _ (ih h)

theorem complete_ne {x : Node} (h : Complete x) : x ≠ .nil := by rintro rfl; cases h

theorem sv_edge (l) (I : SIn Z S g0 m e g) (hf : Fits S mb) (hz : g.mem e = .nil) (ihE : ∀ S', SBelow Q N (D + 3) p Z S' k (D + 2) kk) (hl : lvl (.func c!"has_edge" l) ≤ kk) (hc : ∀ x ∈ l, Complete x)
    (hN : lvl (.func c!"has_edge" l) + 3 ≤ N) :
    SDone S g0 (sVisitAt (sqCall Q N (D + 3) p (k + 2) (n + 2)) 5 scase_function (sLocals S m e (.func c!"has_edge" l)) (sHeap S mb g)) (svisit (senv p Z.G (!S.dis)) S.node (.func c!"has_edge" l) mb) := by
  have sv : svisit (senv p Z.G (!S.dis)) S.node (.func c!"has_edge" l) mb = sEdge (senv p Z.G (!S.dis)) S.node l (fun t mb' => svisit2 (senv p Z.G (!S.dis)) (some t) l mb') mb := by
    rw [svisit, if_neg (by decide), if_pos rfl]
  rw [sv, edge_start rfl, edge1 rfl I.at_ hf]
  have I1 := I.keep (keeps_alloc (.slice (nodeVals l)))
  have c1 := cell_new I.keeps (.slice (nodeVals l))
  have hz1 : (g.alloc (.slice (nodeVals l))).mem e = .nil := by rw [alloc_mem_old I.le, hz]
  have l1 : g.next < (g.alloc (.slice (nodeVals l))).next := by rw [salloc_next]; omega
  generalize hg1 : g.alloc (.slice (nodeVals l)) = g1 at I1 c1 hz1 l1
  cases l with
  | nil =>
    rw [edge2_none c1 I1 hf]
    exact edge_err (.inr rfl) [(c!"params", .box g.next)] I1 hf .edgeParams
  | cons pn rest =>
    have hp := complete_ne (hc pn (by simp))
    have hv : (nodeVals (pn :: rest))[0]? = some (nodeVal pn) := rfl
    simp only [sEdge]
    by_cases hn : nodeName pn = []
    · rw [edge2_empty c1 hv hp hn I1 hf, if_pos hn]
      exact edge_err (.inr rfl) [(c!"params", .box g.next)] I1 hf .edgeParams
    · rw [edge2 c1 hv hp hn I1 hf, if_neg hn]
      cases hnode : S.node with
      | none =>
        rw [edge3_nil hnode I1 hf]
        exact ⟨⟨g, I.keeps, rfl⟩, trivial⟩
      | some t =>
        rw [edge34 hnode I1 hf]
        have ht := I.at0.node t hnode
        generalize hsv : Val.obj c!"sql.SelectTable" [(c!"name", (Z.G t).table), (c!"schema", (Z.G t).schema)] = fr
        have I2 := (I1.keep (keeps_alloc (selectorVal mb.own.dialect fr .nil))).keep (keeps_alloc (.ptr g1.next))
        have c1' := (c1.alloc (selectorVal mb.own.dialect fr .nil)).alloc (.ptr g1.next)
        have cs := (cell_new I1.keeps (selectorVal mb.own.dialect fr .nil)).alloc (.ptr g1.next)
        have c2 := cell_new (I1.keep (keeps_alloc (selectorVal mb.own.dialect fr .nil))).keeps (.ptr g1.next)
        rw [salloc_next] at c2
        have hz2 : ((g1.alloc (selectorVal mb.own.dialect fr .nil)).alloc (.ptr g1.next)).mem e = .nil := by
          have := I1.le
          rw [alloc_mem_old (by rw [salloc_next]; omega), alloc_mem_old this, hz1]
        have l2 : ((g1.alloc (selectorVal mb.own.dialect fr .nil)).alloc (.ptr g1.next)).next = g1.next + 2 := by rw [salloc_next, salloc_next]
        generalize hg2 : (g1.alloc (selectorVal mb.own.dialect fr .nil)).alloc (.ptr g1.next) = g2 at I2 c1' cs c2 hz2 l2
        simp only [senv_lookup]
        cases hk : (Z.G t).edges.lookup (nodeName pn) with
        | none =>
          rw [edge5_none c1' hv hp hk ht I2 hf]
          exact edge_err (.inr rfl) [(c!"ok", .val (.bool false)), (c!"edge", .box g2.next), (c!"builder", .box (g1.next + 1)), (c!"tab", .val (.ptr (Z.nd t))), (c!"params", .box g.next)] (I2.keep (keeps_alloc .nil)) hf _
        | some fe =>
          rw [edge5 c1' hv hp hk ht I2 hf]
          have ht' : Z.T fe.to := Z.closed t ht _ (lookup_mem hk)
          have I3 := I2.keep (keeps_alloc (edgeVal Z.nd fe))
          have c3 := cell_new I2.keeps (edgeVal Z.nd fe)
          have d1 := c1'.alloc (edgeVal Z.nd fe)
          have ds := cs.alloc (edgeVal Z.nd fe)
          have d2 := c2.alloc (edgeVal Z.nd fe)
          have hz3 : (g2.alloc (edgeVal Z.nd fe)).mem e = .nil := by rw [alloc_mem_old I2.le, hz2]
          have l3 : (g2.alloc (edgeVal Z.nd fe)).next = g1.next + 3 := by rw [salloc_next, l2]
          have me : m ≠ g1.next := Nat.ne_of_lt I1.lm
          have ee : e ≠ g1.next := Nat.ne_of_lt I1.le
          generalize hg3 : g2.alloc (edgeVal Z.nd fe) = g3 at I3 c3 d1 ds d2 hz3 l3
          simp only [Option.map_some]
          match rest, hc, hl, hN, d1 with
          | [], hc, hl, hN, d1 =>
            rw [edge7_one d1 d2 ds c3 ht ht' I3 hf]
            simp only
            have I4 := sin_put I3 ds.le me (selectorVal mb.own.dialect fr (.obj c!"sql.Predicate" [(c!"step", stepVal Z.G (Z.G t) fe)]))
            have e2 := d2.put (r := g1.next) (by omega) (selectorVal mb.own.dialect fr (.obj c!"sql.Predicate" [(c!"step", stepVal Z.G (Z.G t) fe)]))
            have es : Cell g0 g1.next (g3.put g1.next (selectorVal mb.own.dialect fr (.obj c!"sql.Predicate" [(c!"step", stepVal Z.G (Z.G t) fe)]))) _ := ⟨ds.le, ds.lt, put_mem_same ..⟩
            have hz4 : (g3.put g1.next (selectorVal mb.own.dialect fr (.obj c!"sql.Predicate" [(c!"step", stepVal Z.G (Z.G t) fe)]))).mem e = .nil := by rw [put_mem_other _ _ ee, hz3]
            rw [edge8 rfl hz4 e2 es I4 hf _ (sl_JoinHas I4.at_ hf _)]
            exact edge_ok [(c!"ok", .val (.bool true)), (c!"edge", .box g2.next), (c!"builder", .box (g1.next + 1)), (c!"tab", .val (.ptr (Z.nd t))), (c!"params", .box g.next)] I4 (by rw [fits_join]; exact hf) hz4
          | [c], hc, hl, hN, d1 =>
            have hcc := hc c (by simp)
            have hcx := complete_ne hcc
            simp only [lvl, lvls] at hl hN
            simp only
            cases hi : isExpression c with
            | true =>
              rw [edge7_two d1 hcx hi (by omega) d2 ds c3 ht ht' I3 hf]
              generalize hw : Val.obj c!"sql.Predicate" [(c!"step", stepVal Z.G (Z.G t) fe), (c!"fn", edgeCond2 S m e (.func c!"has_edge" [pn, c]) g.next (g1.next + 1) g2.next (Z.nd t) g3.next)] = w
              generalize selectorVal mb.own.dialect .nil (.obj c!"sql.Predicate" [(c!"fn", edgeCond2 S m e (.func c!"has_edge" [pn, c]) g.next (g1.next + 1) g2.next (Z.nd t) g3.next)]) = w'
              have I4 := sin_put (I3.keep (keeps_alloc w')) ds.le me (selectorVal mb.own.dialect fr w)
              have e1 := (d1.alloc w').put (r := g1.next) (by omega) (selectorVal mb.own.dialect fr w)
              have e2 := (d2.alloc w').put (r := g1.next) (by omega) (selectorVal mb.own.dialect fr w)
              have e3 := (c3.alloc w').put (r := g1.next) (by omega) (selectorVal mb.own.dialect fr w)
              have es : Cell g0 g1.next ((g3.alloc w').put g1.next (selectorVal mb.own.dialect fr w)) (selectorVal mb.own.dialect fr w) := ⟨ds.le, (ds.alloc w').lt, put_mem_same ..⟩
              have hz4 : ((g3.alloc w').put g1.next (selectorVal mb.own.dialect fr w)).mem e = .nil := by rw [put_mem_other _ _ ee, alloc_mem_old I3.le, hz3]
              generalize hg4 : (g3.alloc w').put g1.next (selectorVal mb.own.dialect fr w) = g4 at I4 e1 e2 e3 es hz4
              subst hw
              simp only [if_true, joinEdge_after, svisit2, svisit1]
              rcases sl_JoinWith (n := n + 1) (x := .func c!"has_edge" [pn, c]) (q2 := g1.next + 1) (q5 := g3.next) (a0 := Z.nd t) (step := stepVal Z.G (Z.G t) fe) I4 hf e1 e3 ht' hcc hcx (ihE _) (by omega) with ⟨ea, R⟩ | ⟨s, ls, mb', g', ea, K, R⟩
              · rw [edge8_panic rfl hz4 e2 es I4 hf _ R, edgeEnd_panic]
                simp only [fresh] at ea
                rw [show (senvEdge p Z.G t fe).to = fe.to from rfl, ea]
                exact ⟨⟨g, I.keeps, rfl⟩, trivial⟩
              · rw [edge8 rfl hz4 e2 es I4 hf _ R]
                simp only [fresh] at ea
                rw [show (senvEdge p Z.G t fe).to = fe.to from rfl, ea]
                exact edge_ok [(c!"ok", .val (.bool true)), (c!"edge", .box g2.next), (c!"builder", .box (g1.next + 1)), (c!"tab", .val (.ptr (Z.nd t))), (c!"params", .box g.next)] (I4.keep K) (by rw [fits_join]; exact hf)
                  (by rw [K.2 e I4.le, hz4])
            | false =>
              obtain ⟨g', K, R⟩ := edge7_cond (Q := Q) (N := N) (D := D + 3) (p := p) (k := k + 2) (n := n) (q2 := g1.next + 1) (q3 := g2.next) (x := .func c!"has_edge" [pn, c]) d1 hcc hcx hi (by omega) I3 hf (Z.nd t)
              rw [R, edge8_err (put_mem_same ..) (sin_in (I3.keep K) _) hf]
              exact edge_err (.inl rfl) [(c!"ok", .val (.bool true)), (c!"edge", .box g2.next), (c!"builder", .box (g1.next + 1)), (c!"tab", .val (.ptr (Z.nd t))), (c!"params", .box g.next)] (I3.keep K) hf _
          | c :: c' :: r, hc, hl, hN, d1 =>
            rw [edge7_many d1 (by simp only [nodeVals, List.length_cons]; omega) (by simp only [nodeVals, List.length_cons]; omega) I3 hf, edge8_err (put_mem_same ..) (sin_in I3 _) hf]
            exact edge_err (.inl rfl) [(c!"ok", .val (.bool true)), (c!"edge", .box g2.next), (c!"builder", .box (g1.next + 1)), (c!"tab", .val (.ptr (Z.nd t))), (c!"params", .box g.next)] I3 hf _

end Verif.Mini
