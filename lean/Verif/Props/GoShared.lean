import Verif.Props.GoText
import Verif.Props.Errors

/-!
# C93: one parser object with one `Tree` for many queries

`Parse` (parse.go) makes a new parser object with a new `Tree` for each query.  Both are exported: a program may keep one object and its tree, and give it query after
query.  `goFeed` does for one query what the body of `Parse` does (`Init`, `Parse` and, if there is no syntax error, `Execute`) without making a new tree.  Nothing in these methods
clears the tree, so what a query adds comes on top of what is there.

Simplification: `Init` and `Parse` of the object are those of the library of C81 (`pegInit`, `pegRun`), also on an object that was used before.  `Init` then makes new variables, and
takes over the array of tokens, which `Parse` overwrites from its start (/repo/miniquery/miniquery.peg.go:449-493).  After a syntax error the tokens are not looked at.
-/

namespace Verif
open Mini

/-- Go on with a result. -/
def thenRun {α β : Type} (r : Mini.Res α) (f : α → Mini.Res β) : Mini.Res β :=
  match r with
  | .ok a => f a
  | .panic => .panic
  | .stuck => .stuck
  | .deep => .deep

/-- Set the field `Buffer` of the object at `a`. -/
def setBuffer (a : Nat) (q : Str) (h : Heap) : Heap :=
  match h.mem a with
  | .obj ty fs => h.put a (.obj ty (fset c!"Buffer" (.str q) fs))
  | _ => h

/-- Give a query to a parser object: set `Buffer`, call `Init` and `Parse`, and `Execute` if `Parse` returns nil.  The result is what `Parse` returns. -/
def goFeed (P : Prog) (L : Lib) (n a : Nat) (q : Str) (h : Heap) : Mini.Res (List Mini.Val × Heap) :=
  thenRun (call P L n (.meth (.ptr a) c!"Init") [] (setBuffer a q h)) fun r =>
  thenRun (call P L n (.meth (.ptr a) c!"Parse") [] r.2) fun r =>
  if r.1.any (fun v => same v .nil = some true) then
    thenRun (call P L n (.meth (.ptr a) c!"Execute") [] r.2) fun s => .ok (r.1, s.2)
  else .ok r

/-- Give queries to a parser object, one after the other. -/
def goFeeds (P : Prog) (L : Lib) (n a : Nat) : List Str → Heap → Mini.Res (List (List Mini.Val) × Heap)
  | [], h => .ok ([], h)
  | q :: qs, h => thenRun (goFeed P L n a q h) fun r => thenRun (goFeeds P L n a qs r.2) fun s => .ok (r.1 :: s.1, s.2)

/-- What a query adds to the tree of its parser object: nodes (the topmost last) and errors; and what `Parse` of the object returns. -/
inductive FeedAdds (q : Str) : List Node × List Err → List Mini.Val → Prop where
  | refused {b e : Nat} : parse q = .err (.syntax b e) → FeedAdds q ([], []) [errVal (.syntax b e)]
  | clean {p : List Node} {x : Node} : parse q = .ok x → (Balanced q false → p = []) → FeedAdds q (p ++ [x], []) [.nil]
  | bad {p : List Node} {x : Node} {e : Err} {es : List Err} : parse q = .err e → (∀ b c, e ≠ .syntax b c) → FeedAdds q (p ++ [x], e :: es) [.nil]

/-- Two lists of the same length whose entries are related. -/
inductive Paired {α β : Type} (R : α → β → Prop) : List α → List β → Prop where
  | nil : Paired R [] []
  | cons {x : α} {y : β} {l : List α} {m : List β} : R x y → Paired R l m → Paired R (x :: l) (y :: m)

section
variable {Q : Char → Bool} {n a b : Nat} {h : Heap}

theorem setBuffer_peg (hab : a ≠ b) {q q' : Str} {buf : List Mini.Val} {toks : Mini.Val} {t : Tree} :
    setBuffer a q' (pegHeap h a b q buf toks t) = pegHeap h a b q' buf toks t := by
  unfold setBuffer
  rw [pegHeap_mem hab]
  simp only [pegObj]
  have := pegHeap_put (h := h) (q := q) (buf := buf) (toks := toks) (t := t) hab q' buf toks
  simpa [pegObj, fset] using this

/-- The tokens of an accepted query and what they do to any tree. -/
theorem feed_cases (q : Str) :
    (∃ st, execN (mkBuf q) G (depthBound q.length) .Grammar initSt = .fail st ∧ parse q = .err (.syntax st.max.b st.max.e)) ∨
    ∃ st d, execN (mkBuf q) G (depthBound q.length) .Grammar initSt = .ok st ∧ ¬ st.tree.length < st.ti ∧
      (∀ k ∈ st.tree.take st.ti, k.b ≤ k.e ∧ k.e ≤ q.length) ∧ FeedAdds q d [.nil] ∧
      ∀ t, runEvs [] ((st.tree.take st.ti).filterMap (evOf q)) t = some (t.grow d.1 d.2) := by
  rcases execN_cases q with ⟨st, ex⟩ | ⟨st, ex, hti, hin⟩
  · exact .inl ⟨st, ex, by simp [parse, ex]⟩
  · right
    have hnd : denoteN G (depthBound q.length) .Grammar q ≠ .div := denoteN_ne_div _ _ _ (by show _ + 12 < _; unfold depthBound; omega)
    have hb := denoteN_big (G := G) (depthBound q.length) .Grammar q hnd
    have hm := execN_match G q (depthBound q.length) .Grammar initSt q (initSt_rel q)
    rcases parse_cases q with ⟨evs, hbig, hp⟩ | ⟨hbig, _⟩
    · cases hd : denoteN G (depthBound q.length) .Grammar q with
      | div => exact absurd hd hnd
      | fail => rw [hd] at hm; obtain ⟨st', ho, _⟩ := hm; rw [ex] at ho; cases ho
      | ok evs' rest =>
        rw [hd] at hm hb
        obtain ⟨st', toks, ho, hr, _, ht, he, _⟩ := hm
        rw [ex] at ho
        cases ho
        have hb' : Big G (.call .Grammar) q (some (evs', rest)) := hb
        have hdet := Big.det hbig hb'
        simp only [Option.some.injEq, Prod.mk.injEq] at hdet
        obtain ⟨rfl, -⟩ := hdet
        have ht' : st.tree.take st.ti = toks := by rw [ht]; rfl
        obtain ⟨aa, p, x, es, hbal, heff, _, _, hq⟩ := grammar_sound hbig
        have hall : ∀ t, runEvs [] ((st.tree.take st.ti).filterMap (evOf q)) t = some (t.grow (p ++ [x]) es) := by
          intro t
          rw [ht', he, runEvs_eq]
          obtain ⟨x', e⟩ := heff [] t
          rw [e]
          rfl
        refine ⟨st, (p ++ [x], es), ex, hti, hin, ?_, hall⟩
        rw [finish, heff.finish] at hp
        cases es with
        | nil =>
          refine .clean (by rw [hp]; simp [Tree.pop]) fun h0 => ?_
          have : aa = false := by
            unfold Balanced at hbal h0
            rw [h0] at hbal
            simpa using hbal.symm
          exact (hq this rfl).1
        | cons e es =>
          refine .bad hp fun b c hc => ?_
          have h1 := hall {}
          rw [ht', he] at h1
          have := runEvs_noSyntax h1 (by intro x hx; cases hx)
          exact this e (by simp [Tree.grow]) b c hc
    · cases hd : denoteN G (depthBound q.length) .Grammar q with
      | div => exact absurd hd hnd
      | fail => rw [hd] at hm; obtain ⟨st', ho, _⟩ := hm; rw [ex] at ho; cases ho
      | ok evs' rest =>
        rw [hd] at hb
        have hb' : Big G (.call .Grammar) q (some (evs', rest)) := hb
        have := Big.det hbig hb'
        simp at this

theorem feed_run (hab : a ≠ b) (q : Str) {q0 : Str} {buf : List Mini.Val} {toks : Mini.Val} (t : Tree) :
    ∃ toks' d r, FeedAdds q d r ∧ goFeed mq (mqLib Q) (n + 6) a q (pegHeap h a b q0 buf toks t) =
        .ok (r, pegHeap h a b q (runeVals q ++ [.int 1114112]) toks' (t.grow d.1 d.2)) ∧
      (r = [.nil] → ∀ t', mqCall Q (n + 6) (.meth (.ptr a) c!"Execute") [] (pegHeap h a b q (runeVals q ++ [.int 1114112]) toks' t') =
        .ok ([], pegHeap h a b q (runeVals q ++ [.int 1114112]) toks' (t'.grow d.1 d.2))) := by
  have hg : t.grow [] [] = t := by simp [Tree.grow]
  unfold goFeed
  rw [setBuffer_peg hab, show call mq (mqLib Q) (n + 6) = mqCall Q (n + 6) from rfl, init_run hab]
  simp only [thenRun]
  rw [pegParse_run hab]
  rcases feed_cases q with ⟨st, ex, hp⟩ | ⟨st, d, ex, hti, hin, hadd, hall⟩
  · refine ⟨toks, ([], []), _, .refused hp, ?_, fun hr => by cases hr⟩
    rw [ex, hg]
    rfl
  · refine ⟨.slice ((st.tree.take st.ti).map tokVal), d, _, hadd, ?_, fun _ t' => by rw [execute_run hab _ hin, hall t']⟩
    rw [ex]
    simp only [hti, if_false]
    rw [if_pos (by rfl), execute_run hab _ hin, hall t]

end

/-- C93: queries given one after the other to a parser object, whatever is in its tree: no call panics, each query adds its nodes and errors (`FeedAdds`) on top of those
that are there, a query with a syntax error adds nothing, and nothing else in memory changes. -/
theorem C93_feeds {P : Prog} (hP : goProgram = some P) (Q : Char → Bool) (n : Nat) (hn : 6 ≤ n) (h : Heap) {a b : Nat} (hab : a ≠ b) (qs : List Str) (q0 : Str)
    (buf : List Mini.Val) (toks : Mini.Val) (t : Tree) :
    ∃ q' buf' toks' ds rs, Paired (fun q (d : (List Node × List Err) × List Mini.Val) => FeedAdds q d.1 d.2) qs ds ∧ rs = ds.map (·.2) ∧
      goFeeds P (mqLib Q) n a qs (pegHeap h a b q0 buf toks t) = .ok (rs, pegHeap h a b q' buf' toks' {
        stack := (ds.flatMap fun d => d.1.1).reverse ++ t.stack, errors := t.errors ++ ds.flatMap fun d => d.1.2, marks := t.marks }) := by
  obtain ⟨n, rfl⟩ : ∃ n', n = n' + 6 := ⟨n - 6, by omega⟩
  rw [mq_of hP]
  induction qs generalizing q0 buf toks t with
  | nil => exact ⟨q0, buf, toks, [], [], .nil, rfl, by simp [goFeeds]⟩
  | cons q qs ih =>
    obtain ⟨toks1, d, r, ha, e, -⟩ := feed_run (Q := Q) (n := n) (h := h) hab q (q0 := q0) (buf := buf) (toks := toks) t
    obtain ⟨q', buf', toks', ds, rs, hds, hrs, e'⟩ := ih q (runeVals q ++ [.int 1114112]) toks1 (t.grow d.1 d.2)
    refine ⟨q', buf', toks', (d, r) :: ds, r :: rs, .cons ha hds, by simp [hrs], ?_⟩
    simp only [goFeeds, e, thenRun, e']
    simp [Tree.grow]

/-- C93: if `Parse` returns a tree for each of the queries, and they have no `->`, the stack of the shared tree then holds these trees in order, on top of what was there. -/
theorem C93_trees {P : Prog} (hP : goProgram = some P) (Q : Char → Bool) (n : Nat) (hn : 6 ≤ n) (h : Heap) {a b : Nat} (hab : a ≠ b) (q0 : Str)
    (buf : List Mini.Val) (toks : Mini.Val) (t : Tree) {qs : List Str} {xs : List Node}
    (hq : Paired (fun q x => parse q = .ok x ∧ Balanced q false) qs xs) :
    ∃ q' buf' toks' rs, goFeeds P (mqLib Q) n a qs (pegHeap h a b q0 buf toks t) =
      .ok (rs, pegHeap h a b q' buf' toks' { t with stack := xs.reverse ++ t.stack }) := by
  obtain ⟨q', buf', toks', ds, rs, hds, -, e⟩ := C93_feeds hP Q n hn h hab qs q0 buf toks t
  refine ⟨q', buf', toks', rs, ?_⟩
  have : (ds.flatMap fun d => d.1.1) = xs ∧ (ds.flatMap fun d => d.1.2) = [] := by
    clear e
    induction hq generalizing ds with
    | nil => cases hds; exact ⟨rfl, rfl⟩
    | cons h1 _ ih =>
      cases hds with
      | @cons _ d _ _ h2 h3 =>
        obtain ⟨i1, i2⟩ := ih _ h3
        obtain ⟨⟨d1, d2⟩, d3⟩ := d
        replace h2 : FeedAdds _ (d1, d2) d3 := h2
        cases h2 with
        | refused hp => rw [h1.1] at hp; cases hp
        | clean hp hb =>
          rw [h1.1] at hp
          cases hp
          simp [hb h1.2, i1, i2]
        | bad hp => rw [h1.1] at hp; cases hp
  rw [e, this.1, this.2]
  simp

/-- C93: an error stays: if `Parse` returns an error other than a syntax error for a query, then this error is the first in `Errors` of a tree that had none,
whatever queries follow. -/
theorem C93_stale {P : Prog} (hP : goProgram = some P) (Q : Char → Bool) (n : Nat) (hn : 6 ≤ n) (h : Heap) {a b : Nat} (hab : a ≠ b) (q0 : Str)
    (buf : List Mini.Val) (toks : Mini.Val) (t : Tree) (ht : t.errors = []) {q : Str} {e : Err} (he : parse q = .err e) (hs : ∀ b c, e ≠ .syntax b c) (qs : List Str) :
    ∃ rs h' t', goFeeds P (mqLib Q) n a (q :: qs) (pegHeap h a b q0 buf toks t) = .ok (rs, h') ∧ h'.mem b = treeVal t' ∧ t'.errors.head? = some e := by
  obtain ⟨q', buf', toks', ds, rs, hds, -, e'⟩ := C93_feeds hP Q n hn h hab (q :: qs) q0 buf toks t
  refine ⟨rs, _, _, e', put_mem_same .., ?_⟩
  cases hds with
  | @cons _ d _ _ h1 h2 =>
    obtain ⟨⟨d1, d2⟩, d3⟩ := d
    replace h1 : FeedAdds _ (d1, d2) d3 := h1
    cases h1 with
    | refused hp => rw [he] at hp; cases hp; exact absurd rfl (hs _ _)
    | clean hp => rw [he] at hp; cases hp
    | bad hp => rw [he] at hp; cases hp; simp [ht]

/-- C93: calling `Execute` again, without a new query, adds the nodes and the errors of the query again, each time. -/
theorem C93_again {P : Prog} (hP : goProgram = some P) (Q : Char → Bool) (n : Nat) (hn : 6 ≤ n) (h : Heap) {a b : Nat} (hab : a ≠ b) (q q0 : Str)
    (buf : List Mini.Val) (toks : Mini.Val) (t : Tree) (hq : ∀ b c, parse q ≠ .err (.syntax b c)) :
    ∃ d, ∃ H : Tree → Heap, FeedAdds q d [.nil] ∧ goFeed P (mqLib Q) n a q (pegHeap h a b q0 buf toks t) = .ok ([.nil], H { t with
        stack := d.1.reverse ++ t.stack, errors := t.errors ++ d.2 }) ∧
      ∀ t', (H t').mem b = treeVal t' ∧
        call P (mqLib Q) n (.meth (.ptr a) c!"Execute") [] (H t') = .ok ([], H { t' with stack := d.1.reverse ++ t'.stack, errors := t'.errors ++ d.2 }) := by
  obtain ⟨n, rfl⟩ : ∃ n', n = n' + 6 := ⟨n - 6, by omega⟩
  rw [mq_of hP]
  obtain ⟨toks1, d, r, ha, e, hx⟩ := feed_run (Q := Q) (n := n) (h := h) hab q (q0 := q0) (buf := buf) (toks := toks) t
  have hr : r = [.nil] := by
    cases ha with
    | refused hp => exact absurd hp (hq _ _)
    | clean => rfl
    | bad => rfl
  subst hr
  exact ⟨d, fun t' => pegHeap h a b q (runeVals q ++ [.int 1114112]) toks1 t', ha, e, fun t' => ⟨put_mem_same .., hx rfl t'⟩⟩

example : parse c!"a" = .ok (.ident c!"a") ∧ Balanced c!"a" false := ⟨by decide +kernel, rfl⟩
example : parse c!"99999999999999999999" = .err (.intRange c!"99999999999999999999") := by decide +kernel

/-- Two queries on a new object and tree: the stack has both trees. -/
example (h : Heap) : ∃ q' buf' toks' rs, goFeeds mq (mqLib fun _ => false) 6 1 [c!"a", c!"b=1"] (pegHeap h 1 0 [] [] .nil {}) =
    .ok (rs, pegHeap h 1 0 q' buf' toks' { stack := [.cmp (.ident c!"b") (.op c!"eq") (.int 1), .ident c!"a"] }) :=
  C93_trees C81_program _ 6 (by decide) h (by decide) [] [] .nil {} (xs := [.ident c!"a", .cmp (.ident c!"b") (.op c!"eq") (.int 1)])
    (.cons ⟨by decide +kernel, rfl⟩ (.cons ⟨by decide +kernel, rfl⟩ .nil))

end Verif
