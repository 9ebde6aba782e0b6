import Verif.Tokens
import Verif.Props.Errors

/-! # Tokens, syntax trees and reuse of parser objects (C44, C49, C50) -/

namespace Verif

theorem staleSt_rel (s : Str) (tree0 : List Tok) : Rel s { initSt with tree := tree0 } s :=
  ⟨Nat.zero_le _, rfl, Nat.zero_le _, Nat.le_refl _, Nat.zero_le _⟩

theorem initSt_clear (s : Str) : Clear s initSt := ⟨(by intro t ht; cases ht), .inr ⟨rfl, rfl⟩⟩

/-- A run of a parser object, whatever its token array holds. -/
theorem pegParse_cases (s : Str) (tree0 : List Tok) :
    (∃ st ts ev, execN (mkBuf s) G (depthBound s.length) .Grammar { initSt with tree := tree0 } = .ok st ∧ st.tree.take st.ti = ts ∧
      pegParse s tree0 = .ok ts st.tree ∧ Big G (.call .Grammar) s (some (ev, [])) ∧ ts.filterMap (evOf s) = ev ∧
      (∀ t ∈ ts, t.b ≤ t.e ∧ t.e ≤ s.length)) ∨
    (∃ st, execN (mkBuf s) G (depthBound s.length) .Grammar { initSt with tree := tree0 } = .fail st ∧
      pegParse s tree0 = .err st.max st.tree ∧ Big G (.call .Grammar) s none ∧ st.max.b ≤ st.max.e ∧ st.max.e ≤ s.length) := by
  have hnd : denoteN G (depthBound s.length) .Grammar s ≠ .div :=
    denoteN_ne_div _ _ _ (by show _ + 12 < _; unfold depthBound; omega)
  have hb := denoteN_big (G := G) (depthBound s.length) .Grammar s hnd
  have hm := execN_match G s (depthBound s.length) .Grammar _ s (staleSt_rel s tree0)
  cases hd : denoteN G (depthBound s.length) .Grammar s with
  | div => exact absurd hd hnd
  | fail =>
    rw [hd] at hm hb
    obtain ⟨st', ho, hf⟩ := hm
    exact .inr ⟨_, ho, by rw [pegParse, ho], hb, hf.maxb, hf.maxe⟩
  | ok ev r =>
    rw [hd] at hm hb
    obtain ⟨st', toks, ho, hr, _, ht, he, hin⟩ := hm
    have hb' : Big G (.call .Grammar) s (some (ev, r)) := hb
    obtain rfl : r = [] := by
      rcases parse_cases s with ⟨evs, hb2, _⟩ | ⟨hb2, _⟩
      · have := hb'.det hb2; cases this; rfl
      · have := hb'.det hb2; cases this
    have ht' : st'.tree.take st'.ti = toks := by simpa [initSt] using ht
    refine .inl ⟨st', toks, ev, ho, ht', ?_, hb', he, hin⟩
    rw [pegParse, ho]
    simp only
    rw [if_neg (by have := hr.ti_le; omega), ht']

/-- `Parse` runs a new parser object. -/
theorem parse_peg (s : Str) : parse s = (({} : Peg).query s).1 := by
  have hx : ({ initSt with tree := [] } : St) = initSt := rfl
  unfold Peg.query pegParse parse
  rw [show ({} : Peg).toks = [] from rfl, hx]
  cases execN (mkBuf s) G (depthBound s.length) .Grammar initSt with
  | div => rfl
  | panic => rfl
  | fail st => rfl
  | ok st =>
    simp only
    by_cases h : st.tree.length < st.ti
    · rw [if_pos h, if_pos h]
    · rw [if_neg h, if_neg h]
      simp only [execute]
      by_cases hin : ∀ t ∈ st.tree.take st.ti, t.b ≤ t.e ∧ t.e ≤ s.length
      · rw [if_pos hin, if_pos hin]
        cases runEvs [] ((st.tree.take st.ti).filterMap (evOf s)) {} with
        | none => rfl
        | some t => cases he : t.errors <;> simp [he]
      · rw [if_neg hin, if_neg hin]

/-! ## C50: reuse -/

/-- C50: after Reset, the tokens of an accepted query, or the token reported for a rejected one, do not depend on what the parser object
did before. -/
theorem C50_tokens (s : Str) (tree0 tree1 : List Tok) :
    (∃ ts a b, pegParse s tree0 = .ok ts a ∧ pegParse s tree1 = .ok ts b) ∨ (∃ m a b, pegParse s tree0 = .err m a ∧ pegParse s tree1 = .err m b) := by
  have hs := execN_sim (mkBuf s) G (depthBound s.length) .Grammar { initSt with tree := tree0 } { initSt with tree := tree1 }
    ⟨rfl, rfl, Nat.zero_le _, Nat.zero_le _⟩
  rcases pegParse_cases s tree0 with ⟨st, ts, ev, ho, ht, hp, hb, _⟩ | ⟨st, ho, hp, hb, _⟩ <;>
    rcases pegParse_cases s tree1 with ⟨st', ts', ev', ho', ht', hp', hb', _⟩ | ⟨st', ho', hp', hb', _⟩
  · rw [ho, ho'] at hs
    obtain ⟨_, _, us, h1, h2, _⟩ := hs
    have e1 : ts = us := by have := h1.tree; rw [ht] at this; simpa [initSt] using this
    have e2 : ts' = us := by have := h2.tree; rw [ht'] at this; simpa [initSt] using this
    rw [e1] at hp; rw [e2] at hp'
    exact .inl ⟨us, _, _, hp, hp'⟩
  · have := hb.det hb'; cases this
  · have := hb.det hb'; cases this
  · rw [ho, ho'] at hs
    rw [hs.1] at hp
    exact .inr ⟨_, _, _, hp, hp'⟩

/-- Whether the parser object has collected an error (an integer out of range) earlier. -/
def Peg.tainted (p : Peg) : Option Err := p.tree.errors.head?

/-- C50: a parser object that has not collected an error answers every query as a new one does; otherwise it answers every syntactically
correct query with the old error. -/
theorem C50_query (p : Peg) (s : Str) :
    (p.query s).1 = match p.tainted, parse s with
      | none, r => r
      | some _, .err (.syntax b e) => .err (.syntax b e)
      | some x, _ => .err x := by
  have hq : parse s = (({} : Peg).query s).1 := parse_peg s
  have hsyn := finish_not_syntax
  rcases C50_tokens s p.toks [] with ⟨ts, a, b, h0, h1⟩ | ⟨m, a, b, h0, h1⟩
  · rcases pegParse_cases s p.toks with ⟨st, ts', ev, _, ht, hp, hb, he, hin⟩ | ⟨st, _, hp, _⟩
    · rw [hp] at h0; cases h0
      obtain ⟨_, q, n, es, _, heff, _⟩ := grammar_sound hb
      have run : ∀ t, runEvs [] ev t = some (t.grow (q ++ [n]) es) := by
        intro t
        obtain ⟨x, hx⟩ := heff [] t
        rw [runEvs_eq, hx]; rfl
      have hs : ∀ p : Peg, ∀ a, pegParse s p.toks = .ok ts a → (p.query s).1 = match (p.tree.errors ++ es).head? with
          | some x => .err x
          | none => .ok n := by
        intro p a h
        unfold Peg.query
        rw [h]
        simp only
        rw [if_pos hin, he, run]
        simp only [Tree.grow]
        cases hx : p.tree.errors ++ es with
        | nil => simp [Tree.pop]
        | cons y ys => simp
      have h2 := hs {} _ h1
      rw [hs p _ hp, hq, h2]
      unfold Peg.tainted
      cases hpe : p.tree.errors with
      | nil => rfl
      | cons x xs =>
        simp only [List.cons_append, List.head?_cons]
        cases hes : es with
        | nil => rfl
        | cons y ys =>
          simp only [List.nil_append, List.head?_cons]
          cases y with
          | «syntax» b e =>
            exfalso
            refine hsyn ev b e ?_
            rw [finish, run]
            simp [Tree.grow, hes]
          | _ => rfl
    · rw [hp] at h0; cases h0
  · have e0 : (p.query s).1 = .err (.syntax m.b m.e) := by unfold Peg.query; rw [h0]
    have e1 : (({} : Peg).query s).1 = .err (.syntax m.b m.e) := by unfold Peg.query; rw [show ({} : Peg).toks = [] from rfl, h1]
    rw [e0, hq, e1]
    cases p.tainted <;> rfl

/-- The error of an accepted text whose values are wrong. -/
def valueErr : ParseRes → Option Err
  | .err (.syntax _ _) => none
  | .err e => some e
  | _ => none

theorem query_tainted (p : Peg) (s : Str) : (p.query s).2.tainted = p.tainted.or (valueErr (parse s)) := by
  have hq : parse s = (({} : Peg).query s).1 := parse_peg s
  have hsyn := finish_not_syntax
  rcases C50_tokens s p.toks [] with ⟨ts, a, b, h0, h1⟩ | ⟨m, a, b, h0, h1⟩
  · rcases pegParse_cases s p.toks with ⟨st, ts', ev, _, ht, hp, hb, he, hin⟩ | ⟨st, _, hp, _⟩
    · rw [hp] at h0; cases h0
      obtain ⟨_, q, n, es, _, heff, _⟩ := grammar_sound hb
      have run : ∀ t, runEvs [] ev t = some (t.grow (q ++ [n]) es) := by
        intro t
        obtain ⟨x, hx⟩ := heff [] t
        rw [runEvs_eq, hx]; rfl
      have h2 : (({} : Peg).query s).1 = match (generalizing := false) es with | x :: _ => .err x | [] => .ok n := by
        unfold Peg.query
        rw [show ({} : Peg).toks = [] from rfl, h1]
        simp only
        rw [if_pos hin, he, run]
        cases es <;> simp [Tree.grow, Tree.pop]
      have h3 : (p.query s).2.tree.errors = p.tree.errors ++ es := by
        unfold Peg.query
        rw [hp]
        simp only
        rw [if_pos hin, he, run]
        simp only [Tree.grow]
        cases hx : p.tree.errors ++ es with
        | nil => simp [Tree.pop]
        | cons y ys => simp
      rw [hq, h2]
      unfold Peg.tainted
      rw [h3]
      cases p.tree.errors with
      | cons x xs => rfl
      | nil =>
        cases hes : es with
        | nil => rfl
        | cons y ys =>
          cases y with
          | «syntax» b e =>
            exfalso
            refine hsyn ev b e ?_
            rw [finish, run]
            simp [Tree.grow, hes]
          | _ => rfl
    · rw [hp] at h0; cases h0
  · have e0 : (p.query s).2.tree = p.tree := by unfold Peg.query; rw [h0]
    have e1 : (({} : Peg).query s).1 = .err (.syntax m.b m.e) := by unfold Peg.query; rw [show ({} : Peg).toks = [] from rfl, h1]
    unfold Peg.tainted
    rw [e0, hq, e1]
    cases p.tree.errors <;> rfl

/-- The answers to a sequence of queries put to one parser object. -/
def Peg.queries : Peg → List Str → List ParseRes
  | _, [] => []
  | p, s :: l => (p.query s).1 :: (p.query s).2.queries l

/-- C50 for a whole history: as long as no query has an integer out of range, a single parser object answers all of them as `Parse` does. -/
theorem C50_history_partial (l : List Str) (h : ∀ s ∈ l, valueErr (parse s) = none) : ∀ p : Peg, p.tainted = none → p.queries l = l.map parse := by
  induction l with
  | nil => intro p _; rfl
  | cons s l ih =>
    intro p hp
    have hv := h s (by simp)
    rw [Peg.queries, List.map_cons, C50_query, hp, ih (fun x hx => h x (by simp [hx])) _ (by rw [query_tainted, hp, hv]; rfl)]

/-- C50 in full is false: errors are not cleared by Reset. -/
theorem C50_errors_kept_refuted :
    ({} : Peg).queries [c!"a = 9223372036854775808", c!"a = 1"] = [.err (.intRange c!"9223372036854775808"), .err (.intRange c!"9223372036854775808")] ∧
    parse c!"a = 1" = .ok (.cmp (.ident c!"a") (.op c!"eq") (.int 1)) := by decide +kernel

example : ({} : Peg).queries [c!"a = (1, 2", c!"b", c!"1 = a->b", c!"a"] = [c!"a = (1, 2", c!"b", c!"1 = a->b", c!"a"].map parse := by decide +kernel

/-! ## C49: syntax trees -/

/-- C49: the tokens of an accepted query are pieces that their rules recognise, and `AST` builds from them one tree: its root is the whole
query, the children of every node lie inside it, side by side and in order, and the tree contains exactly the non-empty tokens. -/
theorem C49_tree (s : Str) (tree0 ts tr : List Tok) (h : pegParse s tree0 = .ok ts tr) :
    (∀ t ∈ ts, TokOk s t) ∧
    ∃ up, ast ts = some (.mk ⟨.rule .Grammar, 0, s.length⟩ up) ∧ Forest 0 s.length up ∧
      (N32.mk ⟨.rule .Grammar, 0, s.length⟩ up).post = ts.filter fun t => decide (t.b ≠ t.e) := by
  obtain ⟨tr', hp⟩ : ∃ tr', pegParse s [] = .ok ts tr' := by
    rcases C50_tokens s tree0 [] with ⟨us, a, b, h0, h1⟩ | ⟨m, a, b, h0, h1⟩
    · rw [h0] at h; cases h; exact ⟨_, h1⟩
    · rw [h0] at h; cases h
  rcases pegParse_cases s [] with ⟨st, us, ev, ho, ht, hp', hb, he, hin⟩ | ⟨st, _, hp', _⟩
  · rw [hp'] at hp; cases hp
    have hc := execN_snd s (depthBound s.length) .Grammar initSt s (staleSt_rel s []) (initSt_clear s)
    have hs := execN_sim (mkBuf s) G (depthBound s.length) .Grammar initSt initSt ⟨rfl, rfl, Nat.le_refl _, Nat.le_refl _⟩
    have ho' : execN (mkBuf s) G (depthBound s.length) .Grammar initSt = .ok st := ho
    rw [ho'] at hc hs
    obtain ⟨ev', r, hb', hr, hcl, _⟩ := hc
    have := hb'.det hb; cases this
    have hpos : st.pos = s.length := by
      have := hr.len; have := hr.pos_le; simp at *; omega
    refine ⟨fun t h => hcl.tree t (by rw [← ht] at h; exact List.mem_of_mem_take h), ?_⟩
    have hlen : 0 < s.length := by
      cases s with
      | nil =>
        have hn : (match pegParse [] [] with | .ok _ _ => true | _ => false) = false := by decide +kernel
        rw [hp'] at hn; cases hn
      | cons => simp
    -- the last token is that of the whole rule
    have hgr : ∃ vs, ts = vs ++ [⟨.rule .Grammar, 0, s.length⟩] ∧ Seg 0 s.length vs := by
      have hd : depthBound s.length = (16 * s.length + 15) + 1 := by unfold depthBound; omega
      rw [hd, execN] at ho'
      have hx := exec_sim (buf := mkBuf s) (execN_sim (mkBuf s) G (16 * s.length + 15)) (G .Grammar) initSt initSt ⟨rfl, rfl, Nat.le_refl _, Nat.le_refl _⟩
      cases hq : exec (mkBuf s) (execN (mkBuf s) G (16 * s.length + 15)) (G .Grammar) initSt with
      | panic => rw [hq] at ho'; cases ho'
      | div => rw [hq] at ho'; cases ho'
      | fail st' => rw [hq] at ho'; cases ho'
      | ok st' =>
        rw [hq] at ho' hx
        cases ho'
        obtain ⟨_, _, vs, h1, _, h2⟩ := hx
        have hp2 : st'.pos = s.length := hpos
        refine ⟨vs, ?_, by rw [← hp2]; exact h2⟩
        have := (h1.addTok (.rule .Grammar) 0).tree
        rw [hp2] at this
        rw [← ht]
        simpa [initSt] using this
    obtain ⟨vs, rfl, hseg⟩ := hgr
    obtain ⟨F, hf, hF, hpost⟩ := seg_ast hseg [] (by intro n hn; cases hn)
    refine ⟨F, ?_, hF, ?_⟩
    · have hpi := popInto_all (t := ⟨.rule .Grammar, 0, s.length⟩) (S := []) (by intro n hn; cases hn) F.reverse []
        (fun n hn => by have := hF.inside n (List.mem_reverse.mp hn); exact ⟨this.1, this.2.2⟩)
      rw [List.append_nil, List.reverse_reverse, List.append_nil] at hpi
      rw [ast, List.foldl_append, hf, List.append_nil, List.foldl_cons, List.foldl_nil, astStep, if_neg (show ¬ (0 = s.length) by omega), hpi]
      rfl
    · rw [N32.post, hpost, List.filter_append]
      have : (0 : Nat) ≠ s.length := by omega
      simp [this]
  · rw [hp'] at hp; cases hp

example : (match pegParse c!"a=1" [] with
    | .ok ts _ => (printTree c!"a=1" ts).map fun ls => ls.drop (ls.length - 4)
    | _ => none) =
    some [(9, .rule .Value, c!"1"), (10, .rule .Literal, c!"1"), (11, .rule .Integer, c!"1"), (12, .text, c!"1")] := by decide +kernel

mutual
/-- Printing panics only for a token that leaves the text. -/
theorem printN_total (s : Str) : ∀ (n : N32) (d : Nat), (∀ t ∈ n.post, t.b ≤ t.e ∧ t.e ≤ s.length) →
    ∃ ls, printN s d n = some ls ∧ (∀ l ∈ ls, ∃ t ∈ n.post, l.2 = (t.kind, (s.drop t.b).take (t.e - t.b))) ∧ ls.length = n.post.length
  | .mk t up, d, h => by
    obtain ⟨ls, h1, h2, h3⟩ := printL_total s up (d + 1) (fun x hx => h x (by rw [N32.post]; simp [hx]))
    refine ⟨_, by rw [printN, if_pos (h t (by rw [N32.post]; simp)), h1], ?_, ?_⟩
    · intro l hl
      rw [N32.post]
      rcases List.mem_cons.mp hl with rfl | hl
      · exact ⟨t, by simp, rfl⟩
      · obtain ⟨x, hx, e⟩ := h2 l hl
        exact ⟨x, by simp [hx], e⟩
    · rw [N32.post]; simp [h3]
theorem printL_total (s : Str) : ∀ (ns : List N32) (d : Nat), (∀ t ∈ postL ns, t.b ≤ t.e ∧ t.e ≤ s.length) →
    ∃ ls, printL s d ns = some ls ∧ (∀ l ∈ ls, ∃ t ∈ postL ns, l.2 = (t.kind, (s.drop t.b).take (t.e - t.b))) ∧ ls.length = (postL ns).length
  | [], _, _ => ⟨[], rfl, (by intro l hl; cases hl), rfl⟩
  | n :: ns, d, h => by
    obtain ⟨ls, h1, h2, h3⟩ := printN_total s n d (fun x hx => h x (by rw [postL]; simp [hx]))
    obtain ⟨ks, k1, k2, k3⟩ := printL_total s ns d (fun x hx => h x (by rw [postL]; simp [hx]))
    refine ⟨ls ++ ks, by rw [printL, h1, k1], ?_, ?_⟩
    · intro l hl
      rw [postL]
      rcases List.mem_append.mp hl with hl | hl
      · obtain ⟨x, hx, e⟩ := h2 l hl; exact ⟨x, by simp [hx], e⟩
      · obtain ⟨x, hx, e⟩ := k2 l hl; exact ⟨x, by simp [hx], e⟩
    · rw [postL]; simp [h3, k3]
end

theorem popInto_post (t : Tok) : ∀ (S up : List N32) (x : Tok),
    x ∈ postL (popInto t S up).1 ∨ x ∈ postL (popInto t S up).2 → x ∈ postL S ∨ x ∈ postL up
  | [], up, x, h => by simpa [popInto, postL] using h
  | n :: S, up, x, h => by
    rw [popInto] at h
    split at h
    · rcases popInto_post t S (n :: up) x h with h | h
      · exact .inl (by rw [postL]; simp [h])
      · rw [postL] at h ⊢
        rcases List.mem_append.mp h with h | h
        · exact .inl (by simp [h])
        · exact .inr h
    · exact h.symm

theorem foldl_ast_post (ts : List Tok) : ∀ (S : List N32) (x : Tok), x ∈ postL (ts.foldl astStep S) → x ∈ postL S ∨ x ∈ ts := by
  induction ts with
  | nil => intro S x h; exact .inl h
  | cons t ts ih =>
    intro S x h
    rcases ih _ x h with h | h
    · unfold astStep at h
      split at h
      · exact .inl h
      · rw [postL, N32.post, List.append_assoc] at h
        rcases List.mem_append.mp h with h | h
        · rcases popInto_post t S [] x (.inl h) with h | h
          · exact .inl h
          · cases h
        · rcases List.mem_append.mp h with h | h
          · rw [List.mem_singleton.mp h]; exact .inr (by simp)
          · rcases popInto_post t S [] x (.inr h) with h | h
            · exact .inl h
            · cases h
    · exact .inr (by simp [h])

theorem printTree_total (s : Str) (ts : List Tok) (h : ∀ t ∈ ts, t.b ≤ t.e ∧ t.e ≤ s.length) : ∃ ls, printTree s ts = some ls := by
  unfold printTree
  cases ha : ast ts with
  | none => exact ⟨[], rfl⟩
  | some n =>
    obtain ⟨ls, hl, _⟩ := printN_total s n 0 (fun t ht => by
      refine h t ((foldl_ast_post ts [] t ?_).elim (fun h => by cases h) id)
      unfold ast at ha
      cases hf : ts.foldl astStep [] with
      | nil => rw [hf] at ha; cases ha
      | cons m M => rw [hf] at ha; cases ha; rw [postL]; simp [ht])
    exact ⟨ls, hl⟩

/-- C49: after an accepted query the printed syntax tree begins with the whole query; every line shows a piece of the query that the rule named
on that line recognises. -/
theorem C49_print (s : Str) (tree0 ts tr : List Tok) (h : pegParse s tree0 = .ok ts tr) :
    ∃ ls, printTree s ts = some ((0, .rule .Grammar, s) :: ls) ∧
      ls.length + 1 = (ts.filter fun t => decide (t.b ≠ t.e)).length ∧
      ∀ l ∈ ls, ∃ u v, s = u ++ l.2.2 ++ v ∧ l.2.2 ≠ [] ∧
        ∀ r, l.2.1 = .rule r → ∃ ev, Big G (.call r) (l.2.2 ++ v) (some (ev, v)) := by
  obtain ⟨hok, up, ha, hF, hp⟩ := C49_tree s tree0 ts tr h
  have hin : ∀ t ∈ (N32.mk ⟨.rule .Grammar, 0, s.length⟩ up).post, t ∈ ts ∧ t.b ≠ t.e := by
    intro t ht; rw [hp] at ht; simpa using ht
  have hpu : ∀ t ∈ postL up, t ∈ ts ∧ t.b ≠ t.e := fun t ht => hin t (by rw [N32.post]; simp [ht])
  obtain ⟨ls, h1, h2, h3⟩ := printL_total s up 1 (fun t ht => by have := hok t (hpu t ht).1; exact ⟨this.1, this.2.1⟩)
  refine ⟨ls, ?_, ?_, ?_⟩
  · unfold printTree
    rw [ha]
    show printN s 0 (N32.mk _ up) = _
    rw [printN, if_pos ⟨Nat.zero_le _, Nat.le_refl _⟩, h1]
    simp
  · rw [← hp, N32.post]; simp [h3]
  · intro l hl
    obtain ⟨t, ht, e⟩ := h2 l hl
    obtain ⟨hm, hne⟩ := hpu t ht
    obtain ⟨b1, b2, b3⟩ := hok t hm
    have e1 : l.2.1 = t.kind := by rw [e]
    have e2 : l.2.2 = (s.drop t.b).take (t.e - t.b) := by rw [e]
    have e3 : s.drop t.b = l.2.2 ++ s.drop t.e := by
      rw [e2]
      have := (List.take_append_drop (t.e - t.b) (s.drop t.b)).symm
      rw [List.drop_drop, show t.b + (t.e - t.b) = t.e by omega] at this
      exact this
    refine ⟨s.take t.b, s.drop t.e, ?_, ?_, ?_⟩
    · rw [List.append_assoc, ← e3, List.take_append_drop]
    · intro h0
      have := congrArg List.length e2
      rw [h0, List.length_take, List.length_drop] at this
      simp at this; omega
    · intro r hr
      rw [e1] at hr
      rw [hr] at b3
      rw [← e3]
      exact b3

/-- C49: after a rejected query a new parser object, whose token array then holds pieces from abandoned attempts, can still print its tree. -/
theorem C49_print_failed_partial (s : Str) (m : Tok) (tr : List Tok) (h : pegParse s [] = .err m tr) : ∃ ls, printTree s tr = some ls := by
  rcases pegParse_cases s [] with ⟨st, us, ev, ho, ht, hp', hb, he, hin⟩ | ⟨st, ho, hp', _⟩
  · rw [hp'] at h; cases h
  · rw [hp'] at h; cases h
    have hc := execN_snd s (depthBound s.length) .Grammar initSt s (staleSt_rel s []) (initSt_clear s)
    have ho' : execN (mkBuf s) G (depthBound s.length) .Grammar initSt = .fail st := ho
    rw [ho'] at hc
    exact printTree_total s _ (fun t ht => by have := hc.2.1.tree t ht; exact ⟨this.1, this.2.1⟩)

/-- C49 in full is false: a parser object used for a long query and then for a short one that is rejected panics when its tree is printed. -/
theorem C49_print_stale_refuted :
    (match pegParse c!"a = 1 and b = 2" [] with
     | .ok _ tr => match pegParse c!"(" tr with
       | .err _ tr' => some (printTree c!"(" tr')
       | _ => none
     | _ => none) = some none := by decide +kernel

/-! ## C44: what a syntax error points at -/

/-- C44: the piece of the query that a syntax error reports is either empty at the very start, or a piece that some rule of the grammar (or the
capture inside one) recognises at that place. -/
theorem C44_recognised (s : Str) (b e : Nat) (h : parse s = .err (.syntax b e)) :
    (b = 0 ∧ e = 0) ∨ ∃ k, TokOk s ⟨k, b, e⟩ := by
  rw [parse_peg] at h
  rcases pegParse_cases s [] with ⟨st, us, ev, ho, ht, hp', hb, he, hin⟩ | ⟨st, ho, hp', _⟩
  · exfalso
    unfold Peg.query at h
    rw [show ({} : Peg).toks = [] from rfl, hp'] at h
    simp only at h
    rw [if_pos hin, he] at h
    refine finish_not_syntax ev b e ?_
    rw [finish]
    cases hr : runEvs [] ev {} with
    | none => rw [hr] at h; cases h
    | some t =>
      rw [hr] at h
      simp only at h ⊢
      cases hx : t.errors with
      | nil => rw [hx] at h; cases h
      | cons x xs => rw [hx] at h; exact h
  · have hc := execN_snd s (depthBound s.length) .Grammar initSt s (staleSt_rel s []) (initSt_clear s)
    have ho' : execN (mkBuf s) G (depthBound s.length) .Grammar initSt = .fail st := ho
    rw [ho'] at hc
    unfold Peg.query at h
    rw [show ({} : Peg).toks = [] from rfl, hp'] at h
    have hb : st.max.b = b := by cases h; rfl
    have he : st.max.e = e := by cases h; rfl
    rcases hc.2.1.max with hm | hm
    · exact .inr ⟨st.max.kind, by rw [← hb, ← he]; exact hm⟩
    · exact .inl ⟨by rw [← hb]; exact hm.1, by rw [← he]; exact hm.2⟩

example : parse c!"a = b c" = .err (.syntax 5 6) := by decide +kernel

end Verif
