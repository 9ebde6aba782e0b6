import Verif.ShapeThms
import Verif.Chain
import Verif.Arrow
import Verif.Trail
import Verif.Spec.Truth
import Verif.Props.Lexical

/-! # Chains, blanks, Join and completeness of names (C12, C13, C15–C17) -/

namespace Verif

open PExp

/-- C05, on trees: the tree of an accepted query without `->` obeys the stratification. -/
theorem C05_stratified {s n} (h : parse s = .ok n) (ha : Balanced s false) : Shape .logic n := parse_shape h ha

/-! ## C12: chains -/

/-- The operator cannot be glued to a preceding word: there is a blank in front, or it is written in symbols. -/
def Link.Clear (l : Link) : Prop := l.w1 ≠ [] ∨ ∀ c ∈ l.ob, ¬ IdTail c

/-- The text of a chain of operators and operands. -/
def linkText : List Link → Str
  | [] => []
  | l :: ls => l.w1 ++ (l.ob ++ (l.w2 ++ (l.q ++ linkText ls)))

theorem Link.Clear.apart {l : Link} (h : l.Clear) (u : Str) : Apart u l.w1 l.ob := by
  intro hw p c d t _ hx _
  rcases h with h | h
  · exact absurd hw h
  · exact h d (by rw [hx]; simp)

/-- C12: a chain of logic operators of any length, over any clearly spelled operands (below the logic level), is the left
nested tree, whatever the mixture of `and` and `or`. -/
theorem C12_logic_chain {u n0} (hu : Sp .neg u n0) (ls : List Link)
    (h : ∀ l ∈ ls, WS l.w1 ∧ LogicOp l.ob l.o ∧ l.Clear ∧ WS l.w2 ∧ Sp .neg l.q l.n) :
    parse (u ++ linkText ls) = .ok (ls.foldl (fun n l => .logic n (.op l.o) l.n) n0) := by
  have key : ∀ ls : List Link, ∀ u n0, Sp .logic u n0 →
      (∀ l ∈ ls, WS l.w1 ∧ LogicOp l.ob l.o ∧ l.Clear ∧ WS l.w2 ∧ Sp .neg l.q l.n) →
      Sp .logic (u ++ linkText ls) (ls.foldl (fun n l => .logic n (.op l.o) l.n) n0) := by
    intro ls
    induction ls with
    | nil => intro u n0 hu _; simpa [linkText] using hu
    | cons l ls ih =>
      intro u n0 hu h
      obtain ⟨h1, h2, h3, h4, h5⟩ := h l (by simp)
      have := ih _ _ (Sp.logic hu h1 h2 (h3.apart u) h4 h5) fun x hx => h x (List.mem_cons_of_mem _ hx)
      simpa [linkText] using this
  exact (key ls u n0 (.logicUp hu) h).parse

/-- C12: the same for comparison chains. -/
theorem C12_compare_chain {u n0} (hu : Sp .cin u n0) (ls : List Link)
    (h : ∀ l ∈ ls, WS l.w1 ∧ CmpW l.ob l.o ∧ l.Clear ∧ WS l.w2 ∧ Sp .cin l.q l.n) :
    parse (u ++ linkText ls) = .ok (ls.foldl (fun n l => .cmp n (.op l.o) l.n) n0) := by
  have key : ∀ ls : List Link, ∀ u n0, Sp .cmp u n0 →
      (∀ l ∈ ls, WS l.w1 ∧ CmpW l.ob l.o ∧ l.Clear ∧ WS l.w2 ∧ Sp .cin l.q l.n) →
      Sp .cmp (u ++ linkText ls) (ls.foldl (fun n l => .cmp n (.op l.o) l.n) n0) := by
    intro ls
    induction ls with
    | nil => intro u n0 hu _; simpa [linkText] using hu
    | cons l ls ih =>
      intro u n0 hu h
      obtain ⟨h1, h2, h3, h4, h5⟩ := h l (by simp)
      have := ih _ _ (Sp.cmp hu h1 h2 (h3.apart u) h4 h5) fun x hx => h x (List.mem_cons_of_mem _ hx)
      simpa [linkText] using this
  exact (key ls u n0 (.cmpUp hu) h).cmp_logic.parse

/-- C12 over arbitrary accepted queries (not only clearly spelled ones), each in parentheses. -/
theorem C12_paren_chain {q n} (h : parse q = .ok n) (hb : Balanced q false) {ls : List Link} (hls : ∀ l ∈ ls, l.Good LogicOp)
    {w1 w2 : Str} (hw1 : WS w1) (hw2 : WS w2) :
    parse (w1 ++ ('(' :: (q ++ ')' :: (chainText ls ++ w2)))) =
      .ok (ls.foldl (fun n l => .logic n (.op l.o) (.paren l.n)) (.paren n)) := parse_logic_chain h hb hls hw1 hw2

/-- C12, converse: nowhere in the tree of an accepted query is the right operand of a logic node a logic node (without
parentheses): the nesting is always to the left. -/
theorem C12_left_nested {s n l o r} (ha : Balanced s false) (h : parse s = .ok n) (hsub : Sub (.logic l o r) n) :
    ∀ l' o' r', r ≠ .logic l' o' r' := by
  have key : ∀ {lv n}, Shape lv n → n = .logic l o r → ∀ l' o' r', r ≠ .logic l' o' r' := by
    intro lv n h
    induction h with
    | logic _ _ hr => intro e; cases e; exact hr.not_logic (by simp)
    | val h =>
      intro e
      cases h with
      | lit h => cases h <;> cases e
      | arr _ => cases e
    | btwUp _ ih => exact ih
    | prdUp _ ih => exact ih
    | cinUp _ ih => exact ih
    | cmpUp _ ih => exact ih
    | negUp _ ih => exact ih
    | logicUp _ ih => exact ih
    | _ => intro e; cases e
  rcases (parse_shape h ha).sub hsub with ⟨_, h'⟩ | ⟨_, h'⟩
  · exact key h' rfl
  · cases h'

example : parse c!"a or b and not c||d" =
    .ok (.logic (.logic (.logic (.ident c!"a") (.op c!"or") (.ident c!"b")) (.op c!"and") (.not (.ident c!"c"))) (.op c!"or") (.ident c!"d")) := by
  decide +kernel
example : parse c!"a > 1 > b == c" =
    .ok (.cmp (.cmp (.cmp (.ident c!"a") (.op c!"gt") (.int 1)) (.op c!"gt") (.ident c!"b")) (.op c!"eq") (.ident c!"c")) := by
  decide +kernel
/-- The hypotheses of `C12_logic_chain` for `a or a&&a`. -/
example : ∃ ls : List Link, ls.length = 2 ∧ linkText ls = c!" or a&&a" ∧
    ∀ l ∈ ls, WS l.w1 ∧ LogicOp l.ob l.o ∧ l.Clear ∧ WS l.w2 ∧ Sp .neg l.q l.n := by
  refine ⟨[⟨c!" ", c!"or", c!"or", c!" ", c!"a", .ident c!"a"⟩, ⟨[], c!"&&", c!"and", [], c!"a", .ident c!"a"⟩], rfl, rfl, ?_⟩
  intro l hl
  simp only [List.mem_cons, List.not_mem_nil, or_false] at hl
  rcases hl with rfl | rfl
  · exact ⟨ws_space, .word (by decide) (CI.refl _), .inl (by decide), ws_space, .negUp sp_a⟩
  · refine ⟨.nil, .amp, .inr ?_, .nil, .negUp sp_a⟩
    intro c hc
    simp at hc
    subst hc
    unfold IdTail IdHead
    decide

/-! ## C13: blanks in front -/

theorem grammar_ws {w s : Str} (hw : WS w) {x} (h : Big G (.call .Grammar) s x) : Big G (.call .Grammar) (w ++ s) x := by
  cases h with | call h => ?_
  have spx : ∀ {y}, Big G (.call .sp) s y → Big G (.call .sp) (w ++ s) y := by
    intro y hy
    cases y with
    | none => cases hy with | call hy => cases hy
    | some y =>
      obtain ⟨e, r⟩ := y
      obtain ⟨rfl, -⟩ : Post .sp s e r := post_all hy
      cases hy with | call hy => exact .call (ws_star hw hy)
  cases h with
  | seqOk h1 h2 => exact .call (.seqOk (spx h1) h2)
  | seqFail1 h1 => exact .call (.seqFail1 (spx h1))
  | seqFail2 h1 h2 => exact .call (.seqFail2 (spx h1) h2)

/-- C13: blanks and complete comments in front of a query, accepted or not, change nothing but the positions in a syntax error. -/
theorem C13_leading_blanks {w : Str} (hw : WS w) (s : Str) :
    parse (w ++ s) = parse s ∨ (SyntaxError s ∧ SyntaxError (w ++ s)) := by
  rcases parse_cases s with ⟨evs, hb, hp⟩ | ⟨hb, b, e, hp, _⟩
  · left; rw [hp]; exact parse_of_big (grammar_ws hw hb)
  · right; exact ⟨⟨b, e, hp⟩, parse_of_big_none (grammar_ws hw hb)⟩

/-- C13, as an equivalence for accepted queries. -/
theorem C13_accepted {w : Str} (hw : WS w) (s : Str) (n : Node) : parse (w ++ s) = .ok n ↔ parse s = .ok n := by
  rcases C13_leading_blanks hw s with h | ⟨⟨b, e, h⟩, b', e', h'⟩
  · rw [h]
  · simp [h, h']

example : WS c!"-- note\n \t// more\r\n" :=
  .comment (o := c!"--") (b := c!" note") (.inl rfl) (by decide) (.inl rfl)
    (.blank (by decide) (.blank (by decide) (.comment (o := c!"//") (b := c!" more") (.inr rfl) (by decide) (.inr rfl) (.blank (by decide) .nil))))
example : parse c!"-- note\n \t// more\r\na = 1" = parse c!"a = 1" := by decide +kernel

/-! ## C13: blanks after the query -/

/-- C13: blanks and complete comments after a text whose quotes, comments and brackets are closed, accepted or not, change nothing but the
positions in a syntax error. -/
theorem C13_trailing_blanks {w : Str} (hw : WS w) (s : Str) (hb : ∃ a, Balanced s a) :
    parse (s ++ w) = parse s ∨ (SyntaxError s ∧ SyntaxError (s ++ w)) := by
  obtain ⟨a, ha⟩ := hb
  rcases parse_cases s with ⟨evs, hb, hp⟩ | ⟨hb, b, e, hp, _⟩
  · left; rw [hp]; exact parse_of_big (grammar_trail hw hb ha)
  · right; exact ⟨⟨b, e, hp⟩, parse_of_big_none (grammar_trail hw hb ha)⟩

/-- C13: an accepted query may be followed by blanks and complete comments. -/
theorem C13_trailing_accepted {w : Str} (hw : WS w) {s : Str} {n : Node} (h : parse s = .ok n) : parse (s ++ w) = .ok n := by
  obtain ⟨a, _, hb, _⟩ := parse_ok h
  rcases C13_trailing_blanks hw s ⟨a, hb⟩ with h' | ⟨⟨b, e, h'⟩, _⟩
  · rw [h', h]
  · rw [h] at h'; cases h'

/-- C13: blanks and complete comments at the end may also be removed, unless the text before them ends inside a string or a comment (they are then no
blanks, but the rest of the string or comment). -/
theorem C13_trailing_iff {w : Str} (hw : WS w) (s : Str) (n : Node) (hs : ∃ st a, scan s (.code, [], false) = some (.code, st, a)) :
    parse (s ++ w) = .ok n ↔ parse s = .ok n := by
  refine ⟨fun h => ?_, C13_trailing_accepted hw⟩
  obtain ⟨st, a, hs⟩ := hs
  obtain ⟨b, _, hb, _⟩ := parse_ok h
  unfold Balanced at hb
  rw [scan_append, hs, Option.bind_some, hw.closed] at hb
  simp at hb
  obtain ⟨rfl, rfl⟩ := hb
  rcases C13_trailing_blanks hw s ⟨a, hs⟩ with h' | ⟨_, _, _, h'⟩
  · rw [← h', h]
  · rw [h] at h'; cases h'

/-- C13 for every text, accepted or not, that does not end inside a string or a comment, nor with a lone `-` or `/` outside them: blanks and complete
comments after it change nothing but the positions in a syntax error. -/
theorem C13_trailing_any {w : Str} (hw : WS w) (s : Str) (hs : ∀ m st a, scan s (.code, [], false) = some (m, st, a) → m = .code) :
    parse (s ++ w) = parse s ∨ (SyntaxError s ∧ SyntaxError (s ++ w)) := by
  by_cases hb : ∃ a, Balanced s a
  · exact C13_trailing_blanks hw s hb
  have bad : ∀ t, (¬ ∃ a, Balanced t a) → SyntaxError t := by
    intro t ht
    rcases parse_cases t with ⟨evs, h, _⟩ | ⟨_, b, e, hp, _⟩
    · obtain ⟨a, _, _, _, h, _⟩ := grammar_sound h
      exact absurd ⟨a, h⟩ ht
    · exact ⟨b, e, hp⟩
  refine .inr ⟨bad s hb, bad _ ?_⟩
  rintro ⟨a, h⟩
  unfold Balanced at h
  rw [scan_append] at h
  cases e : scan s (.code, [], false) with
  | none => rw [e] at h; cases h
  | some x =>
    obtain ⟨m, st, b⟩ := x
    have := hs m st b e
    subst this
    rw [e, Option.bind_some, hw.closed] at h
    simp at h
    obtain ⟨rfl, rfl⟩ := h
    exact hb ⟨_, e⟩

/-- A text with an unclosed bracket, one with a wrong bracket. -/
example : (∀ m st a, scan c!"f(a" (.code, [], false) = some (m, st, a) → m = .code) ∧ (∀ m st a, scan c!"a] '" (.code, [], false) = some (m, st, a) → m = .code) :=
  ⟨by intro m st a h; rw [show scan c!"f(a" (.code, [], false) = some (.code, c!"(", false) by decide] at h; cases h; rfl,
   by intro m st a h; rw [show scan c!"a] '" (.code, [], false) = none by decide] at h; cases h⟩
/-- The condition on a lone `-` is needed: it joins the comment after it. -/
example : SyntaxError c!"a -" ∧ WS c!"-- x\n" ∧ parse (c!"a -" ++ c!"-- x\n") = .ok (.ident c!"a") :=
  ⟨⟨1, 2, by decide +kernel⟩, .comment (b := c!" x") (.inl rfl) (by decide) (.inl rfl) .nil, by decide +kernel⟩

/-- C13: blanks and complete comments on both sides. -/
theorem C13_surrounding {w1 w2 : Str} (hw1 : WS w1) (hw2 : WS w2) {s : Str} {n : Node} (h : parse s = .ok n) :
    parse (w1 ++ (s ++ w2)) = .ok n :=
  (C13_accepted hw1 _ n).mpr (C13_trailing_accepted hw2 h)

example : parse (c!" " ++ (c!"a = 1 and not b isnull" ++ c!" -- it's done\n// ok\r")) = parse c!"a = 1 and not b isnull" := by decide +kernel
/-- The condition of `C13_trailing_iff` is needed: a line break ends the comment the query ends in. -/
example : scan c!"a -- x" (.code, [], false) = some (.comment, [], false) ∧ SyntaxError c!"a -- x" ∧ parse (c!"a -- x" ++ c!"\n") = .ok (.ident c!"a") :=
  ⟨by decide +kernel, ⟨1, 2, by decide +kernel⟩, by decide +kernel⟩
example : ∃ st a, scan c!"f(a" (.code, [], false) = some (.code, st, a) := ⟨_, _, rfl⟩

/-! ## C15: Join -/

/-- A query that is not skipped by `Join`. -/
def written (q : Str) : Bool := decide (goTrim q ≠ [])

/-- A link ` and (q)`. -/
def andLink (f : Str → Node) (q : Str) : Link := ⟨c!" ", c!"and", c!"and", c!" ", q, f q⟩

theorem join_tail (f : Str → Node) (qs : List Str) : ∀ sb, sb ≠ [] →
    qs.foldl joinStep sb = sb ++ chainText ((qs.filter written).map (andLink f)) := by
  induction qs with
  | nil => intro sb _; simp [chainText]
  | cons q qs ih =>
    intro sb hsb
    by_cases hq : goTrim q = []
    · have hw : written q = false := by simp [written, hq]
      have hs : joinStep sb q = sb := by simp [joinStep, hq]
      rw [List.foldl_cons, hs, ih sb hsb, List.filter_cons, hw]; simp
    · have hw : written q = true := by simp [written, hq]
      have hl : sb.length ≠ 0 := by simpa using hsb
      have hs : joinStep sb q = sb ++ c!" and " ++ c!"(" ++ q ++ c!")" := by simp [joinStep, hq, hl]
      rw [List.foldl_cons, hs, ih _ (by simp), List.filter_cons, hw]
      simp [chainText, andLink]

theorem join_text (f : Str → Node) (qs : List Str) (h : 2 ≤ qs.length) :
    join qs = match qs.filter written with
      | [] => []
      | q :: rest => '(' :: (q ++ ')' :: chainText (rest.map (andLink f))) := by
  have hj : join qs = qs.foldl joinStep [] := by
    match qs, h with
    | _ :: _ :: _, _ => rfl
  rw [hj]
  clear hj h
  induction qs with
  | nil => rfl
  | cons q qs ih =>
    by_cases hq : goTrim q = []
    · have hw : written q = false := by simp [written, hq]
      have hs : joinStep [] q = [] := by simp [joinStep, hq]
      rw [List.foldl_cons, hs, ih, List.filter_cons, hw]; simp
    · have hw : written q = true := by simp [written, hq]
      have hs : joinStep [] q = c!"(" ++ q ++ c!")" := by simp [joinStep, hq]
      rw [List.foldl_cons, hs, join_tail f qs _ (by simp), List.filter_cons, hw]
      simp

/-- C15, partial: for queries without `->`.  If every query of the list that is not blank parses on its own (to `f q`), `Join`
of the list parses, to the left nested `and` chain of the trees in order, each in parentheses.  The restriction is needed, see
`C15_arrow_refuted`. -/
theorem C15_join_partial (f : Str → Node) (qs : List Str) (h2 : 2 ≤ qs.length)
    (h : ∀ q ∈ qs, goTrim q ≠ [] → parse q = .ok (f q) ∧ Balanced q false)
    (q : Str) (rest : List Str) (hf : qs.filter written = q :: rest) :
    parse (join qs) = .ok (rest.foldl (fun n q => .logic n (.op c!"and") (.paren (f q))) (.paren (f q))) := by
  have hmem : ∀ x ∈ q :: rest, parse x = .ok (f x) ∧ Balanced x false := by
    intro x hx
    rw [← hf, List.mem_filter] at hx
    exact h x hx.1 (by simpa [written] using hx.2)
  rw [join_text f qs h2, hf]
  have hq := hmem q (by simp)
  have := parse_logic_chain hq.1 hq.2 (ls := rest.map (andLink f)) (w1 := []) (w2 := []) ?_ .nil .nil
  · simpa [List.foldl_map, andLink] using this
  · intro l hl
    obtain ⟨x, hx, rfl⟩ := List.mem_map.mp hl
    have := hmem x (List.mem_cons_of_mem _ hx)
    exact ⟨ws_space, .word (w := c!"and") (by decide) (CI.refl _), ws_space, this.1, this.2⟩

/-- C15: blank entries alone give the empty query, and a single query is passed on unchanged. -/
theorem C15_join_trivial (qs : List Str) (h : ∀ q ∈ qs, goTrim q = []) (h2 : 2 ≤ qs.length) (q : Str) :
    join qs = [] ∧ join [q] = q ∧ join [] = [] := by
  refine ⟨?_, rfl, rfl⟩
  rw [join_text (fun _ => .nil) qs h2]
  have : qs.filter written = [] := by
    rw [List.filter_eq_nil_iff]; intro q hq; simp [written, h q hq]
  rw [this]

/-- C15 is false with `->`: both queries parse on their own, but in `Join` the second one changes how the first is combined:
the logic node has the operator on its left, a column as operator, and the first query is lost. -/
theorem C15_arrow_refuted :
    (∃ n, parse c!"x = 1" = .ok n) ∧ (∃ n, parse c!"a->b = 1" = .ok n) ∧
    parse (join [c!"x = 1", c!"a->b = 1"]) =
      .ok (.logic (.op c!"and") (.ident c!"a") (.paren (.cmp (.ident c!"b") (.op c!"eq") (.int 1)))) :=
  ⟨⟨.cmp (.ident c!"x") (.op c!"eq") (.int 1), by decide +kernel⟩, ⟨.cmp (.ident c!"b") (.op c!"eq") (.int 1), by decide +kernel⟩, by decide +kernel⟩

example : parse (join [c!"a = 1 or b = 2", c!" ", c!"c in [1] -- x\n"]) =
    .ok (.logic (.paren (.logic (.cmp (.ident c!"a") (.op c!"eq") (.int 1)) (.op c!"or") (.cmp (.ident c!"b") (.op c!"eq") (.int 2)))) (.op c!"and")
      (.paren (.cmp (.ident c!"c") (.op c!"in") (.arr [.int 1])))) := by decide +kernel
/-- The hypotheses of `C15_join_partial` for this list. -/
example : ∃ f : Str → Node, ∀ q ∈ [c!"a = 1 or b = 2", c!" ", c!"c in [1] -- x\n"], goTrim q ≠ [] → parse q = .ok (f q) ∧ Balanced q false := by
  refine ⟨fun q => match parse q with | .ok n => n | _ => .nil, ?_⟩
  have h1 : goTrim c!" " = [] := by decide +kernel
  intro q hq hne
  simp only [List.mem_cons, List.not_mem_nil, or_false] at hq
  rcases hq with rfl | rfl | rfl
  · exact ⟨by decide +kernel, by unfold Balanced; decide⟩
  · exact absurd h1 hne
  · exact ⟨by decide +kernel, by unfold Balanced; decide⟩

/-! ## C16: Join and the meaning of filters -/

theorem truth_and (v : Node → Bool) (f : Str → Node) (rest : List Str) : ∀ n0,
    truth v (rest.foldl (fun n q => .logic n (.op c!"and") (.paren (f q))) n0) = (truth v n0 && rest.all fun q => truth v (f q)) := by
  induction rest with
  | nil => intro n0; simp
  | cons q rest ih => intro n0; rw [List.foldl_cons, ih]; simp [truth, Bool.and_assoc]

/-- C16, partial: for queries that parse alone and contain no `->`, a row satisfies `Join` of the list exactly if it satisfies
every query.  See `C16_injection_refuted` for why the queries must parse alone. -/
theorem C16_join_truth_partial (v : Node → Bool) (f : Str → Node) (qs : List Str) (h2 : 2 ≤ qs.length)
    (h : ∀ q ∈ qs, goTrim q ≠ [] → parse q = .ok (f q) ∧ Balanced q false) (hne : ∃ q ∈ qs, goTrim q ≠ []) :
    ∃ n, parse (join qs) = .ok n ∧ (truth v n = true ↔ ∀ q ∈ qs, goTrim q ≠ [] → truth v (f q) = true) := by
  cases hf : qs.filter written with
  | nil =>
    obtain ⟨q, hq, hn⟩ := hne
    have := List.filter_eq_nil_iff.mp hf q hq
    simp [written, hn] at this
  | cons q rest =>
    refine ⟨_, C15_join_partial f qs h2 h q rest hf, ?_⟩
    rw [truth_and]
    have hall : ∀ P : Str → Prop, (∀ x ∈ q :: rest, P x) ↔ ∀ x ∈ qs, goTrim x ≠ [] → P x := by
      intro P
      rw [← hf]
      simp [List.mem_filter, written]
    rw [← hall fun x => truth v (f x) = true]
    simp [truth]

/-- C16 is false in general: the second entry, which is rejected on its own, cancels the first.  The joined query holds on rows
where `x = 1` is false. -/
theorem C16_injection_refuted :
    SyntaxError c!"y = 1) or (1 = 1" ∧
    ∃ n1 n v, parse c!"x = 1" = .ok n1 ∧ parse (join [c!"x = 1", c!"y = 1) or (1 = 1"]) = .ok n ∧
      truth v n = true ∧ truth v n1 = false := by
  refine ⟨⟨4, 5, by decide +kernel⟩, .cmp (.ident c!"x") (.op c!"eq") (.int 1),
    .logic (.logic (.paren (.cmp (.ident c!"x") (.op c!"eq") (.int 1))) (.op c!"and") (.paren (.cmp (.ident c!"y") (.op c!"eq") (.int 1)))) (.op c!"or")
      (.paren (.cmp (.int 1) (.op c!"eq") (.int 1))),
    fun n => match n with | .cmp (.int i) _ (.int j) => i == j | _ => false, by decide +kernel, by decide +kernel, by decide +kernel, by decide +kernel⟩

/-! ## C17: names -/

/-- C17, partial: for accepted queries without `->`, the text consists of the names of the tree, in reading order, and of
blanks, comments, literals, operator words and punctuation; no other name is written in it. -/
theorem C17_names_kept_partial {s n} (h : parse s = .ok n) (ha : Balanced s false) : Weave s (names n) := by
  obtain ⟨w1, u, w2, rfl, hw1, hr, hw2⟩ := arrowFree h ha
  exact (Weave.ws hw1).app0 (hr.weave.app1 (Weave.ws hw2))

/-- C17 is false with `->`: the column `a` is written but does not occur in the tree. -/
theorem C17_arrow_refuted :
    parse c!"a->b = 1" = .ok (.cmp (.ident c!"b") (.op c!"eq") (.int 1)) ∧
    c!"a" ∉ names (.cmp (.ident c!"b") (.op c!"eq") (.int 1)) := ⟨by decide +kernel, by decide⟩

/-- C17 is false for every JSON path that opens a query: `p1->…->b …` is accepted with the tree of `b …`.  The path is dropped without an error, and
every translator filters on the column `b`. -/
theorem C17_path_dropped_refuted (w : Str) (hw : WS w) (p : Str) (ps : List Str) (hp : ∀ x ∈ p :: ps, IdText x) (hk : KwFree p)
    (b r : Str) (hb : IdText b) (hkb : KwFree b) (hr : ∀ c t, r = c :: t → ¬ IdTail c ∧ c ≠ '.' ∧ c ≠ '(') (ha : ∀ t, r ≠ '-' :: '>' :: t)
    (n : Node) (h : parse (w ++ (b ++ r)) = .ok n) : parse (w ++ (arrows (p :: ps) ++ (b ++ r))) = .ok n := by
  have hid : Hd idF r := by
    intro c t e
    cases hc : idF.has c with
    | false => rfl
    | true => exact absurd (idF_iff.mp hc) (hr c t e).1
  have hnm : Hd nameF r := by
    intro c t e
    have h1 := hid c t e
    have h2 := (hr c t e).2
    unfold nameF
    rw [CSet.has_append, h1, Bool.false_or]
    cases hc : CSet.has [('.', '.'), ('(', '(')] c with
    | false => rfl
    | true =>
      simp only [CSet.has, List.any_cons, List.any_nil, Bool.or_false, Bool.or_eq_true, Bool.and_eq_true, decide_eq_true_eq] at hc
      rcases hc with hc | hc
      · exact absurd (Char.toNat_inj' (Nat.le_antisymm hc.2 hc.1)) h2.1
      · exact absurd (Char.toNat_inj' (Nat.le_antisymm hc.2 hc.1)) h2.2
  have o1 := ident_prim hb hkb hnm ha
  obtain ⟨ea, o2, f2⟩ := arrow_prim hp hk hb hid ha
  have hsw := (Swap.of o1 o2).expression
  have s1 : Solid (b ++ r) := hb.solid r
  have s2 : Solid (arrows (p :: ps) ++ (b ++ r)) := by
    have := (hp p (by simp)).solid ('-' :: '>' :: (arrows ps ++ (b ++ r)))
    simpa [arrows] using this
  rcases parse_cases (w ++ (b ++ r)) with ⟨ev, hg, hf⟩ | ⟨_, _, _, hf, _⟩
  · rw [hf] at h
    obtain ⟨_, q, m, es, _, heff, _⟩ := grammar_sound hg
    rw [finish, heff.finish] at h
    cases hg with | call hg => ?_
    generalize hx : some (ev, ([] : Str)) = x at hg
    cases hg with
    | seqFail1 _ => cases hx
    | seqFail2 _ _ => cases hx
    | seqOk h1 hg => ?_
    cases h1.det (sp_ok hw s1.no)
    cases hx
    generalize hx : some (_, ([] : Str)) = x at hg
    cases hg with
    | seqFail1 _ => cases hx
    | seqFail2 _ _ => cases hx
    | seqOk h2 h3 => ?_
    cases hx
    obtain ⟨et, rfl, h2'⟩ := hsw.2 _ _ h2
    have hg' : Ok (.call .Grammar) _ _ _ := .call (.seqOk (sp_ok hw s2.no) (.seqOk h2' h3))
    have heff' := f2.append heff
    rw [parse_of_big hg', finish]
    simp only [List.nil_append, List.append_assoc] at heff' ⊢
    rw [heff'.finish]
    cases es with
    | nil => simpa [Tree.pop] using h
    | cons e es => simp at h
  · rw [hf] at h; cases h

theorem idText_word {c : Char} {t : Str} (hn : c ≠ 'n' ∧ c ≠ 'N') (h : (c.isAlpha && t.all fun x => x.isAlpha) = true) : IdText (c :: t) := by
  have key : ∀ x : Char, x.isAlpha = true → IdHead x := by
    intro x hx
    simp only [Char.isAlpha, Char.isUpper, Char.isLower, Bool.or_eq_true, decide_eq_true_eq, Bool.and_eq_true, ge_iff_le] at hx
    rcases hx with h | h
    · exact .inr h
    · exact .inl h
  simp only [Bool.and_eq_true, List.all_eq_true] at h
  refine ⟨⟨c, t, rfl, key c h.1, fun x hx => .inl (key x (h.2 x hx))⟩, ?_⟩
  rintro a t' e ⟨x, u, rfl, hx, _⟩
  cases e
  rcases hx with rfl | rfl
  · exact hn.1 rfl
  · exact hn.2 rfl

-- A query on a member of a JSON column is run as a query on a column of that name.
example : parse c!"data->owner->city = 'x' and y > 1" = parse c!"city = 'x' and y > 1" :=
  (C17_path_dropped_refuted [] .nil c!"data" [c!"owner"]
    (by intro x hx; simp at hx; rcases hx with rfl | rfl <;> exact idText_word (by decide) (by decide))
    (by intro k hk; simp at hk; rcases hk with rfl | rfl | rfl | rfl | rfl | rfl <;> decide)
    c!"city" c!" = 'x' and y > 1" (idText_word (by decide) (by decide))
    (by intro k hk; simp at hk; rcases hk with rfl | rfl | rfl | rfl | rfl | rfl <;> decide)
    (by intro c t e; cases e; exact ⟨by simp [IdTail, IdHead], by decide, by decide⟩) (by intro t e; cases e)
    (.logic (.cmp (.ident c!"city") (.op c!"eq") (.str c!"x")) (.op c!"and") (.cmp (.ident c!"y") (.op c!"gt") (.int 1))) (by decide +kernel)).trans
    (by decide +kernel)

example : parse c!"f(a.b, c) = 'd' and not e is null" =
    .ok (.logic (.cmp (.func c!"f" [.ref [c!"a", c!"b"], .ident c!"c"]) (.op c!"eq") (.str c!"d")) (.op c!"and")
      (.not (.pred (.ident c!"e") (.op c!"is null")))) ∧ Balanced c!"f(a.b, c) = 'd' and not e is null" false := by
  refine ⟨by decide +kernel, by unfold Balanced; decide⟩

end Verif
