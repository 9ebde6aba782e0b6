import Verif.Gen.Actions
import Verif.Props.GoPretty

/-!
# C91: parser objects step by step

`goSteps` is a program that makes a parser object and then sets its fields and calls its methods in any order; `C87` has programs that set the text, reset and parse at
once.  `Parse` without a `Reset` before it goes on where the last one ended, and a text in `Buffer` does not count before `Reset`.
-/

namespace Verif
open Gen

/-- C91: whatever steps a program takes, it sees what the model says. -/
theorem C91_steps {P : Gen.Prog} (hP : readGo supportText = some P) (Q : Char → Bool) (pretty : Bool) (s : Str) (l : List Act) (n : Nat)
    (hn : 5 + actsNeed Q (startPst pretty s) l ≤ n) : goSteps P Q n pretty s l = mActs Q (startPst pretty s) l := by
  obtain ⟨n, rfl⟩ : ∃ n', n = n' + 5 := ⟨n - 5, by omega⟩
  rw [support_of hP]
  exact goSteps_eq pretty s l (by omega)

/-- C91: five calls deep is enough without syntax trees. -/
theorem C91_depth (Q : Char → Bool) : ∀ (l : List Act) (m : Pst), (∀ o ∈ l, o ≠ .tree ∧ o ≠ .sprint) → actsNeed Q m l = 0
  | [], _, _ => rfl
  | o :: l, m, h => by
    have h0 : actNeeds m o = 0 := by
      have := h o (List.mem_cons_self ..)
      cases o <;> first | rfl | exact absurd rfl this.1 | exact absurd rfl this.2
    unfold actsNeed
    split
    · rw [h0, C91_depth Q l _ fun o ho => h o (List.mem_cons_of_mem _ ho)]; rfl
    · exact h0

example (Q : Char → Bool) (m : Pst) (s : Str) : actsNeed Q m [.buffer s, .reset, .parse none, .message, .print] = 0 := C91_depth Q _ m (by simp)

/-- The answers to steps and then to others. -/
theorem mActs_append (Q : Char → Bool) : ∀ (l l' : List Act) (m : Pst) (xs : List Ans), mActs Q m (l ++ l') = .ok xs →
    ∃ m' ys zs, xs = ys ++ zs ∧ ys.length = l.length ∧ mActs Q m l = .ok ys ∧ mActs Q m' l' = .ok zs ∧ ∀ l2, mActs Q m (l ++ l2) = andThen ys (mActs Q m' l2)
  | [], l', m, xs, h => ⟨m, [], xs, rfl, rfl, rfl, h, fun l2 => by
      show mActs Q m l2 = _
      cases mActs Q m l2 <;> rfl⟩
  | o :: l, l', m, xs, h => by
    simp only [List.cons_append, mActs] at h
    cases hm : mAct Q m o with
    | ok x =>
      obtain ⟨x, m1⟩ := x
      rw [hm] at h
      simp only at h
      cases hr : mActs Q m1 (l ++ l') with
      | ok r =>
        rw [hr] at h
        simp only [Gen.Res.ok.injEq] at h
        obtain ⟨m', ys, zs, e1, e2, e3, e4, e5⟩ := mActs_append Q l l' m1 r hr
        refine ⟨m', x :: ys, zs, by rw [← h, e1]; rfl, by simp [e2], by simp only [mActs, hm, e3], e4, fun l2 => ?_⟩
        simp only [List.cons_append, mActs, hm, e5]
        cases mActs Q m' l2 <;> rfl
      | panic => rw [hr] at h; cases h
      | stuck => rw [hr] at h; cases h
      | deep => rw [hr] at h; cases h
    | panic => rw [hm] at h; cases h
    | stuck => rw [hm] at h; cases h
    | deep => rw [hm] at h; cases h

/-- After a failure the position is the one before. -/
theorem execN_back {buf : List Nat} {n r st st'} (h : execN buf G n r st = .fail st') : st'.pos = st.pos ∧ st'.ti = st.ti := by
  cases n with
  | zero => cases h
  | succ n =>
    unfold execN at h
    split at h <;> cases h
    exact ⟨rfl, rfl⟩

/-- Nothing is not a query. -/
theorem empty_refused : Big G (.call .Grammar) [] none := by
  rcases pegParse_cases [] [] with ⟨_, _, _, _, _, h, _⟩ | ⟨_, _, _, h, _⟩
  · have : ∀ ts tr, pegParse [] [] ≠ .ok ts tr := by
      have h0 : (match pegParse [] [] with | .ok .. => true | _ => false) = false := by decide +kernel
      intro ts tr e
      rw [e] at h0
      cases h0
    exact absurd h (this _ _)
  · exact h

/-- The second `Parse` fails. -/
theorem twice (s : Str) (tree0 : List Tok) :
    (∃ st st', execN (mkBuf s) G (depthBound s.length) .Grammar { initSt with tree := tree0 } = .ok st ∧ st.ti ≤ st.tree.length ∧
      execN (mkBuf s) G (depthBound s.length) .Grammar st = .fail st' ∧ Big G (.call .Grammar) s (some (st.tree.take st.ti |>.filterMap (evOf s), []))) ∨
    (∃ st st', execN (mkBuf s) G (depthBound s.length) .Grammar { initSt with tree := tree0 } = .fail st ∧
      execN (mkBuf s) G (depthBound s.length) .Grammar st = .fail st' ∧ Big G (.call .Grammar) s none) := by
  have fails : ∀ st u, Rel s st u → Big G (.call .Grammar) u none → ∃ st', execN (mkBuf s) G (depthBound s.length) .Grammar st = .fail st' := by
    intro st u hr hb
    have hl : u.length ≤ s.length := by rw [hr.len]; omega
    have hnd := denoteN_ne_div .Grammar u (depthBound s.length) (by show _ + 12 < _; unfold depthBound; omega)
    have hd := (denoteN_big (depthBound s.length) .Grammar u hnd).det hb
    have hm := execN_match G s (depthBound s.length) .Grammar st u hr
    cases h : denoteN G (depthBound s.length) .Grammar u with
    | div => exact absurd h hnd
    | ok e t => rw [h] at hd; cases hd
    | fail => rw [h] at hm; obtain ⟨st', ho, _⟩ := hm; exact ⟨st', ho⟩
  have hnd := denoteN_ne_div .Grammar s (depthBound s.length) (by show _ + 12 < _; unfold depthBound; omega)
  have hm := execN_match G s (depthBound s.length) .Grammar _ s (staleSt_rel s tree0)
  rcases pegParse_cases s tree0 with ⟨st, ts, ev, x1, x2, x3, x4, x5, -⟩ | ⟨st, x1, x2, x3, -, -⟩
  · have hd := (denoteN_big (depthBound s.length) .Grammar s hnd).det x4
    cases h : denoteN G (depthBound s.length) .Grammar s with
    | div => exact absurd h hnd
    | fail => rw [h] at hd; cases hd
    | ok e t =>
      rw [h] at hd hm
      simp only [Res.toOpt, Option.some.injEq, Prod.mk.injEq] at hd
      obtain ⟨rfl, rfl⟩ := hd
      obtain ⟨st1, _, ho, hr, _⟩ := hm
      rw [x1] at ho
      cases ho
      obtain ⟨st', h'⟩ := fails st [] hr empty_refused
      exact .inl ⟨st, st', x1, hr.ti_le, h', by rw [x2, x5]; exact x4⟩
  · have hd := (denoteN_big (depthBound s.length) .Grammar s hnd).det x3
    cases h : denoteN G (depthBound s.length) .Grammar s with
    | div => exact absurd h hnd
    | ok e t => rw [h] at hd; cases hd
    | fail =>
      rw [h] at hm
      obtain ⟨st1, ho, hf⟩ := hm
      rw [x1] at ho
      cases ho
      obtain ⟨b1, b2⟩ := execN_back x1
      have hr := hf.restore (staleSt_rel s tree0)
      have : ({ st with pos := initSt.pos, ti := initSt.ti } : St) = st := by rw [← show st.pos = initSt.pos from b1, ← show st.ti = initSt.ti from b2]
      simp only at hr
      rw [this] at hr
      obtain ⟨st', h'⟩ := fails st s hr x3
      exact .inr ⟨st, st', x1, h', x3⟩

/-- C91: `Parse` again without a `Reset` returns an error for every query, also for one that was accepted: it goes on at the end of the query, where there is no query.
The first `Parse` has an error if and only if the grammar does not have the query. -/
theorem C91_twice {P : Gen.Prog} (hP : readGo supportText = some P) (Q : Char → Bool) (pretty : Bool) (s : Str) (l : List Act) (q : Str) (n : Nat) (xs : List Ans)
    (hn : 5 + actsNeed Q (startPst pretty s) (l ++ [.buffer q, .reset, .parse none, .parse none]) ≤ n)
    (hx : goSteps P Q n pretty s (l ++ [.buffer q, .reset, .parse none, .parse none]) = .ok xs) :
    ∃ ys x, xs = ys ++ [.none, .none, x, .failed] ∧ ys.length = l.length ∧
      (((∃ ev, Big G (.call .Grammar) q (some (ev, []))) ∧ x = .none) ∨ (Big G (.call .Grammar) q none ∧ x = .failed)) := by
  rw [C91_steps hP Q pretty s _ n hn] at hx
  obtain ⟨m, ys, zs, rfl, h2, _, h4, _⟩ := mActs_append Q l _ _ _ hx
  rcases twice q m.st.tree with ⟨st, st', t1, t2, t3, t4⟩ | ⟨st, st', t1, t2, t3⟩
  · simp only [mActs, mAct, Option.getD_none, runRule_one, t1, t3, if_neg (Nat.not_lt.2 t2), Gen.Res.ok.injEq] at h4
    exact ⟨ys, .none, by rw [← h4], h2, .inl ⟨⟨_, t4⟩, rfl⟩⟩
  · simp only [mActs, mAct, Option.getD_none, runRule_one, t1, t2, Gen.Res.ok.injEq] at h4
    exact ⟨ys, .failed, by rw [← h4], h2, .inr ⟨t3, rfl⟩⟩

-- an accepted query, then once more without Reset: the message names the last token of the query
example : texts (goSteps gDecls ascii 9 false c!"x" [.buffer c!"a = 1", .reset, .parse none, .parse none, .message]) =
    some [none, none, none, none, some c!"\nparse error near PegText (line 1 symbol 5 - line 1 symbol 6):\n\"1\"\n"] := by
  rw [C91_steps C87_program ascii false c!"x" _ 9 (by decide +kernel)]
  decide +kernel

/-- Rules of the grammar tried one after the other on a text: a rule that matches takes its part, one that does not leaves the text. -/
inductive Scans : Str → List Rule → List Bool → Prop where
  | done {u} : Scans u [] []
  | hit {u v ev r rs bs} : Big G (.call r) u (some (ev, v)) → Scans v rs bs → Scans u (r :: rs) (true :: bs)
  | miss {u r rs bs} : Big G (.call r) u none → Scans u rs bs → Scans u (r :: rs) (false :: bs)

/-- There is one outcome. -/
theorem Scans.det {u rs bs} (h : Scans u rs bs) : ∀ {bs'}, Scans u rs bs' → bs = bs' := by
  induction h with
  | done => intro _ h; cases h; rfl
  | hit hb _ ih =>
    intro _ h
    cases h with
    | hit hb' h' => have := hb.det hb'; cases this; rw [ih h']
    | miss hb' _ => have := hb.det hb'; cases this
  | miss hb _ ih =>
    intro _ h
    cases h with
    | hit hb' _ => have := hb.det hb'; cases this
    | miss _ h' => rw [ih h']

/-- The steps that try rules. -/
def tries (rs : List Rule) : List Act := rs.map fun r => .parse (some (kindNum (.rule r)))

/-- The answers to them. -/
def tried (bs : List Bool) : List Ans := bs.map fun b => if b then .none else .failed

theorem scan_run (Q : Char → Bool) {q : Str} : ∀ (rs : List Rule) (m : Pst) (u : Str), m.s = q → Rel q m.st u → ∃ bs, Scans u rs bs ∧ mActs Q m (tries rs) = .ok (tried bs)
  | [], _, _, _, _ => ⟨[], .done, rfl⟩
  | r :: rs, m, u, hs, hr => by
    have hl : u.length ≤ q.length := by rw [hr.len]; omega
    have hk : rankG r < 16 := by cases r <;> decide
    have hnd := denoteN_ne_div r u (depthBound q.length) (by unfold depthBound; omega)
    have hb := denoteN_big (G := G) (depthBound q.length) r u hnd
    have hm := execN_match G q (depthBound q.length) r m.st u hr
    have e0 : runRule (mkBuf m.s) (kindNum (.rule r)) m.st = execN (mkBuf q) G (depthBound q.length) r m.st := by rw [hs]; exact runRule_rule ..
    cases h : denoteN G (depthBound q.length) r u with
    | div => exact absurd h hnd
    | ok e t =>
      rw [h] at hm hb
      obtain ⟨st', _, ho, hr', _⟩ := hm
      obtain ⟨bs, h1, h2⟩ := scan_run Q rs { m with st := st', toks := st'.tree.take st'.ti } t hs hr'
      refine ⟨true :: bs, .hit hb h1, ?_⟩
      simp only [tries, List.map_cons, mActs, mAct, Option.getD_some, e0, ho, if_neg (Nat.not_lt.2 hr'.ti_le)]
      rw [show mActs Q _ (rs.map _) = _ from h2]
      rfl
    | fail =>
      rw [h] at hm hb
      obtain ⟨st', ho, hf⟩ := hm
      obtain ⟨b1, b2⟩ := execN_back ho
      have hr' := hf.restore hr
      have : ({ st' with pos := m.st.pos, ti := m.st.ti } : St) = st' := by rw [← b1, ← b2]
      rw [this] at hr'
      obtain ⟨bs, h1, h2⟩ := scan_run Q rs { m with st := st', toks := st'.tree, err := some st'.max } u hs hr'
      refine ⟨false :: bs, .miss hb h1, ?_⟩
      simp only [tries, List.map_cons, mActs, mAct, Option.getD_some, e0, ho]
      rw [show mActs Q _ (rs.map _) = _ from h2]
      rfl

/-- C91: without a `Reset` in between, `Parse` with rules reads a text piece by piece: each rule is tried where the last one that matched ended, and whether it is
accepted is what the grammar says about the rest of the text. -/
theorem C91_scan {P : Gen.Prog} (hP : readGo supportText = some P) (Q : Char → Bool) (pretty : Bool) (s : Str) (l : List Act) (q : Str) (rs : List Rule) (n : Nat) (xs : List Ans)
    (hn : 5 + actsNeed Q (startPst pretty s) (l ++ .buffer q :: .reset :: tries rs) ≤ n)
    (hn' : 5 + actsNeed Q (startPst pretty s) l ≤ n) (hx : goSteps P Q n pretty s l = .ok xs) :
    ∃ bs, Scans q rs bs ∧ goSteps P Q n pretty s (l ++ .buffer q :: .reset :: tries rs) = .ok (xs ++ .none :: .none :: tried bs) := by
  rw [C91_steps hP Q pretty s _ n hn'] at hx
  rw [C91_steps hP Q pretty s _ n hn]
  obtain ⟨m, ys, zs, rfl, _, h3, h4, h5⟩ := mActs_append Q l [] _ _ (by rw [List.append_nil]; exact hx)
  cases h4
  obtain ⟨bs, h1, h2⟩ := scan_run Q rs { m with txt := q, s := q, st := { initSt with tree := m.st.tree } } q rfl (staleSt_rel q _)
  refine ⟨bs, h1, ?_⟩
  rw [h5]
  simp only [mActs, mAct, h2, andThen, List.append_nil]

/-- Which answers are errors, for examples. -/
def refused : Gen.Res (List Ans) → Option (List Bool)
  | .ok l => some (l.map fun x => match x with | .failed => true | _ => false)
  | _ => none

-- an identifier, an operator, an integer, and then no string
example : refused (goSteps gDecls ascii 9 false c!"x" (.buffer c!"ab >= 12" :: .reset :: tries [.Identifier, .Compare, .Integer, .String])) =
      some [false, false, false, false, false, true] ∧
    ∃ bs, Scans c!"ab >= 12" [.Identifier, .Compare, .Integer, .String] bs ∧
      goSteps gDecls ascii 9 false c!"x" (.buffer c!"ab >= 12" :: .reset :: tries [.Identifier, .Compare, .Integer, .String]) = .ok (.none :: .none :: tried bs) := by
  refine ⟨?_, C91_scan C87_program ascii false c!"x" [] c!"ab >= 12" _ 9 [] (by decide +kernel) (by decide) ?_⟩
  · rw [C91_steps C87_program ascii false c!"x" _ 9 (by decide +kernel)]
    decide +kernel
  · rw [C91_steps C87_program ascii false c!"x" _ 9 (by decide)]
    rfl

/-- Steps for which the field `Buffer` does not count. -/
def Gen.Act.noText : Act → Prop
  | .reset => False
  | .tree => False
  | .sprint => False
  | _ => True

theorem mActs_txt (Q : Char → Bool) (t : Str) : ∀ (l : List Act), (∀ o ∈ l, o.noText) → ∀ m : Pst, mActs Q { m with txt := t } l = mActs Q m l
  | [], _, _ => rfl
  | o :: l, h, m => by
    have ih := mActs_txt Q t l fun o ho => h o (List.mem_cons_of_mem _ ho)
    have ho := h o (List.mem_cons_self ..)
    unfold mActs
    cases o with
    | reset => cases ho
    | tree => cases ho
    | sprint => cases ho
    | buffer u =>
      have := mActs_txt Q u l fun o ho => h o (List.mem_cons_of_mem _ ho)
      simp only [mAct]
    | pretty b => simp only [mAct, ← ih { m with pr := b }]
    | parse g =>
      simp only [mAct]
      cases runRule (mkBuf m.s) (g.getD 1) m.st with
      | ok st =>
        by_cases hl : st.tree.length < st.ti
        · simp only [if_pos hl]
        · simp only [if_neg hl, ← ih { m with st := st, toks := st.tree.take st.ti }]
      | fail st => simp only [← ih { m with st := st, toks := st.tree, err := some st.max }]
      | panic => rfl
      | div => rfl
    | tokens => simp only [mAct, ih]
    | print => simp only [mAct, ih]
    | message =>
      obtain ⟨u, pr, s, st, toks, err⟩ := m
      simp only [mAct]
      cases err with
      | none => simp only [← ih ⟨u, pr, s, st, toks, none⟩]
      | some e => simp only; cases errorText Q pr s e <;> simp only [← ih ⟨u, pr, s, st, toks, some e⟩]

/-- C91: a text that is assigned to `Buffer` changes nothing before `Reset`, other than the printed syntax trees: what follows gives the same answers. -/
theorem C91_buffer {P : Gen.Prog} (hP : readGo supportText = some P) (Q : Char → Bool) (pretty : Bool) (s : Str) (l l' : List Act) (t : Str) (n : Nat) (xs : List Ans)
    (hl : ∀ o ∈ l', o.noText) (hn : 5 + actsNeed Q (startPst pretty s) (l ++ l') ≤ n) (hn' : 5 + actsNeed Q (startPst pretty s) (l ++ .buffer t :: l') ≤ n)
    (hx : goSteps P Q n pretty s (l ++ l') = .ok xs) :
    goSteps P Q n pretty s (l ++ .buffer t :: l') = .ok (xs.take l.length ++ .none :: xs.drop l.length) := by
  rw [C91_steps hP Q pretty s _ n hn] at hx
  rw [C91_steps hP Q pretty s _ n hn']
  obtain ⟨m, ys, zs, rfl, h2, _, h4, h5⟩ := mActs_append Q l _ _ _ hx
  rw [h5, ← h2, List.take_left, List.drop_left]
  simp only [mActs, mAct, mActs_txt Q t l' hl m, h4, andThen]

-- the text in Buffer is refused, but not looked at; the syntax tree cuts its pieces from it
example : texts (goSteps gDecls ascii 40 false c!"a" [.buffer c!"(", .parse (some 15), .print, .sprint]) =
    some [none, none, some (tokensText [⟨.text, 0, 1⟩, ⟨.act 14, 1, 1⟩, ⟨.rule .Identifier, 0, 1⟩]), some c!"Identifier \"(\"\n PegText \"(\"\n"] := by
  rw [C91_steps C87_program ascii false c!"a" _ 40 (by decide +kernel)]
  decide +kernel

end Verif
