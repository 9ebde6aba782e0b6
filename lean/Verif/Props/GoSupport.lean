import Verif.Gen.Texts
import Verif.Gen.Session
import Verif.Props.Messages
import Verif.Props.Word32
import Verif.StepsTree

/-!
# C87: the support code of the generated file, run as written

`supportText` is the text of miniquery.peg.go without the numbering of the rules, `Execute` (C81) and the rule functions (C77).  `readGo` reads it as a program,
`call` runs it (`Verif.Gen.Eval`); rule functions run as the model of the recogniser.  `goRun` is a program that makes a parser object and uses it in any way;
`mOps` says what it should see.
-/

namespace Verif
open Gen

/-- C87: the text is a program of the language that `call` runs. -/
theorem C87_program : readGo supportText = some gDecls := support_read

theorem support_of {P : Gen.Prog} (hP : readGo supportText = some P) : P = gDecls := (Option.some.inj (C87_program.symm.trans hP)).symm

/-- C87: whatever a program does with a parser object, it sees what the model says: tokens, errors, printed tokens, printed syntax
trees, messages, panics.  `n` bounds the depth of calls and the rounds of loops other than those over a slice; how much it takes depends on the number of tokens
whose tree is printed. -/
theorem C87_uses {P : Gen.Prog} (hP : readGo supportText = some P) (Q : Char → Bool) (pretty : Bool) (s : Str) (l : List Op) (n : Nat)
    (hn : 5 + needs Q pretty ⟨s, [], [], none⟩ l ≤ n) :
    goRun P Q n pretty s l = mOps Q pretty ⟨s, [], [], none⟩ l := by
  obtain ⟨n, rfl⟩ : ∃ n', n = n' + 5 := ⟨n - 5, by omega⟩
  rw [support_of hP]
  exact goRun_eq pretty s l (by omega)

/-- Without syntax trees, five is enough. -/
theorem needs_zero (Q : Char → Bool) (pretty : Bool) : ∀ (l : List Op) (m : Mst), (∀ o ∈ l, o ≠ .tree ∧ o ≠ .sprint) → needs Q pretty m l = 0
  | [], _, _ => rfl
  | o :: l, m, h => by
    have h0 : opNeeds m o = 0 := by
      have := h o (List.mem_cons_self ..)
      cases o <;> first | rfl | exact absurd rfl this.1 | exact absurd rfl this.2
    unfold needs
    split
    · rw [h0, needs_zero Q pretty l _ fun o ho => h o (List.mem_cons_of_mem _ ho)]; rfl
    · exact h0

/-- C87: the array of tokens after `Parse` with any rule: `C67_reuse` for every rule. -/
theorem C87_memory (k : Int) (s : Str) (tree0 : List Tok) :
    (∀ ts tr, pegParseAt k s tree0 = .ok ts tr → ts.length ≤ 8 * s.length + 9 ∧ tr.length ≤ max tree0.length (8 * s.length + 9)) ∧
    (∀ m tr, pegParseAt k s tree0 = .err m tr → tr.length ≤ max tree0.length (8 * s.length + 9)) := by
  have h0 : In32 tree0.length s.length 0 { initSt with tree := tree0 } := ⟨Nat.zero_le _, by simp [initSt], by simp only; omega⟩
  have hb : (mkBuf s).length - 1 = s.length := by simp [mkBuf]
  have key : Post32 tree0.length s.length 9 (runRule (mkBuf s) k { initSt with tree := tree0 }) := by
    unfold runRule
    split
    · trivial
    · split
      · rename_i r _
        rw [hb]
        have h1 : (0 : Int) + (tokT r).2 ≤ 9 := by cases r <;> decide
        have h2 : (0 : Int) + (tokT r).1 ≤ 9 := by cases r <;> decide
        have := (execN32_eq (inc := fun x => x + 1) (s := s) (fun _ _ => rfl) (depthBound s.length) r _ 0 h0 h1).2
        generalize execN (mkBuf s) G (depthBound s.length) r { initSt with tree := tree0 } = o at *
        cases o with
        | ok st => exact ⟨In32.pos this, by have := In32.ti this; omega, In32.tree this⟩
        | fail st => exact this
        | panic => trivial
        | div => trivial
      · refine ⟨Nat.zero_le _, by simp [addTok, initSt], ?_⟩
        cases tree0 <;> simp [addTok, initSt] <;> omega
      · trivial
  unfold pegParseAt
  generalize runRule (mkBuf s) k { initSt with tree := tree0 } = o at *
  constructor
  · intro ts tr h
    cases o with
    | ok st =>
      simp only at h
      split at h <;> cases h
      have h1 := In32.ti key
      have h2 := In32.pos key
      exact ⟨by rw [List.length_take]; omega, In32.tree key⟩
    | fail st => cases h
    | panic => cases h
    | div => cases h
  · intro m tr h
    cases o with
    | ok st => simp only at h; split at h <;> cases h
    | fail st => cases h; exact key
    | panic => cases h
    | div => cases h

/-- A query that is given to the parser object. -/
def asks (l : List Op) (s : Str) : Prop := Op.ask s ∈ l ∨ ∃ k, Op.askAt k s ∈ l

/-- With syntax trees, sixteen for every character of the longest query and twenty more are enough. -/
theorem needs_bound (Q : Char → Bool) (pretty : Bool) {K : Nat} : ∀ (l : List Op) (m : Mst), m.toks.length ≤ 8 * K + 9 → m.arr.length ≤ 8 * K + 9 →
    (∀ s, asks l s → s.length ≤ K) → needs Q pretty m l ≤ 16 * K + 20
  | [], _, _, _, _ => Nat.zero_le _
  | o :: l, m, ht, ha, hl => by
    have h0 : opNeeds m o ≤ 16 * K + 20 := by cases o <;> simp only [opNeeds] <;> omega
    have hl' : ∀ s, asks l s → s.length ≤ K := fun s hs => hl s (hs.imp (List.mem_cons_of_mem _) fun ⟨k, hk⟩ => ⟨k, List.mem_cons_of_mem _ hk⟩)
    unfold needs
    split
    · rename_i x m' e
      refine Nat.max_le.2 ⟨h0, needs_bound Q pretty l m' ?_ ?_ hl'⟩ <;> cases o with
      | ask s =>
        have hs := hl s (.inl (List.mem_cons_self ..))
        have hr := C67_reuse s m.arr
        simp only [mOp] at e
        split at e <;> cases e
        · rename_i h; have := hr.1 _ _ h; simp only; omega
        · rename_i h; have := hr.2 _ _ h; simp only; omega
      | askAt k s =>
        have hs := hl s (.inr ⟨k, List.mem_cons_self ..⟩)
        have hr := C87_memory k s m.arr
        simp only [mOp] at e
        split at e <;> cases e
        · rename_i h; have := hr.1 _ _ h; simp only; omega
        · rename_i h; have := hr.2 _ _ h; simp only; omega
      | print => simp only [mOp] at e; cases e; assumption
      | message =>
        simp only [mOp] at e
        split at e
        · cases e; assumption
        · split at e <;> cases e; assumption
      | tree => simp only [mOp] at e; split at e <;> cases e; assumption
      | sprint => simp only [mOp] at e; split at e <;> cases e; assumption
    · exact h0

/-- C87: `C87_uses` with a bound in terms of the queries only: loops and calls end within sixteen steps for every character of the longest query and 25 more. -/
theorem C87_bound {P : Gen.Prog} (hP : readGo supportText = some P) (Q : Char → Bool) (pretty : Bool) (s : Str) (l : List Op) (K n : Nat)
    (hK : ∀ q, asks l q → q.length ≤ K) (hn : 16 * K + 25 ≤ n) :
    goRun P Q n pretty s l = mOps Q pretty ⟨s, [], [], none⟩ l :=
  C87_uses hP Q pretty s l n (by have := needs_bound Q pretty l ⟨s, [], [], none⟩ (Nat.zero_le _) (Nat.zero_le _) hK; omega)

/-- A program for which the bound is attained. -/
example : 5 + needs ascii true ⟨c!"", [], [], none⟩ [.ask c!"1", .print, .tree] = 41 ∧ 16 * 1 + 25 = 41 := by decide +kernel

/-- The last `Pretty` among the options. -/
def lastPretty (pretty : Bool) (os : List Opt) : Bool := (os.filterMap fun o => match o with | .pretty b => some b | .size _ => none).getLastD pretty

theorem optsPretty_eq : ∀ (os : List Opt) (pretty : Bool), (∀ k, Opt.size k ∈ os → 0 ≤ k) → optsPretty pretty os = some (lastPretty pretty os)
  | [], _, _ => rfl
  | .pretty b :: os, pretty, h => by
    rw [optsPretty, optsPretty_eq os b fun k hk => h k (List.mem_cons_of_mem _ hk)]
    simp only [lastPretty, List.filterMap_cons, List.getLastD_cons]
  | .size k :: os, pretty, h => by
    have := h k (List.mem_cons_self ..)
    rw [optsPretty, if_neg (by omega), optsPretty_eq os pretty fun k hk => h k (List.mem_cons_of_mem _ hk)]
    simp only [lastPretty, List.filterMap_cons]

theorem optsPretty_none : ∀ (os : List Opt) (pretty : Bool) (k : Int), Opt.size k ∈ os → k < 0 → optsPretty pretty os = none
  | .pretty b :: os, pretty, k, h, hk => by
    rw [optsPretty]; exact optsPretty_none os b k (by simpa using h) hk
  | .size j :: os, pretty, k, h, hk => by
    rw [optsPretty]
    split
    · rfl
    · refine optsPretty_none os pretty k ?_ hk
      rcases List.mem_cons.1 h with e | e
      · cases e; omega
      · exact e

/-- C87: `Init` with options.  `Size` changes nothing that can be seen, but panics on a negative size; the last `Pretty` decides whether messages and trees have
colours. -/
theorem C87_options {P : Gen.Prog} (hP : readGo supportText = some P) (Q : Char → Bool) (os : List Opt) (pretty : Bool) (s : Str) (l : List Op) (K n : Nat)
    (hK : ∀ q, asks l q → q.length ≤ K) (hn : 16 * K + 25 ≤ n) :
    ((∀ k, Opt.size k ∈ os → 0 ≤ k) → goRunWith P Q n os pretty s l = goRun P Q n (lastPretty pretty os) s l) ∧
    (∀ k, Opt.size k ∈ os → k < 0 → goRunWith P Q n os pretty s l = .panic) := by
  have e : goRunWith P Q n os pretty s l =
      match optsPretty pretty os with
      | none => .panic
      | some pr' => mOps Q pr' ⟨s, [], [], none⟩ l := by
    obtain ⟨n, rfl⟩ : ∃ n', n = n' + 5 := ⟨n - 5, by omega⟩
    rw [support_of hP]
    exact goRunWith_eq os pretty s l fun pr' _ => by have := needs_bound Q pr' l ⟨s, [], [], none⟩ (Nat.zero_le _) (Nat.zero_le _) hK; omega
  constructor
  · intro h
    rw [e, optsPretty_eq os pretty h, C87_bound hP Q _ s l K n hK hn]
  · intro k hk h
    rw [e, optsPretty_none os pretty k hk h]

-- options as in generated examples, the last of two, and a negative size
example : goRunWith gDecls ascii 50 [.pretty true, .size 32768, .pretty false] true c!"" [.ask c!"a", .print] = goRun gDecls ascii 50 false c!"" [.ask c!"a", .print] ∧
    goRunWith gDecls ascii 50 [.pretty true, .size (-1)] true c!"" [.ask c!"a"] = .panic :=
  ⟨(C87_options C87_program ascii _ true c!"" [.ask c!"a", .print] 1 50 (by simp [asks]) (by omega)).1 (by simp),
   (C87_options C87_program ascii _ true c!"" [.ask c!"a"] 1 50 (by simp [asks]) (by omega)).2 (-1) (by simp) (by omega)⟩

theorem runRule_rule (r : Rule) (s : Str) (st : St) : runRule (mkBuf s) (kindNum (.rule r)) st = execN (mkBuf s) G (depthBound s.length) r st := by
  have hb : (mkBuf s).length - 1 = s.length := by simp [mkBuf]
  have h1 : 1 ≤ kindNum (.rule r) ∧ kindNum (.rule r) ≤ 63 := by cases r <;> decide
  unfold runRule
  rw [if_neg (by omega), Int.toNat_natCast, kindOf_kindNum, hb]

/-- The last token of a rule that matches is its own. -/
theorem execN_last {s : Str} {n r st st'} (h : execN (mkBuf s) G n r st = .ok st') (hl : st'.ti ≤ st'.tree.length) :
    (st'.tree.take st'.ti).getLast? = some ⟨.rule r, st.pos, st'.pos⟩ := by
  cases n with
  | zero => cases h
  | succ n =>
    unfold execN at h
    split at h <;> cases h
    rename_i st1 _
    have h1 : (addTok (.rule r) st.pos st1).ti = st1.ti + 1 := rfl
    have h2 : st1.ti ≤ st1.tree.length := by
      have := addTok_tree (.rule r) st.pos st1
      omega
    rw [h1, addTok_take _ _ _ h2, List.getLast?_append]
    rfl

/-- `Parse` with the number of a rule of the grammar accepts a query if and only if the rule matches a beginning of it; its tokens are inside the query, those
of captures and actions are those of the match, and the last one is what the rule matches. -/
theorem pegParseAt_rule (r : Rule) (s : Str) (tree0 : List Tok) :
    (∃ ts tr ev rest, pegParseAt (kindNum (.rule r)) s tree0 = .ok ts tr ∧ Big G (.call r) s (some (ev, rest)) ∧ ts.filterMap (evOf s) = ev ∧
      (∀ t ∈ ts, t.b ≤ t.e ∧ t.e ≤ s.length) ∧ ts.getLast? = some ⟨.rule r, 0, s.length - rest.length⟩ ∧ s.drop (s.length - rest.length) = rest) ∨
    (∃ m tr, pegParseAt (kindNum (.rule r)) s tree0 = .err m tr ∧ Big G (.call r) s none ∧ m.b ≤ m.e ∧ m.e ≤ s.length) := by
  have hr : rankG r < 16 := by cases r <;> decide
  have hnd := denoteN_ne_div r s (depthBound s.length) (by unfold depthBound; omega)
  have hb := denoteN_big (G := G) (depthBound s.length) r s hnd
  have hm := execN_match G s (depthBound s.length) r _ s (staleSt_rel s tree0)
  unfold pegParseAt
  rw [runRule_rule]
  cases hd : denoteN G (depthBound s.length) r s with
  | div => exact absurd hd hnd
  | fail =>
    rw [hd] at hm hb
    obtain ⟨st', ho, hf⟩ := hm
    exact .inr ⟨_, _, by rw [ho], hb, hf.maxb, hf.maxe⟩
  | ok ev rest =>
    rw [hd] at hm hb
    obtain ⟨st', toks, ho, hr, hx, ht, he, hin⟩ := hm
    have ht' : st'.tree.take st'.ti = toks := by simpa [initSt] using ht
    have hp : st'.pos = s.length - rest.length := by have h1 := hr.len; have h2 := hr.pos_le; omega
    refine .inl ⟨toks, st'.tree, ev, rest, ?_, hb, he, hin, ?_, ?_⟩
    · rw [ho]
      simp only
      rw [if_neg (by have := hr.ti_le; omega), ht']
    · rw [← ht', ← hp]; exact execN_last ho hr.ti_le
    · rw [← hp]; exact hr.rest.symm

/-- Parsing, also with a rule of the grammar, and printing tokens. -/
def Op.quiet : Op → Prop
  | .ask _ => True
  | .askAt k _ => ∃ r, k = kindNum (.rule r)
  | .print => True
  | _ => False

/-- The texts among the answers. -/
def texts : Gen.Res (List Ans) → Option (List (Option Str))
  | .ok l => some (l.map fun x => match x with | .text s => some s | _ => none)
  | _ => none

/-- Answers before those of a run. -/
def andThen (xs : List Ans) : Gen.Res (List Ans) → Gen.Res (List Ans)
  | .ok ys => .ok (xs ++ ys)
  | .panic => .panic
  | .stuck => .stuck
  | .deep => .deep

theorem mOps_quiet' (Q : Char → Bool) (pretty : Bool) : ∀ (l : List Op) (m : Mst), (∀ o ∈ l, Op.quiet o) →
    ∃ xs m', xs.length = l.length ∧ ∀ l', mOps Q pretty m (l ++ l') = andThen xs (mOps Q pretty m' l')
  | [], m, _ => ⟨[], m, rfl, fun l' => by rw [List.nil_append]; cases mOps Q pretty m l' <;> rfl⟩
  | o :: l, m, hl => by
    have ⟨x, m1, e⟩ : ∃ x m1, mOp Q pretty m o = .ok (x, m1) := by
      cases o with
      | ask s =>
        simp only [mOp]
        rcases pegParse_cases s m.arr with ⟨st, ts, _, _, _, e, _⟩ | ⟨st, _, e, _⟩ <;> rw [e] <;> exact ⟨_, _, rfl⟩
      | askAt k s =>
        obtain ⟨r, rfl⟩ := hl _ (List.mem_cons_self ..)
        simp only [mOp]
        rcases pegParseAt_rule r s m.arr with ⟨ts, tr, _, _, e, _⟩ | ⟨m, tr, e, _⟩ <;> rw [e] <;> exact ⟨_, _, rfl⟩
      | print => exact ⟨_, _, rfl⟩
      | message => exact (hl _ (List.mem_cons_self ..)).elim
      | tree => exact (hl _ (List.mem_cons_self ..)).elim
      | sprint => exact (hl _ (List.mem_cons_self ..)).elim
    obtain ⟨xs, m', e1, e2⟩ := mOps_quiet' Q pretty l m1 fun o ho => hl o (List.mem_cons_of_mem _ ho)
    refine ⟨x :: xs, m', by simp [e1], fun l' => ?_⟩
    rw [List.cons_append, mOps, e]
    simp only [e2 l']
    cases mOps Q pretty m' l' <;> rfl

theorem mOps_quiet (Q : Char → Bool) (pretty : Bool) (l : List Op) (m : Mst) (hl : ∀ o ∈ l, Op.quiet o) :
    ∃ xs m', xs.length = l.length ∧ ∀ l' ys, mOps Q pretty m' l' = .ok ys → mOps Q pretty m (l ++ l') = .ok (xs ++ ys) := by
  obtain ⟨xs, m', h1, h2⟩ := mOps_quiet' Q pretty l m hl
  exact ⟨xs, m', h1, fun l' ys h => by rw [h2, h]; rfl⟩

/-- C87: using a parser object for any number of queries never panics, and the message of the last query that failed can be read. -/
theorem C87_no_panic {P : Gen.Prog} (hP : readGo supportText = some P) (Q : Char → Bool) (pretty : Bool) (s : Str) (l : List Op) (hl : ∀ o ∈ l, Op.quiet o)
    (q : Str) (n : Nat) (hn : 5 ≤ n) :
    ∃ xs, xs.length = l.length ∧
      ((∃ ts, goRun P Q n pretty s (l ++ [.ask q]) = .ok (xs ++ [.toks ts])) ∨
       (∃ t, goRun P Q n pretty s (l ++ [.ask q, .message]) = .ok (xs ++ [.failed, .text t]))) := by
  have hq : ∀ l', (∀ o ∈ l', o ≠ .tree ∧ o ≠ .sprint) → needs Q pretty ⟨s, [], [], none⟩ (l ++ l') = 0 := fun l' hl' => needs_zero _ _ _ _ fun o ho => by
    rcases List.mem_append.1 ho with h | h
    · have := hl o h
      constructor <;> (rintro rfl; exact this)
    · exact hl' o h
  rw [C87_uses hP _ _ _ _ _ (by rw [hq _ (by simp)]; exact hn), C87_uses hP _ _ _ _ _ (by rw [hq _ (by simp)]; exact hn)]
  obtain ⟨xs, m, e1, e2⟩ := mOps_quiet Q pretty l ⟨s, [], [], none⟩ hl
  refine ⟨xs, e1, ?_⟩
  rcases pegParse_cases q m.arr with ⟨st, ts, _, _, _, e, _⟩ | ⟨st, _, e, _⟩
  · exact .inl ⟨ts.map tokVal, e2 _ _ (by simp only [mOps, mOp, e])⟩
  · obtain ⟨t, ht⟩ : ∃ t, errorText Q pretty q st.max = some t := ⟨_, C44_message Q pretty q m.arr st.max st.tree e⟩
    exact .inr ⟨t, e2 _ _ (by simp only [mOps, mOp, e, ht])⟩

example : texts (goRun gDecls ascii 9 false c!"x" [.message, .ask c!"a = ", .message, .ask c!"a,"]) =
    some [none, none, some c!"\nparse error near Space (line 1 symbol 4 - line 1 symbol 5):\n\" \"\n", none] := by
  rw [C87_uses C87_program _ _ _ _ _ (by rw [needs_zero _ _ _ _ (by simp)]; omega)]
  decide +kernel

-- an error that is kept until its parser object has a shorter query: the message panics (C50)
example : texts (goRun gDecls ascii 9 false c!"x" [.ask c!"a = ", .ask c!"a", .message]) = none := by
  rw [C87_uses C87_program _ _ _ _ _ (by rw [needs_zero _ _ _ _ (by simp)]; omega)]
  decide +kernel

/-- C87: after a query that was accepted, whatever came before, the syntax tree can be printed; it begins with the whole query, and the tree that
`SprintSyntaxTree` returns is the printed one without colours. -/
theorem C87_tree {P : Gen.Prog} (hP : readGo supportText = some P) (Q : Char → Bool) (hQ : Q esc = false) (pretty : Bool) (s : Str) (l : List Op)
    (hl : ∀ o ∈ l, Op.quiet o) (q : Str) (n : Nat) (hn : 5 + needs Q pretty ⟨s, [], [], none⟩ (l ++ [.ask q, .tree, .sprint]) ≤ n) :
    ∃ xs, xs.length = l.length ∧
      ((∃ ts t t', goRun P Q n pretty s (l ++ [.ask q, .tree, .sprint]) = .ok (xs ++ [.toks ts, .text t, .text (c!"Grammar " ++ (quote Q q ++ '\n' :: t'))]) ∧
          c!"Grammar " ++ (quote Q q ++ '\n' :: t') = if pretty then stripColour false t else t) ∨
       goRun P Q 5 pretty s (l ++ [.ask q]) = .ok (xs ++ [.failed])) := by
  have hq : needs Q pretty ⟨s, [], [], none⟩ (l ++ [.ask q]) = 0 := needs_zero _ _ _ _ fun o ho => by
    rcases List.mem_append.1 ho with h | h
    · have := hl o h
      constructor <;> (rintro rfl; exact this)
    · simp only [List.mem_singleton] at h
      subst h
      simp
  rw [C87_uses hP _ _ _ _ _ hn, C87_uses hP _ _ _ _ _ (by rw [hq]; exact Nat.le_refl _)]
  obtain ⟨xs, m, e1, e2⟩ := mOps_quiet Q pretty l ⟨s, [], [], none⟩ hl
  refine ⟨xs, e1, ?_⟩
  rcases pegParse_cases q m.arr with ⟨st, ts, _, _, _, e, _⟩ | ⟨st, _, e, _⟩
  · obtain ⟨ls, hp, -⟩ := C49_print q m.arr ts _ e
    have h0 : treeText Q false q ts = some (c!"Grammar " ++ (quote Q q ++ '\n' :: ls.flatMap (lineText Q false))) := by
      rw [treeText, hp]
      have h1 : lineText Q false (0, .rule .Grammar, q) = c!"Grammar " ++ (quote Q q ++ c!"\n") := rfl
      rw [Option.map, List.flatMap_cons, h1, List.append_assoc, List.append_assoc]
      rfl
    obtain ⟨t, ht⟩ : ∃ t, treeText Q pretty q ts = some t := by rw [treeText, hp]; exact ⟨_, rfl⟩
    refine .inl ⟨ts.map tokVal, t, ls.flatMap (lineText Q false), e2 _ _ (by simp only [mOps, mOp, e, ht, h0]), ?_⟩
    cases pretty with
    | false => rw [ht] at h0; simpa using (Option.some.inj h0).symm
    | true =>
      have hc := C57_colour Q hQ q ts
      rw [h0, ht] at hc
      simpa using hc
  · exact .inr (e2 _ _ (by simp only [mOps, mOp, e]))

-- the syntax tree of a query, after another query on the same object
example : texts (goRun gDecls ascii 200 true c!"" [.ask c!"b = 2", .ask c!"a", .sprint]) =
    some [none, none, some (c!"Grammar \"a\"\n Expression \"a\"\n  LogicExpression \"a\"\n   NotExpression \"a\"\n    CompareExpression \"a\"\n" ++
      c!"     CompareInExpression \"a\"\n      PredicateExpression \"a\"\n       BetweenExpression \"a\"\n        PrimaryExpression \"a\"\n" ++ c!"         Reference \"a\"\n          Identifier \"a\"\n           PegText \"a\"\n")] := by
  rw [C87_uses C87_program _ _ _ _ _ (by decide +kernel)]
  decide +kernel

-- after a query that was refused, the tokens of the query before it are still there: printing the tree panics (C49)
example : texts (goRun gDecls ascii 200 true c!"" [.ask c!"aaaa", .ask c!"(", .print]) ≠ none ∧ texts (goRun gDecls ascii 200 true c!"" [.ask c!"aaaa", .ask c!"(", .sprint]) = none := by
  rw [C87_uses C87_program _ _ _ _ _ (by decide +kernel), C87_uses C87_program _ _ _ _ _ (by decide +kernel)]
  decide +kernel

-- without a bound that is large enough the loops do not end
example : needs ascii true ⟨c!"", [], [], none⟩ [.ask c!"a", .tree] = 34 := by decide +kernel

/-! ## What the rule functions call -/

/-- C87: `add` in a state of the recogniser does what the model says; `Init` makes this function and leaves such a state (`C87_init`). -/
theorem C87_add {P : Gen.Prog} (hP : readGo supportText = some P) (Q : Char → Bool) {y pc a st buf o r} {h : Gen.Heap} (k : Rep y pc a st buf h) (kd : TokKind) (b n : Nat)
    (hn : 2 ≤ n) :
    ∃ h', call P (gLib Q) n (addFn y pc o r) [.int (kindNum kd), .int b] false h = .ok ([], h') ∧ Rep y pc a (addTok kd b st) buf h' := by
  obtain ⟨n, rfl⟩ : ∃ n', n = n' + 2 := ⟨n - 2, by omega⟩
  obtain ⟨v, hv, ht⟩ := k.tree
  rw [support_of hP]
  exact ⟨_, addFn_run k hv ht kd b, (addFn_rep k hv ht kd b).1⟩

/-- C87: `matchDot` in a state of the recogniser: it moves on unless the end of the query is reached. -/
theorem C87_dot {P : Gen.Prog} (hP : readGo supportText = some P) (Q : Char → Bool) {y pc a st buf o r} {h : Gen.Heap} (k : Rep y pc a st buf h) (x n : Nat)
    (hx : buf[st.pos]? = some x) (hn : 2 ≤ n) :
    ∃ h', call P (gLib Q) n (dotFn y pc o r) [] false h = .ok ([.bool (decide (x ≠ endSymbol))], h') ∧
      Rep y pc a (if x ≠ endSymbol then { st with pos := st.pos + 1 } else st) buf h' := by
  obtain ⟨n, rfl⟩ : ∃ n', n = n' + 2 := ⟨n - 2, by omega⟩
  rw [support_of hP]
  have e := dot_run (Q := Q) (n := n) (o := o) (r := r) k
  rw [hx] at e
  simp only at e
  split at e
  · rename_i hne
    refine ⟨h.put y.pos (.int (st.pos + 1)), e.trans (by simp [hne]), ?_⟩
    rw [if_pos hne]
    refine k.put (by simp [k.pos]) (by rw [put_mem_same]; rfl) ?_ ?_ k.maxOk rfl (apart k) (apart k) (apart k) ?_
    · rw [put_mem_other _ _ (apart k)]; exact k.ti
    · rw [put_mem_other _ _ (apart k)]; exact k.max
    · rw [put_mem_other _ _ (apart k)]; exact k.obj
  · rename_i hne
    refine ⟨h, e.trans (by simp [hne]), ?_⟩
    rw [if_neg hne]; exact k

/-- C87: `Init` leaves the state in which recognition starts. -/
theorem C87_init {P : Gen.Prog} (hP : readGo supportText = some P) (Q : Char → Bool) (s : Str) (pretty : Bool) (n : Nat) (hn : 3 ≤ n) :
    ∃ y pc h' bf r, call P (gLib Q) n (.meth (.ptr 0 []) c!"Init") [] false ⟨1, fun _ => newPeg P s pretty, []⟩ = .ok ([.nil], h') ∧ Rep y pc 0 initSt (mkBuf s) h' ∧
      h'.mem 0 = pegObj (.nilp c!"Tree") s bf (.rules ((c!"matchDot", .val (dotFn y pc .nil r)) :: (c!"add", .val (addFn y pc .nil r)) :: envT y pc .nil r))
        (parseFn y pc .nil r) (resetFn y pc .nil) pretty .nil := by
  obtain ⟨n, rfl⟩ : ∃ n', n = n' + 3 := ⟨n - 3, by omega⟩
  rw [support_of hP]
  have hm : (⟨1, fun _ => newPeg gDecls s pretty, []⟩ : Gen.Heap).mem 0 = pegObj (.nilp c!"Tree") s .nil .nil .nil .nil pretty .nil := rfl
  obtain ⟨h', c1, r1, m1, o1, b1⟩ := init_run (Q := Q) (n := n) (h := ⟨1, fun _ => newPeg gDecls s pretty, []⟩) (Nat.lt_succ_self 0) hm (.inl ⟨rfl, rfl⟩)
  exact ⟨_, _, h', _, _, c1, r1, m1⟩

-- `Init` on the query a, then `matchDot` twice and `add`: the second `matchDot` is at the end
example (Q : Char → Bool) : ∃ y pc h0 h1 h2 h3 r, call gDecls (gLib Q) 3 (.meth (.ptr 0 []) c!"Init") [] false ⟨1, fun _ => newPeg gDecls c!"a" false, []⟩ = .ok ([.nil], h0) ∧
    call gDecls (gLib Q) 2 (dotFn y pc .nil r) [] false h0 = .ok ([.bool true], h1) ∧ call gDecls (gLib Q) 2 (dotFn y pc .nil r) [] false h1 = .ok ([.bool false], h2) ∧
    call gDecls (gLib Q) 2 (addFn y pc .nil r) [.int (kindNum .text), .int 0] false h2 = .ok ([], h3) ∧ Rep y pc 0 ⟨1, 1, [⟨.text, 0, 1⟩], ⟨.text, 0, 1⟩⟩ (mkBuf c!"a") h3 := by
  obtain ⟨y, pc, h0, _, r, e0, k0, -⟩ := C87_init C87_program Q c!"a" false 3 (by omega)
  obtain ⟨h1, e1, k1⟩ := C87_dot C87_program Q (o := .nil) (r := r) k0 97 2 rfl (by omega)
  obtain ⟨h2, e2, k2⟩ := C87_dot C87_program Q (o := .nil) (r := r) k1 endSymbol 2 rfl (by omega)
  obtain ⟨h3, e3, k3⟩ := C87_add C87_program Q (o := .nil) (r := r) k2 .text 0 2 (by omega)
  exact ⟨y, pc, h0, h1, h2, h3, r, e0, e1, e2, e3, k3⟩

end Verif
