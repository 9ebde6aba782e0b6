import Verif.Props.EndToEnd
import Verif.Props.GoSupport
import Verif.Props.ParseErrors

/-!
# C88: `Parse` and parser objects agree, as written

`Parse` is run from the text of parse.go, tree.go, … (`goProgram`), the parser object from the text of miniquery.peg.go (`supportText`).
-/

namespace Verif
open Mini

/-- `Parse` returns this error and no tree, and leaves the memory alone. -/
def FailsWith (P : Prog) (Q : Char → Bool) (q : Str) (e : Mini.Val) : Prop :=
  ∀ n h, 7 ≤ n → ∃ h', Keeps h h' ∧ call P (mqLib Q) n (.fn c!"Parse") [.str q] h = .ok ([.nil, e], h')

theorem failsWith_of {P : Prog} (hP : goProgram = some P) (Q : Char → Bool) {q : Str} {e : Err} (h : parse q = .err e) : FailsWith P Q q (errVal e) := fun n g hn => by
  obtain ⟨h', k, ⟨y, hy, r⟩ | ⟨e', he', r⟩⟩ := C81_parse hP Q q n hn g
  · rw [h] at hy; cases hy
  · rw [h] at he'; cases he'; exact ⟨h', k, r⟩

/-- C88: a parser object, whatever it was used for before, refuses exactly the queries for which `Parse` returns a syntax error, and its message names the place that this
error has.  For the others it has tokens, and `Parse` returns a tree, or the error that an integer of the query is out of range. -/
theorem C88_agree {P : Prog} (hP : goProgram = some P) {R : Gen.Prog} (hR : Gen.readGo Gen.supportText = some R) (Q : Char → Bool) (pretty : Bool) (s : Str)
    (l : List Gen.Op) (hl : ∀ o ∈ l, Op.quiet o) (q : Str) (n : Nat) (hn : 5 ≤ n) :
    ∃ xs, xs.length = l.length ∧
      ((∃ ts, Gen.goRun R Q n pretty s (l ++ [.ask q]) = .ok (xs ++ [.toks ts]) ∧
          ((∃ x, ParsesTo P Q q x) ∨
           ∃ k, 9223372036854775807 < k ∧ Nat.toDigits 10 k <:+: q ∧ FailsWith P Q q (mkErr c!"Atoi range" (Nat.toDigits 10 k)))) ∨
       (∃ (b e : Nat) (name : Str), FailsWith P Q q (.obj c!"parseError" [(c!"begin", .int b), (c!"end", .int e)]) ∧
          Gen.goRun R Q n pretty s (l ++ [.ask q]) = .ok (xs ++ [.failed]) ∧
          Gen.goRun R Q n pretty s (l ++ [.ask q, .message]) = .ok (xs ++ [.failed, .text
            (c!"\nparse error near " ++ name ++ c!" (line " ++ natText (lineOf (mkBuf q) b) ++ c!" symbol " ++ natText (symbolOf (mkBuf q) b) ++ c!" - line " ++
              natText (lineOf (mkBuf q) e) ++ c!" symbol " ++ natText (symbolOf (mkBuf q) e) ++ c!"):\n" ++ quote Q ((q.drop b).take (e - b)) ++ c!"\n")]))) := by
  have hq : ∀ l', (∀ o ∈ l', o ≠ .tree ∧ o ≠ .sprint) → Gen.needs Q pretty ⟨s, [], [], none⟩ (l ++ l') = 0 := fun l' hl' => needs_zero _ _ _ _ fun o ho => by
    rcases List.mem_append.1 ho with h | h
    · have := hl o h
      constructor <;> (rintro rfl; exact this)
    · exact hl' o h
  rw [C87_uses hR _ _ _ _ _ (by rw [hq _ (by simp)]; exact hn), C87_uses hR _ _ _ _ _ (by rw [hq _ (by simp)]; exact hn)]
  obtain ⟨xs, m, e1, e2⟩ := mOps_quiet Q pretty l ⟨s, [], [], none⟩ hl
  refine ⟨xs, e1, ?_⟩
  have hpq := parse_peg q
  rcases C50_tokens q m.arr [] with ⟨ts, a, b, h0, h1⟩ | ⟨t, a, b, h0, h1⟩
  · refine .inl ⟨ts.map Gen.tokVal, e2 _ _ (by simp only [Gen.mOps, Gen.mOp, h0]), ?_⟩
    rcases (C01_parse_total q).1 with ⟨x, hx⟩ | ⟨x, hx⟩
    · exact .inl ⟨x, (parsesTo_iff hP Q q x).2 hx⟩
    · rcases C60_errors q x hx with ⟨b', e', rfl, hno⟩ | ⟨k, rfl, hk, hin⟩
      · exact absurd h1 (hno _ _)
      · exact .inr ⟨k, hk, hin, failsWith_of hP Q hx⟩
  · have hx : parse q = .err (.syntax t.b t.e) := by
      rw [hpq, Peg.query, show ({} : Peg).toks = [] from rfl, h1]
    refine .inr ⟨t.b, t.e, coloured pretty c!"34" (maxName t), failsWith_of hP Q hx, e2 _ _ (by simp only [Gen.mOps, Gen.mOp, h0]), e2 _ _ ?_⟩
    simp only [Gen.mOps, Gen.mOp, h0, C44_message Q pretty q m.arr t a h0]

/-- C88, put shortly: a query has a syntax tree on a parser object if and only if `Parse` does not return a syntax error. -/
theorem C88_syntax {P : Prog} (hP : goProgram = some P) {R : Gen.Prog} (hR : Gen.readGo Gen.supportText = some R) (Q : Char → Bool) (pretty : Bool) (s : Str)
    (l : List Gen.Op) (hl : ∀ o ∈ l, Op.quiet o) (q : Str) (n : Nat) (hn : 5 ≤ n) :
    (∃ xs ts, Gen.goRun R Q n pretty s (l ++ [.ask q]) = .ok (xs ++ [.toks ts])) ↔
      ¬ ∃ b e : Nat, FailsWith P Q q (.obj c!"parseError" [(c!"begin", .int b), (c!"end", .int e)]) := by
  obtain ⟨ys, -, ⟨ts, r, h⟩ | ⟨b, e, name, h, r, -⟩⟩ := C88_agree hP hR Q pretty s l hl q n hn
  · refine ⟨fun _ ⟨b, e, hf⟩ => ?_, fun _ => ⟨ys, ts, r⟩⟩
    obtain ⟨h1, _, r1⟩ := hf 7 noHeap (Nat.le_refl _)
    rcases h with ⟨x, hx⟩ | ⟨k, _, _, hk⟩
    · obtain ⟨h2, _, r2⟩ := hx 7 noHeap (Nat.le_refl _)
      exact absurd (one_outcome r1 r2).2 (by simp)
    · obtain ⟨h2, _, r2⟩ := hk 7 noHeap (Nat.le_refl _)
      exact absurd (one_outcome r1 r2).2 (by simp [mkErr])
  · refine ⟨fun ⟨xs, ts, r'⟩ => ?_, fun hno => absurd ⟨b, e, h⟩ hno⟩
    rw [r] at r'
    have := (List.append_inj' (Gen.Res.ok.inj r') rfl).2
    simp at this

-- a query with a tree, a query with an integer that is too large, and a syntax error, after another query on the same object
example : (∃ x, ParsesTo mq ascii c!"a = 1" x) ∧ (∃ k, FailsWith mq ascii c!"a = 9223372036854775808" (mkErr c!"Atoi range" k)) ∧
    FailsWith mq ascii c!"a = " (.obj c!"parseError" [(c!"begin", .int 3), (c!"end", .int 4)]) ∧
    texts (Gen.goRun Gen.gDecls ascii 5 false c!"" [.ask c!"b", .ask c!"a = ", .message]) =
      some [none, none, some c!"\nparse error near Space (line 1 symbol 4 - line 1 symbol 5):\n\" \"\n"] := by
  refine ⟨⟨_, (parsesTo_iff C81_program _ _ _).2 (by decide +kernel : parse c!"a = 1" = .ok (.cmp (.ident c!"a") (.op c!"eq") (.int 1)))⟩,
    ⟨_, failsWith_of C81_program ascii (by decide +kernel : parse c!"a = 9223372036854775808" = .err (.intRange c!"9223372036854775808"))⟩,
    failsWith_of C81_program ascii (by decide +kernel : parse c!"a = " = .err (.syntax 3 4)), ?_⟩
  rw [C87_uses C87_program _ _ _ _ _ (by rw [needs_zero _ _ _ _ (by simp)]; omega)]
  decide +kernel

end Verif
