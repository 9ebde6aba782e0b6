import Verif.Props.GoSupport
import Verif.Props.Parse

/-!
# C89: `Parse` with a rule, as written

`Parse(rule ...int)` of the generated parser takes the number of a rule to start with.  Runs of the text of miniquery.peg.go, as in C87.
-/

namespace Verif
open Gen

/-- The message of a syntax error at a place inside the query. -/
theorem message_inside (P : Char → Bool) (pretty : Bool) (s : Str) (m : Tok) (h1 : m.b ≤ m.e) (h2 : m.e ≤ s.length) :
    errorText P pretty s m = some
      (c!"\nparse error near " ++ coloured pretty c!"34" (maxName m) ++ c!" (line " ++ natText (lineOf (mkBuf s) m.b) ++ c!" symbol " ++
        natText (symbolOf (mkBuf s) m.b) ++ c!" - line " ++ natText (lineOf (mkBuf s) m.e) ++ c!" symbol " ++ natText (symbolOf (mkBuf s) m.e) ++
        c!"):\n" ++ quote P ((s.drop m.b).take (m.e - m.b)) ++ c!"\n") := by
  have hlen : (mkBuf s).length = s.length + 1 := by simp [mkBuf]
  obtain ⟨t, ht, g1, g2⟩ := trLoop_two (mkBuf s) [] m.b m.e (by simp) h1 (by simp [hlen]; omega)
  have ht : translatePositions (mkBuf s) m.b m.e = some t := by
    rw [translatePositions, if_pos h1]; simpa using ht
  have hr : errorReport s m.b m.e = some ((lineOf (mkBuf s) m.b, symbolOf (mkBuf s) m.b), (lineOf (mkBuf s) m.e, symbolOf (mkBuf s) m.e),
      (((s.drop m.b).take (m.e - m.b)).map Char.toNat)) := by
    rw [errorReport, ht]
    simp only
    rw [if_pos ⟨h1, by rw [hlen]; omega⟩, g1, g2]
    have : ((mkBuf s).drop m.b).take (m.e - m.b) = ((s.drop m.b).take (m.e - m.b)).map Char.toNat := by
      rw [mkBuf, List.drop_append_of_le_length (by simp; omega), List.take_append_of_le_length (by simp; omega)]
      simp [List.map_take, List.map_drop]
    simp [this]
  rw [errorText, hr, Option.map_some]
  simp only [ofNat_toNat_map]

theorem quiet_needs {Q : Char → Bool} {pretty : Bool} {m : Mst} {l : List Op} (hl : ∀ o ∈ l, Op.quiet o) {l' : List Op} (hl' : ∀ o ∈ l', o ≠ .tree ∧ o ≠ .sprint) :
    needs Q pretty m (l ++ l') = 0 := needs_zero _ _ _ _ fun o ho => by
  rcases List.mem_append.1 ho with h | h
  · have := hl o h
    constructor <;> (rintro rfl; exact this)
  · exact hl' o h

/-- C89: `Parse` with the number of a rule of the grammar, on an object that was used in any way before.  It accepts the query if and only if the rule matches a
beginning of it: what follows does not matter.  The last token says what was matched, the captures and actions among the tokens are those of the match.  If the
rule does not match, the error can be printed. -/
theorem C89_rule {P : Gen.Prog} (hP : readGo supportText = some P) (Q : Char → Bool) (pretty : Bool) (s : Str) (l : List Op) (hl : ∀ o ∈ l, Op.quiet o)
    (r : Rule) (q : Str) (n : Nat) (hn : 5 ≤ n) :
    ∃ xs, xs.length = l.length ∧
      ((∃ (ts : List Tok) (ev : List Ev) (a b : Str), q = a ++ b ∧ Big G (.call r) q (some (ev, b)) ∧ goRun P Q n pretty s (l ++ [.askAt (kindNum (.rule r)) q]) = .ok (xs ++ [.toks (ts.map tokVal)]) ∧
          ts.filterMap (evOf q) = ev ∧ (∀ t ∈ ts, t.b ≤ t.e ∧ t.e ≤ q.length) ∧ ts.getLast? = some ⟨.rule r, 0, a.length⟩) ∨
       (∃ (b e : Nat) (name : Str), Big G (.call r) q none ∧ b ≤ e ∧ e ≤ q.length ∧
          goRun P Q n pretty s (l ++ [.askAt (kindNum (.rule r)) q, .message]) = .ok (xs ++ [.failed, .text
            (c!"\nparse error near " ++ name ++ c!" (line " ++ natText (lineOf (mkBuf q) b) ++ c!" symbol " ++ natText (symbolOf (mkBuf q) b) ++ c!" - line " ++
              natText (lineOf (mkBuf q) e) ++ c!" symbol " ++ natText (symbolOf (mkBuf q) e) ++ c!"):\n" ++ quote Q ((q.drop b).take (e - b)) ++ c!"\n")]))) := by
  have hu : ∀ l', (∀ o ∈ l', o ≠ Op.tree ∧ o ≠ Op.sprint) → goRun P Q n pretty s (l ++ l') = mOps Q pretty ⟨s, [], [], none⟩ (l ++ l') := fun l' hl' =>
    C87_uses hP _ _ _ _ _ (by rw [quiet_needs hl hl']; exact hn)
  obtain ⟨xs, m, e1, e2⟩ := mOps_quiet Q pretty l ⟨s, [], [], none⟩ hl
  refine ⟨xs, e1, ?_⟩
  rcases pegParseAt_rule r q m.arr with ⟨ts, tr, ev, b, h, hb, he, hin, hlast, hrest⟩ | ⟨t, tr, h, hb, h1, h2⟩
  · refine .inl ⟨ts, ev, q.take (q.length - b.length), b, ?_, hb, ?_, he, hin, ?_⟩
    · exact (List.take_append_drop (q.length - b.length) q).symm.trans (by rw [hrest])
    · rw [hu _ (by simp)]
      exact e2 _ _ (by simp only [mOps, mOp, h])
    · rw [hlast, List.length_take, Nat.min_eq_left (Nat.sub_le ..)]
  · exact .inr ⟨t.b, t.e, coloured pretty c!"34" (maxName t), hb, h1, h2, (hu _ (by simp)).trans <| e2 _ _ (by simp only [mOps, mOp, h, message_inside Q pretty q t h1 h2])⟩

-- the rule Identifier on a text that goes on, and on one that does not begin with an identifier; the whole grammar refuses the first
example : kindNum (.rule .Identifier) = 15 ∧
    texts (goRun gDecls ascii 9 false c!"x" [.askAt 15 c!"ab ,c", .askAt 15 c!",", .message, .ask c!"ab ,c", .message]) =
      some [none, none, some c!"\nparse error near Unknown (line 1 symbol 1 - line 1 symbol 1):\n\"\"\n", none,
        some c!"\nparse error near Space (line 1 symbol 3 - line 1 symbol 4):\n\" \"\n"] := by
  rw [C87_uses C87_program _ _ _ _ _ (by rw [needs_zero _ _ _ _ (by simp)]; omega)]
  decide +kernel

/-- C89: rule 1 is the one that `Parse` starts with if no rule is given. -/
theorem C89_default {P : Gen.Prog} (hP : readGo supportText = some P) (Q : Char → Bool) (pretty : Bool) (s : Str) (l l' : List Op) (q : Str) (K n : Nat)
    (hK : ∀ t, asks (l ++ .ask q :: l') t → t.length ≤ K) (hn : 16 * K + 25 ≤ n) :
    goRun P Q n pretty s (l ++ .askAt 1 q :: l') = goRun P Q n pretty s (l ++ .ask q :: l') := by
  rw [C87_bound hP Q pretty s _ K n hK hn, C87_bound hP Q pretty s _ K n ?_ hn]
  · have h1 : ∀ m, mOp Q pretty m (.askAt 1 q) = mOp Q pretty m (.ask q) := fun m => by
      have : pegParseAt 1 q m.arr = pegParse q m.arr := by unfold pegParseAt pegParse; rw [runRule_one]; cases execN (mkBuf q) G (depthBound q.length) .Grammar { initSt with tree := m.arr } <;> rfl
      simp only [mOp, this]
    generalize (⟨s, [], [], none⟩ : Mst) = m
    induction l generalizing m with
    | nil => simp only [List.nil_append, mOps, h1]
    | cons o l ih =>
      simp only [List.cons_append, mOps]
      cases mOp Q pretty m o with
      | ok x => simp only [ih (fun t ht => hK t (by
          rcases ht with ht | ⟨k, ht⟩
          · exact .inl (List.mem_cons_of_mem _ ht)
          · exact .inr ⟨k, List.mem_cons_of_mem _ ht⟩))]
      | panic => rfl
      | stuck => rfl
      | deep => rfl
  · intro t ht
    apply hK
    simp only [asks, List.mem_append, List.mem_cons, reduceCtorEq, false_or, Op.ask.injEq, Op.askAt.injEq] at ht ⊢
    rcases ht with ht | ⟨k, ht | ⟨_, rfl⟩ | ht⟩
    · exact .inl (ht.imp id .inr)
    · exact .inr ⟨k, .inl ht⟩
    · exact .inl (.inr (.inl rfl))
    · exact .inr ⟨k, .inr ht⟩

example (Q : Char → Bool) : goRun gDecls Q 73 true c!"" [.ask c!"(", .askAt 1 c!"a", .tree] = goRun gDecls Q 73 true c!"" [.ask c!"(", .ask c!"a", .tree] :=
  C89_default C87_program Q true c!"" [.ask c!"("] [.tree] c!"a" 3 73 (by simp [asks]) (by omega)

/-- C89: `Parse` panics for numbers that are not those of rule functions: those below 1 or above 63, and 36, which is the number of captured texts. -/
theorem C89_panic {P : Gen.Prog} (hP : readGo supportText = some P) (Q : Char → Bool) (pretty : Bool) (s : Str) (l : List Op) (hl : ∀ o ∈ l, Op.quiet o)
    (k : Int) (q : Str) (n : Nat) (hn : 5 ≤ n) :
    goRun P Q n pretty s (l ++ [.askAt k q]) = .panic ↔ k < 1 ∨ 63 < k ∨ k = 36 := by
  rw [C87_uses hP _ _ _ _ _ (by rw [quiet_needs hl (by simp)]; exact hn)]
  have key : ∀ m, mOps Q pretty m [.askAt k q] = .panic ↔ k < 1 ∨ 63 < k ∨ k = 36 := by
    intro m
    constructor
    · intro h
      apply Classical.byContradiction
      intro hk
      have hk' : ¬ (k < 1 ∨ 63 < k) := fun h => hk (h.imp id .inl)
      have hne : runRule (mkBuf q) k { initSt with tree := m.arr } ≠ .panic := by
        have ⟨j, hj⟩ : ∃ j : Nat, k = j := ⟨k.toNat, by omega⟩
        subst hj
        have hx : ∃ d, kindOf j = some d ∧ d ≠ .text := by
          unfold kindOf
          rw [if_neg (by omega)]
          split
          · exact ⟨_, rfl, by simp⟩
          · split
            · exact ⟨_, rfl, by simp⟩
            · rw [if_neg (by omega)]; exact ⟨_, rfl, by simp⟩
        obtain ⟨d, hd, hd2⟩ := hx
        unfold runRule
        rw [if_neg hk', Int.toNat_natCast, hd]
        cases d with
        | rule r =>
          have := runRule_rule r q { initSt with tree := m.arr }
          have hb : (mkBuf q).length - 1 = q.length := by simp [mkBuf]
          simp only [hb, ne_eq]
          rcases C01_rules_total q r _ q (staleSt_rel q m.arr) with ⟨_, e⟩ | ⟨_, e⟩ <;> rw [e] <;> simp
        | act a => simp
        | text => exact absurd rfl hd2
      rcases runRule_cases k q m.arr with e | ⟨st, e, e'⟩ | ⟨st, e⟩
      · exact hne e
      · have : ¬ st.tree.length < st.ti := by omega
        simp only [mOps, mOp, pegParseAt, e, if_neg this] at h; cases h
      · simp only [mOps, mOp, pegParseAt, e] at h; cases h
    · intro h
      have hr : runRule (mkBuf q) k { initSt with tree := m.arr } = .panic := by
        unfold runRule
        split
        · rfl
        · rename_i hk
          have : k = 36 := by omega
          subst this
          rfl
      simp only [mOps, mOp, pegParseAt, hr]
  obtain ⟨xs, m, e1, e2⟩ := mOps_quiet' Q pretty l ⟨s, [], [], none⟩ hl
  rw [← key m, e2]
  cases mOps Q pretty m [.askAt k q] <;> simp [andThen]

-- a rule of the grammar before, then the number of captured texts; an action matches the empty text
example (Q : Char → Bool) : goRun gDecls Q 9 true c!"" [.askAt 15 c!"a", .askAt 36 c!"a"] = .panic ∧ goRun gDecls Q 9 true c!"" [.askAt 15 c!"a", .askAt 37 c!"a"] ≠ .panic :=
  have hq : ∀ o ∈ [Op.askAt 15 c!"a"], Op.quiet o := fun o ho => by rw [List.mem_singleton.1 ho]; exact ⟨.Identifier, rfl⟩
  ⟨(C89_panic C87_program Q true c!"" [.askAt 15 c!"a"] hq 36 c!"a" 9 (by omega)).2 (by omega),
   fun h => absurd ((C89_panic C87_program Q true c!"" [.askAt 15 c!"a"] hq 37 c!"a" 9 (by omega)).1 h) (by omega)⟩

end Verif
