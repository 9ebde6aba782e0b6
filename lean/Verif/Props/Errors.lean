import Verif.ErrPos
import Verif.ParseThms

/-! # Error positions (C44) -/

namespace Verif

/-- Line of the character at index `i`: one more than the number of line ends up to and including it. -/
def lineOf (s : List Nat) (i : Nat) : Nat := 1 + (s.take (i + 1)).count 10
/-- Number of characters since the last line end, including the character at index `i`. -/
def symbolOf (s : List Nat) (i : Nat) : Nat := ((s.take (i + 1)).reverse.takeWhile (· != 10)).length

theorem lineOf_step (pre : List Nat) (c : Nat) (buf : List Nat) :
    lineOf (pre ++ c :: buf) pre.length = 1 + (pre.count 10) + (if c = 10 then 1 else 0) := by
  have : (pre ++ c :: buf).take (pre.length + 1) = pre ++ [c] := by
    rw [List.take_append, List.take_of_length_le (by omega)]; simp
  rw [lineOf, this, List.count_append]
  by_cases h : c = 10 <;> simp [h] <;> omega

theorem symbolOf_step (pre : List Nat) (c : Nat) (buf : List Nat) :
    symbolOf (pre ++ c :: buf) pre.length = if c = 10 then 0 else (pre.reverse.takeWhile (· != 10)).length + 1 := by
  have : (pre ++ c :: buf).take (pre.length + 1) = pre ++ [c] := by
    rw [List.take_append, List.take_of_length_le (by omega)]; simp
  rw [symbolOf, this]
  by_cases h : c = 10 <;> simp [h]

/-- The loop records the true position of both ends. -/
theorem trLoop_spec (buf : List Nat) : ∀ (pre : List Nat) (ps : List Nat) (m : PosMap),
    (∃ e, pre.length ≤ e ∧ e < pre.length + buf.length ∧ ps = [e]) →
    ∃ e, ps = [e] ∧ trLoop buf pre.length (1 + pre.count 10) (pre.reverse.takeWhile (· != 10)).length ps m =
      some ((e, (lineOf (pre ++ buf) e, symbolOf (pre ++ buf) e)) :: m) := by
  induction buf with
  | nil => rintro pre ps m ⟨e, h1, h2, _⟩; simp at h2; omega
  | cons c buf ih =>
    rintro pre ps m ⟨e, h1, h2, rfl⟩
    refine ⟨e, rfl, ?_⟩
    have hl : (if c = 10 then 1 + pre.count 10 + 1 else 1 + pre.count 10) = 1 + (pre ++ [c]).count 10 := by
      rw [List.count_append]; by_cases h : c = 10 <;> simp [h] <;> omega
    have hs : (if c = 10 then 0 else (pre.reverse.takeWhile (· != 10)).length + 1) = ((pre ++ [c]).reverse.takeWhile (· != 10)).length := by
      by_cases h : c = 10 <;> simp [h]
    rw [trLoop]
    by_cases he : pre.length = e
    · subst he
      rw [if_pos rfl, lineOf_step, symbolOf_step]
      simp only [List.dropWhile_nil]
      by_cases h : c = 10 <;> simp [h] 
    · rw [if_neg he, hl, hs]
      obtain ⟨e', he', ht⟩ := ih (pre ++ [c]) [e] m ⟨e, by simp; omega, by simp at h2 ⊢; omega, rfl⟩
      cases he'
      have e1 : (pre ++ [c]).length = pre.length + 1 := by simp
      have e2 : (pre ++ [c]) ++ buf = pre ++ c :: buf := by simp
      rw [e1, e2] at ht
      exact ht

theorem trLoop_two (buf : List Nat) : ∀ (pre : List Nat) (b e : Nat), pre.length ≤ b → b ≤ e → e < pre.length + buf.length →
    ∃ m, trLoop buf pre.length (1 + pre.count 10) (pre.reverse.takeWhile (· != 10)).length [b, e] [] = some m ∧
      m.get b = (lineOf (pre ++ buf) b, symbolOf (pre ++ buf) b) ∧ m.get e = (lineOf (pre ++ buf) e, symbolOf (pre ++ buf) e) := by
  induction buf with
  | nil => intro pre b e h1 h2 h3; simp at h3; omega
  | cons c buf ih =>
    intro pre b e h1 h2 h3
    have hl : (if c = 10 then 1 + pre.count 10 + 1 else 1 + pre.count 10) = 1 + (pre ++ [c]).count 10 := by
      rw [List.count_append]; by_cases h : c = 10 <;> simp [h] <;> omega
    have hs : (if c = 10 then 0 else (pre.reverse.takeWhile (· != 10)).length + 1) = ((pre ++ [c]).reverse.takeWhile (· != 10)).length := by
      by_cases h : c = 10 <;> simp [h]
    have e1 : (pre ++ [c]).length = pre.length + 1 := by simp
    have e2 : (pre ++ [c]) ++ buf = pre ++ c :: buf := by simp
    have el : 1 + (pre ++ [c]).count 10 = lineOf (pre ++ c :: buf) pre.length := by
      rw [lineOf_step, ← hl]; by_cases h : c = 10 <;> simp [h]
    have es : ((pre ++ [c]).reverse.takeWhile (· != 10)).length = symbolOf (pre ++ c :: buf) pre.length := by
      rw [symbolOf_step, ← hs]
    rw [trLoop]
    by_cases hb : pre.length = b
    · rw [if_pos hb, hl, hs]
      by_cases he : e = pre.length
      · have : [e].dropWhile (· == pre.length) = [] := by simp [he]
        rw [this, el, es]
        refine ⟨_, rfl, ?_, ?_⟩ <;> simp [PosMap.get, ← hb, he]
      · have : [e].dropWhile (· == pre.length) = [e] := by simp [he]
        rw [this]
        obtain ⟨e', he', ht⟩ := trLoop_spec buf (pre ++ [c]) [e] [(b, (1 + (pre ++ [c]).count 10, ((pre ++ [c]).reverse.takeWhile (· != 10)).length))]
          ⟨e, by simp; omega, by simp at h3 ⊢; omega, rfl⟩
        cases he'
        rw [e1, e2] at ht
        refine ⟨_, ht, ?_, ?_⟩
        · have hne : (b == e) = false := by simp; omega
          rw [← hb, ← el, ← es]
          subst hb
          simp only [PosMap.get, List.lookup, hne, beq_self_eq_true]
        · simp [PosMap.get, List.lookup]
    · rw [if_neg hb, hl, hs]
      obtain ⟨m, ht, g1, g2⟩ := ih (pre ++ [c]) b e (by simp; omega) h2 (by simp at h3 ⊢; omega)
      rw [e1] at ht
      rw [e2] at g1 g2
      exact ⟨m, ht, g1, g2⟩

/-- No error collected by the tree is a syntax error. -/
def NoSyntax (t : Tree) : Prop := ∀ x ∈ t.errors, ∀ b e, x ≠ .syntax b e

theorem pop_errors (t : Tree) : t.pop.2.errors = t.errors := by unfold Tree.pop; cases t.stack <;> rfl

theorem popMarked_errors {t : Tree} {ns t'} (h : t.popMarked = some (ns, t')) : t'.errors = t.errors := by
  unfold Tree.popMarked at h
  cases hm : t.marks with
  | nil => rw [hm] at h; cases h
  | cons m ms =>
    rw [hm] at h
    simp only at h
    by_cases hl : t.stack.length < m
    · rw [if_pos hl] at h; cases h
    · rw [if_neg hl] at h; cases h; rfl

theorem NoSyntax.addError {t : Tree} (h : NoSyntax t) {o : Option Err} (ho : ∀ b e, o ≠ some (.syntax b e)) : NoSyntax (t.addError o) := by
  cases o with
  | none => exact h
  | some x =>
    intro y hy b e
    simp only [Tree.addError, List.mem_append, List.mem_singleton] at hy
    rcases hy with hy | rfl
    · exact h y hy b e
    · exact fun he => ho b e (he ▸ rfl)

theorem NoSyntax.of_eq {t t' : Tree} (h : NoSyntax t) (e : t'.errors = t.errors) : NoSyntax t' := by unfold NoSyntax; rw [e]; exact h

theorem atoi_noSyntax (u : Str) (b e : Nat) : (atoi u).2 ≠ some (.syntax b e) := by
  unfold atoi
  by_cases h1 : u = [] ∨ ¬ (u.all Char.isDigit)
  · rw [if_pos h1]; simp
  · rw [if_neg h1]
    by_cases h2 : decValue 0 u ≤ maxInt
    · rw [if_pos h2]; simp
    · rw [if_neg h2]; simp

theorem parseBool_noSyntax (u : Str) (b e : Nat) : (parseBool u).2 ≠ some (.syntax b e) := by
  unfold parseBool
  by_cases h1 : u ∈ [c!"1", c!"t", c!"T", c!"TRUE", c!"true", c!"True"]
  · rw [if_pos h1]; simp
  · rw [if_neg h1]
    by_cases h2 : u ∈ [c!"0", c!"f", c!"F", c!"FALSE", c!"false", c!"False"]
    · rw [if_pos h2]; simp
    · rw [if_neg h2]; simp

theorem popArray_noSyntax {t t' : Tree} (h : t.popArray = some t') (ht : NoSyntax t) : NoSyntax t' := by
  unfold Tree.popArray at h
  cases hp : t.popMarked with
  | none => rw [hp] at h; cases h
  | some x => obtain ⟨ns, t1⟩ := x; rw [hp] at h; cases h; exact ht.of_eq (t := t) ((rfl : _ = t1.errors).trans (popMarked_errors hp))

theorem popRef_noSyntax {t t' : Tree} (h : t.popIdentifierReference = some t') (ht : NoSyntax t) : NoSyntax t' := by
  unfold Tree.popIdentifierReference at h
  cases hp : t.popMarked with
  | none => rw [hp] at h; cases h
  | some x =>
    obtain ⟨ns, t1⟩ := x
    rw [hp] at h
    simp only at h
    cases hn : ns.mapM Tree.nodeName with
    | none => rw [hn] at h; cases h
    | some _ => rw [hn] at h; cases h; exact ht.of_eq (t := t) ((rfl : _ = t1.errors).trans (popMarked_errors hp))

theorem popFunction_noSyntax {t : Tree} (ht : NoSyntax t) : NoSyntax t.popFunction := by
  have e : t.pop.2.pop.2.errors = t.errors := by rw [pop_errors, pop_errors]
  unfold Tree.popFunction
  simp only
  cases t.pop.2.pop.1 with
  | ident f =>
    cases t.pop.1 with
    | arr l => exact ht.of_eq e
    | _ => exact (ht.of_eq e).addError (by simp)
  | _ => exact (ht.of_eq e).addError (by simp)

theorem runAct_noSyntax {k u t t'} (h : runAct k u t = some t') (ht : NoSyntax t) : NoSyntax t' := by
  unfold runAct at h
  split at h
  all_goals first
    | exact popArray_noSyntax h ht
    | exact popRef_noSyntax h ht
    | (cases h; first
        | exact ht
        | exact popFunction_noSyntax ht
        | exact (ht.addError (atoi_noSyntax _)).of_eq rfl
        | exact (ht.addError (parseBool_noSyntax _)).of_eq rfl
        | exact ht.of_eq (by simp [Tree.popLogic, Tree.popNot, Tree.popCompare, Tree.popPredicate, Tree.popBetween, Tree.popParentheses, Tree.push, pop_errors])
        | exact ht.of_eq rfl)

theorem runEvs_noSyntax : ∀ {evs u t t'}, runEvs u evs t = some t' → NoSyntax t → NoSyntax t'
  | [], _, _, _, h, ht => by cases h; exact ht
  | .text s :: evs, _, _, _, h, ht => runEvs_noSyntax (evs := evs) h ht
  | .act n :: evs, u, t, t', h, ht => by
    rw [runEvs] at h
    cases ha : runAct n u t with
    | none => rw [ha] at h; cases h
    | some t1 => rw [ha] at h; exact runEvs_noSyntax (evs := evs) h (runAct_noSyntax ha ht)

theorem finish_not_syntax (evs : List Ev) (b e : Nat) : finish evs ≠ .err (.syntax b e) := by
  unfold finish
  cases ht : runEvs [] evs {} with
  | none => simp
  | some t =>
    have hn := runEvs_noSyntax ht (by intro x hx; cases hx)
    simp only
    cases he : t.errors with
    | nil => simp
    | cons x xs =>
      simp only [ne_eq, ParseRes.err.injEq]
      exact hn x (by rw [he]; simp) b e

/-- C44: the error of a rejected query can be printed without panic; both reported positions are inside the query (or at its end), in
order, and are given by their true line and symbol numbers; the quoted text is the text between them. -/
theorem C44_error_report (s : Str) (b e : Nat) (h : parse s = .err (.syntax b e)) :
    b ≤ e ∧ e ≤ s.length ∧
    errorReport s b e = some ((lineOf (mkBuf s) b, symbolOf (mkBuf s) b), (lineOf (mkBuf s) e, symbolOf (mkBuf s) e), (((s.drop b).take (e - b)).map Char.toNat)) := by
  have hpos : b ≤ e ∧ e ≤ s.length := by
    rcases parse_cases s with ⟨evs, _, hp⟩ | ⟨_, b', e', hp, h1, h2⟩
    · rw [hp] at h
      exact absurd h (finish_not_syntax evs b e)
    · rw [hp] at h; cases h; exact ⟨h1, h2⟩
  refine ⟨hpos.1, hpos.2, ?_⟩
  have hlen : (mkBuf s).length = s.length + 1 := by simp [mkBuf]
  obtain ⟨m, hm, g1, g2⟩ := trLoop_two (mkBuf s) [] b e (by simp) hpos.1 (by simp [hlen]; omega)
  have ht : translatePositions (mkBuf s) b e = some m := by
    rw [translatePositions, if_pos hpos.1]; simpa using hm
  rw [errorReport, ht]
  simp only
  rw [if_pos ⟨hpos.1, by rw [hlen]; omega⟩, g1, g2]
  have : ((mkBuf s).drop b).take (e - b) = ((s.drop b).take (e - b)).map Char.toNat := by
    rw [mkBuf, List.drop_append_of_le_length (by simp; omega), List.take_append_of_le_length (by simp; omega)]
    simp [List.map_take, List.map_drop]
  simp [this]

example : parse c!"a = 1\n and b =\n)" = .err (.syntax 14 15) := by decide +kernel
example : errorReport c!"a = 1\n and b =\n)" 14 15 = some ((3, 0), (3, 1), [10]) := by decide +kernel

/-! ## The reported token is the farthest one -/

/-- The machine outcome keeps the farthest end at least where it was. -/
def Further (st : St) : Out → Prop
  | .ok st' => st.max.e ≤ st'.max.e
  | .fail st' => st.max.e ≤ st'.max.e
  | _ => True

theorem addTok_max (k : TokKind) (b : Nat) (st : St) : st.max.e ≤ (addTok k b st).max.e ∧ (b ≠ st.pos → st.pos ≤ (addTok k b st).max.e) := by
  unfold addTok
  by_cases h : b ≠ st.pos ∧ st.pos > st.max.e
  · simp only [if_pos h]
    exact ⟨Nat.le_of_lt h.2, fun _ => Nat.le_refl _⟩
  · simp only [if_neg h]
    refine ⟨Nat.le_refl _, fun hb => ?_⟩
    have : ¬ st.pos > st.max.e := fun h' => h ⟨hb, h'⟩
    omega

theorem execStar_further {p : St → Out} (hp : ∀ st, Further st (p st)) : ∀ n st, Further st (execStar p n st)
  | 0, _ => trivial
  | n + 1, st => by
    rw [execStar]
    have h := hp st
    cases ho : p st with
    | ok st' =>
      rw [ho] at h
      have h2 := execStar_further hp n st'
      simp only
      cases ho2 : execStar p n st' with
      | ok x => rw [ho2] at h2; exact Nat.le_trans h h2
      | fail x => rw [ho2] at h2; exact Nat.le_trans h h2
      | panic => trivial
      | div => trivial
    | fail st' => rw [ho] at h; exact h
    | panic => trivial
    | div => trivial

theorem Further.lift {st st' : St} {o : Out} (h : st.max.e ≤ st'.max.e) (ho : Further st' o) : Further st o := by
  cases o with
  | ok x => exact Nat.le_trans h ho
  | fail x => exact Nat.le_trans h ho
  | panic => trivial
  | div => trivial

theorem exec_further {buf : List Nat} {env : Rule → St → Out} (henv : ∀ r st, Further st (env r st)) : ∀ e st, Further st (exec buf env e st) := by
  intro e
  induction e with
  | eps => intro st; exact Nat.le_refl _
  | any =>
    intro st; rw [exec]
    cases buf[st.pos]? with
    | none => trivial
    | some x =>
      by_cases h : x ≠ endSymbol
      · simp only [if_pos h]; exact Nat.le_refl _
      · simp only [if_neg h]; exact Nat.le_refl _
  | chr c =>
    intro st; rw [exec]
    cases buf[st.pos]? with
    | none => trivial
    | some x =>
      by_cases h : x ≠ c.toNat
      · simp only [if_pos h]; exact Nat.le_refl _
      · simp only [if_neg h]; exact Nat.le_refl _
  | rng lo hi =>
    intro st; rw [exec]
    cases buf[st.pos]? with
    | none => trivial
    | some x =>
      by_cases h : x < lo.toNat ∨ x > hi.toNat
      · simp only [if_pos h]; exact Nat.le_refl _
      · simp only [if_neg h]; exact Nat.le_refl _
  | seq a b iha ihb =>
    intro st; rw [exec]
    have h := iha st
    cases ho : exec buf env a st with
    | ok st' => rw [ho] at h; exact Further.lift h (ihb st')
    | _ => rw [ho] at h; exact h
  | alt a b iha ihb =>
    intro st; rw [exec]
    have h := iha st
    cases ho : exec buf env a st with
    | fail st' => rw [ho] at h; exact Further.lift h (ihb _)
    | _ => rw [ho] at h; exact h
  | star a iha => intro st; rw [exec]; exact execStar_further iha _ _
  | opt a iha =>
    intro st; rw [exec]
    have h := iha st
    cases ho : exec buf env a st with
    | _ => rw [ho] at h; exact h
  | notP a iha =>
    intro st; rw [exec]
    have h := iha st
    cases ho : exec buf env a st with
    | _ => rw [ho] at h; exact h
  | call r => intro st; exact henv r st
  | txt a iha =>
    intro st; rw [exec]
    have h := iha st
    cases ho : exec buf env a st with
    | ok st' => rw [ho] at h; exact Nat.le_trans h (addTok_max _ _ _).1
    | _ => rw [ho] at h; exact h
  | act n => intro st; exact (addTok_max _ _ _).1
  | sw cs a b iha ihb =>
    intro st; rw [exec]
    cases buf[st.pos]? with
    | none => trivial
    | some x =>
      by_cases h : x ∈ cs.map Char.toNat
      · simp only [if_pos h]; exact iha st
      · simp only [if_neg h]; exact ihb st

/-- C44: running any rule never moves the reported end back, and a rule that recognises a non-empty text moves it at least to the end of
that text.  So the reported end is the farthest end of any non-empty piece recognised during the whole parse. -/
theorem C44_farthest (buf : List Nat) (n : Nat) (r : Rule) (st : St) :
    Further st (execN buf G n r st) ∧ ∀ st', execN buf G n r st = .ok st' → st.pos ≠ st'.pos → st'.pos ≤ st'.max.e := by
  induction n generalizing r st with
  | zero => exact ⟨trivial, fun _ h => nomatch h⟩
  | succ n ih =>
    have h := exec_further (buf := buf) (fun r st => (ih r st).1) (G r) st
    rw [execN]
    cases ho : exec buf (execN buf G n) (G r) st with
    | ok st' =>
      rw [ho] at h
      refine ⟨Nat.le_trans h (addTok_max _ _ _).1, ?_⟩
      intro st'' he hne
      cases he
      exact (addTok_max (.rule r) st.pos st').2 hne
    | fail st' => rw [ho] at h; exact ⟨h, fun _ h => nomatch h⟩
    | panic => exact ⟨trivial, fun _ h => nomatch h⟩
    | div => exact ⟨trivial, fun _ h => nomatch h⟩

end Verif
