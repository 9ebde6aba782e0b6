import Verif.DerivThms
import Verif.Props.Tokens
import Verif.Fwd3
import Verif.Spec.Sql

/-! # The tokens are the derivation (C61); the errors of Parse (C60) -/

namespace Verif

/-! ## C61 -/

theorem drop_nil_eq {s : Str} {q : Nat} (hq : q ≤ s.length) (h : s.drop q = []) : q = s.length := by
  have := congrArg List.length h
  simp at this; omega

theorem pegParse_deriv (s : Str) (tree0 toks tr : List Tok) (h : pegParse s tree0 = .ok toks tr) : Deriv s (.call .Grammar) 0 s.length toks := by
  have h0 : ∃ tr', pegParse s [] = .ok toks tr' := by
    rcases C50_tokens s tree0 [] with ⟨ts, a, b, e1, e2⟩ | ⟨m, a, b, e1, e2⟩
    · rw [h] at e1; cases e1; exact ⟨_, e2⟩
    · rw [h] at e1; cases e1
  obtain ⟨tr', h0⟩ := h0
  have hr : Rel s initSt s := staleSt_rel s []
  have hd := execN_der s (depthBound s.length) .Grammar initSt s hr (initSt_clear s)
  have hs := execN_snd s (depthBound s.length) .Grammar initSt s hr (initSt_clear s)
  rcases pegParse_cases s [] with ⟨st, ts, ev, ho, ht, hp, hb, _⟩ | ⟨st, ho, hp, _⟩
  · rw [h0] at hp; cases hp
    have ho : execN (mkBuf s) G (depthBound s.length) .Grammar initSt = .ok st := ho
    rw [ho] at hd hs
    obtain ⟨us, ha, d⟩ := hd
    obtain ⟨ev', r, hb', hr', _⟩ := hs
    have e : toks = us := by have := ha.tree; rw [ht] at this; simpa [initSt] using this
    have := hb.det hb'; cases this
    rw [drop_nil_eq hr'.pos_le hr'.rest.symm] at d
    rw [e]; exact d
  · rw [h0] at hp; cases hp

/-- C61: the token array of an accepted query is exactly the list of the tokens of its derivation from the rule Grammar, over the whole
query; and a query that has a derivation is accepted.  By `Deriv.det` there is at most one derivation. -/
theorem C61_derivation (s : Str) (tree0 toks : List Tok) :
    (∃ tr, pegParse s tree0 = .ok toks tr) ↔ Deriv s (.call .Grammar) 0 s.length toks := by
  refine ⟨fun ⟨tr, h⟩ => pegParse_deriv s tree0 toks tr h, fun h => ?_⟩
  rcases pegParse_cases s tree0 with ⟨st, ts, ev, ho, ht, hp, hb, _⟩ | ⟨st, ho, hp, hb, _⟩
  · have := (pegParse_deriv s tree0 _ _ hp).det h
    exact ⟨_, this.2 ▸ hp⟩
  · have := h.big.det hb; cases this

/-- C61: no derivation from Grammar stops before the end of the query, and no two derivations differ. -/
theorem C61_unique (s : Str) (q q' : Nat) (ts ts' : List Tok) (h : Deriv s (.call .Grammar) 0 q ts) (h' : Deriv s (.call .Grammar) 0 q' ts') :
    q = s.length ∧ q = q' ∧ ts = ts' := by
  obtain ⟨rfl, rfl⟩ := h.det h'
  refine ⟨drop_nil_eq (h.bound (Nat.zero_le _)) ?_, rfl, rfl⟩
  rcases parse_cases s with ⟨evs, hb, _⟩ | ⟨hb, _⟩
  · have := h.big.det hb; simp only [Option.some.injEq, Prod.mk.injEq] at this; exact this.2
  · have := h.big.det hb; cases this

/-- The tokens of a query, if it is accepted. -/
def toksOf (s : Str) : List Tok := match pegParse s [] with | .ok ts _ => ts | _ => []

theorem toksOf_deriv {s : Str} (h : toksOf s ≠ []) : Deriv s (.call .Grammar) 0 s.length (toksOf s) := by
  unfold toksOf at h ⊢
  cases hp : pegParse s [] with
  | ok ts tr => exact pegParse_deriv s [] ts tr hp
  | _ => rw [hp] at h; exact absurd rfl h

example : Deriv c!"a = 1" (.call .Grammar) 0 5 (toksOf c!"a = 1") := toksOf_deriv (by decide +kernel)
example : toksOf c!"1" =
    [⟨.rule .sp, 0, 0⟩, ⟨.text, 0, 1⟩, ⟨.act 25, 1, 1⟩, ⟨.rule .Integer, 0, 1⟩, ⟨.rule .Literal, 0, 1⟩, ⟨.rule .Value, 0, 1⟩,
     ⟨.rule .PrimaryExpression, 0, 1⟩, ⟨.rule .BetweenExpression, 0, 1⟩, ⟨.rule .PredicateExpression, 0, 1⟩, ⟨.rule .CompareInExpression, 0, 1⟩,
     ⟨.rule .CompareExpression, 0, 1⟩, ⟨.rule .NotExpression, 0, 1⟩, ⟨.rule .LogicExpression, 0, 1⟩, ⟨.rule .Expression, 0, 1⟩, ⟨.rule .sp, 1, 1⟩,
     ⟨.rule .EndOfFile, 1, 1⟩, ⟨.rule .Grammar, 0, 1⟩] := by decide +kernel

/-! ## C60 -/

/-- The texts of the Integer tokens, in order. -/
def integerTexts (s : Str) (toks : List Tok) : List Str :=
  toks.filterMap fun t => if t.kind = .rule .Integer then some ((s.drop t.b).take (t.e - t.b)) else none

/-- The errors that integers cause. -/
def rangeErrs (l : List Str) : List Err := (l.filter fun x => decide (maxInt < decValue 0 x)).map .intRange

theorem rangeErrs_append (a b : List Str) : rangeErrs (a ++ b) = rangeErrs a ++ rangeErrs b := by simp [rangeErrs]

theorem integerTexts_append (s : Str) (a b : List Tok) : integerTexts s (a ++ b) = integerTexts s a ++ integerTexts s b := by simp [integerTexts]

/-- Running the actions among the tokens adds exactly the errors of the Integer tokens. -/
def NoBad (s : Str) (ts : List Tok) : Prop :=
  ∀ x t x' t', runX x (ts.filterMap (evOf s)) t = some (x', t') → t'.errors = t.errors ++ rangeErrs (integerTexts s ts)

theorem NoBad.nil (s : Str) : NoBad s [] := by intro x t x' t' h; cases h; simp [integerTexts, rangeErrs]

theorem NoBad.append {s a b} (ha : NoBad s a) (hb : NoBad s b) : NoBad s (a ++ b) := by
  intro x t x' t' h
  rw [List.filterMap_append, runX_append] at h
  cases h1 : runX x (a.filterMap (evOf s)) t with
  | none => rw [h1] at h; cases h
  | some y =>
    obtain ⟨x1, t1⟩ := y
    rw [h1] at h
    rw [hb _ _ _ _ h, ha _ _ _ _ h1, integerTexts_append, rangeErrs_append, List.append_assoc]

theorem NoBad.text (s : Str) (p q : Nat) : NoBad s [⟨.text, p, q⟩] := by
  intro x t x' t' h; cases h; simp [integerTexts, rangeErrs]

theorem NoBad.rule {s ts} (h : NoBad s ts) {x} (hx : x ≠ .Integer) (p q : Nat) : NoBad s (ts ++ [⟨.rule x, p, q⟩]) := by
  refine h.append ?_
  intro y t x' t' h; cases h; simp [integerTexts, rangeErrs, hx]

theorem popArray_errors {t t' : Tree} (h : t.popArray = some t') : t'.errors = t.errors := by
  unfold Tree.popArray at h
  cases hp : t.popMarked with
  | none => rw [hp] at h; cases h
  | some x => obtain ⟨ns, t1⟩ := x; rw [hp] at h; cases h; exact (rfl : _ = t1.errors).trans (popMarked_errors hp)

theorem popRef_errors {t t' : Tree} (h : t.popIdentifierReference = some t') : t'.errors = t.errors := by
  unfold Tree.popIdentifierReference at h
  cases hp : t.popMarked with
  | none => rw [hp] at h; cases h
  | some x =>
    obtain ⟨ns, t1⟩ := x
    rw [hp] at h
    simp only at h
    cases hn : ns.mapM Tree.nodeName with
    | none => rw [hn] at h; cases h
    | some _ => rw [hn] at h; cases h; exact (rfl : _ = t1.errors).trans (popMarked_errors hp)

theorem runAct_quiet {k u t t'} (h : runAct k u t = some t') (h9 : k ≠ 9) (h25 : k ≠ 25) (h26 : k ≠ 26) : t'.errors = t.errors := by
  unfold runAct at h
  split at h
  all_goals first
    | contradiction
    | exact popArray_errors h
    | exact popRef_errors h
    | (cases h; first
        | rfl
        | simp [Tree.popLogic, Tree.popNot, Tree.popCompare, Tree.popPredicate, Tree.popBetween, Tree.popParentheses, Tree.push, pop_errors])

theorem NoBad.act {s k} (h9 : k ≠ 9) (h25 : k ≠ 25) (h26 : k ≠ 26) (p q : Nat) : NoBad s [⟨.act k, p, q⟩] := by
  intro x t x' t' h
  have h : runX x [.act k] t = some (x', t') := h
  rw [runX] at h
  cases ha : runAct k x t with
  | none => rw [ha] at h; cases h
  | some t1 => rw [ha] at h; cases h; rw [runAct_quiet ha h9 h25 h26]; simp [integerTexts, rangeErrs]

/-- The expression contains none of the actions that can record an error. -/
def PExp.quiet : PExp → Bool
  | .seq a b | .alt a b | .sw _ a b => a.quiet && b.quiet
  | .star a | .opt a | .txt a => a.quiet
  | .act k => k ≠ 9 && k ≠ 25 && k ≠ 26
  | _ => true

theorem noBad_of_quiet {s : Str} {P : Rule → Nat → Nat → List Tok → Prop} (hP : ∀ x p q ts, P x p q ts → NoBad s ts) :
    ∀ e, e.quiet = true → ∀ p q ts, DSat s P e p q ts → NoBad s ts := by
  intro e
  induction e with
  | eps => rintro _ p q ts ⟨rfl, _⟩; exact .nil s
  | any => rintro _ p q ts ⟨rfl, _⟩; exact .nil s
  | chr c => rintro _ p q ts ⟨rfl, _⟩; exact .nil s
  | rng lo hi => rintro _ p q ts ⟨rfl, _⟩; exact .nil s
  | seq a b iha ihb =>
    intro hq
    obtain ⟨h1, h2⟩ := Bool.and_eq_true_iff.mp hq
    rintro p q ts ⟨m, us, vs, ha, hb, rfl⟩
    exact (iha h1 _ _ _ ha).append (ihb h2 _ _ _ hb)
  | alt a b iha ihb =>
    intro hq
    obtain ⟨h1, h2⟩ := Bool.and_eq_true_iff.mp hq
    rintro p q ts (h | h)
    · exact iha h1 _ _ _ h
    · exact ihb h2 _ _ _ h
  | star a iha =>
    intro hq p q ts h
    replace h : DIter (DSat s P a) p q ts := h
    induction h with
    | nil => exact .nil s
    | cons h1 _ ih => exact (iha hq _ _ _ h1).append ih
  | opt a iha =>
    rintro hq p q ts (h | ⟨rfl, _⟩)
    · exact iha hq _ _ _ h
    · exact .nil s
  | notP a _ => rintro _ p q ts ⟨rfl, _⟩; exact .nil s
  | call x => intro _ p q ts h; exact hP _ _ _ _ h
  | txt a iha => rintro hq p q ts ⟨us, h, rfl, _⟩; exact (iha hq _ _ _ h).append (.text s _ _)
  | act k =>
    rintro hq p q ts ⟨rfl, _⟩
    simp [PExp.quiet] at hq
    exact .act hq.1.1 hq.1.2 hq.2 _ _
  | sw cs a b iha ihb =>
    intro hq
    obtain ⟨h1, h2⟩ := Bool.and_eq_true_iff.mp hq
    rintro p q ts (h | h)
    · exact iha h1 _ _ _ h
    · exact ihb h2 _ _ _ h

/-- The expression writes no token. -/
def PExp.mute : PExp → Bool
  | .seq a b | .alt a b | .sw _ a b => a.mute && b.mute
  | .star a | .opt a => a.mute
  | .act _ | .call _ | .txt _ => false
  | _ => true

theorem mute_nil {s : Str} {P : Rule → Nat → Nat → List Tok → Prop} : ∀ e, e.mute = true → ∀ p q ts, DSat s P e p q ts → ts = [] := by
  intro e
  induction e with
  | seq a b iha ihb =>
    intro hq
    obtain ⟨h1, h2⟩ := Bool.and_eq_true_iff.mp hq
    rintro p q ts ⟨m, us, vs, ha, hb, rfl⟩
    rw [iha h1 _ _ _ ha, ihb h2 _ _ _ hb]; rfl
  | alt a b iha ihb | sw cs a b iha ihb =>
    intro hq
    obtain ⟨h1, h2⟩ := Bool.and_eq_true_iff.mp hq
    rintro p q ts (h | h)
    · exact iha h1 _ _ _ h
    · exact ihb h2 _ _ _ h
  | star a iha =>
    intro hq p q ts h
    replace h : DIter (DSat s P a) p q ts := h
    induction h with
    | nil => rfl
    | cons h1 _ ih => rw [iha hq _ _ _ h1, ih]; rfl
  | opt a iha =>
    rintro hq p q ts (h | ⟨rfl, _⟩)
    · exact iha hq _ _ _ h
    · rfl
  | call x => intro hq; cases hq
  | txt a _ => intro hq; cases hq
  | act k => intro hq; cases hq
  | _ => rintro _ p q ts ⟨rfl, _⟩; rfl

/-- What an Integer is written like. -/
theorem integer_text {s : Str} {ev r} (h : Big G (.call .Integer) s (some (ev, r))) :
    ∃ k, s = Nat.toDigits 10 k ++ r ∧ ev = [.text (Nat.toDigits 10 k), .act 25] := by
  cases h with
  | call hb =>
    have h' : SatG gInteger s ev r := Big.sat (P := Post) (fun q s ev r h _ => post_all h) hb _ _ rfl
    obtain ⟨e1, r1, e2, ⟨e3, h3, rfl⟩, ⟨rfl, rfl⟩, rfl⟩ := h'
    have key : e3 = [] ∧ ∃ u, s = u ++ r1 ∧ Nat.toDigits 10 (decValue 0 u) = u := by
      rcases h3 with ⟨rfl, rfl⟩ | ⟨_, e5, r5, e6, ⟨rfl, c, rfl, h5, h5'⟩, ⟨h6, _⟩, rfl⟩
      · exact ⟨rfl, ['0'], rfl, by decide⟩
      · obtain ⟨rfl, u, rfl, hu⟩ := iter_digits h6
        have h5 : 49 ≤ c.toNat := h5
        have h5' : c.toNat ≤ 57 := h5'
        have hcd : c.isDigit := (isDigit_iff _).mpr ⟨by omega, h5'⟩
        have hc0 : c ≠ '0' := char_ne_of_toNat (by show c.toNat ≠ 48; omega)
        exact ⟨rfl, c :: u, rfl, toDigits_decValue_pos hcd hc0 hu⟩
    obtain ⟨rfl, u, rfl, hu⟩ := key
    rw [txt_eq]
    exact ⟨decValue 0 u, by rw [hu], by rw [hu]; rfl⟩

theorem slice_eq {s : Str} {p q : Nat} {u : Str} (h : s.drop p = u ++ s.drop q) (hle : p ≤ q) (hq : q ≤ s.length) : (s.drop p).take (q - p) = u := by
  have hl := congrArg List.length h
  simp at hl
  rw [h, show q - p = u.length by omega]; simp

theorem boolean_text {s : Str} {ev r} (h : Big G (.call .Boolean) s (some (ev, r))) : ∃ w, (parseBool w).2 = none ∧ ev = [.text w, .act 26] := by
  cases h with
  | call hb =>
    have h' : SatG gBoolean s ev r := Big.sat (P := Post) (fun q s ev r h _ => post_all h) hb _ _ rfl
    obtain ⟨e1, r1, e2, ⟨e3, h3, rfl⟩, ⟨rfl, rfl⟩, rfl⟩ := h'
    rcases h3 with ⟨_, h⟩ | ⟨_, ⟨_, h⟩ | ⟨_, ⟨_, h⟩ | ⟨_, h⟩⟩⟩ <;> obtain ⟨rfl, rfl⟩ := sat_lit h <;> rw [txt_eq] <;> exact ⟨_, by decide, rfl⟩

/-- Every rule records exactly the errors of its Integer tokens. -/
theorem noBad_rule {s : Str} : ∀ x p q ts, Deriv s (.call x) p q (ts ++ [⟨.rule x, p, q⟩]) →
    DSat s (fun x p q ts => Deriv s (.call x) p q ts ∧ NoBad s ts) (G x) p q ts → NoBad s (ts ++ [⟨.rule x, p, q⟩]) := by
  intro x p q ts hd hs
  have quiet : ∀ e, e.quiet = true → ∀ p q ts, DSat s (fun x p q ts => Deriv s (.call x) p q ts ∧ NoBad s ts) e p q ts → NoBad s ts :=
    noBad_of_quiet fun x p q ts h => h.2
  cases x with
  | Integer =>
    obtain ⟨k, h1, h2⟩ := integer_text hd.big
    obtain ⟨m, us, vs, ⟨ws, hw, rfl, _⟩, ⟨rfl, rfl⟩, rfl⟩ := hs
    rw [mute_nil _ rfl _ _ _ hw] at hd h2 ⊢
    have hle := hd.le
    have hu : (s.drop p).take (m - p) = Nat.toDigits 10 k := by
      by_cases hp : p ≤ s.length
      · exact slice_eq h1 hle (hd.bound hp)
      · rw [List.drop_eq_nil_of_le (by omega : s.length ≤ p)] at h1
        have := congrArg List.length h1
        have hne := toDigits_ne_nil k
        cases hk : Nat.toDigits 10 k with
        | nil => exact absurd hk hne
        | cons c w => rw [hk] at this; simp at this
    intro y t x' t' hrun
    rw [h2] at hrun
    simp only [runX, runAct, Tree.addInteger, Option.some.injEq, Prod.mk.injEq] at hrun
    have hi : integerTexts s ([] ++ [⟨.text, p, m⟩] ++ [⟨.act 25, m, m⟩] ++ [⟨.rule .Integer, p, m⟩]) = [Nat.toDigits 10 k] := by
      simp [integerTexts, hu]
    rw [hi, ← hrun.2, atoi_toDigits]
    have hv := (toDigits_digits k).2.1
    by_cases hk : k ≤ maxInt
    · simp [hk, rangeErrs, hv, Tree.addError, Tree.push]
    · simp [hk, rangeErrs, hv, Tree.addError, Tree.push, Nat.lt_of_not_le hk]
  | Boolean =>
    obtain ⟨w, hw', h2⟩ := boolean_text hd.big
    obtain ⟨m, us, vs, ⟨ws, hw, rfl, _⟩, ⟨rfl, rfl⟩, rfl⟩ := hs
    rw [mute_nil _ rfl _ _ _ hw] at h2 ⊢
    intro y t x' t' hrun
    rw [h2] at hrun
    simp only [runX, runAct, Tree.addBoolean, Option.some.injEq, Prod.mk.injEq] at hrun
    have hi : integerTexts s ([] ++ [⟨.text, p, m⟩] ++ [⟨.act 26, m, m⟩] ++ [⟨.rule .Boolean, p, m⟩]) = [] := by simp [integerTexts]
    rw [hi, ← hrun.2, hw']
    simp [rangeErrs, Tree.addError, Tree.push]
  | PrimaryExpression =>
    refine NoBad.rule ?_ (by decide) _ _
    rcases hs with h | h | h | h
    · exact quiet _ rfl _ _ _ h
    · exact h.2
    · obtain ⟨m, us, vs, ⟨di, ni⟩, ⟨m', us', vs', ⟨da, na⟩, ⟨rfl, rfl⟩, rfl⟩, rfl⟩ := h
      obtain ⟨u, _, _, ei⟩ : Post .Identifier _ _ _ := post_all di.big
      obtain ⟨_, _, ns, es, _, _, ea, _⟩ : Post .ArgumentList _ _ _ := post_all da.big
      have e := eff_act9 (ns := []) (ei.append ea)
      intro y t x' t' hrun
      rw [List.filterMap_append, List.filterMap_append, ← List.append_assoc] at hrun
      obtain ⟨x1, h1⟩ := e y t
      have h1' := h1.symm.trans hrun
      simp only [Option.some.injEq, Prod.mk.injEq] at h1'
      obtain ⟨x2, h2⟩ := ei y t
      obtain ⟨x3, h3⟩ := ea y t
      have k2 := ni _ _ _ _ h2
      have k3 := na _ _ _ _ h3
      simp only [Tree.grow, List.append_cancel_left_eq] at k2 k3
      rw [← h1'.2, integerTexts_append, integerTexts_append, rangeErrs_append, rangeErrs_append, ← k2, ← k3]
      simp [Tree.grow, integerTexts, rangeErrs]
    · exact h.2
  | _ => exact (quiet _ rfl _ _ _ hs).rule (by decide) _ _

theorem noBad_grammar {s q ts} (h : Deriv s (.call .Grammar) 0 q ts) : NoBad s ts :=
  (h.sat (P := fun x p q ts => Deriv s (.call x) p q ts ∧ NoBad s ts) fun x p q ts hd hs => ⟨hd, noBad_rule x p q ts hd hs⟩ :
    Deriv s (.call .Grammar) 0 q ts ∧ NoBad s ts).2

/-- C60: an accepted query whose integers all fit is parsed without error; otherwise the error names the first integer, from the left, that
does not fit.  `toks` are the tokens that the generated parser publishes for the query. -/
theorem C60_first (s : Str) (tree0 toks tr : List Tok) (h : pegParse s tree0 = .ok toks tr) :
    match (integerTexts s toks).find? (fun x => decide (9223372036854775807 < decNat x)) with
    | some x => parse s = .err (.intRange x)
    | none => ∃ n, parse s = .ok n := by
  have hd := pegParse_deriv s tree0 toks tr h
  have hb := hd.big
  obtain ⟨_, q, n, es, _, heff, _⟩ := grammar_sound (by simpa using hb)
  have hp : parse s = finish (toks.filterMap (evOf s)) := by
    rcases parse_cases s with ⟨evs, hb', hp⟩ | ⟨hb', _⟩
    · have := hb.det hb'; simp only [Option.some.injEq, Prod.mk.injEq] at this; rw [hp, this.1]
    · have := hb.det hb'; cases this
  obtain ⟨x1, h1⟩ := heff [] {}
  have he := noBad_grammar hd _ _ _ _ h1
  simp only [Tree.grow, List.append_cancel_left_eq] at he
  have hf : ((integerTexts s toks).find? fun x => decide (9223372036854775807 < decNat x)) = ((integerTexts s toks).filter fun x => decide (maxInt < decValue 0 x)).head? := by
    rw [List.head?_filter]; rfl
  rw [hf, hp, finish, heff.finish, he, rangeErrs]
  simp only
  cases (integerTexts s toks).filter fun x => decide (maxInt < decValue 0 x) with
  | nil => exact ⟨_, rfl⟩
  | cons x l => rfl

/-- C60: the integers of an accepted query are written in decimal without leading zeros, and appear in the query. -/
theorem C60_texts (s : Str) (tree0 toks tr : List Tok) (h : pegParse s tree0 = .ok toks tr) :
    ∀ x ∈ integerTexts s toks, x <:+: s ∧ ∃ k, x = Nat.toDigits 10 k := by
  intro x hx
  obtain ⟨t, ht, he⟩ := List.mem_filterMap.mp hx
  by_cases hk : t.kind = .rule .Integer
  · rw [if_pos hk] at he; cases he
    refine ⟨(List.take_prefix _ _).isInfix.trans (List.drop_suffix _ _).isInfix, ?_⟩
    obtain ⟨h1, h2, h3⟩ := (C49_tree s tree0 toks tr h).1 t ht
    rw [hk] at h3
    obtain ⟨ev, hb⟩ := h3
    obtain ⟨k, hs, _⟩ := integer_text hb
    exact ⟨k, slice_eq hs h1 h2⟩
  · rw [if_neg hk] at he; cases he

/-- C60: Parse fails in two ways only.  Either the recogniser rejects the query (a syntax error), or the query contains a decimal number that
does not fit in 64 bits and the error names it.  No other conversion error and no "invalid function" error ever comes out. -/
theorem C60_errors (s : Str) (x : Err) (h : parse s = .err x) :
    (∃ b e, x = .syntax b e ∧ ∀ toks tr, pegParse s [] ≠ .ok toks tr) ∨
    (∃ k, x = .intRange (Nat.toDigits 10 k) ∧ 9223372036854775807 < k ∧ Nat.toDigits 10 k <:+: s) := by
  rcases pegParse_cases s [] with ⟨st, ts, ev, ho, ht, hp, hb, _⟩ | ⟨st, ho, hp, hb, _⟩
  · right
    have h1 := C60_first s [] ts _ hp
    cases hf : (integerTexts s ts).find? fun x => decide (9223372036854775807 < decNat x) with
    | none => rw [hf] at h1; obtain ⟨n, hn⟩ := h1; rw [hn] at h; cases h
    | some y =>
      rw [hf] at h1
      simp only at h1
      rw [h1] at h; cases h
      obtain ⟨hi, k, rfl⟩ := C60_texts s [] ts _ hp y (List.mem_of_find?_eq_some hf)
      have := List.find?_some hf
      refine ⟨k, rfl, ?_, hi⟩
      rwa [decide_eq_true_eq, show decNat (Nat.toDigits 10 k) = k from (toDigits_digits k).2.1] at this
  · left
    rcases parse_cases s with ⟨evs, hb', _⟩ | ⟨_, b, e, hp', _⟩
    · have := hb.det hb'; cases this
    · rw [hp'] at h; cases h
      exact ⟨b, e, rfl, fun toks tr hc => by rw [hp] at hc; cases hc⟩

example : parse c!"a = 1 and b in (2, 9223372036854775808, 99999999999999999999)" = .err (.intRange c!"9223372036854775808") := by decide +kernel
example : integerTexts c!"a = 1 and b in (2, 9223372036854775808)" (toksOf c!"a = 1 and b in (2, 9223372036854775808)") =
    [c!"1", c!"2", c!"9223372036854775808"] := by decide +kernel
example : parse c!"f(1, " = .err (.syntax 4 5) := by decide +kernel

end Verif
