import Verif.Deep
import Verif.Spec.Deep
import Verif.Ext
import Verif.Fwd4

/-! # Lemmas for C72 -/

namespace Verif

/-! ## The lexical potential -/

/-- Open parentheses. -/
def pars (k : Str) : Nat := k.count '('

theorem scanStep_code {k a c m' k' a'} (h : scanStep (.code, k, a) c = some (m', k', a')) :
    m' = modeStep .code c ∧ (if c = '(' then pars k' = pars k + 1 else if c = ')' then pars k = pars k' + 1 else pars k' = pars k) := by
  simp only [scanStep] at h
  by_cases h1 : c = '\''
  · subst h1; cases h; exact ⟨rfl, rfl⟩
  rw [if_neg h1] at h
  by_cases h2 : c = '"'
  · subst h2; cases h; exact ⟨rfl, rfl⟩
  rw [if_neg h2] at h
  by_cases h3 : c = '-'
  · subst h3; cases h; exact ⟨rfl, rfl⟩
  rw [if_neg h3] at h
  by_cases h4 : c = '/'
  · subst h4; cases h; exact ⟨rfl, rfl⟩
  rw [if_neg h4] at h
  have hm : modeStep .code c = .code := by simp [modeStep, h1, h2, h3, h4]
  rw [hm]
  by_cases h5 : c = '(' ∨ c = '['
  · rw [if_pos h5] at h
    rcases h5 with rfl | rfl <;> cases h <;> simp [pars]
  rw [if_neg h5] at h
  have h5a : c ≠ '(' := fun e => h5 (.inl e)
  rw [if_neg h5a]
  by_cases h6 : c = ')'
  · subst h6
    rw [if_pos rfl] at h
    split at h
    · cases h; simp [pars]
    · cases h
  rw [if_neg h6] at h ⊢
  by_cases h7 : c = ']'
  · subst h7
    rw [if_pos rfl] at h
    split at h
    · cases h; simp [pars]
    · cases h
  rw [if_neg h7] at h
  cases h
  exact ⟨rfl, rfl⟩

theorem nest_cons (σ : Mode) (c : Char) (s : Str) : nest σ (c :: s) =
    if σ = .sq ∨ σ = .dq ∨ σ = .comment then nest (modeStep σ c) s
    else if c = '(' then nest (modeStep σ c) s + 1
    else if c = ')' then nest (modeStep σ c) s - 1
    else nest (modeStep σ c) s := rfl

theorem scanStep_nest {m k a c m' k' a'} (h : scanStep (m, k, a) c = some (m', k', a')) (s : Str) :
    nest m' s + pars k' ≤ nest m (c :: s) + pars k := by
  rw [nest_cons]
  cases m with
  | code =>
    obtain ⟨rfl, h0⟩ := scanStep_code h
    rw [if_neg (by simp)]
    by_cases h1 : c = '('
    · rw [if_pos h1] at h0 ⊢; omega
    rw [if_neg h1] at h0 ⊢
    by_cases h2 : c = ')'
    · rw [if_pos h2] at h0 ⊢; omega
    rw [if_neg h2] at h0 ⊢; omega
  | dash =>
    simp only [scanStep] at h
    split at h
    · rename_i hc; subst hc; cases h; exact Nat.le_refl _
    · split at h
      · rename_i hc; subst hc; cases h; exact Nat.le_refl _
      · cases h
  | slash =>
    simp only [scanStep] at h
    split at h
    · rename_i hc; subst hc; cases h; exact Nat.le_refl _
    · cases h
  | comment =>
    rw [if_pos (by simp)]
    simp only [scanStep] at h
    split at h <;> rename_i hc <;> cases h <;> simp [modeStep, hc]
  | sq =>
    rw [if_pos (by simp)]
    simp only [scanStep] at h
    split at h <;> rename_i hc <;> cases h <;> simp [modeStep, hc]
  | dq =>
    rw [if_pos (by simp)]
    simp only [scanStep] at h
    split at h <;> rename_i hc <;> cases h <;> simp [modeStep, hc]

theorem scan_nest {u : Str} : ∀ {m k a m' k' a'}, scan u (m, k, a) = some (m', k', a') → ∀ s, nest m' s + pars k' ≤ nest m (u ++ s) + pars k := by
  induction u with
  | nil => intro m k a m' k' a' h s; cases h; exact Nat.le_refl _
  | cons c u ih =>
    intro m k a m' k' a' h s
    simp only [scan] at h
    split at h
    · cases h
    · rename_i y hy
      obtain ⟨m1, k1, a1⟩ := y
      exact Nat.le_trans (ih h s) (scanStep_nest hy (u ++ s))

theorem Closed.nest {u a} (h : Closed u a) (s : Str) : nest .code s ≤ nest .code (u ++ s) := scan_nest (h [] false) s

/-- What a rule consumes has its quotes, comments and brackets closed. -/
theorem rule_closed {q s ev r} (h : Big G (.call q) s (some (ev, r))) (h1 : q ≠ .Grammar) (h2 : q ≠ .EndOfFile) : ∃ u a, s = u ++ r ∧ Closed u a := by
  have hp := post_all h
  cases q with
  | Grammar => exact absurd rfl h1
  | EndOfFile => exact absurd rfl h2
  | EndOfLine =>
    rcases hp.2 with rfl | rfl | rfl
    · exact ⟨_, false, rfl, .plain (by intro c hc; simp at hc; rcases hc with rfl | rfl <;> decide)⟩
    · exact ⟨['\n'], false, rfl, .plain (by intro c hc; simp at hc; subst hc; decide)⟩
    · exact ⟨['\r'], false, rfl, .plain (by intro c hc; simp at hc; subst hc; decide)⟩
  | Comment => obtain ⟨_, u, rfl, hw, _⟩ := hp; exact ⟨u, _, rfl, hw.closed⟩
  | Space => obtain ⟨_, u, rfl, hw, _⟩ := hp; exact ⟨u, _, rfl, hw.closed⟩
  | SpaceComment => obtain ⟨_, u, rfl, hw, _⟩ := hp; exact ⟨u, _, rfl, hw.closed⟩
  | sp => obtain ⟨_, u, rfl, hw⟩ := hp; exact ⟨u, _, rfl, hw.closed⟩
  | sp1 => obtain ⟨_, u, rfl, hw, _⟩ := hp; exact ⟨u, _, rfl, hw.closed⟩
  | Compare => obtain ⟨w1, ob, w2, o, rfl, hw1, _, hw2, hc, _⟩ := hp; exact ⟨w1 ++ (ob ++ w2), _, by simp, hw1.closed.append (hc.append hw2.closed)⟩
  | Logic => obtain ⟨w1, ob, w2, o, rfl, hw1, _, hw2, hc, _⟩ := hp; exact ⟨w1 ++ (ob ++ w2), _, by simp, hw1.closed.append (hc.append hw2.closed)⟩
  | Match => obtain ⟨w1, ob, w2, o, rfl, hw1, _, hw2, hc, _⟩ := hp; exact ⟨w1 ++ (ob ++ w2), _, by simp, hw1.1.closed.append (hc.append hw2.closed)⟩
  | Integer => obtain ⟨u, n, es, rfl, hc, _⟩ := hp; exact ⟨u, _, rfl, hc⟩
  | Boolean => obtain ⟨u, n, es, rfl, hc, _⟩ := hp; exact ⟨u, _, rfl, hc⟩
  | Null => obtain ⟨u, n, es, rfl, hc, _⟩ := hp; exact ⟨u, _, rfl, hc⟩
  | String => obtain ⟨u, n, es, rfl, hc, _⟩ := hp; exact ⟨u, _, rfl, hc⟩
  | Literal => obtain ⟨u, n, es, rfl, hc, _⟩ := hp; exact ⟨u, _, rfl, hc⟩
  | Array => obtain ⟨u, n, es, rfl, hc, _⟩ := hp; exact ⟨u, _, rfl, hc⟩
  | Value => obtain ⟨u, n, es, rfl, hc, _⟩ := hp; exact ⟨u, _, rfl, hc⟩
  | Identifier => obtain ⟨u, rfl, hi, _⟩ := hp; exact ⟨u, _, rfl, hi.closed⟩
  | IdentifierReference => obtain ⟨u, a, ns, rfl, hc, _⟩ := hp; exact ⟨u, _, rfl, hc⟩
  | JsonReference => obtain ⟨u, ns, rfl, hc, _⟩ := hp; exact ⟨u, _, rfl, hc⟩
  | Reference => obtain ⟨u, a, ns, rfl, hc, _⟩ := hp; exact ⟨u, _, rfl, hc⟩
  | ArgumentList => obtain ⟨u, a, ns, es, rfl, hc, _⟩ := hp; exact ⟨'(' :: (u ++ [')']), _, by simp, hc.paren⟩
  | Argument => obtain ⟨u, a, ns, es, rfl, hc, _⟩ := hp; exact ⟨u, _, rfl, hc⟩
  | PrimaryExpression => obtain ⟨u, a, ns, es, rfl, hc, _⟩ := hp; exact ⟨u, _, rfl, hc⟩
  | BetweenExpression => obtain ⟨u, a, ns, es, rfl, hc, _⟩ := hp; exact ⟨u, _, rfl, hc⟩
  | PredicateExpression => obtain ⟨u, a, ns, es, rfl, hc, _⟩ := hp; exact ⟨u, _, rfl, hc⟩
  | CompareInExpression => obtain ⟨u, a, ns, es, rfl, hc, _⟩ := hp; exact ⟨u, _, rfl, hc⟩
  | CompareExpression => obtain ⟨u, a, ns, es, rfl, hc, _⟩ := hp; exact ⟨u, _, rfl, hc⟩
  | NotExpression => obtain ⟨u, a, ns, es, rfl, hc, _⟩ := hp; exact ⟨u, _, rfl, hc⟩
  | LogicExpression => obtain ⟨u, a, ns, es, rfl, hc, _⟩ := hp; exact ⟨u, _, rfl, hc⟩
  | Expression => obtain ⟨u, a, ns, es, rfl, hc, _⟩ := hp; exact ⟨u, _, rfl, hc⟩

/-- What an expression consumes pays for the parentheses it leaves open. -/
theorem big_nest {e s x} (h : Big G e s x) : ∀ {ev r}, x = some (ev, r) → ∀ {m k m' k'}, ana e (m, k) = some (m', k') →
    nest m' r + pars k' ≤ nest m s + pars k := by
  induction h with
  | eps => rintro _ _ ⟨⟩ m k m' k' ha; cases ha; exact Nat.le_refl _
  | anyOk => rintro _ _ ⟨⟩ m k m' k' ha; cases ha
  | chrOk =>
    rintro _ _ ⟨⟩ m k m' k' ha
    simp only [ana, Option.map_eq_some_iff] at ha
    obtain ⟨⟨m1, k1, a1⟩, hs, hy⟩ := ha
    cases hy
    exact scanStep_nest hs _
  | @rngOk lo hi c s h1 h2 =>
    rintro _ _ ⟨⟩ m k m' k' ha
    simp only [ana] at ha
    split at ha
    · rename_i hm
      obtain ⟨rfl, hm⟩ := hm
      cases ha
      have := (rng_plain hm h1 h2).1
      have hc : Closed [c] false := .plain (by intro d hd; simp at hd; subst hd; exact this)
      have := hc.nest s
      simp only [List.singleton_append] at this
      omega
    · cases ha
  | seqOk _ _ ih1 ih2 =>
    rintro _ _ ⟨⟩ m k m' k' ha
    simp only [ana] at ha
    obtain ⟨⟨m1, k1⟩, h1, h2⟩ := Option.bind_eq_some_iff.mp ha
    exact Nat.le_trans (ih2 rfl h2) (ih1 rfl h1)
  | alt1 _ ih =>
    intro _ _ h m k m' k' ha
    simp only [ana] at ha
    split at ha
    · exact ih h ha
    · cases ha
  | alt2 _ _ _ ih =>
    intro _ _ h m k m' k' ha
    simp only [ana] at ha
    split at ha
    · rename_i he; rw [he] at ha; exact ih h ha
    · cases ha
  | starNil => 
    rintro _ _ ⟨⟩ m k m' k' ha
    simp only [ana] at ha
    split at ha
    · cases ha; exact Nat.le_refl _
    · cases ha
  | starCons _ _ ih1 ih2 =>
    rintro _ _ ⟨⟩ m k m' k' ha
    have ha0 := ha
    simp only [ana] at ha
    split at ha
    · rename_i h1
      cases ha
      exact Nat.le_trans (ih2 rfl ha0) (ih1 rfl h1)
    · cases ha
  | optSome _ ih =>
    intro _ _ h m k m' k' ha
    simp only [ana] at ha
    split at ha
    · rename_i h1; cases ha; exact ih h h1
    · cases ha
  | optNone =>
    rintro _ _ ⟨⟩ m k m' k' ha
    simp only [ana] at ha
    split at ha
    · cases ha; exact Nat.le_refl _
    · cases ha
  | notOk =>
    rintro _ _ ⟨⟩ m k m' k' ha
    simp only [ana] at ha
    split at ha
    · cases ha; exact Nat.le_refl _
    · cases ha
  | call hb _ =>
    rintro ev r rfl m k m' k' ha
    simp only [ana] at ha
    split at ha
    · rename_i hc
      cases ha
      obtain ⟨hm, h1, h2⟩ := hc
      subst hm
      obtain ⟨u, a, rfl, hu⟩ := rule_closed (.call hb) h1 h2
      have := hu.nest r
      omega
    · cases ha
  | txtOk _ ih => rintro _ _ ⟨⟩ m k m' k' ha; exact ih rfl ha
  | act => rintro _ _ ⟨⟩ m k m' k' ha; cases ha; exact Nat.le_refl _
  | swIn _ _ ih =>
    intro _ _ h m k m' k' ha
    simp only [ana] at ha
    split at ha
    · exact ih h ha
    · cases ha
  | swOut _ _ ih =>
    intro _ _ h m k m' k' ha
    simp only [ana] at ha
    split at ha
    · rename_i he; rw [he.2] at ha; exact ih h ha
    · cases ha
  | swNil _ ih =>
    intro _ _ h m k m' k' ha
    simp only [ana] at ha
    split at ha
    · rename_i he; rw [he.2] at ha; exact ih h ha
    · cases ha
  | _ => rintro _ _ ⟨⟩

/-! ## Paths -/

theorem pathLen_le (s : Str) : pathLen s ≤ longest s := by
  cases s with
  | nil => exact Nat.le_refl _
  | cons c s => exact Nat.le_max_left _ _

theorem longest_suffix (u s : Str) : longest s ≤ longest (u ++ s) := by
  induction u with
  | nil => exact Nat.le_refl _
  | cons c u ih => exact Nat.le_trans ih (Nat.le_max_right _ _)

theorem big_longest {e s ev r} (h : Big G e s (some (ev, r))) : longest r ≤ longest s := by
  obtain ⟨u, rfl⟩ := h.suffix
  exact longest_suffix u r

/-! ## How deep the rules call each other -/

/-- How deep a rule calls others when it reads no parenthesis and no arrow. -/
def rho : Rule → Nat
  | .EndOfLine => 0 | .EndOfFile => 0 | .Comment => 1 | .Space => 1 | .SpaceComment => 2 | .sp => 3 | .sp1 => 3
  | .Integer => 0 | .Boolean => 0 | .Null => 0 | .String => 0 | .Literal => 1 | .Array => 4 | .Value => 5
  | .Identifier => 0 | .IdentifierReference => 1 | .JsonReference => 1 | .Reference => 2
  | .Compare => 4 | .Logic => 4 | .Match => 4 | .ArgumentList => 5
  | .PrimaryExpression => 6 | .BetweenExpression => 7 | .PredicateExpression => 8
  | .CompareInExpression => 9 | .CompareExpression => 10 | .NotExpression => 11
  | .LogicExpression => 12 | .Expression => 13 | .Argument => 14 | .Grammar => 14

/-- The rules that never come back to themselves. -/
def lexical : Rule → Bool
  | .EndOfLine | .EndOfFile | .Comment | .Space | .SpaceComment | .sp | .sp1 | .Integer | .Boolean | .Null | .String | .Literal | .Array | .Value
  | .Identifier | .IdentifierReference | .Compare | .Logic | .Match => true
  | _ => false

/-- All calls are of lexical rules below `R`. -/
def fitsLex (R : Nat) : PExp → Bool
  | .seq a b => fitsLex R a && fitsLex R b
  | .alt a b => fitsLex R a && fitsLex R b
  | .star a => fitsLex R a && !nullable nulG a
  | .opt a => fitsLex R a
  | .notP a => fitsLex R a
  | .call r => lexical r && decide (rho r < R)
  | .txt a => fitsLex R a
  | .sw _ a b => fitsLex R a && fitsLex R b
  | _ => true

theorem fitsLex_ok : ∀ r, lexical r = true → fitsLex (rho r) (G r) = true := by
  intro r; cases r <;> decide

/-- All calls are below `R`, or below what the parentheses opened so far allow. -/
def fits (R : Nat) : PExp → Mode × Str → Bool
  | .seq a b, x => fits R a x && (match ana a x with | some y => fits R b y | none => false)
  | .alt a b, x => fits R a x && fits R b x
  | .star a, x => fits R a x && decide (ana a x = some x) && !nullable nulG a
  | .opt a, x => fits R a x
  | .notP a, x => fits R a x
  | .call r, x => lexical r && decide (rho r < R) || decide (x.1 = .code) && decide (rho r < R + 10 * pars x.2)
  | .txt a, x => fits R a x
  | .sw _ a b, x => fits R a x && fits R b x
  | _, _ => true

theorem fits_ok : ∀ r, lexical r = false → r ≠ .JsonReference → fits (rho r) (G r) (.code, []) = true := by
  intro r; cases r <;> decide

theorem starLoop_ne_div_of {p : Str → Res} (P : Str → Prop) :
    ∀ n s, s.length < n → P s → (∀ s', P s' → p s' ≠ .div) →
      (∀ s' e r, P s' → p s' = .ok e r → P r ∧ r.length < s'.length) → starLoop p n s ≠ .div := by
  intro n
  induction n with
  | zero => intro s h; omega
  | succ n ih =>
    intro s hn hs hd hc
    unfold starLoop
    cases hcase : p s with
    | fail => simp
    | div => exact absurd hcase (hd s hs)
    | ok e1 r1 =>
      have hl := hc _ _ _ hs hcase
      have := ih r1 (by omega) hl.1 hd hc
      simp only
      split <;> simp_all

theorem denote_ok_big {n e s ev r} (h : denote (denoteN G n) e s = .ok ev r) : Big G e s (some (ev, r)) := by
  have := denote_big (denoteN_big (G := G) n) e s (by rw [h]; simp)
  rw [h] at this
  exact this

/-- Lexical rules need no more than their rank. -/
theorem lex_ne_div : ∀ n e R s, fitsLex R e = true → R ≤ n → denote (denoteN G n) e s ≠ .div := by
  intro n
  induction n using Nat.strongRecOn with
  | _ n ihn =>
  intro e
  induction e with
  | eps => intros; simp [denote]
  | any => intro R s _ _; cases s <;> simp [denote]
  | chr c =>
    intro R s _ _
    cases s with
    | nil => simp [denote]
    | cons x t => by_cases hx : x = c <;> simp [denote, hx]
  | rng lo hi =>
    intro R s _ _
    cases s with
    | nil => simp [denote]
    | cons x t =>
      by_cases hx : lo.toNat ≤ x.toNat ∧ x.toNat ≤ hi.toNat
      · simp [denote, hx]
      · simp [denote, if_neg hx]
  | seq a b iha ihb =>
    intro R s hw hl
    simp only [fitsLex, Bool.and_eq_true] at hw
    have ha := iha R s hw.1 hl
    unfold denote
    cases hc : denote (denoteN G n) a s with
    | fail => simp
    | div => exact absurd hc ha
    | ok e1 r1 =>
      have hb := ihb R r1 hw.2 hl
      simp only
      split <;> simp_all
  | alt a b iha ihb =>
    intro R s hw hl
    simp only [fitsLex, Bool.and_eq_true] at hw
    have ha := iha R s hw.1 hl
    have hb := ihb R s hw.2 hl
    unfold denote
    split <;> simp_all
  | star a iha =>
    intro R s hw hl
    simp only [fitsLex, Bool.and_eq_true, Bool.not_eq_true'] at hw
    refine starLoop_ne_div_of (fun _ => True) _ _ (Nat.lt_succ_self _) trivial ?_ ?_
    · intro s' _; exact iha R s' hw.1 hl
    · intro s' e r _ he
      exact ⟨trivial, Big.consumes' nulG_ok (denote_ok_big he) _ _ rfl hw.2⟩
  | opt a iha =>
    intro R s hw hl
    have ha := iha R s hw hl
    unfold denote
    split <;> simp_all
  | notP a iha =>
    intro R s hw hl
    have ha := iha R s hw hl
    unfold denote
    split <;> simp_all
  | call r =>
    intro R s hw hl
    simp only [fitsLex, Bool.and_eq_true, decide_eq_true_eq] at hw
    cases n with
    | zero => omega
    | succ n =>
      show denote (denoteN G n) (G r) s ≠ .div
      exact ihn n (by omega) (G r) (rho r) s (fitsLex_ok r hw.1) (by omega)
  | txt a iha =>
    intro R s hw hl
    have ha := iha R s hw hl
    unfold denote
    split <;> simp_all
  | act n => intros; simp [denote]
  | sw cs a b iha ihb =>
    intro R s hw hl
    simp only [fitsLex, Bool.and_eq_true] at hw
    have ha := iha R s hw.1 hl
    have hb := ihb R s hw.2 hl
    cases s with
    | nil => simpa [denote] using hb
    | cons x t => by_cases hx : x ∈ cs <;> simp [denote, hx] <;> assumption

theorem lexN_ne_div {r : Rule} (h : lexical r = true) {n : Nat} (hn : rho r < n) (s : Str) : denoteN G n r s ≠ .div := by
  obtain ⟨m, rfl⟩ : ∃ m, n = m + 1 := ⟨n - 1, by omega⟩
  exact lex_ne_div m (G r) (rho r) s (fitsLex_ok r h) (by omega)

theorem pathLen_ident {u : Str} (h : ∀ c ∈ u, c.isAlphanum = true ∨ c = '_') (r : Str) : pathLen (u ++ r) = pathLen r := by
  induction u with
  | nil => rfl
  | cons c u ih =>
    have hc := h c List.mem_cons_self
    have h1 : c ≠ '-' := by rintro rfl; revert hc; decide
    rw [List.cons_append, pathLen.eq_3 _ _ (by rintro _ rfl; exact absurd rfl h1), if_pos hc]
    exact ih fun d hd => h d (List.mem_cons_of_mem _ hd)

theorem IdTail.chars {x : Char} (h : IdTail x) : x.isAlphanum = true ∨ x = '_' := by
  rcases h with (h | h) | h | h
  · left; simp only [Char.isAlphanum, Char.isAlpha, Char.isLower, Bool.or_eq_true, Bool.and_eq_true, decide_eq_true_eq]; exact .inl (.inr ⟨h.1, h.2⟩)
  · left; simp only [Char.isAlphanum, Char.isAlpha, Char.isUpper, Bool.or_eq_true, Bool.and_eq_true, decide_eq_true_eq]; exact .inl (.inl ⟨h.1, h.2⟩)
  · left; simp only [Char.isAlphanum, Char.isDigit, Bool.or_eq_true, Bool.and_eq_true, decide_eq_true_eq]; exact .inr ⟨h.1, h.2⟩
  · exact .inr h

theorem ident_chars {u : Str} (h : IdText u) : ∀ c ∈ u, c.isAlphanum = true ∨ c = '_' := by
  obtain ⟨⟨c, t, rfl, hc, ht⟩, _⟩ := h
  intro x hx
  rcases List.mem_cons.mp hx with rfl | hx
  · exact IdTail.chars (.inl hc)
  · exact (ht x hx).chars

theorem chr_seq_ne_div {env : Rule → Str → Res} {X : PExp} (c : Char) {s : Str} (h : denote env X s ≠ .div) :
    denote env (.seq (.chr c) X) (c :: s) ≠ .div := by
  simp only [denote, if_true]
  cases hc : denote env X s with
  | div => exact absurd hc h
  | _ => simp

/-- A path needs as much as it has arrows. -/
theorem json_ne_div : ∀ n s, pathLen s < n → denote (denoteN G n) (G .JsonReference) s ≠ .div := by
  intro n
  induction n with
  | zero => intro s h; omega
  | succ n ih =>
    intro s h
    show denote (denoteN G (n + 1)) gJsonReference s ≠ .div
    have hi := lexN_ne_div (r := .Identifier) rfl (n := n + 1) (Nat.succ_pos _) s
    unfold gJsonReference PExp.seqs
    unfold denote
    cases hc : denote (denoteN G (n + 1)) (.call .Identifier) s with
    | fail => simp
    | div => exact absurd hc hi
    | ok e1 r1 =>
      obtain ⟨u, rfl, hu, _⟩ := post_all (denote_ok_big hc)
      rw [pathLen_ident (ident_chars hu)] at h
      have hj := lexN_ne_div (r := .Identifier) rfl (n := n + 1) (Nat.succ_pos _)
      cases r1 with
      | nil => simp [PExp.seqs, denote]
      | cons x r2 =>
        by_cases hx : x = '-'
        · subst hx
          cases r2 with
          | nil => simp [PExp.seqs, denote]
          | cons y r3 =>
            by_cases hy : y = '>'
            · subst hy
              have h3 : pathLen r3 < n := by simp only [pathLen] at h; omega
              have h4 := ih r3 h3
              have h5 := hj r3
              have h6 : denote (denoteN G (n + 1)) (.alt (.call .JsonReference) (.call .Identifier)) r3 ≠ .div := by
                unfold denote
                split
                · simp
                · exact h5
                · rename_i hd; exact absurd hd h4
              have h7 := chr_seq_ne_div '-' (chr_seq_ne_div '>' h6)
              simp only [PExp.seqs]
              split <;> simp_all
            · simp [PExp.seqs, denote, hy]
        · simp [PExp.seqs, denote, hx]

/-- The room for `e` suffices at this point of the text. -/
theorem deep_ne_div : ∀ n e R s x, fits R e x = true → R + 10 * (pars x.2 + nest x.1 s) + longest s ≤ n → denote (denoteN G n) e s ≠ .div := by
  intro n
  induction n using Nat.strongRecOn with
  | _ n ihn =>
  intro e
  induction e with
  | eps => intros; simp [denote]
  | any => intro R s _ _ _; cases s <;> simp [denote]
  | chr c =>
    intro R s _ _ _
    cases s with
    | nil => simp [denote]
    | cons x t => by_cases hx : x = c <;> simp [denote, hx]
  | rng lo hi =>
    intro R s _ _ _
    cases s with
    | nil => simp [denote]
    | cons x t =>
      by_cases hx : lo.toNat ≤ x.toNat ∧ x.toNat ≤ hi.toNat
      · simp [denote, hx]
      · simp [denote, if_neg hx]
  | seq a b iha ihb =>
    intro R s x hw hl
    simp only [fits, Bool.and_eq_true] at hw
    have ha := iha R s x hw.1 hl
    unfold denote
    cases hc : denote (denoteN G n) a s with
    | fail => simp
    | div => exact absurd hc ha
    | ok e1 r1 =>
      cases hy : ana a x with
      | none => rw [hy] at hw; exact absurd hw.2 (by simp)
      | some y =>
        rw [hy] at hw
        have h1 := big_nest (denote_ok_big hc) rfl (m := x.1) (k := x.2) (m' := y.1) (k' := y.2) hy
        have h2 := big_longest (denote_ok_big hc)
        have hb := ihb R r1 y hw.2 (by omega)
        simp only
        split <;> simp_all
  | alt a b iha ihb =>
    intro R s x hw hl
    simp only [fits, Bool.and_eq_true] at hw
    have ha := iha R s x hw.1 hl
    have hb := ihb R s x hw.2 hl
    unfold denote
    split <;> simp_all
  | star a iha =>
    intro R s x hw hl
    simp only [fits, Bool.and_eq_true, Bool.not_eq_true', decide_eq_true_eq] at hw
    refine starLoop_ne_div_of (fun s => R + 10 * (pars x.2 + nest x.1 s) + longest s ≤ n) _ _ (Nat.lt_succ_self _) hl ?_ ?_
    · intro s' hs'; exact iha R s' x hw.1.1 hs'
    · intro s' e r hs' he
      have h1 := big_nest (denote_ok_big he) rfl (m := x.1) (k := x.2) (m' := x.1) (k' := x.2) hw.1.2
      have h2 := big_longest (denote_ok_big he)
      exact ⟨by show R + 10 * (pars x.2 + nest x.1 r) + longest r ≤ n; omega, Big.consumes' nulG_ok (denote_ok_big he) _ _ rfl hw.2⟩
  | opt a iha =>
    intro R s x hw hl
    have ha := iha R s x hw hl
    unfold denote
    split <;> simp_all
  | notP a iha =>
    intro R s x hw hl
    have ha := iha R s x hw hl
    unfold denote
    split <;> simp_all
  | call r =>
    intro R s x hw hl
    simp only [fits, Bool.or_eq_true, Bool.and_eq_true, decide_eq_true_eq] at hw
    by_cases hlex : lexical r = true ∧ rho r < R
    · exact lexN_ne_div hlex.1 (n := n) (by omega) s
    · obtain ⟨hm, hr⟩ := hw.resolve_left hlex
      rw [hm] at hl
      cases n with
      | zero => omega
      | succ n =>
        show denote (denoteN G n) (G r) s ≠ .div
        by_cases hlx : lexical r = true
        · exact lex_ne_div n (G r) (rho r) s (fitsLex_ok r hlx) (by omega)
        by_cases hj : r = .JsonReference
        · subst hj
          have h1 := pathLen_le s
          have h2 : rho .JsonReference = 1 := rfl
          exact json_ne_div n s (by omega)
        · have h3 : pars [] = 0 := rfl
          exact ihn n (by omega) (G r) (rho r) s (.code, []) (fits_ok r (by simpa using hlx) hj) (by simp only [h3]; omega)
  | txt a iha =>
    intro R s x hw hl
    have ha := iha R s x hw hl
    unfold denote
    split <;> simp_all
  | act n => intros; simp [denote]
  | sw cs a b iha ihb =>
    intro R s x hw hl
    simp only [fits, Bool.and_eq_true] at hw
    have ha := iha R s x hw.1 hl
    have hb := ihb R s x hw.2 hl
    cases s with
    | nil => simpa [denote] using hb
    | cons x t => by_cases hx : x ∈ cs <;> simp [denote, hx] <;> assumption

theorem grammar_ne_div {s : Str} {d : Nat} (h : 10 * nest .code s + longest s + 15 ≤ d) : denoteN G d .Grammar s ≠ .div := by
  obtain ⟨n, rfl⟩ : ∃ n, d = n + 1 := ⟨d - 1, by omega⟩
  exact deep_ne_div n (G .Grammar) 14 s (.code, []) (fits_ok .Grammar rfl (by decide)) (by show 14 + 10 * (0 + nest .code s) + longest s ≤ n; omega)

/-! ## More room does not change the outcome -/

theorem execStar_mono {p q : St → Out} (h : ∀ st, p st ≠ .div → q st = p st) : ∀ n st, execStar p n st ≠ .div → execStar q n st = execStar p n st := by
  intro n
  induction n with
  | zero => intro st hn; exact absurd rfl hn
  | succ n ih =>
    intro st hn
    unfold execStar at hn ⊢
    have hp : p st ≠ .div := by intro hd; rw [hd] at hn; exact hn rfl
    rw [h st hp]
    cases hc : p st with
    | ok st' => rw [hc] at hn; exact ih st' hn
    | fail st' => rfl
    | panic => rfl
    | div => rfl

theorem exec_mono {buf : List Nat} {env env' : Rule → St → Out} (henv : ∀ r st, env r st ≠ .div → env' r st = env r st) :
    ∀ e st, exec buf env e st ≠ .div → exec buf env' e st = exec buf env e st := by
  intro e
  induction e with
  | seq a b iha ihb =>
    intro st hn
    unfold exec at hn ⊢
    have ha : exec buf env a st ≠ .div := by intro hd; rw [hd] at hn; exact hn rfl
    rw [iha st ha]
    cases hc : exec buf env a st with
    | ok st' => rw [hc] at hn; exact ihb st' hn
    | _ => rfl
  | alt a b iha ihb =>
    intro st hn
    unfold exec at hn ⊢
    have ha : exec buf env a st ≠ .div := by intro hd; rw [hd] at hn; exact hn rfl
    rw [iha st ha]
    cases hc : exec buf env a st with
    | fail st' => rw [hc] at hn; exact ihb _ hn
    | _ => rfl
  | star a iha => intro st hn; exact execStar_mono iha _ st hn
  | opt a iha =>
    intro st hn
    unfold exec at hn ⊢
    rw [iha st (by intro hd; rw [hd] at hn; exact hn rfl)]
  | notP a iha =>
    intro st hn
    unfold exec at hn ⊢
    rw [iha st (by intro hd; rw [hd] at hn; exact hn rfl)]
  | txt a iha =>
    intro st hn
    unfold exec at hn ⊢
    rw [iha st (by intro hd; rw [hd] at hn; exact hn rfl)]
  | call r => intro st hn; exact henv r st hn
  | sw cs a b iha ihb =>
    intro st hn
    unfold exec at hn ⊢
    cases hc : buf[st.pos]? with
    | none => rfl
    | some x =>
      rw [hc] at hn
      simp only at hn ⊢
      split
      · rename_i hx; rw [if_pos hx] at hn; exact iha st hn
      · rename_i hx; rw [if_neg hx] at hn; exact ihb st hn
  | _ => intros; rfl

theorem execN_mono1 (buf : List Nat) : ∀ n r st, execN buf G n r st ≠ .div → execN buf G (n + 1) r st = execN buf G n r st := by
  intro n
  induction n with
  | zero => intro r st h; exact absurd rfl h
  | succ n ih =>
    intro r st h
    have he : exec buf (execN buf G n) (G r) st ≠ .div := by intro hd; simp only [execN, hd] at h; exact h rfl
    have := exec_mono ih (G r) st he
    show (match exec buf (execN buf G (n + 1)) (G r) st with
      | .ok st' => Out.ok (addTok (.rule r) st.pos st') | .fail st' => .fail { st' with pos := st.pos, ti := st.ti } | .panic => .panic | .div => .div) = _
    rw [this]
    rfl

theorem execN_mono {buf : List Nat} {n m : Nat} (hnm : n ≤ m) {r st} (h : execN buf G n r st ≠ .div) : execN buf G m r st = execN buf G n r st := by
  induction hnm with
  | refl => rfl
  | step _ ih => rw [execN_mono1 buf _ r st (by rw [ih]; exact h), ih]

theorem execN_same {buf : List Nat} {n m : Nat} {r st} (hn : execN buf G n r st ≠ .div) (hm : execN buf G m r st ≠ .div) :
    execN buf G n r st = execN buf G m r st := by
  rcases Nat.le_total n m with h | h
  · exact (execN_mono h hn).symm
  · exact execN_mono h hm

theorem execN_ne_div {s : Str} {d : Nat} (h : denoteN G d .Grammar s ≠ .div) : execN (mkBuf s) G d .Grammar initSt ≠ .div := by
  have hm := execN_match G s d .Grammar initSt s (initSt_rel s)
  cases hd : denoteN G d .Grammar s with
  | div => exact absurd hd h
  | fail => rw [hd] at hm; obtain ⟨st', ho, _⟩ := hm; rw [ho]; simp
  | ok e r => rw [hd] at hm; obtain ⟨st', _, ho, _⟩ := hm; rw [ho]; simp

theorem parseDeep_eq {s : Str} {d : Nat} (h : execN (mkBuf s) G d .Grammar initSt ≠ .div) : parseDeep d s = parse s := by
  have h2 : execN (mkBuf s) G (depthBound s.length) .Grammar initSt ≠ .div :=
    execN_ne_div (denoteN_ne_div _ _ _ (by show _ + 12 < _; unfold depthBound; omega))
  unfold parseDeep parse
  rw [execN_same h h2]
  rfl

/-! ## The generated code runs out of room where the grammar does -/

theorem execStar_div {s0 : Str} {p : St → Out} {q : Str → Res} (hpq : ∀ st s, Rel s0 st s → Match s0 st (p st) (q s))
    (hd : ∀ st s, Rel s0 st s → q s = .div → p st = .div) :
    ∀ n st s, Rel s0 st s → starLoop q n s = .div → execStar p n st = .div := by
  intro n
  induction n with
  | zero => intros; rfl
  | succ n ih =>
    intro st s hr h
    have hm := hpq st s hr
    unfold execStar
    unfold starLoop at h
    cases hq : q s with
    | div => rw [hd st s hr hq]
    | fail => rw [hq] at h; cases h
    | ok e1 r1 =>
      rw [hq] at h hm
      obtain ⟨st1, toks1, ho, hr1, _⟩ := hm
      rw [ho]
      refine ih st1 r1 hr1 ?_
      simp only at h
      split at h <;> simp_all

theorem exec_div {s0 : Str} {envX : Rule → St → Out} {envD : Rule → Str → Res}
    (henv : ∀ r st s, Rel s0 st s → Match s0 st (envX r st) (envD r s)) (hlen : ∀ a s e t, denote envD a s = .ok e t → t.length ≤ s.length)
    (hd : ∀ r st s, Rel s0 st s → envD r s = .div → envX r st = .div) :
    ∀ e st s, Rel s0 st s → denote envD e s = .div → exec (mkBuf s0) envX e st = .div := by
  intro e
  induction e with
  | eps => intro st s _ h; cases h
  | any => intro st s _ h; cases s <;> simp [denote] at h
  | chr c =>
    intro st s _ h
    cases s with
    | nil => simp [denote] at h
    | cons x t => by_cases hx : x = c <;> simp [denote, hx] at h
  | rng lo hi =>
    intro st s _ h
    cases s with
    | nil => simp [denote] at h
    | cons x t => simp only [denote] at h; split at h <;> cases h
  | seq a b iha ihb =>
    intro st s hr h
    have hm := exec_match henv hlen a st s hr
    unfold exec
    unfold denote at h
    cases hc : denote envD a s with
    | div => rw [iha st s hr hc]
    | fail => rw [hc] at h; cases h
    | ok e1 r1 =>
      rw [hc] at h hm
      obtain ⟨st1, toks1, ho, hr1, _⟩ := hm
      rw [ho]
      refine ihb st1 r1 hr1 ?_
      simp only at h
      split at h <;> simp_all
  | alt a b iha ihb =>
    intro st s hr h
    have hm := exec_match henv hlen a st s hr
    unfold exec
    unfold denote at h
    cases hc : denote envD a s with
    | div => rw [iha st s hr hc]
    | ok => rw [hc] at h; cases h
    | fail =>
      rw [hc] at h hm
      obtain ⟨st1, ho, hf⟩ := hm
      rw [ho]
      exact ihb _ s (hf.restore hr) h
  | star a iha =>
    intro st s hr h
    unfold exec
    unfold denote at h
    have hl := hr.len
    have hp := hr.pos_le
    have : (mkBuf s0).length - st.pos = s.length + 1 := by simp [mkBuf]; omega
    rw [this]
    exact execStar_div (exec_match henv hlen a) iha _ st s hr h
  | opt a iha =>
    intro st s hr h
    unfold exec
    unfold denote at h
    cases hc : denote envD a s with
    | div => rw [iha st s hr hc]
    | _ => rw [hc] at h; cases h
  | notP a iha =>
    intro st s hr h
    unfold exec
    unfold denote at h
    cases hc : denote envD a s with
    | div => rw [iha st s hr hc]
    | _ => rw [hc] at h; cases h
  | txt a iha =>
    intro st s hr h
    unfold exec
    unfold denote at h
    cases hc : denote envD a s with
    | div => rw [iha st s hr hc]
    | _ => rw [hc] at h; cases h
  | call r => intro st s hr h; exact hd r st s hr h
  | act n => intro st s _ h; cases h
  | sw cs a b iha ihb =>
    intro st s hr h
    cases s with
    | nil =>
      simp only [exec, mkBuf_nil hr]
      simp only [denote] at h
      rw [if_neg (by
        intro hm
        obtain ⟨c, _, hc⟩ := List.mem_map.mp hm
        exact Char.toNat_ne_end c hc)]
      exact ihb st [] hr h
    | cons x t =>
      simp only [exec, mkBuf_cons hr]
      simp only [denote] at h
      by_cases hx : x ∈ cs
      · rw [if_pos hx] at h
        rw [if_pos (List.mem_map.mpr ⟨x, hx, rfl⟩)]
        exact iha st _ hr h
      · rw [if_neg hx] at h
        rw [if_neg (by
          intro hm
          obtain ⟨c, hc, he⟩ := List.mem_map.mp hm
          exact hx (Char.toNat_inj' he ▸ hc))]
        exact ihb st _ hr h

theorem denote_len {n : Nat} : ∀ a s e t, denote (denoteN G n) a s = .ok e t → t.length ≤ s.length :=
  fun _ _ _ _ h => (denote_ok_big h).length_le

theorem execN_div (s0 : Str) : ∀ n r st s, Rel s0 st s → denoteN G n r s = .div → execN (mkBuf s0) G n r st = .div := by
  intro n
  induction n with
  | zero => intros; rfl
  | succ n ih =>
    intro r st s hr h
    have := exec_div (execN_match G s0 n) denote_len ih (G r) st s hr h
    unfold execN
    rw [this]

theorem parseDeep_div {s : Str} {d : Nat} (h : denoteN G d .Grammar s = .div) : parseDeep d s = .div := by
  unfold parseDeep
  rw [execN_div s d .Grammar initSt s (initSt_rel s) h]

/-! ## How much room there must be -/

/-- A sequence whose first part, if it fits, leaves a text on which the rest does not fit. -/
theorem seq_div {env : Rule → Str → Res} {a b : PExp} {s : Str} (ha : denote env a s = .div ∨ ∃ e r, denote env a s = .ok e r ∧ denote env b r = .div) :
    denote env (.seq a b) s = .div := by
  unfold denote
  rcases ha with h | ⟨e, r, h, h2⟩
  · rw [h]
  · rw [h]; simp only; rw [h2]

theorem alt_div {env : Rule → Str → Res} {a b : PExp} {s : Str}
    (h : denote env a s = .div ∨ (denote env a s = .fail ∧ denote env b s = .div)) : denote env (.alt a b) s = .div := by
  unfold denote
  rcases h with h | ⟨h, h2⟩
  · rw [h]
  · rw [h]; exact h2

theorem big_or_div {r : Rule} {s : Str} {ev u} (h : Ok (.call r) s ev u) (n : Nat) : denoteN G n r s = .div ∨ denoteN G n r s = .ok ev u := by
  by_cases hd : denoteN G n r s = .div
  · exact .inl hd
  · right
    have := (denoteN_big (G := G) n r s hd).det h
    cases hc : denoteN G n r s with
    | div => exact absurd hc hd
    | fail => rw [hc] at this; cases this
    | ok e t => rw [hc] at this; cases this; rfl

theorem no_or_div {e : PExp} {s : Str} (h : No e s) (n : Nat) : denote (denoteN G n) e s = .div ∨ denote (denoteN G n) e s = .fail := by
  by_cases hd : denote (denoteN G n) e s = .div
  · exact .inl hd
  · right
    have := (denote_big (denoteN_big (G := G) n) e s hd).det h
    cases hc : denote (denoteN G n) e s with
    | div => exact absurd hc hd
    | fail => rfl
    | ok e t => rw [hc] at this; cases this

/-- A rule that begins with another one needs one more than that. -/
theorem up {r r' : Rule} {s : Str} {n : Nat} (hr : ∀ m, denoteN G m r' s = .div → denoteN G (m + 1) r s = .div)
    (h : ∀ m, m ≤ n → denoteN G m r' s = .div) : ∀ m, m ≤ n + 1 → denoteN G m r s = .div := by
  intro m hm
  cases m with
  | zero => rfl
  | succ m => exact hr m (h m (by omega))

theorem expression_up {s : Str} {n : Nat} (h : ∀ m, m ≤ n → denoteN G m .PrimaryExpression s = .div) :
    ∀ m, m ≤ n + 7 → denoteN G m .Expression s = .div := by
  have h1 := up (r := .BetweenExpression) (fun m h => seq_div (.inl h)) h
  have h2 := up (r := .PredicateExpression) (fun m h => seq_div (.inl h)) h1
  have h3 := up (r := .CompareInExpression) (fun m h => seq_div (.inl h)) h2
  have h4 := up (r := .CompareExpression) (fun m h => seq_div (.inl h)) h3
  have h5 := up (r := .NotExpression) (fun m h => alt_div (.inl h)) h4
  have h6 := up (r := .LogicExpression) (fun m h => seq_div (.inl h)) h5
  exact up (r := .Expression) (fun m h => h) h6

theorem solid_skip {s : Str} (h : Solid s) (n : Nat) : denoteN G n .sp s = .div ∨ denoteN G n .sp s = .ok [] s := big_or_div (sp_nil h.no) n

/-- Opening parentheses. -/
theorem paren_chain {s : Str} {b : Nat} (hs : b = 0 ∨ Solid s) (hb : ∀ m, m ≤ b → denoteN G m .Expression s = .div) :
    ∀ k n, n ≤ 8 * k + b → denoteN G n .Expression (List.replicate k '(' ++ s) = .div := by
  intro k
  induction k with
  | zero => intro n h; exact hb n (by omega)
  | succ k ih =>
    have hp : ∀ m, m ≤ 8 * k + b + 1 → denoteN G m .PrimaryExpression (List.replicate (k + 1) '(' ++ s) = .div := by
      intro m hm
      cases m with
      | zero => rfl
      | succ m =>
        refine alt_div (.inl (seq_div (.inr ⟨_, List.replicate k '(' ++ s, rfl, seq_div ?_⟩)))
        have h2 : denote (denoteN G m) (.seq (.call .Expression) (.seq (.call .sp) (.seq (.chr ')') (.act 8)))) (List.replicate k '(' ++ s) = .div :=
          seq_div (.inl (ih m (by omega)))
        by_cases hm0 : m = 0
        · subst hm0; exact .inl rfl
        have hs2 : Solid (List.replicate k '(' ++ s) := by
          cases k with
          | zero => exact hs.resolve_left (by omega)
          | succ k => exact .cons (by decide)
        rcases solid_skip hs2 m with h | h
        · exact .inl h
        · exact .inr ⟨_, _, h, h2⟩
    intro n h
    exact expression_up hp n (by omega)

/-- A path. -/
def pathText : Nat → Str → Str
  | 0, s => s
  | k + 1, s => 'a' :: '-' :: '>' :: pathText k s

theorem a_ident (s : Str) : Ok (.call .Identifier) ('a' :: '-' :: s) [.text c!"a", .act 14] ('-' :: s) :=
  identifier_ok (u := c!"a") ⟨⟨'a', [], rfl, .inl (by decide), by simp⟩, by
    intro a t e h
    have hl := h.length
    have := congrArg List.length e
    simp at this hl
    omega⟩ (by rintro c t ⟨⟩; decide)

theorem path_chain (s : Str) : ∀ k n, n ≤ k → denoteN G n .JsonReference (pathText k s) = .div := by
  intro k
  induction k with
  | zero => intro n h; rw [show n = 0 by omega]; rfl
  | succ k ih =>
    intro n h
    cases n with
    | zero => rfl
    | succ n =>
      refine seq_div ?_
      rcases big_or_div (a_ident ('>' :: pathText k s)) n with h1 | h1
      · exact .inl h1
      · refine .inr ⟨_, _, h1, seq_div (.inr ⟨_, '>' :: pathText k s, rfl, seq_div (.inr ⟨_, pathText k s, rfl, alt_div (.inl (ih n (by omega)))⟩)⟩)⟩

theorem path_expression (s : Str) (k : Nat) : ∀ n, n ≤ k → denoteN G n .Expression (pathText k s) = .div := by
  cases k with
  | zero => intro n h; rw [show n = 0 by omega]; rfl
  | succ k =>
    have hr : ∀ n, n ≤ k + 2 → denoteN G n .Reference (pathText (k + 1) s) = .div := by
      intro n h
      cases n with
      | zero => rfl
      | succ n =>
        have hj := path_chain s (k + 1) n (by omega)
        have h1 : No (.call .IdentifierReference) (pathText (k + 1) s) :=
          .call (.seqFail2 .act (.seqFail2 (a_ident _) (.seqFail1 (.chrFail (by decide)))))
        refine alt_div ?_
        rcases no_or_div h1 n with h | h
        · exact .inl h
        · exact .inr ⟨h, alt_div (.inl hj)⟩
    have hp : ∀ n, n ≤ k + 3 → denoteN G n .PrimaryExpression (pathText (k + 1) s) = .div := by
      intro n h
      cases n with
      | zero => rfl
      | succ n =>
        have hj := hr n (by omega)
        have h1 : No (PExp.seqs [.chr '(', .call .sp, .call .Expression, .call .sp, .chr ')', .act 8]) (pathText (k + 1) s) :=
          .seqFail1 (.chrFail (by decide))
        have h2 : No (.call .Value) (pathText (k + 1) s) := value_no (by decide) (by
          rintro w hw ⟨t, ht⟩
          simp at hw
          rcases hw with rfl | rfl | rfl | rfl | rfl | rfl <;> cases ht)
        have h3 : No (PExp.seqs [.call .Identifier, .call .ArgumentList, .act 9]) (pathText (k + 1) s) :=
          .seqFail2 (a_ident _) (.seqFail1 (.call (.seqFail1 (.chrFail (by decide)))))
        refine alt_div ?_
        rcases no_or_div h1 n with h | h
        · exact .inl h
        refine .inr ⟨h, alt_div ?_⟩
        rcases no_or_div h2 n with h | h
        · exact .inl h
        refine .inr ⟨h, alt_div ?_⟩
        rcases no_or_div h3 n with h | h
        · exact .inl h
        exact .inr ⟨h, hj⟩
    intro n h
    exact expression_up hp n (by omega)

theorem needed (s : Str) (j k d : Nat) (h : d ≤ 8 * j + k + 1) : denoteN G d .Grammar (List.replicate j '(' ++ pathText k s) = .div := by
  cases d with
  | zero => rfl
  | succ d =>
    have hs1 : k = 0 ∨ Solid (pathText k s) := by
      cases k with
      | zero => exact .inl rfl
      | succ k => exact .inr (.cons (by decide))
    have h2 := paren_chain hs1 (path_expression s k) j d (by omega)
    refine seq_div ?_
    by_cases hd : d = 0
    · subst hd; exact .inl rfl
    have hs2 : Solid (List.replicate j '(' ++ pathText k s) := by
      cases j with
      | zero => exact hs1.resolve_left (by omega)
      | succ j => exact .cons (by decide)
    rcases solid_skip hs2 d with h | h
    · exact .inl h
    · exact .inr ⟨_, _, h, seq_div (.inl h2)⟩

end Verif
