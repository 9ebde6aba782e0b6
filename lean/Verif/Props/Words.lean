import Verif.WordsRun
import Verif.Props.Layout
import Verif.Props.Case
import Verif.Props.Inert
import Verif.Props.PegFile

/-! # C80: numbers, names and strings of a query can be replaced -/

namespace Verif

variable {N : Str → Str → Prop} {I : Nat → Nat → Prop} {S : Str → Str → Prop}

/-- C80: replacing names, numbers and quoted texts of a query (any number of them, names by names that are read as names where they stand) neither makes a
query that is not in the language acceptable nor the other way round. -/
theorem C80_syntax {s s' : Str} (h : Refill N I S .operand s s') : SyntaxError s ↔ SyntaxError s' := by
  obtain ⟨x, hx, _⟩ := C54_file_total .Grammar s
  obtain ⟨x', hx', hc⟩ := words_sync hx (t := .operand) (p := false) rfl (.at (.inr (.inr rfl)) h)
  unfold SyntaxError
  rw [C54_syntax_error, C54_syntax_error]
  constructor
  · intro h1
    cases hx.det h1
    cases hc.none
    exact hx'
  · intro h1
    cases hx'.det h1
    cases x with
    | none => exact hx
    | some x => exact hc.elim

/-- C80: the tree of the other query is the same tree with the names, numbers and strings replaced; if `Parse` returns an error, it is a syntax error in
both cases, or the same error. -/
theorem C80_tree (hk : Kept N I S) (hI : InRange I) {s s' : Str} (h : Refill N I S .operand s s') : SameResult N I S (parse s) (parse s') := by
  obtain ⟨x, hx⟩ := big_total .Grammar s
  obtain ⟨x', hx'⟩ := big_total .Grammar s'
  obtain ⟨y, hy, hc⟩ := words_sync (big_parses hx) (t := .operand) (p := false) rfl (.at (.inr (.inr rfl)) h)
  cases hy.det (big_parses hx')
  rcases parse_cases s with ⟨ev, h1, e1⟩ | ⟨h1, b, e, e1, _⟩
  · cases Big.det hx h1
    obtain ⟨_, _, hx2, he, _⟩ := hc.some
    rcases parse_cases s' with ⟨ev', h2, e2⟩ | ⟨h2, _⟩
    · cases Big.det hx' h2
      cases hx2
      have hp : finish ev ≠ .panic := by rw [← e1]; exact (C01_parse_total _).2.1
      rw [e1, e2]
      have hr := words_run hk hI he (x := []) (t := {}) (x' := []) (t' := {}) ⟨fun _ => rfl, .nil, rfl, rfl⟩
      revert hr hp
      unfold finish
      rw [runEvs_up, runEvs_up, doMeths_eq, doMeths_eq]
      cases doMethsX [] (ev.filterMap upEv) {} with
      | none => intro h; exact absurd rfl h
      | some y =>
        cases doMethsX [] (ev'.filterMap upEv) {} with
        | none => exact fun _ h => h.elim
        | some y' =>
          rintro - ⟨-, hr⟩
          simp only [Option.map_some]
          rw [← hr.errors]
          cases y.2.errors with
          | nil => exact hr.pop.1
          | cons e es => cases e <;> first | rfl | trivial
    · cases Big.det hx' h2
      cases hx2
  · cases Big.det hx h1
    have hx2 := hc.none
    rcases parse_cases s' with ⟨ev1, h2, e2⟩ | ⟨h2, b', e', e2, _⟩
    · cases Big.det hx' h2
      cases hx2
    · rw [e1, e2]
      trivial

/-- A word that does not begin with `n`. -/
theorem nameFits_word {b : Next} {c : Char} {t : Str} (hn : c ≠ 'n' ∧ c ≠ 'N') (h1 : IdHead c) (h2 : ∀ x ∈ t, IdTail x) (h3 : ∀ k ∈ valueWords, ¬ k <+: c :: t)
    (h4 : b ≠ .operand → ∀ k ∈ c!"is" :: opWords, ¬ k <+: (c :: t).map Char.toLower) : NameFits b (c :: t) := by
  refine ⟨⟨⟨c, t, rfl, h1, h2⟩, ?_⟩, h3, h4⟩
  rintro a t' e ⟨x, u, rfl, hx, _⟩
  cases e
  rcases hx with rfl | rfl
  · exact hn.1 rfl
  · exact hn.2 rfl

/-- `a = 1 and order_id in ['x']` and the same with other names, numbers and strings. -/
example : Refill (fun _ _ => True) (fun k k' => k = k' ∨ (k ≤ maxInt ∧ k' ≤ maxInt)) (fun _ _ => True) .operand
    c!"a = 1 and order_id in ['x']" c!"in_stock = 42 and b in ['y or 1 = 1']" := by
  have f : ∀ {c : Char} {t : Str}, c ≠ 'n' ∧ c ≠ 'N' → IdHead c → (∀ x ∈ t, IdTail x) → (∀ k ∈ valueWords, ¬ k <+: c :: t) → NameFits .operand (c :: t) :=
    fun h1 h2 h3 h4 => nameFits_word h1 h2 h3 h4 fun h => absurd rfl h
  have e : ∀ {c : Char} {t : Str}, ¬ IdTail c → WordEnd (c :: t) := by
    intro c t h d u e
    cases e
    exact h
  have sp : ¬ IdTail ' ' := by unfold IdTail IdHead; decide
  refine .name (x := c!"a") (x' := c!"in_stock") trivial (f ?_ ?_ ?_ ?_) (f ?_ ?_ ?_ ?_) (e sp) <| .blank (by decide) <|
    .sign (c := '=') ?_ (by decide) (by decide) (by decide) (by decide) <| .blank (by decide) <|
    .number (k := 1) (k' := 42) (.inr (by decide)) (e sp) <| .blank (by decide) <|
    .op (k := c!"and") (w := c!"and") (by decide) ?_ (e sp) <| .blank (by decide) <|
    .name (x := c!"order_id") (x' := c!"b") trivial (f ?_ ?_ ?_ ?_) (f ?_ ?_ ?_ ?_) (e sp) <| .blank (by decide) <|
    .op (k := c!"in") (w := c!"in") (by decide) ?_ (e sp) <| .blank (by decide) <|
    .sign (c := '[') ?_ (by decide) (by decide) (by decide) (by decide) <|
    .quoted (q := '\'') (v := c!"x") (v' := c!"y or 1 = 1") (.inl rfl) (by decide) (by decide) trivial <|
    .sign (c := ']') ?_ (by decide) (by decide) (by decide) (by decide) .nil
  all_goals first | decide | (unfold IdHead; decide) | (unfold IdTail IdHead; decide) |
    exact ⟨_, _, rfl, .inl rfl, _, _, rfl, .inl rfl, rfl⟩ | exact ⟨_, _, rfl, .inl rfl, _, _, rfl, .inl rfl, _, _, rfl, .inl rfl, rfl⟩

example : parse c!"a = 1 and order_id in ['x']" =
      .ok (.logic (.cmp (.ident c!"a") (.op c!"eq") (.int 1)) (.op c!"and") (.cmp (.ident c!"order_id") (.op c!"in") (.arr [.str c!"x"]))) ∧
    parse c!"in_stock = 42 and b in ['y or 1 = 1']" =
      .ok (.logic (.cmp (.ident c!"in_stock") (.op c!"eq") (.int 42)) (.op c!"and") (.cmp (.ident c!"b") (.op c!"in") (.arr [.str c!"y or 1 = 1"]))) := by
  decide +kernel

/-- Why names must not begin with a literal, or with an operator where an operand is not expected: `truex` is not read as a name, and `order_id` is read as
`or` and `der_id`. -/
theorem C80_refuted :
    (parse c!"a = xtrue" = .ok (.cmp (.ident c!"a") (.op c!"eq") (.ident c!"xtrue")) ∧ SyntaxError c!"a = truex") ∧
    (SyntaxError c!"a border_id = 1" ∧
      parse c!"a order_id = 1" = .ok (.logic (.ident c!"a") (.op c!"or") (.cmp (.ident c!"der_id") (.op c!"eq") (.int 1)))) :=
  ⟨⟨by decide +kernel, 4, 8, by decide +kernel⟩, ⟨1, 2, by decide +kernel⟩, by decide +kernel⟩

/-! ## At one place -/

theorem run_split (v : Str) : ∃ a b, v = a ++ b ∧ (∀ c ∈ a, IdTail c) ∧ WordEnd b := by
  induction v with
  | nil => exact ⟨[], [], rfl, by simp, by intro c t h; cases h⟩
  | cons c v ih =>
    by_cases hc : IdTail c
    · obtain ⟨a, b, rfl, h1, h2⟩ := ih
      exact ⟨c :: a, b, rfl, by simpa using ⟨hc, h1⟩, h2⟩
    · exact ⟨[], c :: v, rfl, by simp, by intro d t h; cases h; exact hc⟩

theorem idTail_mode {c : Char} (h : IdTail c) : modeStep .code c = .code := by
  have : c ≠ '\'' ∧ c ≠ '"' ∧ c ≠ '-' ∧ c ≠ '/' := by
    refine ⟨?_, ?_, ?_, ?_⟩ <;> rintro rfl <;> revert h <;> simp only [IdTail, IdHead] <;> decide
  simp [modeStep, this]

theorem word_mode : ∀ {x : Str}, (∀ c ∈ x, IdTail c) → modeFrom .code x = .code
  | [], _ => rfl
  | c :: x, h => by
    show modeFrom (modeStep .code c) x = .code
    rw [idTail_mode (h c (by simp))]
    exact word_mode fun d hd => h d (by simp [hd])

theorem modeFrom_append (m : Mode) (a b : Str) : modeFrom m (a ++ b) = modeFrom (modeFrom m a) b := List.foldl_append

/-- Before the two texts the same text can stand. -/
theorem Refill.prepend (hS : ∀ x, S x x) {t t' : Str} (h : ∀ b, Refill N I S b t t') :
    ∀ (k : Nat) {u : Str}, u.length ≤ k → modeFrom .code u = .code → (∀ v c, u = v ++ [c] → IdTail c → WordEnd t) → ∀ b,
      Refill N I S b (u ++ t) (u ++ t') := by
  intro k
  induction k with
  | zero =>
    intro u hk _ _
    cases u with
    | nil => exact h
    | cons c u => cases hk
  | succ k ih =>
    intro u hk hm hl b
    cases u with
    | nil => exact h b
    | cons c u =>
      have suf : ∀ {a v : Str}, c :: u = a ++ v → a ≠ [] → modeFrom .code v = .code → ∀ b, Refill N I S b (v ++ t) (v ++ t') := by
        intro a v e ha hv
        refine ih ?_ hv ?_
        · have := congrArg List.length e
          have : 0 < a.length := List.length_pos_iff.mpr ha
          simp at *
          omega
        · intro v' d hd
          refine hl (a ++ v') d ?_
          rw [e, hd, List.append_assoc]
      by_cases hw : IdTail c
      · obtain ⟨x, r, e, h1, h2⟩ := run_split (c :: u)
        have hx : x ≠ [] := by
          rintro rfl
          exact h2 c u e.symm hw
        have hr : modeFrom .code r = .code := by
          rw [e, modeFrom_append, word_mode h1] at hm
          exact hm
        have := Refill.word (b := b) hx h1 ?_ (suf e hx hr .either)
        · rw [e, List.append_assoc, List.append_assoc]; exact this
        · cases r with
          | nil =>
            simp only [List.append_nil] at e
            obtain ⟨y, d, hy⟩ : ∃ y d, x = y ++ [d] := ⟨x.dropLast, x.getLast hx, (List.dropLast_concat_getLast hx).symm⟩
            exact hl y d (e.trans hy) (h1 d (by rw [hy]; simp))
          | cons d r =>
            intro d' t' hd
            cases hd
            exact h2 d r rfl
      have hm : modeFrom (modeStep .code c) u = .code := hm
      by_cases hq : c = '\'' ∨ c = '"'
      · obtain ⟨v, r, rfl, h1, h2⟩ : ∃ b v, u = b ++ c :: v ∧ c ∉ b ∧ modeFrom .code v = .code := by
          rcases hq with rfl | rfl
          · exact quote_split (m := .sq) (fun c => rfl) (by simp) hm
          · exact quote_split (m := .dq) (fun c => rfl) (by simp) hm
        have := Refill.quoted (N := N) (I := I) (b := b) hq h1 h1 (hS v) (suf (a := c :: (v ++ [c])) (v := r) (by simp) (by simp) h2 .operator)
        simpa using this
      simp only [not_or] at hq
      by_cases hb : c ∈ blanks
      · refine .blank hb (suf (a := [c]) (v := u) rfl (by simp) ?_ b)
        simp [blanks] at hb
        rcases hb with rfl | rfl | rfl | rfl <;> exact hm
      by_cases hd : c = '-' ∨ c = '/'
      · cases u with
        | nil => rcases hd with rfl | rfl <;> cases hm
        | cons d u =>
          by_cases he : d = c
          · subst he
            have hm : modeFrom .comment u = .code := by rcases hd with rfl | rfl <;> exact hm
            obtain ⟨v, e, r, rfl, h1, h2, h3⟩ := comment_split hm
            have := Refill.comment (N := N) (I := I) (b := b) (o := [d, d]) (by rcases hd with rfl | rfl <;> simp) h1 h2
              (suf (a := d :: d :: (v ++ [e])) (v := r) (by simp) (by simp) h3 b)
            simpa using this
          · refine .sign hw hb hq.1 hq.2 (fun _ => by simp [he]) (suf (a := [c]) (v := d :: u) rfl (by simp) ?_ _)
            refine Eq.trans ?_ hm
            show modeFrom (modeStep .code d) u = modeFrom (modeStep (modeStep .code c) d) u
            congr 1
            rcases hd with rfl | rfl <;> simp [modeStep, he]
      · simp only [not_or] at hd
        refine .sign hw hb hq.1 hq.2 (by simp [hd]) (suf (a := [c]) (v := u) rfl (by simp) ?_ _)
        rw [show modeStep .code c = .code by simp [modeStep, hq, hd]] at hm
        exact hm

/-- An accepted text is read to its end outside strings and comments. -/
theorem accepted_mode {s : Str} (h : modeAfter s ≠ .code) : SyntaxError s := by
  rcases parse_cases s with ⟨ev, h1, _⟩ | ⟨_, b, e, e1, _⟩
  · obtain ⟨a, _, _, _, hb, _⟩ := grammar_sound h1
    exact absurd (scan_mode hb).symm h
  · exact ⟨b, e, e1⟩

/-- C80 says something about every query that `Parse` accepts: it is related to itself. -/
theorem C80_all {s : Str} (hk : Kept N I S) (h : ¬ SyntaxError s) : Refill N I S .operand s s := by
  have hm : modeFrom .code s = .code := Classical.byContradiction fun hm => h (accepted_mode hm)
  have := Refill.prepend (N := N) (I := I) hk.strs (t := []) (t' := []) (fun _ => .nil) s.length (Nat.le_refl _) hm
    (fun _ _ _ _ => by intro d t h; cases h) .operand
  simpa using this

theorem SameResult.syntax {s s' : Str} (h : SyntaxError s) (h' : SyntaxError s') : SameResult N I S (parse s) (parse s') := by
  obtain ⟨b, e, h⟩ := h
  obtain ⟨b', e', h'⟩ := h'
  rw [h, h']
  trivial

theorem refill_place (hk : Kept N I S) (hI : InRange I) {u x x' v : Str} (hu : modeAfter u = .code)
    (hl : ∀ c, u.getLast? = some c → IdTail c → WordEnd (x ++ v)) (hx : modeFrom .code x = .code) (hx' : modeFrom .code x' = .code)
    (h : (∀ b, Refill N I S b v v) → ∀ b, Refill N I S b (x ++ v) (x' ++ v)) :
    SameResult N I S (parse (u ++ (x ++ v))) (parse (u ++ (x' ++ v))) := by
  by_cases hv : modeFrom .code v = .code
  · refine C80_tree hk hI ?_
    refine Refill.prepend hk.strs (h ?_) u.length (Nat.le_refl _) hu ?_ _
    · have := Refill.prepend (N := N) (I := I) hk.strs (t := []) (t' := []) (fun _ => .nil) v.length (Nat.le_refl _) hv
        (fun _ _ _ _ => by intro d t h; cases h)
      simpa using this
    · intro a c e hc
      exact hl c (by rw [e]; simp) hc
  · have hu : modeFrom .code u = .code := hu
    refine .syntax (accepted_mode ?_) (accepted_mode ?_)
    · rw [modeAfter, modeFrom_append, modeFrom_append, hu, hx]; exact hv
    · rw [modeAfter, modeFrom_append, modeFrom_append, hu, hx']; exact hv

theorem idText_tail {x : Str} (h : IdText x) : ∀ c ∈ x, IdTail c := by
  obtain ⟨c, t, rfl, h1, h2⟩ := h.1
  intro d hd
  rcases List.mem_cons.mp hd with rfl | hd
  · exact .inl h1
  · exact h2 d hd

theorem digits_tail (k : Nat) : ∀ c ∈ Nat.toDigits 10 k, IdTail c := by
  intro c hc
  have := (toDigits_digits k).1 c hc
  simp only [Char.isDigit, Bool.and_eq_true, decide_eq_true_eq] at this
  exact .inr (.inl this)

/-- **C80** at one place, for numbers: where a query has a number that stands alone (no letter, digit or underscore before or after), any other number in
the range of `int` can stand. -/
theorem C80_number {u v : Str} {k k' : Nat} (hu : modeAfter u = .code) (hl : ∀ c, u.getLast? = some c → ¬ IdTail c) (hv : WordEnd v)
    (h1 : k ≤ maxInt) (h2 : k' ≤ maxInt) :
    SameResult Eq (fun i j => i = j ∨ (i = k ∧ j = k')) Eq (parse (u ++ (Nat.toDigits 10 k ++ v))) (parse (u ++ (Nat.toDigits 10 k' ++ v))) :=
  refill_place ⟨fun _ => rfl, fun _ => .inl rfl, fun _ => rfl⟩ (by
    rintro i j (rfl | ⟨rfl, rfl⟩)
    · exact .inl rfl
    · exact .inr ⟨h1, h2⟩) hu (fun c h1 h2 => absurd h2 (hl c h1))
    (word_mode (digits_tail k)) (word_mode (digits_tail k')) fun h _ => .number (.inr ⟨rfl, rfl⟩) hv (h _)

example : modeAfter c!"age > " = .code ∧ WordEnd c!" or x = 'y'" ∧
    parse (c!"age > " ++ (Nat.toDigits 10 18 ++ c!" or x = 'y'")) =
      .ok (.logic (.cmp (.ident c!"age") (.op c!"gt") (.int 18)) (.op c!"or") (.cmp (.ident c!"x") (.op c!"eq") (.str c!"y"))) ∧
    parse (c!"age > " ++ (Nat.toDigits 10 65 ++ c!" or x = 'y'")) =
      .ok (.logic (.cmp (.ident c!"age") (.op c!"gt") (.int 65)) (.op c!"or") (.cmp (.ident c!"x") (.op c!"eq") (.str c!"y"))) := by
  refine ⟨by decide, ?_, by decide +kernel⟩
  intro c t h
  cases h
  unfold IdTail IdHead
  decide

/-- **C80** at one place, for names: where a query has a name, any other name can stand, if neither begins with an operator or a literal. -/
theorem C80_name {u v x x' : Str} (hu : modeAfter u = .code) (hl : ∀ c, u.getLast? = some c → ¬ IdTail c) (hv : WordEnd v)
    (h1 : NameFits .either x) (h2 : NameFits .either x') :
    SameResult (fun a b => a = b ∨ (a = x ∧ b = x')) Eq Eq (parse (u ++ (x ++ v))) (parse (u ++ (x' ++ v))) := by
  refine refill_place ⟨fun _ => .inl rfl, fun _ => rfl, fun _ => rfl⟩ (by rintro i j rfl; exact .inl rfl) hu (fun c h1 h2 => absurd h2 (hl c h1))
    (word_mode (idText_tail h1.1)) (word_mode (idText_tail h2.1)) fun h b => .name (.inr ⟨rfl, rfl⟩) ?_ ?_ hv (h _)
  · exact ⟨h1.1, h1.2.1, fun _ => h1.2.2 (by simp)⟩
  · exact ⟨h2.1, h2.2.1, fun _ => h2.2.2 (by simp)⟩

example : NameFits .either c!"age" ∧ NameFits .either c!"user_name" ∧
    parse (c!"-- by column\n(" ++ (c!"age" ++ c!" is not null)")) = .ok (.paren (.pred (.ident c!"age") (.op c!"is not null"))) ∧
    parse (c!"-- by column\n(" ++ (c!"user_name" ++ c!" is not null)")) = .ok (.paren (.pred (.ident c!"user_name") (.op c!"is not null"))) := by
  refine ⟨nameFits_word (by decide) ?_ ?_ (by decide) fun _ => by decide, nameFits_word (by decide) ?_ ?_ (by decide) fun _ => by decide, by decide +kernel⟩
  all_goals first | (unfold IdHead; decide) | (unfold IdTail IdHead; decide)

theorem blanks_refill {b : Next} {t t' : Str} (h : Refill N I S b t t') : ∀ {w : Str}, (∀ d ∈ w, d ∈ blanks) → Refill N I S b (w ++ t) (w ++ t')
  | [], _ => h
  | d :: w, hw => .blank (hw d (by simp)) (blanks_refill h fun e he => hw e (by simp [he]))

theorem blanks_mode : ∀ {w : Str}, (∀ d ∈ w, d ∈ blanks) → modeFrom .code w = .code
  | [], _ => rfl
  | d :: w, hw => by
    have hd := hw d (by simp)
    have := blanks_mode fun e he => hw e (List.mem_cons_of_mem d he)
    simp [blanks] at hd
    rcases hd with rfl | rfl | rfl | rfl <;> exact this

theorem operandSign {c : Char} (hc : c ∈ c!"=<>([,&|.") :
    ¬ IdTail c ∧ c ∉ blanks ∧ c ≠ '\'' ∧ c ≠ '"' ∧ c ≠ '-' ∧ c ≠ '/' ∧ afterSign c = .operand ∧ modeStep .code c = .code := by
  have : ∀ c ∈ c!"=<>([,&|.", ¬ (IdHead c ∨ ('0' ≤ c ∧ c ≤ '9') ∨ c = '_') ∧ c ∉ blanks ∧ c ≠ '\'' ∧ c ≠ '"' ∧ c ≠ '-' ∧ c ≠ '/' ∧ afterSign c = .operand ∧
      modeStep .code c = .code := by unfold IdHead; decide +kernel
  exact this c hc

/-- The same after an opening parenthesis, a comma, a comparison sign and so on, where an operand is expected: the names can begin with an operator. -/
theorem C80_operand {u w v x x' : Str} {c : Char} (hu : modeAfter u = .code) (hc : c ∈ c!"=<>([,&|.") (hw : ∀ d ∈ w, d ∈ blanks) (hv : WordEnd v)
    (h1 : NameFits .operand x) (h2 : NameFits .operand x') :
    SameResult (fun a b => a = b ∨ (a = x ∧ b = x')) Eq Eq (parse (u ++ (c :: (w ++ x) ++ v))) (parse (u ++ (c :: (w ++ x') ++ v))) := by
  obtain ⟨s1, s2, s3, s4, s5, s6, s7, s8⟩ := operandSign hc
  have mode : ∀ {y}, NameFits .operand y → modeFrom .code (c :: (w ++ y)) = .code := by
    intro y hy
    show modeFrom (modeStep .code c) (w ++ y) = .code
    rw [s8, modeFrom_append, blanks_mode hw, word_mode (idText_tail hy.1)]
  refine refill_place ⟨fun _ => .inl rfl, fun _ => rfl, fun _ => rfl⟩ (by rintro i j rfl; exact .inl rfl) hu ?_ (mode h1) (mode h2) ?_
  · intro _ _ _ d t hd
    cases hd
    exact s1
  · intro h b
    rw [List.cons_append, List.cons_append, List.append_assoc, List.append_assoc]
    refine .sign s1 s2 s3 s4 (by simp [s5, s6]) ?_
    rw [s7]
    exact blanks_refill (.name (.inr ⟨rfl, rfl⟩) h1 h2 hv (h _)) hw

example : NameFits .operand c!"age" ∧ NameFits .operand c!"order_id" ∧
    parse (c!"f" ++ ('(' :: (c!" " ++ c!"age") ++ c!")")) = .ok (.func c!"f" [.ident c!"age"]) ∧
    parse (c!"f" ++ ('(' :: (c!" " ++ c!"order_id") ++ c!")")) = .ok (.func c!"f" [.ident c!"order_id"]) := by
  refine ⟨nameFits_word (by decide) ?_ ?_ (by decide) fun h => absurd rfl h, nameFits_word (by decide) ?_ ?_ (by decide) fun h => absurd rfl h, by decide +kernel⟩
  all_goals first | (unfold IdHead; decide) | (unfold IdTail IdHead; decide)

/-- The same at the beginning of the query. -/
theorem C80_first {w v x x' : Str} (hw : ∀ d ∈ w, d ∈ blanks) (hv : WordEnd v) (h1 : NameFits .operand x) (h2 : NameFits .operand x') :
    SameResult (fun a b => a = b ∨ (a = x ∧ b = x')) Eq Eq (parse (w ++ (x ++ v))) (parse (w ++ (x' ++ v))) := by
  have hk : Kept (fun a b => a = b ∨ (a = x ∧ b = x')) Eq Eq := ⟨fun _ => .inl rfl, fun _ => rfl, fun _ => rfl⟩
  by_cases hm : modeFrom .code v = .code
  · refine C80_tree hk (by rintro i j rfl; exact .inl rfl) (blanks_refill (.name (.inr ⟨rfl, rfl⟩) h1 h2 hv ?_) hw)
    have := Refill.prepend (N := fun a b => a = b ∨ (a = x ∧ b = x')) (I := Eq) hk.strs (t := []) (t' := []) (fun _ => .nil) v.length (Nat.le_refl _) hm
      (fun _ _ _ _ => by intro d t h; cases h) .operator
    simpa using this
  · refine .syntax (accepted_mode ?_) (accepted_mode ?_)
    · rw [modeAfter, modeFrom_append, modeFrom_append, blanks_mode hw, word_mode (idText_tail h1.1)]; exact hm
    · rw [modeAfter, modeFrom_append, modeFrom_append, blanks_mode hw, word_mode (idText_tail h2.1)]; exact hm

/-! ## End to end -/

theorem eachText_eq {l l' : List Str} (h : EachText Eq l l') : l = l' := h.eq fun _ _ h _ => h

mutual
theorem SameTree.sameUp {n m} : SameTree Eq I S n m → SameUp n m
  | .nil => .nil
  | .op => .op
  | .int _ => .int
  | .bool => .bool
  | .str _ => .str
  | .null => .null
  | .arr h => .arr h.sameUp
  | .ident h => by subst h; exact .ident
  | .ref h => by rw [eachText_eq h]; exact .ref
  | .paren h => .paren h.sameUp
  | .not h => .not h.sameUp
  | .func h1 h2 => by subst h1; exact .func h2.sameUp
  | .between h1 h2 h3 h4 => .between h1.sameUp h2.sameUp h3.sameUp h4.sameUp
  | .pred h1 h2 => .pred h1.sameUp h2.sameUp
  | .cmp h1 h2 h3 => .cmp h1.sameUp h2.sameUp h3.sameUp
  | .logic h1 h2 h3 => .logic h1.sameUp h2.sameUp h3.sameUp
theorem SameTreeL.sameUp {n m} : SameTreeL Eq I S n m → SameUpL n m
  | .nil => .nil
  | .cons h1 h2 => .cons h1.sameUp h2.sameUp
end

mutual
theorem SameTree.anon {n m} : SameTree Eq I S n m → anon n = anon m
  | .nil => rfl
  | .op => rfl
  | .int _ => rfl
  | .bool => rfl
  | .str _ => rfl
  | .null => rfl
  | .arr h => rfl
  | .ident h => by subst h; rfl
  | .ref h => by rw [eachText_eq h]
  | .paren h => by simp only [Verif.anon, h.anon]
  | .not h => by simp only [Verif.anon, h.anon]
  | .func h1 h2 => by subst h1; simp only [Verif.anon, h2.anon]
  | .between h1 h2 h3 h4 => by simp only [Verif.anon, h1.anon, h2.anon, h3.anon, h4.anon]
  | .pred h1 h2 => by simp only [Verif.anon, h1.anon, h2.anon]
  | .cmp h1 h2 h3 => by simp only [Verif.anon, h1.anon, h2.anon, h3.anon]
  | .logic h1 h2 h3 => by simp only [Verif.anon, h1.anon, h2.anon, h3.anon]
theorem SameTreeL.anon {n m} : SameTreeL Eq I S n m → anonL n = anonL m
  | .nil => rfl
  | .cons h1 h2 => by simp only [anonL, h1.anon, h2.anon]
end

/-- **C80** end to end with gorm: if only numbers and strings are replaced, the text of the condition is the same. -/
theorem C80_gorm (hk : Kept Eq I S) (hI : InRange I) {s s' : Str} (h : Refill Eq I S .operand s s') {schema quote fold db d1 d2 sql vals}
    (h1 : wire schema quote fold db s = .ok d1) (h2 : wire schema quote fold db s' = .ok d2) (hs : d1.wheres = db.wheres ++ [(sql, vals)]) :
    ∃ vals', d2.wheres = db.wheres ++ [(sql, vals')] := by
  have hr := C80_tree hk hI h
  obtain ⟨s, n, st, rfl, hp, _⟩ := wire_where h1 hs
  rw [hp] at hr
  cases hp' : parse s' with
  | ok n' =>
    rw [hp'] at hr
    exact C19_same_condition h1 h2 hp hp' hr.anon hs
  | _ => rw [hp'] at hr; exact hr.elim

example : exampleWire c!"a = 1 or b in ['x', 2]" = .ok { wheres := [(c!"`a` = ? or `b` in ?", [.int 1, .slice [.str c!"x", .int 2]])] } ∧
    exampleWire c!"a = 22 or b in ['y', 3]" = .ok { wheres := [(c!"`a` = ? or `b` in ?", [.int 22, .slice [.str c!"y", .int 3]])] } := by decide +kernel

/-- **C80** end to end with entsql: if only numbers and strings are replaced, the text is the same, and both queries fail or neither. -/
theorem C80_entsql (hk : Kept Eq I S) (hI : InRange I) {s s' : Str} (h : Refill Eq I S .operand s s') {E : SEnv} {b : SB} (hb : b.ast = none) :
    (sQuery E { b with query := s }).1.text = (sQuery E { b with query := s' }).1.text ∧
    (sQuery E { b with query := s }).2.failed = (sQuery E { b with query := s' }).2.failed := by
  have hr := C80_tree hk hI h
  cases hp : parse s with
  | ok n =>
    cases hp' : parse s' with
    | ok n' =>
      rw [hp, hp'] at hr
      have := C28_values_apart (E := E) hb hp hp' hr.sameUp
      exact ⟨this.1, this.2.2⟩
    | _ => rw [hp, hp'] at hr; exact hr.elim
  | err e =>
    cases hp' : parse s' with
    | err e' =>
      simp only [sQuery, hb, hp, hp']
      exact ⟨trivial, by simp only [SB.failed, Bld.addErr]; cases b.mb.own.errs <;> rfl⟩
    | _ => rw [hp, hp'] at hr; cases e <;> exact hr.elim
  | panic => exact absurd hp (C01_parse_total _).2.1
  | div => exact absurd hp (C01_parse_total _).2.2

end Verif
