import Verif.TextThms
import Verif.Spec.Alphabet
import Verif.Props.Parse

/-! # Characters outside of strings and comments (C76) -/

namespace Verif

/-! ## What the grammar reads -/

/-- The character can stand for itself. -/
def single (c : Char) : Bool := decide (AsciiAlnum c ∨ c ∈ singles)

/-- The expression reads only `Lexed` texts, if the rules do. -/
def lexes : PExp → Bool
  | .seq (.chr a) (.chr b) => decide ((a, b) ∈ markPairs) || (single a && single b)
  | .seq (.chr a) (.seq (.chr b) c) => lexes c && (decide ((a, b) ∈ markPairs) || (single a && single b)) || (single a && lexes (.seq (.chr b) c))
  | .seq a b => lexes a && lexes b
  | .chr c => single c
  | .rng lo hi => (97 ≤ lo.toNat && hi.toNat ≤ 122) || (65 ≤ lo.toNat && hi.toNat ≤ 90) || (48 ≤ lo.toNat && hi.toNat ≤ 57)
  | .any => false
  | .alt a b => lexes a && lexes b
  | .sw _ a b => lexes a && lexes b
  | .star a => lexes a
  | .opt a => lexes a
  | .txt a => lexes a
  | .eps | .notP _ | .call _ | .act _ => true

theorem lexes_rules : ∀ q : Rule, q ≠ .String → q ≠ .Comment → lexes (G q) = true := by
  intro q; cases q <;> decide +kernel

theorem Lexed.append {u v : Str} (hu : Lexed u) (hv : Lexed v) : Lexed (u ++ v) := by
  induction hu with
  | nil => exact hv
  | single h _ ih => exact .single h ih
  | pair h _ ih => exact .pair h ih
  | @str q b s hq hb _ ih =>
    have := Lexed.str hq hb ih
    simpa using this
  | @comment o b e s ho hb he _ ih =>
    have := Lexed.comment ho hb he ih
    simpa using this

/-- The text read is a `Lexed` one. -/
def LexReads (s r : Str) : Prop := ∃ u, s = u ++ r ∧ Lexed u

theorem LexReads.refl (s : Str) : LexReads s s := ⟨[], rfl, .nil⟩

theorem LexReads.trans {s r t : Str} (h1 : LexReads s r) (h2 : LexReads r t) : LexReads s t := by
  obtain ⟨u, rfl, hu⟩ := h1
  obtain ⟨v, rfl, hv⟩ := h2
  exact ⟨u ++ v, by simp, hu.append hv⟩

theorem reads_single {c : Char} {r : Str} (h : single c = true) : LexReads (c :: r) r := ⟨[c], rfl, .single (by simpa [single] using h) .nil⟩

theorem reads_pair {a b : Char} {r : Str} (h : (decide ((a, b) ∈ markPairs) || (single a && single b)) = true) : LexReads (a :: b :: r) r := by
  simp only [Bool.or_eq_true, decide_eq_true_eq, Bool.and_eq_true] at h
  rcases h with h | ⟨h1, h2⟩
  · exact ⟨[a, b], rfl, .pair h .nil⟩
  · exact (reads_single h1).trans (reads_single h2)

theorem reads_sat {e : PExp} : ∀ {s ev r}, lexes e = true → Sat G (fun _ s _ r => LexReads s r) e s ev r → LexReads s r := by
  fun_induction lexes e with
  | case1 a b =>
    rintro s ev r hl ⟨_, _, _, ⟨rfl, rfl⟩, ⟨rfl, rfl⟩, rfl⟩
    exact reads_pair hl
  | case2 a b c ih1 ih2 =>
    rintro s ev r hl ⟨_, _, _, ⟨rfl, rfl⟩, h2, rfl⟩
    rw [Bool.or_eq_true, Bool.and_eq_true, Bool.and_eq_true] at hl
    rcases hl with ⟨hc, hp⟩ | ⟨ha, hs⟩
    · obtain ⟨_, _, _, ⟨rfl, rfl⟩, h3, rfl⟩ := h2
      exact (reads_pair hp).trans (ih1 hc h3)
    · exact (reads_single ha).trans (ih2 hs h2)
  | case3 a b _ _ iha ihb =>
    rintro s ev r hl ⟨_, _, _, h1, h2, rfl⟩
    rw [Bool.and_eq_true] at hl
    exact (iha hl.1 h1).trans (ihb hl.2 h2)
  | case4 c => rintro s ev r hl ⟨rfl, rfl⟩; exact reads_single hl
  | case5 lo hi =>
    rintro s ev r hl ⟨rfl, c, rfl, h1, h2⟩
    refine ⟨[c], rfl, .single (.inl ?_) .nil⟩
    simp only [Bool.or_eq_true, Bool.and_eq_true, decide_eq_true_eq] at hl
    unfold AsciiAlnum
    omega
  | case6 => intro s ev r hl; cases hl
  | case7 a b iha ihb =>
    rintro s ev r hl (h | ⟨_, h⟩) <;> rw [Bool.and_eq_true] at hl
    · exact iha hl.1 h
    · exact ihb hl.2 h
  | case8 _ a b iha ihb =>
    rintro s ev r hl (⟨_, h⟩ | ⟨_, h⟩) <;> rw [Bool.and_eq_true] at hl
    · exact iha hl.1 h
    · exact ihb hl.2 h
  | case9 a ih =>
    rintro s ev r hl ⟨h, -⟩
    induction h with
    | nil => exact .refl _
    | cons h _ ih' => exact (ih hl h).trans ih'
  | case10 a ih =>
    rintro s ev r hl (h | ⟨_, rfl, rfl⟩)
    · exact ih hl h
    · exact .refl _
  | case11 a ih => rintro s ev r hl ⟨e, h, rfl⟩; exact ih hl h
  | case12 => rintro s ev r - ⟨rfl, rfl⟩; exact .refl _
  | case13 => rintro s ev r - ⟨_, rfl, rfl⟩; exact .refl _
  | case14 => rintro s ev r - h; exact h
  | case15 => rintro s ev r - ⟨rfl, rfl⟩; exact .refl _

theorem WS.lexed {u : Str} (h : WS u) : Lexed u := by
  induction h with
  | nil => exact .nil
  | @blank c _ hc _ ih =>
    refine .single (.inr ?_) ih
    have : ∀ c ∈ blanks, c ∈ singles := by decide
    exact this c hc
  | comment ho hb he _ ih => exact .comment ho hb he ih

theorem string_reads {s ev r} (h : Ok (.call .String) s ev r) : LexReads s r := by
  cases h with | call h => ?_
  rcases Big.sat (P := Post) (fun _ _ _ _ h _ => post_all h) h _ _ rfl with h | ⟨_, h⟩
  · obtain ⟨e1, r1, e2, ⟨rfl, rfl⟩, ⟨e3, r3, e4, ⟨e5, ⟨h5, _⟩, rfl⟩, ⟨e6, r6, e7, ⟨rfl, rfl⟩, ⟨rfl, rfl⟩, rfl⟩, rfl⟩, rfl⟩ := h
    obtain ⟨rfl, u, rfl, hu⟩ := iter_strBody h5
    exact ⟨'\'' :: (u ++ c!"'"), by simp, .str (.inl rfl) hu .nil⟩
  · obtain ⟨e1, r1, e2, ⟨rfl, rfl⟩, ⟨e3, r3, e4, ⟨e5, ⟨h5, _⟩, rfl⟩, ⟨e6, r6, e7, ⟨rfl, rfl⟩, ⟨rfl, rfl⟩, rfl⟩, rfl⟩, rfl⟩ := h
    obtain ⟨rfl, u, rfl, hu⟩ := iter_strBody h5
    exact ⟨'"' :: (u ++ c!"\""), by simp, .str (.inr rfl) hu .nil⟩

/-- Every rule reads a `Lexed` text. -/
theorem rule_reads {q s ev r} (h : Ok (.call q) s ev r) : LexReads s r := by
  refine Big.rule_induction (P := fun _ s _ r => LexReads s r) (fun q s ev r h hs => ?_) h
  by_cases h1 : q = .String
  · subst h1; exact string_reads h
  by_cases h2 : q = .Comment
  · subst h2
    obtain ⟨-, u, rfl, hw, -⟩ : Post .Comment s ev r := post_all h
    exact ⟨u, rfl, hw.lexed⟩
  exact reads_sat (lexes_rules q h1 h2) hs

/-! ## Places in `Lexed` texts -/

/-- A place outside of strings and comments is between the pieces of the text, or inside one of the pairs `!=`, `&&`, `||`. -/
theorem Lexed.place {s : Str} (h : Lexed s) : ∀ {p t : Str}, s = p ++ t → modeAfter p = .code →
    Lexed t ∨ ∃ p' a b t', p = p' ++ [a] ∧ t = b :: t' ∧ (a, b) ∈ markPairs ∧ Lexed t' := by
  have cons : ∀ {x : Str} {p : Str}, modeFrom .code x = .code → modeAfter (x ++ p) = modeAfter p := by
    intro x p h
    unfold modeAfter
    unfold modeFrom at *
    rw [List.foldl_append, h]
  have base : ∀ {s : Str} {t : Str}, Lexed s → s = [] ++ t → Lexed t := by rintro s t h rfl; exact h
  have up : ∀ {x p t : Str}, (Lexed t ∨ ∃ p' a b t', p = p' ++ [a] ∧ t = b :: t' ∧ (a, b) ∈ markPairs ∧ Lexed t') →
      Lexed t ∨ ∃ p' a b t', x ++ p = p' ++ [a] ∧ t = b :: t' ∧ (a, b) ∈ markPairs ∧ Lexed t' := by
    rintro x p t (h | ⟨p', a, b, t', rfl, h⟩)
    · exact .inl h
    · exact .inr ⟨x ++ p', a, b, t', by simp, h⟩
  induction h with
  | nil =>
    intro p t e hm
    obtain ⟨rfl, rfl⟩ := List.append_eq_nil_iff.mp e.symm
    exact .inl .nil
  | @single c s hc hs ih =>
    intro p t e hm
    cases p with
    | nil => exact .inl (base (.single hc hs) e)
    | cons d p =>
      cases e
      have hcode : modeFrom .code [c] = .code := by
        have : c ≠ '\'' ∧ c ≠ '"' ∧ c ≠ '-' ∧ c ≠ '/' := by
          refine ⟨?_, ?_, ?_, ?_⟩ <;> rintro rfl <;> revert hc <;> decide
        simp [modeFrom, modeStep, this]
      exact up (x := [c]) (ih rfl (by rw [← cons (x := [c]) hcode]; exact hm))
  | @pair a b s hab hs ih =>
    intro p t e hm
    match p, e with
    | [], e => exact .inl (base (.pair hab hs) e)
    | [d], e => cases e; exact .inr ⟨[], a, b, s, rfl, rfl, hab, hs⟩
    | d :: d' :: p, e =>
      cases e
      have hcode : modeFrom .code [a, b] = .code := by
        have : ∀ x ∈ markPairs, modeFrom .code [x.1, x.2] = .code := by decide
        exact this _ hab
      exact up (x := [a, b]) (ih rfl (by rw [← cons (x := [a, b]) hcode]; exact hm))
  | @str q b s hq hb hs ih =>
    intro p t e hm
    have inside : ∀ {σ : Mode}, (σ = .sq ∧ q = '\'' ∨ σ = .dq ∧ q = '"') → ∀ {b p t : Str}, q ∉ b → b ++ q :: s = p ++ t → modeFrom σ p = .code →
        ∃ p1, p = b ++ q :: p1 ∧ s = p1 ++ t := by
      intro σ hσ b
      induction b with
      | nil =>
        intro p t _ e hm
        cases p with
        | nil => rcases hσ with ⟨rfl, _⟩ | ⟨rfl, _⟩ <;> cases hm
        | cons d p => cases e; exact ⟨p, rfl, rfl⟩
      | cons x b ih =>
        intro p t hb e hm
        cases p with
        | nil => rcases hσ with ⟨rfl, _⟩ | ⟨rfl, _⟩ <;> cases hm
        | cons d p =>
          injection e with e1 e2
          subst e1
          have hx : x ≠ q := fun h => hb (by simp [h])
          obtain ⟨p1, rfl, e⟩ := ih (p := p) (fun h => hb (List.mem_cons_of_mem _ h)) e2
            (by
              rcases hσ with ⟨rfl, rfl⟩ | ⟨rfl, rfl⟩ <;> simpa [modeFrom, modeStep, hx] using hm)
          exact ⟨p1, rfl, e⟩
    cases p with
    | nil => exact .inl (base (.str hq hb hs) e)
    | cons d p =>
      injection e with e1 e2
      subst e1
      have hσ : (modeStep .code q = .sq ∧ q = '\'' ∨ modeStep .code q = .dq ∧ q = '"') := by
        rcases hq with rfl | rfl
        · exact .inl ⟨rfl, rfl⟩
        · exact .inr ⟨rfl, rfl⟩
      obtain ⟨p1, rfl, e⟩ := inside hσ hb e2 hm
      have hcode : modeFrom .code (q :: (b ++ [q])) = .code := by
        have close : ∀ (σ : Mode), (σ = .sq ∧ q = '\'' ∨ σ = .dq ∧ q = '"') → ∀ b : Str, q ∉ b → modeFrom σ (b ++ [q]) = .code := by
          intro σ hσ b
          induction b with
          | nil => intro _; rcases hσ with ⟨rfl, rfl⟩ | ⟨rfl, rfl⟩ <;> rfl
          | cons x b ih =>
            intro hb
            have hx : x ≠ q := fun h => hb (by simp [h])
            have := ih fun h => hb (List.mem_cons_of_mem _ h)
            rcases hσ with ⟨rfl, rfl⟩ | ⟨rfl, rfl⟩ <;> simpa [modeFrom, modeStep, hx] using this
        exact close _ hσ b hb
      have := up (x := q :: (b ++ [q])) (ih e (by rw [← cons (x := q :: (b ++ [q])) hcode]; simpa using hm))
      simpa using this
  | @comment o b e s ho hb he hs ih =>
    intro p t e' hm
    have start : ∃ c, o = [c, c] ∧ (c = '-' ∨ c = '/') := by
      rcases ho with rfl | rfl
      · exact ⟨'-', rfl, .inl rfl⟩
      · exact ⟨'/', rfl, .inr rfl⟩
    obtain ⟨c, rfl, hc⟩ := start
    have inside : ∀ {b p t : Str}, (∀ c ∈ b, c ≠ '\n' ∧ c ≠ '\r') → b ++ e :: s = p ++ t → modeFrom .comment p = .code →
        ∃ p1, p = b ++ e :: p1 ∧ s = p1 ++ t := by
      intro b
      induction b with
      | nil =>
        intro p t _ e hm
        cases p with
        | nil => cases hm
        | cons d p => cases e; exact ⟨p, rfl, rfl⟩
      | cons x b ih =>
        intro p t hb e hm
        cases p with
        | nil => cases hm
        | cons d p =>
          injection e with e1 e2
          subst e1
          have hx := hb x (by simp)
          obtain ⟨p1, rfl, e⟩ := ih (p := p) (fun c h => hb c (List.mem_cons_of_mem _ h)) e2 (by simpa [modeFrom, modeStep, hx] using hm)
          exact ⟨p1, rfl, e⟩
    match p, e' with
    | [], e' => exact .inl (base (.comment ho hb he hs) e')
    | [d], e' => cases e'; exact absurd hm (by rcases hc with rfl | rfl <;> decide)
    | d :: d' :: p, e' =>
      injection e' with e1 e'
      injection e' with e2 e'
      subst e1 e2
      have hm2 : modeFrom .comment p = .code := by rcases hc with rfl | rfl <;> exact hm
      obtain ⟨p1, rfl, es⟩ := inside hb e' hm2
      have hcode : modeFrom .code ([c, c] ++ (b ++ [e])) = .code := by
        have close : ∀ b : Str, (∀ c ∈ b, c ≠ '\n' ∧ c ≠ '\r') → modeFrom .comment (b ++ [e]) = .code := by
          intro b
          induction b with
          | nil => intro _; simp [modeFrom, modeStep, he]
          | cons x b ih =>
            intro hb
            have := ih fun c h => hb c (List.mem_cons_of_mem _ h)
            simpa [modeFrom, modeStep, hb x (by simp)] using this
        have := close b hb
        rcases hc with rfl | rfl <;> exact this
      have := up (x := [c, c] ++ (b ++ [e])) (ih es (by rw [← cons (x := [c, c] ++ (b ++ [e])) hcode]; simpa using hm))
      simpa using this

/-! ## C76 -/

/-- C76: every text that is not rejected as not well formed consists of ASCII letters and digits, a fixed set of marks, strings and comments. -/
theorem C76_lexed {s : Str} (h : ¬ SyntaxError s) : Lexed s := by
  rcases parse_cases s with ⟨ev, h1, _⟩ | ⟨_, b, e, e1, _⟩
  · obtain ⟨u, rfl, hu⟩ := rule_reads h1
    simpa using hu
  · exact absurd ⟨b, e, e1⟩ h

/-- C76: any other character at a place outside of strings and comments makes the text not well formed, whatever stands before and after. -/
theorem C76_rejected {p : Str} {c : Char} (hp : modeAfter p = .code) (hc : ¬ AsciiAlnum c) (hc' : c ∉ outer) (r : Str) : SyntaxError (p ++ c :: r) := by
  rcases Classical.em (SyntaxError (p ++ c :: r)) with h | h
  · exact h
  · exfalso
    have key : Lexed (c :: r) → False := by
      clear h
      intro h
      generalize hs : c :: r = s at h
      cases h with
      | nil => cases hs
      | single h _ =>
        cases hs
        rcases h with h | h
        · exact hc h
        · exact hc' (List.mem_append_left _ h)
      | pair h _ =>
        cases hs
        have : ∀ x ∈ markPairs, x.1 ∈ outer := by decide
        exact hc' (this _ h)
      | str h _ _ => cases hs; rcases h with rfl | rfl <;> exact hc' (by decide)
      | comment h _ _ _ => rcases h with rfl | rfl <;> cases hs <;> exact hc' (by decide)
    rcases (C76_lexed h).place rfl hp with h | ⟨p', a, b, t', _, e, hab, _⟩
    · exact key h
    · cases e
      have : ∀ x ∈ markPairs, x.2 ∈ outer := by decide
      exact hc' (this _ hab)

/-- C76: outside of strings and comments `-` is followed by `>` or another `-`, `/` by `/`, and `!` by `=`; so there are no negative numbers. -/
theorem C76_pairs {p r : Str} {c : Char} (hp : modeAfter p = .code) (h : ¬ SyntaxError (p ++ c :: r)) :
    (c = '-' → ∃ t, r = '-' :: t ∨ r = '>' :: t) ∧ (c = '/' → ∃ t, r = '/' :: t) ∧ (c = '!' → ∃ t, r = '=' :: t) := by
  have key : Lexed (c :: r) → (c = '-' → ∃ t, r = '-' :: t ∨ r = '>' :: t) ∧ (c = '/' → ∃ t, r = '/' :: t) ∧ (c = '!' → ∃ t, r = '=' :: t) := by
    clear h
    intro h
    generalize hs : c :: r = s at h
    cases h with
    | nil => cases hs
    | single h _ =>
      cases hs
      refine ⟨?_, ?_, ?_⟩ <;> rintro rfl <;> exact absurd h (by decide)
    | @pair a b s h _ =>
      cases hs
      have : ∀ x ∈ markPairs, (x.1 = '-' → x.2 = '>') ∧ x.1 ≠ '/' ∧ (x.1 = '!' → x.2 = '=') := by decide
      have := this _ h
      exact ⟨fun e => ⟨s, .inr (congrArg (· :: s) (this.1 e))⟩, fun e => absurd e this.2.1, fun e => ⟨s, congrArg (· :: s) (this.2.2 e)⟩⟩
    | str h _ _ =>
      cases hs
      rcases h with rfl | rfl <;> refine ⟨?_, ?_, ?_⟩ <;> rintro ⟨⟩
    | comment h _ _ _ =>
      rcases h with rfl | rfl <;> cases hs
      · exact ⟨fun _ => ⟨_, .inl rfl⟩, by rintro ⟨⟩, by rintro ⟨⟩⟩
      · exact ⟨by rintro ⟨⟩, fun _ => ⟨_, rfl⟩, by rintro ⟨⟩⟩
  rcases (C76_lexed h).place rfl hp with h | ⟨p', a, b, t', _, e, hab, _⟩
  · exact key h
  · cases e
    have : ∀ x ∈ markPairs, x.2 ≠ '-' ∧ x.2 ≠ '/' ∧ x.2 ≠ '!' := by decide
    have := this _ hab
    exact ⟨fun e => absurd e this.1, fun e => absurd e this.2.1, fun e => absurd e this.2.2⟩

example : ¬ SyntaxError c!"a = '; -- ü' and b != 2 -- x;\n" := by
  rintro ⟨b, e, h⟩
  have : parse c!"a = '; -- ü' and b != 2 -- x;\n" = .ok (.logic (.cmp (.ident c!"a") (.op c!"eq") (.str c!"; -- ü")) (.op c!"and") (.cmp (.ident c!"b") (.op c!"neq") (.int 2))) := by
    decide +kernel
  rw [this] at h
  cases h

example : modeAfter c!"a = ';' " = .code ∧ ¬ AsciiAlnum ';' ∧ ';' ∉ outer ∧ ¬ AsciiAlnum 'ü' ∧ 'ü' ∉ outer ∧ '\x00' ∉ outer ∧ '\\' ∉ outer ∧ '`' ∉ outer := by decide
example : modeAfter c!"a = " = .code ∧ SyntaxError (c!"a = " ++ c!"-1") := ⟨by decide, ⟨_, _, (by decide +kernel : parse c!"a = -1" = .err (.syntax 3 4))⟩⟩

end Verif
