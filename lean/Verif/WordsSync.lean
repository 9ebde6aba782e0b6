import Verif.WordsThms
import Verif.Props.PegFile

/-! # The two runs, rule by rule -/

namespace Verif

variable {N : Str → Str → Prop} {I : Nat → Nat → Prop} {S : Str → Str → Prop}

/-! ## Events -/

/-- The calls that come after a captured text. -/
def textMeths : List Meth := [.AddCompare, .AddOperation, .AddName, .AddLogic, .AddMatch, .AddInteger, .AddBoolean, .AddNull, .AddString]

/-- Corresponding events.  The first flag tells whether a captured text, the same in both runs, waits for its call; the second tells it for the end. -/
inductive WEv (N : Str → Str → Prop) (I : Nat → Nat → Prop) (S : Str → Str → Prop) : Bool → List FEv → List FEv → Bool → Prop where
  | nil {p} : WEv N I S p [] [] p
  | text {x} : WEv N I S false [.text x] [.text x] true
  | use {m} : m ∈ textMeths → WEv N I S true [.act m] [.act m] false
  | act {m} : m ∉ textMeths → WEv N I S false [.act m] [.act m] false
  | name {x x'} : N x x' → WEv N I S false [.text x, .act .AddName] [.text x', .act .AddName] false
  | str {x x'} : S x x' → WEv N I S false [.text x, .act .AddString] [.text x', .act .AddString] false
  | int {k k'} : I k k' → WEv N I S false [.text (Nat.toDigits 10 k), .act .AddInteger] [.text (Nat.toDigits 10 k'), .act .AddInteger] false
  | app {p q o e1 e1' e2 e2'} : WEv N I S p e1 e1' q → WEv N I S q e2 e2' o → WEv N I S p (e1 ++ e2) (e1' ++ e2') o

theorem WEv.same {m x} (hm : m ∈ textMeths) : WEv N I S false [.text x, .act m] [.text x, .act m] false :=
  WEv.app (e1 := [.text x]) (e1' := [.text x]) .text (.use hm)

/-- Corresponding outcomes: `t`, `q`: what is expected afterwards; `f`: both runs have read the same text. -/
def WCorr (N : Str → Str → Prop) (I : Nat → Nat → Prop) (S : Str → Str → Prop) (p : Bool) (t : Next) (q f : Bool) (s s' : Str) :
    Option (List FEv × Str) → Option (List FEv × Str) → Prop
  | none, none => True
  | some (ev, r), some (ev', r') => WEv N I S p ev ev' q ∧ WPos N I S t r r' ∧ (f = true → ∃ u, s = u ++ r ∧ s' = u ++ r')
  | _, _ => False

theorem WCorr.none {p t q f s s' x'} (h : WCorr N I S p t q f s s' none x') : x' = none := by
  cases x' with
  | none => rfl
  | some x => exact h.elim

theorem WCorr.some {p t q f s s' ev r x'} (h : WCorr N I S p t q f s s' (some (ev, r)) x') :
    ∃ ev' r', x' = some (ev', r') ∧ WEv N I S p ev ev' q ∧ WPos N I S t r r' ∧ (f = true → ∃ u, s = u ++ r ∧ s' = u ++ r') := by
  cases x' with
  | none => exact h.elim
  | some x => exact ⟨x.1, x.2, rfl, h⟩

/-! ## Rules that are treated one by one -/

theorem big_parses {r s x} (h : Big G (.call r) s x) : Parses grammarFile (.rule r) s (x.map fun p => (p.1.filterMap upEv, p.2)) := by
  have hd := denoteN_ne_div r s (16 * s.length + rankG r + 1) (by omega)
  have hb := denoteN_big (G := G) _ r s hd
  have hp := denoteN_parses _ r s hd
  have e := h.det hb
  subst e
  revert hp hd
  generalize denoteN G (16 * s.length + rankG r + 1) r s = y
  cases y with
  | ok ev rest => exact fun _ h => h
  | fail => exact fun _ h => h
  | div => exact fun h => absurd rfl h

/-- A match of the rule in one run has a corresponding match in the other. -/
def WSync (r : Rule) (t t2 : Next) (p f : Bool) : Prop :=
  ∀ {N I S s s' ev rest}, WPos N I S t s s' → Ok (.call r) s ev rest →
    ∃ ev' rest', Ok (.call r) s' ev' rest' ∧ WEv N I S p (ev.filterMap upEv) (ev'.filterMap upEv) p ∧ WPos N I S t2 rest rest' ∧
      (f = true → ∃ u, s = u ++ rest ∧ s' = u ++ rest')

theorem WSync.parses {r t t2 p f} (h : WSync r t t2 p f) {s s' x} (hp : WPos N I S t s s') (hx : Parses grammarFile (.rule r) s x) :
    ∃ x', Parses grammarFile (.rule r) s' x' ∧ WCorr N I S p t2 p f s s' x x' := by
  obtain ⟨y, hy⟩ := big_total r s
  have e := hx.det (big_parses hy)
  subst e
  cases y with
  | some y =>
    obtain ⟨ev, rest⟩ := y
    obtain ⟨ev', rest', h1, h2, h3, h4⟩ := h hp hy
    exact ⟨_, big_parses h1, h2, h3, h4⟩
  | none =>
    obtain ⟨y', hy'⟩ := big_total r s'
    cases y' with
    | none => exact ⟨_, big_parses hy', trivial⟩
    | some y' =>
      obtain ⟨ev, rest, h1, _⟩ := h hp.symm hy'
      cases Big.det hy h1

theorem wsync_eof (t : Next) (p : Bool) : WSync .EndOfFile t t p true := by
  intro N I S s s' ev rest hp h
  have key : s = [] ∧ ev = [] ∧ rest = [] := by
    cases s with
    | nil =>
      have : Ok (.call .EndOfFile) [] [] [] := .call (.notOk .anyFail)
      cases h.det this
      exact ⟨rfl, rfl, rfl⟩
    | cons c u =>
      have : No (.call .EndOfFile) (c :: u) := .call (.notFail .anyOk)
      cases h.det this
  obtain ⟨rfl, rfl, rfl⟩ := key
  have := hp.nil
  subst this
  exact ⟨[], [], h, .nil, hp, fun _ => ⟨[], rfl, rfl⟩⟩

theorem identifier_inv {s ev r} (h : Ok (.call .Identifier) s ev r) : ∃ u, s = u ++ r ∧ IdText u ∧ WordEnd r ∧ ev = [.text u, .act 14] := by
  obtain ⟨u, rfl, hu, _⟩ : Post .Identifier _ _ _ := post_all h
  have hend : WordEnd r := by
    rintro c t rfl hc
    cases h with
    | call h =>
    obtain ⟨e1, r1, e2, ⟨hn, rfl, rfl⟩, ⟨e3, r3, e4, ⟨e5, ⟨e6, r6, e7, h6, ⟨h7, hs⟩, rfl⟩, rfl⟩, ⟨rfl, rfl⟩, rfl⟩, rfl⟩ := satG_of_ok h
    cases Big.det hs (idTail_ok hc)
  cases Big.det h (identifier_ok hu hend.hd)
  exact ⟨u, rfl, hu, hend, rfl⟩

/-- Two maximal words at the beginning of a text are the same. -/
theorem word_unique {u r x r0 : Str} (hu : ∀ c ∈ u, IdTail c) (hx : ∀ c ∈ x, IdTail c) (hr : WordEnd r) (hr0 : WordEnd r0) (e : u ++ r = x ++ r0) :
    x = u ∧ r0 = r := by
  obtain ⟨y, rfl, rfl⟩ := word_prefix_of hu hr0 e
  have := wordEnd_append (fun c hc => hx c (by simp [hc])) hr
  subst this
  simp

theorem digit_not_head {c : Char} (h : c.isDigit = true) : ¬ IdHead c := by
  intro h2
  have h1 := (isDigit_iff c).mp h
  rcases h2 with ⟨h2, _⟩ | ⟨h2, _⟩
  · have : 97 ≤ c.toNat := h2
    omega
  · have : 65 ≤ c.toNat := h2
    omega

theorem wsync_identifier : WSync .Identifier .operand .operator false false := by
  intro N I S s s' ev rest hp h
  obtain ⟨u, rfl, hu, hr, rfl⟩ := identifier_inv h
  have hch := idText_chars hu
  obtain ⟨⟨c, u1, rfl, hc, _⟩, hnot⟩ := id hu
  have hv := WPos.view (c := c) (r := u1 ++ rest) hp (.inl hc)
  generalize hs : c :: (u1 ++ rest) = s at hv
  have mk : ∀ {x' r' : Str}, IdText x' → WordEnd r' → WEv N I S false [.text (c :: u1), .act .AddName] [.text x', .act .AddName] false → WPos N I S .operator rest r' →
      ∃ ev' rest', Ok (.call .Identifier) (x' ++ r') ev' rest' ∧
        WEv N I S false (List.filterMap upEv [.text (c :: u1), .act 14]) (ev'.filterMap upEv) false ∧ WPos N I S .operator rest rest' ∧
        (false = true → ∃ u, c :: u1 ++ rest = u ++ rest ∧ x' ++ r' = u ++ rest') := fun h1 h2 h3 h4 =>
    ⟨_, _, identifier_ok h1 h2.hd, h3, h4, by simp⟩
  cases hv with
  | @rest x r r' h1 h2 h3 h4 =>
    obtain ⟨rfl, rfl⟩ := word_unique (u := c :: u1) hch h2 hr h3 hs
    exact mk hu (h4.wordEnd h3) (.same (by decide)) (.at (.inr (.inl rfl)) h4)
  | @number k k' r r' h1 h2 h3 =>
    obtain ⟨e, rfl⟩ := word_unique (u := c :: u1) hch (toDigits_idTail k) hr h2 hs
    exact absurd hc (digit_not_head ((toDigits_digits k).1 c (by rw [e]; simp)))
  | @name b x x' r r' h0 h1 h2 h3 h4 h5 =>
    obtain ⟨rfl, rfl⟩ := word_unique (u := c :: u1) hch (idText_chars h2.1) hr h4 hs
    exact mk h3.1 (h5.wordEnd h4) (.name h1) (.at (.inr (.inr rfl)) h5)
  | @value w r r' h1 h2 h3 =>
    obtain ⟨rfl, rfl⟩ := word_unique (u := c :: u1) hch (valueWord_chars h1).2 hr h2 hs
    exact mk hu (h3.wordEnd h2) (.same (by decide)) (.at (.inr (.inr rfl)) h3)
  | op h0 => exact absurd rfl h0
  | @neg b w r r' h0 h1 h2 h3 =>
    obtain ⟨rfl, rfl⟩ := word_unique (u := c :: u1) hch (h1.word (by decide) (by decide)).2 hr h2 hs
    exact absurd h1 (hnot _ [] (by simp))
  | is h0 => exact absurd rfl h0

theorem integer_inv {s ev r} (h : Ok (.call .Integer) s ev r) :
    ∃ u, s = u ++ r ∧ u ≠ [] ∧ (∀ c ∈ u, c.isDigit = true) ∧ ev = [.text u, .act 25] ∧
      ∀ r', (∀ c t, r' = c :: t → c.isDigit = true → ∃ t', r = c :: t') → Ok (.call .Integer) (u ++ r') [.text u, .act 25] r' := by
  have fin : ∀ {u : Str} {r'}, Ok (.alt (.chr '0') (.seq (.rng '1' '9') (.star (.rng '0' '9')))) (u ++ r') [] r' →
      Ok (.call .Integer) (u ++ r') [.text u, .act 25] r' := by
    intro w r' h
    have := Big.txtOk h
    rw [txt_eq] at this
    exact .call (.seqOk this .act)
  cases h with
  | call h =>
  obtain ⟨e1, r1, e2, ⟨e3, h3, rfl⟩, ⟨rfl, rfl⟩, rfl⟩ := satG_of_ok h
  rcases h3 with ⟨rfl, rfl⟩ | ⟨_, e4, r4, e5, ⟨rfl, c, rfl, hc1, hc2⟩, ⟨h5, hs⟩, rfl⟩
  · refine ⟨c!"0", rfl, by simp, by decide, ?_, fun r' _ => fin (.alt1 .chrOk)⟩
    have := txt_eq (u := c!"0") (r := r1)
    simp only [List.nil_append]
    rw [show '0' :: r1 = c!"0" ++ r1 from rfl, this]
    rfl
  · obtain ⟨rfl, u, rfl, hu⟩ := iter_decimals h5
    have hc1 : 49 ≤ c.toNat := hc1
    have hc2 : c.toNat ≤ 57 := hc2
    refine ⟨c :: u, rfl, by simp, ?_, ?_, ?_⟩
    · intro d hd
      rcases List.mem_cons.mp hd with rfl | hd
      · exact (isDigit_iff d).mpr ⟨by omega, hc2⟩
      · exact (isDigit_iff d).mpr (hu d hd)
    · have := txt_eq (u := c :: u) (r := r1)
      rw [show c :: (u ++ r1) = (c :: u) ++ r1 from rfl, this]
      rfl
    · intro r' hr'
      have hs' : No (.rng '0' '9') r' := by
        cases r' with
        | nil => exact .rngNil
        | cons d t =>
          refine .rngFail ?_
          rintro ⟨h1, h2⟩
          obtain ⟨t', rfl⟩ := hr' d t rfl ((isDigit_iff d).mpr ⟨h1, h2⟩)
          cases hs with
          | rngFail h => exact h ⟨h1, h2⟩
      refine fin (u := c :: u) (.alt2 (.chrFail ?_) (.seqOk (.rngOk (lo := '1') (hi := '9') hc1 hc2) (star_chars hs' u fun d hd t => .rngOk (hu d hd).1 (hu d hd).2)))
      rintro rfl
      exact absurd hc1 (by decide)

theorem digits_idTail {u : Str} (h : ∀ c ∈ u, c.isDigit = true) : ∀ c ∈ u, IdTail c := fun c hc => .inr (.inl ((isDigit_iff c).mp (h c hc)))

theorem wsync_integer : WSync .Integer .operand .operator false false := by
  intro N I S s s' ev rest hp h
  obtain ⟨u, rfl, hne, hu, rfl, hok⟩ := integer_inv h
  obtain ⟨c, u1, rfl⟩ : ∃ c u1, u = c :: u1 := by
    cases u with
    | nil => exact absurd rfl hne
    | cons c u1 => exact ⟨c, u1, rfl⟩
  have hch := digits_idTail hu
  have hv := WPos.view (c := c) (r := u1 ++ rest) hp (hch c (by simp))
  generalize hs : c :: (u1 ++ rest) = s at hv
  have hcd := hu c (by simp)
  -- a word that begins with a letter
  have no : ∀ {w r : Str}, (∃ d t, w = d :: t ∧ IdHead d) → c :: (u1 ++ rest) ≠ w ++ r := by
    rintro w r ⟨d, t, rfl, hd⟩ e
    obtain rfl : c = d := by injection e
    exact digit_not_head hcd hd
  have hd1 : ∀ {k w : Str}, CI k w → k ≠ [] → LowerWord k = true → ∃ d t, w = d :: t ∧ IdHead d := by
    intro k w h h1 h2
    cases w with
    | nil => exact absurd rfl (h.word h2 h1).1
    | cons d t => exact ⟨d, t, rfl, h.mem h2 d (by simp)⟩
  cases hv with
  | @rest x r r' h1 h2 h3 h4 =>
    obtain ⟨y, rfl, rfl⟩ := word_prefix_of (u := c :: u1) (r := rest) hch h3 hs
    rw [List.append_assoc]
    refine ⟨_, _, hok (y ++ r') ?_, .same (by decide), .rest (fun c hc => h2 c (by simp [hc])) h3 h4, by simp⟩
    intro d t e hd
    cases y with
    | nil =>
      have h5 := h4.wordEnd h3 d t (by simpa using e)
      exact absurd (.inr (.inl ((isDigit_iff d).mp hd))) h5
    | cons d' y =>
      obtain rfl : d' = d := by injection e
      exact ⟨y ++ r, rfl⟩
  | @number k k' r r' h1 h2 h3 =>
    have nd : ∀ {r : Str}, WordEnd r → Hd [('0', '9')] r := fun h => h.hd.mono (by decide)
    have hp' : Ok (.call .Integer) (c :: u1 ++ rest) [.text (Nat.toDigits 10 k), .act 25] r := by
      have := integer_ok k (nd h2)
      rw [← hs] at this
      exact this
    have e := h.det hp'
    simp only [Option.some.injEq, Prod.mk.injEq, List.cons.injEq, Ev.text.injEq, and_true] at e
    obtain ⟨e1, rfl⟩ := e
    rw [e1]
    exact ⟨_, _, integer_ok k' (nd (h3.wordEnd h2)), .int h1, .at (.inr (.inr rfl)) h3, by simp⟩
  | @name b x x' r r' h0 h1 h2 h3 h4 h5 =>
    obtain ⟨⟨d, t, e, hd, _⟩, _⟩ := h2.1
    exact absurd hs (no ⟨d, t, e, hd⟩)
  | @value w r r' h1 h2 h3 =>
    refine absurd hs (no ?_)
    have : ∀ w ∈ valueWords, (w.head?.map alF.has) = some true := by decide
    have := this w h1
    cases w with
    | nil => cases this
    | cons d t => exact ⟨d, t, rfl, alF_iff.mp (by simpa using this)⟩
  | op h0 => exact absurd rfl h0
  | @neg b w r r' h0 h1 h2 h3 => exact absurd hs (no (hd1 h1 (by decide) (by decide)))
  | is h0 => exact absurd rfl h0

theorem string_inv {s ev r} (h : Ok (.call .String) s ev r) : ∃ q u, (q = '\'' ∨ q = '"') ∧ q ∉ u ∧ s = q :: (u ++ q :: r) := by
  cases h with
  | call h =>
  rcases satG_of_ok h with h | ⟨_, h⟩ <;>
    obtain ⟨e1, r1, e2, ⟨rfl, rfl⟩, ⟨e3, r3, e4, ⟨e5, ⟨h5, _⟩, rfl⟩, ⟨e6, r6, e7, ⟨rfl, rfl⟩, ⟨rfl, rfl⟩, rfl⟩, rfl⟩, rfl⟩ := h <;>
    obtain ⟨rfl, u, rfl, hu⟩ := iter_strBody h5
  · exact ⟨_, u, .inl rfl, hu, rfl⟩
  · exact ⟨_, u, .inr rfl, hu, rfl⟩

theorem wsync_string (t : Next) : WSync .String t .operator false false := by
  intro N I S s s' ev rest hp h
  obtain ⟨q, u, hq, hu, rfl⟩ := string_inv h
  have hn : ¬ IdTail q := by rw [← idF_iff]; rcases hq with rfl | rfl <;> decide
  obtain ⟨b, _, hsw⟩ := hp.out hn
  obtain ⟨k, hk, hs⟩ := string_ok hq
  cases Big.det h (hs u rest hu)
  rcases hsw.nonword hn with ⟨h, _⟩ | ⟨o, _, _, _, _, ho, _, _, e, _⟩ | ⟨_, h1, h2, _⟩ | ⟨_, v, v', s2, s2', h1, h2, h3, e, rfl, h4⟩
  · exact absurd h (by rcases hq with rfl | rfl <;> decide)
  · have hd : q = '-' ∨ q = '/' := by
      rcases ho with rfl | rfl
      · exact .inl (List.cons.inj e).1
      · exact .inr (List.cons.inj e).1
    rcases hq with rfl | rfl <;> rcases hd with h | h <;> cases h
  · rcases hq with h | h
    · exact absurd h h1
    · exact absurd h h2
  · have h5 := hs v s2 h1
    rw [← e] at h5
    cases h.det h5
    refine ⟨_, _, hs v' s2' h2, ?_, .at (.inr (.inr rfl)) h4, by simp⟩
    rcases hk with rfl | rfl <;> exact .str h3

theorem wsync_space (t : Next) (p : Bool) : WSync .SpaceComment t t p true := by
  intro N I S s s' ev rest hp h
  have word : ∀ {c : Char} {u : Str}, IdTail c → No (.call .SpaceComment) (c :: u) := by
    intro c u hc
    refine noSC_char (idTail_not_blank hc) ?_
    rintro (rfl | rfl) <;> exact absurd (idF_iff.mpr hc) (by decide)
  cases s with
  | nil => cases h.det (big_none_nil (by decide) (by decide))
  | cons c r =>
    by_cases hc : IdTail c
    · cases h.det (word hc)
    obtain ⟨b, hb, hsw⟩ := hp.out hc
    -- a carriage return may be followed by a newline, in both texts
    have eol : ∀ {b r r'}, Refill N I S b r r' → (∃ u u', r = '\n' :: u ∧ r' = '\n' :: u' ∧ Refill N I S b u u') ∨ ((∀ u, r ≠ '\n' :: u) ∧ ∀ u, r' ≠ '\n' :: u) := by
      have hnl : ¬ IdTail '\n' := by rw [← idF_iff]; decide
      have one : ∀ {N I S} {b u r'}, Refill N I S b ('\n' :: u) r' → ∃ u', r' = '\n' :: u' ∧ Refill N I S b u u' := by
        intro N I S b u r' h
        rcases h.nonword hnl with ⟨_, r', rfl, h2⟩ | ⟨o, _, _, _, _, ho, _, _, e, _⟩ | ⟨h, _⟩ | ⟨h | h, _⟩
        · exact ⟨r', rfl, h2⟩
        · rcases ho with rfl | rfl <;> cases e
        · exact absurd (by decide) h
        · cases h
        · cases h
      intro b r r' h
      by_cases hn : ∃ u, r = '\n' :: u
      · obtain ⟨u, rfl⟩ := hn
        obtain ⟨u', rfl, h2⟩ := one h
        exact .inl ⟨u, u', rfl, rfl, h2⟩
      · refine .inr ⟨fun u e => hn ⟨u, e⟩, ?_⟩
        rintro u rfl
        obtain ⟨u', e, _⟩ := one h.symm
        exact hn ⟨u', e⟩
    rcases hsw.nonword hc with ⟨hbl, r', rfl, h1⟩ | ⟨o, x, e, s2, s2', ho, hx, he, e1, rfl, h1⟩ | ⟨h1, _, _, r', rfl, h2, h3⟩ | ⟨h1, _⟩
    · have mk : ∀ {u y : Str} {y' : Str}, Ok (.call .SpaceComment) (c :: r) [] y → Ok (.call .SpaceComment) (c :: r') [] y' →
          c :: r = u ++ y → c :: r' = u ++ y' → Refill N I S b y y' → 
          ∃ ev' rest', Ok (.call .SpaceComment) (c :: r') ev' rest' ∧ WEv N I S p (ev.filterMap upEv) (ev'.filterMap upEv) p ∧ WPos N I S t rest rest' ∧
            (true = true → ∃ u, c :: r = u ++ rest ∧ c :: r' = u ++ rest') := by
        intro u y y' h2 h3 h4 h5 h6
        cases h.det h2
        exact ⟨_, _, h3, .nil, .at hb h6, fun _ => ⟨u, h4, h5⟩⟩
      simp only [blanks, List.mem_cons, List.not_mem_nil, or_false] at hbl
      rcases hbl with rfl | rfl | rfl | rfl
      · exact mk (u := c!" ") (sc_space _) (sc_space _) rfl rfl h1
      · exact mk (u := c!"\t") (sc_tab _) (sc_tab _) rfl rfl h1
      · exact mk (u := c!"\n") (sc_nl _) (sc_nl _) rfl rfl h1
      · rcases eol h1 with ⟨u, u', rfl, rfl, h2⟩ | ⟨n1, n2⟩
        · exact mk (u := c!"\r\n") (sc_crlf _) (sc_crlf _) rfl rfl h2
        · exact mk (u := c!"\r") (sc_cr n1) (sc_cr n2) rfl rfl h1
    · rw [e1] at h ⊢
      have mk : ∀ {z y : Str} {y' : Str}, Ok (.call .EndOfLine) (e :: s2) [] y → Ok (.call .EndOfLine) (e :: s2') [] y' →
          e :: s2 = z ++ y → e :: s2' = z ++ y' → Refill N I S b y y' → 
          ∃ ev' rest', Ok (.call .SpaceComment) (o ++ (x ++ e :: s2')) ev' rest' ∧ WEv N I S p (ev.filterMap upEv) (ev'.filterMap upEv) p ∧ WPos N I S t rest rest' ∧
            (true = true → ∃ u, o ++ (x ++ e :: s2) = u ++ rest ∧ o ++ (x ++ e :: s2') = u ++ rest') := by
        intro z y y' h2 h3 h4 h5 h6
        cases h.det (sc_comment ho hx h2)
        exact ⟨_, _, sc_comment ho hx h3, .nil, .at hb h6, fun _ => ⟨o ++ (x ++ z), by simp [h4], by simp [h5]⟩⟩
      rcases he with rfl | rfl
      · exact mk (z := c!"\n") (eol_nl _) (eol_nl _) rfl rfl h1
      · rcases eol h1 with ⟨u, u', rfl, rfl, h2⟩ | ⟨n1, n2⟩
        · exact mk (z := c!"\r\n") (eol_crlf _) (eol_crlf _) rfl rfl h2
        · exact mk (z := c!"\r") (eol_cr n1) (eol_cr n2) rfl rfl h1
    · cases h.det (noSC_char h1 fun hh => (h2 hh).1)
    · have : No (.call .SpaceComment) (c :: r) := by
        refine noSC_char (by rcases h1 with rfl | rfl <;> decide) ?_
        rcases h1 with rfl | rfl <;> rintro (h | h) <;> cases h
      cases h.det this

end Verif
