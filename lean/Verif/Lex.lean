import Verif.Spec.Lang

/-! # Lemmas about blanks, keywords, operators and the lexical scan -/

namespace Verif

/-! ## Blanks -/

theorem WS.append {u v} (hu : WS u) (hv : WS v) : WS (u ++ v) := by
  induction hu with
  | nil => exact hv
  | blank h _ ih => exact .blank h ih
  | comment h1 h2 h3 _ ih =>
    have := WS.comment h1 h2 h3 ih
    simpa [List.append_assoc] using this

/-! ## Keywords -/

/-- A word of lower case ASCII letters. -/
def LowerWord (w : Str) : Bool := w.all fun c => 'a' ≤ c && c ≤ 'z' && c.toLower == c && c.toUpper.toLower == c &&
  'A' ≤ c.toUpper && c.toUpper ≤ 'Z'

theorem CI.lower {w u} (hw : LowerWord w) (h : CI w u) : goLower u = w := by
  induction w generalizing u with
  | nil => cases h; rfl
  | cons c w ih =>
    obtain ⟨x, t, rfl, hx, ht⟩ := h
    simp only [LowerWord, List.all_cons, Bool.and_eq_true, beq_iff_eq] at hw
    have := ih hw.2 ht
    simp only [goLower, List.map_cons] at this ⊢
    rw [this]
    have small : ∀ d : Char, d ≤ 'z' → d.toNat < 128 := fun d (h : d.toNat ≤ 122) => by omega
    rcases hx with rfl | rfl
    · rw [lowerChar, if_pos (small _ (by simpa using hw.1.1.1.1.1.2)), hw.1.1.1.1.2]
    · rw [lowerChar, if_pos (small _ ?_), hw.1.1.1.2]
      have h1 : c.toUpper ≤ 'Z' := by simpa using hw.1.2
      have h1 : c.toUpper.toNat ≤ 90 := h1
      show c.toUpper.toNat ≤ 122
      omega

theorem CI.mem {w u} (hw : LowerWord w) (h : CI w u) : ∀ c ∈ u, ('a' ≤ c ∧ c ≤ 'z') ∨ ('A' ≤ c ∧ c ≤ 'Z') := by
  induction w generalizing u with
  | nil => cases h; simp
  | cons c w ih =>
    obtain ⟨x, t, rfl, hx, ht⟩ := h
    simp only [LowerWord, List.all_cons, Bool.and_eq_true, beq_iff_eq, decide_eq_true_eq] at hw
    intro y hy
    rcases List.mem_cons.mp hy with rfl | hy
    · rcases hx with rfl | rfl
      · exact .inl hw.1.1.1.1.1
      · exact .inr ⟨hw.1.1.2, hw.1.2⟩
    · exact ih hw.2 ht y hy

theorem CI.length {w u} (h : CI w u) : u.length = w.length := by
  induction w generalizing u with
  | nil => cases h; rfl
  | cons c w ih => obtain ⟨x, t, rfl, _, ht⟩ := h; simp [ih ht]

theorem CI.refl (w : Str) : CI w w := by
  induction w with
  | nil => rfl
  | cons c w ih => exact ⟨c, w, rfl, .inl rfl, ih⟩

/-! ## Letters are neither blank nor special -/

theorem letter_toNat {c : Char} (h : ('a' ≤ c ∧ c ≤ 'z') ∨ ('A' ≤ c ∧ c ≤ 'Z')) :
    (97 ≤ c.toNat ∧ c.toNat ≤ 122) ∨ (65 ≤ c.toNat ∧ c.toNat ≤ 90) := h

theorem char_ne_of_toNat {c d : Char} (h : c.toNat ≠ d.toNat) : c ≠ d := fun e => h (e ▸ rfl)

theorem letter_not_reSpace {c : Char} (h : ('a' ≤ c ∧ c ≤ 'z') ∨ ('A' ≤ c ∧ c ≤ 'Z')) : reSpace c = false := by
  have := letter_toNat h
  have hs : ∀ d : Char, d.toNat < 65 → c ≠ d := fun d hd => char_ne_of_toNat (by omega)
  simp [reSpace, hs '\t' (by decide), hs '\n' (by decide), hs '\r' (by decide), hs ' ' (by decide)]
  omega

theorem letter_not_goSpace {c : Char} (h : ('a' ≤ c ∧ c ≤ 'z') ∨ ('A' ≤ c ∧ c ≤ 'Z')) : goIsSpace c = false := by
  have := letter_toNat h
  simp [goIsSpace]
  omega

theorem CI.noSpace {w u} (hw : LowerWord w) (h : CI w u) : ∀ c ∈ u, reSpace c = false ∧ goIsSpace c = false :=
  fun c hc => ⟨letter_not_reSpace (h.mem hw c hc), letter_not_goSpace (h.mem hw c hc)⟩

/-! ## Normalisation -/

theorem dropWhile_none {p : Char → Bool} {u : Str} (h : ∀ c t, u = c :: t → p c = false) : u.dropWhile p = u := by
  cases u with
  | nil => rfl
  | cons c t => simp [List.dropWhile, h c t rfl]

theorem goTrim_id {u : Str} (h1 : ∀ c t, u = c :: t → goIsSpace c = false) (h2 : ∀ c t, u = t ++ [c] → goIsSpace c = false) :
    goTrim u = u := by
  unfold goTrim
  rw [dropWhile_none h1, dropWhile_none, List.reverse_reverse]
  intro c t h
  refine h2 c t.reverse ?_
  have := congrArg List.reverse h
  simpa using this

theorem squeeze_noSpace {u : Str} (h : ∀ c ∈ u, reSpace c = false) : ∀ p, squeeze p u = u := by
  induction u with
  | nil => intro p; rfl
  | cons c t ih =>
    intro p
    simp only [squeeze, h c (by simp), Bool.false_eq_true, if_false]
    rw [ih (fun d hd => h d (List.mem_cons_of_mem _ hd))]

theorem squeeze_pre {u v : Str} (h : ∀ c ∈ u, reSpace c = false) (hne : u ≠ []) : ∀ p, squeeze p (u ++ v) = u ++ squeeze false v := by
  induction u with
  | nil => exact absurd rfl hne
  | cons c t ih =>
    intro p
    simp only [List.cons_append, squeeze, h c (by simp), Bool.false_eq_true, if_false]
    cases t with
    | nil => rfl
    | cons d t => rw [ih (fun d hd => h d (List.mem_cons_of_mem _ hd)) (by simp)]

theorem squeeze_suf {u v : Str} (h : ∀ c ∈ v, reSpace c = false) : ∀ p, squeeze p (u ++ v) = squeeze p u ++ v := by
  induction u with
  | nil => intro p; exact squeeze_noSpace h p
  | cons c t ih =>
    intro p
    simp only [List.cons_append, squeeze]
    split
    · split
      · exact ih _
      · simp [ih]
    · simp [ih]

theorem squeeze_mid {m : Str} (h : ∀ c ∈ m, reSpace c = false) (hne : m ≠ []) (p : Bool) (a b : Str) :
    squeeze p (a ++ (m ++ b)) = squeeze p a ++ (m ++ squeeze false b) := by
  induction a generalizing p with
  | nil => exact squeeze_pre h hne p
  | cons c a ih =>
    simp only [List.cons_append, squeeze]
    split
    · split
      · exact ih true
      · rw [ih true]; rfl
    · rw [ih false]; rfl

theorem blank_reSpace {c : Char} (h : c ∈ blanks) : reSpace c = true := by
  simp [blanks] at h
  rcases h with rfl | rfl | rfl | rfl <;> decide

theorem squeeze_blanks_true {u : Str} (h : ∀ c ∈ u, c ∈ blanks) : squeeze true u = [] := by
  induction u with
  | nil => rfl
  | cons c t ih =>
    simp only [squeeze, blank_reSpace (h c (by simp)), if_true]
    exact ih (fun d hd => h d (List.mem_cons_of_mem _ hd))

theorem squeeze_blanks {u : Str} (h : ∀ c ∈ u, c ∈ blanks) (hne : u ≠ []) : squeeze false u = [' '] := by
  cases u with
  | nil => exact absurd rfl hne
  | cons c t =>
    simp only [squeeze, blank_reSpace (h c (by simp)), if_true, Bool.false_eq_true, if_false]
    rw [squeeze_blanks_true (fun d hd => h d (List.mem_cons_of_mem _ hd))]

theorem squeeze_ne_nil {u : Str} (hne : u ≠ []) : squeeze false u ≠ [] := by
  cases u with
  | nil => exact absurd rfl hne
  | cons c t => simp only [squeeze]; split <;> simp

theorem lower_blanks {u : Str} (h : ∀ c ∈ u, c ∈ blanks) : goLower u = u := by
  induction u with
  | nil => rfl
  | cons c t ih =>
    have := ih (fun d hd => h d (List.mem_cons_of_mem _ hd))
    simp only [goLower, List.map_cons] at this ⊢
    rw [this]
    have hc := h c (by simp)
    simp [blanks] at hc
    rcases hc with rfl | rfl | rfl | rfl <;> rfl

theorem whites_reSpace {c : Char} : c ∈ whites ↔ reSpace c = true := by
  have h : c.toNat = 12 ↔ c = '\x0c' := ⟨fun h => Char.toNat_inj.mp h, fun h => by rw [h]; rfl⟩
  simp [whites, blanks, reSpace, h]
  constructor
  · rintro (rfl | rfl | rfl | rfl | rfl) <;> simp
  · rintro ((rfl | rfl | rfl | rfl) | rfl) <;> simp

theorem toLower_of_not_upper {c : Char} (h : ¬ (65 ≤ c.toNat ∧ c.toNat ≤ 90)) : c.toLower = c := by
  unfold Char.toLower
  split
  · rename_i hu
    exact absurd ⟨UInt32.le_iff_toNat_le.mp hu.1, UInt32.le_iff_toNat_le.mp hu.2⟩ h
  · rfl

theorem toLower_upper {c : Char} (h : 65 ≤ c.toNat ∧ c.toNat ≤ 90) : c.toLower.toNat = c.toNat + 32 := by
  have : ∃ k, k < 26 ∧ c.toNat = 65 + k := ⟨c.toNat - 65, by omega, by omega⟩
  obtain ⟨k, hk, hc'⟩ := this
  have hc : c = Char.ofNat c.toNat := (Char.ofNat_toNat c).symm
  rw [hc, hc']
  clear hc hc' h c
  revert k; decide

theorem reSpace_toLower (c : Char) : reSpace c.toLower = reSpace c := by
  by_cases h : 65 ≤ c.toNat ∧ c.toNat ≤ 90
  · have h2 := toLower_upper h
    have key : ∀ d : Char, 65 ≤ d.toNat → reSpace d = false := by
      intro d hd
      cases hr : reSpace d with
      | false => rfl
      | true =>
        simp [reSpace] at hr
        rcases hr with (rfl | rfl | rfl | rfl) | hr
        all_goals first | (exfalso; revert hd; decide) | omega
    rw [key c h.1, key _ (by omega)]
  · rw [toLower_of_not_upper h]

theorem reSpace_small {c : Char} (h : 128 ≤ c.toNat) : reSpace c = false := by
  cases hr : reSpace c with
  | false => rfl
  | true =>
    simp [reSpace] at hr
    rcases hr with (rfl | rfl | rfl | rfl) | hr
    all_goals first | (exfalso; revert h; decide) | omega

theorem reSpace_lower (c : Char) : reSpace (lowerChar c) = reSpace c := by
  unfold lowerChar
  split
  · exact reSpace_toLower c
  · rename_i h
    rw [reSpace_small (c := c) (by omega)]
    rcases unicodeLower.result c (by omega) with ⟨h1, _⟩ | ⟨h1, _⟩
    · have h1 : 97 ≤ (unicodeLower.map c).toNat := h1
      cases hr : reSpace (unicodeLower.map c) with
      | false => rfl
      | true =>
        simp [reSpace] at hr
        rcases hr with (e | e | e | e) | e
        all_goals first | (rw [e] at h1; exfalso; revert h1; decide) | omega
    · exact reSpace_small h1

/-- Only a lower-case letter can come from another character. -/
theorem lowerChar_ascii {c d : Char} (hd : d.toNat < 97 ∨ 122 < d.toNat) (ha : d.toNat < 128) (h : lowerChar c = d) : c = d := by
  unfold lowerChar at h
  split at h
  · by_cases hu : 65 ≤ c.toNat ∧ c.toNat ≤ 90
    · have := toLower_upper hu
      rw [h] at this
      omega
    · rwa [toLower_of_not_upper hu] at h
  · rename_i h2
    rcases unicodeLower.result c (by omega) with ⟨h3, h4⟩ | ⟨h3, _⟩
    · rw [h] at h3 h4
      have h3 : 97 ≤ d.toNat := h3
      have h4 : d.toNat ≤ 122 := h4
      omega
    · rw [h] at h3; omega

theorem squeeze_lower_true (u : Str) : squeeze true (goLower u) = squeeze false (goLower (u.dropWhile reSpace)) := by
  induction u with
  | nil => rfl
  | cons c u ih =>
    simp only [goLower, List.map_cons, squeeze, reSpace_lower, List.dropWhile_cons]
    cases hc : reSpace c with
    | true => simpa [goLower] using ih
    | false => simp [squeeze, reSpace_lower, hc]

theorem condensed_squeeze : ∀ (n : Nat) (u : Str), u.length ≤ n → Condensed u (squeeze false (goLower u))
  | _, [], _ => .nil
  | 0, _ :: _, h => absurd h (by simp)
  | n + 1, c :: u, h => by
    have hl := h
    simp only [List.length_cons] at hl
    cases hc : reSpace c with
    | false =>
      simp only [goLower, List.map_cons, squeeze, reSpace_lower, hc]
      exact .char (fun hm => by rw [whites_reSpace.mp hm] at hc; cases hc) (condensed_squeeze n u (by omega))
    | true =>
      have e : squeeze false (goLower (c :: u)) = ' ' :: squeeze false (goLower (u.dropWhile reSpace)) := by
        rw [← squeeze_lower_true]
        simp [goLower, squeeze, reSpace_lower, hc]
      have e2 : c :: u = (c :: u.takeWhile reSpace) ++ u.dropWhile reSpace := by simp
      have hd : (u.dropWhile reSpace).length ≤ u.length := (List.dropWhile_sublist _).length_le
      rw [e]
      conv => arg 1; rw [e2]
      refine .run (by simp) ?_ ?_ (condensed_squeeze n _ (by omega))
      · intro d hd
        rcases List.mem_cons.mp hd with rfl | hd
        · exact whites_reSpace.mpr hc
        · exact whites_reSpace.mpr (List.all_eq_true.mp List.all_takeWhile d hd)
      · intro d t e hm
        have := List.head?_dropWhile_not (p := reSpace) (l := u)
        rw [e] at this
        simp at this
        rw [whites_reSpace.mp hm] at this
        cases this

theorem Sep.of_ws {u : Str} (hu : WS u) (hne : u ≠ []) : Sep u (squeeze false (goLower u)) := ⟨hu, hne, condensed_squeeze _ u (Nat.le_refl _)⟩

theorem Condensed.blanks {u m : Str} (h : Condensed u m) (hne : u ≠ []) (hb : ∀ c ∈ u, c ∈ blanks) : m = c!" " := by
  have hw : ∀ c ∈ Verif.blanks, c ∈ whites := fun c hc => List.mem_cons_of_mem _ hc
  cases h with
  | nil => exact absurd rfl hne
  | @run b u m _ _ h2 h3 =>
    cases u with
    | nil =>
      have : ∀ {x y : Str}, Condensed x y → x = [] → y = [] := by
        intro x y h e
        cases h with
        | nil => rfl
        | run hb' _ _ _ => exact absurd (List.append_eq_nil_iff.mp e).1 hb'
        | char _ _ => cases e
      rw [this h3 rfl]
    | cons c t => exact absurd (hw c (hb c (by simp))) (h2 c t rfl)
  | char h1 _ => exact absurd (hw _ (hb _ (by simp))) h1

theorem Sep.blank {u m} (h : Sep u m) (hb : ∀ c ∈ u, c ∈ blanks) : m = c!" " := h.2.2.blanks h.2.1 hb

theorem goLower_append (a b : Str) : goLower (a ++ b) = goLower a ++ goLower b := by simp [goLower]

/-- No word of the table of spellings is meant. -/
theorem normOp_eq {u v : Str} (h1 : ∀ c t, u = c :: t → goIsSpace c = false) (h2 : ∀ c t, u = t ++ [c] → goIsSpace c = false)
    (h : squeeze false (goLower u) = v) (hl : normTable.lookup v = none) : normOp u = v := by
  unfold normOp
  rw [goTrim_id h1 h2, h]
  simp only [hl]

theorem normOp_word {w u : Str} (hw : LowerWord w) (h : CI w u) (hl : normTable.lookup w = none) : normOp u = w := by
  have hs := h.noSpace hw
  refine normOp_eq (fun c t e => (hs c (by simp [e])).2) (fun c t e => (hs c (by simp [e])).2) ?_ hl
  rw [h.lower hw]
  apply squeeze_noSpace
  have : CI w w := CI.refl w
  exact fun c hc => (this.noSpace hw c hc).1

/-- Two words with a separator. -/
theorem normOp_two {w1 u1 sep w2 u2 : Str} (hw1 : LowerWord w1) (hw2 : LowerWord w2) (h1 : CI w1 u1) (h2 : CI w2 u2)
    (n1 : w1 ≠ []) (n2 : w2 ≠ [])
    (hl : ∀ m, m ≠ [] → normTable.lookup (w1 ++ (m ++ w2)) = none) (hs : sep ≠ []) :
    normOp (u1 ++ (sep ++ u2)) = w1 ++ (squeeze false (goLower sep) ++ w2) := by
  have s1 := h1.noSpace hw1
  have s2 := h2.noSpace hw2
  have l1 := h1.length
  have l2 := h2.length
  have nu1 : u1 ≠ [] := by intro e; subst e; cases w1 <;> simp_all
  have nu2 : u2 ≠ [] := by intro e; subst e; cases w2 <;> simp_all
  refine normOp_eq ?_ ?_ ?_ (hl _ (squeeze_ne_nil (by simpa [goLower] using hs)))
  · intro c t e
    cases u1 with
    | nil => exact absurd rfl nu1
    | cons d u1 => simp at e; exact (s1 c (by simp [e.1])).2
  · intro c t e
    obtain ⟨u2', d, rfl⟩ : ∃ l d, u2 = l ++ [d] := ⟨_, _, (List.dropLast_concat_getLast nu2).symm⟩
    have : d = c := by
      have := congrArg List.getLast? e
      simpa [← List.append_assoc] using this
    subst this
    exact (s2 _ (by simp)).2
  · rw [goLower_append, goLower_append, h1.lower hw1, h2.lower hw2]
    rw [squeeze_pre (fun c hc => ((CI.refl w1).noSpace hw1 c hc).1) n1]
    rw [squeeze_suf (fun c hc => ((CI.refl w2).noSpace hw2 c hc).1)]

/-! ## The lexical scan -/

/-- The text leaves the scan where it was: quotes, comments and brackets are closed within it. -/
def Closed (u : Str) (a : Bool) : Prop := ∀ st b, scan u (.code, st, b) = some (.code, st, b || a)

theorem scan_append (u v : Str) (x) : scan (u ++ v) x = (scan u x).bind (scan v) := by
  induction u generalizing x with
  | nil => rfl
  | cons c u ih =>
    simp only [List.cons_append, scan]
    cases scanStep x c with
    | none => rfl
    | some y => exact ih y

theorem Closed.nil : Closed [] false := fun st b => by simp [scan]

theorem Closed.append {u v a b} (hu : Closed u a) (hv : Closed v b) : Closed (u ++ v) (a || b) := by
  intro st c
  rw [scan_append, hu st c]
  simp only [Option.bind_some]
  rw [hv st (c || a)]
  simp [Bool.or_assoc]

theorem Closed.balanced {u a} (h : Closed u a) : Balanced u a := by unfold Balanced; simpa using h [] false

/-- Characters with no lexical meaning of their own. -/
def Plain (c : Char) : Prop :=
  c ≠ '\'' ∧ c ≠ '"' ∧ c ≠ '-' ∧ c ≠ '/' ∧ c ≠ '(' ∧ c ≠ '[' ∧ c ≠ ')' ∧ c ≠ ']'

instance (c : Char) : Decidable (Plain c) := by unfold Plain; infer_instance

theorem Closed.plain {u : Str} (h : ∀ c ∈ u, Plain c) : Closed u false := by
  intro st b
  induction u with
  | nil => simp [scan]
  | cons c u ih =>
    obtain ⟨h1, h2, h3, h4, h5, h6, h7, h8⟩ := h c (by simp)
    simp only [scan, scanStep, h1, h2, h3, h4, h5, h6, h7, h8, if_false, or_self]
    exact ih (fun d hd => h d (List.mem_cons_of_mem _ hd))

theorem letter_plain {c : Char} (h : ('a' ≤ c ∧ c ≤ 'z') ∨ ('A' ≤ c ∧ c ≤ 'Z')) : Plain c := by
  have := letter_toNat h
  have hs : ∀ d : Char, (d.toNat < 65 ∨ (90 < d.toNat ∧ d.toNat < 97)) → c ≠ d := fun d hd => char_ne_of_toNat (by omega)
  exact ⟨hs _ (by decide), hs _ (by decide), hs _ (by decide), hs _ (by decide), hs _ (by decide), hs _ (by decide),
    hs _ (by decide), hs _ (by decide)⟩

theorem Closed.ci {w u} (hw : LowerWord w) (h : CI w u) : Closed u false := .plain fun c hc => letter_plain (h.mem hw c hc)

theorem scan_comment {b : Str} (h : ∀ c ∈ b, c ≠ '\n' ∧ c ≠ '\r') {e : Char} (he : e = '\n' ∨ e = '\r') (st : Str) (a : Bool)
    (v : Str) : scan (b ++ e :: v) (.comment, st, a) = scan v (.code, st, a) := by
  induction b with
  | nil => simp [scan, scanStep, he]
  | cons c b ih =>
    have := h c (by simp)
    simp only [List.cons_append, scan, scanStep, this, or_self, if_false]
    exact ih (fun d hd => h d (List.mem_cons_of_mem _ hd))

theorem WS.closed {u} (h : WS u) : Closed u false := by
  induction h with
  | nil => exact .nil
  | @blank c u hc _ ih =>
    have : Closed [c] false := by
      apply Closed.plain
      intro d hd
      rw [List.mem_singleton.mp hd]
      simp [blanks] at hc
      rcases hc with rfl | rfl | rfl | rfl <;> decide
    simpa using this.append ih
  | comment ho hb he _ ih =>
    intro st a
    rcases ho with rfl | rfl
    · simp only [List.cons_append, List.nil_append, scan, scanStep]
      exact (scan_comment hb he st a _).trans (ih st a)
    · simp only [List.cons_append, List.nil_append, scan, scanStep]
      exact (scan_comment hb he st a _).trans (ih st a)

theorem Closed.paren {u a} (h : Closed u a) : Closed ('(' :: (u ++ [')'])) a := by
  intro st b
  simp only [scan, scanStep]
  show scan (u ++ [')']) (.code, '(' :: st, b) = _
  rw [scan_append, h]
  rfl

theorem Closed.brack {u a} (h : Closed u a) : Closed ('[' :: (u ++ [']'])) a := by
  intro st b
  simp only [scan, scanStep]
  show scan (u ++ [']']) (.code, '[' :: st, b) = _
  rw [scan_append, h]
  rfl

theorem Closed.squote {u : Str} (h : '\'' ∉ u) : Closed ('\'' :: (u ++ ['\''])) false := by
  intro st b
  have : ∀ u : Str, '\'' ∉ u → scan (u ++ ['\'']) (.sq, st, b) = some (.code, st, b) := by
    intro u
    induction u with
    | nil => intro _; rfl
    | cons c u ih =>
      intro h
      simp only [List.mem_cons, not_or] at h
      have hc : c ≠ '\'' := fun e => h.1 e.symm
      simp only [List.cons_append, scan, scanStep, hc, if_false]
      exact ih h.2
  simpa [scan, scanStep] using this u h

theorem Closed.dquote {u : Str} (h : '"' ∉ u) : Closed ('"' :: (u ++ ['"'])) false := by
  intro st b
  have : ∀ u : Str, '"' ∉ u → scan (u ++ ['"']) (.dq, st, b) = some (.code, st, b) := by
    intro u
    induction u with
    | nil => intro _; rfl
    | cons c u ih =>
      intro h
      simp only [List.mem_cons, not_or] at h
      have hc : c ≠ '"' := fun e => h.1 e.symm
      simp only [List.cons_append, scan, scanStep, hc, if_false]
      exact ih h.2
  simpa [scan, scanStep] using this u h

theorem Closed.arrow : Closed c!"->" true := by
  intro st b; simp [scan, scanStep]

end Verif
