import Verif.Spec.Layout
import Verif.InertThms

/-! # Two runs of the recogniser on texts that differ in blanks and comments -/

namespace Verif

open PExp

/-- The actions that use the captured text as an operator. -/
def opActs : List Nat := [3, 6, 15, 16, 17, 18, 19, 20]

/-- The captured text: used up, the same in both runs, or the same up to blanks. -/
inductive Cap where
  | no | same | loose
  deriving DecidableEq, Repr

/-- The events of the two runs. -/
inductive LEv (B : Str → Str → Prop) : Cap → List Ev → List Ev → Cap → Prop where
  | nil {p} : LEv B p [] [] p
  | same {x} : LEv B .no [.text x] [.text x] .same
  | loose {x x'} : Respaced B x x' → LEv B .no [.text x] [.text x'] .loose
  | op {p k} : k ∈ opActs → p ≠ .no → LEv B p [.act k] [.act k] .no
  | use {k} : k ∈ textActs → LEv B .same [.act k] [.act k] .no
  | str {k k'} : k = 28 ∨ k = 29 → k' = 28 ∨ k' = 29 → LEv B .same [.act k] [.act k'] .no
  | act {k} : k ∉ textActs → LEv B .no [.act k] [.act k] .no
  | app {p p1 p2 e1 e1' e2 e2'} : LEv B p e1 e1' p1 → LEv B p1 e2 e2' p2 → LEv B p (e1 ++ e2) (e1' ++ e2') p2

/-- Characters that are never tested for outside blanks, strings and `->`. -/
def layoutChars : List Char := c!" \t\n\r-/"

/-- Static check that an expression reads blanks only as a whole.  The number says how the two texts read differ: 0 not at all, 1 in blanks, 2 in
the quotes of strings too. -/
def lty : PExp → Cap → Option (Cap × Nat)
  | .eps, p => some (p, 0)
  | .chr c, p => if c ∈ layoutChars ∨ c = '\'' ∨ c = '"' then none else some (p, 0)
  | .rng lo hi, p =>
    if ∃ c ∈ '\'' :: '"' :: layoutChars, lo.toNat ≤ c.toNat ∧ c.toNat ≤ hi.toNat then none else some (p, 0)
  | .seq a b, p =>
    if a = .chr '-' then
      match b with
      | .seq (.chr '>') x =>
        match lty x p with
        | none => none
        | some (p2, _) => some (p2, 2)
      | _ => none
    else
      match lty a p with
      | none => none
      | some (p1, f1) =>
        match lty b p1 with
        | none => none
        | some (p2, f2) => some (p2, max f1 f2)
  | .alt a b, p =>
    match lty a p, lty b p with
    | some (p1, f1), some (p2, f2) => if p1 = p2 then some (p1, max f1 f2) else none
    | _, _ => none
  | .sw cs a b, p =>
    if (∃ c ∈ layoutChars, c ∈ cs) ∨ ¬ ('\'' ∈ cs ↔ '"' ∈ cs) then none
    else match lty a p, lty b p with
    | some (p1, f1), some (p2, f2) => if p1 = p2 then some (p1, max f1 f2) else none
    | _, _ => none
  | .star a, p =>
    match lty a p with
    | some (p1, f1) => if p1 = p then some (p, f1) else none
    | none => none
  | .opt a, p =>
    match lty a p with
    | some (p1, f1) => if p1 = p then some (p, f1) else none
    | none => none
  | .notP .any, p => some (p, 0)
  | .notP a, p =>
    match lty a p with
    | some _ => some (p, 0)
    | none => none
  | .call r, p =>
    if r = .sp ∨ r = .sp1 then some (p, 1)
    else if r = .SpaceComment ∨ r = .Comment ∨ r = .Space ∨ r = .EndOfLine then none
    else if p = .no then some (.no, 2) else none
  | .txt a, p =>
    if p = .no then
      match lty a .no with
      | some (.no, f) => if f ≤ 1 then some (if f = 0 then .same else .loose, f) else none
      | _ => none
    else none
  | .act k, p =>
    if k ∈ opActs then (if p = .no then none else some (.no, 0))
    else if k ∈ textActs then (if p = .same then some (.no, 0) else none)
    else if p = .no then some (.no, 0) else none
  | _, _ => none

/-- The rules that are checked. -/
def layoutRule : Rule → Bool
  | .String | .sp | .sp1 | .SpaceComment | .Comment | .Space | .EndOfLine => false
  | _ => true

theorem lty_rules : ∀ r : Rule, layoutRule r = true → ∃ f, f ≤ 2 ∧ lty (G r) .no = some (.no, f) := by
  intro r h
  cases r <;> first
    | exact absurd h (by decide)
    | (refine ⟨2, by decide, ?_⟩; decide +kernel)
    | (refine ⟨0, by decide, ?_⟩; decide +kernel)
    | (refine ⟨1, by decide, ?_⟩; decide +kernel)

section
variable {B : Str → Str → Prop}

/-- A blank or a comment starts here. -/
def Blanky (s : Str) : Prop := ∃ c t, s = c :: t ∧ (c ∈ blanks ∨ (c = '-' ∨ c = '/') ∧ t.head? = some c)

theorem WS.blanky {w : Str} (h : WS w) (hne : w ≠ []) (s : Str) : Blanky (w ++ s) := by
  cases h with
  | nil => exact absurd rfl hne
  | @blank c u hc _ => exact ⟨c, u ++ s, rfl, .inl hc⟩
  | @comment o b e u ho hb he _ =>
    rcases ho with rfl | rfl
    · exact ⟨'-', _, rfl, .inr ⟨.inl rfl, rfl⟩⟩
    · exact ⟨'/', _, rfl, .inr ⟨.inr rfl, rfl⟩⟩

theorem Blanky.head {c : Char} {t : Str} (h : Blanky (c :: t)) : c ∈ layoutChars := by
  obtain ⟨d, u, he, h⟩ := h
  cases he
  rcases h with h | ⟨h | h, _⟩
  · revert h; simp [blanks, layoutChars]; intro h; rcases h with rfl | rfl | rfl | rfl <;> simp
  · subst h; decide
  · subst h; decide

/-- Where two texts of the same layout can stand. -/
theorem Layout.head (hB : ∀ w w', B w w' → WS1 w ∧ WS1 w') {s s'} (h : Layout B s s') :
    (s = [] ∧ s' = []) ∨
    (∃ c t t', s = c :: t ∧ s' = c :: t' ∧ c ∉ blanks ∧ (c ≠ '\'' ∧ c ≠ '"') ∧ (c = '-' ∨ c = '/' → t.head? ≠ some c ∧ t'.head? ≠ some c) ∧ Layout B t t') ∨
    (∃ q q' b t t', s = q :: (b ++ q :: t) ∧ s' = q' :: (b ++ q' :: t') ∧ (q = '\'' ∨ q = '"') ∧ (q' = '\'' ∨ q' = '"') ∧ q ∉ b ∧ q' ∉ b ∧ Layout B t t') ∨
    (Blanky s ∧ Blanky s') := by
  cases h with
  | nil => exact .inl ⟨rfl, rfl⟩
  | char h1 h2 h3 h4 h5 => exact .inr (.inl ⟨_, _, _, rfl, rfl, h1, ⟨h2, h3⟩, h4, h5⟩)
  | quoted h1 h2 h3 h4 h5 => exact .inr (.inr (.inl ⟨_, _, _, _, _, rfl, rfl, h1, h2, h3, h4, h5⟩))
  | sep h1 h3 => exact .inr (.inr (.inr ⟨(hB _ _ h1).1.2.blanky (hB _ _ h1).1.1 _, (hB _ _ h1).2.2.blanky (hB _ _ h1).2.1 _⟩))

theorem Respaced.append {x x' y y'} (h : Respaced B x x') (h2 : Respaced B y y') : Respaced B (x ++ y) (x' ++ y') := by
  induction h with
  | nil => exact h2
  | char _ ih => exact .char ih
  | sep h1 _ ih => rw [List.append_assoc, List.append_assoc]; exact .sep h1 ih

theorem Respaced.refl : ∀ x : Str, Respaced B x x
  | [] => .nil
  | _ :: x => .char (Respaced.refl x)

theorem noSC_char {c : Char} {t : Str} (h1 : c ∉ blanks) (h2 : c = '-' ∨ c = '/' → t.head? ≠ some c) : No (.call .SpaceComment) (c :: t) := by
  have hb : c ≠ ' ' ∧ c ≠ '\t' ∧ c ≠ '\n' ∧ c ≠ '\r' := by simpa [blanks] using h1
  have hs : No (.call .Space) (c :: t) :=
    .call (.swOut (by simpa using hb.2.1) (.swOut (by simpa using hb.1) (eol_no ⟨hb.2.2.1, hb.2.2.2⟩)))
  have second : ∀ x, (c = '-' ∨ c = '/') → x = c → No (.chr x) t := by
    rintro x hc rfl
    refine chr_no fun u hu => ?_
    rw [hu] at h2
    exact h2 hc rfl
  refine .call (.alt2 hs (.call (.seqFail1 ?_)))
  by_cases hd : c = '-'
  · subst hd
    exact .alt2 (.seqFail2 .chrOk (second _ (.inl rfl) rfl)) (.seqFail1 (.chrFail (by decide)))
  by_cases hd2 : c = '/'
  · subst hd2
    exact .alt2 (.seqFail1 (.chrFail (by decide))) (.seqFail2 .chrOk (second _ (.inr rfl) rfl))
  · exact .alt2 (.seqFail1 (.chrFail hd)) (.seqFail1 (.chrFail hd2))

/-- Both runs skip blanks at the same places. -/
theorem Layout.skip (hB : ∀ w w', B w w' → WS1 w ∧ WS1 w') {s s'} (h : Layout B s s') :
    (No (.call .SpaceComment) s ∧ No (.call .SpaceComment) s' ∧ Layout B s s') ∨
    ∃ u r u' r', s = u ++ r ∧ s' = u' ++ r' ∧ WS u ∧ u ≠ [] ∧ WS u' ∧ u' ≠ [] ∧ Respaced B u u' ∧
      No (.call .SpaceComment) r ∧ No (.call .SpaceComment) r' ∧ Layout B r r' := by
  induction h with
  | nil => exact .inl ⟨big_none_nil (by decide) (by decide), big_none_nil (by decide) (by decide), .nil⟩
  | char h1 h2 h3 h4 h5 _ =>
    exact .inl ⟨noSC_char h1 fun hc => (h4 hc).1, noSC_char h1 fun hc => (h4 hc).2, .char h1 h2 h3 h4 h5⟩
  | @quoted q q' b s s' h1 h2 h3 h4 h5 _ =>
    have : ∀ {q : Char}, q = '\'' ∨ q = '"' → ∀ t, No (.call .SpaceComment) (q :: t) := by
      intro q h1 t
      rcases h1 with rfl | rfl <;> exact big_none_cons (by decide) (by decide) (by decide)
    exact .inl ⟨this h1 _, this h2 _, .quoted h1 h2 h3 h4 h5⟩
  | @sep w w' s s' h1 h3 ih =>
    right
    obtain ⟨a, a'⟩ := hB _ _ h1
    rcases ih with ⟨n1, n2, _⟩ | ⟨u, r, u', r', rfl, rfl, hu, _, hu', _, hr, n1, n2, hl⟩
    · have := Respaced.sep h1 (.nil : Respaced B [] [])
      simp only [List.append_nil] at this
      exact ⟨w, s, w', s', rfl, rfl, a.2, a.1, a'.2, a'.1, this, n1, n2, h3⟩
    · exact ⟨w ++ u, r, w' ++ u', r', by simp, by simp, a.2.append hu, by simp [a.1], a'.2.append hu', by simp [a'.1],
        .sep h1 hr, n1, n2, hl⟩

/-- The outcomes of the two runs correspond. -/
def LCorr (B : Str → Str → Prop) (p p' : Cap) (f : Nat) (s s' : Str) : Option (List Ev × Str) → Option (List Ev × Str) → Prop
  | none, none => True
  | some (ev, r), some (ev', r') =>
    LEv B p ev ev' p' ∧ Layout B r r' ∧ ∃ y y', s = y ++ r ∧ s' = y' ++ r' ∧ (f ≤ 1 → Respaced B y y') ∧ (f = 0 → y = y')
  | _, _ => False

theorem LCorr.weaken {p p' f s s' x x'} (h : LCorr B p p' f s s' x x') {g : Nat} (hg : f ≤ g) :
    LCorr B p p' g s s' x x' := by
  unfold LCorr at h ⊢
  split at h
  · trivial
  · obtain ⟨h1, h2, y, y', h3, h4, h5, h6⟩ := h
    exact ⟨h1, h2, y, y', h3, h4, fun hh => h5 (by omega), fun hh => h6 (by omega)⟩
  · exact h.elim

theorem LCorr.none {p p' f s s' x'} (h : LCorr B p p' f s s' none x') : x' = none := by
  cases x' with
  | none => rfl
  | some x => exact h.elim

theorem LCorr.some {p p' f s s' ev r x'} (h : LCorr B p p' f s s' (some (ev, r)) x') :
    ∃ ev' r', x' = some (ev', r') ∧ LEv B p ev ev' p' ∧ Layout B r r' ∧
      ∃ y y', s = y ++ r ∧ s' = y' ++ r' ∧ (f ≤ 1 → Respaced B y y') ∧ (f = 0 → y = y') := by
  cases x' with
  | none => exact h.elim
  | some x => exact ⟨x.1, x.2, rfl, h⟩

theorem sp_sync (hB : ∀ w w', B w w' → WS1 w ∧ WS1 w') {s s' x} (h : Big G (.call .sp) s x) (hl : Layout B s s') (p : Cap) :
    ∃ x', Big G (.call .sp) s' x' ∧ LCorr B p p 1 s s' x x' := by
  rcases hl.skip hB with ⟨n1, n2, hl⟩ | ⟨u, r, u', r', rfl, rfl, hu, _, hu', _, hr, n1, n2, hl⟩
  · have := Big.det h (sp_nil n1)
    subst this
    exact ⟨_, sp_nil n2, .nil, hl, [], [], rfl, rfl, fun _ => .nil, by simp⟩
  · have := Big.det h (sp_ok hu n1)
    subst this
    exact ⟨_, sp_ok hu' n2, .nil, hl, u, u', rfl, rfl, fun _ => hr, by simp⟩

theorem sp1_sync (hB : ∀ w w', B w w' → WS1 w ∧ WS1 w') {s s' x} (h : Big G (.call .sp1) s x) (hl : Layout B s s') (p : Cap) :
    ∃ x', Big G (.call .sp1) s' x' ∧ LCorr B p p 1 s s' x x' := by
  rcases hl.skip hB with ⟨n1, n2, hl⟩ | ⟨u, r, u', r', rfl, rfl, hu, hne, hu', hne', hr, n1, n2, hl⟩
  · have := Big.det h (.call (.seqFail1 n1))
    subst this
    exact ⟨none, .call (.seqFail1 n2), trivial⟩
  · have := Big.det h (sp1_ok hu hne n1)
    subst this
    exact ⟨_, sp1_ok hu' hne' n2, .nil, hl, u, u', rfl, rfl, fun _ => hr, by simp⟩

theorem string_layout (hB : ∀ w w', B w w' → WS1 w ∧ WS1 w') {s s' x} (h : Big G (.call .String) s x) (hl : Layout B s s') :
    ∃ x', Big G (.call .String) s' x' ∧ LCorr B .no .no 2 s s' x x' := by
  have hno : ∀ {c : Char} {t : Str}, c ≠ '\'' ∧ c ≠ '"' → No (.call .String) (c :: t) := fun h =>
    .call (.alt2 (.seqFail1 (.chrFail h.1)) (.seqFail1 (.chrFail h.2)))
  have hnb : ∀ {t}, Blanky t → No (.call .String) t := by
    rintro _ ⟨c, t, rfl, hc⟩
    refine hno ?_
    have hm : c ∈ layoutChars := Blanky.head ⟨c, t, rfl, hc⟩
    constructor <;> rintro rfl <;> exact absurd hm (by decide)
  rcases hl.head hB with ⟨rfl, rfl⟩ | ⟨c, t, t', rfl, rfl, _, hq, _⟩ | ⟨q, q', b, t, t', rfl, rfl, hq, hq', hb, hb', hl⟩ | ⟨h1, h2⟩
  · have h0 : No (.call .String) [] := big_none_nil (by decide) (by decide)
    have := Big.det h h0
    subst this
    exact ⟨_, h0, trivial⟩
  · have := Big.det h (hno hq)
    subst this
    exact ⟨_, hno hq, trivial⟩
  · obtain ⟨k, hk, hs⟩ := string_ok hq
    obtain ⟨k', hk', hs'⟩ := string_ok hq'
    have := Big.det h (hs _ _ hb)
    subst this
    refine ⟨_, hs' _ _ hb', ?_, hl, q :: (b ++ [q]), q' :: (b ++ [q']), by simp, by simp, by simp, by simp⟩
    exact LEv.app (e1 := [.text b]) (e1' := [.text b]) .same (.str hk hk')
  · have := Big.det h (hnb h1)
    subst this
    exact ⟨_, hnb h2, trivial⟩

/-- Both runs see the same character or a blank. -/
theorem Layout.pass (hB : ∀ w w', B w w' → WS1 w ∧ WS1 w') {c : Char} {t s' : Str} (h : Layout B (c :: t) s') (hc : c ∉ layoutChars ∧ c ≠ '\'' ∧ c ≠ '"') :
    ∃ t', s' = c :: t' ∧ Layout B t t' := by
  rcases h.head hB with ⟨h, _⟩ | ⟨d, u, t', h1, rfl, _, _, _, hl⟩ | ⟨q, q', b, u, t', h1, _, hq, _⟩ | ⟨h1, _⟩
  · cases h
  · cases h1; exact ⟨t', rfl, hl⟩
  · cases h1; exact absurd hq (by simp [hc.2.1, hc.2.2])
  · exact absurd h1.head hc.1

/-- A character test fails in both runs. -/
theorem Layout.other (hB : ∀ w w', B w w' → WS1 w ∧ WS1 w') {d : Char} {t s' : Str} (h : Layout B (d :: t) s') {P : Char → Prop}
    (hP : ∀ c, P c → c ∉ layoutChars) (hQ : P '\'' ↔ P '"') (hd : ¬ P d) : ∃ e t', s' = e :: t' ∧ ¬ P e := by
  rcases h.head hB with ⟨h, _⟩ | ⟨e, u, t', h1, rfl, _⟩ | ⟨q, q', b, u, t', h1, rfl, hq, hq', _⟩ | ⟨_, e, t', rfl, he⟩
  · cases h
  · cases h1; exact ⟨_, _, rfl, hd⟩
  · cases h1
    refine ⟨_, _, rfl, ?_⟩
    rcases hq with rfl | rfl <;> rcases hq' with rfl | rfl <;> first | exact hd | exact fun h => hd (hQ.mp h) | exact fun h => hd (hQ.mpr h)
  · exact ⟨_, _, rfl, fun h => hP _ h (Blanky.head ⟨e, t', rfl, he⟩)⟩

theorem Layout.nil_left {s'} (hB : ∀ w w', B w w' → WS1 w ∧ WS1 w') (h : Layout B [] s') : s' = [] := by
  rcases h.head hB with ⟨_, h⟩ | ⟨d, u, t', h1, _⟩ | ⟨q, q', b, u, t', h1, _⟩ | ⟨⟨e, t', h, _⟩, _⟩
  · exact h
  · cases h1
  · cases h1
  · cases h

/-! ## All expressions -/

theorem alt_lty {a b : PExp} {p p' f} (h : (match lty a p, lty b p with
      | some (p1, f1), some (p2, f2) => if p1 = p2 then some (p1, max f1 f2) else none
      | _, _ => none) = some (p', f)) :
    ∃ f1 f2, lty a p = some (p', f1) ∧ lty b p = some (p', f2) ∧ f = max f1 f2 := by
  split at h
  · rename_i p1 f1 p2 f2 h1 h2
    split at h
    · rename_i he
      subst he
      simp only [Option.some.injEq, Prod.mk.injEq] at h
      obtain ⟨rfl, rfl⟩ := h
      exact ⟨f1, f2, h1, h2, rfl⟩
    · cases h
  · cases h

theorem loop_lty {a : PExp} {p p' f} (h : (match lty a p with
      | some (p1, f1) => if p1 = p then some (p, f1) else none
      | none => none) = some (p', f)) : p' = p ∧ lty a p = some (p, f) := by
  split at h
  · rename_i p1 f1 h1
    split at h
    · rename_i he
      subst he
      simp only [Option.some.injEq, Prod.mk.injEq] at h
      obtain ⟨rfl, rfl⟩ := h
      exact ⟨rfl, h1⟩
    · cases h
  · cases h

theorem not_lty {a : PExp} {p y} (hany : a ≠ .any) (h : lty (.notP a) p = some y) : (∃ z, lty a p = some z) ∧ some (p, 0) = some y := by
  have e : lty (.notP a) p = match lty a p with | some _ => some (p, 0) | none => none := by
    cases a <;> first | exact absurd rfl hany | rfl
  rw [e] at h
  split at h
  · exact ⟨⟨_, by assumption⟩, h⟩
  · cases h

theorem seq_lty {a b : PExp} {p p' f} (h : lty (.seq a b) p = some (p', f)) :
    (∃ x f', a = .chr '-' ∧ b = .seq (.chr '>') x ∧ lty b p = some (p', f') ∧ f = 2) ∨
    ∃ p1 f1 f2, lty a p = some (p1, f1) ∧ lty b p1 = some (p', f2) ∧ f = max f1 f2 := by
  rw [lty.eq_def] at h
  simp only at h
  split at h
  · rename_i ha
    left
    subst ha
    split at h
    · rename_i x
      split at h
      · cases h
      · rename_i p2 f2 hx
        cases h
        exact ⟨x, f2, rfl, rfl, by rw [lty.eq_def]; simp [lty, hx, layoutChars], rfl⟩
    · cases h
  · right
    split at h
    · cases h
    · rename_i p1 f1 h1
      split at h
      · cases h
      · rename_i p2 f2 h2
        cases h
        exact ⟨p1, f1, f2, h1, h2, rfl⟩

/-- A blank is no `->`. -/
theorem blanky_arrow {x : PExp} {s : Str} (h : Blanky s) : No (.seq (.chr '-') (.seq (.chr '>') x)) s := by
  obtain ⟨c, t, rfl, hc⟩ := h
  by_cases hd : c = '-'
  · subst hd
    rcases hc with hc | ⟨_, hc⟩
    · exact absurd hc (by decide)
    · refine .seqFail2 .chrOk (.seqFail1 (chr_no ?_))
      rintro u rfl
      cases hc
  · exact .seqFail1 (.chrFail hd)

/-- Both runs do the same. -/
theorem layout_sync (hB : ∀ w w', B w w' → WS1 w ∧ WS1 w') {e s x} (h : Big G e s x) :
    ∀ {p p' f s'}, lty e p = some (p', f) → Layout B s s' → ∃ x', Big G e s' x' ∧ LCorr B p p' f s s' x x' := by
  induction h with
  | eps =>
    intro p p' f s' ht hl
    cases ht
    exact ⟨_, .eps, .nil, hl, [], [], rfl, rfl, fun _ => .nil, fun _ => rfl⟩
  | anyOk => intro p p' f s' ht; cases ht
  | anyFail => intro p p' f s' ht; cases ht
  | @chrOk c s =>
    intro p p' f s' ht hl
    simp only [lty] at ht
    split at ht
    · cases ht
    · rename_i hc
      cases ht
      simp only [not_or] at hc
      obtain ⟨t', rfl, hl'⟩ := hl.pass hB hc
      exact ⟨_, .chrOk, .nil, hl', [c], [c], rfl, rfl, fun _ => .refl _, fun _ => rfl⟩
  | chrNil =>
    intro p p' f s' ht hl
    have := hl.nil_left hB
    subst this
    exact ⟨_, .chrNil, trivial⟩
  | @chrFail c d s hc =>
    intro p p' f s' ht hl
    simp only [lty] at ht
    split at ht
    · cases ht
    · rename_i hn
      simp only [not_or] at hn
      obtain ⟨e, t', rfl, he⟩ := hl.other hB (P := fun e => e = c) (by rintro _ rfl; exact hn.1) (by simp only [Ne.symm hn.2.1, Ne.symm hn.2.2]) hc
      exact ⟨_, .chrFail he, trivial⟩
  | @rngOk lo hi c s a b =>
    intro p p' f s' ht hl
    simp only [lty] at ht
    split at ht
    · cases ht
    · rename_i hn
      cases ht
      have hne : ∀ d ∈ '\'' :: '"' :: layoutChars, c ≠ d := by
        rintro d hd rfl
        exact hn ⟨c, hd, a, b⟩
      obtain ⟨t', rfl, hl'⟩ := hl.pass hB (c := c) ⟨fun h => hne c (List.mem_cons_of_mem _ (List.mem_cons_of_mem _ h)) rfl, hne _ (by decide), hne _ (by decide)⟩
      exact ⟨_, .rngOk a b, .nil, hl', [c], [c], rfl, rfl, fun _ => .refl _, fun _ => rfl⟩
  | rngNil =>
    intro p p' f s' ht hl
    have := hl.nil_left hB
    subst this
    exact ⟨_, .rngNil, trivial⟩
  | @rngFail lo hi c s hc =>
    intro p p' f s' ht hl
    simp only [lty] at ht
    split at ht
    · cases ht
    · rename_i hn
      obtain ⟨e, t', rfl, he⟩ := hl.other hB (P := fun e => lo.toNat ≤ e.toNat ∧ e.toNat ≤ hi.toNat)
        (fun e he hm => hn ⟨e, List.mem_cons_of_mem _ (List.mem_cons_of_mem _ hm), he⟩)
        ⟨fun he => absurd ⟨_, by simp, he⟩ hn, fun he => absurd ⟨'"', by simp, he⟩ hn⟩ hc
      exact ⟨_, .rngFail he, trivial⟩
  | seqOk h1 h2 ih1 ih2 =>
    intro p p' f s' ht hl
    rcases seq_lty ht with ⟨x, f', rfl, rfl, hb, rfl⟩ | ⟨p1, f1, f2, ha, hb, rfl⟩
    · cases h1
      rcases hl.head hB with ⟨h, _⟩ | ⟨d, u, t', h1, rfl, _, _, _, hl'⟩ | ⟨q, q', b, u, t', h1, _, hq, _⟩ | ⟨h1, _⟩
      · cases h
      · cases h1
        obtain ⟨x2, b2, c2⟩ := ih2 hb hl'
        obtain ⟨ev2, r2, rfl, e2, l2, y, y', rfl, rfl, hy, _⟩ := c2.some
        exact ⟨_, .seqOk .chrOk b2, e2, l2, '-' :: y, '-' :: y', rfl, rfl, by simp, by simp⟩
      · cases h1; exact absurd hq (by decide)
      · have := Big.det (Big.seqOk .chrOk h2) (blanky_arrow h1)
        cases this
    · obtain ⟨x1, b1, c1⟩ := ih1 ha hl
      obtain ⟨ev1, r1, rfl, e1, l1, y1, y1', rfl, rfl, hy1, g1⟩ := c1.some
      obtain ⟨x2, b2, c2⟩ := ih2 hb l1
      obtain ⟨ev2, r2, rfl, e2, l2, y2, y2', rfl, rfl, hy2, g2⟩ := c2.some
      refine ⟨_, .seqOk b1 b2, .app e1 e2, l2, y1 ++ y2, y1' ++ y2', by simp, by simp, fun hf => (hy1 (by omega)).append (hy2 (by omega)), fun hf => ?_⟩
      rw [g1 (by omega), g2 (by omega)]
  | seqFail1 h1 ih1 =>
    intro p p' f s' ht hl
    rcases seq_lty ht with ⟨x, f', rfl, rfl, hb, rfl⟩ | ⟨p1, f1, f2, ha, hb, rfl⟩
    · have hd : ∀ {c t}, No (.chr '-') (c :: t) → c ≠ '-' := by
        rintro c t h rfl
        cases h with
        | chrFail h => exact h rfl
      rcases hl.head hB with ⟨rfl, rfl⟩ | ⟨d, u, t', rfl, rfl, _⟩ | ⟨q, q', b, u, t', rfl, rfl, hq, hq', _⟩ | ⟨_, h2⟩
      · exact ⟨_, .seqFail1 .chrNil, trivial⟩
      · exact ⟨_, .seqFail1 (.chrFail (hd h1)), trivial⟩
      · exact ⟨_, .seqFail1 (.chrFail (by rcases hq' with rfl | rfl <;> decide)), trivial⟩
      · exact ⟨_, blanky_arrow h2, trivial⟩
    · obtain ⟨x1, b1, c1⟩ := ih1 ha hl
      have := c1.none
      subst this
      exact ⟨_, .seqFail1 b1, trivial⟩
  | seqFail2 h1 h2 ih1 ih2 =>
    intro p p' f s' ht hl
    rcases seq_lty ht with ⟨x, f', rfl, rfl, hb, rfl⟩ | ⟨p1, f1, f2, ha, hb, rfl⟩
    · cases h1
      rcases hl.head hB with ⟨h, _⟩ | ⟨d, u, t', h1, rfl, _, _, _, hl'⟩ | ⟨q, q', b, u, t', h1, _, hq, _⟩ | ⟨_, h1⟩
      · cases h
      · cases h1
        obtain ⟨x2, b2, c2⟩ := ih2 hb hl'
        have := c2.none
        subst this
        exact ⟨_, .seqFail2 .chrOk b2, trivial⟩
      · cases h1; exact absurd hq (by decide)
      · exact ⟨_, blanky_arrow h1, trivial⟩
    · obtain ⟨x1, b1, c1⟩ := ih1 ha hl
      obtain ⟨ev1, r1, rfl, e1, l1, y1, y1', rfl, rfl, hy1, g1⟩ := c1.some
      obtain ⟨x2, b2, c2⟩ := ih2 hb l1
      have := c2.none
      subst this
      exact ⟨_, .seqFail2 b1 b2, trivial⟩
  | @alt1 a b s x h1 ih1 =>
    intro p p' f s' ht hl
    obtain ⟨f1, f2, ha, hb, rfl⟩ := alt_lty (by simpa only [lty] using ht)
    obtain ⟨x1, b1, c1⟩ := ih1 ha hl
    obtain ⟨ev, r⟩ := x
    obtain ⟨ev1, r1, rfl, _⟩ := c1.some
    exact ⟨_, .alt1 b1, c1.weaken (by omega)⟩
  | alt2 h1 h2 ih1 ih2 =>
    intro p p' f s' ht hl
    obtain ⟨f1, f2, ha, hb, rfl⟩ := alt_lty (by simpa only [lty] using ht)
    obtain ⟨x1, b1, c1⟩ := ih1 ha hl
    have := c1.none
    subst this
    obtain ⟨x2, b2, c2⟩ := ih2 hb hl
    exact ⟨_, .alt2 b1 b2, c2.weaken (by omega)⟩
  | starNil h1 ih1 =>
    intro p p' f s' ht hl
    obtain ⟨rfl, ha⟩ := loop_lty (by simpa only [lty] using ht)
    obtain ⟨x1, b1, c1⟩ := ih1 ha hl
    have := c1.none
    subst this
    exact ⟨_, .starNil b1, .nil, hl, [], [], rfl, rfl, fun _ => .nil, fun _ => rfl⟩
  | starCons h1 h2 ih1 ih2 =>
    intro p p' f s' ht hl
    obtain ⟨rfl, ha⟩ := loop_lty (by simpa only [lty] using ht)
    obtain ⟨x1, b1, c1⟩ := ih1 ha hl
    obtain ⟨ev1, r1, rfl, e1, l1, y1, y1', rfl, rfl, hy1, g1⟩ := c1.some
    obtain ⟨x2, b2, c2⟩ := ih2 ht l1
    obtain ⟨ev2, r2, rfl, e2, l2, y2, y2', rfl, rfl, hy2, g2⟩ := c2.some
    exact ⟨_, .starCons b1 b2, .app e1 e2, l2, y1 ++ y2, y1' ++ y2', by simp, by simp, fun hf => (hy1 hf).append (hy2 hf), fun hf => by rw [g1 hf, g2 hf]⟩
  | @optSome a s x h1 ih1 =>
    intro p p' f s' ht hl
    obtain ⟨rfl, ha⟩ := loop_lty (by simpa only [lty] using ht)
    obtain ⟨x1, b1, c1⟩ := ih1 ha hl
    obtain ⟨ev, r⟩ := x
    obtain ⟨ev1, r1, rfl, _⟩ := c1.some
    exact ⟨_, .optSome b1, c1⟩
  | optNone h1 ih1 =>
    intro p p' f s' ht hl
    obtain ⟨rfl, ha⟩ := loop_lty (by simpa only [lty] using ht)
    obtain ⟨x1, b1, c1⟩ := ih1 ha hl
    have := c1.none
    subst this
    exact ⟨_, .optNone b1, .nil, hl, [], [], rfl, rfl, fun _ => .nil, fun _ => rfl⟩
  | @notFail a s x h1 ih1 =>
    intro p p' f s' ht hl
    by_cases hany : a = .any
    · subst hany
      cases h1
      obtain ⟨e, t', rfl, _⟩ := hl.other hB (P := fun _ => False) (fun _ h => h.elim) Iff.rfl (fun h => h)
      exact ⟨_, .notFail .anyOk, trivial⟩
    · obtain ⟨⟨⟨p1, f1⟩, ha⟩, -⟩ := not_lty hany ht
      obtain ⟨x1, b1, c1⟩ := ih1 ha hl
      obtain ⟨ev, r⟩ := x
      obtain ⟨ev1, r1, rfl, _⟩ := c1.some
      exact ⟨_, .notFail b1, trivial⟩
  | @notOk a s h1 ih1 =>
    intro p p' f s' ht hl
    by_cases hany : a = .any
    · subst hany
      cases h1
      have := hl.nil_left hB
      subst this
      simp only [lty] at ht
      cases ht
      exact ⟨_, .notOk .anyFail, .nil, .nil, [], [], rfl, rfl, fun _ => .nil, fun _ => rfl⟩
    · obtain ⟨⟨⟨p1, f1⟩, ha⟩, ht⟩ := not_lty hany ht
      cases ht
      obtain ⟨x1, b1, c1⟩ := ih1 ha hl
      have := c1.none
      subst this
      exact ⟨_, .notOk b1, .nil, hl, [], [], rfl, rfl, fun _ => .nil, fun _ => rfl⟩
  | @call r s x h1 ih1 =>
    intro p p' f s' ht hl
    cases hr : layoutRule r with
    | true =>
      obtain ⟨g, hg2, hg⟩ := lty_rules r hr
      have hp : p = .no ∧ p' = .no ∧ f = 2 := by
        cases p <;> cases r <;> first | exact absurd hr (by decide) | (cases ht; exact ⟨rfl, rfl, rfl⟩) | cases ht
      obtain ⟨rfl, rfl, rfl⟩ := hp
      obtain ⟨x1, b1, c1⟩ := ih1 hg hl
      exact ⟨_, .call b1, c1.weaken hg2⟩
    | false =>
      by_cases hs : r = .String
      · subst hs
        cases p <;> cases ht
        exact string_layout hB (.call h1) hl
      by_cases hs : r = .sp
      · subst hs
        cases ht
        exact sp_sync hB (.call h1) hl _
      by_cases hs : r = .sp1
      · subst hs
        cases ht
        exact sp1_sync hB (.call h1) hl _
      cases r <;> first | exact absurd hr (by decide) | contradiction | cases ht
  | @txtOk a s ev r h1 ih1 =>
    intro p p' f s' ht hl
    simp only [lty] at ht
    split at ht
    · rename_i hp
      subst hp
      split at ht
      · rename_i f1 ha
        split at ht
        · rename_i hf
          obtain ⟨x1, b1, c1⟩ := ih1 ha hl
          obtain ⟨ev1, r1, rfl, e1, l1, y1, y1', rfl, rfl, hy1, g1⟩ := c1.some
          have h2 := Big.txtOk b1
          rw [txt_eq] at h2 ⊢
          simp only [Option.some.injEq, Prod.mk.injEq] at ht
          obtain ⟨rfl, rfl⟩ := ht
          refine ⟨_, h2, ?_, l1, y1, y1', rfl, rfl, hy1, g1⟩
          by_cases h0 : f1 = 0
          · rw [if_pos h0, g1 h0]; exact .app e1 .same
          · rw [if_neg h0]; exact .app e1 (.loose (hy1 hf))
        · cases ht
      · cases ht
    · cases ht
  | txtFail h1 ih1 =>
    intro p p' f s' ht hl
    simp only [lty] at ht
    split at ht
    · split at ht
      · rename_i f1 ha
        obtain ⟨x1, b1, c1⟩ := ih1 ha hl
        have := c1.none
        subst this
        exact ⟨_, .txtFail b1, trivial⟩
      · cases ht
    · cases ht
  | @act k s =>
    intro p p' f s' ht hl
    simp only [lty] at ht
    have fin : ∀ {q}, LEv B p [.act k] [.act k] q → some (q, 0) = some (p', f) →
        ∃ x', Big G (.act k) s' x' ∧ LCorr B p p' f s s' (some ([.act k], s)) x' := by
      intro q h1 h2
      cases h2
      exact ⟨_, .act, h1, hl, [], [], rfl, rfl, fun _ => .nil, fun _ => rfl⟩
    split at ht
    · rename_i hk
      split at ht
      · cases ht
      · rename_i hp
        exact fin (.op hk hp) ht
    · split at ht
      · rename_i hk
        split at ht
        · rename_i hp
          subst hp
          exact fin (.use hk) ht
        · cases ht
      · rename_i hk
        split at ht
        · rename_i hp
          subst hp
          exact fin (.act hk) ht
        · cases ht
  | @swIn cs a b c s x hc h1 ih1 =>
    intro p p' f s' ht hl
    simp only [lty] at ht
    split at ht
    · cases ht
    · rename_i hn
      simp only [not_or, Decidable.not_not] at hn
      obtain ⟨f1, f2, ha, hb, rfl⟩ := alt_lty ht
      obtain ⟨x1, b1, c1⟩ := ih1 ha hl
      rcases hl.head hB with ⟨h, _⟩ | ⟨d, u, t', h1, rfl, _⟩ | ⟨q, q', b, u, t', h1, rfl, hq, hq', _⟩ | ⟨h1, _⟩
      · cases h
      · cases h1
        exact ⟨_, .swIn hc b1, c1.weaken (by omega)⟩
      · cases h1
        have hc' : q' ∈ cs := by
          have := hn.2
          rcases hq with rfl | rfl <;> rcases hq' with rfl | rfl <;> first | exact hc | exact this.mp hc | exact this.mpr hc
        exact ⟨_, .swIn hc' b1, c1.weaken (by omega)⟩
      · exact absurd ⟨_, h1.head, hc⟩ hn.1
  | @swOut cs a b c s x hc h1 ih1 =>
    intro p p' f s' ht hl
    simp only [lty] at ht
    split at ht
    · cases ht
    · rename_i hn
      simp only [not_or, Decidable.not_not] at hn
      obtain ⟨f1, f2, ha, hb, rfl⟩ := alt_lty ht
      obtain ⟨x1, b1, c1⟩ := ih1 hb hl
      obtain ⟨e, t', rfl, he⟩ := hl.other hB (P := fun e => e ∈ cs) (fun e he hm => hn.1 ⟨e, hm, he⟩) hn.2 hc
      exact ⟨_, .swOut he b1, c1.weaken (by omega)⟩
  | @swNil cs a b x h1 ih1 =>
    intro p p' f s' ht hl
    simp only [lty] at ht
    split at ht
    · cases ht
    · obtain ⟨f1, f2, ha, hb, rfl⟩ := alt_lty ht
      obtain ⟨x1, b1, c1⟩ := ih1 hb hl
      have := hl.nil_left hB
      subst this
      exact ⟨_, .swNil b1, c1.weaken (by omega)⟩

/-! ## The trees -/

/-- Operators read from texts that differ in separators only. -/
def OpsOf (B : Str → Str → Prop) (o o' : Str) : Prop := ∃ t t', Respaced B t t' ∧ o = normOp t ∧ o' = normOp t'

variable {R : Str → Str → Prop}

/-- Related stacks. -/
structure TRel (R : Str → Str → Prop) (t t' : Tree) : Prop where
  stack : SameOpsL R t.stack t'.stack
  errors : t.errors = t'.errors
  marks : t.marks = t'.marks

theorem TRel.push {t t'} (h : TRel R t t') {n n'} (hn : SameOps R n n') : TRel R (t.push n) (t'.push n') :=
  ⟨.cons hn h.stack, h.errors, h.marks⟩

theorem TRel.pop {t t'} (h : TRel R t t') : SameOps R t.pop.1 t'.pop.1 ∧ TRel R t.pop.2 t'.pop.2 := by
  obtain ⟨st, es, ms⟩ := t
  obtain ⟨st', es', ms'⟩ := t'
  obtain ⟨h1, h2, h3⟩ := h
  cases h1 with
  | nil => exact ⟨.nil, .nil, h2, h3⟩
  | cons a b => exact ⟨a, b, h2, h3⟩

theorem TRel.addError {t t'} (h : TRel R t t') (e : Option Err) : TRel R (t.addError e) (t'.addError e) := by
  cases e with
  | none => exact h
  | some e => exact ⟨h.stack, congrArg (· ++ [e]) h.errors, h.marks⟩

theorem SameOpsL.length {l l'} (h : SameOpsL R l l') : l.length = l'.length := by
  induction l generalizing l' with
  | nil => cases h; rfl
  | cons n l ih => cases h with | cons _ h2 => simp [ih h2]

theorem SameOpsL.append {l l' k k'} (h : SameOpsL R l l') (hk : SameOpsL R k k') : SameOpsL R (l ++ k) (l' ++ k') := by
  induction l generalizing l' with
  | nil => cases h; exact hk
  | cons n l ih => cases h with | cons h1 h2 => exact .cons h1 (ih h2)

theorem SameOpsL.reverse {l l'} (h : SameOpsL R l l') : SameOpsL R l.reverse l'.reverse := by
  induction l generalizing l' with
  | nil => cases h; exact .nil
  | cons n l ih =>
    cases h with
    | cons h1 h2 => rw [List.reverse_cons, List.reverse_cons]; exact (ih h2).append (.cons h1 .nil)

theorem SameOpsL.take {l l'} (h : SameOpsL R l l') (k : Nat) : SameOpsL R (l.take k) (l'.take k) := by
  induction l generalizing l' k with
  | nil => cases h; rw [List.take_nil]; exact .nil
  | cons n l ih =>
    cases h with
    | cons h1 h2 =>
      cases k with
      | zero => exact .nil
      | succ k => exact .cons h1 (ih h2 k)

theorem SameOpsL.drop {l l'} (h : SameOpsL R l l') (k : Nat) : SameOpsL R (l.drop k) (l'.drop k) := by
  induction l generalizing l' k with
  | nil => cases h; rw [List.drop_nil]; exact .nil
  | cons n l ih =>
    cases h with
    | cons h1 h2 =>
      cases k with
      | zero => exact .cons h1 h2
      | succ k => exact ih h2 k

theorem TRel.addMark {t t'} (h : TRel R t t') : TRel R t.addMark t'.addMark :=
  ⟨h.stack, h.errors, by show _ :: _ = _ :: _; rw [h.stack.length, h.marks]⟩

/-- Both fail, or both give related results. -/
def ORel {α : Type} (P : α → α → Prop) : Option α → Option α → Prop
  | none, none => True
  | some a, some b => P a b
  | _, _ => False

theorem TRel.popMarked {t t'} (h : TRel R t t') :
    ORel (fun x y => SameOpsL R x.1 y.1 ∧ TRel R x.2 y.2) t.popMarked t'.popMarked := by
  obtain ⟨st, es, ms⟩ := t
  obtain ⟨st', es', ms'⟩ := t'
  obtain ⟨h1, h2, h3⟩ := h
  simp only at h1 h2 h3
  subst h2 h3
  cases ms with
  | nil => trivial
  | cons k ms =>
    simp only [Tree.popMarked, h1.length]
    split
    · trivial
    · exact ⟨(h1.take _).reverse, h1.drop _, rfl, rfl⟩

theorem SameOps.nodeName {n n'} (h : SameOps R n n') : Tree.nodeName n = Tree.nodeName n' := by
  cases h <;> rfl

theorem SameOpsL.names {l l'} (h : SameOpsL R l l') : l.mapM Tree.nodeName = l'.mapM Tree.nodeName := by
  induction l generalizing l' with
  | nil => cases h; rfl
  | cons n l ih =>
    cases h with
    | cons h1 h2 => rw [List.mapM_cons, List.mapM_cons, h1.nodeName, ih h2]

theorem TRel.popArray {t t'} (h : TRel R t t') : ORel (TRel R) t.popArray t'.popArray := by
  have := h.popMarked
  revert this
  unfold Tree.popArray
  cases t.popMarked with
  | none => cases t'.popMarked <;> exact fun h => h
  | some x =>
    cases t'.popMarked with
    | none => exact fun h => h
    | some y => exact fun h => h.2.push (.arr h.1)

theorem TRel.popRef {t t'} (h : TRel R t t') : ORel (TRel R) t.popIdentifierReference t'.popIdentifierReference := by
  have := h.popMarked
  revert this
  unfold Tree.popIdentifierReference
  cases t.popMarked with
  | none =>
    cases t'.popMarked with
    | none => exact fun _ => trivial
    | some y => exact fun h => h.elim
  | some x =>
    cases t'.popMarked with
    | none => exact fun h => h.elim
    | some y =>
      intro h
      have e := h.1.names
      simp only [e]
      cases y.1.mapM Tree.nodeName with
      | none => trivial
      | some l => exact h.2.push .ref

theorem TRel.popFunction {t t'} (h : TRel R t t') : TRel R t.popFunction t'.popFunction := by
  have h1 := h.pop
  have h2 := h1.2.pop
  unfold Tree.popFunction
  simp only
  revert h1 h2
  generalize t.pop.2.pop.1 = a, t'.pop.2.pop.1 = a', t.pop.1 = b, t'.pop.1 = b'
  rintro ⟨h1, -⟩ ⟨h2, h3⟩
  have err := h3.addError (some .badFunction)
  cases h2 <;> first | exact err | (cases h1 <;> first | exact err | (rename_i hl; exact h3.push (.func hl)))

theorem layout_act {k : Nat} {x x' : Str} {t t' : Tree} (h : TRel R t t') (hx : x = x') (hR : ∀ o, R (normOp o) (normOp o)) :
    ORel (TRel R) (runAct k x t) (runAct k x' t') := by
  subst hx
  have bin : ∀ {t t' : Tree}, TRel R t t' → TRel R t.pop.2.pop.2.pop.2 t'.pop.2.pop.2.pop.2 := fun h => h.pop.2.pop.2.pop.2
  unfold runAct
  split
  · exact (bin h).push (.logic h.pop.2.pop.2.pop.1 h.pop.2.pop.1 h.pop.1)
  · exact h.pop.2.push (.not h.pop.1)
  · exact (bin h).push (.cmp h.pop.2.pop.2.pop.1 h.pop.2.pop.1 h.pop.1)
  · exact h.push (.op (hR _))
  · exact (bin h).push (.cmp h.pop.2.pop.2.pop.1 h.pop.2.pop.1 h.pop.1)
  · exact h.pop.2.pop.2.push (.pred h.pop.2.pop.1 h.pop.1)
  · exact h.push (.op (hR _))
  · exact (bin h).pop.2.push (.between (bin h).pop.1 h.pop.2.pop.2.pop.1 h.pop.2.pop.1 h.pop.1)
  · exact h.pop.2.push (.paren h.pop.1)
  · exact h.popFunction
  · exact h.addMark
  · exact h.popArray
  · exact h.addMark
  · exact h.popRef
  · exact h.push .ident
  · exact h.push (.op (hR _))
  · exact h.push (.op (hR _))
  · exact h.push (.op (hR _))
  · exact h.push (.op (hR _))
  · exact h.push (.op (hR _))
  · exact h.push (.op (hR _))
  · exact h.addMark
  · exact h.popArray
  · exact h.addMark
  · exact h.popArray
  · exact (h.addError _).push .int
  · exact (h.addError _).push .bool
  · exact h.push .null
  · exact h.push .str
  · exact h.push .str
  · exact h

/-- The registers and stacks of the two runs. -/
def LRel (B : Str → Str → Prop) (p : Cap) (x y : Str × Tree) : Prop :=
  TRel (OpsOf B) x.2 y.2 ∧ match p with | .no => True | .same => x.1 = y.1 | .loose => Respaced B x.1 y.1

theorem layout_run {p ev ev' p'} (h : LEv B p ev ev' p') : ∀ {x t x' t'}, LRel B p (x, t) (x', t') →
    ORel (LRel B p') (runX x ev t) (runX x' ev' t') := by
  have hR : ∀ o, OpsOf B (normOp o) (normOp o) := fun o => ⟨o, o, .refl _, rfl, rfl⟩
  have step : ∀ {k x t x' t'}, ORel (TRel (OpsOf B)) (runAct k x t) (runAct k x' t') →
      ORel (LRel B .no) (runX x [.act k] t) (runX x' [.act k] t') := by
    intro k x t x' t' h
    simp only [runX]
    revert h
    cases runAct k x t with
    | none => cases runAct k x' t' <;> exact fun h => h
    | some a =>
      cases runAct k x' t' with
      | none => exact fun h => h
      | some b => exact fun h => ⟨h, trivial⟩
  induction h with
  | nil => exact fun h => h
  | same => exact fun h => ⟨h.1, rfl⟩
  | loose hx => exact fun h => ⟨h.1, hx⟩
  | @op p k hk hp =>
    intro x t x' t' h
    refine step ?_
    have hr : OpsOf B (normOp x) (normOp x') := by
      cases p with
      | no => exact absurd rfl hp
      | same => have := h.2; simp only at this; subst this; exact hR _
      | loose => exact ⟨x, x', h.2, rfl, rfl⟩
    have := h.1.push (.op hr)
    simp only [opActs, List.mem_cons, List.not_mem_nil, or_false] at hk
    rcases hk with rfl | rfl | rfl | rfl | rfl | rfl | rfl | rfl <;> exact this
  | @use k hk =>
    intro x t x' t' h
    exact step (layout_act h.1 h.2 hR)
  | @str k k' hk hk' =>
    intro x t x' t' h
    have e : ∀ {k}, k = 28 ∨ k = 29 → runAct k = runAct 28 := by rintro k (rfl | rfl) <;> rfl
    have : ORel (LRel B .no) (runX x [.act 28] t) (runX x' [.act 28] t') := step (layout_act h.1 h.2 hR)
    simp only [runX] at this ⊢
    rw [e hk, e hk']
    exact this
  | @act k hk =>
    intro x t x' t' h
    refine step ?_
    rw [runAct_text hk x x']
    exact layout_act h.1 rfl hR
  | app h1 h2 ih1 ih2 =>
    intro x t x' t' h
    have := ih1 h
    rw [runX_append, runX_append]
    revert this
    cases runX x _ t with
    | none =>
      cases runX x' _ t' with
      | none => exact fun _ => trivial
      | some y => exact fun h => h.elim
    | some y =>
      cases runX x' _ t' with
      | none => exact fun h => h.elim
      | some y' => exact fun h => ih2 h

end

end Verif
