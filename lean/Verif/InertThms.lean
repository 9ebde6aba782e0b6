import Verif.Spec.Inert
import Verif.Soundness
import Verif.Eff
import Verif.Fwd
import Verif.Sound2

/-! # Two runs of the recogniser on texts that differ in one quoted value -/

namespace Verif

open PExp

/-- The actions that use the captured text. -/
def textActs : List Nat := [3, 6, 14, 15, 16, 17, 18, 19, 20, 25, 26, 27, 28, 29]

/-- Where the two runs stand: before the value, with `x` still to be read in common, or past it. -/
inductive IPos (q : Char) (m v w : Str) : Nat → Mode → Str → Str → Prop where
  | before {σ x} : modeFrom σ x = .code → IPos q m v w x.length σ (x ++ q :: (m ++ q :: w)) (x ++ q :: (v ++ q :: w))
  | after {σ s} : IPos q m v w s.length σ s s

/-- The events of the two runs: the same, apart from the value itself; `true` stands for a text captured and not used yet. -/
inductive IEv (m v : Str) (N : Nat) : Bool → List Ev → List Ev → Bool → Prop where
  | nil {p} : IEv m v N p [] [] p
  | text {x} : x.length ≤ N → IEv m v N false [.text x] [.text x] true
  | use {k} : k ∈ textActs → IEv m v N true [.act k] [.act k] false
  | act {k} : k ∉ textActs → IEv m v N false [.act k] [.act k] false
  | hole {k} : k = 28 ∨ k = 29 → IEv m v N false [.text m, .act k] [.text v, .act k] false
  | app {p p1 p2 e1 e1' e2 e2'} : IEv m v N p e1 e1' p1 → IEv m v N p1 e2 e2' p2 → IEv m v N p (e1 ++ e2) (e1' ++ e2') p2

/-- Rules that only skip. -/
def blankRule : Rule → Bool
  | .sp | .sp1 | .SpaceComment | .Comment | .Space | .EndOfLine | .EndOfFile => true
  | _ => false

/-- Static check that an expression keeps to the lexical structure: from the mode and the state of the captured text to those
afterwards, and whether it may read a string. -/
def ity : PExp → Mode → Bool → Option (Mode × Bool × Bool)
  | .eps, σ, p => some (σ, p, false)
  | .chr c, .code, p =>
    if c = '\'' ∨ c = '"' ∨ c = '/' then none else if c = '-' then some (.dash, p, false) else some (.code, p, false)
  | .chr c, .dash, p => if c = '>' then some (.code, p, false) else none
  | .rng lo hi, .code, p =>
    if ∃ c ∈ ['\'', '"', '/', '-'], lo.toNat ≤ c.toNat ∧ c.toNat ≤ hi.toNat then none else some (.code, p, false)
  | .seq a b, σ, p =>
    match ity a σ p with
    | none => none
    | some (σ1, p1, f1) =>
      match ity b σ1 p1 with
      | none => none
      | some (σ2, p2, f2) => some (σ2, p2, f1 || f2)
  | .alt a b, σ, p =>
    match ity a σ p, ity b σ p with
    | some (σ1, p1, f1), some (σ2, p2, f2) => if σ1 = σ2 ∧ p1 = p2 then some (σ1, p1, f1 || f2) else none
    | _, _ => none
  | .sw _ a b, σ, p =>
    match ity a σ p, ity b σ p with
    | some (σ1, p1, f1), some (σ2, p2, f2) => if σ1 = σ2 ∧ p1 = p2 then some (σ1, p1, f1 || f2) else none
    | _, _ => none
  | .star a, σ, p =>
    match ity a σ p with
    | some (σ1, p1, f1) => if σ1 = σ ∧ p1 = p then some (σ, p, f1) else none
    | none => none
  | .opt a, σ, p =>
    match ity a σ p with
    | some (σ1, p1, f1) => if σ1 = σ ∧ p1 = p then some (σ, p, f1) else none
    | none => none
  | .notP .any, σ, p => some (σ, p, false)
  | .notP a, σ, p =>
    match ity a σ p with
    | some _ => some (σ, p, false)
    | none => none
  | .call r, .code, p =>
    if blankRule r then some (.code, p, false) else if p then none else some (.code, false, true)
  | .txt a, σ, false =>
    match ity a σ false with
    | some (τ, false, false) => some (τ, true, false)
    | _ => none
  | .act k, σ, p => if k ∈ textActs then (if p then some (σ, false, false) else none) else if p then none else some (σ, false, false)
  | _, _, _ => none

theorem ity_rules : ∀ r : Rule, r ≠ .String → r ≠ .Comment →
    if blankRule r then ∀ p, ity (G r) .code p = some (.code, p, false) else ∃ f, ity (G r) .code false = some (.code, false, f) := by
  intro r h1 h2
  cases r <;> first
    | exact absurd rfl h1
    | exact absurd rfl h2
    | (simp only [blankRule]; intro p; cases p <;> decide +kernel)
    | (refine ⟨true, ?_⟩; decide +kernel)
    | (refine ⟨false, ?_⟩; decide +kernel)

section
variable {q : Char} {m v w : Str} {N : Nat}

theorem modeStep_plain {σ : Mode} {c : Char} (hσ : σ = .code ∨ σ = .dash) (h : c ≠ '\'' ∧ c ≠ '"' ∧ c ≠ '/' ∧ c ≠ '-') :
    modeStep σ c = .code := by
  rcases hσ with rfl | rfl <;> simp [modeStep, h.1, h.2.1, h.2.2.1, h.2.2.2]

/-- Both runs see the same character, and the end of the text at the same time. -/
theorem IPos.head (hq : q = '\'' ∨ q = '"') {n σ s s'} (h : IPos q m v w n σ s s') :
    (s = [] ∧ s' = []) ∨ ∃ c t t', s = c :: t ∧ s' = c :: t' ∧
      (c ≠ '\'' ∧ c ≠ '"' → ∃ k, IPos q m v w k (modeStep σ c) t t' ∧ 1 + k ≤ n) := by
  cases h with
  | @before _ x hx =>
    right
    cases x with
    | nil =>
      refine ⟨q, _, _, rfl, rfl, ?_⟩
      rcases hq with rfl | rfl <;> simp
    | cons c x =>
      refine ⟨c, _, _, rfl, rfl, fun _ => ⟨x.length, .before hx, by simp; omega⟩⟩
  | after =>
    cases s with
    | nil => exact .inl ⟨rfl, rfl⟩
    | cons c t => exact .inr ⟨c, t, t, rfl, rfl, fun _ => ⟨t.length, .after, by simp; omega⟩⟩

/-- The outcomes of the two runs correspond. -/
def ICorr (q : Char) (m v w : Str) (N n : Nat) (τ : Mode) (p p' f : Bool) (s s' : Str) :
    Option (List Ev × Str) → Option (List Ev × Str) → Prop
  | none, none => True
  | some (ev, r), some (ev', r') =>
    IEv m v N p ev ev' p' ∧ ∃ k, IPos q m v w k τ r r' ∧ k ≤ N ∧ (f = false → ∃ y, s = y ++ r ∧ s' = y ++ r' ∧ y.length + k ≤ n)
  | _, _ => False

theorem ICorr.weaken {n τ p p' f s s' x x'} (h : ICorr q m v w N n τ p p' f s s' x x') {g : Bool} (hg : g = false → f = false) :
    ICorr q m v w N n τ p p' g s s' x x' := by
  unfold ICorr at h ⊢
  split at h
  · trivial
  · obtain ⟨h1, k, h2, h3, h4⟩ := h
    exact ⟨h1, k, h2, h3, fun hh => h4 (hg hh)⟩
  · exact h.elim

theorem ICorr.none {n τ p p' f s s' x'} (h : ICorr q m v w N n τ p p' f s s' none x') : x' = none := by
  cases x' with
  | none => rfl
  | some x => exact h.elim

theorem ICorr.some {n τ p p' f s s' ev r x'} (h : ICorr q m v w N n τ p p' f s s' (some (ev, r)) x') :
    ∃ ev' r', x' = some (ev', r') ∧ IEv m v N p ev ev' p' ∧ ∃ k, IPos q m v w k τ r r' ∧ k ≤ N ∧
      (f = false → ∃ y, s = y ++ r ∧ s' = y ++ r' ∧ y.length + k ≤ n) := by
  cases x' with
  | none => exact h.elim
  | some x => exact ⟨x.1, x.2, rfl, h⟩

/-! ## The two rules that read quotes and slashes -/

theorem mode_comment : ∀ {x : Str}, modeFrom .comment x = .code → ∃ b e x1, x = b ++ e :: x1 ∧ (∀ c ∈ b, c ≠ '\n' ∧ c ≠ '\r') ∧
    (e = '\n' ∨ e = '\r') ∧ modeFrom .code x1 = .code
  | [], h => by cases h
  | c :: x, h => by
    by_cases hc : c = '\n' ∨ c = '\r'
    · refine ⟨[], c, x, rfl, by simp, hc, ?_⟩
      simpa [modeFrom, modeStep, hc] using h
    · have h' : modeFrom .comment x = .code := by simpa [modeFrom, modeStep, hc] using h
      obtain ⟨b, e, x1, rfl, hb, he, hx⟩ := mode_comment h'
      refine ⟨c :: b, e, x1, rfl, ?_, he, hx⟩
      intro d hd
      rcases List.mem_cons.mp hd with rfl | hd
      · exact not_or.mp hc
      · exact hb d hd

theorem mode_sq : ∀ {x : Str}, modeFrom .sq x = .code → ∃ b x1, x = b ++ '\'' :: x1 ∧ '\'' ∉ b ∧ modeFrom .code x1 = .code
  | [], h => by cases h
  | c :: x, h => by
    by_cases hc : c = '\''
    · subst hc
      exact ⟨[], x, rfl, by simp, h⟩
    · have h' : modeFrom .sq x = .code := by simpa [modeFrom, modeStep, hc] using h
      obtain ⟨b, x1, rfl, hb, hx⟩ := mode_sq h'
      exact ⟨c :: b, x1, rfl, by simp [hb, Ne.symm hc], hx⟩

theorem mode_dq : ∀ {x : Str}, modeFrom .dq x = .code → ∃ b x1, x = b ++ '"' :: x1 ∧ '"' ∉ b ∧ modeFrom .code x1 = .code
  | [], h => by cases h
  | c :: x, h => by
    by_cases hc : c = '"'
    · subst hc
      exact ⟨[], x, rfl, by simp, h⟩
    · have h' : modeFrom .dq x = .code := by simpa [modeFrom, modeStep, hc] using h
      obtain ⟨b, x1, rfl, hb, hx⟩ := mode_dq h'
      exact ⟨c :: b, x1, rfl, by simp [hb, Ne.symm hc], hx⟩

/-- A comment in the common part. -/
theorem comment_common {o x : Str} (ho : o = c!"--" ∨ o = c!"//") (hq : q = '\'' ∨ q = '"') (hx : modeFrom .comment x = .code) :
    ∃ y x1, o ++ x = y ++ x1 ∧ modeFrom .code x1 = .code ∧ ∀ t, Ok (.call .Comment) (o ++ x ++ q :: t) [] (x1 ++ q :: t) := by
  obtain ⟨b, e, x1, rfl, hb, he, hx1⟩ := mode_comment hx
  have key : ∀ z x2, e :: x1 = z ++ x2 → modeFrom .code x2 = .code → (∀ t, Ok (.call .EndOfLine) (e :: x1 ++ q :: t) [] (x2 ++ q :: t)) →
      ∃ y x1', o ++ (b ++ e :: x1) = y ++ x1' ∧ modeFrom .code x1' = .code ∧
        ∀ t, Ok (.call .Comment) (o ++ (b ++ e :: x1) ++ q :: t) [] (x1' ++ q :: t) := by
    intro z x2 hz h2 h3
    refine ⟨o ++ b ++ z, x2, by simp [hz], h2, fun t => ?_⟩
    have := comment_ok ho hb (h3 t)
    simpa using this
  rcases he with rfl | rfl
  · exact key ['\n'] x1 rfl hx1 fun t => eol_nl _
  · by_cases hn : ∃ x2, x1 = '\n' :: x2
    · obtain ⟨x2, rfl⟩ := hn
      exact key c!"\r\n" x2 rfl hx1 fun t => eol_crlf _
    · refine key ['\r'] x1 rfl hx1 fun t => eol_cr ?_
      intro u hu
      cases x1 with
      | nil => rcases hq with rfl | rfl <;> simp at hu
      | cons d x1 => simp at hu; exact hn ⟨x1, by rw [hu.1]⟩

theorem comment_quiet {s : Str} {ev r} (h : Big G (.call .Comment) s (some (ev, r))) : ev = [] ∧ ∃ y, s = y ++ r := by
  obtain ⟨h1, y, h2, -⟩ : Post .Comment s ev r := post_all h
  exact ⟨h1, y, h2⟩

theorem comment_sync (hq : q = '\'' ∨ q = '"') {n s s' x} (h : Big G (.call .Comment) s x) (hp : IPos q m v w n .code s s') (hn : n ≤ N) (p : Bool) :
    ∃ x', Big G (.call .Comment) s' x' ∧ ICorr q m v w N n .code p p false s s' x x' := by
  cases hp with
  | after =>
    refine ⟨x, h, ?_⟩
    cases x with
    | none => trivial
    | some x =>
      obtain ⟨ev, r⟩ := x
      obtain ⟨rfl, y, rfl⟩ := comment_quiet h
      simp only [List.length_append] at hn ⊢
      exact ⟨.nil, r.length, .after, by omega, fun _ => ⟨y, rfl, rfl, Nat.le_refl _⟩⟩
  | @before _ x0 hx =>
    have fail : (∀ t, No (.call .Comment) (x0 ++ q :: t)) → ∃ x', Big G (.call .Comment) (x0 ++ q :: (v ++ q :: w)) x' ∧
        ICorr q m v w N x0.length .code p p false (x0 ++ q :: (m ++ q :: w)) (x0 ++ q :: (v ++ q :: w)) x x' := by
      intro hno
      have := Big.det h (hno _)
      subst this
      exact ⟨none, hno _, trivial⟩
    have good : ∀ o x1, (o = c!"--" ∨ o = c!"//") → x0 = o ++ x1 → modeFrom .comment x1 = .code →
        ∃ x', Big G (.call .Comment) (x0 ++ q :: (v ++ q :: w)) x' ∧
        ICorr q m v w N x0.length .code p p false (x0 ++ q :: (m ++ q :: w)) (x0 ++ q :: (v ++ q :: w)) x x' := by
      intro o x1 ho he h1
      obtain ⟨y, x2, h2, h3, h4⟩ := comment_common ho hq h1
      rw [← he] at h2 h4
      have := Big.det h (h4 _)
      subst this
      subst h2
      simp only [List.length_append] at hn
      refine ⟨_, h4 _, .nil, x2.length, .before h3, by omega, fun _ => ⟨y, by simp, by simp, by simp⟩⟩
    cases x0 with
    | nil =>
      refine fail fun t => ?_
      rcases hq with rfl | rfl <;> exact big_none_cons (by decide) (by decide) (by decide)
    | cons c x0 =>
      by_cases h1 : c = '-'
      · subst h1
        cases x0 with
        | nil => cases hx
        | cons d x0 =>
          by_cases hd : d = '-'
          · subst hd
            exact good c!"--" x0 (.inl rfl) rfl hx
          · exact fail fun t => .call (.seqFail1 (.alt2 (.seqFail2 .chrOk (.chrFail hd)) (.seqFail1 (.chrFail (by decide)))))
      by_cases h2 : c = '/'
      · subst h2
        cases x0 with
        | nil => cases hx
        | cons d x0 =>
          by_cases hd : d = '/'
          · subst hd
            exact good c!"//" x0 (.inr rfl) rfl hx
          · exact fail fun t => .call (.seqFail1 (.alt2 (.seqFail1 (.chrFail (by decide))) (.seqFail2 .chrOk (.chrFail hd))))
      · exact fail fun t => .call (.seqFail1 (.alt2 (.seqFail1 (.chrFail h1)) (.seqFail1 (.chrFail h2))))

theorem string_text {s : Str} {ev r} (h : Big G (.call .String) s (some (ev, r))) :
    ∃ b k, ev = [.text b, .act k] ∧ (k = 28 ∨ k = 29) ∧ b.length + r.length ≤ s.length := by
  cases h with
  | call hb =>
    have h' : SatG gString s ev r := Big.sat (P := Post) (fun q s ev r h _ => post_all h) hb _ _ rfl
    rcases h' with h | ⟨_, h⟩ <;>
      obtain ⟨e1, r1, e2, ⟨rfl, rfl⟩, ⟨e3, r3, e4, ⟨e5, ⟨h5, _⟩, rfl⟩, ⟨e6, r6, e7, ⟨rfl, rfl⟩, ⟨rfl, rfl⟩, rfl⟩, rfl⟩, rfl⟩ := h
    all_goals
      obtain ⟨rfl, u, rfl, hu⟩ := iter_strBody h5
      rw [txt_eq]
      simp only [List.length_append, List.length_cons, List.nil_append, List.cons_append]
    · exact ⟨u, 28, rfl, .inl rfl, by omega⟩
    · exact ⟨u, 29, rfl, .inr rfl, by omega⟩

theorem string_ok {q : Char} (hq : q = '\'' ∨ q = '"') : ∃ k, (k = 28 ∨ k = 29) ∧ ∀ u r, q ∉ u →
    Ok (.call .String) (q :: (u ++ q :: r)) [.text u, .act k] r := by
  rcases hq with rfl | rfl
  · exact ⟨28, .inl rfl, fun u r h => string_sq h r⟩
  · exact ⟨29, .inr rfl, fun u r h => string_dq h r⟩

theorem IEv.string {b : Str} {k : Nat} (hk : k = 28 ∨ k = 29) (hb : b.length ≤ N) : IEv m v N false [.text b, .act k] [.text b, .act k] false :=
  IEv.app (e1 := [.text b]) (e1' := [.text b]) (.text hb) (.use (by rcases hk with rfl | rfl <;> decide))

theorem string_sync (hq : q = '\'' ∨ q = '"') (hm : q ∉ m) (hv : q ∉ v) (hw : w.length ≤ N) {n s s' x} (h : Big G (.call .String) s x)
    (hp : IPos q m v w n .code s s') (hn : n ≤ N) :
    ∃ x', Big G (.call .String) s' x' ∧ ICorr q m v w N n .code false false true s s' x x' := by
  cases hp with
  | after =>
    refine ⟨x, h, ?_⟩
    cases x with
    | none => trivial
    | some x =>
      obtain ⟨ev, r⟩ := x
      obtain ⟨b, k, rfl, hk, hl⟩ := string_text h
      exact ⟨.string hk (by omega), r.length, .after, by omega, by simp⟩
  | @before _ x0 hx =>
    cases x0 with
    | nil =>
      obtain ⟨k, hk, hs⟩ := string_ok hq
      have := Big.det h (hs _ _ hm)
      subst this
      exact ⟨_, hs _ _ hv, .hole hk, w.length, .after, hw, by simp⟩
    | cons c x0 =>
      have quoted : ∀ b x1, (c = '\'' ∨ c = '"') → c ∉ b → x0 = b ++ c :: x1 → modeFrom .code x1 = .code →
          ∃ x', Big G (.call .String) (c :: x0 ++ q :: (v ++ q :: w)) x' ∧ ICorr q m v w N (c :: x0).length .code false false true
            (c :: x0 ++ q :: (m ++ q :: w)) (c :: x0 ++ q :: (v ++ q :: w)) x x' := by
        intro b x1 hc hb he h1
        obtain ⟨k, hk, hs⟩ := string_ok hc
        subst he
        have e : ∀ t, c :: (b ++ c :: x1) ++ t = c :: (b ++ c :: (x1 ++ t)) := by simp
        rw [e] at h ⊢
        have := Big.det h (hs _ _ hb)
        subst this
        simp only [List.length_append, List.length_cons] at hn
        rw [e]
        exact ⟨_, hs _ _ hb, .string hk (by omega), x1.length, .before h1, by omega, by simp⟩
      by_cases h1 : c = '\''
      · subst h1
        obtain ⟨b, x1, he, hb, h1⟩ := mode_sq hx
        exact quoted b x1 (.inl rfl) hb he h1
      by_cases h2 : c = '"'
      · subst h2
        obtain ⟨b, x1, he, hb, h1⟩ := mode_dq hx
        exact quoted b x1 (.inr rfl) hb he h1
      have hno : ∀ t, No (.call .String) (c :: t) := fun t => .call (.alt2 (.seqFail1 (.chrFail h1)) (.seqFail1 (.chrFail h2)))
      have := Big.det h (hno _)
      subst this
      exact ⟨none, hno _, trivial⟩

/-! ## All expressions -/

theorem alt_ity {a b : PExp} {σ p τ p' f} (h : (match ity a σ p, ity b σ p with
      | some (σ1, p1, f1), some (σ2, p2, f2) => if σ1 = σ2 ∧ p1 = p2 then some (σ1, p1, f1 || f2) else none
      | _, _ => none) = some (τ, p', f)) :
    ∃ f1 f2, ity a σ p = some (τ, p', f1) ∧ ity b σ p = some (τ, p', f2) ∧ f = (f1 || f2) := by
  split at h
  · rename_i σ1 p1 f1 σ2 p2 f2 h1 h2
    split at h
    · rename_i he
      obtain ⟨rfl, rfl⟩ := he
      simp only [Option.some.injEq, Prod.mk.injEq] at h
      obtain ⟨rfl, rfl, rfl⟩ := h
      exact ⟨f1, f2, h1, h2, rfl⟩
    · cases h
  · cases h

theorem loop_ity {a : PExp} {σ p τ p' f} (h : (match ity a σ p with
      | some (σ1, p1, f1) => if σ1 = σ ∧ p1 = p then some (σ, p, f1) else none
      | none => none) = some (τ, p', f)) : τ = σ ∧ p' = p ∧ ity a σ p = some (σ, p, f) := by
  split at h
  · rename_i σ1 p1 f1 h1
    split at h
    · rename_i he
      obtain ⟨rfl, rfl⟩ := he
      simp only [Option.some.injEq, Prod.mk.injEq] at h
      obtain ⟨rfl, rfl, rfl⟩ := h
      exact ⟨rfl, rfl, h1⟩
    · cases h
  · cases h

theorem chr_ity {c : Char} {σ p τ p' f} (h : ity (.chr c) σ p = some (τ, p', f)) :
    p' = p ∧ f = false ∧ (c ≠ '\'' ∧ c ≠ '"') ∧ modeStep σ c = τ := by
  cases σ <;> simp only [ity] at h <;> try cases h
  · split at h
    · cases h
    · rename_i h1
      simp only [not_or] at h1
      split at h <;> rename_i h2 <;> cases h
      · subst h2; exact ⟨rfl, rfl, ⟨h1.1, h1.2.1⟩, rfl⟩
      · exact ⟨rfl, rfl, ⟨h1.1, h1.2.1⟩, modeStep_plain (.inl rfl) ⟨h1.1, h1.2.1, h1.2.2, h2⟩⟩
  · split at h <;> cases h
    rename_i h1
    subst h1
    exact ⟨rfl, rfl, by decide, by decide⟩

theorem rng_ity {lo hi : Char} {σ p τ p' f} (h : ity (.rng lo hi) σ p = some (τ, p', f)) :
    p' = p ∧ f = false ∧ ∀ c : Char, lo.toNat ≤ c.toNat → c.toNat ≤ hi.toNat → (c ≠ '\'' ∧ c ≠ '"') ∧ modeStep σ c = τ := by
  cases σ <;> simp only [ity] at h <;> try cases h
  split at h
  · cases h
  · rename_i hn
    cases h
    refine ⟨rfl, rfl, fun c h1 h2 => ?_⟩
    have hne : ∀ d ∈ ['\'', '"', '/', '-'], c ≠ d := by
      rintro d hd rfl
      exact hn ⟨c, hd, h1, h2⟩
    have a := hne '\'' (by decide)
    have b := hne '"' (by decide)
    exact ⟨⟨a, b⟩, modeStep_plain (.inl rfl) ⟨a, b, hne _ (by decide), hne _ (by decide)⟩⟩

theorem not_ity {a : PExp} {σ p y} (hany : a ≠ .any) (h : ity (.notP a) σ p = some y) :
    (∃ z, ity a σ p = some z) ∧ some (σ, p, false) = some y := by
  have e : ity (.notP a) σ p = match ity a σ p with | some _ => some (σ, p, false) | none => none := by
    cases a <;> first | exact absurd rfl hany | rfl
  rw [e] at h
  split at h
  · exact ⟨⟨_, by assumption⟩, h⟩
  · cases h

/-- Both runs do the same. -/
theorem inert_sync (hq : q = '\'' ∨ q = '"') (hm : q ∉ m) (hv : q ∉ v) (hw : w.length ≤ N) {e s x} (h : Big G e s x) :
    ∀ {σ p τ p' f n s'}, ity e σ p = some (τ, p', f) → IPos q m v w n σ s s' → n ≤ N →
      ∃ x', Big G e s' x' ∧ ICorr q m v w N n τ p p' f s s' x x' := by
  induction h with
  | eps =>
    intro σ p τ p' f n s' ht hp hn
    cases ht
    exact ⟨_, .eps, .nil, n, hp, hn, fun _ => ⟨[], rfl, rfl, by simp⟩⟩
  | anyOk => intro σ p τ p' f n s' ht; cases σ <;> cases ht
  | anyFail => intro σ p τ p' f n s' ht; cases σ <;> cases ht
  | @chrOk c s =>
    intro σ p τ p' f n s' ht hp hn
    obtain ⟨rfl, rfl, hc, rfl⟩ := chr_ity ht
    rcases hp.head hq with ⟨h, _⟩ | ⟨d, t, t', h1, rfl, h2⟩
    · cases h
    · cases h1
      obtain ⟨k, hk, hl⟩ := h2 hc
      exact ⟨_, .chrOk, .nil, k, hk, by omega, fun _ => ⟨[c], rfl, rfl, by simpa using hl⟩⟩
  | chrNil =>
    intro σ p τ p' f n s' ht hp hn
    rcases hp.head hq with ⟨_, rfl⟩ | ⟨d, t, t', h1, _⟩
    · exact ⟨_, .chrNil, trivial⟩
    · cases h1
  | chrFail hc =>
    intro σ p τ p' f n s' ht hp hn
    rcases hp.head hq with ⟨h, _⟩ | ⟨d, t, t', h1, rfl, h2⟩
    · cases h
    · cases h1
      exact ⟨_, .chrFail hc, trivial⟩
  | @rngOk lo hi c s a b =>
    intro σ p τ p' f n s' ht hp hn
    obtain ⟨rfl, rfl, hc⟩ := rng_ity ht
    rcases hp.head hq with ⟨h, _⟩ | ⟨d, t, t', h1, rfl, h2⟩
    · cases h
    · cases h1
      obtain ⟨hc', rfl⟩ := hc c a b
      obtain ⟨k, hk, hl⟩ := h2 hc'
      exact ⟨_, .rngOk a b, .nil, k, hk, by omega, fun _ => ⟨[c], rfl, rfl, by simpa using hl⟩⟩
  | rngNil =>
    intro σ p τ p' f n s' ht hp hn
    rcases hp.head hq with ⟨_, rfl⟩ | ⟨d, t, t', h1, _⟩
    · exact ⟨_, .rngNil, trivial⟩
    · cases h1
  | rngFail hc =>
    intro σ p τ p' f n s' ht hp hn
    rcases hp.head hq with ⟨h, _⟩ | ⟨d, t, t', h1, rfl, h2⟩
    · cases h
    · cases h1
      exact ⟨_, .rngFail hc, trivial⟩
  | seqOk h1 h2 ih1 ih2 =>
    intro σ p τ p' f n s' ht hp hn
    simp only [ity] at ht
    split at ht
    · cases ht
    · rename_i σ1 p1 f1 ha
      split at ht
      · cases ht
      · rename_i σ2 p2 f2 hb
        cases ht
        obtain ⟨x1, b1, c1⟩ := ih1 ha hp hn
        obtain ⟨ev1, r1, rfl, e1, k1, q1, l1, y1⟩ := c1.some
        obtain ⟨x2, b2, c2⟩ := ih2 hb q1 l1
        obtain ⟨ev2, r2, rfl, e2, k2, q2, l2, y2⟩ := c2.some
        refine ⟨_, .seqOk b1 b2, .app e1 e2, k2, q2, l2, fun hf => ?_⟩
        simp only [Bool.or_eq_false_iff] at hf
        obtain ⟨z1, rfl, rfl, z2⟩ := y1 hf.1
        obtain ⟨z3, rfl, rfl, z4⟩ := y2 hf.2
        exact ⟨z1 ++ z3, by simp, by simp, by simp; omega⟩
  | seqFail1 h1 ih1 =>
    intro σ p τ p' f n s' ht hp hn
    simp only [ity] at ht
    split at ht
    · cases ht
    · rename_i σ1 p1 f1 ha
      obtain ⟨x1, b1, c1⟩ := ih1 ha hp hn
      have := c1.none
      subst this
      exact ⟨_, .seqFail1 b1, trivial⟩
  | seqFail2 h1 h2 ih1 ih2 =>
    intro σ p τ p' f n s' ht hp hn
    simp only [ity] at ht
    split at ht
    · cases ht
    · rename_i σ1 p1 f1 ha
      split at ht
      · cases ht
      · rename_i σ2 p2 f2 hb
        obtain ⟨x1, b1, c1⟩ := ih1 ha hp hn
        obtain ⟨ev1, r1, rfl, e1, k1, q1, l1, y1⟩ := c1.some
        obtain ⟨x2, b2, c2⟩ := ih2 hb q1 l1
        have := c2.none
        subst this
        exact ⟨_, .seqFail2 b1 b2, trivial⟩
  | @alt1 a b s x h1 ih1 =>
    intro σ p τ p' f n s' ht hp hn
    obtain ⟨f1, f2, ha, hb, rfl⟩ := alt_ity (by simpa only [ity] using ht)
    obtain ⟨x1, b1, c1⟩ := ih1 ha hp hn
    obtain ⟨ev, r⟩ := x
    obtain ⟨ev1, r1, rfl, _⟩ := c1.some
    exact ⟨_, .alt1 b1, c1.weaken fun h => (Bool.or_eq_false_iff.mp h).1⟩
  | alt2 h1 h2 ih1 ih2 =>
    intro σ p τ p' f n s' ht hp hn
    obtain ⟨f1, f2, ha, hb, rfl⟩ := alt_ity (by simpa only [ity] using ht)
    obtain ⟨x1, b1, c1⟩ := ih1 ha hp hn
    have := c1.none
    subst this
    obtain ⟨x2, b2, c2⟩ := ih2 hb hp hn
    exact ⟨_, .alt2 b1 b2, c2.weaken fun h => (Bool.or_eq_false_iff.mp h).2⟩
  | starNil h1 ih1 =>
    intro σ p τ p' f n s' ht hp hn
    obtain ⟨rfl, rfl, ha⟩ := loop_ity (by simpa only [ity] using ht)
    obtain ⟨x1, b1, c1⟩ := ih1 ha hp hn
    have := c1.none
    subst this
    exact ⟨_, .starNil b1, .nil, n, hp, hn, fun _ => ⟨[], rfl, rfl, by simp⟩⟩
  | starCons h1 h2 ih1 ih2 =>
    intro σ p τ p' f n s' ht hp hn
    obtain ⟨rfl, rfl, ha⟩ := loop_ity (by simpa only [ity] using ht)
    obtain ⟨x1, b1, c1⟩ := ih1 ha hp hn
    obtain ⟨ev1, r1, rfl, e1, k1, q1, l1, y1⟩ := c1.some
    obtain ⟨x2, b2, c2⟩ := ih2 ht q1 l1
    obtain ⟨ev2, r2, rfl, e2, k2, q2, l2, y2⟩ := c2.some
    refine ⟨_, .starCons b1 b2, .app e1 e2, k2, q2, l2, fun hf => ?_⟩
    obtain ⟨z1, rfl, rfl, z2⟩ := y1 hf
    obtain ⟨z3, rfl, rfl, z4⟩ := y2 hf
    exact ⟨z1 ++ z3, by simp, by simp, by simp; omega⟩
  | @optSome a s x h1 ih1 =>
    intro σ p τ p' f n s' ht hp hn
    obtain ⟨rfl, rfl, ha⟩ := loop_ity (by simpa only [ity] using ht)
    obtain ⟨x1, b1, c1⟩ := ih1 ha hp hn
    obtain ⟨ev, r⟩ := x
    obtain ⟨ev1, r1, rfl, _⟩ := c1.some
    exact ⟨_, .optSome b1, c1⟩
  | optNone h1 ih1 =>
    intro σ p τ p' f n s' ht hp hn
    obtain ⟨rfl, rfl, ha⟩ := loop_ity (by simpa only [ity] using ht)
    obtain ⟨x1, b1, c1⟩ := ih1 ha hp hn
    have := c1.none
    subst this
    exact ⟨_, .optNone b1, .nil, n, hp, hn, fun _ => ⟨[], rfl, rfl, by simp⟩⟩
  | @notFail a s x h1 ih1 =>
    intro σ p τ p' f n s' ht hp hn
    by_cases hany : a = .any
    · subst hany
      rcases hp.head hq with ⟨rfl, rfl⟩ | ⟨d, t, t', rfl, rfl, _⟩
      · cases h1
      · exact ⟨_, .notFail .anyOk, trivial⟩
    · obtain ⟨⟨⟨τ1, p1, f1⟩, ha⟩, -⟩ := not_ity hany ht
      obtain ⟨x1, b1, c1⟩ := ih1 ha hp hn
      obtain ⟨ev, r⟩ := x
      obtain ⟨ev1, r1, rfl, _⟩ := c1.some
      exact ⟨_, .notFail b1, trivial⟩
  | @notOk a s h1 ih1 =>
    intro σ p τ p' f n s' ht hp hn
    by_cases hany : a = .any
    · subst hany
      rcases hp.head hq with ⟨rfl, rfl⟩ | ⟨d, t, t', rfl, rfl, _⟩
      · simp only [ity] at ht
        cases ht
        exact ⟨_, .notOk .anyFail, .nil, n, hp, hn, fun _ => ⟨[], rfl, rfl, by simp⟩⟩
      · cases h1
    · obtain ⟨⟨⟨τ1, p1, f1⟩, ha⟩, ht⟩ := not_ity hany ht
      cases ht
      obtain ⟨x1, b1, c1⟩ := ih1 ha hp hn
      have := c1.none
      subst this
      exact ⟨_, .notOk b1, .nil, n, hp, hn, fun _ => ⟨[], rfl, rfl, by simp⟩⟩
  | @call r s x h1 ih1 =>
    intro σ p τ p' f n s' ht hp hn
    cases σ <;> simp only [ity] at ht <;> try cases ht
    by_cases hs : r = .String
    · subst hs
      cases p <;> cases ht
      exact string_sync hq hm hv hw (.call h1) hp hn
    by_cases hc : r = .Comment
    · subst hc
      cases ht
      exact comment_sync hq (.call h1) hp hn _
    have hr := ity_rules r hs hc
    cases hb : blankRule r with
    | true =>
      rw [hb] at hr ht
      cases ht
      obtain ⟨x1, b1, c1⟩ := ih1 (hr _) hp hn
      exact ⟨_, .call b1, c1⟩
    | false =>
      rw [hb] at hr ht
      obtain ⟨g, hg⟩ := hr
      cases p <;> cases ht
      obtain ⟨x1, b1, c1⟩ := ih1 hg hp hn
      exact ⟨_, .call b1, c1.weaken (by simp)⟩
  | @txtOk a s ev r h1 ih1 =>
    intro σ p τ p' f n s' ht hp hn
    cases p with
    | true => simp only [ity] at ht; cases ht
    | false =>
      simp only [ity] at ht
      split at ht
      · rename_i τ1 ha
        cases ht
        obtain ⟨x1, b1, c1⟩ := ih1 ha hp hn
        obtain ⟨ev1, r1, rfl, e1, k1, q1, l1, y1⟩ := c1.some
        obtain ⟨z1, rfl, rfl, z2⟩ := y1 rfl
        have h2 := Big.txtOk b1
        rw [txt_eq] at h2 ⊢
        exact ⟨_, h2, .app e1 (.text (by omega)), k1, q1, l1, fun _ => ⟨z1, rfl, rfl, z2⟩⟩
      · cases ht
  | txtFail h1 ih1 =>
    intro σ p τ p' f n s' ht hp hn
    cases p with
    | true => simp only [ity] at ht; cases ht
    | false =>
      simp only [ity] at ht
      split at ht
      · rename_i τ1 ha
        obtain ⟨x1, b1, c1⟩ := ih1 ha hp hn
        have := c1.none
        subst this
        exact ⟨_, .txtFail b1, trivial⟩
      · cases ht
  | @act k s =>
    intro σ p τ p' f n s' ht hp hn
    simp only [ity] at ht
    have keep : ∀ f, f = false → ∃ y, s = y ++ s ∧ s' = y ++ s' ∧ y.length + n ≤ n := fun _ _ => ⟨[], rfl, rfl, by simp⟩
    split at ht
    · rename_i hk
      cases p <;> cases ht
      exact ⟨_, .act, .use hk, n, hp, hn, keep _⟩
    · rename_i hk
      cases p <;> cases ht
      exact ⟨_, .act, .act hk, n, hp, hn, keep _⟩
  | @swIn cs a b c s x hc h1 ih1 =>
    intro σ p τ p' f n s' ht hp hn
    obtain ⟨f1, f2, ha, hb, rfl⟩ := alt_ity (by simpa only [ity] using ht)
    obtain ⟨x1, b1, c1⟩ := ih1 ha hp hn
    rcases hp.head hq with ⟨h, _⟩ | ⟨d, t, t', h1, rfl, h2⟩
    · cases h
    · cases h1
      exact ⟨_, .swIn hc b1, c1.weaken fun h => (Bool.or_eq_false_iff.mp h).1⟩
  | @swOut cs a b c s x hc h1 ih1 =>
    intro σ p τ p' f n s' ht hp hn
    obtain ⟨f1, f2, ha, hb, rfl⟩ := alt_ity (by simpa only [ity] using ht)
    obtain ⟨x1, b1, c1⟩ := ih1 hb hp hn
    rcases hp.head hq with ⟨h, _⟩ | ⟨d, t, t', h1, rfl, h2⟩
    · cases h
    · cases h1
      exact ⟨_, .swOut hc b1, c1.weaken fun h => (Bool.or_eq_false_iff.mp h).2⟩
  | @swNil cs a b x h1 ih1 =>
    intro σ p τ p' f n s' ht hp hn
    obtain ⟨f1, f2, ha, hb, rfl⟩ := alt_ity (by simpa only [ity] using ht)
    obtain ⟨x1, b1, c1⟩ := ih1 hb hp hn
    rcases hp.head hq with ⟨_, rfl⟩ | ⟨d, t, t', h1, _⟩
    · exact ⟨_, .swNil b1, c1.weaken fun h => (Bool.or_eq_false_iff.mp h).2⟩
    · cases h1

/-! ## The trees -/

theorem putStrL_eq (m v : Str) : ∀ l, putStrL m v l = l.map (putStr m v)
  | [] => rfl
  | n :: l => by rw [putStrL, putStrL_eq m v l]; rfl

/-- The tree on the stack with the value replaced. -/
def Tree.put (m v : Str) (t : Tree) : Tree := { t with stack := t.stack.map (putStr m v) }

theorem put_push (t : Tree) (n : Node) : (t.push n).put m v = (t.put m v).push (putStr m v n) := rfl

theorem put_pop (t : Tree) : (t.put m v).pop = (putStr m v t.pop.1, t.pop.2.put m v) := by
  obtain ⟨st, es, ms⟩ := t
  cases st <;> rfl

theorem put_addError (t : Tree) (e : Option Err) : (t.addError e).put m v = (t.put m v).addError e := by
  cases e <;> rfl

theorem put_addMark (t : Tree) : (t.put m v).addMark = t.addMark.put m v := by
  simp [Tree.addMark, Tree.put]

theorem put_popMarked (t : Tree) : (t.put m v).popMarked = t.popMarked.map fun x => (x.1.map (putStr m v), x.2.put m v) := by
  obtain ⟨st, es, ms⟩ := t
  cases ms with
  | nil => rfl
  | cons k ms =>
    simp only [Tree.popMarked, Tree.put, List.length_map]
    split
    · rfl
    · simp

theorem put_nodeName (n : Node) : Tree.nodeName (putStr m v n) = Tree.nodeName n := by
  cases n <;> rfl

theorem put_popArray (t : Tree) : (t.put m v).popArray = t.popArray.map (Tree.put m v) := by
  simp only [Tree.popArray, put_popMarked]
  cases h : t.popMarked with
  | none => rfl
  | some x => simp [put_push, putStr, putStrL_eq]

theorem put_popRef (t : Tree) : (t.put m v).popIdentifierReference = t.popIdentifierReference.map (Tree.put m v) := by
  simp only [Tree.popIdentifierReference, put_popMarked]
  cases h : t.popMarked with
  | none => rfl
  | some x =>
    have e : (x.1.map (putStr m v)).mapM Tree.nodeName = x.1.mapM Tree.nodeName := by
      rw [List.mapM_map]
      congr 1
      funext n
      exact put_nodeName n
    simp only [Option.map_some, e]
    cases x.1.mapM Tree.nodeName with
    | none => rfl
    | some l => rfl

theorem put_popFunction (t : Tree) : (t.put m v).popFunction = t.popFunction.put m v := by
  simp only [Tree.popFunction, put_pop]
  generalize t.pop.2.pop.1 = a
  generalize t.pop.1 = b
  cases a <;> cases b <;> simp [putStr, put_push, put_addError, putStrL_eq]

/-- An action on the two stacks. -/
theorem put_runAct (k : Nat) {x : Str} (t : Tree) (h : x ≠ m) : runAct k x (t.put m v) = (runAct k x t).map (Tree.put m v) := by
  unfold runAct
  split <;> simp only [Option.map_some, Tree.popLogic, Tree.popNot, Tree.popCompare, Tree.popPredicate, Tree.popBetween,
    Tree.popParentheses, put_pop, put_push, put_popArray, put_popRef, put_addMark, put_popFunction, Tree.addOperation, Tree.addName,
    Tree.addString, Tree.addNull, Tree.addBoolean, Tree.addInteger, put_addError, putStr, h, if_false]

/-- An action that does not use the text. -/
theorem runAct_text {k : Nat} (hk : k ∉ textActs) (x y : Str) (t : Tree) : runAct k x t = runAct k y t := by
  unfold runAct
  split <;> first | rfl | exact absurd (by decide) hk

/-- The registers and stacks of the two runs. -/
def IRel (m v : Str) (N : Nat) (p : Bool) : Option (Str × Tree) → Option (Str × Tree) → Prop
  | none, none => True
  | some (x, t), some (x', t') => t' = t.put m v ∧ (p = true → x = x' ∧ x.length ≤ N)
  | _, _ => False

theorem inert_run (hN : N < m.length) {p ev ev' p'} (h : IEv m v N p ev ev' p') : ∀ {x t x' t'}, IRel m v N p (some (x, t)) (some (x', t')) →
    IRel m v N p' (runX x ev t) (runX x' ev' t') := by
  induction h with
  | nil => exact fun h => h
  | @text y hy =>
    rintro x t x' t' ⟨rfl, -⟩
    exact ⟨rfl, fun _ => ⟨rfl, hy⟩⟩
  | @use k hk =>
    rintro x t x' t' ⟨rfl, h⟩
    obtain ⟨rfl, hl⟩ := h rfl
    have hx : x ≠ m := by rintro rfl; omega
    simp only [runX, put_runAct k t (v := v) hx]
    cases runAct k x t with
    | none => trivial
    | some t1 => exact ⟨rfl, by simp⟩
  | @act k hk =>
    rintro x t x' t' ⟨rfl, -⟩
    have hx : ([] : Str) ≠ m := by rintro rfl; simp at hN
    simp only [runX, runAct_text hk x [], runAct_text hk x' [], put_runAct k t (v := v) hx]
    cases runAct k [] t with
    | none => trivial
    | some t1 => exact ⟨rfl, by simp⟩
  | @hole k hk =>
    rintro x t x' t' ⟨rfl, -⟩
    rcases hk with rfl | rfl <;> refine ⟨?_, by simp⟩ <;> simp [Tree.addString, put_push, putStr]
  | app h1 h2 ih1 ih2 =>
    intro x t x' t' h
    have := ih1 h
    rw [runX_append, runX_append]
    revert this
    cases runX x _ t with
    | none =>
      cases runX x' _ t' with
      | none => exact fun _ => trivial
      | some y => exact fun h => h.elim
    | some y =>
      cases runX x' _ t' with
      | none => exact fun h => h.elim
      | some y' => exact fun h => ih2 h

end

end Verif
