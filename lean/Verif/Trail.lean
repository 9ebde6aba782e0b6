import Verif.Ext
import Verif.Soundness

/-!
# Blanks and complete comments after a lexically closed text do not influence how the text is read

By induction on derivations, as in `Ext`: a derivation on a text that closes its quotes, comments and brackets is also a derivation on that
text followed by blanks, except that `_` and `__` at the end of the text also consume the added blanks.
-/

namespace Verif

open PExp

/-- The characters blanks and comments begin with. -/
def wsHeads : List Char := c!" \t\n\r-/"

/-- On success the end is not inside trailing blanks: the last thing read is a character of the language proper. -/
def keeps : PExp → Bool
  | .eps | .any | .chr _ | .rng _ _ | .notP _ | .act _ => true
  | .seq a b => keeps b && (keeps a || (!nullable nulG b && ranked nulG rankG 16 16 b))
  | .alt a b | .sw _ a b => keeps a && keeps b
  | .star a | .opt a | .txt a => keeps a
  | .call _ => false

/-- The expression starts with `>`. -/
def startsGt : PExp → Bool
  | .seq (.chr '>') _ => true
  | _ => false

/-- Expressions which do not mind blanks after the end of the text. -/
def trailOk : PExp → Bool
  | .eps | .act _ => true
  | .any => false
  | .chr c => !wsHeads.contains c
  | .rng lo hi => wsHeads.all fun c => !(lo.toNat ≤ c.toNat && c.toNat ≤ hi.toNat)
  | .seq a b => (PExp.seq a b == gBetweenOp) ||
      (if a = .call .sp1 then !nullable nulG b && ranked nulG rankG 16 16 b && trailOk b
       else if a = .chr '-' then startsGt b && trailOk b else trailOk a && trailOk b)
  | .alt a b => trailOk a && trailOk b
  | .sw cs a b => wsHeads.all (fun c => !cs.contains c) && trailOk a && trailOk b
  | .star a | .opt a | .notP a => trailOk a
  | .txt a => trailOk a && keeps a
  | .call r => ![Rule.Grammar, .EndOfFile, .sp1, .SpaceComment, .Comment, .Space, .EndOfLine].contains r

theorem trailOk_rules : ∀ r, trailOk (.call r) = true → r ≠ .sp → r ≠ .String → trailOk (G r) = true := by
  intro r; cases r <;> decide

/-- Blanks begin with a blank or two equal characters. -/
theorem WS.head {w : Str} (hw : WS w) {c t} (h : w = c :: t) :
    c ∈ wsHeads ∧ (c = '-' → ∃ t', t = '-' :: t') ∧ (c = '/' → ∃ t', t = '/' :: t') := by
  cases hw with
  | nil => cases h
  | blank hc _ =>
    cases h
    simp [blanks] at hc
    rcases hc with rfl | rfl | rfl | rfl <;> exact ⟨by decide, fun h => absurd h (by decide), fun h => absurd h (by decide)⟩
  | comment ho _ _ _ =>
    rcases ho with rfl | rfl <;> cases h
    · exact ⟨by decide, fun _ => ⟨_, rfl⟩, fun h => absurd h (by decide)⟩
    · exact ⟨by decide, fun h => absurd h (by decide), fun _ => ⟨_, rfl⟩⟩

/-! ## Call-free expressions -/

/-- Characters only. -/
def plainLit : PExp → Bool
  | .eps => true
  | .chr c => !wsHeads.contains c
  | .seq a b | .alt a b => plainLit a && plainLit b
  | _ => false

theorem plainLit_trail {w : Str} (hw : WS w) {e s x} (h : Big G e s x) (hf : plainLit e = true) :
    Big G e (s ++ w) (x.map fun p => (p.1, p.2 ++ w)) := by
  induction h with
  | eps => exact .eps
  | chrOk => exact .chrOk
  | @chrNil c =>
    cases w with
    | nil => exact .chrNil
    | cons d t =>
      refine .chrFail ?_
      rintro rfl
      have := (hw.head rfl).1
      simp [plainLit, this] at hf
  | chrFail hne => exact .chrFail hne
  | seqOk _ _ iha ihb => simp [plainLit] at hf; exact .seqOk (iha hf.1) (ihb hf.2)
  | seqFail1 _ iha => simp [plainLit] at hf; exact .seqFail1 (iha hf.1)
  | seqFail2 _ _ iha ihb => simp [plainLit] at hf; exact .seqFail2 (iha hf.1) (ihb hf.2)
  | alt1 _ iha => simp [plainLit] at hf; exact .alt1 (iha hf.1)
  | alt2 _ _ iha ihb => simp [plainLit] at hf; exact .alt2 (iha hf.1) (ihb hf.2)
  | _ => simp [plainLit] at hf

/-! ## Blanks -/

theorem sc_no_trail {s st} (h : No (.call .SpaceComment) s) (hc : Closes s .code st) (hne : s ≠ []) (w : Str) :
    No (.call .SpaceComment) (s ++ w) := by
  cases s with
  | nil => exact absurd rfl hne
  | cons c s =>
    have hE : ∀ {o : Str}, (o = c!"--" ∨ o = c!"//") → ∀ {s' : Str}, Closes s' .comment st → ¬ No (.call .SpaceComment) (o ++ s') := by
      intro o ho s' hc' hno
      obtain ⟨b, e, r, rfl, hb, he, hr⟩ := comment_closes hc'
      have : ∃ r', Ok (.call .EndOfLine) (e :: r) [] r' := by
        rcases he with rfl | rfl
        · exact ⟨_, eol_nl _⟩
        · by_cases hn : ∃ v, r = '\n' :: v
          · obtain ⟨v, rfl⟩ := hn; exact ⟨_, eol_crlf _⟩
          · exact ⟨_, eol_cr fun u hu => hn ⟨u, hu⟩⟩
      obtain ⟨r', hr'⟩ := this
      have := Big.det hno (sc_comment ho hb hr')
      cases this
    have hb : c ∉ blanks := by
      intro hc
      simp [blanks] at hc
      rcases hc with rfl | rfl | rfl | rfl
      · cases Big.det h (sc_space s)
      · cases Big.det h (sc_tab s)
      · cases Big.det h (sc_nl s)
      · by_cases hn : ∃ v, s = '\n' :: v
        · obtain ⟨v, rfl⟩ := hn; cases Big.det h (sc_crlf v)
        · cases Big.det h (sc_cr fun u hu => hn ⟨u, hu⟩)
    have hcc : c ≠ ' ' ∧ c ≠ '\t' ∧ c ≠ '\n' ∧ c ≠ '\r' := by simpa [blanks] using hb
    refine .call (.alt2 (.call (.swOut (by simp [hcc]) (.swOut (by simp [hcc]) (eol_no ⟨hcc.2.2.1, hcc.2.2.2⟩)))) (.call (.seqFail1 ?_)))
    by_cases h1 : c = '-'
    · subst h1
      have hc' := Closes.step (k := []) (m' := .dash) (k' := []) (a := false) (a' := false) hc rfl
      cases s with
      | nil => exact absurd hc'.nil.1 (by decide)
      | cons d s =>
        by_cases hd : d = '-'
        · subst hd
          have hc'' := Closes.step (k := []) (m' := .comment) (k' := []) (a := false) (a' := false) hc' rfl
          exact absurd h (hE (.inl rfl) hc'')
        · exact .alt2 (.seqFail2 .chrOk (.chrFail hd)) (.seqFail1 (.chrFail (by decide)))
    by_cases h2 : c = '/'
    · subst h2
      have hc' := Closes.step (k := []) (m' := .slash) (k' := []) (a := false) (a' := false) hc rfl
      cases s with
      | nil => exact absurd hc'.nil.1 (by decide)
      | cons d s =>
        by_cases hd : d = '/'
        · subst hd
          have hc'' := Closes.step (k := []) (m' := .comment) (k' := []) (a := false) (a' := false) hc' rfl
          exact absurd h (hE (.inr rfl) hc'')
        · exact .alt2 (.seqFail1 (.chrFail (by decide))) (.seqFail2 .chrOk (.chrFail hd))
    · exact .alt2 (.seqFail1 (.chrFail h1)) (.seqFail1 (.chrFail h2))

theorem star_stop {a s ev r} (h : Big G (.star a) s (some (ev, r))) : No a r := by
  generalize hx : some (ev, r) = x at h
  generalize he : PExp.star a = e at h
  induction h generalizing ev with
  | starNil h _ => cases he; cases hx; exact h
  | starCons _ _ _ ih => cases he; cases hx; exact ih rfl rfl
  | _ => cases he

/-- Where the recogniser stands after the added blanks. -/
def Aft (w r r2 : Str) : Prop := r2 = r ++ w ∨ (r = [] ∧ r2 = [])

theorem closes_ext {e s x st} (h : Big G e s x) (ha : ana e (.code, []) = some (.code, [])) (hc : Closes s .code st) :
    ∀ ev r, x = some (ev, r) → Closes r .code st :=
  (ext [] h .code [] .code [] st ha hc).2

theorem sp_trail {w : Str} (hw : WS w) {s ev r st} (h : Big G (.call .sp) s (some (ev, r))) (hc : Closes s .code st) :
    ∃ r2, Big G (.call .sp) (s ++ w) (some (ev, r2)) ∧ (r ≠ [] → r2 = r ++ w) ∧ (r = [] → r2 = []) := by
  obtain ⟨rfl, u, rfl, hu⟩ : Post .sp s ev r := post_all h
  have hr : Closes r .code st := closes_ext h (by decide) hc _ _ rfl
  have hno : No (.call .SpaceComment) r := by cases h with | call h => exact star_stop h
  by_cases hne : r = []
  · subst hne
    refine ⟨[], ?_, by simp, by simp⟩
    simpa using sp_ok (hu.append hw) hno
  · refine ⟨r ++ w, ?_, by simp, by simp [hne]⟩
    simpa using sp_ok hu (sc_no_trail hno hr hne w)

theorem sp1_trail {w : Str} (hw : WS w) {s ev r st} (h : Big G (.call .sp1) s (some (ev, r))) (hc : Closes s .code st) :
    ∃ r2, Big G (.call .sp1) (s ++ w) (some (ev, r2)) ∧ (r ≠ [] → r2 = r ++ w) ∧ (r = [] → r2 = []) := by
  have hr : Closes r .code st := closes_ext h (by decide) hc _ _ rfl
  have hno : No (.call .SpaceComment) r := by
    cases h with | call h => cases h with | seqOk _ h2 => exact star_stop h2
  obtain ⟨rfl, u, rfl, hu, hun⟩ : Post .sp1 s ev r := post_all h
  by_cases hne : r = []
  · subst hne
    refine ⟨[], ?_, by simp, by simp⟩
    simpa using sp1_ok (hu.append hw) (by simp [hun]) hno
  · refine ⟨r ++ w, ?_, by simp, by simp [hne]⟩
    simpa using sp1_ok hu hun (sc_no_trail hno hr hne w)

theorem sp1_no_trail {w s st} (h : No (.call .sp1) s) (hc : Closes s .code st) (hne : s ≠ []) : No (.call .sp1) (s ++ w) := by
  cases h with | call h => cases h with
  | seqFail1 h => exact .call (.seqFail1 (sc_no_trail h hc hne w))
  | seqFail2 _ h => cases h

theorem string_trail {w : Str} (hw : WS w) {s x st} (h : Big G (.call .String) s x) (hc : Closes s .code st) :
    Big G (.call .String) (s ++ w) (x.map fun p => (p.1, p.2 ++ w)) := by
  cases s with
  | nil =>
    have := Big.det h (big_none_nil (by decide) (by decide))
    subst this
    cases w with
    | nil => exact h
    | cons d t =>
      have hd := (hw.head rfl).1
      have h1 : d ≠ '\'' := by rintro rfl; exact absurd hd (by decide)
      have h2 : d ≠ '"' := by rintro rfl; exact absurd hd (by decide)
      exact .call (.alt2 (.seqFail1 (.chrFail h1)) (.seqFail1 (.chrFail h2)))
  | cons c s =>
    by_cases h1 : c = '\''
    · subst h1
      have hc' := Closes.step (k := []) (m' := .sq) (k' := []) (a := false) (a' := false) hc rfl
      obtain ⟨u, r, rfl, hu, hr⟩ := sq_closes (by decide) (fun st a c => rfl) hc'
      have := Big.det h (string_sq hu r)
      subst this
      have := string_sq hu (r ++ w)
      simpa using this
    by_cases h2 : c = '"'
    · subst h2
      have hc' := Closes.step (k := []) (m' := .dq) (k' := []) (a := false) (a' := false) hc rfl
      obtain ⟨u, r, rfl, hu, hr⟩ := sq_closes (by decide) (fun st a c => rfl) hc'
      have := Big.det h (string_dq hu r)
      subst this
      have := string_dq hu (r ++ w)
      simpa using this
    have hno : ∀ u, No (.call .String) (c :: u) := fun u => .call (.alt2 (.seqFail1 (.chrFail h1)) (.seqFail1 (.chrFail h2)))
    have := Big.det h (hno s)
    subst this
    exact hno _

/-! ## All expressions -/

/-- The same result, and the end of the reading moved over the added blanks or not. -/
def Moved (w : Str) (k : Bool) : Option (List Ev × Str) → Option (List Ev × Str) → Prop
  | none, none => True
  | some (ev, r), some (ev2, r2) => ev2 = ev ∧ Aft w r r2 ∧ (k = true → r2 = r ++ w)
  | _, _ => False

theorem Moved.weaken {w k k' x y} (h : Moved w k x y) (hk : k' = true → k = true) : Moved w k' x y := by
  cases x with
  | none => cases y <;> exact h
  | some p => cases y with
    | none => exact h
    | some q => exact ⟨h.1, h.2.1, fun h' => h.2.2 (hk h')⟩

theorem Moved.some_inv {w k ev r y} (h : Moved w k (some (ev, r)) y) : ∃ r2, y = some (ev, r2) ∧ Aft w r r2 ∧ (k = true → r2 = r ++ w) := by
  cases y with
  | none => exact h.elim
  | some q => obtain ⟨e, q⟩ := q; obtain ⟨rfl, h2, h3⟩ := h; exact ⟨q, rfl, h2, h3⟩

theorem Moved.none_inv {w k y} (h : Moved w k none y) : y = none := by
  cases y with
  | none => rfl
  | some q => exact h.elim

theorem moved_self {w k : _} {ev r} (hr : r = []) (hk : k = false) : Moved w k (some (ev, r)) (some (ev, r)) :=
  ⟨rfl, .inr ⟨hr, hr⟩, by simp [hk]⟩

theorem between_trail {w : Str} (hw : WS w) {s x st} (h : Big G gBetweenOp s x) (hc : Closes s .code st) :
    ∃ y, Big G gBetweenOp (s ++ w) y ∧ Moved w true x y := by
  have fN : plainLit (ciLit c!"not") = true := by decide
  have fB : plainLit (lit c!"between") = true := by decide
  by_cases hw0 : w = []
  · subst hw0
    refine ⟨x, by simpa using h, ?_⟩
    cases x with
    | none => trivial
    | some p => exact ⟨rfl, .inl (by simp), by simp⟩
  have aN : ∀ {e1 s1}, Big G (ciLit c!"not") s (some (e1, s1)) → Closes s1 .code st := fun h => closes_ext h (by decide) hc _ _ rfl
  -- the optional part
  have hopt : ∀ {e1 r1}, Big G (.opt (seqs [ciLit c!"not", .call .sp1])) s (some (e1, r1)) →
      (r1 ≠ [] ∧ Big G (.opt (seqs [ciLit c!"not", .call .sp1])) (s ++ w) (some (e1, r1 ++ w))) ∨
      (No (lit c!"between") r1 ∧ ∃ e2, Big G (.opt (seqs [ciLit c!"not", .call .sp1])) (s ++ w) (some (e2, []))) ∨
      (r1 = s ∧ e1 = [] ∧ Big G (.opt (seqs [ciLit c!"not", .call .sp1])) (s ++ w) (some (e1, r1 ++ w))) := by
    intro e1 r1 h1
    cases h1 with
    | optSome h1 => cases h1 with | seqOk hN hS => ?_
                    have cl := aN hN
                    obtain ⟨r2, hr2, h3, h4⟩ := sp1_trail hw hS cl
                    have hN' := plainLit_trail hw hN fN
                    by_cases hr : r1 = []
                    · subst hr
                      rw [h4 rfl] at hr2
                      exact .inr (.inl ⟨.seqFail1 .chrNil, _, .optSome (.seqOk hN' hr2)⟩)
                    · rw [h3 hr] at hr2
                      exact .inl ⟨hr, .optSome (.seqOk hN' hr2)⟩
    | optNone h1 =>
      cases h1 with
      | seqFail1 hN => exact .inr (.inr ⟨rfl, rfl, .optNone (.seqFail1 (plainLit_trail hw hN fN))⟩)
      | @seqFail2 _ _ _ e0 s1 hN hS =>
        have cl := aN hN
        have hN' := plainLit_trail hw hN fN
        by_cases hs1 : s1 = []
        · subst hs1
          refine .inr (.inl ⟨?_, ?_⟩)
          · -- the text starts with `n` or `N`
            cases hN with
            | seqOk h1 _ =>
              cases h1 with
              | alt1 h => cases h; exact .seqFail1 (.chrFail (by decide))
              | alt2 _ h => cases h; exact .seqFail1 (.chrFail (by decide))
          · have := sp1_ok hw hw0 Solid.nil.no
            exact ⟨_, .optSome (.seqOk hN' (by simpa [seqs] using this))⟩
        · exact .inr (.inr ⟨rfl, rfl, .optNone (.seqFail2 hN' (sp1_no_trail hS cl hs1))⟩)
  cases h with
  | seqFail1 h => cases h
  | seqOk h1 h2 =>
    have hB := plainLit_trail hw h2 fB
    rcases hopt h1 with ⟨_, h⟩ | ⟨hno, _⟩ | ⟨rfl, rfl, h⟩
    · exact ⟨_, .seqOk h hB, rfl, .inl rfl, fun _ => rfl⟩
    · cases Big.det hno h2
    · exact ⟨_, .seqOk h hB, rfl, .inl rfl, fun _ => rfl⟩
  | seqFail2 h1 h2 =>
    have hB := plainLit_trail hw h2 fB
    rcases hopt h1 with ⟨_, h⟩ | ⟨_, e2, h⟩ | ⟨rfl, rfl, h⟩
    · exact ⟨_, .seqFail2 h hB, trivial⟩
    · exact ⟨_, .seqFail2 h (.seqFail1 .chrNil), trivial⟩
    · exact ⟨_, .seqFail2 h hB, trivial⟩

/-- Reading on where the recogniser stands after the added blanks. -/
theorem Aft.cont {w : Str} {e r1 r1' x} (h : Big G e r1 x) (ha : Aft w r1 r1') (ih : ∃ y, Big G e (r1 ++ w) y ∧ Moved w (keeps e) x y) :
    ∃ y, Big G e r1' y ∧ Moved w (r1' = r1 ++ w && keeps e) x y := by
  rcases ha with rfl | ⟨rfl, rfl⟩
  · obtain ⟨y, h1, h2⟩ := ih
    exact ⟨y, h1, h2.weaken (by simp)⟩
  · by_cases hw0 : w = []
    · subst hw0
      obtain ⟨y, h1, h2⟩ := ih
      exact ⟨y, by simpa using h1, h2.weaken (by simp)⟩
    refine ⟨x, h, ?_⟩
    cases x with
    | none => trivial
    | some p =>
      obtain ⟨ev, r⟩ := p
      have : r = [] := List.length_eq_zero_iff.mp (Nat.le_zero.mp h.length_le)
      exact moved_self this (by simp [hw0])

theorem between_code {m k x} (h : ana gBetweenOp (m, k) = some x) : m = .code := by
  cases m with
  | code => rfl
  | dash => have : ana gBetweenOp (.dash, k) = none := rfl
            rw [h] at this; cases this
  | slash => have : ana gBetweenOp (.slash, k) = none := rfl
             rw [h] at this; cases this
  | comment => have : ana gBetweenOp (.comment, k) = none := by simp [gBetweenOp, ana, ciLit, ci, seqs, scanStep]
               rw [h] at this; cases this
  | sq => have : ana gBetweenOp (.sq, k) = none := by simp [gBetweenOp, ana, ciLit, ci, seqs, scanStep]
          rw [h] at this; cases this
  | dq => have : ana gBetweenOp (.dq, k) = none := by simp [gBetweenOp, ana, ciLit, ci, seqs, scanStep]
          rw [h] at this; cases this

theorem startsGt_no {b : PExp} {t : Str} (h : startsGt b = true) : Big G b ('-' :: t) none := by
  unfold startsGt at h
  split at h
  · exact .seqFail1 (.chrFail (by decide))
  · cases h

/-- What `trailOk` says about the parts of a sequence. -/
def TrailSeq (a b : PExp) : Prop :=
  (if a = .call .sp1 then !nullable nulG b && ranked nulG rankG 16 16 b && trailOk b
       else if a = .chr '-' then startsGt b && trailOk b else trailOk a && trailOk b) = true

theorem seq_second {a b : PExp} (h : TrailSeq a b) : trailOk b = true := by
  unfold TrailSeq at h
  split at h
  · simp only [Bool.and_eq_true] at h; exact h.2
  · split at h <;> (simp only [Bool.and_eq_true] at h; exact h.2)

theorem seq_first {w : Str} (hw : WS w) {a b : PExp} {s e1 r1 m k m1 k1 st} (ha1 : Big G a s (some (e1, r1)))
    (h1 : ana a (m, k) = some (m1, k1)) (hc : Closes s m (k ++ st)) (h : TrailSeq a b)
    (ih : trailOk a = true → ∃ y, Big G a (s ++ w) y ∧ Moved w (keeps a) (some (e1, r1)) y) :
    ∃ y, Big G a (s ++ w) y ∧ Moved w (keeps a) (some (e1, r1)) y := by
  unfold TrailSeq at h
  split at h
  · rename_i hsp
    subst hsp
    have : m = .code := by simp only [ana] at h1; split at h1 <;> simp_all
    subst this
    obtain ⟨r2, h1, h2, h3⟩ := sp1_trail hw ha1 hc
    refine ⟨_, h1, rfl, ?_, by simp [keeps]⟩
    by_cases hr : r1 = []
    · exact .inr ⟨hr, h3 hr⟩
    · exact .inl (h2 hr)
  · split at h
    · rename_i hd
      subst hd
      cases ha1
      exact ⟨_, .chrOk, rfl, .inl rfl, fun _ => rfl⟩
    · simp only [Bool.and_eq_true] at h
      exact ih h.1

/-- The theorem: reading a closed text followed by blanks. -/
theorem trail {w : Str} (hw : WS w) {e s x} (h : Big G e s x) : ∀ m k m' k' st, ana e (m, k) = some (m', k') → Closes s m (k ++ st) →
    trailOk e = true → ∃ y, Big G e (s ++ w) y ∧ Moved w (keeps e) x y := by
  have whd : ∀ {c t}, w = c :: t → c ∈ wsHeads := fun h => (hw.head h).1
  induction h with
  | eps => intro m k m' k' st ha hc ht; exact ⟨_, .eps, rfl, .inl rfl, fun _ => rfl⟩
  | anyOk => intro m k m' k' st ha hc ht; simp [trailOk] at ht
  | anyFail => intro m k m' k' st ha hc ht; simp [trailOk] at ht
  | chrOk => intro m k m' k' st ha hc ht; exact ⟨_, .chrOk, rfl, .inl rfl, fun _ => rfl⟩
  | @chrNil c =>
    intro m k m' k' st ha hc ht
    refine ⟨none, ?_, trivial⟩
    cases hww : w with
    | nil => exact .chrNil
    | cons d t =>
      refine .chrFail ?_
      rintro rfl
      simp [trailOk, whd hww] at ht
  | chrFail hne => intro m k m' k' st ha hc ht; exact ⟨_, .chrFail hne, trivial⟩
  | rngOk h1 h2 => intro m k m' k' st ha hc ht; exact ⟨_, .rngOk h1 h2, rfl, .inl rfl, fun _ => rfl⟩
  | @rngNil lo hi =>
    intro m k m' k' st ha hc ht
    refine ⟨none, ?_, trivial⟩
    cases hww : w with
    | nil => exact .rngNil
    | cons d t =>
      refine .rngFail ?_
      rintro ⟨h1, h2⟩
      simp only [trailOk, List.all_eq_true] at ht
      have := ht d (whd hww)
      simp [h1, h2] at this
  | rngFail hne => intro m k m' k' st ha hc ht; exact ⟨_, .rngFail hne, trivial⟩
  | @seqOk a b s e1 r1 e2 r2 ha1 hb1 iha ihb =>
    intro m k m' k' st ha hc ht
    simp only [ana, Option.bind_eq_some_iff] at ha
    obtain ⟨⟨m1, k1⟩, h1, h2⟩ := ha
    have hc1 := (ext [] ha1 _ _ _ _ st h1 hc).2 _ _ rfl
    have finish : (∃ y, Big G a (s ++ w) y ∧ Moved w (keeps a) (some (e1, r1)) y) →
        (∃ y, Big G b (r1 ++ w) y ∧ Moved w (keeps b) (some (e2, r2)) y) →
        ∃ y, Big G (.seq a b) (s ++ w) y ∧ Moved w (keeps (.seq a b)) (some (e1 ++ e2, r2)) y := by
      rintro ⟨y, hy, hmy⟩ hb'
      obtain ⟨r1', rfl, haft, hk⟩ := hmy.some_inv
      obtain ⟨z, hz, hmz⟩ := haft.cont hb1 hb'
      obtain ⟨r2', rfl, haft2, hk2⟩ := hmz.some_inv
      refine ⟨_, .seqOk hy hz, rfl, haft2, ?_⟩
      intro hkeep
      simp only [keeps, Bool.and_eq_true, Bool.or_eq_true, Bool.not_eq_true'] at hkeep
      refine hk2 ?_
      simp only [hkeep.1, Bool.and_true, decide_eq_true_eq]
      rcases hkeep.2 with hka | ⟨hn, hr⟩
      · exact hk hka
      · rcases haft with h | ⟨rfl, _⟩
        · exact h
        · cases Big.det hb1 (big_none_nil hr hn)
    simp only [trailOk, Bool.or_eq_true, beq_iff_eq] at ht
    rcases ht with ht | ht
    · have hb := Big.seqOk ha1 hb1
      have hana : ana (.seq a b) (m, k) = some (m', k') := by simp only [ana, h1, Option.bind_some]; exact h2
      rw [ht] at hb hana ⊢
      have := between_code hana
      subst this
      exact between_trail hw hb hc
    · have hok := seq_first hw ha1 h1 hc ht (iha _ _ _ _ st h1 hc)
      exact finish hok (ihb _ _ _ _ st h2 hc1 (seq_second ht))
  | @seqFail1 a b s ha1 iha =>
    intro m k m' k' st ha hc ht
    have hana := ha
    simp only [ana, Option.bind_eq_some_iff] at ha
    obtain ⟨⟨m1, k1⟩, h1, h2⟩ := ha
    simp only [trailOk, Bool.or_eq_true, beq_iff_eq] at ht
    refine ⟨none, ?_, trivial⟩
    rcases ht with ht | ht
    · have hb : Big G (.seq a b) s none := Big.seqFail1 ha1
      rw [ht] at hb hana ⊢
      have := between_code hana
      subst this
      obtain ⟨y, hy, hm⟩ := between_trail hw hb hc
      rw [hm.none_inv] at hy
      exact hy
    · split at ht
      · rename_i hsp
        subst hsp
        simp only [Bool.and_eq_true, Bool.not_eq_true'] at ht
        have : m = .code := by simp only [ana] at h1; split at h1 <;> simp_all
        subst this
        by_cases hs : s = []
        · subst hs
          by_cases hw0 : w = []
          · subst hw0; exact .seqFail1 ha1
          have := sp1_ok hw hw0 Solid.nil.no
          rw [List.append_nil] at this
          exact .seqFail2 this (big_none_nil ht.1.2 ht.1.1)
        · exact .seqFail1 (sp1_no_trail ha1 hc hs)
      · split at ht
        · rename_i hd
          subst hd
          cases ha1 with
          | chrFail hne => exact .seqFail1 (.chrFail hne)
          | chrNil =>
            cases hww : w with
            | nil => exact .seqFail1 .chrNil
            | cons d t =>
              by_cases hd : d = '-'
              · subst hd
                obtain ⟨t', rfl⟩ := (hw.head hww).2.1 rfl
                refine .seqFail2 .chrOk ?_
                simp only [Bool.and_eq_true] at ht
                exact startsGt_no ht.1
              · exact .seqFail1 (.chrFail hd)
        · simp only [Bool.and_eq_true] at ht
          obtain ⟨y, hy, hm⟩ := iha _ _ _ _ st h1 hc ht.1
          rw [hm.none_inv] at hy
          exact .seqFail1 hy
  | @seqFail2 a b s e1 r1 ha1 hb1 iha ihb =>
    intro m k m' k' st ha hc ht
    have hana := ha
    simp only [ana, Option.bind_eq_some_iff] at ha
    obtain ⟨⟨m1, k1⟩, h1, h2⟩ := ha
    have hc1 := (ext [] ha1 _ _ _ _ st h1 hc).2 _ _ rfl
    simp only [trailOk, Bool.or_eq_true, beq_iff_eq] at ht
    refine ⟨none, ?_, trivial⟩
    rcases ht with ht | ht
    · have hb : Big G (.seq a b) s none := Big.seqFail2 ha1 hb1
      rw [ht] at hb hana ⊢
      have := between_code hana
      subst this
      obtain ⟨y, hy, hm⟩ := between_trail hw hb hc
      rw [hm.none_inv] at hy
      exact hy
    · obtain ⟨y, hy, hmy⟩ := seq_first hw ha1 h1 hc ht (iha _ _ _ _ st h1 hc)
      obtain ⟨r1', rfl, haft, _⟩ := hmy.some_inv
      obtain ⟨z, hz, hmz⟩ := haft.cont hb1 (ihb _ _ _ _ st h2 hc1 (seq_second ht))
      rw [hmz.none_inv] at hz
      exact .seqFail2 hy hz
  | @alt1 a b s x ha1 iha =>
    intro m k m' k' st ha hc ht
    simp only [ana] at ha
    split at ha
    · simp only [trailOk, Bool.and_eq_true] at ht
      obtain ⟨y, hy, hm⟩ := iha _ _ _ _ st ha hc ht.1
      obtain ⟨ev, r⟩ := x
      obtain ⟨r2, rfl, h1, h2⟩ := hm.some_inv
      exact ⟨_, .alt1 hy, rfl, h1, fun hk => h2 (by simp only [keeps, Bool.and_eq_true] at hk; exact hk.1)⟩
    · simp at ha
  | alt2 _ _ iha ihb =>
    intro m k m' k' st ha hc ht
    simp only [ana] at ha
    split at ha
    · rename_i heq
      simp only [trailOk, Bool.and_eq_true] at ht
      obtain ⟨y, hy, hm⟩ := iha _ _ _ _ st ha hc ht.1
      rw [hm.none_inv] at hy
      obtain ⟨z, hz, hmz⟩ := ihb _ _ _ _ st (heq ▸ ha) hc ht.2
      exact ⟨z, .alt2 hy hz, hmz.weaken (by simp only [keeps, Bool.and_eq_true]; exact And.right)⟩
    · simp at ha
  | starNil _ iha =>
    intro m k m' k' st ha hc ht
    simp only [ana] at ha
    split at ha
    · rename_i heq
      obtain ⟨y, hy, hm⟩ := iha _ _ _ _ st heq hc ht
      rw [hm.none_inv] at hy
      exact ⟨_, .starNil hy, rfl, .inl rfl, fun _ => rfl⟩
    · simp at ha
  | @starCons a s e1 r1 e2 r2 ha1 hb1 iha ihb =>
    intro m k m' k' st ha hc ht
    have ha0 := ha
    simp only [ana] at ha
    split at ha
    · rename_i heq
      obtain ⟨y, hy, hm⟩ := iha _ _ _ _ st heq hc ht
      have hc1 := (ext [] ha1 _ _ _ _ st heq hc).2 _ _ rfl
      obtain ⟨r1', rfl, haft, hk⟩ := hm.some_inv
      obtain ⟨z, hz, hmz⟩ := haft.cont hb1 (ihb _ _ _ _ st ha0 hc1 ht)
      obtain ⟨r2', rfl, haft2, hk2⟩ := hmz.some_inv
      refine ⟨_, .starCons hy hz, rfl, haft2, ?_⟩
      intro hkeep
      have : keeps a = true := hkeep
      exact hk2 (by simp [keeps, hk this, this])
    · simp at ha
  | @optSome a s x _ iha =>
    intro m k m' k' st ha hc ht
    simp only [ana] at ha
    split at ha
    · rename_i heq
      obtain ⟨y, hy, hm⟩ := iha _ _ _ _ st heq hc ht
      obtain ⟨ev, r⟩ := x
      obtain ⟨r2, rfl, h1, h2⟩ := hm.some_inv
      exact ⟨_, .optSome hy, rfl, h1, h2⟩
    · simp at ha
  | optNone _ iha =>
    intro m k m' k' st ha hc ht
    simp only [ana] at ha
    split at ha
    · rename_i heq
      obtain ⟨y, hy, hm⟩ := iha _ _ _ _ st heq hc ht
      rw [hm.none_inv] at hy
      exact ⟨_, .optNone hy, rfl, .inl rfl, fun _ => rfl⟩
    · simp at ha
  | @notFail a s x _ iha =>
    intro m k m' k' st ha hc ht
    simp only [ana] at ha
    split at ha
    · rename_i heq
      obtain ⟨⟨m1, k1⟩, h1⟩ := Option.isSome_iff_exists.mp heq
      obtain ⟨y, hy, hm⟩ := iha _ _ _ _ st h1 hc ht
      obtain ⟨ev, r⟩ := x
      obtain ⟨r2, rfl, _, _⟩ := hm.some_inv
      exact ⟨_, .notFail hy, trivial⟩
    · simp at ha
  | notOk _ iha =>
    intro m k m' k' st ha hc ht
    simp only [ana] at ha
    split at ha
    · rename_i heq
      obtain ⟨⟨m1, k1⟩, h1⟩ := Option.isSome_iff_exists.mp heq
      obtain ⟨y, hy, hm⟩ := iha _ _ _ _ st h1 hc ht
      rw [hm.none_inv] at hy
      exact ⟨_, .notOk hy, rfl, .inl rfl, fun _ => rfl⟩
    · simp at ha
  | @call r s x hb ih =>
    intro m k m' k' st ha hc ht
    simp only [ana] at ha
    split at ha
    · rename_i hm
      simp at ha
      obtain ⟨rfl, rfl⟩ := ha
      obtain ⟨hcode, hg, he⟩ := hm
      change m = .code at hcode
      subst hcode
      by_cases hsp : r = .sp
      · subst hsp
        cases x with
        | none => cases hb
        | some p =>
          obtain ⟨ev, r⟩ := p
          obtain ⟨r2, h1, h2, h3⟩ := sp_trail hw (.call hb) hc
          refine ⟨_, h1, rfl, ?_, by simp [keeps]⟩
          by_cases hr : r = []
          · exact .inr ⟨hr, h3 hr⟩
          · exact .inl (h2 hr)
      by_cases hs : r = .String
      · subst hs
        refine ⟨_, string_trail hw (.call hb) hc, ?_⟩
        cases x with
        | none => trivial
        | some p => exact ⟨rfl, .inl rfl, fun _ => rfl⟩
      have hcm : r ≠ .Comment := by rintro rfl; simp [trailOk] at ht
      obtain ⟨y, hy, hm⟩ := ih .code [] .code [] (k ++ st) (ana_ok r hg he hs hcm) hc (trailOk_rules r ht hsp hs)
      exact ⟨y, .call hy, hm.weaken (by simp [keeps])⟩
    · simp at ha
  | @txtOk a s e r hb ih =>
    intro m k m' k' st ha hc ht
    simp only [trailOk, Bool.and_eq_true] at ht
    obtain ⟨y, hy, hm⟩ := ih _ _ _ _ st ha hc ht.1
    obtain ⟨r2, rfl, _, h2⟩ := hm.some_inv
    have := h2 ht.2
    subst this
    have := Big.txtOk hy
    rw [txt_ext hb.length_le] at this
    exact ⟨_, this, rfl, .inl rfl, fun _ => rfl⟩
  | txtFail _ ih =>
    intro m k m' k' st ha hc ht
    simp only [trailOk, Bool.and_eq_true] at ht
    obtain ⟨y, hy, hm⟩ := ih _ _ _ _ st ha hc ht.1
    rw [hm.none_inv] at hy
    exact ⟨_, .txtFail hy, trivial⟩
  | act => intro m k m' k' st ha hc ht; exact ⟨_, .act, rfl, .inl rfl, fun _ => rfl⟩
  | swIn hin _ ih =>
    intro m k m' k' st ha hc ht
    simp only [ana] at ha
    split at ha
    · simp only [trailOk, Bool.and_eq_true] at ht
      obtain ⟨y, hy, hm⟩ := ih _ _ _ _ st ha hc ht.1.2
      exact ⟨y, .swIn hin hy, hm.weaken (by simp only [keeps, Bool.and_eq_true]; exact And.left)⟩
    · simp at ha
  | swOut hin _ ih =>
    intro m k m' k' st ha hc ht
    simp only [ana] at ha
    split at ha
    · rename_i heq
      simp only [trailOk, Bool.and_eq_true] at ht
      obtain ⟨y, hy, hm⟩ := ih _ _ _ _ st (heq.2 ▸ ha) hc ht.2
      exact ⟨y, .swOut hin hy, hm.weaken (by simp only [keeps, Bool.and_eq_true]; exact And.right)⟩
    · simp at ha
  | @swNil cs a b x _ ih =>
    intro m k m' k' st ha hc ht
    simp only [ana] at ha
    split at ha
    · rename_i heq
      simp only [trailOk, Bool.and_eq_true] at ht
      obtain ⟨y, hy, hm⟩ := ih _ _ _ _ st (heq.2 ▸ ha) hc ht.2
      refine ⟨y, ?_, hm.weaken (by simp only [keeps, Bool.and_eq_true]; exact And.right)⟩
      cases hww : w with
      | nil => rw [hww] at hy; exact .swNil hy
      | cons d t =>
        rw [hww] at hy
        refine .swOut ?_ hy
        intro hin
        have := ht.1.1
        simp only [List.all_eq_true] at this
        have := this d (whd hww)
        simp [hin] at this
    · simp at ha

/-! ## The whole query -/

theorem grammar_trail {w : Str} (hw : WS w) {s a x} (h : Big G (.call .Grammar) s x) (hb : Balanced s a) : Big G (.call .Grammar) (s ++ w) x := by
  have hc : Closes s .code [] := ⟨_, _, hb⟩
  cases h with | call h => ?_
  have eof : ∀ {r : Str} {y}, Big G (.call .EndOfFile) r y → r ≠ [] → Big G (.call .EndOfFile) (r ++ w) none ∧ y = none := by
    intro r y hy hr
    cases r with
    | nil => exact absurd rfl hr
    | cons c r =>
      have : Big G (.call .EndOfFile) (c :: r) none := .call (.notFail .anyOk)
      exact ⟨.call (.notFail .anyOk), Big.det hy this⟩
  -- `_` and the end of the input
  have tail : ∀ {r r' y}, Big G (.seq (.call .sp) (.call .EndOfFile)) r y → Closes r .code [] → Aft w r r' →
      Big G (.seq (.call .sp) (.call .EndOfFile)) r' y := by
    intro r r' y hy hcr haft
    rcases haft with rfl | ⟨rfl, rfl⟩
    · cases hy with
      | seqFail1 h => cases h with | call h => cases h
      | @seqOk _ _ _ e1 r1 e2 r2 h1 h2 =>
        obtain ⟨r3, h3, h4, h5⟩ := sp_trail hw h1 hcr
        by_cases hr : r1 = []
        · rw [h5 hr] at h3; rw [hr] at h2; exact .seqOk h3 h2
        · cases (eof h2 hr).2
      | @seqFail2 _ _ _ e1 r1 h1 h2 =>
        obtain ⟨r3, h3, h4, h5⟩ := sp_trail hw h1 hcr
        by_cases hr : r1 = []
        · rw [h5 hr] at h3; rw [hr] at h2; exact .seqFail2 h3 h2
        · rw [h4 hr] at h3; exact .seqFail2 h3 (eof h2 hr).1
    · exact hy
  have aft : ∀ {r r1}, Aft w r r1 → ∀ {e y}, Big G e r y → ana e (.code, []) = some (.code, []) → trailOk e = true → Closes r .code [] →
      ∃ z, Big G e r1 z ∧ Moved w false y z := by
    intro r r1 haft e y hy ha ht hcr
    obtain ⟨z, hz, hm⟩ := haft.cont hy (trail hw hy .code [] .code [] [] ha hcr ht)
    exact ⟨z, hz, hm.weaken (by simp)⟩
  cases h with
  | seqFail1 h1 => cases h1 with | call h1 => cases h1
  | seqOk h1 h2 =>
    obtain ⟨z, hz, hm⟩ := aft (.inl rfl) h1 (by decide) (by decide) hc
    obtain ⟨r1', rfl, haft, _⟩ := hm.some_inv
    have hc1 := closes_ext h1 (by decide) hc _ _ rfl
    cases h2 with | seqOk h2 h3 => ?_
    obtain ⟨z, hz2, hm⟩ := aft haft h2 (by decide) (by decide) hc1
    obtain ⟨r2', rfl, haft2, _⟩ := hm.some_inv
    have hc2 := closes_ext h2 (by decide) hc1 _ _ rfl
    exact .call (.seqOk hz (.seqOk hz2 (tail h3 hc2 haft2)))
  | seqFail2 h1 h2 =>
    obtain ⟨z, hz, hm⟩ := aft (.inl rfl) h1 (by decide) (by decide) hc
    obtain ⟨r1', rfl, haft, _⟩ := hm.some_inv
    have hc1 := closes_ext h1 (by decide) hc _ _ rfl
    cases h2 with
    | seqFail1 h2 =>
      obtain ⟨z, hz2, hm⟩ := aft haft h2 (by decide) (by decide) hc1
      rw [hm.none_inv] at hz2
      exact .call (.seqFail2 hz (.seqFail1 hz2))
    | seqFail2 h2 h3 =>
      obtain ⟨z, hz2, hm⟩ := aft haft h2 (by decide) (by decide) hc1
      obtain ⟨r2', rfl, haft2, _⟩ := hm.some_inv
      have hc2 := closes_ext h2 (by decide) hc1 _ _ rfl
      exact .call (.seqFail2 hz (.seqFail2 hz2 (tail h3 hc2 haft2)))

end Verif
