import Verif.Fwd

/-!
# A closing parenthesis after a balanced text does not influence how the text is read

Static analysis `ana` of the lexical mode and the open brackets at every point of every rule; then, by induction on
derivations, a derivation on a text that closes all its brackets is also a derivation on that text followed by `)…`.
-/

namespace Verif

/-- Lexical mode and relative bracket stack after an expression. -/
def ana : PExp → Mode × Str → Option (Mode × Str)
  | .eps, x => some x
  | .any, _ => none
  | .chr c, (m, k) => (scanStep (m, k, false) c).map fun y => (y.1, y.2.1)
  | .rng lo hi, (m, k) => if m = .code ∧ (lo, hi) ∈ [('0', '9'), ('1', '9'), ('a', 'z'), ('A', 'Z')] then some (m, k) else none
  | .seq a b, x => (ana a x).bind (ana b)
  | .alt a b, x => if ana a x = ana b x then ana a x else none
  | .star a, x => if ana a x = some x then some x else none
  | .opt a, x => if ana a x = some x then some x else none
  | .notP a, x => if (ana a x).isSome then some x else none
  | .call r, x => if x.1 = .code ∧ r ≠ .Grammar ∧ r ≠ .EndOfFile then some x else none
  | .txt a, x => ana a x
  | .act _, x => some x
  | .sw cs a b, x => if ')' ∉ cs ∧ ana a x = ana b x then ana a x else none

theorem ana_ok : ∀ r, r ≠ .Grammar → r ≠ .EndOfFile → r ≠ .String → r ≠ .Comment → ana (G r) (.code, []) = some (.code, []) := by
  intro r; cases r <;> decide

/-- The analysis is independent of the brackets below. -/
theorem scanStep_frame {m k a c m' k' a'} (st : Str) (h : scanStep (m, k, a) c = some (m', k', a')) (b : Bool) :
    ∃ b', scanStep (m, k ++ st, b) c = some (m', k' ++ st, b') := by
  cases m with
  | code =>
    by_cases h1 : c = '\''
    · subst h1; cases h; exact ⟨_, rfl⟩
    by_cases h2 : c = '"'
    · subst h2; cases h; exact ⟨_, rfl⟩
    by_cases h3 : c = '-'
    · subst h3; cases h; exact ⟨_, rfl⟩
    by_cases h4 : c = '/'
    · subst h4; cases h; exact ⟨_, rfl⟩
    by_cases h5 : c = '(' ∨ c = '['
    · rcases h5 with rfl | rfl <;> cases h <;> exact ⟨_, rfl⟩
    by_cases h6 : c = ')'
    · subst h6
      simp [scanStep] at h
      split at h
      · cases h; exact ⟨_, rfl⟩
      · cases h
    by_cases h7 : c = ']'
    · subst h7
      simp [scanStep] at h
      split at h
      · cases h; exact ⟨_, rfl⟩
      · cases h
    simp only [scanStep, if_neg h1, if_neg h2, if_neg h3, if_neg h4, if_neg h5, if_neg h6, if_neg h7] at h ⊢
    cases h; exact ⟨_, rfl⟩
  | dash =>
    simp only [scanStep] at h ⊢
    by_cases h1 : c = '-'
    · rw [if_pos h1] at h ⊢; cases h; exact ⟨_, rfl⟩
    by_cases h2 : c = '>'
    · rw [if_neg h1, if_pos h2] at h ⊢; cases h; exact ⟨_, rfl⟩
    rw [if_neg h1, if_neg h2] at h; cases h
  | slash =>
    simp only [scanStep] at h ⊢
    by_cases h1 : c = '/'
    · rw [if_pos h1] at h ⊢; cases h; exact ⟨_, rfl⟩
    rw [if_neg h1] at h; cases h
  | comment =>
    simp only [scanStep] at h ⊢
    by_cases h1 : c = '\n' ∨ c = '\r'
    · rw [if_pos h1] at h ⊢; cases h; exact ⟨_, rfl⟩
    rw [if_neg h1] at h ⊢; cases h; exact ⟨_, rfl⟩
  | sq =>
    simp only [scanStep] at h ⊢
    by_cases h1 : c = '\''
    · rw [if_pos h1] at h ⊢; cases h; exact ⟨_, rfl⟩
    rw [if_neg h1] at h ⊢; cases h; exact ⟨_, rfl⟩
  | dq =>
    simp only [scanStep] at h ⊢
    by_cases h1 : c = '"'
    · rw [if_pos h1] at h ⊢; cases h; exact ⟨_, rfl⟩
    rw [if_neg h1] at h ⊢; cases h; exact ⟨_, rfl⟩

/-- The rest of the text closes everything. -/
def Closes (s : Str) (m : Mode) (st : Str) : Prop := ∃ a b, scan s (m, st, a) = some (.code, [], b)

theorem Closes.nil {m st} (h : Closes [] m st) : m = .code ∧ st = [] := by
  obtain ⟨a, b, h⟩ := h
  simp [scan] at h
  exact ⟨h.1, h.2.1⟩

theorem Closes.step {c s m k st m' k' a a'} (h : Closes (c :: s) m (k ++ st)) (hs : scanStep (m, k, a) c = some (m', k', a')) :
    Closes s m' (k' ++ st) := by
  obtain ⟨x, y, h⟩ := h
  obtain ⟨b', hb⟩ := scanStep_frame st hs x
  simp only [scan, hb] at h
  exact ⟨_, _, h⟩

theorem Closes.plain {c s st} (h : Closes (c :: s) .code st) (hc : Plain c) : Closes s .code st := by
  have : scanStep (.code, ([] : Str), false) c = some (.code, [], false) := by
    have := hc
    unfold Plain at this
    simp_all [scanStep]
  exact Closes.step (k := []) h this

theorem sq_closes {q : Char} {m : Mode} (hm : m ≠ .code) (hstep : ∀ st a c, scanStep (m, st, a) c = if c = q then some (.code, st, a) else some (m, st, a))
    {s st} (h : Closes s m st) : ∃ u r, s = u ++ q :: r ∧ q ∉ u ∧ Closes r .code st := by
  induction s with
  | nil => exact absurd h.nil.1 hm
  | cons c s ih =>
    obtain ⟨a, b, h⟩ := h
    simp only [scan, hstep] at h
    by_cases hc : c = q
    · subst hc
      simp at h
      exact ⟨[], s, rfl, by simp, a, b, h⟩
    · rw [if_neg hc] at h
      obtain ⟨u, r, rfl, hu, hr⟩ := ih ⟨a, b, h⟩
      refine ⟨c :: u, r, rfl, ?_, hr⟩
      simp [hu, Ne.symm hc]

theorem comment_closes {s st} (h : Closes s .comment st) :
    ∃ b e r, s = b ++ e :: r ∧ (∀ c ∈ b, c ≠ '\n' ∧ c ≠ '\r') ∧ (e = '\n' ∨ e = '\r') ∧ Closes r .code st := by
  induction s with
  | nil => exact absurd h.nil.1 (by decide)
  | cons c s ih =>
    obtain ⟨a, b, h⟩ := h
    simp only [scan, scanStep] at h
    by_cases hc : c = '\n' ∨ c = '\r'
    · rw [if_pos hc] at h
      exact ⟨[], c, s, rfl, by simp, hc, a, b, h⟩
    · rw [if_neg hc] at h
      obtain ⟨u, e, r, rfl, hu, he, hr⟩ := ih ⟨a, b, h⟩
      refine ⟨c :: u, e, r, rfl, ?_, he, hr⟩
      intro d hd
      rcases List.mem_cons.mp hd with rfl | hd
      · exact not_or.mp hc
      · exact hu d hd

/-- The conclusion of the extension theorem for one derivation. -/
def Extends (e : PExp) (s : Str) (x : Option (List Ev × Str)) (t : Str) (m' : Mode) (st' : Str) : Prop :=
  Big G e (s ++ ')' :: t) (x.map fun p => (p.1, p.2 ++ ')' :: t)) ∧ ∀ ev r, x = some (ev, r) → Closes r m' st'

theorem ext_string {s x} (t : Str) (h : Big G (.call .String) s x) {st} (hc : Closes s .code st) :
    Extends (.call .String) s x t .code st := by
  cases s with
  | nil =>
    have := Big.det h (big_none_nil (by decide) (by decide))
    subst this
    exact ⟨big_none_cons (by decide) (by decide) (by decide), by simp⟩
  | cons c s =>
    by_cases h1 : c = '\''
    · subst h1
      have hc' := Closes.step (k := []) (m' := .sq) (k' := []) (a := false) (a' := false) hc rfl
      obtain ⟨u, r, rfl, hu, hr⟩ := sq_closes (by decide) (fun st a c => rfl) hc'
      have := Big.det h (string_sq hu r)
      subst this
      refine ⟨?_, by rintro ev r' ⟨⟩; exact hr⟩
      have := string_sq hu (r ++ ')' :: t)
      simpa using this
    by_cases h2 : c = '"'
    · subst h2
      have hc' := Closes.step (k := []) (m' := .dq) (k' := []) (a := false) (a' := false) hc rfl
      obtain ⟨u, r, rfl, hu, hr⟩ := sq_closes (by decide) (fun st a c => rfl) hc'
      have := Big.det h (string_dq hu r)
      subst this
      refine ⟨?_, by rintro ev r' ⟨⟩; exact hr⟩
      have := string_dq hu (r ++ ')' :: t)
      simpa using this
    have hno : ∀ u, No (.call .String) (c :: u) := fun u => .call (.alt2 (.seqFail1 (.chrFail h1)) (.seqFail1 (.chrFail h2)))
    have := Big.det h (hno s)
    subst this
    exact ⟨hno _, by simp⟩

theorem ext_comment_body {o s st x} (t : Str) (ho : o = c!"--" ∨ o = c!"//") (h : Big G (.call .Comment) (o ++ s) x)
    (hc : Closes s .comment st) : Extends (.call .Comment) (o ++ s) x t .code st := by
  obtain ⟨b, e, r, rfl, hb, he, hr⟩ := comment_closes hc
  have key : ∀ r', (∀ v, Ok (.call .EndOfLine) (e :: (r ++ v)) [] (r' ++ v) ∨ ¬ ∃ w, v = ')' :: w ∨ v = []) → Closes r' .code st →
      Extends (.call .Comment) (o ++ (b ++ e :: r)) x t .code st := by
    intro r' hok hcl
    have h1 : Ok (.call .EndOfLine) (e :: r) [] r' := by
      rcases hok [] with h | h
      · simpa using h
      · exact absurd ⟨[], .inr rfl⟩ h
    have h2 : Ok (.call .EndOfLine) (e :: (r ++ ')' :: t)) [] (r' ++ ')' :: t) := by
      rcases hok (')' :: t) with h | h
      · exact h
      · exact absurd ⟨t, .inl rfl⟩ h
    have := Big.det h (comment_ok ho hb h1)
    subst this
    refine ⟨?_, by rintro ev r' ⟨⟩; exact hcl⟩
    have := comment_ok ho hb h2
    simpa using this
  rcases he with rfl | rfl
  · exact key r (fun v => .inl (eol_nl _)) hr
  · by_cases hn : ∃ v, r = '\n' :: v
    · obtain ⟨v, rfl⟩ := hn
      exact key v (fun v => .inl (eol_crlf _)) (hr.plain (by decide))
    · refine key r (fun v => ?_) hr
      by_cases hv : ∃ w, v = ')' :: w ∨ v = []
      · left
        refine eol_cr ?_
        intro u hu
        cases r with
        | nil => obtain ⟨w, rfl | rfl⟩ := hv <;> simp at hu
        | cons d r => simp at hu; exact hn ⟨r, by rw [hu.1]⟩
      · exact .inr hv

theorem ext_comment {s x} (t : Str) (h : Big G (.call .Comment) s x) {st} (hc : Closes s .code st) :
    Extends (.call .Comment) s x t .code st := by
  have fail : (∀ v, (∃ w, v = ')' :: w) ∨ v = [] → No (.call .Comment) (s ++ v)) → Extends (.call .Comment) s x t .code st := by
    intro hno
    have h0 := hno [] (.inr rfl)
    rw [List.append_nil] at h0
    have := Big.det h h0
    subst this
    exact ⟨hno _ (.inl ⟨t, rfl⟩), by simp⟩
  cases s with
  | nil =>
    refine fail ?_
    rintro v (⟨w, rfl⟩ | rfl)
    · exact big_none_cons (by decide) (by decide) (by decide)
    · exact big_none_nil (by decide) (by decide)
  | cons c s =>
    by_cases h1 : c = '-'
    · subst h1
      have hc' := Closes.step (k := []) (m' := .dash) (k' := []) (a := false) (a' := false) hc rfl
      cases s with
      | nil => exact absurd hc'.nil.1 (by decide)
      | cons d s =>
        by_cases hd : d = '-'
        · subst hd
          have hc'' := Closes.step (k := []) (m' := .comment) (k' := []) (a := false) (a' := false) hc' rfl
          exact ext_comment_body t (.inl rfl) h hc''
        · refine fail fun v _ => .call (.seqFail1 (.alt2 (.seqFail2 .chrOk (.chrFail hd)) (.seqFail1 (.chrFail (by decide)))))
    by_cases h2 : c = '/'
    · subst h2
      have hc' := Closes.step (k := []) (m' := .slash) (k' := []) (a := false) (a' := false) hc rfl
      cases s with
      | nil => exact absurd hc'.nil.1 (by decide)
      | cons d s =>
        by_cases hd : d = '/'
        · subst hd
          have hc'' := Closes.step (k := []) (m' := .comment) (k' := []) (a := false) (a' := false) hc' rfl
          exact ext_comment_body t (.inr rfl) h hc''
        · refine fail fun v _ => .call (.seqFail1 (.alt2 (.seqFail1 (.chrFail (by decide))) (.seqFail2 .chrOk (.chrFail hd))))
    · exact fail fun v _ => .call (.seqFail1 (.alt2 (.seqFail1 (.chrFail h1)) (.seqFail1 (.chrFail h2))))

theorem txt_ext {s r v : Str} (h : r.length ≤ s.length) :
    (s ++ v).take ((s ++ v).length - (r ++ v).length) = s.take (s.length - r.length) := by
  have : (s ++ v).length - (r ++ v).length = s.length - r.length := by simp only [List.length_append]; omega
  rw [this, List.take_append_of_le_length (by omega)]

theorem rng_plain {lo hi c : Char} (h : (lo, hi) ∈ [('0', '9'), ('1', '9'), ('a', 'z'), ('A', 'Z')]) (h1 : lo.toNat ≤ c.toNat)
    (h2 : c.toNat ≤ hi.toNat) : Plain c ∧ ¬ (lo.toNat ≤ ')'.toNat ∧ ')'.toNat ≤ hi.toNat) := by
  simp at h
  rcases h with ⟨rfl, rfl⟩ | ⟨rfl, rfl⟩ | ⟨rfl, rfl⟩ | ⟨rfl, rfl⟩
  · exact ⟨digit_plain ((isDigit_iff c).mpr ⟨h1, h2⟩), by decide⟩
  · exact ⟨digit_plain ((isDigit_iff c).mpr ⟨Nat.le_trans (by decide) h1, h2⟩), by decide⟩
  · exact ⟨letter_plain (.inl ⟨h1, h2⟩), by decide⟩
  · exact ⟨letter_plain (.inr ⟨h1, h2⟩), by decide⟩

/-- The extension theorem. -/
theorem ext (t : Str) {e s x} (h : Big G e s x) : ∀ m k m' k' st, ana e (m, k) = some (m', k') → Closes s m (k ++ st) →
    Extends e s x t m' (k' ++ st) := by
  induction h with
  | eps => rintro m k m' k' st ⟨⟩ hc; exact ⟨.eps, by rintro _ _ ⟨⟩; exact hc⟩
  | anyOk => rintro m k m' k' st ⟨⟩
  | anyFail => rintro m k m' k' st ⟨⟩
  | @chrOk c s =>
    rintro m k m' k' st ha hc
    simp only [ana, Option.map_eq_some_iff] at ha
    obtain ⟨⟨m1, k1, a1⟩, hs, hy⟩ := ha
    simp at hy
    obtain ⟨rfl, rfl⟩ := hy
    exact ⟨.chrOk, by rintro _ _ ⟨⟩; exact hc.step hs⟩
  | @chrNil c =>
    rintro m k m' k' st ha hc
    refine ⟨.chrFail ?_, by simp⟩
    rintro rfl
    obtain ⟨rfl, hk⟩ := hc.nil
    have : k = [] := (List.append_eq_nil_iff.mp hk).1
    subst this
    simp [ana, scanStep] at ha
  | chrFail hne => rintro m k m' k' st ha hc; exact ⟨.chrFail hne, by simp⟩
  | rngOk h1 h2 =>
    rintro m k m' k' st ha hc
    simp only [ana] at ha
    split at ha
    · rename_i hm
      obtain ⟨rfl, hm⟩ := hm
      simp at ha
      obtain ⟨rfl, rfl⟩ := ha
      exact ⟨.rngOk h1 h2, by rintro _ _ ⟨⟩; exact hc.plain (rng_plain hm h1 h2).1⟩
    · simp at ha
  | @rngNil lo hi =>
    rintro m k m' k' st ha hc
    simp only [ana] at ha
    split at ha
    · rename_i hm
      have hle : lo.toNat ≤ hi.toNat := by
        have := hm.2
        simp at this
        rcases this with ⟨rfl, rfl⟩ | ⟨rfl, rfl⟩ | ⟨rfl, rfl⟩ | ⟨rfl, rfl⟩ <;> decide
      exact ⟨.rngFail (rng_plain (c := lo) hm.2 (Nat.le_refl _) hle).2, by simp⟩
    · simp at ha
  | rngFail hne => rintro m k m' k' st ha hc; exact ⟨.rngFail hne, by simp⟩
  | seqOk _ _ iha ihb =>
    rintro m k m' k' st ha hc
    simp only [ana, Option.bind_eq_some_iff] at ha
    obtain ⟨⟨m1, k1⟩, h1, h2⟩ := ha
    obtain ⟨ha1, ha2⟩ := iha _ _ _ _ st h1 hc
    obtain ⟨hb1, hb2⟩ := ihb _ _ _ _ st h2 (ha2 _ _ rfl)
    exact ⟨.seqOk ha1 hb1, by rintro _ _ ⟨⟩; exact hb2 _ _ rfl⟩
  | seqFail1 _ iha =>
    rintro m k m' k' st ha hc
    simp only [ana, Option.bind_eq_some_iff] at ha
    obtain ⟨⟨m1, k1⟩, h1, h2⟩ := ha
    exact ⟨.seqFail1 (iha _ _ _ _ st h1 hc).1, by simp⟩
  | seqFail2 _ _ iha ihb =>
    rintro m k m' k' st ha hc
    simp only [ana, Option.bind_eq_some_iff] at ha
    obtain ⟨⟨m1, k1⟩, h1, h2⟩ := ha
    obtain ⟨ha1, ha2⟩ := iha _ _ _ _ st h1 hc
    exact ⟨.seqFail2 ha1 (ihb _ _ _ _ st h2 (ha2 _ _ rfl)).1, by simp⟩
  | alt1 _ iha =>
    rintro m k m' k' st ha hc
    simp only [ana] at ha
    split at ha
    · obtain ⟨h1, h2⟩ := iha _ _ _ _ st ha hc
      exact ⟨.alt1 h1, h2⟩
    · simp at ha
  | alt2 _ _ iha ihb =>
    rintro m k m' k' st ha hc
    simp only [ana] at ha
    split at ha
    · rename_i heq
      obtain ⟨h1, h2⟩ := ihb _ _ _ _ st (heq ▸ ha) hc
      exact ⟨.alt2 (iha _ _ _ _ st ha hc).1 h1, h2⟩
    · simp at ha
  | starNil _ iha =>
    rintro m k m' k' st ha hc
    simp only [ana] at ha
    split at ha
    · rename_i heq
      simp at ha
      obtain ⟨rfl, rfl⟩ := ha
      exact ⟨.starNil (iha _ _ _ _ st heq hc).1, by rintro _ _ ⟨⟩; exact hc⟩
    · simp at ha
  | starCons _ _ iha ihb =>
    rintro m k m' k' st ha hc
    have ha0 := ha
    simp only [ana] at ha
    split at ha
    · rename_i heq
      simp at ha
      obtain ⟨rfl, rfl⟩ := ha
      obtain ⟨h1, h2⟩ := iha _ _ _ _ st heq hc
      obtain ⟨h3, h4⟩ := ihb _ _ _ _ st ha0 (h2 _ _ rfl)
      exact ⟨.starCons h1 h3, by rintro _ _ ⟨⟩; exact h4 _ _ rfl⟩
    · simp at ha
  | optSome _ iha =>
    rintro m k m' k' st ha hc
    simp only [ana] at ha
    split at ha
    · rename_i heq
      simp at ha
      obtain ⟨rfl, rfl⟩ := ha
      obtain ⟨h1, h2⟩ := iha _ _ _ _ st heq hc
      exact ⟨.optSome h1, h2⟩
    · simp at ha
  | optNone _ iha =>
    rintro m k m' k' st ha hc
    simp only [ana] at ha
    split at ha
    · rename_i heq
      simp at ha
      obtain ⟨rfl, rfl⟩ := ha
      exact ⟨.optNone (iha _ _ _ _ st heq hc).1, by rintro _ _ ⟨⟩; exact hc⟩
    · simp at ha
  | notFail _ iha =>
    rintro m k m' k' st ha hc
    simp only [ana] at ha
    split at ha
    · rename_i heq
      obtain ⟨⟨m1, k1⟩, h1⟩ := Option.isSome_iff_exists.mp heq
      exact ⟨.notFail (iha _ _ _ _ st h1 hc).1, by simp⟩
    · simp at ha
  | notOk _ iha =>
    rintro m k m' k' st ha hc
    simp only [ana] at ha
    split at ha
    · rename_i heq
      simp at ha
      obtain ⟨rfl, rfl⟩ := ha
      obtain ⟨⟨m1, k1⟩, h1⟩ := Option.isSome_iff_exists.mp heq
      exact ⟨.notOk (iha _ _ _ _ st h1 hc).1, by rintro _ _ ⟨⟩; exact hc⟩
    · simp at ha
  | @call r s x hb ih =>
    rintro m k m' k' st ha hc
    simp only [ana] at ha
    split at ha
    · rename_i hm
      simp at ha
      obtain ⟨rfl, rfl⟩ := ha
      obtain ⟨hcode, hg, he⟩ := hm
      change m = .code at hcode
      subst hcode
      by_cases hs : r = .String
      · subst hs; exact ext_string t (.call hb) hc
      by_cases hcm : r = .Comment
      · subst hcm; exact ext_comment t (.call hb) hc
      obtain ⟨h1, h2⟩ := ih .code [] .code [] (k ++ st) (ana_ok r hg he hs hcm) hc
      exact ⟨.call h1, h2⟩
    · simp at ha
  | txtOk hb ih =>
    rintro m k m' k' st ha hc
    obtain ⟨h1, h2⟩ := ih _ _ _ _ st ha hc
    refine ⟨?_, by rintro _ _ ⟨⟩; exact h2 _ _ rfl⟩
    have := Big.txtOk h1
    rw [txt_ext hb.length_le] at this
    exact this
  | txtFail _ ih =>
    rintro m k m' k' st ha hc
    exact ⟨.txtFail (ih _ _ _ _ st ha hc).1, by simp⟩
  | act => rintro m k m' k' st ⟨⟩ hc; exact ⟨.act, by rintro _ _ ⟨⟩; exact hc⟩
  | swIn hin _ ih =>
    rintro m k m' k' st ha hc
    simp only [ana] at ha
    split at ha
    · obtain ⟨h1, h2⟩ := ih _ _ _ _ st ha hc
      exact ⟨.swIn hin h1, h2⟩
    · simp at ha
  | swOut hin _ ih =>
    rintro m k m' k' st ha hc
    simp only [ana] at ha
    split at ha
    · rename_i heq
      obtain ⟨h1, h2⟩ := ih _ _ _ _ st (heq.2 ▸ ha) hc
      exact ⟨.swOut hin h1, h2⟩
    · simp at ha
  | swNil _ ih =>
    rintro m k m' k' st ha hc
    simp only [ana] at ha
    split at ha
    · rename_i heq
      obtain ⟨h1, h2⟩ := ih _ _ _ _ st (heq.2 ▸ ha) hc
      exact ⟨.swOut heq.1 h1, h2⟩
    · simp at ha

end Verif
