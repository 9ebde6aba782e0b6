import Verif.WordsSync

/-! # The two runs of the whole grammar, and their trees -/

namespace Verif

variable {N : Str → Str → Prop} {I : Nat → Nat → Prop} {S : Str → Str → Prop}

/-! ## What is expected where -/

/-- What is expected after one of two ways. -/
def Next.join (a b : Next) : Next := if a = b then a else .either

/-- The rules that are treated one by one. -/
def aloneRules : List Rule := [.SpaceComment, .Identifier, .Integer, .String, .EndOfFile]

/-- What a rule expects, and what is expected afterwards; whether a text is captured before and after; whether both runs read the same text. -/
def ruleTy (r : Rule) (t : Next) (p : Bool) : Option (Next × Bool × Bool) :=
  match r with
  | .SpaceComment | .sp | .sp1 | .EndOfFile => some (t, p, true)
  | .Space | .Comment | .EndOfLine => none
  | .Compare | .Logic => if t = .operator ∧ p = false then some (.operand, false, false) else none
  | .Match | .ArgumentList => if t = .operator ∧ p = false then some (.operator, false, false) else none
  | _ => if t = .operand ∧ p = false then some (.operator, false, false) else none

/-- The same for an expression. -/
def wty : GExp → Next → Bool → Option (Next × Bool × Bool)
  | .lit w, t, p =>
    if w = c!"->" then some (.operand, p, true)
    else if w ≠ [] ∧ ∀ c ∈ w, c ∈ plainSigns then some (afterSigns w, p, true)
    else (kwLit t w).map fun t2 => (t2, p, true)
  | .word w, t, p => (kwWord t w).map fun t2 => (t2, p, true)
  | .seq a b, t, p =>
    match wty a t p with
    | some (t1, p1, f1) =>
      match wty b t1 p1 with
      | some (t2, p2, f2) => some (t2, p2, f1 && f2)
      | none => none
    | none => none
  | .alt a b, t, p =>
    match wty a t p, wty b t p with
    | some (t1, p1, f1), some (t2, p2, f2) => if p1 = p2 then some (t1.join t2, p1, f1 && f2) else none
    | _, _ => none
  | .star a, t, p =>
    match wty a t p with
    | some (t1, p1, f1) => if t1 = t ∧ p1 = p then some (t, p, f1) else none
    | none => none
  | .plus a, t, p =>
    match wty a t p with
    | some (t1, p1, f1) => if t1 = t ∧ p1 = p then some (t, p, f1) else none
    | none => none
  | .opt a, t, p =>
    match wty a t p with
    | some (t1, p1, f1) => if p1 = p then some (t.join t1, p, f1) else none
    | none => none
  | .rule r, t, p => ruleTy r t p
  | .cap a, t, false =>
    match wty a t false with
    | some (t1, false, true) => some (t1, true, true)
    | _ => none
  | .act m, t, p => if (m ∈ textMeths) = (p = true) then some (t, false, true) else none
  | _, _, _ => none

/-- What the expression of a rule does is at least what `ruleTy` says. -/
def ruleFine (r : Rule) (t : Next) (p : Bool) : Bool :=
  match ruleTy r t p with
  | none => true
  | some (t2, p2, f2) =>
    match wty (grammarFile r) t p with
    | none => false
    | some (t3, p3, f3) => t3 = t2 && p3 = p2 && (!f2 || f3)

theorem ruleFine_all : ∀ r t p, r ∉ aloneRules → ruleFine r t p = true := by
  intro r t p h
  revert h
  cases r <;> cases t <;> cases p <;> decide +kernel

theorem WCorr.mono {p t q f s s' x x'} (h : WCorr N I S p t q f s s' x x') {t2 f2} (ht : t2 = t ∨ t2 = .either) (hf : f2 = true → f = true) :
    WCorr N I S p t2 q f2 s s' x x' := by
  unfold WCorr at h ⊢
  split at h
  · trivial
  · exact ⟨h.1, h.2.1.weaken ht, fun h2 => h.2.2 (hf h2)⟩
  · exact h.elim

theorem Next.join_left (a b : Next) : a.join b = a ∨ a.join b = .either := by
  unfold Next.join; split <;> simp

theorem Next.join_right (a b : Next) : a.join b = b ∨ a.join b = .either := by
  unfold Next.join; split <;> simp [*]

/-- A literal or a keyword: it is enough to consider matches. -/
theorem atom_sync {e : GExp} {t : Next} {p : Bool} {t2 : Next}
    (tot : ∀ s, ∃ x, Parses grammarFile e s x)
    (hok : ∀ {N I S s s' ev r}, WPos N I S t s s' → Parses grammarFile e s (some (ev, r)) →
      ev = [] ∧ ∃ u r', s = u ++ r ∧ s' = u ++ r' ∧ Parses grammarFile e s' (some ([], r')) ∧ WPos N I S t2 r r')
    {s s' x} (hp : WPos N I S t s s') (h : Parses grammarFile e s x) : ∃ x', Parses grammarFile e s' x' ∧ WCorr N I S p t2 p true s s' x x' := by
  cases x with
  | some y =>
    obtain ⟨ev, r⟩ := y
    obtain ⟨rfl, u, r', e1, e2, h1, h2⟩ := hok hp h
    exact ⟨_, h1, .nil, h2, fun _ => ⟨u, e1, e2⟩⟩
  | none =>
    obtain ⟨x', hx⟩ := tot s'
    cases x' with
    | none => exact ⟨_, hx, trivial⟩
    | some y =>
      obtain ⟨_, u, r', _, _, h1, _⟩ := hok hp.symm hx
      cases h.det h1

theorem lit_total (w s : Str) : ∃ x, Parses grammarFile (.lit w) s x := by
  by_cases h : ∃ r, s = w ++ r
  · obtain ⟨r, rfl⟩ := h; exact ⟨_, .lit⟩
  · exact ⟨_, .litFail fun r e => h ⟨r, e⟩⟩

theorem kword_total (w s : Str) : ∃ x, Parses grammarFile (.word w) s x := by
  by_cases h : ∃ u r, CI w u ∧ s = u ++ r
  · obtain ⟨u, r, hu, rfl⟩ := h; exact ⟨_, .word hu⟩
  · exact ⟨_, .wordFail fun u r hu e => h ⟨u, r, hu, e⟩⟩

theorem lit_inv {w s ev r} (h : Parses grammarFile (.lit w) s (some (ev, r))) : ev = [] ∧ s = w ++ r := by
  cases h; exact ⟨rfl, rfl⟩

theorem kword_inv {w s ev r} (h : Parses grammarFile (.word w) s (some (ev, r))) : ev = [] ∧ ∃ u, CI w u ∧ s = u ++ r := by
  cases h with
  | word h => exact ⟨rfl, _, h, rfl⟩

theorem lit_wsync {w t p c q f} (hw : wty (.lit w) t p = some (c, q, f)) {s s' x} (hp : WPos N I S t s s') (h : Parses grammarFile (.lit w) s x) :
    ∃ x', Parses grammarFile (.lit w) s' x' ∧ WCorr N I S p c q f s s' x x' := by
  simp only [wty] at hw
  split at hw
  · rename_i e
    subst e
    cases hw
    refine atom_sync (lit_total _) (fun hp h => ?_) hp h
    obtain ⟨rfl, rfl⟩ := lit_inv h
    obtain ⟨r', rfl, h2⟩ := hp.arrow
    exact ⟨rfl, _, r', rfl, rfl, .lit, h2⟩
  split at hw
  · rename_i e
    cases hw
    refine atom_sync (lit_total _) (fun hp h => ?_) hp h
    obtain ⟨rfl, rfl⟩ := lit_inv h
    obtain ⟨r', rfl, h2⟩ := hp.signs e.1 e.2
    exact ⟨rfl, _, r', rfl, rfl, .lit, h2⟩
  · cases hk : kwLit t w with
    | none => rw [hk] at hw; cases hw
    | some t2 =>
      rw [hk] at hw
      cases hw
      refine atom_sync (lit_total _) (fun hp h => ?_) hp h
      obtain ⟨rfl, rfl⟩ := lit_inv h
      obtain ⟨r', rfl, h2⟩ := hp.keyword (.inr ⟨rfl, hk⟩)
      exact ⟨rfl, _, r', rfl, rfl, .lit, h2⟩

theorem kword_wsync {w t p c q f} (hw : wty (.word w) t p = some (c, q, f)) {s s' x} (hp : WPos N I S t s s') (h : Parses grammarFile (.word w) s x) :
    ∃ x', Parses grammarFile (.word w) s' x' ∧ WCorr N I S p c q f s s' x x' := by
  simp only [wty] at hw
  cases hk : kwWord t w with
  | none => rw [hk] at hw; cases hw
  | some t2 =>
    rw [hk] at hw
    cases hw
    refine atom_sync (kword_total _) (fun hp h => ?_) hp h
    obtain ⟨rfl, u, hu, rfl⟩ := kword_inv h
    obtain ⟨r', rfl, h2⟩ := hp.keyword (.inl ⟨hu, hk⟩)
    exact ⟨rfl, _, r', rfl, rfl, .word hu, h2⟩

theorem alone_sync {r} (hr : r ∈ aloneRules) {t p c q f} (ht : ruleTy r t p = some (c, q, f)) {s s' x} (hp : WPos N I S t s s')
    (h : Parses grammarFile (.rule r) s x) : ∃ x', Parses grammarFile (.rule r) s' x' ∧ WCorr N I S p c q f s s' x x' := by
  simp only [aloneRules, List.mem_cons, List.not_mem_nil, or_false] at hr
  rcases hr with rfl | rfl | rfl | rfl | rfl
  · cases ht; exact WSync.parses (wsync_space t p) hp h
  · simp only [ruleTy] at ht
    split at ht
    · rename_i e
      obtain ⟨rfl, rfl⟩ := e
      cases ht
      exact WSync.parses wsync_identifier hp h
    · cases ht
  · simp only [ruleTy] at ht
    split at ht
    · rename_i e
      obtain ⟨rfl, rfl⟩ := e
      cases ht
      exact WSync.parses wsync_integer hp h
    · cases ht
  · simp only [ruleTy] at ht
    split at ht
    · rename_i e
      obtain ⟨rfl, rfl⟩ := e
      cases ht
      exact WSync.parses (wsync_string _) hp h
    · cases ht
  · cases ht; exact WSync.parses (wsync_eof t p) hp h

/-- The two runs of every expression of the grammar correspond. -/
theorem words_sync {e s x} (h : Parses grammarFile e s x) : ∀ {t p c q f s'}, wty e t p = some (c, q, f) → WPos N I S t s s' →
    ∃ x', Parses grammarFile e s' x' ∧ WCorr N I S p c q f s s' x x' := by
  induction h with
  | lit => exact fun hw hp => lit_wsync hw hp .lit
  | litFail h => exact fun hw hp => lit_wsync hw hp (.litFail h)
  | word h => exact fun hw hp => kword_wsync hw hp (.word h)
  | wordFail h => exact fun hw hp => kword_wsync hw hp (.wordFail h)
  | cls => intro _ _ _ _ _ _ hw; cases hw
  | clsFail => intro _ _ _ _ _ _ hw; cases hw
  | other => intro _ _ _ _ _ _ hw; cases hw
  | otherFail => intro _ _ _ _ _ _ hw; cases hw
  | dot => intro _ _ _ _ _ _ hw; cases hw
  | dotFail => intro _ _ _ _ _ _ hw; cases hw
  | noFail => intro _ _ _ _ _ _ hw; cases hw
  | no => intro _ _ _ _ _ _ hw; cases hw
  | @seq a b s e1 s1 e2 s2 h1 h2 ih1 ih2 =>
    intro t p c q f s' hw hp
    simp only [wty] at hw
    split at hw
    · rename_i t1 p1 f1 ha
      split at hw
      · rename_i t2 p2 f2 hb
        cases hw
        obtain ⟨x1, b1, c1⟩ := ih1 ha hp
        obtain ⟨ev1, r1, rfl, e1, l1, u1⟩ := c1.some
        obtain ⟨x2, b2, c2⟩ := ih2 hb l1
        obtain ⟨ev2, r2, rfl, e2, l2, u2⟩ := c2.some
        refine ⟨_, .seq b1 b2, .app e1 e2, l2, fun hf => ?_⟩
        obtain ⟨hf1, hf2⟩ := Bool.and_eq_true_iff.mp hf
        obtain ⟨v1, rfl, rfl⟩ := u1 hf1
        obtain ⟨v2, rfl, rfl⟩ := u2 hf2
        exact ⟨v1 ++ v2, by simp, by simp⟩
      · cases hw
    · cases hw
  | seqFail1 h1 ih1 =>
    intro t p c q f s' hw hp
    simp only [wty] at hw
    split at hw
    · rename_i t1 p1 f1 ha
      obtain ⟨x1, b1, c1⟩ := ih1 ha hp
      have := c1.none
      subst this
      exact ⟨_, .seqFail1 b1, trivial⟩
    · cases hw
  | seqFail2 h1 h2 ih1 ih2 =>
    intro t p c q f s' hw hp
    simp only [wty] at hw
    split at hw
    · rename_i t1 p1 f1 ha
      split at hw
      · rename_i t2 p2 f2 hb
        obtain ⟨x1, b1, c1⟩ := ih1 ha hp
        obtain ⟨ev1, r1, rfl, e1, l1, u1⟩ := c1.some
        obtain ⟨x2, b2, c2⟩ := ih2 hb l1
        have := c2.none
        subst this
        exact ⟨_, .seqFail2 b1 b2, trivial⟩
      · cases hw
    · cases hw
  | @alt1 a b s x h1 ih1 =>
    intro t p c q f s' hw hp
    simp only [wty] at hw
    split at hw
    · rename_i t1 p1 f1 t2 p2 f2 ha hb
      split at hw
      · rename_i hq
        subst hq
        cases hw
        obtain ⟨x1, b1, c1⟩ := ih1 ha hp
        obtain ⟨ev, r⟩ := x
        obtain ⟨ev1, r1, rfl, _⟩ := c1.some
        exact ⟨_, .alt1 b1, c1.mono (Next.join_left _ _) fun h => (Bool.and_eq_true_iff.mp h).1⟩
      · cases hw
    · cases hw
  | @alt2 a b s x h1 h2 ih1 ih2 =>
    intro t p c q f s' hw hp
    simp only [wty] at hw
    split at hw
    · rename_i t1 p1 f1 t2 p2 f2 ha hb
      split at hw
      · rename_i hq
        subst hq
        cases hw
        obtain ⟨x1, b1, c1⟩ := ih1 ha hp
        have := c1.none
        subst this
        obtain ⟨x2, b2, c2⟩ := ih2 hb hp
        exact ⟨_, .alt2 b1 b2, c2.mono (Next.join_right _ _) fun h => (Bool.and_eq_true_iff.mp h).2⟩
      · cases hw
    · cases hw
  | starNil h1 ih1 =>
    intro t p c q f s' hw hp
    simp only [wty] at hw
    split at hw
    · rename_i t1 p1 f1 ha
      split at hw
      · cases hw
        obtain ⟨x1, b1, c1⟩ := ih1 ha hp
        have := c1.none
        subst this
        exact ⟨_, .starNil b1, .nil, hp, fun _ => ⟨[], rfl, rfl⟩⟩
      · cases hw
    · cases hw
  | starCons h1 h2 ih1 ih2 =>
    intro t p c q f s' hw hp
    have hw2 := hw
    simp only [wty] at hw
    split at hw
    · rename_i t1 p1 f1 ha
      split at hw
      · rename_i e
        obtain ⟨rfl, rfl⟩ := e
        cases hw
        obtain ⟨x1, b1, c1⟩ := ih1 ha hp
        obtain ⟨ev1, r1, rfl, e1, l1, u1⟩ := c1.some
        obtain ⟨x2, b2, c2⟩ := ih2 hw2 l1
        obtain ⟨ev2, r2, rfl, e2, l2, u2⟩ := c2.some
        refine ⟨_, .starCons b1 b2, .app e1 e2, l2, fun hf => ?_⟩
        obtain ⟨v1, rfl, rfl⟩ := u1 hf
        obtain ⟨v2, rfl, rfl⟩ := u2 hf
        exact ⟨v1 ++ v2, by simp, by simp⟩
      · cases hw
    · cases hw
  | @plus a s x h1 ih1 =>
    intro t p c q f s' hw hp
    simp only [wty] at hw
    split at hw
    · rename_i t1 p1 f1 ha
      split at hw
      · rename_i e
        obtain ⟨rfl, rfl⟩ := e
        cases hw
        have : wty (.seq a (.star a)) c q = some (c, q, f) := by
          simp only [wty, ha, and_self, if_true, Bool.and_self]
        obtain ⟨x1, b1, c1⟩ := ih1 this hp
        exact ⟨_, .plus b1, c1⟩
      · cases hw
    · cases hw
  | @optSome a s x h1 ih1 =>
    intro t p c q f s' hw hp
    simp only [wty] at hw
    split at hw
    · rename_i t1 p1 f1 ha
      split at hw
      · rename_i hq
        subst hq
        cases hw
        obtain ⟨x1, b1, c1⟩ := ih1 ha hp
        obtain ⟨ev, r⟩ := x
        obtain ⟨ev1, r1, rfl, _⟩ := c1.some
        exact ⟨_, .optSome b1, c1.mono (Next.join_right _ _) id⟩
      · cases hw
    · cases hw
  | optNone h1 ih1 =>
    intro t p c q f s' hw hp
    simp only [wty] at hw
    split at hw
    · rename_i t1 p1 f1 ha
      split at hw
      · rename_i hq
        subst hq
        cases hw
        obtain ⟨x1, b1, c1⟩ := ih1 ha hp
        have := c1.none
        subst this
        exact ⟨_, .optNone b1, .nil, hp.weaken (Next.join_left _ _), fun _ => ⟨[], rfl, rfl⟩⟩
      · cases hw
    · cases hw
  | @rule r s x h1 ih1 =>
    intro t p c q f s' hw hp
    by_cases hr : r ∈ aloneRules
    · exact alone_sync hr hw hp (.rule h1)
    have hf := ruleFine_all r t p hr
    have hw : ruleTy r t p = some (c, q, f) := hw
    simp only [ruleFine, hw] at hf
    split at hf
    · cases hf
    · rename_i t3 p3 f3 h3
      simp only [Bool.and_eq_true, decide_eq_true_eq, Bool.or_eq_true, Bool.not_eq_true'] at hf
      obtain ⟨⟨rfl, rfl⟩, hff⟩ := hf
      obtain ⟨x1, b1, c1⟩ := ih1 h3 hp
      exact ⟨_, .rule b1, c1.mono (.inl rfl) fun h => by rcases hff with h2 | h2; · rw [h] at h2; cases h2
                                                         · exact h2⟩
  | @cap a u r e h1 ih1 =>
    intro t p c q f s' hw hp
    cases p with
    | true => cases hw
    | false =>
      simp only [wty] at hw
      split at hw
      · rename_i t1 ha
        cases hw
        obtain ⟨x1, b1, c1⟩ := ih1 ha hp
        obtain ⟨ev1, r1, rfl, e1, l1, u1⟩ := c1.some
        obtain ⟨v, e2, rfl⟩ := u1 rfl
        have := List.append_cancel_right e2
        subst this
        exact ⟨_, .cap b1, .app e1 .text, l1, fun _ => ⟨u, rfl, rfl⟩⟩
      · cases hw
  | capFail h1 ih1 =>
    intro t p c q f s' hw hp
    cases p with
    | true => cases hw
    | false =>
      simp only [wty] at hw
      split at hw
      · rename_i t1 ha
        obtain ⟨x1, b1, c1⟩ := ih1 ha hp
        have := c1.none
        subst this
        exact ⟨_, .capFail b1, trivial⟩
      · cases hw
  | @act m s =>
    intro t p c q f s' hw hp
    simp only [wty] at hw
    split at hw
    · rename_i hm
      cases hw
      refine ⟨_, .act, ?_, hp, fun _ => ⟨[], rfl, rfl⟩⟩
      cases p with
      | true => exact .use (by simpa using hm)
      | false => exact .act (by simpa using hm)
    · cases hw

/-! ## The trees -/

/-- Related stacks. -/
structure WRel (N : Str → Str → Prop) (I : Nat → Nat → Prop) (S : Str → Str → Prop) (t t' : Tree) : Prop where
  stack : SameTreeL N I S t.stack t'.stack
  errors : t.errors = t'.errors
  marks : t.marks = t'.marks

theorem WRel.push {t t'} (h : WRel N I S t t') {n n'} (hn : SameTree N I S n n') : WRel N I S (t.push n) (t'.push n') :=
  ⟨.cons hn h.stack, h.errors, h.marks⟩

theorem WRel.pop {t t'} (h : WRel N I S t t') : SameTree N I S t.pop.1 t'.pop.1 ∧ WRel N I S t.pop.2 t'.pop.2 := by
  obtain ⟨st, es, ms⟩ := t
  obtain ⟨st', es', ms'⟩ := t'
  obtain ⟨h1, h2, h3⟩ := h
  cases h1 with
  | nil => exact ⟨.nil, .nil, h2, h3⟩
  | cons a b => exact ⟨a, b, h2, h3⟩

theorem WRel.addError {t t'} (h : WRel N I S t t') (e : Option Err) : WRel N I S (t.addError e) (t'.addError e) := by
  cases e with
  | none => exact h
  | some e => exact ⟨h.stack, by simp only [Tree.addError, h.errors], h.marks⟩

theorem SameTreeL.length {l l'} (h : SameTreeL N I S l l') : l.length = l'.length := by
  induction l generalizing l' with
  | nil => cases h; rfl
  | cons n l ih => cases h with | cons h1 h2 => simp [ih h2]

theorem SameTreeL.append {l l' k k'} (h : SameTreeL N I S l l') (hk : SameTreeL N I S k k') : SameTreeL N I S (l ++ k) (l' ++ k') := by
  induction l generalizing l' with
  | nil => cases h; exact hk
  | cons n l ih => cases h with | cons h1 h2 => exact .cons h1 (ih h2)

theorem SameTreeL.reverse {l l'} (h : SameTreeL N I S l l') : SameTreeL N I S l.reverse l'.reverse := by
  induction l generalizing l' with
  | nil => cases h; exact .nil
  | cons n l ih =>
    cases h with
    | cons h1 h2 => rw [List.reverse_cons, List.reverse_cons]; exact (ih h2).append (.cons h1 .nil)

theorem SameTreeL.take {l l'} (h : SameTreeL N I S l l') (k : Nat) : SameTreeL N I S (l.take k) (l'.take k) := by
  induction l generalizing l' k with
  | nil => cases h; simp only [List.take_nil]; exact .nil
  | cons n l ih =>
    cases h with
    | cons h1 h2 =>
      cases k with
      | zero => exact .nil
      | succ k => exact .cons h1 (ih h2 k)

theorem SameTreeL.drop {l l'} (h : SameTreeL N I S l l') (k : Nat) : SameTreeL N I S (l.drop k) (l'.drop k) := by
  induction l generalizing l' k with
  | nil => cases h; simp only [List.drop_nil]; exact .nil
  | cons n l ih =>
    cases h with
    | cons h1 h2 =>
      cases k with
      | zero => exact .cons h1 h2
      | succ k => exact ih h2 k

theorem WRel.addMark {t t'} (h : WRel N I S t t') : WRel N I S t.addMark t'.addMark :=
  ⟨h.stack, h.errors, by simp only [Tree.addMark, h.stack.length, h.marks]⟩

theorem WRel.popMarked {t t'} (h : WRel N I S t t') :
    ORel (fun x y => SameTreeL N I S x.1 y.1 ∧ WRel N I S x.2 y.2) t.popMarked t'.popMarked := by
  obtain ⟨st, es, ms⟩ := t
  obtain ⟨st', es', ms'⟩ := t'
  obtain ⟨h1, h2, h3⟩ := h
  simp only at h1 h2 h3
  subst h2 h3
  cases ms with
  | nil => trivial
  | cons k ms =>
    simp only [Tree.popMarked, h1.length]
    split
    · trivial
    · exact ⟨(h1.take _).reverse, h1.drop _, rfl, rfl⟩

theorem SameTree.nodeName (h0 : N [] []) {n n'} (h : SameTree N I S n n') : ORel N (Tree.nodeName n) (Tree.nodeName n') := by
  cases h <;> first | exact trivial | exact h0 | assumption

theorem SameTreeL.names (h0 : N [] []) {l l'} (h : SameTreeL N I S l l') : ORel (EachText N) (l.mapM Tree.nodeName) (l'.mapM Tree.nodeName) := by
  induction l generalizing l' with
  | nil => cases h; exact .nil
  | cons n l ih =>
    cases h with
    | @cons _ m _ l' h1 h2 =>
      have e1 := h1.nodeName h0
      have e2 := ih h2
      rw [List.mapM_cons, List.mapM_cons]
      revert e1 e2
      cases Tree.nodeName n with
      | none =>
        cases Tree.nodeName m with
        | none => exact fun _ _ => trivial
        | some y => exact fun h => h.elim
      | some x =>
        cases Tree.nodeName m with
        | none => exact fun h => h.elim
        | some y =>
          cases l.mapM Tree.nodeName with
          | none =>
            cases l'.mapM Tree.nodeName with
            | none => exact fun _ _ => trivial
            | some y => exact fun _ h => h.elim
          | some a =>
            cases l'.mapM Tree.nodeName with
            | none => exact fun _ h => h.elim
            | some b => exact fun h1 h2 => EachText.cons h1 h2

theorem WRel.popArray {t t'} (h : WRel N I S t t') : ORel (WRel N I S) t.popArray t'.popArray := by
  have := h.popMarked
  revert this
  unfold Tree.popArray
  cases t.popMarked with
  | none => cases t'.popMarked <;> exact fun h => h
  | some x =>
    cases t'.popMarked with
    | none => exact fun h => h
    | some y => exact fun h => h.2.push (.arr h.1)

theorem WRel.popRef (h0 : N [] []) {t t'} (h : WRel N I S t t') : ORel (WRel N I S) t.popIdentifierReference t'.popIdentifierReference := by
  have := h.popMarked
  revert this
  unfold Tree.popIdentifierReference
  cases t.popMarked with
  | none =>
    cases t'.popMarked with
    | none => exact fun _ => trivial
    | some y => exact fun h => h.elim
  | some x =>
    cases t'.popMarked with
    | none => exact fun h => h.elim
    | some y =>
      intro h
      have e := h.1.names h0
      revert e
      simp only
      cases x.1.mapM Tree.nodeName with
      | none =>
        cases y.1.mapM Tree.nodeName with
        | none => exact fun _ => trivial
        | some l => exact fun h => h.elim
      | some l =>
        cases y.1.mapM Tree.nodeName with
        | none => exact fun h => h.elim
        | some l' => exact fun e => h.2.push (.ref e)

theorem WRel.popFunction {t t'} (h : WRel N I S t t') : WRel N I S t.popFunction t'.popFunction := by
  have h1 := h.pop
  have h2 := h1.2.pop
  unfold Tree.popFunction
  simp only
  revert h1 h2
  generalize t.pop.2.pop.1 = a, t'.pop.2.pop.1 = a', t.pop.1 = b, t'.pop.1 = b'
  rintro ⟨h1, -⟩ ⟨h2, h3⟩
  have err := h3.addError (some .badFunction)
  cases h2 with
  | ident hx =>
    cases h1 with
    | arr hl => exact h3.push (.func hx hl)
    | _ => exact err
  | _ => exact err

theorem atoi_nat (x : Str) : ∃ k : Nat, (atoi x).1 = k := by
  unfold atoi
  split
  · exact ⟨0, rfl⟩
  · split
    · exact ⟨_, rfl⟩
    · exact ⟨_, rfl⟩

theorem words_meth (hk : Kept N I S) {m : Meth} (x : Str) {t t' : Tree} (h : WRel N I S t t') : ORel (WRel N I S) (doMeth m x t) (doMeth m x t') := by
  cases m with
  | PopLogic => exact h.pop.2.pop.2.pop.2.push (.logic h.pop.2.pop.2.pop.1 h.pop.2.pop.1 h.pop.1)
  | PopNot => exact h.pop.2.push (.not h.pop.1)
  | PopCompare => exact h.pop.2.pop.2.pop.2.push (.cmp h.pop.2.pop.2.pop.1 h.pop.2.pop.1 h.pop.1)
  | AddCompare => exact h.push .op
  | PopPredicate => exact h.pop.2.pop.2.push (.pred h.pop.2.pop.1 h.pop.1)
  | AddOperation => exact h.push .op
  | PopBetween => exact h.pop.2.pop.2.pop.2.pop.2.push (.between h.pop.2.pop.2.pop.2.pop.1 h.pop.2.pop.2.pop.1 h.pop.2.pop.1 h.pop.1)
  | PopParentheses => exact h.pop.2.push (.paren h.pop.1)
  | PopFunction => exact h.popFunction
  | AddMark => exact h.addMark
  | PopArray => exact h.popArray
  | PopIdentifierReference => exact h.popRef (hk.names [])
  | AddName => exact h.push (.ident (hk.names x))
  | AddLogic => exact h.push .op
  | AddMatch => exact h.push .op
  | AddInteger =>
    obtain ⟨k, e⟩ := atoi_nat x
    simp only [doMeth, Tree.addInteger, e]
    exact (h.addError _).push (.int (hk.ints k))
  | AddBoolean => exact (h.addError _).push .bool
  | AddNull => exact h.push .null
  | AddString => exact h.push (.str (hk.strs x))

/-- The calls with the last text. -/
def doMethsX : Str → List FEv → Tree → Option (Str × Tree)
  | x, [], t => some (x, t)
  | _, .text s :: evs, t => doMethsX s evs t
  | x, .act m :: evs, t => (doMeth m x t).bind (doMethsX x evs)

theorem doMeths_eq (evs : List FEv) : ∀ x t, doMeths x evs t = (doMethsX x evs t).map Prod.snd := by
  induction evs with
  | nil => intro x t; rfl
  | cons e evs ih =>
    intro x t
    cases e with
    | text s => exact ih s t
    | act m =>
      simp only [doMeths, doMethsX]
      cases doMeth m x t with
      | none => rfl
      | some t' => exact ih x t'

theorem doMethsX_append (e1 e2 : List FEv) : ∀ x t, doMethsX x (e1 ++ e2) t = (doMethsX x e1 t).bind fun p => doMethsX p.1 e2 p.2 := by
  induction e1 with
  | nil => intro x t; rfl
  | cons e evs ih =>
    intro x t
    cases e with
    | text s => exact ih s t
    | act m =>
      simp only [List.cons_append, doMethsX]
      cases doMeth m x t with
      | none => rfl
      | some t' => exact ih x t'

/-- The texts and stacks of the two runs. -/
def VRel (N : Str → Str → Prop) (I : Nat → Nat → Prop) (S : Str → Str → Prop) (p : Bool) (x y : Str × Tree) : Prop :=
  (p = true → x.1 = y.1) ∧ WRel N I S x.2 y.2

theorem ORel.bindSome {α β : Type} {P : α → α → Prop} {Q : β → β → Prop} {a a' : Option α} {f f' : α → Option β} (h : ORel P a a')
    (hf : ∀ x y, P x y → ORel Q (f x) (f' y)) : ORel Q (a.bind f) (a'.bind f') := by
  cases a with
  | none =>
    cases a' with
    | none => trivial
    | some y => exact h.elim
  | some x =>
    cases a' with
    | none => exact h.elim
    | some y => exact hf x y h

theorem textFree {m : Meth} (h : m ∉ textMeths) (x y : Str) (t : Tree) : doMeth m x t = doMeth m y t := by
  cases m <;> first | rfl | exact absurd (by decide) h

theorem words_run (hk : Kept N I S) (hI : InRange I) {p q ev ev'} (h : WEv N I S p ev ev' q) :
    ∀ {x t x' t'}, VRel N I S p (x, t) (x', t') → ORel (VRel N I S q) (doMethsX x ev t) (doMethsX x' ev' t') := by
  induction h with
  | nil => exact fun h => h
  | text => exact fun h => ⟨fun _ => rfl, h.2⟩
  | @use m hm =>
    intro x t x' t' h
    have := h.1 rfl
    simp only at this
    subst this
    exact (words_meth hk x h.2).bindSome fun a b hab => ⟨by simp, hab⟩
  | @act m hm =>
    intro x t x' t' h
    have e : doMethsX x' [.act m] t' = (doMeth m x t').bind (doMethsX x' []) := by
      simp only [doMethsX, textFree hm x' x]
    rw [e]
    exact (words_meth hk x h.2).bindSome fun a b hab => ⟨by simp, hab⟩
  | name hx => exact fun h => ⟨by simp, h.2.push (.ident hx)⟩
  | str hx => exact fun h => ⟨by simp, h.2.push (.str hx)⟩
  | @int k k' hx =>
    intro x t x' t' h
    refine ⟨by simp, ?_⟩
    rcases hI k k' hx with rfl | ⟨h1, h2⟩
    · obtain ⟨k1, e⟩ := atoi_nat (Nat.toDigits 10 k)
      simp only [Tree.addInteger, e]
      exact (h.2.addError _).push (.int (hk.ints k1))
    · simp only [Tree.addInteger, atoi_toDigits, if_pos h1, if_pos h2]
      exact (h.2.addError none).push (.int hx)
  | app h1 h2 ih1 ih2 =>
    intro x t x' t' h
    rw [doMethsX_append, doMethsX_append]
    exact (ih1 h).bindSome fun a b hab => ih2 hab

end Verif
