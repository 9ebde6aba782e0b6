import Verif.ParseThms

/-!
# Counting the steps of the recogniser

`exec` says what the generated recogniser computes; `steps` says how often it does something while computing it.  Every
test of a rune, every entry into a rule function, every turn of a loop, every save or restore of `position, tokenIndex`
and every token written counts one (the constructs of /repo/miniquery/miniquery.peg.go:497-3148, listed at `exec`).  The
cost of a token is counted as one; `tokens32.Add` (lines 249-256) appends to a slice, which is amortised constant time.
-/

namespace Verif

/-- Steps of the loop compiled from `e*`: as many turns as `execStar` makes; /repo/miniquery/miniquery.peg.go:570-585. -/
def stepsStar (p : St → Out) (c : St → Nat) : Nat → St → Nat
  | 0, _ => 0
  | n + 1, st =>
    match p st with
    | .ok st' => c st + stepsStar p c n st' + 1
    | _ => c st + 1

/-- Steps of the code compiled from each expression form (same line numbers as `exec`).  `env` is what the rule functions
do, `cost` the steps they take. -/
def steps (buf : List Nat) (env : Rule → St → Out) (cost : Rule → St → Nat) : PExp → St → Nat
  | .eps, _ => 1
  | .any, _ => 1
  | .chr _, _ => 1
  | .rng _ _, _ => 1
  | .seq a b, st =>
    match exec buf env a st with
    | .ok st' => steps buf env cost a st + steps buf env cost b st' + 1
    | _ => steps buf env cost a st + 1
  | .alt a b, st =>
    match exec buf env a st with
    | .fail st' => steps buf env cost a st + steps buf env cost b { st' with pos := st.pos, ti := st.ti } + 1
    | _ => steps buf env cost a st + 1
  | .star a, st => stepsStar (exec buf env a) (steps buf env cost a) (buf.length - st.pos) st
  | .opt a, st => steps buf env cost a st + 1
  | .notP a, st => steps buf env cost a st + 1
  | .call r, st => cost r st
  | .txt a, st => steps buf env cost a st + 1
  | .act _, _ => 1
  | .sw cs a b, st =>
    match buf[st.pos]? with
    | none => 1
    | some x => if x ∈ cs.map Char.toNat then steps buf env cost a st + 1 else steps buf env cost b st + 1

/-- Steps of the rule functions; e.g. /repo/miniquery/miniquery.peg.go:548-561.  The first argument is the call depth
that `execN` bounds. -/
def stepsN (buf : List Nat) (G : Rule → PExp) : Nat → Rule → St → Nat
  | 0, _, _ => 0
  | n + 1, r, st => steps buf (execN buf G n) (stepsN buf G n) (G r) st + 1

/-- Steps the recogniser takes when `Parse` is called on `s`: /repo/miniquery/parse.go:3-16,
/repo/miniquery/miniquery.peg.go:475-487. -/
def parseSteps (s : Str) : Nat := stepsN (mkBuf s) G (depthBound s.length) .Grammar initSt

/-! ## The relational reading -/

/-- `Run G e s x k`: on input `s` the code for `e` takes `k` steps and leaves `x` (`none`: fails). -/
inductive Run (G : Rule → PExp) : PExp → Str → Option Str → Nat → Prop where
  | eps {s} : Run G .eps s (some s) 1
  | anyOk {c s} : Run G .any (c :: s) (some s) 1
  | anyFail : Run G .any [] none 1
  | chrOk {c s} : Run G (.chr c) (c :: s) (some s) 1
  | chrNil {c} : Run G (.chr c) [] none 1
  | chrFail {c x s} : x ≠ c → Run G (.chr c) (x :: s) none 1
  | rngOk {lo hi x s} : lo.toNat ≤ x.toNat → x.toNat ≤ hi.toNat → Run G (.rng lo hi) (x :: s) (some s) 1
  | rngNil {lo hi} : Run G (.rng lo hi) [] none 1
  | rngFail {lo hi x s} : ¬(lo.toNat ≤ x.toNat ∧ x.toNat ≤ hi.toNat) → Run G (.rng lo hi) (x :: s) none 1
  | seqOk {a b s r1 x k1 k2} : Run G a s (some r1) k1 → Run G b r1 x k2 → Run G (.seq a b) s x (k1 + k2 + 1)
  | seqFail {a b s k1} : Run G a s none k1 → Run G (.seq a b) s none (k1 + 1)
  | alt1 {a b s r k1} : Run G a s (some r) k1 → Run G (.alt a b) s (some r) (k1 + 1)
  | alt2 {a b s x k1 k2} : Run G a s none k1 → Run G b s x k2 → Run G (.alt a b) s x (k1 + k2 + 1)
  | starNil {a s k1} : Run G a s none k1 → Run G (.star a) s (some s) (k1 + 1)
  | starCons {a s r1 r2 k1 k2} : Run G a s (some r1) k1 → Run G (.star a) r1 (some r2) k2 →
      Run G (.star a) s (some r2) (k1 + k2 + 1)
  | optSome {a s r k1} : Run G a s (some r) k1 → Run G (.opt a) s (some r) (k1 + 1)
  | optNone {a s k1} : Run G a s none k1 → Run G (.opt a) s (some s) (k1 + 1)
  | notFail {a s r k1} : Run G a s (some r) k1 → Run G (.notP a) s none (k1 + 1)
  | notOk {a s k1} : Run G a s none k1 → Run G (.notP a) s (some s) (k1 + 1)
  | call {r s x k1} : Run G (G r) s x k1 → Run G (.call r) s x (k1 + 1)
  | txt {a s x k1} : Run G a s x k1 → Run G (.txt a) s x (k1 + 1)
  | act {n s} : Run G (.act n) s (some s) 1
  | swIn {cs a b c s x k1} : c ∈ cs → Run G a (c :: s) x k1 → Run G (.sw cs a b) (c :: s) x (k1 + 1)
  | swOut {cs a b c s x k1} : c ∉ cs → Run G b (c :: s) x k1 → Run G (.sw cs a b) (c :: s) x (k1 + 1)
  | swNil {cs a b x k1} : Run G b [] x k1 → Run G (.sw cs a b) [] x (k1 + 1)

theorem Run.big {G : Rule → PExp} {e s x k} (h : Run G e s x k) : ∃ y, Big G e s y ∧ y.map Prod.snd = x := by
  induction h with
  | eps => exact ⟨_, .eps, rfl⟩
  | anyOk => exact ⟨_, .anyOk, rfl⟩
  | anyFail => exact ⟨_, .anyFail, rfl⟩
  | chrOk => exact ⟨_, .chrOk, rfl⟩
  | chrNil => exact ⟨_, .chrNil, rfl⟩
  | chrFail h => exact ⟨_, .chrFail h, rfl⟩
  | rngOk h1 h2 => exact ⟨_, .rngOk h1 h2, rfl⟩
  | rngNil => exact ⟨_, .rngNil, rfl⟩
  | rngFail h => exact ⟨_, .rngFail h, rfl⟩
  | seqOk _ _ ih1 ih2 =>
    obtain ⟨y1, h1, e1⟩ := ih1
    obtain ⟨y2, h2, e2⟩ := ih2
    cases y1 with
    | none => cases e1
    | some p =>
      obtain ⟨ev, r⟩ := p; cases e1
      cases y2 with
      | none => exact ⟨_, .seqFail2 h1 h2, e2⟩
      | some p => exact ⟨_, .seqOk h1 h2, e2⟩
  | seqFail _ ih =>
    obtain ⟨y1, h1, e1⟩ := ih
    cases y1 with
    | none => exact ⟨_, .seqFail1 h1, rfl⟩
    | some p => cases e1
  | alt1 _ ih =>
    obtain ⟨y1, h1, e1⟩ := ih
    cases y1 with
    | none => cases e1
    | some p => exact ⟨_, .alt1 h1, e1⟩
  | alt2 _ _ ih1 ih2 =>
    obtain ⟨y1, h1, e1⟩ := ih1
    obtain ⟨y2, h2, e2⟩ := ih2
    cases y1 with
    | none => exact ⟨_, .alt2 h1 h2, e2⟩
    | some p => cases e1
  | starNil _ ih =>
    obtain ⟨y1, h1, e1⟩ := ih
    cases y1 with
    | none => exact ⟨_, .starNil h1, rfl⟩
    | some p => cases e1
  | starCons _ _ ih1 ih2 =>
    obtain ⟨y1, h1, e1⟩ := ih1
    obtain ⟨y2, h2, e2⟩ := ih2
    cases y1 with
    | none => cases e1
    | some p =>
      obtain ⟨ev, r⟩ := p; cases e1
      cases y2 with
      | none => cases e2
      | some p => exact ⟨_, .starCons h1 h2, e2⟩
  | optSome _ ih =>
    obtain ⟨y1, h1, e1⟩ := ih
    cases y1 with
    | none => cases e1
    | some p => exact ⟨_, .optSome h1, e1⟩
  | optNone _ ih =>
    obtain ⟨y1, h1, e1⟩ := ih
    cases y1 with
    | none => exact ⟨_, .optNone h1, rfl⟩
    | some p => cases e1
  | notFail _ ih =>
    obtain ⟨y1, h1, e1⟩ := ih
    cases y1 with
    | none => cases e1
    | some p => exact ⟨_, .notFail h1, rfl⟩
  | notOk _ ih =>
    obtain ⟨y1, h1, e1⟩ := ih
    cases y1 with
    | none => exact ⟨_, .notOk h1, rfl⟩
    | some p => cases e1
  | call _ ih => obtain ⟨y1, h1, e1⟩ := ih; exact ⟨_, .call h1, e1⟩
  | txt _ ih =>
    obtain ⟨y1, h1, e1⟩ := ih
    cases y1 with
    | none => exact ⟨_, .txtFail h1, e1⟩
    | some p => exact ⟨_, .txtOk h1, e1⟩
  | act => exact ⟨_, .act, rfl⟩
  | swIn h _ ih => obtain ⟨y1, h1, e1⟩ := ih; exact ⟨_, .swIn h h1, e1⟩
  | swOut h _ ih => obtain ⟨y1, h1, e1⟩ := ih; exact ⟨_, .swOut h h1, e1⟩
  | swNil _ ih => obtain ⟨y1, h1, e1⟩ := ih; exact ⟨_, .swNil h1, e1⟩

theorem Run.big_some {G : Rule → PExp} {e s r k} (h : Run G e s (some r) k) : ∃ ev, Big G e s (some (ev, r)) := by
  obtain ⟨y, hb, he⟩ := h.big
  cases y with
  | none => cases he
  | some p => obtain ⟨ev, r'⟩ := p; cases he; exact ⟨ev, hb⟩

theorem Run.big_none {G : Rule → PExp} {e s k} (h : Run G e s none k) : Big G e s none := by
  obtain ⟨y, hb, he⟩ := h.big
  cases y with
  | none => exact hb
  | some p => cases he

theorem Run.le {G : Rule → PExp} {e s r k} (h : Run G e s (some r) k) : r.length ≤ s.length := by
  obtain ⟨ev, hb⟩ := h.big_some; exact hb.length_le

/-- What remains after a functional result. -/
def Res.left : Res → Option Str
  | .ok _ r => some r
  | _ => none

theorem stepsStar_run {G : Rule → PExp} {s0 : Str} {p : St → Out} {q : Str → Res} {c : St → Nat} {a : PExp}
    (hpq : ∀ st s, Rel s0 st s → Match s0 st (p st) (q s))
    (hc : ∀ st s, Rel s0 st s → q s ≠ .div → Run G a s (q s).left (c st)) :
    ∀ n st s, Rel s0 st s → starLoop q n s ≠ .div → Run G (.star a) s (starLoop q n s).left (stepsStar p c n st) ∧
      (starLoop q n s).left ≠ none := by
  intro n
  induction n with
  | zero => intro st s _ h; exact absurd rfl h
  | succ n ih =>
    intro st s hr h
    have hm := hpq st s hr
    have hcs := hc st s hr
    unfold starLoop at h ⊢
    unfold stepsStar
    cases hq : q s with
    | div => rw [hq] at h; exact absurd rfl h
    | fail =>
      rw [hq] at hm hcs
      obtain ⟨st', ho, _⟩ := hm
      rw [ho]
      exact ⟨.starNil (hcs (by simp)), by simp [Res.left]⟩
    | ok e1 r1 =>
      rw [hq] at hm hcs h
      obtain ⟨st1, toks1, ho, hr1, _⟩ := hm
      rw [ho]
      simp only at h ⊢
      have hn : starLoop q n r1 ≠ .div := by intro hd; simp [hd] at h
      have h2 := ih st1 r1 hr1 hn
      cases hs : starLoop q n r1 with
      | div => exact absurd hs hn
      | fail => rw [hs] at h2; exact absurd rfl h2.2
      | ok e2 r2 =>
        rw [hs] at h2
        exact ⟨.starCons (hcs (by simp)) h2.1, by simp [Res.left]⟩

theorem steps_run {G : Rule → PExp} {s0 : Str} {envX : Rule → St → Out} {envD : Rule → Str → Res} {cost : Rule → St → Nat}
    (henv : ∀ r st s, Rel s0 st s → Match s0 st (envX r st) (envD r s))
    (hlen : ∀ a s e t, denote envD a s = .ok e t → t.length ≤ s.length)
    (hcost : ∀ r st s, Rel s0 st s → envD r s ≠ .div → Run G (.call r) s (envD r s).left (cost r st)) :
    ∀ e st s, Rel s0 st s → denote envD e s ≠ .div →
      Run G e s (denote envD e s).left (steps (mkBuf s0) envX cost e st) := by
  intro e
  induction e with
  | eps => intro st s _ _; exact .eps
  | any => intro st s _ _; cases s with
    | nil => exact .anyFail
    | cons c t => exact .anyOk
  | chr c => intro st s _ _; cases s with
    | nil => exact .chrNil
    | cons x t =>
      by_cases hx : x = c
      · subst hx; simpa [denote, Res.left, steps] using Run.chrOk
      · simpa [denote, hx, Res.left, steps] using Run.chrFail hx
  | rng lo hi => intro st s _ _; cases s with
    | nil => exact .rngNil
    | cons x t =>
      by_cases hx : lo.toNat ≤ x.toNat ∧ x.toNat ≤ hi.toNat
      · simpa [denote, hx, Res.left, steps] using Run.rngOk hx.1 hx.2
      · simp only [denote, if_neg hx, Res.left, steps]; exact Run.rngFail hx
  | seq a b iha ihb =>
    intro st s hr h
    have hm := exec_match henv hlen a st s hr
    have ha := iha st s hr
    unfold denote at h ⊢
    unfold steps
    cases hd : denote envD a s with
    | div => simp [hd] at h
    | fail =>
      rw [hd] at hm ha; obtain ⟨st', ho, _⟩ := hm; rw [ho]
      exact .seqFail (ha (by simp))
    | ok e1 r1 =>
      rw [hd] at hm ha h
      obtain ⟨st1, toks1, ho, hr1, _⟩ := hm
      rw [ho]
      simp only at h ⊢
      have hn : denote envD b r1 ≠ .div := by intro hdd; simp [hdd] at h
      have hb := ihb st1 r1 hr1 hn
      cases hd2 : denote envD b r1 with
      | div => exact absurd hd2 hn
      | fail => rw [hd2] at hb; exact .seqOk (ha (by simp)) hb
      | ok e2 r2 => rw [hd2] at hb; exact .seqOk (ha (by simp)) hb
  | alt a b iha ihb =>
    intro st s hr h
    have hm := exec_match henv hlen a st s hr
    have ha := iha st s hr
    unfold denote at h ⊢
    unfold steps
    cases hd : denote envD a s with
    | div => simp [hd] at h
    | fail =>
      rw [hd] at hm ha h
      obtain ⟨st', ho, hf⟩ := hm; rw [ho]
      exact .alt2 (ha (by simp)) (ihb _ s (hf.restore hr) h)
    | ok e1 r1 =>
      rw [hd] at hm ha
      obtain ⟨st1, toks1, ho, hr1, _⟩ := hm
      rw [ho]
      exact .alt1 (ha (by simp))
  | star a iha =>
    intro st s hr h
    unfold denote at h ⊢
    unfold steps
    have hl := hr.len
    have hp := hr.pos_le
    have : (mkBuf s0).length - st.pos = s.length + 1 := by simp [mkBuf]; omega
    rw [this]
    exact (stepsStar_run (exec_match henv hlen a) iha _ st s hr h).1
  | opt a iha =>
    intro st s hr h
    have ha := iha st s hr
    unfold denote at h ⊢
    unfold steps
    cases hd : denote envD a s with
    | div => simp [hd] at h
    | fail => rw [hd] at ha; exact .optNone (ha (by simp))
    | ok e1 r1 => rw [hd] at ha; exact .optSome (ha (by simp))
  | notP a iha =>
    intro st s hr h
    have ha := iha st s hr
    unfold denote at h ⊢
    unfold steps
    cases hd : denote envD a s with
    | div => simp [hd] at h
    | fail => rw [hd] at ha; exact .notOk (ha (by simp))
    | ok e1 r1 => rw [hd] at ha; exact .notFail (ha (by simp))
  | call r => intro st s hr h; exact hcost r st s hr h
  | txt a iha =>
    intro st s hr h
    have ha := iha st s hr
    unfold denote at h ⊢
    unfold steps
    cases hd : denote envD a s with
    | div => simp [hd] at h
    | fail => rw [hd] at ha; exact .txt (ha (by simp))
    | ok e1 r1 => rw [hd] at ha; exact .txt (ha (by simp))
  | act n => intro st s _ _; exact .act
  | sw cs a b iha ihb =>
    intro st s hr h
    cases s with
    | nil =>
      simp only [steps, mkBuf_nil hr]
      have : endSymbol ∉ cs.map Char.toNat := by
        intro hm
        obtain ⟨c, _, hc⟩ := List.mem_map.mp hm
        exact Char.toNat_ne_end c hc
      rw [if_neg this]
      exact .swNil (ihb st [] hr h)
    | cons x t =>
      simp only [steps, mkBuf_cons hr]
      by_cases hx : x ∈ cs
      · have e : denote envD (.sw cs a b) (x :: t) = denote envD a (x :: t) := by simp [denote, hx]
        rw [if_pos (List.mem_map.mpr ⟨x, hx, rfl⟩)]
        rw [e] at h ⊢; exact .swIn hx (iha _ _ hr h)
      · have e : denote envD (.sw cs a b) (x :: t) = denote envD b (x :: t) := by simp [denote, hx]
        have : x.toNat ∉ cs.map Char.toNat := by
          intro hm
          obtain ⟨c, hc, hcx⟩ := List.mem_map.mp hm
          exact hx (Char.toNat_inj' hcx ▸ hc)
        rw [if_neg this]
        rw [e] at h ⊢; exact .swOut hx (ihb _ _ hr h)

theorem stepsN_run (G : Rule → PExp) (s0 : Str) : ∀ n r st s, Rel s0 st s → denoteN G n r s ≠ .div →
    Run G (.call r) s (denoteN G n r s).left (stepsN (mkBuf s0) G n r st) := by
  intro n
  induction n with
  | zero => intro r st s _ h; exact absurd rfl h
  | succ n ih =>
    intro r st s hr h
    have hlen : ∀ a s e t, denote (denoteN G n) a s = .ok e t → t.length ≤ s.length := by
      intro a s e t h
      have := denote_big (G := G) (denoteN_big n) a s (by rw [h]; simp)
      rw [h] at this; exact Big.length_le this
    exact .call (steps_run (execN_match G s0 n) hlen ih (G r) st s hr h)

/-- The step count of `Parse` is the step count of a derivation of `Grammar`. -/
theorem parseSteps_run (s : Str) : ∃ x, Run G (.call .Grammar) s x (parseSteps s) := by
  have hnd : denoteN G (depthBound s.length) .Grammar s ≠ .div :=
    denoteN_ne_div _ _ _ (by show _ + 12 < _; unfold depthBound; omega)
  exact ⟨_, stepsN_run G s _ _ _ _ (initSt_rel s) hnd⟩

end Verif
