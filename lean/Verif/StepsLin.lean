import Verif.Steps
import Verif.First

/-! # A syntactic analysis of step counts

`costOf` computes, for the parts of the grammar that do not contain expressions, a bound on the number of steps that is linear
in the length of the input. -/

namespace Verif

/-- Kinds of bounds on the number of steps of an expression. -/
inductive Cls where
  /-- at most `a` steps -/
  | con (a : Nat)
  /-- on success at most `a` steps per consumed character (plus `a`), on failure linear -/
  | tig (a : Nat)
  /-- at most `a` steps per character of the remaining input (plus `a`) -/
  | lin (a : Nat)
  deriving DecidableEq, Repr

/-- The coefficient. -/
def Cls.coef : Cls → Nat
  | .con a => a
  | .tig a => a
  | .lin a => a

/-- One more step. -/
def Cls.up : Cls → Cls
  | .con a => .con (a + 1)
  | .tig a => .tig (a + 1)
  | .lin a => .lin (a + 1)

/-- What a bound says about an expression. -/
def Cls.Holds (c : Cls) (e : PExp) : Prop :=
  match c with
  | .con a => ∀ s x k, Run G e s x k → k ≤ a
  | .tig a => (∀ s r k, Run G e s (some r) k → k ≤ a * (s.length - r.length + 1)) ∧
      ∀ s k, Run G e s none k → k ≤ a * (s.length + 1)
  | .lin a => ∀ s x k, Run G e s x k → k ≤ a * (s.length + 1)

theorem Cls.Holds.tig {c : Cls} {e} (h : c.Holds e) (hc : ∀ a, c ≠ .lin a) : (Cls.tig c.coef).Holds e := by
  cases c with
  | con a =>
    refine ⟨fun s r k hr => ?_, fun s k hr => ?_⟩
    · exact Nat.le_trans (h s _ k hr) (Nat.le_mul_of_pos_right _ (by omega))
    · exact Nat.le_trans (h s _ k hr) (Nat.le_mul_of_pos_right _ (by omega))
  | tig a => exact h
  | lin a => exact absurd rfl (hc a)

theorem Cls.Holds.lin {c : Cls} {e} (h : c.Holds e) : (Cls.lin c.coef).Holds e := by
  cases c with
  | con a => intro s x k hr; exact Nat.le_trans (h s _ k hr) (Nat.le_mul_of_pos_right _ (by omega))
  | tig a =>
    intro s x k hr
    cases x with
    | none => exact h.2 s k hr
    | some r => exact Nat.le_trans (h.1 s r k hr) (Nat.mul_le_mul_left _ (by omega))
  | lin a => exact h

/-- The kind of bound of a sequence. -/
def Cls.seq : Cls → Cls → Cls
  | .con a, .con b => .con (a + b + 1)
  | .lin a, d => .lin (a + d.coef + 1)
  | c, .lin b => .lin (c.coef + b + 1)
  | c, d => .tig (c.coef + d.coef + 1)

/-- The kind of bound of a choice. -/
def Cls.alt : Cls → Cls → Cls
  | .con a, .con b => .con (a + b + 1)
  | .con a, .tig b => .tig (a + b + 1)
  | c, d => .lin (c.coef + d.coef + 1)

/-- The kind of bound of a switch. -/
def Cls.sw : Cls → Cls → Cls
  | .con a, .con b => .con (a + b + 1)
  | .lin a, d => .lin (a + d.coef + 1)
  | c, .lin b => .lin (c.coef + b + 1)
  | c, d => .tig (c.coef + d.coef + 1)

/-- The kind of bound of an optional expression or a lookahead. -/
def Cls.opt : Cls → Cls
  | .con a => .con (a + 1)
  | c => .lin (c.coef + 1)

/-- The kind of bound of a repetition. -/
def Cls.star : Cls → Option Cls
  | .con a => some (.tig (a + 1))
  | .tig a => some (.lin (2 * a + 1))
  | .lin _ => none

/-- The expression consumes something and does not begin with a comment character. -/
def noDash (e : PExp) : Bool :=
  !nullable nulG e && !(first nulG firstG e).has '-' && !(first nulG firstG e).has '/'

/-- The analysis.  `sc` is the cost per character of skipping blanks that are not followed by a comment character. -/
def costOf (sc : Option Nat) (cl : Rule → Option Cls) : PExp → Option Cls
  | .eps => some (.con 1)
  | .any => some (.con 1)
  | .chr _ => some (.con 1)
  | .rng _ _ => some (.con 1)
  | .seq a b =>
    match costOf sc cl a, costOf sc cl b with
    | some x, some y =>
      match sc, y with
      | some n, .con m => if a = .call .sp ∧ noDash b then some (.tig (n + m + 1)) else some (x.seq y)
      | some n, .tig m => if a = .call .sp ∧ noDash b then some (.tig (n + m + 1)) else some (x.seq y)
      | _, _ => some (x.seq y)
    | _, _ => none
  | .alt a b =>
    match costOf sc cl a, costOf sc cl b with
    | some x, some y => some (x.alt y)
    | _, _ => none
  | .star a =>
    match costOf sc cl a with
    | some x => if nullable nulG a then none else x.star
    | none => none
  | .opt a => (costOf sc cl a).map Cls.opt
  | .notP a => (costOf sc cl a).map Cls.opt
  | .call r => cl r
  | .txt a => (costOf sc cl a).map Cls.up
  | .act _ => some (.con 1)
  | .sw _ a b =>
    match costOf sc cl a, costOf sc cl b with
    | some x, some y => some (x.sw y)
    | _, _ => none

/-- The analysis of the rules, with `base` for the rules that are treated by hand. -/
def costR (sc : Option Nat) (base : Rule → Option Cls) : Nat → Rule → Option Cls
  | 0, r => base r
  | n + 1, r =>
    match base r with
    | some c => some c
    | none => (costOf sc (costR sc base n) (G r)).map Cls.up

theorem seq_holds {x y : Cls} {a b} (ha : x.Holds a) (hb : y.Holds b) : (x.seq y).Holds (.seq a b) := by
  have hlin : ∀ c, (Cls.lin c) = x.seq y → x.coef + y.coef + 1 ≤ c → (x.seq y).Holds (.seq a b) := by
    intro c hc hle
    rw [← hc]
    intro s z k h
    have la := ha.lin
    have lb := hb.lin
    refine Nat.le_trans ?_ (Nat.mul_le_mul_right _ hle)
    rw [Nat.add_mul, Nat.add_mul, Nat.one_mul]
    cases h with
    | seqOk h1 h2 =>
      have e1 := la _ _ _ h1
      have e2 := lb _ _ _ h2
      have := Nat.mul_le_mul_left y.coef (Nat.add_le_add_right h1.le 1)
      omega
    | seqFail h1 => have e1 := la _ _ _ h1; omega
  have htig : (∀ c, x ≠ .lin c) → (∀ c, y ≠ .lin c) → (Cls.tig (x.coef + y.coef + 1)).Holds (.seq a b) := by
    intro hx hy
    have ta := ha.tig hx
    have tb := hb.tig hy
    refine ⟨fun s r k h => ?_, fun s k h => ?_⟩
    · rw [Nat.add_mul, Nat.add_mul, Nat.one_mul]
      cases h with
      | @seqOk _ _ _ r1 _ _ _ h1 h2 =>
        have e1 := ta.1 _ _ _ h1
        have e2 := tb.1 _ _ _ h2
        have l1 := h1.le
        have l2 := h2.le
        have := Nat.mul_le_mul_left x.coef (show s.length - r1.length + 1 ≤ s.length - r.length + 1 by omega)
        have := Nat.mul_le_mul_left y.coef (show r1.length - r.length + 1 ≤ s.length - r.length + 1 by omega)
        omega
    · rw [Nat.add_mul, Nat.add_mul, Nat.one_mul]
      cases h with
      | @seqOk _ _ _ r1 _ _ _ h1 h2 =>
        have e1 := ta.1 _ _ _ h1
        have e2 := tb.2 _ _ h2
        have l1 := h1.le
        have := Nat.mul_le_mul_left x.coef (show s.length - r1.length + 1 ≤ s.length + 1 by omega)
        have := Nat.mul_le_mul_left y.coef (show r1.length + 1 ≤ s.length + 1 by omega)
        omega
      | seqFail h1 => have e1 := ta.2 _ _ h1; omega
  cases x with
  | lin c => exact hlin _ rfl (Nat.le_refl _)
  | con c =>
    cases y with
    | con d =>
      intro s z k h
      cases h with
      | seqOk h1 h2 => have := ha _ _ _ h1; have := hb _ _ _ h2; omega
      | seqFail h1 => have := ha _ _ _ h1; omega
    | tig d => exact htig (by simp) (by simp)
    | lin d => exact hlin _ rfl (Nat.le_refl _)
  | tig c =>
    cases y with
    | con d => exact htig (by simp) (by simp)
    | tig d => exact htig (by simp) (by simp)
    | lin d => exact hlin _ rfl (Nat.le_refl _)

theorem alt_holds {x y : Cls} {a b} (ha : x.Holds a) (hb : y.Holds b) : (x.alt y).Holds (.alt a b) := by
  have hlin : (Cls.lin (x.coef + y.coef + 1)).Holds (.alt a b) := by
    intro s z k h
    have la := ha.lin
    have lb := hb.lin
    rw [Nat.add_mul, Nat.add_mul, Nat.one_mul]
    cases h with
    | alt1 h1 => have e1 := la _ _ _ h1; omega
    | alt2 h1 h2 => have e1 := la _ _ _ h1; have e2 := lb _ _ _ h2; omega
  cases x with
  | lin c => exact hlin
  | tig c => exact hlin
  | con c =>
    cases y with
    | con d =>
      intro s z k h
      cases h with
      | alt1 h1 => have := ha _ _ _ h1; omega
      | alt2 h1 h2 => have := ha _ _ _ h1; have := hb _ _ _ h2; omega
    | lin d => exact hlin
    | tig d =>
      refine ⟨fun s r k h => ?_, fun s k h => ?_⟩
      · rw [Nat.add_mul, Nat.add_mul, Nat.one_mul]
        cases h with
        | alt1 h1 =>
          have := ha _ _ _ h1
          have := Nat.le_mul_of_pos_right c (show 0 < s.length - r.length + 1 by omega)
          omega
        | alt2 h1 h2 =>
          have := ha _ _ _ h1; have := hb.1 _ _ _ h2
          have := Nat.le_mul_of_pos_right c (show 0 < s.length - r.length + 1 by omega)
          omega
      · rw [Nat.add_mul, Nat.add_mul, Nat.one_mul]
        cases h with
        | alt2 h1 h2 =>
          have := ha _ _ _ h1; have := hb.2 _ _ h2
          have := Nat.le_mul_of_pos_right c (show 0 < s.length + 1 by omega)
          omega

theorem sw_holds {x y : Cls} {cs a b} (ha : x.Holds a) (hb : y.Holds b) : (x.sw y).Holds (.sw cs a b) := by
  have hlin : ∀ c, (Cls.lin c) = x.sw y → x.coef + y.coef + 1 ≤ c → (x.sw y).Holds (.sw cs a b) := by
    intro c hc hle
    rw [← hc]
    intro s z k h
    have la := ha.lin
    have lb := hb.lin
    refine Nat.le_trans ?_ (Nat.mul_le_mul_right _ hle)
    rw [Nat.add_mul, Nat.add_mul, Nat.one_mul]
    cases h with
    | swIn _ h1 => have e1 := la _ _ _ h1; omega
    | swOut _ h1 => have e1 := lb _ _ _ h1; omega
    | swNil h1 => have e1 := lb _ _ _ h1; omega
  have htig : (∀ c, x ≠ .lin c) → (∀ c, y ≠ .lin c) → (Cls.tig (x.coef + y.coef + 1)).Holds (.sw cs a b) := by
    intro hx hy
    have ta := ha.tig hx
    have tb := hb.tig hy
    refine ⟨fun s r k h => ?_, fun s k h => ?_⟩
    · rw [Nat.add_mul, Nat.add_mul, Nat.one_mul]
      cases h with
      | swIn _ h1 => have e1 := ta.1 _ _ _ h1; omega
      | swOut _ h1 => have e1 := tb.1 _ _ _ h1; omega
      | swNil h1 => have e1 := tb.1 _ _ _ h1; omega
    · rw [Nat.add_mul, Nat.add_mul, Nat.one_mul]
      cases h with
      | swIn _ h1 => have e1 := ta.2 _ _ h1; omega
      | swOut _ h1 => have e1 := tb.2 _ _ h1; omega
      | swNil h1 => have e1 := tb.2 _ _ h1; omega
  cases x with
  | lin c => exact hlin _ rfl (Nat.le_refl _)
  | con c =>
    cases y with
    | con d =>
      intro s z k h
      cases h with
      | swIn _ h1 => have e1 := ha _ _ _ h1; omega
      | swOut _ h1 => have e1 := hb _ _ _ h1; omega
      | swNil h1 => have e1 := hb _ _ _ h1; omega
    | tig d => exact htig (by simp) (by simp)
    | lin d => exact hlin _ rfl (Nat.le_refl _)
  | tig c =>
    cases y with
    | con d => exact htig (by simp) (by simp)
    | tig d => exact htig (by simp) (by simp)
    | lin d => exact hlin _ rfl (Nat.le_refl _)

theorem up_holds {x : Cls} {a b : PExp} (ha : x.Holds a) (h : ∀ s z k, Run G b s z k → ∃ k', k = k' + 1 ∧ Run G a s z k') :
    x.up.Holds b := by
  cases x with
  | con c => intro s z k hr; obtain ⟨k', rfl, hr'⟩ := h _ _ _ hr; have := ha _ _ _ hr'; omega
  | tig c =>
    refine ⟨fun s r k hr => ?_, fun s k hr => ?_⟩
    · obtain ⟨k', rfl, hr'⟩ := h _ _ _ hr; have := ha.1 _ _ _ hr'; rw [Nat.add_mul]; omega
    · obtain ⟨k', rfl, hr'⟩ := h _ _ _ hr; have := ha.2 _ _ hr'; rw [Nat.add_mul]; omega
  | lin c => intro s z k hr; obtain ⟨k', rfl, hr'⟩ := h _ _ _ hr; have := ha _ _ _ hr'; rw [Nat.add_mul]; omega

theorem opt_holds {x : Cls} {a b : PExp} (ha : x.Holds a) (h : ∀ s z k, Run G b s z k → ∃ z' k', k = k' + 1 ∧ Run G a s z' k') :
    x.opt.Holds b := by
  have hlin : (Cls.lin (x.coef + 1)).Holds b := by
    intro s z k hr
    obtain ⟨z', k', rfl, hr'⟩ := h _ _ _ hr
    have := ha.lin _ _ _ hr'
    rw [Nat.add_mul]; omega
  cases x with
  | con c => intro s z k hr; obtain ⟨z', k', rfl, hr'⟩ := h _ _ _ hr; have := ha _ _ _ hr'; omega
  | tig c => exact hlin
  | lin c => exact hlin

theorem Run.lt {e s r k} (h : Run G e s (some r) k) (hn : nullable nulG e = false) : r.length < s.length := by
  obtain ⟨ev, hb⟩ := h.big_some; exact Big.consumes' nulG_ok hb _ _ rfl hn

theorem star_con {a : PExp} {c : Nat} (ha : (Cls.con c).Holds a) (hn : nullable nulG a = false) {e s z k} (h : Run G e s z k) :
    e = .star a → ∃ r, z = some r ∧ k ≤ (c + 1) * (s.length - r.length + 1) := by
  induction h with
  | starNil h1 => rintro ⟨⟩; refine ⟨_, rfl, ?_⟩; have := ha _ _ _ h1; rw [Nat.sub_self]; omega
  | @starCons _ s r1 r2 k1 k2 h1 h2 _ ih =>
    intro he
    obtain ⟨r, hr, hk⟩ := ih he
    cases he
    cases hr
    refine ⟨_, rfl, ?_⟩
    have := ha _ _ _ h1
    have l1 := h1.lt hn
    have l2 := h2.le
    have := Nat.mul_le_mul_left (c + 1) (show r1.length - r2.length + 1 + 1 ≤ s.length - r2.length + 1 by omega)
    rw [Nat.mul_add (c + 1) _ 1, Nat.mul_one] at this
    omega
  | _ => rintro ⟨⟩

theorem star_tig {a : PExp} {c : Nat} (ha : (Cls.tig c).Holds a) (hn : nullable nulG a = false) {e s z k} (h : Run G e s z k) :
    e = .star a → ∃ r, z = some r ∧ k ≤ (2 * c + 1) * (s.length + 1) := by
  induction h with
  | @starNil _ s k1 h1 =>
    rintro ⟨⟩
    refine ⟨_, rfl, ?_⟩
    have := ha.2 _ _ h1
    have := Nat.mul_le_mul_right (s.length + 1) (show c + 1 ≤ 2 * c + 1 by omega)
    rw [Nat.add_mul, Nat.one_mul] at this
    omega
  | @starCons _ s r1 r2 k1 k2 h1 h2 _ ih =>
    intro he
    obtain ⟨r, hr, hk⟩ := ih he
    cases he
    cases hr
    refine ⟨_, rfl, ?_⟩
    have e1 := ha.1 _ _ _ h1
    have l1 := h1.lt hn
    obtain ⟨d, hd⟩ : ∃ d, s.length = r1.length + d + 1 := ⟨s.length - r1.length - 1, by omega⟩
    rw [hd] at e1 ⊢
    rw [show r1.length + d + 1 - r1.length + 1 = d + 2 by omega] at e1
    rw [show r1.length + d + 1 + 1 = (r1.length + 1) + (d + 1) by omega, Nat.mul_add]
    have : c * (d + 2) + 1 ≤ (2 * c + 1) * (d + 1) := by
      rw [Nat.add_mul, Nat.one_mul, Nat.mul_assoc, Nat.mul_add c d 2, Nat.mul_add c d 1]
      omega
    omega
  | _ => rintro ⟨⟩

/-- Skipping blanks costs `n` per character when no comment character follows. -/
def SpTight (n : Nat) : Prop :=
  (∀ s r k, Run G (.call .sp) s (some r) k → (∀ c t, r = c :: t → c ≠ '-' ∧ c ≠ '/') → k ≤ n * (s.length - r.length + 1)) ∧
  ∀ s x k, Run G (.call .sp) s x k → k ≤ n * (s.length + 1) ∧ x ≠ none

theorem sp_seq_holds {n : Nat} (hsp : SpTight n) {y : Cls} (hy : ∀ c, y ≠ .lin c) {b} (hb : y.Holds b) (hd : noDash b = true) :
    (Cls.tig (n + y.coef + 1)).Holds (.seq (.call .sp) b) := by
  simp only [noDash, Bool.and_eq_true, Bool.not_eq_true'] at hd
  have tb := hb.tig hy
  refine ⟨fun s r k h => ?_, fun s k h => ?_⟩
  · rw [Nat.add_mul, Nat.add_mul, Nat.one_mul]
    cases h with
    | @seqOk _ _ _ r1 _ _ _ h1 h2 =>
      have l1 := h1.le
      have l2 := h2.lt hd.1.1
      have e2 := tb.1 _ _ _ h2
      have e1 := hsp.1 _ _ _ h1 (by
        rintro c t rfl
        obtain ⟨ev, hbig⟩ := h2.big_some
        have := Big.first' nulG_ok firstG_ok hbig c t _ _ rfl rfl (by intro h; rw [h] at l2; omega)
        constructor
        · rintro rfl; rw [hd.1.2] at this; cases this
        · rintro rfl; rw [hd.2] at this; cases this)
      have := Nat.mul_le_mul_left n (show s.length - r1.length + 1 ≤ s.length - r.length + 1 by omega)
      have := Nat.mul_le_mul_left y.coef (show r1.length - r.length + 1 ≤ s.length - r.length + 1 by omega)
      omega
  · rw [Nat.add_mul, Nat.add_mul, Nat.one_mul]
    cases h with
    | @seqOk _ _ _ r1 _ _ _ h1 h2 =>
      have e1 := (hsp.2 _ _ _ h1).1
      have e2 := tb.2 _ _ h2
      have := Nat.mul_le_mul_left y.coef (show r1.length + 1 ≤ s.length + 1 by have := h1.le; omega)
      omega
    | seqFail h1 => exact absurd rfl (hsp.2 _ _ _ h1).2

theorem costOf_holds {sc : Option Nat} {cl : Rule → Option Cls} (hsc : ∀ n, sc = some n → SpTight n)
    (hcl : ∀ r c, cl r = some c → c.Holds (.call r)) : ∀ e c, costOf sc cl e = some c → c.Holds e := by
  intro e
  induction e with
  | eps => rintro c ⟨⟩ s x k h; cases h; exact Nat.le_refl _
  | any => rintro c ⟨⟩ s x k h; cases h <;> exact Nat.le_refl _
  | chr d => rintro c ⟨⟩ s x k h; cases h <;> exact Nat.le_refl _
  | rng d d' => rintro c ⟨⟩ s x k h; cases h <;> exact Nat.le_refl _
  | act n => rintro c ⟨⟩ s x k h; cases h; exact Nat.le_refl _
  | seq a b iha ihb =>
    intro c hc
    unfold costOf at hc
    split at hc
    case h_2 => cases hc
    case h_1 x y hx hy =>
      have ha := iha _ hx
      have hb := ihb _ hy
      have hgen := seq_holds ha hb
      split at hc
      · split at hc
        · rename_i hh; cases hc; rw [hh.1]; exact sp_seq_holds (hsc _ rfl) (by simp) hb hh.2
        · cases hc; exact hgen
      · split at hc
        · rename_i hh; cases hc; rw [hh.1]; exact sp_seq_holds (hsc _ rfl) (by simp) hb hh.2
        · cases hc; exact hgen
      · cases hc; exact hgen
  | alt a b iha ihb =>
    intro c hc
    unfold costOf at hc
    split at hc
    case h_2 => cases hc
    case h_1 x y hx hy => cases hc; exact alt_holds (iha _ hx) (ihb _ hy)
  | star a iha =>
    intro c hc
    unfold costOf at hc
    split at hc
    case h_2 => cases hc
    case h_1 x hx =>
      have ha := iha _ hx
      split at hc
      · cases hc
      · rename_i hn
        have hn : nullable nulG a = false := by simpa using hn
        cases x with
        | con d =>
          cases hc
          refine ⟨fun s r k h => ?_, fun s k h => ?_⟩
          · obtain ⟨r', hr, hk⟩ := star_con ha hn h rfl; cases hr; exact hk
          · obtain ⟨r', hr, hk⟩ := star_con ha hn h rfl; cases hr
        | tig d =>
          cases hc
          intro s z k h
          obtain ⟨r', hr, hk⟩ := star_tig ha hn h rfl
          exact hk
        | lin d => cases hc
  | opt a iha =>
    intro c hc
    obtain ⟨x, hx, rfl⟩ := Option.map_eq_some_iff.mp hc
    refine opt_holds (iha _ hx) ?_
    intro s z k h
    cases h with
    | optSome h => exact ⟨_, _, rfl, h⟩
    | optNone h => exact ⟨_, _, rfl, h⟩
  | notP a iha =>
    intro c hc
    obtain ⟨x, hx, rfl⟩ := Option.map_eq_some_iff.mp hc
    refine opt_holds (iha _ hx) ?_
    intro s z k h
    cases h with
    | notFail h => exact ⟨_, _, rfl, h⟩
    | notOk h => exact ⟨_, _, rfl, h⟩
  | call r => intro c hc; exact hcl r c hc
  | txt a iha =>
    intro c hc
    obtain ⟨x, hx, rfl⟩ := Option.map_eq_some_iff.mp hc
    refine up_holds (iha _ hx) ?_
    intro s z k h
    cases h with
    | txt h => exact ⟨_, rfl, h⟩
  | sw cs a b iha ihb =>
    intro c hc
    unfold costOf at hc
    split at hc
    case h_2 => cases hc
    case h_1 x y hx hy => cases hc; exact sw_holds (iha _ hx) (ihb _ hy)

theorem costR_holds {sc : Option Nat} {base : Rule → Option Cls} (hsc : ∀ n, sc = some n → SpTight n)
    (hb : ∀ r c, base r = some c → c.Holds (.call r)) : ∀ n r c, costR sc base n r = some c → c.Holds (.call r) := by
  intro n
  induction n with
  | zero => exact hb
  | succ n ih =>
    intro r c hc
    unfold costR at hc
    split at hc
    case h_1 c' hc' => cases hc; exact hb _ _ hc'
    case h_2 =>
      obtain ⟨x, hx, rfl⟩ := Option.map_eq_some_iff.mp hc
      refine up_holds (costOf_holds hsc ih _ _ hx) ?_
      intro s z k h
      cases h with
      | call h => exact ⟨_, rfl, h⟩

/-! ## Blanks -/

theorem costR0_holds {n r c} (h : costR none (fun _ => none) n r = some c) : c.Holds (.call r) :=
  costR_holds (by simp) (by simp) n r c h

theorem costOf0_holds {e c} (n : Nat) (h : costOf none (costR none (fun _ => none) n) e = some c) : c.Holds e :=
  costOf_holds (by simp) (fun _ _ h => costR0_holds h) e c h

theorem spaceComment_tig : (Cls.tig 45).Holds (.call .SpaceComment) := costR0_holds (n := 9) (by decide)
theorem space_con : (Cls.con 13).Holds (.call .Space) := costR0_holds (n := 9) (by decide)
theorem identifier_tig : (Cls.tig 29).Holds (.call .Identifier) := costR0_holds (n := 9) (by decide)

theorem spaceComment_fail {s k} (h : Run G (.call .SpaceComment) s none k) (hs : ∀ c t, s = c :: t → c ≠ '-' ∧ c ≠ '/') :
    k ≤ 30 := by
  cases h with
  | call h =>
    cases h with
    | alt2 h1 h2 =>
      have := space_con _ _ _ h1
      cases h2 with
      | call h2 =>
        cases h2 with
        | seqOk h3 _ =>
          have l := h3.lt (by decide)
          obtain ⟨ev, hb⟩ := h3.big_some
          cases s with
          | nil => simp at l
          | cons c t =>
            have := Big.first' nulG_ok firstG_ok hb c t _ _ rfl rfl (by intro h; rw [h] at l; omega)
            have hd : (first nulG firstG (.alt (PExp.lit c!"--") (PExp.lit c!"//"))) = [('-', '-'), ('/', '/')] := by decide
            rw [hd] at this
            have hc := hs c t rfl
            simp only [CSet.has, List.any_cons, List.any_nil,
              Bool.or_false, Bool.or_eq_true, Bool.and_eq_true, decide_eq_true_eq] at this
            rcases this with ⟨a, b⟩ | ⟨a, b⟩
            · exact absurd (Char.toNat_inj' (Nat.le_antisymm b a)) hc.1
            · exact absurd (Char.toNat_inj' (Nat.le_antisymm b a)) hc.2
        | seqFail h3 =>
          have : (Cls.con 7).Holds (.alt (PExp.lit c!"--") (PExp.lit c!"//")) := costOf0_holds 1 (by decide)
          have := this _ _ _ h3
          omega

theorem sp_star {e s z k} (h : Run G e s z k) : e = .star (.call .SpaceComment) → ∀ r, z = some r →
    (∀ c t, r = c :: t → c ≠ '-' ∧ c ≠ '/') → k ≤ 91 * (s.length - r.length) + 31 := by
  induction h with
  | @starNil _ s k1 h1 =>
    rintro ⟨⟩ r ⟨⟩ hs
    have := spaceComment_fail h1 hs
    omega
  | @starCons _ s r1 r2 k1 k2 h1 h2 _ ih =>
    rintro he r hr hs
    have hk := ih he r hr hs
    cases he
    cases hr
    have e1 := spaceComment_tig.1 _ _ _ h1
    have l1 := h1.lt (by decide)
    have l2 := h2.le
    omega
  | _ => rintro ⟨⟩

theorem spTight : SpTight 95 := by
  refine ⟨fun s r k h hs => ?_, fun s x k h => ?_⟩
  · cases h with
    | call h => have := sp_star h rfl r rfl hs; omega
  · have : (Cls.lin 92).Holds (.call .sp) := costR0_holds (n := 9) (by decide)
    refine ⟨Nat.le_trans (this _ _ _ h) (Nat.mul_le_mul_right _ (by omega)), ?_⟩
    rintro rfl
    cases h with
    | call h => cases h

/-! ## Strings -/

theorem string_tig : (Cls.tig 30).Holds (.call .String) := by
  have h1 : (Cls.tig 12).Holds (PExp.seqs [.chr '\'', .txt (gStrBody '\''), .chr '\'', .act 28]) := costOf0_holds 0 (by decide)
  have h2 : (Cls.tig 12).Holds (PExp.seqs [.chr '"', .txt (gStrBody '"'), .chr '"', .act 29]) := costOf0_holds 0 (by decide)
  refine ⟨fun s r k h => ?_, fun s k h => ?_⟩
  · cases h with
    | call h =>
      cases h with
      | alt1 h => have := h1.1 _ _ _ h; omega
      | alt2 ha hb =>
        have e2 := h2.1 _ _ _ hb
        cases hb with
        | seqOk hb _ =>
          cases hb
          cases ha with
          | seqOk ha _ => cases ha
          | seqFail ha => cases ha; omega
  · cases h with
    | call h =>
      cases h with
      | alt2 ha hb => have := h1.2 _ _ ha; have := h2.2 _ _ hb; omega

/-! ## The rules that contain no expressions -/

theorem identifier_fail {s k} (h : Run G (.call .Identifier) s none k) : k ≤ 29 := by
  have hn : (Cls.con 12).Holds (.notP (PExp.ciLit c!"not")) := costOf0_holds 0 (by decide)
  have hh : (Cls.con 3).Holds gIdHead := costOf0_holds 0 (by decide)
  cases h with
  | call h =>
    cases h with
    | seqFail h => have := hn _ _ _ h; omega
    | seqOk h1 h2 =>
      have := hn _ _ _ h1
      cases h2 with
      | seqOk _ h => cases h
      | seqFail h =>
        cases h with
        | txt h =>
          cases h with
          | seqFail h => have := hh _ _ _ h; omega
          | seqOk _ h => cases h

theorem json_bounds : ∀ n s, s.length ≤ n →
    (∀ k, Run G (.call .JsonReference) s none k → k ≤ 70 * (s.length + 1)) ∧
    (∀ r k, Run G (.call .JsonReference) s (some r) k → k ≤ 140 * (s.length + 1)) := by
  intro n
  induction n with
  | zero =>
    intro s hs
    have : s = [] := List.length_eq_zero_iff.mp (by omega)
    subst this
    constructor
    · intro k h
      cases h with
      | call h =>
        cases h with
        | seqOk h _ => have := h.lt (by decide); simp at this
        | seqFail h => have := identifier_fail h; simp; omega
    · intro r k h; have := h.lt (by decide); simp at this
  | succ n ih =>
    intro s hs
    constructor
    · intro k h
      cases h with
      | call h =>
        cases h with
        | seqFail h => have := identifier_fail h; omega
        | seqOk h h2 =>
          have l := h.lt (by decide)
          have e := identifier_tig.1 _ _ _ h
          cases h2 with
          | seqFail h2 => cases h2 <;> omega
          | seqOk h2 h3 =>
            cases h2
            simp only [List.length_cons] at l e
            cases h3 with
            | seqFail h3 => cases h3 <;> simp only [List.length_cons, List.length_nil] at l e <;> omega
            | seqOk h3 h4 =>
              cases h3
              simp only [List.length_cons] at l e
              cases h4 with
              | alt2 h5 h6 =>
                have := (ih _ (by omega)).1 _ h5
                have := identifier_fail h6
                omega
    · intro r k h
      cases h with
      | call h =>
        cases h with
        | seqOk h h2 =>
          have l := h.lt (by decide)
          have e := identifier_tig.1 _ _ _ h
          cases h2 with
          | seqOk h2 h3 =>
            cases h2
            simp only [List.length_cons] at l e
            cases h3 with
            | seqOk h3 h4 =>
              cases h3
              simp only [List.length_cons] at l e
              cases h4 with
              | alt1 h5 =>
                have := (ih _ (by omega)).2 _ _ h5
                omega
              | alt2 h5 h6 =>
                have := (ih _ (by omega)).1 _ h5
                have := identifier_tig.1 _ _ _ h6
                omega

theorem json_lin : (Cls.lin 140).Holds (.call .JsonReference) := by
  intro s x k h
  cases x with
  | none => have := (json_bounds _ s (Nat.le_refl _)).1 k h; omega
  | some r => exact (json_bounds _ s (Nat.le_refl _)).2 r k h

/-- The rules treated by hand. -/
def base2 : Rule → Option Cls
  | .String => some (.tig 30)
  | .JsonReference => some (.lin 140)
  | _ => none

theorem base2_holds : ∀ r c, base2 r = some c → c.Holds (.call r) := by
  intro r c h
  cases r <;> first | (cases h; done) | skip
  · cases h; exact json_lin
  · cases h; exact string_tig

/-- Expressions that contain no expression take a number of steps linear in the remaining input. -/
theorem simple_holds {e c} (h : costOf (some 95) (costR (some 95) base2 9) e = some c) : (Cls.lin c.coef).Holds e :=
  (costOf_holds (by rintro n ⟨⟩; exact spTight) (costR_holds (by rintro n ⟨⟩; exact spTight) base2_holds 9) e c h).lin

end Verif
