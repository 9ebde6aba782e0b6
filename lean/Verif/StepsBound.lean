import Verif.StepsLin
import Verif.Fwd5

/-! # A quadratic bound on the steps of the recogniser -/

namespace Verif

open PExp

/-- The unit in which steps are counted: a bound on the steps of any part of the grammar that contains no expression. -/
def unit (N : Nat) : Nat := 20000 * (N + 1)

/-- The allowance for an input. -/
def wt (N : Nat) (s : Str) : Nat := 100 * unit N * s.length

theorem unit_pos (N : Nat) : 20000 ≤ unit N := by unfold unit; omega

theorem wt_lt {N} {r s : Str} (h : r.length < s.length) : wt N r + 100 * unit N ≤ wt N s := by
  have := Nat.mul_le_mul_left (100 * unit N) (show r.length + 1 ≤ s.length from h)
  rw [Nat.mul_add, Nat.mul_one] at this
  exact this

theorem wt_le {N} {r s : Str} (h : r.length ≤ s.length) : wt N r ≤ wt N s := Nat.mul_le_mul_left _ h

/-- The expression takes at most one unit on inputs up to length `N`. -/
def Brief (N : Nat) (e : PExp) : Prop := ∀ s x k, s.length ≤ N → Run G e s x k → k ≤ unit N

theorem brief {N e c} (h : costOf (some 95) (costR (some 95) base2 9) e = some c) (hc : c.coef ≤ 20000) : Brief N e := by
  intro s x k hs hr
  refine Nat.le_trans (simple_holds h s x k hr) (Nat.le_trans (Nat.mul_le_mul_right _ hc) ?_)
  unfold unit
  exact Nat.mul_le_mul_left _ (by omega)

theorem Run.no {e s r k} (h : Run G e s (some r) k) : ¬ No e s := by
  intro hn
  obtain ⟨ev, hb⟩ := h.big_some
  cases hb.det hn

theorem Run.same {e s r k ev r'} (h : Run G e s (some r) k) (hb : Ok e s ev r') : r = r' := by
  obtain ⟨ev, hb'⟩ := h.big_some
  cases hb'.det hb; rfl

/-- Bounds for an expression at an input.  `J` is a small number of units.  A failure is cheap unless `Exp` holds of the
input; a success costs at most the allowance of the consumed text (less one character's), unless `Bad` holds of the rest. -/
structure Claim (N J : Nat) (Bad Exp : Str → Prop) (e : PExp) (s : Str) : Prop where
  fail : ∀ k, Run G e s none k → k ≤ J ∨ (Exp s ∧ k ≤ wt N s + J)
  ok : ∀ r k, Run G e s (some r) k → r.length < s.length ∧
    (k + wt N r + 100 * unit N ≤ wt N s + J ∨ (Bad r ∧ k ≤ wt N s + J))

theorem Claim.mono {N J J' Bad Exp e s} (h : Claim N J Bad Exp e s) (hj : J ≤ J') : Claim N J' Bad Exp e s := by
  refine ⟨fun k hr => ?_, fun r k hr => ?_⟩
  · rcases h.fail k hr with h | ⟨h, h'⟩
    · exact .inl (by omega)
    · exact .inr ⟨h, by omega⟩
  · obtain ⟨h1, h2 | ⟨h2, h3⟩⟩ := h.ok r k hr
    · exact ⟨h1, .inl (by omega)⟩
    · exact ⟨h1, .inr ⟨h2, by omega⟩⟩

theorem Claim.call {N J Bad Exp r s} (h : Claim N J Bad Exp (G r) s) : Claim N (J + unit N) Bad Exp (.call r) s := by
  have hu := unit_pos N
  refine ⟨fun k hr => ?_, fun r k hr => ?_⟩
  · cases hr with
    | call hr =>
      rcases h.fail _ hr with h | ⟨h, h'⟩
      · exact .inl (by omega)
      · exact .inr ⟨h, by omega⟩
  · cases hr with
    | call hr =>
      obtain ⟨h1, h2 | ⟨h2, h3⟩⟩ := h.ok _ _ hr
      · exact ⟨h1, .inl (by omega)⟩
      · exact ⟨h1, .inr ⟨h2, by omega⟩⟩

/-- An optional tail. -/
theorem Claim.tail {N J Bad Exp a b s} (hs : s.length ≤ N) (h : Claim N J Bad Exp a s) (hb : Brief N b)
    (hbad : ∀ r, Bad r → No b r) : Claim N (J + 2 * unit N) Bad Exp (.seq a (.opt b)) s := by
  have hu := unit_pos N
  refine ⟨fun k hr => ?_, fun r k hr => ?_⟩
  · cases hr with
    | seqOk _ h2 => cases h2
    | seqFail h1 =>
      rcases h.fail _ h1 with h | ⟨h, h'⟩
      · exact .inl (by omega)
      · exact .inr ⟨h, by omega⟩
  · cases hr with
    | seqOk h1 h2 =>
      obtain ⟨l1, c1⟩ := h.ok _ _ h1
      cases h2 with
      | optSome h2 =>
        have k2 := hb _ _ _ (by omega) h2
        have l2 := h2.le
        have w2 := wt_le (N := N) l2
        rcases c1 with c1 | ⟨c1, c2⟩
        · exact ⟨by omega, .inl (by omega)⟩
        · exact absurd (hbad _ c1) h2.no
      | optNone h2 =>
        have k2 := hb _ _ _ (by omega) h2
        rcases c1 with c1 | ⟨c1, c2⟩
        · exact ⟨by omega, .inl (by omega)⟩
        · exact ⟨by omega, .inr ⟨c1, by omega⟩⟩

/-- Bounds for one turn of a loop. -/
structure Body (N C : Nat) (Bad Bad' : Str → Prop) (e : PExp) (s : Str) : Prop where
  fail : ∀ k, Run G e s none k → k ≤ C ∨ (Bad' s ∧ k ≤ wt N s)
  ok : ∀ r k, Run G e s (some r) k → r.length < s.length ∧ (k + wt N r + unit N ≤ wt N s ∨ (Bad r ∧ k ≤ wt N s))

theorem star_bound {N C Bad Bad' body} (hbb : ∀ r, Bad r → Bad' r) (hno : ∀ r, Bad r → No body r)
    (hnk : ∀ r k, r.length ≤ N → Bad r → Run G body r none k → k ≤ C) {e s x k} (h : Run G e s x k) : e = .star body → s.length ≤ N →
    (∀ s', s'.length ≤ s.length → Body N C Bad Bad' body s') → ∃ r, x = some r ∧ r.length ≤ s.length ∧
      (k + wt N r ≤ wt N s + C + unit N ∨ (Bad' r ∧ k ≤ wt N s + C + unit N)) := by
  have hu := unit_pos N
  induction h with
  | starNil h1 =>
    rintro ⟨⟩ hN hB
    refine ⟨_, rfl, Nat.le_refl _, ?_⟩
    rcases (hB _ (Nat.le_refl _)).fail _ h1 with h | ⟨h, h'⟩
    · exact .inl (by omega)
    · exact .inr ⟨h, by omega⟩
  | @starCons _ s r1 r2 k1 k2 h1 h2 _ ih =>
    intro he hN hB
    cases he
    obtain ⟨l1, c1⟩ := (hB _ (Nat.le_refl _)).ok _ _ h1
    rcases c1 with c1 | ⟨c1, c2⟩
    · obtain ⟨r, hr, l2, c2⟩ := ih rfl (by omega) (fun s' hs' => hB s' (by omega))
      refine ⟨r, hr, by omega, ?_⟩
      rcases c2 with c2 | ⟨c2, c3⟩
      · exact .inl (by omega)
      · exact .inr ⟨c2, by omega⟩
    · cases h2 with
      | starNil h2 =>
        have := hnk _ _ (by omega) c1 h2
        exact ⟨_, rfl, by omega, .inr ⟨hbb _ c1, by omega⟩⟩
      | starCons h2 _ => exact absurd (hno _ c1) h2.no
  | _ => rintro ⟨⟩

/-- One turn of the loop of LogicExpression or CompareExpression. -/
theorem body_op {N J Bad Exp op a n s} (hJ : J ≤ 50 * unit N) (hs : s.length ≤ N) (hop : Brief N op) (hn : nullable nulG op = false)
    (ha : ∀ s', s'.length < s.length → Claim N J Bad Exp a s') :
    Body N (2 * unit N) Bad (fun r => Bad r ∨ ∃ ev t, Ok op r ev t) (seqs [op, a, .act n]) s := by
  have hu := unit_pos N
  refine ⟨fun k hr => ?_, fun r k hr => ?_⟩
  · cases hr with
    | seqFail h1 => have := hop _ _ _ hs h1; exact .inl (by omega)
    | seqOk h1 h2 =>
      have k1 := hop _ _ _ hs h1
      have l1 := h1.lt hn
      have w1 := wt_lt (N := N) l1
      obtain ⟨ev, hb⟩ := h1.big_some
      refine .inr ⟨.inr ⟨ev, _, hb⟩, ?_⟩
      cases h2 with
      | seqOk _ h2 => cases h2
      | seqFail h2 =>
        rcases (ha _ l1).fail _ h2 with h | ⟨_, h⟩ <;> omega
  · cases hr with
    | seqOk h1 h2 =>
      have k1 := hop _ _ _ hs h1
      have l1 := h1.lt hn
      have w1 := wt_lt (N := N) l1
      cases h2 with
      | seqOk h2 h3 =>
        cases h3
        obtain ⟨l2, c2⟩ := (ha _ l1).ok _ _ h2
        rcases c2 with c2 | ⟨c2, c3⟩
        · exact ⟨by omega, .inl (by omega)⟩
        · exact ⟨by omega, .inr ⟨c2, by omega⟩⟩

/-- A left associative chain. -/
theorem Claim.loop {N J Bad Exp op a n s} (hJ : J ≤ 50 * unit N) (hs : s.length ≤ N) (hop : Brief N op)
    (hn : nullable nulG op = false) (hbad : ∀ r, Bad r → No op r)
    (ha : ∀ s', s'.length ≤ s.length → Claim N J Bad Exp a s') :
    Claim N (J + 4 * unit N) (fun r => Bad r ∨ ∃ ev t, Ok op r ev t) Exp (.seq a (.star (seqs [op, a, .act n]))) s := by
  have hu := unit_pos N
  have hno : ∀ r, Bad r → No (seqs [op, a, .act n]) r := fun r hr => .seqFail1 (hbad r hr)
  refine ⟨fun k hr => ?_, fun r k hr => ?_⟩
  · cases hr with
    | seqOk _ h2 => cases h2
    | seqFail h1 =>
      rcases (ha s (Nat.le_refl _)).fail _ h1 with h | ⟨h, h'⟩
      · exact .inl (by omega)
      · exact .inr ⟨h, by omega⟩
  · cases hr with
    | @seqOk _ _ _ r0 _ k1 k2 h1 h2 =>
      obtain ⟨l1, c1⟩ := (ha s (Nat.le_refl _)).ok _ _ h1
      rcases c1 with c1 | ⟨c1, c2⟩
      · obtain ⟨r', hr', l2, c2⟩ := star_bound (N := N) (C := 2 * unit N) (fun _ h => .inl h) hno (by
          intro r k hl hr h
          cases h with
          | seqFail h => have := hop _ _ _ hl h; omega
          | seqOk h _ => exact absurd (hbad _ hr) h.no) h2 rfl (by omega) (fun s' hs' =>
            body_op hJ (by omega) hop hn (fun s'' hs'' => ha s'' (by omega)))
        cases hr'
        refine ⟨by omega, ?_⟩
        rcases c2 with c2 | ⟨c2, c3⟩
        · exact .inl (by omega)
        · exact .inr ⟨c2, by omega⟩
      · cases h2 with
        | starNil h2 =>
          refine ⟨l1, .inr ⟨.inl c1, ?_⟩⟩
          cases h2 with
          | seqFail h2 => have := hop _ _ _ (by omega) h2; omega
          | seqOk h2 _ => exact absurd (hbad _ c1) h2.no
        | starCons h2 _ => exact absurd (hno _ c1) h2.no

/-! ## Where an expensive attempt leaves the input -/

/-- A parenthesis comes next. -/
def Paren (r : Str) : Prop := ∃ t, r = '(' :: t
/-- A parenthesis or a comparison comes next. -/
def BadC (r : Str) : Prop := Paren r ∨ ∃ ev t, Ok (.call .Compare) r ev t
/-- A parenthesis, a comparison or a logical operator comes next. -/
def BadL (r : Str) : Prop := BadC r ∨ ∃ ev t, Ok (.call .Logic) r ev t
/-- No closing parenthesis comes next. -/
def NoClose (s : Str) : Prop := ∀ t, s ≠ ')' :: t

theorem star_end {a e : PExp} {s x} (h : Big G e s x) : e = .star a → ∀ ev r, x = some (ev, r) → No a r := by
  induction h with
  | starNil h => rintro ⟨⟩ _ _ ⟨⟩; exact h
  | starCons _ _ _ ih => intro he ev r hr; cases hr; exact ih he _ _ rfl
  | _ => rintro ⟨⟩

theorem sp_end {r ev r1} (h : Ok (.call .sp) r ev r1) : ev = [] ∧ (∃ w, WS w ∧ r = w ++ r1) ∧ No (.call .SpaceComment) r1 := by
  obtain ⟨rfl, w, hw, hws⟩ : Post .sp _ _ _ := post_all h
  refine ⟨rfl, ⟨w, hws, hw⟩, ?_⟩
  cases h with
  | call h => exact star_end h rfl _ _ rfl

theorem sp_again {r ev r1} (h : Ok (.call .sp) r ev r1) : Ok (.call .sp) r1 [] r1 := sp_nil (sp_end h).2.2

theorem sp_total (r : Str) : ∃ r1, Ok (.call .sp) r [] r1 := by
  obtain ⟨x, hx⟩ := big_total .sp r
  cases x with
  | none => cases hx with | call h => cases h
  | some p => obtain ⟨ev, r1⟩ := p; have := (sp_end hx).1; subst this; exact ⟨r1, hx⟩

theorem first_head {e : PExp} {s ev r} (h : Ok e s ev r) (hn : nullable nulG e = false) :
    ∃ c t, s = c :: t ∧ (first nulG firstG e).has c = true := by
  have l := Big.consumes' nulG_ok h _ _ rfl hn
  cases s with
  | nil => simp at l
  | cons c t => exact ⟨c, t, rfl, Big.first' nulG_ok firstG_ok h c t _ _ rfl rfl (by intro h; rw [h] at l; omega)⟩

theorem op_head {e rest : PExp} {r ev t ev1 r1} (hn : nullable nulG e = false)
    (h : Ok (.seq (.call .sp) (.seq (.txt e) rest)) r ev t) (hsp : Ok (.call .sp) r ev1 r1) :
    ∃ c t, r1 = c :: t ∧ (first nulG firstG e).has c = true := by
  cases h with
  | seqOk h1 h2 =>
    cases h1.det hsp
    cases h2 with
    | seqOk h2 _ =>
      cases h2 with
      | txtOk h2 => exact first_head h2 hn

theorem compare_head {r ev t ev1 r1} (h : Ok (.call .Compare) r ev t) (hsp : Ok (.call .sp) r ev1 r1) :
    ∃ c t, r1 = c :: t ∧ cmpH.has c = true := by
  have key : ∀ {e rest : PExp} {ev t}, nullable nulG e = false → (first nulG firstG e).sub cmpH = true →
      Ok (.seq (.call .sp) (.seq (.txt e) rest)) r ev t → ∃ c t, r1 = c :: t ∧ cmpH.has c = true := by
    intro e rest ev t hn hs h
    obtain ⟨c, t, h1, h2⟩ := op_head hn h hsp
    exact ⟨c, t, h1, CSet.has_sub hs h2⟩
  cases h with
  | call h =>
    cases h with
    | alt1 h => exact key (by decide) (by decide) h
    | alt2 _ h =>
      cases h with
      | alt1 h => exact key (by decide) (by decide) h
      | alt2 _ h => exact key (by decide) (by decide) h

theorem logic_head {r ev t ev1 r1} (h : Ok (.call .Logic) r ev t) (hsp : Ok (.call .sp) r ev1 r1) :
    ∃ c t, r1 = c :: t ∧ logH.has c = true := by
  have key : ∀ {e rest : PExp} {ev t}, nullable nulG e = false → (first nulG firstG e).sub logH = true →
      Ok (.seq (.call .sp) (.seq (.txt e) rest)) r ev t → ∃ c t, r1 = c :: t ∧ logH.has c = true := by
    intro e rest ev t hn hs h
    obtain ⟨c, t, h1, h2⟩ := op_head hn h hsp
    exact ⟨c, t, h1, CSet.has_sub hs h2⟩
  cases h with
  | call h =>
    cases h with
    | alt1 h => exact key (by decide) (by decide) h
    | alt2 _ h => exact key (by decide) (by decide) h

theorem paren_sp {t ev r1} (h : Ok (.call .sp) ('(' :: t) ev r1) : r1 = '(' :: t := by
  have := sp_nil (Solid.no (Solid.cons (c := '(') (t := t) (by decide)))
  cases h.det this; rfl

theorem BadC.head {r ev1 r1} (h : BadC r) (hsp : Ok (.call .sp) r ev1 r1) :
    ∃ c t, r1 = c :: t ∧ (c = '(' ∨ cmpH.has c = true) := by
  rcases h with ⟨t, rfl⟩ | ⟨ev, t, h⟩
  · have := paren_sp hsp; subst this; exact ⟨_, _, rfl, .inl rfl⟩
  · obtain ⟨c, t, h1, h2⟩ := compare_head h hsp; exact ⟨c, t, h1, .inr h2⟩

theorem BadL.head {r ev1 r1} (h : BadL r) (hsp : Ok (.call .sp) r ev1 r1) :
    ∃ c t, r1 = c :: t ∧ c ≠ ')' ∧ c ≠ ',' := by
  have key : ∃ c t, r1 = c :: t ∧ (c = '(' ∨ cmpH.has c = true ∨ logH.has c = true) := by
    rcases h with h | ⟨ev, t, h⟩
    · obtain ⟨c, t, h1, h2 | h2⟩ := h.head hsp
      · exact ⟨c, t, h1, .inl h2⟩
      · exact ⟨c, t, h1, .inr (.inl h2)⟩
    · obtain ⟨c, t, h1, h2⟩ := logic_head h hsp; exact ⟨c, t, h1, .inr (.inr h2)⟩
  obtain ⟨c, t, h1, h2⟩ := key
  refine ⟨c, t, h1, ?_, ?_⟩
  · rintro rfl; revert h2; decide
  · rintro rfl; revert h2; decide

theorem BadC.no_logic {r} (h : BadC r) : No (.call .Logic) r := by
  obtain ⟨x, hx⟩ := big_total .Logic r
  cases x with
  | none => exact hx
  | some p =>
    obtain ⟨ev, t⟩ := p
    obtain ⟨r1, hsp⟩ := sp_total r
    obtain ⟨c, t1, h1, h2⟩ := h.head hsp
    obtain ⟨c', t2, h3, h4⟩ := logic_head hx hsp
    rw [h1] at h3
    cases h3
    exfalso
    rcases h2 with rfl | h2
    · revert h4; decide
    · simp only [cmpH, logH, CSet.has, List.any_cons, List.any_nil, Bool.or_false, Bool.or_eq_true, Bool.and_eq_true,
        decide_eq_true_eq] at h2 h4
      simp only [show ('<' : Char).toNat = 60 from rfl, show ('>' : Char).toNat = 62 from rfl, show ('=' : Char).toNat = 61 from rfl,
        show ('!' : Char).toNat = 33 from rfl, show ('g' : Char).toNat = 103 from rfl, show ('G' : Char).toNat = 71 from rfl,
        show ('l' : Char).toNat = 108 from rfl, show ('L' : Char).toNat = 76 from rfl, show ('e' : Char).toNat = 101 from rfl,
        show ('E' : Char).toNat = 69 from rfl, show ('n' : Char).toNat = 110 from rfl, show ('N' : Char).toNat = 78 from rfl,
        show ('a' : Char).toNat = 97 from rfl, show ('A' : Char).toNat = 65 from rfl, show ('o' : Char).toNat = 111 from rfl,
        show ('O' : Char).toNat = 79 from rfl, show ('&' : Char).toNat = 38 from rfl, show ('|' : Char).toNat = 124 from rfl] at h2 h4
      omega

theorem Paren.no {e : PExp} {r} (h : Paren r) (hr : ranked nulG rankG 16 16 e = true) (hn : nullable nulG e = false)
    (hc : (first nulG firstG e).has '(' = false) : No e r := by
  obtain ⟨t, rfl⟩ := h; exact big_none_cons hr hn hc

end Verif
