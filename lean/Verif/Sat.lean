import Verif.PegThms
import Verif.Grammar
import Verif.Spec.Lang

/-! # Rule induction on successful derivations -/

namespace Verif

/-- Iteration of a relation (the body of a repetition). -/
inductive Iter (R : Str → List Ev → Str → Prop) : Str → List Ev → Str → Prop where
  | nil {s} : Iter R s [] s
  | cons {s e1 r1 e2 r2} : R s e1 r1 → Iter R r1 e2 r2 → Iter R s (e1 ++ e2) r2

/-- What a successful match of an expression says, given what it says (`P`) for rules.  Failures of earlier alternatives are
kept as `Big … none`. -/
def Sat (G : Rule → PExp) (P : Rule → Str → List Ev → Str → Prop) : PExp → Str → List Ev → Str → Prop
  | .eps, s, ev, r => ev = [] ∧ s = r
  | .any, s, ev, r => ev = [] ∧ ∃ c, s = c :: r
  | .chr c, s, ev, r => ev = [] ∧ s = c :: r
  | .rng lo hi, s, ev, r => ev = [] ∧ ∃ c, s = c :: r ∧ lo.toNat ≤ c.toNat ∧ c.toNat ≤ hi.toNat
  | .seq a b, s, ev, r => ∃ e1 r1 e2, Sat G P a s e1 r1 ∧ Sat G P b r1 e2 r ∧ ev = e1 ++ e2
  | .alt a b, s, ev, r => Sat G P a s ev r ∨ (Big G a s none ∧ Sat G P b s ev r)
  | .star a, s, ev, r => Iter (Sat G P a) s ev r ∧ Big G a r none
  | .opt a, s, ev, r => Sat G P a s ev r ∨ (Big G a s none ∧ ev = [] ∧ s = r)
  | .notP a, s, ev, r => Big G a s none ∧ ev = [] ∧ s = r
  | .call q, s, ev, r => P q s ev r
  | .txt a, s, ev, r => ∃ e, Sat G P a s e r ∧ ev = e ++ [.text (s.take (s.length - r.length))]
  | .act n, s, ev, r => ev = [.act n] ∧ s = r
  | .sw cs a b, s, ev, r => ((∃ c t, s = c :: t ∧ c ∈ cs) ∧ Sat G P a s ev r) ∨ ((∀ c t, s = c :: t → c ∉ cs) ∧ Sat G P b s ev r)

variable {G : Rule → PExp}

theorem Big.star_fail {a s ev r} (h : Big G (.star a) s (some (ev, r))) : Big G a r none := by
  generalize he : PExp.star a = e at h
  generalize hx : some (ev, r) = x at h
  induction h generalizing ev r with
  | starNil h => cases he; cases hx; exact h
  | starCons _ _ _ ih => cases he; cases hx; exact ih rfl rfl
  | _ => cases he

/-- To prove `P r` for every successful derivation of every rule, prove it from `Sat P` of the rule's body. -/
theorem Big.sat {P : Rule → Str → List Ev → Str → Prop}
    (hP : ∀ q s ev r, Big G (.call q) s (some (ev, r)) → Sat G P (G q) s ev r → P q s ev r)
    {e s x} (h : Big G e s x) : ∀ ev r, x = some (ev, r) → Sat G P e s ev r := by
  induction h with
  | eps => rintro _ _ ⟨⟩; exact ⟨rfl, rfl⟩
  | anyOk => rintro _ _ ⟨⟩; exact ⟨rfl, _, rfl⟩
  | chrOk => rintro _ _ ⟨⟩; exact ⟨rfl, rfl⟩
  | rngOk h1 h2 => rintro _ _ ⟨⟩; exact ⟨rfl, _, rfl, h1, h2⟩
  | seqOk _ _ iha ihb => rintro _ _ ⟨⟩; exact ⟨_, _, _, iha _ _ rfl, ihb _ _ rfl, rfl⟩
  | alt1 _ ih => rintro _ _ ⟨⟩; exact .inl (ih _ _ rfl)
  | alt2 ha _ _ ih => intro ev r h; exact .inr ⟨ha, ih _ _ h⟩
  | starNil ha _ => rintro _ _ ⟨⟩; exact ⟨.nil, ha⟩
  | starCons ha hb iha ihb =>
    rintro _ _ ⟨⟩
    exact ⟨.cons (iha _ _ rfl) (ihb _ _ rfl).1, (ihb _ _ rfl).2⟩
  | optSome _ ih => rintro _ _ ⟨⟩; exact .inl (ih _ _ rfl)
  | optNone ha _ => rintro _ _ ⟨⟩; exact .inr ⟨ha, rfl, rfl⟩
  | notOk ha _ => rintro _ _ ⟨⟩; exact ⟨ha, rfl, rfl⟩
  | call hb ih => rintro ev r rfl; exact hP _ _ _ _ (.call hb) (ih _ _ rfl)
  | txtOk _ ih => rintro _ _ ⟨⟩; exact ⟨_, ih _ _ rfl, rfl⟩
  | act => rintro _ _ ⟨⟩; exact ⟨rfl, rfl⟩
  | swIn hc _ ih => intro ev r h; exact .inl ⟨⟨_, _, rfl, hc⟩, ih _ _ h⟩
  | swOut hc _ ih => intro ev r h; exact .inr ⟨by rintro c t ⟨⟩; exact hc, ih _ _ h⟩
  | swNil _ ih => intro ev r h; exact .inr ⟨by rintro c t ⟨⟩, ih _ _ h⟩
  | _ => rintro _ _ ⟨⟩

theorem Big.rule_induction {P : Rule → Str → List Ev → Str → Prop}
    (hP : ∀ q s ev r, Big G (.call q) s (some (ev, r)) → Sat G P (G q) s ev r → P q s ev r)
    {q s ev r} (h : Big G (.call q) s (some (ev, r))) : P q s ev r :=
  Big.sat hP h _ _ rfl

theorem Sat.mono {P Q : Rule → Str → List Ev → Str → Prop} (h : ∀ q s ev r, P q s ev r → Q q s ev r) :
    ∀ e s ev r, Sat G P e s ev r → Sat G Q e s ev r := by
  intro e
  induction e with
  | seq a b iha ihb => rintro s ev r ⟨e1, r1, e2, ha, hb, rfl⟩; exact ⟨_, _, _, iha _ _ _ ha, ihb _ _ _ hb, rfl⟩
  | alt a b iha ihb =>
    rintro s ev r (ha | ⟨hn, hb⟩)
    · exact .inl (iha _ _ _ ha)
    · exact .inr ⟨hn, ihb _ _ _ hb⟩
  | star a iha =>
    rintro s ev r ⟨hi, hn⟩
    refine ⟨?_, hn⟩
    clear hn
    induction hi with
    | nil => exact .nil
    | cons h1 _ ih => exact .cons (iha _ _ _ h1) ih
  | opt a iha =>
    rintro s ev r (ha | h)
    · exact .inl (iha _ _ _ ha)
    · exact .inr h
  | call q => intro s ev r hq; exact h _ _ _ _ hq
  | txt a iha => rintro s ev r ⟨e, ha, rfl⟩; exact ⟨e, iha _ _ _ ha, rfl⟩
  | sw cs a b iha ihb =>
    rintro s ev r (⟨hc, ha⟩ | ⟨hc, hb⟩)
    · exact .inl ⟨hc, iha _ _ _ ha⟩
    · exact .inr ⟨hc, ihb _ _ _ hb⟩
  | _ => intro s ev r hh; exact hh

theorem sat_seqs_cons {P} {a b : PExp} {l : List PExp} {s ev r} :
    Sat G P (PExp.seqs (a :: b :: l)) s ev r ↔
      ∃ e1 r1 e2, Sat G P a s e1 r1 ∧ Sat G P (PExp.seqs (b :: l)) r1 e2 r ∧ ev = e1 ++ e2 := Iff.rfl

theorem sat_seqs_one {P} {a : PExp} {s ev r} : Sat G P (PExp.seqs [a]) s ev r ↔ Sat G P a s ev r := Iff.rfl

theorem sat_alts_cons {P} {a b : PExp} {l : List PExp} {s ev r} :
    Sat G P (PExp.alts (a :: b :: l)) s ev r ↔
      Sat G P a s ev r ∨ (Big G a s none ∧ Sat G P (PExp.alts (b :: l)) s ev r) := Iff.rfl

theorem sat_alts_one {P} {a : PExp} {s ev r} : Sat G P (PExp.alts [a]) s ev r ↔ Sat G P a s ev r := Iff.rfl

theorem sat_lit {P} : ∀ {w : Str} {s ev r}, Sat G P (PExp.lit w) s ev r → ev = [] ∧ s = w ++ r := by
  intro w
  induction w with
  | nil => intro s ev r h; exact h
  | cons c w ih =>
    intro s ev r h
    cases w with
    | nil => exact h
    | cons d w =>
      obtain ⟨e1, r1, e2, ⟨rfl, rfl⟩, h2, rfl⟩ := h
      obtain ⟨rfl, rfl⟩ := ih h2
      exact ⟨rfl, rfl⟩

theorem sat_ci {P} {c : Char} {s ev r} (h : Sat G P (PExp.ci c) s ev r) : ev = [] ∧ (s = c :: r ∨ s = c.toUpper :: r) := by
  rcases h with ⟨rfl, rfl⟩ | ⟨_, rfl, rfl⟩
  · exact ⟨rfl, .inl rfl⟩
  · exact ⟨rfl, .inr rfl⟩

theorem sat_ciLit {P} : ∀ {w : Str} {s ev r}, Sat G P (PExp.ciLit w) s ev r → ev = [] ∧ ∃ u, s = u ++ r ∧ CI w u := by
  intro w
  induction w with
  | nil => rintro s ev r ⟨rfl, rfl⟩; exact ⟨rfl, [], rfl, rfl⟩
  | cons c w ih =>
    intro s ev r h
    cases w with
    | nil =>
      obtain ⟨rfl, h'⟩ := sat_ci h
      refine ⟨rfl, ?_⟩
      rcases h' with rfl | rfl
      · exact ⟨[c], rfl, c, [], rfl, .inl rfl, rfl⟩
      · exact ⟨[c.toUpper], rfl, _, [], rfl, .inr rfl, rfl⟩
    | cons d w =>
      obtain ⟨e1, r1, e2, h1, h2, rfl⟩ := h
      obtain ⟨rfl, h1'⟩ := sat_ci h1
      obtain ⟨rfl, u, rfl, hu⟩ := ih h2
      refine ⟨rfl, ?_⟩
      rcases h1' with rfl | rfl
      · exact ⟨c :: u, rfl, _, _, rfl, .inl rfl, hu⟩
      · exact ⟨c.toUpper :: u, rfl, _, _, rfl, .inr rfl, hu⟩

end Verif
