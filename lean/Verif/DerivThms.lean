import Verif.Tokens
import Verif.Spec.Deriv

/-! # The machine writes the tokens of the derivation -/

namespace Verif

theorem Rel.head {s0 st x t} (h : Rel s0 st (x :: t)) : s0[st.pos]? = some x := by
  have h3 : (s0.drop st.pos)[0]? = some x := by rw [← h.rest]; rfl
  rw [List.getElem?_drop] at h3
  simpa using h3

theorem Rel.head_nil {s0 st} (h : Rel s0 st []) : s0[st.pos]? = none := by
  have h3 : (s0.drop st.pos)[0]? = none := by rw [← h.rest]; rfl
  rw [List.getElem?_drop] at h3
  simpa using h3

/-- The outcome, if a success, has added the tokens of a derivation. -/
def Der (s0 : Str) (e : PExp) (st : St) : Out → Prop
  | .ok st' => ∃ ts, TAdds st st' ts ∧ Deriv s0 e st.pos st'.pos ts
  | _ => True

theorem Der.adv {s0 e st} (h : st.ti ≤ st.tree.length) (hd : Deriv s0 e st.pos (st.pos + 1) []) : Der s0 e st (.ok { st with pos := st.pos + 1 }) :=
  ⟨[], ⟨by simp, h⟩, hd⟩

theorem execStar_der {s0 : Str} {e : PExp} {p : St → Out} (hsim : ∀ a b, TAlike a b → Sim a b (p a) (p b))
    (hp : ∀ st s, Rel s0 st s → Clear s0 st → Snd s0 e s st (p st)) (hd : ∀ st s, Rel s0 st s → Clear s0 st → Der s0 e st (p st)) :
    ∀ n st s, Rel s0 st s → Clear s0 st → Der s0 (.star e) st (execStar p n st)
  | 0, _, _, _, _ => trivial
  | n + 1, st, s, hr, hc => by
    rw [execStar]
    have h := hp st s hr hc
    have hs := hsim st st hr.talike
    have h1 := hd st s hr hc
    cases ho : p st with
    | panic => trivial
    | div => trivial
    | fail st' =>
      rw [ho] at h hs
      exact ⟨[], hs.2.1.tadds, .starNil (hr.rest ▸ h.1)⟩
    | ok st' =>
      rw [ho] at h h1
      obtain ⟨ev, r, hb, hr', hc', hle⟩ := h
      obtain ⟨ts, ha, hd1⟩ := h1
      have h2 := execStar_der hsim hp hd n st' r hr' hc'
      simp only
      cases ho2 : execStar p n st' with
      | panic => trivial
      | div => trivial
      | fail st2 => trivial
      | ok st2 =>
        rw [ho2] at h2
        obtain ⟨us, ha2, hd2⟩ := h2
        exact ⟨_, ha.trans ha2, .starCons hd1 hd2⟩

theorem exec_der {s0 : Str} {env : Rule → St → Out} (hsim : ∀ r a b, TAlike a b → Sim a b (env r a) (env r b))
    (hsnd : ∀ r st s, Rel s0 st s → Clear s0 st → Snd s0 (.call r) s st (env r st))
    (henv : ∀ r st s, Rel s0 st s → Clear s0 st → Der s0 (.call r) st (env r st)) :
    ∀ e, (∀ a ∈ e.caps, ∃ r, a ∈ (G r).caps) → ∀ st s, Rel s0 st s → Clear s0 st → Der s0 e st (exec (mkBuf s0) env e st) := by
  have sim := exec_sim (buf := mkBuf s0) hsim
  have snd := exec_snd hsim hsnd
  intro e
  induction e with
  | eps => intro _ st s hr hc; exact ⟨[], .refl hr.ti_le, .eps⟩
  | any =>
    intro _ st s hr hc
    cases s with
    | nil => simp only [exec, mkBuf_nil hr]; trivial
    | cons x t => simp only [exec, mkBuf_cons hr]; rw [if_pos (Char.toNat_ne_end x)]; exact .adv hr.ti_le (.any hr.head)
  | chr c =>
    intro _ st s hr hc
    cases s with
    | nil => simp only [exec, mkBuf_nil hr]; rw [if_pos (Ne.symm (Char.toNat_ne_end c))]; trivial
    | cons x t =>
      simp only [exec, mkBuf_cons hr]
      by_cases hx : x = c
      · subst hx; rw [if_neg (by simp)]; exact .adv hr.ti_le (.chr hr.head)
      · rw [if_pos fun h' => hx (Char.toNat_inj' h')]; trivial
  | rng lo hi =>
    intro _ st s hr hc
    cases s with
    | nil =>
      simp only [exec, mkBuf_nil hr]
      rw [if_pos (.inr (Char.toNat_lt hi))]; trivial
    | cons x t =>
      simp only [exec, mkBuf_cons hr]
      by_cases hx : lo.toNat ≤ x.toNat ∧ x.toNat ≤ hi.toNat
      · rw [if_neg (by omega)]; exact .adv hr.ti_le (.rng hr.head hx.1 hx.2)
      · rw [if_pos (by omega)]; trivial
  | seq a b iha ihb =>
    intro hcap st s hr hc
    have ca : ∀ x ∈ a.caps, ∃ r, x ∈ (G r).caps := fun x hx => hcap x (by simp [PExp.caps, hx])
    have cb : ∀ x ∈ b.caps, ∃ r, x ∈ (G r).caps := fun x hx => hcap x (by simp [PExp.caps, hx])
    have h := snd a ca st s hr hc
    have d := iha ca st s hr hc
    rw [exec]
    cases ho : exec (mkBuf s0) env a st with
    | panic => trivial
    | div => trivial
    | fail st' => trivial
    | ok st' =>
      rw [ho] at h d
      obtain ⟨ev, r, hb, hr', hc', hle⟩ := h
      obtain ⟨ts, ha, d1⟩ := d
      have d' := ihb cb st' r hr' hc'
      simp only
      cases ho2 : exec (mkBuf s0) env b st' with
      | panic => trivial
      | div => trivial
      | fail st2 => trivial
      | ok st2 =>
        rw [ho2] at d'
        obtain ⟨us, ha2, d2⟩ := d'
        exact ⟨_, ha.trans ha2, .seq d1 d2⟩
  | alt a b iha ihb =>
    intro hcap st s hr hc
    have ca : ∀ x ∈ a.caps, ∃ r, x ∈ (G r).caps := fun x hx => hcap x (by simp [PExp.caps, hx])
    have cb : ∀ x ∈ b.caps, ∃ r, x ∈ (G r).caps := fun x hx => hcap x (by simp [PExp.caps, hx])
    have h := snd a ca st s hr hc
    have hs := sim a st st hr.talike
    have d := iha ca st s hr hc
    rw [exec]
    cases ho : exec (mkBuf s0) env a st with
    | panic => trivial
    | div => trivial
    | ok st' => rw [ho] at d; obtain ⟨ts, ha, d1⟩ := d; exact ⟨ts, ha, .alt1 d1⟩
    | fail st' =>
      rw [ho] at h hs
      have d' := ihb cb _ s (hr.restored hs.2.1 h.2.2.1 h.2.2.2) h.2.1.set
      simp only
      cases ho2 : exec (mkBuf s0) env b { st' with pos := st.pos, ti := st.ti } with
      | panic => trivial
      | div => trivial
      | fail st2 => trivial
      | ok st2 =>
        rw [ho2] at d'
        obtain ⟨us, ha2, d2⟩ := d'
        exact ⟨us, hs.2.1.tadds_through ha2, .alt2 (hr.rest ▸ h.1) d2⟩
  | star a iha =>
    intro hcap st s hr hc
    rw [exec]
    exact execStar_der (fun x y => sim a x y) (snd a hcap) (iha hcap) _ _ s hr hc
  | opt a iha =>
    intro hcap st s hr hc
    have h := snd a hcap st s hr hc
    have hs := sim a st st hr.talike
    have d := iha hcap st s hr hc
    rw [exec]
    cases ho : exec (mkBuf s0) env a st with
    | panic => trivial
    | div => trivial
    | ok st' => rw [ho] at d; obtain ⟨ts, ha, d1⟩ := d; exact ⟨ts, ha, .optSome d1⟩
    | fail st' => rw [ho] at h hs; exact ⟨[], hs.2.1.tadds, .optNone (hr.rest ▸ h.1)⟩
  | notP a iha =>
    intro hcap st s hr hc
    have h := snd a hcap st s hr hc
    have hs := sim a st st hr.talike
    rw [exec]
    cases ho : exec (mkBuf s0) env a st with
    | panic => trivial
    | div => trivial
    | ok st' => trivial
    | fail st' => rw [ho] at h hs; exact ⟨[], hs.2.1.tadds, .notP (hr.rest ▸ h.1)⟩
  | call r => intro _ st s hr hc; exact henv r st s hr hc
  | txt a iha =>
    intro hcap st s hr hc
    have d := iha (fun x hx => hcap x (by simp [PExp.caps, hx])) st s hr hc
    rw [exec]
    cases ho : exec (mkBuf s0) env a st with
    | panic => trivial
    | div => trivial
    | fail st' => trivial
    | ok st' => rw [ho] at d; obtain ⟨ts, ha, d1⟩ := d; exact ⟨_, ha.addTok _ _, .txt d1⟩
  | act n => intro _ st s hr hc; exact ⟨_, (TAdds.refl hr.ti_le).addTok _ _, .act⟩
  | sw cs a b iha ihb =>
    intro hcap st s hr hc
    have ca : ∀ x ∈ a.caps, ∃ r, x ∈ (G r).caps := fun x hx => hcap x (by simp [PExp.caps, hx])
    have cb : ∀ x ∈ b.caps, ∃ r, x ∈ (G r).caps := fun x hx => hcap x (by simp [PExp.caps, hx])
    have da := iha ca st s hr hc
    have db := ihb cb st s hr hc
    rw [exec]
    cases s with
    | nil =>
      simp only [mkBuf_nil hr]
      have hne : endSymbol ∉ cs.map Char.toNat := by
        intro hm; obtain ⟨c, _, hc⟩ := List.mem_map.mp hm; exact Char.toNat_ne_end c hc
      rw [if_neg hne]
      cases ho : exec (mkBuf s0) env b st with
      | panic => trivial
      | div => trivial
      | fail st' => trivial
      | ok st' => rw [ho] at db; obtain ⟨ts, ha, d1⟩ := db; exact ⟨ts, ha, .swOut (by rw [hr.head_nil]; simp) d1⟩
    | cons x t =>
      simp only [mkBuf_cons hr]
      by_cases hx : x ∈ cs
      · rw [if_pos (List.mem_map.mpr ⟨x, hx, rfl⟩)]
        cases ho : exec (mkBuf s0) env a st with
        | panic => trivial
        | div => trivial
        | fail st' => trivial
        | ok st' => rw [ho] at da; obtain ⟨ts, ha, d1⟩ := da; exact ⟨ts, ha, .swIn hr.head hx d1⟩
      · have : x.toNat ∉ cs.map Char.toNat := by
          intro hm; obtain ⟨c, hc, hcx⟩ := List.mem_map.mp hm; exact hx (Char.toNat_inj' hcx ▸ hc)
        rw [if_neg this]
        cases ho : exec (mkBuf s0) env b st with
        | panic => trivial
        | div => trivial
        | fail st' => trivial
        | ok st' => rw [ho] at db; obtain ⟨ts, ha, d1⟩ := db; exact ⟨ts, ha, .swOut (by rw [hr.head]; rintro c ⟨⟩; exact hx) d1⟩

theorem execN_der (s0 : Str) : ∀ n r st s, Rel s0 st s → Clear s0 st → Der s0 (.call r) st (execN (mkBuf s0) G n r st)
  | 0, _, _, _, _, _ => trivial
  | n + 1, r, st, s, hr, hc => by
    have h := exec_der (execN_sim (mkBuf s0) G n) (execN_snd s0 n) (execN_der s0 n) (G r) (fun a ha => ⟨r, ha⟩) st s hr hc
    rw [execN]
    cases ho : exec (mkBuf s0) (execN (mkBuf s0) G n) (G r) st with
    | panic => trivial
    | div => trivial
    | fail st' => trivial
    | ok st' => rw [ho] at h; obtain ⟨ts, ha, d⟩ := h; exact ⟨_, ha.addTok _ _, .call d⟩

/-! ## Derivations and the relation `Big` -/

theorem drop_cons {s : Str} {p : Nat} {c : Char} (h : s[p]? = some c) : s.drop p = c :: s.drop (p + 1) := by
  obtain ⟨hp, rfl⟩ := List.getElem?_eq_some_iff.mp h
  exact List.drop_eq_getElem_cons hp

theorem drop_nil_of {s : Str} {p : Nat} (h : s[p]? = none) : s.drop p = [] := List.drop_eq_nil_of_le (List.getElem?_eq_none_iff.mp h)

theorem Deriv.le {s e p q ts} (h : Deriv s e p q ts) : p ≤ q := by
  induction h <;> first | omega | assumption

theorem Deriv.bound {s e p q ts} (h : Deriv s e p q ts) (hp : p ≤ s.length) : q ≤ s.length := by
  induction h with
  | any h | chr h | rng h => obtain ⟨hp, _⟩ := List.getElem?_eq_some_iff.mp h; exact hp
  | seq _ _ h1 h2 | starCons _ _ h1 h2 => exact h2 (h1 hp)
  | alt1 _ ih | alt2 _ _ ih | optSome _ ih | call _ ih | txt _ ih | swIn _ _ _ ih | swOut _ _ ih => exact ih hp
  | _ => exact hp

/-- What Execute reads off the tokens of a derivation is what the relation says. -/
theorem Deriv.big {s e p q ts} (h : Deriv s e p q ts) : Big G e (s.drop p) (some (ts.filterMap (evOf s), s.drop q)) := by
  induction h with
  | eps => exact .eps
  | any h => rw [drop_cons h]; exact .anyOk
  | chr h => rw [drop_cons h]; exact .chrOk
  | rng h h1 h2 => rw [drop_cons h]; exact .rngOk h1 h2
  | seq _ _ i1 i2 => rw [List.filterMap_append]; exact .seqOk i1 i2
  | alt1 _ ih => exact .alt1 ih
  | alt2 hn _ ih => exact .alt2 hn ih
  | starNil hn => exact .starNil hn
  | starCons _ _ i1 i2 => rw [List.filterMap_append]; exact .starCons i1 i2
  | optSome _ ih => exact .optSome ih
  | optNone hn => exact .optNone hn
  | notP hn => exact .notOk hn
  | call _ ih =>
    rw [List.filterMap_append]
    show Big _ _ _ (some (_ ++ [], _))
    rw [List.append_nil]
    exact .call ih
  | @txt a p q ts h ih =>
    rw [List.filterMap_append]
    have := Big.txtOk ih
    have hle := h.le
    have e : (s.drop p).take ((s.drop p).length - (s.drop q).length) = (s.drop p).take (q - p) := by
      by_cases hp : p ≤ s.length
      · have hq := h.bound hp
        congr 1; simp; omega
      · rw [List.drop_eq_nil_of_le (by omega : s.length ≤ p)]; simp
    rw [e] at this
    exact this
  | act => exact .act
  | swIn h hc _ ih => rw [drop_cons h] at ih ⊢; exact .swIn hc ih
  | @swOut cs a b p q ts hc _ ih =>
    cases h : s[p]? with
    | none => rw [drop_nil_of h] at ih ⊢; exact .swNil ih
    | some c => rw [drop_cons h] at ih ⊢; exact .swOut (hc c h) ih

/-- Grammar and text determine the tokens. -/
theorem Deriv.det {s e p q ts} (h : Deriv s e p q ts) : ∀ {q' ts'}, Deriv s e p q' ts' → q = q' ∧ ts = ts' := by
  induction h with
  | eps => intro _ _ h'; cases h'; exact ⟨rfl, rfl⟩
  | any _ => intro _ _ h'; cases h'; exact ⟨rfl, rfl⟩
  | chr _ => intro _ _ h'; cases h'; exact ⟨rfl, rfl⟩
  | rng _ _ _ => intro _ _ h'; cases h'; exact ⟨rfl, rfl⟩
  | seq h1 _ i1 i2 =>
    intro _ _ h'; cases h' with
    | seq k1 k2 =>
      obtain ⟨rfl, rfl⟩ := i1 k1
      obtain ⟨rfl, rfl⟩ := i2 k2
      exact ⟨rfl, rfl⟩
  | alt1 h1 i1 =>
    intro _ _ h'; cases h' with
    | alt1 k => exact i1 k
    | alt2 kn _ => have := (h1.big).det kn; cases this
  | alt2 hn _ i1 =>
    intro _ _ h'; cases h' with
    | alt1 k => have := (k.big).det hn; cases this
    | alt2 _ k => exact i1 k
  | starNil hn =>
    intro _ _ h'; cases h' with
    | starNil _ => exact ⟨rfl, rfl⟩
    | starCons k _ => have := (k.big).det hn; cases this
  | starCons h1 _ i1 i2 =>
    intro _ _ h'; cases h' with
    | starNil kn => have := (h1.big).det kn; cases this
    | starCons k1 k2 =>
      obtain ⟨rfl, rfl⟩ := i1 k1
      obtain ⟨rfl, rfl⟩ := i2 k2
      exact ⟨rfl, rfl⟩
  | optSome h1 i1 =>
    intro _ _ h'; cases h' with
    | optSome k => exact i1 k
    | optNone kn => have := (h1.big).det kn; cases this
  | optNone hn =>
    intro _ _ h'; cases h' with
    | optSome k => have := (k.big).det hn; cases this
    | optNone _ => exact ⟨rfl, rfl⟩
  | notP _ => intro _ _ h'; cases h'; exact ⟨rfl, rfl⟩
  | call _ i1 => intro _ _ h'; cases h' with | call k => obtain ⟨rfl, rfl⟩ := i1 k; exact ⟨rfl, rfl⟩
  | txt _ i1 => intro _ _ h'; cases h' with | txt k => obtain ⟨rfl, rfl⟩ := i1 k; exact ⟨rfl, rfl⟩
  | act => intro _ _ h'; cases h'; exact ⟨rfl, rfl⟩
  | swIn hc hm _ i1 =>
    intro _ _ h'; cases h' with
    | swIn _ _ k => exact i1 k
    | swOut kn _ => exact absurd hm (kn _ hc)
  | swOut hn _ i1 =>
    intro _ _ h'; cases h' with
    | swIn kc km _ => exact absurd km (hn _ kc)
    | swOut _ k => exact i1 k

/-! ## Rule induction on derivations -/

/-- Iteration (the body of a repetition). -/
inductive DIter (R : Nat → Nat → List Tok → Prop) : Nat → Nat → List Tok → Prop where
  | nil {p} : DIter R p p []
  | cons {p q r ts us} : R p q ts → DIter R q r us → DIter R p r (ts ++ us)

/-- What a derivation of an expression says, given what it says (`P`) for rules. -/
def DSat (s : Str) (P : Rule → Nat → Nat → List Tok → Prop) : PExp → Nat → Nat → List Tok → Prop
  | .eps, p, q, ts => ts = [] ∧ p = q
  | .any, p, q, ts => ts = [] ∧ q = p + 1
  | .chr c, p, q, ts => ts = [] ∧ s[p]? = some c ∧ q = p + 1
  | .rng lo hi, p, q, ts => ts = [] ∧ q = p + 1 ∧ ∃ c, s[p]? = some c ∧ lo.toNat ≤ c.toNat ∧ c.toNat ≤ hi.toNat
  | .seq a b, p, q, ts => ∃ m us vs, DSat s P a p m us ∧ DSat s P b m q vs ∧ ts = us ++ vs
  | .alt a b, p, q, ts => DSat s P a p q ts ∨ DSat s P b p q ts
  | .star a, p, q, ts => DIter (DSat s P a) p q ts
  | .opt a, p, q, ts => DSat s P a p q ts ∨ ts = [] ∧ p = q
  | .notP _, p, q, ts => ts = [] ∧ p = q
  | .call x, p, q, ts => P x p q ts
  | .txt a, p, q, ts => ∃ us, DSat s P a p q us ∧ ts = us ++ [⟨.text, p, q⟩] ∧ Deriv s a p q us
  | .act n, p, q, ts => ts = [⟨.act n, p, p⟩] ∧ p = q
  | .sw _ a b, p, q, ts => DSat s P a p q ts ∨ DSat s P b p q ts

theorem Deriv.sat {s : Str} {P : Rule → Nat → Nat → List Tok → Prop}
    (hP : ∀ x p q ts, Deriv s (.call x) p q (ts ++ [⟨.rule x, p, q⟩]) → DSat s P (G x) p q ts → P x p q (ts ++ [⟨.rule x, p, q⟩]))
    {e p q ts} (h : Deriv s e p q ts) : DSat s P e p q ts := by
  induction h with
  | eps => exact ⟨rfl, rfl⟩
  | any _ => exact ⟨rfl, rfl⟩
  | chr h => exact ⟨rfl, h, rfl⟩
  | rng h h1 h2 => exact ⟨rfl, rfl, _, h, h1, h2⟩
  | seq _ _ h1 h2 => exact ⟨_, _, _, h1, h2, rfl⟩
  | alt1 _ h => exact .inl h
  | alt2 _ _ h => exact .inr h
  | starNil _ => exact .nil
  | starCons _ _ h1 h2 => exact .cons h1 h2
  | optSome _ h => exact .inl h
  | optNone _ => exact .inr ⟨rfl, rfl⟩
  | notP _ => exact ⟨rfl, rfl⟩
  | call h ih => exact hP _ _ _ _ (.call h) ih
  | txt h ih => exact ⟨_, ih, rfl, h⟩
  | act => exact ⟨rfl, rfl⟩
  | swIn _ _ _ h => exact .inl h
  | swOut _ _ h => exact .inr h

end Verif
