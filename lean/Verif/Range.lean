import Verif.Fwd6

/-! # Bracketed ranges `x between [a, b]` -/

namespace Verif

open PExp

/-- The first alternative `v and v` does not read a bracketed pair unless the word `and` follows. -/
theorem pair_no_and {w3 a w4 w5 b w6 w x : Str} {lo hi : Node} (hw3 : WS w3) (ha : Val a lo) (hw4 : WS w4) (hw5 : WS w5) (hb : Val b hi)
    (hw6 : WS w6) (hw : WS w) (hx : Solid x) (hA : Hd [('a', 'a'), ('A', 'A')] x) :
    No (seqs [.call .Value, .call .sp, ciLit c!"and", .call .sp, .call .Value]) (pairT w3 a w4 w5 b w6 ++ (w ++ x)) := by
  have nolit : ∀ t, No (.call .Literal) ('[' :: t) := fun t => big_none_cons (by decide) (by decide) (by decide)
  have noand : No (ciLit c!"and") x := by
    refine ciLit_no (by decide) ?_
    rintro u t rfl ⟨y, t', rfl, hy, _⟩
    have := hA y (t' ++ t) rfl
    rcases hy with rfl | rfl <;> exact absurd this (by decide)
  have noparen : ∀ t, No (seqs [.chr '(', .act 23, .call .sp, gItems .Literal, .call .sp, .chr ')', .act 24]) ('[' :: t) :=
    fun t => .seqFail1 (.chrFail (by decide))
  rcases ha with ha | ha
  · rcases hb with hb | hb
    · have h : LitArr (pairT w3 a w4 w5 b w6) (.arr [lo, hi]) := by
        have := LitArr.items (o := '[') (c := ']') (t := []) (w2 := []) (by decide) hw3 (.more (.one ha) hw4 hw5 hb) hw6 (.inl rfl) .nil
        simpa [pairT] using this
      obtain ⟨ev, ho, _⟩ := h.ok (w ++ x)
      exact .seqFail2 (.call (.alt2 (nolit _) ho)) (.seqFail2 (sp_ok hw hx.no) (.seqFail1 noand))
    · refine .seqFail1 (.call (.alt2 (nolit _) (.call (.alt2 ?_ (noparen _)))))
      obtain ⟨h1, h2, h3⟩ := lit_item ha
      have hcl : Closer (',' :: (w5 ++ (b ++ (w6 ++ (c!"]" ++ (w ++ x)))))) := ⟨_, _, rfl, .inl rfl⟩
      obtain ⟨e1, r1, o1, hr1, _⟩ := h3 w4 _ hw4 hcl
      have hsp := sp_or hw4 hcl.solid hr1
      have bsol : Solid (b ++ (w6 ++ (c!"]" ++ (w ++ x)))) := solid_append (Val.solid (.inr hb)).1 (Val.solid (.inr hb)).2
      have step : No (itemT .Literal) r1 := .seqFail2 hsp (.seqFail2 .chrOk (.seqFail2 (sp_ok hw5 bsol.no) (hb.no_literal _)))
      have nb : No (.chr ']') (b ++ (w6 ++ (c!"]" ++ (w ++ x)))) := by
        obtain ⟨c, t, rfl, rfl | rfl⟩ := hb.start <;> exact .chrFail (by decide)
      have asol : Solid (a ++ (w4 ++ ',' :: (w5 ++ (b ++ (w6 ++ (c!"]" ++ (w ++ x))))))) := solid_append h1 h2
      have : No (seqs [.chr '[', .act 21, .call .sp, gItems .Literal, .call .sp, .chr ']', .act 22])
          ('[' :: (w3 ++ (a ++ (w4 ++ ',' :: (w5 ++ (b ++ (w6 ++ (c!"]" ++ (w ++ x))))))))) :=
        .seqFail2 .chrOk (.seqFail2 .act (.seqFail2 (sp_ok hw3 asol.no)
          (.seqFail2 (.optSome (.seqOk o1 (.seqOk (.starNil step) (.seqOk hsp (.optSome .chrOk)))))
            (.seqFail2 (sp_ok hw5 bsol.no) (.seqFail1 nb)))))
      simpa [pairT] using this
  · refine .seqFail1 (.call (.alt2 (nolit _) (.call (.alt2 ?_ (noparen _)))))
    have asol : Solid (a ++ (w4 ++ ',' :: (w5 ++ (b ++ (w6 ++ (c!"]" ++ (w ++ x))))))) := solid_append (Val.solid (.inr ha)).1 (Val.solid (.inr ha)).2
    have na : No (.chr ']') (a ++ (w4 ++ ',' :: (w5 ++ (b ++ (w6 ++ (c!"]" ++ (w ++ x))))))) := by
      obtain ⟨c, t, rfl, rfl | rfl⟩ := ha.start <;> exact .chrFail (by decide)
    have : No (seqs [.chr '[', .act 21, .call .sp, gItems .Literal, .call .sp, .chr ']', .act 22])
        ('[' :: (w3 ++ (a ++ (w4 ++ ',' :: (w5 ++ (b ++ (w6 ++ (c!"]" ++ (w ++ x))))))))) :=
      .seqFail2 .chrOk (.seqFail2 .act (.seqFail2 (sp_ok hw3 asol.no) (.seqFail2 (.optNone (.seqFail1 (ha.no_literal _)))
        (.seqFail2 (sp_nil asol.no) (.seqFail1 na)))))
    simpa [pairT] using this

theorem pair_ok {w3 a w4 w5 b w6 r : Str} {lo hi : Node} (hw3 : WS w3) (ha : Val a lo) (hw4 : WS w4) (hw5 : WS w5) (hb : Val b hi) (hw6 : WS w6) :
    ∃ ev, Ok (seqs [.chr '[', .call .sp, .call .Value, .call .sp, .chr ',', .call .sp, .call .Value, .call .sp, .chr ']'])
      (pairT w3 a w4 w5 b w6 ++ r) ev r ∧ Eff ev [lo, hi] [] := by
  obtain ⟨ea, oka, efa⟩ := ha.ok (r := w4 ++ ',' :: (w5 ++ (b ++ (w6 ++ ']' :: r)))) (hd_append (ws_hd hw4 (by decide)) (Hd.cons (by decide)))
  obtain ⟨eb, okb, efb⟩ := hb.ok (r := w6 ++ ']' :: r) (hd_append (ws_hd hw6 (by decide)) (Hd.cons (by decide)))
  refine ⟨_, Ok.cast (.seqOk .chrOk (.seqOk (sp_ok hw3 (solid_append ha.solid.1 ha.solid.2).no) (.seqOk oka (.seqOk (sp_ok hw4 (Solid.cons (by decide)).no)
    (.seqOk .chrOk (.seqOk (sp_ok hw5 (solid_append hb.solid.1 hb.solid.2).no) (.seqOk okb (.seqOk (sp_ok hw6 (Solid.cons (by decide)).no) .chrOk))))))))
    (by simp [pairT]) rfl rfl, ?_⟩
  have := efa.append efb
  simpa using this

/-- Reading a bracketed range, as long as the word `and` does not follow. -/
def FRng (u : Str) (n : Node) : Prop := Start u ∧ ∀ w x, WS w → Solid x → Glue u w x → Hd [('a', 'a'), ('A', 'A')] x → NoP x → NoI x → NoC x →
  ∃ ev r, (r = w ++ x ∨ r = x) ∧ Eff ev [n] [] ∧
    ∀ ev' r', Ok (.star logT) r ev' r' → Ok (.call .LogicExpression) (u ++ (w ++ x)) (ev ++ ev') r'

theorem frng {u l w1 ob o w2 w3 a lo w4 w5 b hi w6} (h : FPrim u l) (hw1 : WS w1) (hob : BetweenW ob o) (hap : Apart u w1 ob) (hw2 : WS w2)
    (hw3 : WS w3) (ha : Val a lo) (hw4 : WS w4) (hw5 : WS w5) (hb : Val b hi) (hw6 : WS w6) :
    FRng (u ++ (w1 ++ (ob ++ (w2 ++ pairT w3 a w4 w5 b w6)))) (.between l (.op o) lo hi) := by
  refine ⟨h.1.append _, fun w x hw hx hg hA hp hi hc => ?_⟩
  have hob' := fun y => hob.ok y
  have hne : ob ≠ [] := by
    rintro rfl
    have := (hob.ok [' ']).2.1
    exact absurd (this ' ' [] rfl) (by decide)
  have hd0 : ∀ {S : CSet}, S.has 'b' = false → S.has 'n' = false → S.has 'N' = false → ∀ y, Hd S (ob ++ y) := fun a b c y => hob.hd a b c y
  obtain ⟨eu, oku, efu⟩ := h.2 w1 (ob ++ (w2 ++ (pairT w3 a w4 w5 b w6 ++ (w ++ x)))) hw1 (hob' _).2.1
    (hap.glue hw1 hne (by have := hd0 (S := [('.', '.'), ('(', '('), ('0', '9')]) (by decide) (by decide) (by decide) []; rwa [List.append_nil] at this))
  obtain ⟨ep, okp, efp⟩ := pair_ok (r := w ++ x) hw3 ha hw4 hw5 hb hw6
  have psol : Solid (pairT w3 a w4 w5 b w6 ++ (w ++ x)) := Solid.cons (by decide)
  have tail : Ok btwT (w1 ++ (ob ++ (w2 ++ (pairT w3 a w4 w5 b w6 ++ (w ++ x))))) _ (w ++ x) :=
    .seqOk (sp_ok hw1 (hob' _).2.1.no) (.seqOk (op_text (hob' _).1) (.seqOk .act (.seqOk (sp_ok hw2 psol.no)
      (.seqOk (.alt2 (pair_no_and hw3 ha hw4 hw5 hb hw6 hw hx hA) okp) .act))))
  have okb : Ok (.call .BetweenExpression) _ _ _ := .call (.seqOk oku (.optSome tail))
  have okn := up_not (by have := Big.seqOk (up_cin (up_prd okb (hp w hw)) (hi w hw)) (Big.starNil (hc w hw)); exact .call this)
  have e1 : Eff [.text ob, .act 6] [.op o] [] := eff_op (by decide) (hob' []).2.2
  have ef := eff_act7 (ns := []) (by have := (efu.append e1).append efp; simpa using this)
  refine ⟨_, w ++ x, .inl rfl, ?_, fun ev' r' hs => Ok.cast (.call (.seqOk okn hs)) (by simp) rfl rfl⟩
  simpa using ef

theorem FRng.expr {u n} (h : FRng u n) {w x : Str} (hw : WS w) (hb : Solid x) (hg : Glue u w x) (hA : Hd [('a', 'a'), ('A', 'A')] x) (hr : Hd relF x)
    (hc : Hd cmpH x) (hl : Hd logH x) :
    ∃ ev r, (r = w ++ x ∨ r = x) ∧ Ok (.call .Expression) (u ++ (w ++ x)) ev r ∧ Eff ev [n] [] := by
  obtain ⟨_, h2, h3⟩ := stop_of_hd hb hr
  obtain ⟨ev, r, hr, he, ho⟩ := h.2 w x hw hb hg hA h2 h3 (fun w hw => cmpT_no hw hb hc)
  have := ho [] r (.starNil (or_no hw (P := No logT) (fun w hw => logT_no hw hb hl) hr))
  rw [List.append_nil] at this
  exact ⟨ev, r, hr, .call this, he⟩

theorem fprim_range {w1 u w2 n} (hw1 : WS w1) (h : FRng u n) (hw2 : WS w2) : FPrim ('(' :: (w1 ++ (u ++ (w2 ++ c!")")))) (.paren n) := by
  refine ⟨⟨_, _, rfl, by decide⟩, fun w x hw hb hg => ?_⟩
  have key : ∀ S : CSet, S.has ')' = false → Hd S (')' :: (w ++ x)) := fun S hs => Hd.cons hs
  obtain ⟨ev, r, hr, ho, he⟩ := h.expr hw2 (closer_paren (w ++ x)).solid
    (glue_hd (hd_append (ws_hd hw2 (by decide)) (key _ (by decide)))) (key _ (by decide)) (key _ (by decide)) (key _ (by decide)) (key _ (by decide))
  refine ⟨[] ++ ([] ++ (ev ++ ([] ++ ([] ++ [.act 8])))), Ok.cast (.call (.alt1 (.seqOk .chrOk (.seqOk (sp_ok hw1 (h.1.solid _).no) (.seqOk ho
    (.seqOk (sp_or hw2 (closer_paren _).solid hr) (.seqOk .chrOk .act))))))) (by simp) rfl rfl, ?_⟩
  have := eff_act8 (ns := []) he
  simpa using this

end Verif
