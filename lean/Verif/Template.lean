import Verif.Chain
import Verif.Complete
import Verif.Spec.Template

/-! # Queries put together from queries -/

namespace Verif

open PExp

theorem fprim_hole {q n} (h : parse q = .ok n) (hb : Balanced q false) : FPrim ('(' :: (q ++ c!")")) (.paren n) := by
  refine ⟨⟨_, _, rfl, by decide⟩, fun w x _ _ _ => ?_⟩
  obtain ⟨ev, ho, he⟩ := paren_ok h hb (w ++ x)
  exact ⟨ev, Ok.cast ho (by simp) rfl rfl, he⟩

theorem fargs_hole {q n} (h : parse q = .ok n) (hb : Balanced q false) : FArgs q (.arr [n]) := by
  intro r
  obtain ⟨ev, r1, r2, x1, x3, x5, he⟩ := hole_parts h hb r
  refine ⟨_, .call (.seqOk .chrOk (.seqOk x1 (.seqOk .act (.seqOk (.optSome (.seqOk (.call x3) (.seqOk (.starNil (.seqFail2 x5 (.seqFail1 (.chrFail (by decide)))))
    (.seqOk x5 (.optNone (.chrFail (by decide))))))) (.seqOk (sp_nil (Solid.cons (by decide)).no) (.seqOk .chrOk .act)))))), ?_⟩
  have := eff_arr (k := 10) (k' := 11) (by decide) he
  simpa using this

theorem Tpl.fwd {H : Str → Node → Prop} (hH : ∀ q n, H q n → parse q = .ok n ∧ Balanced q false) {l u n} (h : Tpl H l u n) : FSp l u n := by
  induction h with
  | hole h => exact fprim_hole (hH _ _ h).1 (hH _ _ h).2
  | argHole h => exact fargs_hole (hH _ _ h).1 (hH _ _ h).2
  | lit h => exact fprim_lit h
  | arr h => exact fprim_arr h
  | tupleEmpty hw => exact fprim_tupleEmpty hw
  | tuple a b c d e f => exact fprim_tuple a b c d e f
  | name a b => exact fprim_name a b
  | paren a _ c ih => exact fprim_paren a ih c
  | range a _ b c d e f g h i j k l ih => exact fprim_range a (frng ih b c d e f g h i j k) l
  | func a b _ ih => exact fprim_func a b ih
  | argOne _ ih => rintro ns ⟨⟩; exact .one ih
  | argMore _ b c _ ih1 ih2 => rintro ns ⟨⟩; exact .more (ih1 _ rfl) b c ih2
  | argsNone hw => exact fargs_none hw
  | argsSome a _ c d e ih => exact fargs_some a (ih _ rfl) c d e
  | btwUp _ ih => exact FPrim.up ih
  | btw _ a b c d e f g h i ih => exact fbtw ih a b c d e f g h i
  | prdUp _ ih => exact FBtw.up ih
  | pred _ a b c ih => exact fpred ih a b c
  | cinUp _ ih => exact FPrd.up ih
  | isIn _ a b c d e ih => exact fin ih a b c d e
  | cmpUp _ ih => exact FCin.up ih
  | cmp _ a b c d _ ih1 ih2 => exact fcmp ih1 a b c d ih2
  | negUp _ ih => exact FCmp.up ih
  | neg a b c _ ih => exact fneg a b c ih
  | logicUp _ ih => exact FNeg.up ih
  | logic _ a b c d _ ih1 ih2 => exact flog ih1 a b c d ih2

/-- A filled template parses to the tree it spells. -/
theorem filled_parse {H : Str → Node → Prop} (hH : ∀ q n, H q n → parse q = .ok n ∧ Balanced q false) {s n} (h : Filled H s n) : parse s = .ok n := by
  obtain ⟨w1, u, w2, rfl, hw1, hs, hw2⟩ := h
  have hg : Glue u w2 [] := glue_hd (by rw [List.append_nil]; exact ws_hd hw2 (by decide))
  have key : Start u ∧ ∃ ev r, (r = w2 ∨ r = []) ∧ Ok (.call .Expression) (u ++ w2) ev r ∧ Eff ev [n] [] := by
    rcases hs with hs | hs
    · have hf : FLog u n := hs.fwd hH
      refine ⟨hf.1, ?_⟩
      simpa using hf.expr hw2 Solid.nil hg Hd.nil Hd.nil Hd.nil
    · have hf : FRng u n := by
        cases hs with
        | mk h a b c d e f g i j k => exact frng (h.fwd hH) a b c d e f g i j k
      refine ⟨hf.1, ?_⟩
      simpa using hf.expr hw2 Solid.nil hg Hd.nil Hd.nil Hd.nil Hd.nil
  obtain ⟨hst, ev, r, hr, ho, he⟩ := key
  refine parse_of_eff (ev := [] ++ (ev ++ ([] ++ []))) (.call (.seqOk (sp_ok hw1 (hst.solid _).no) (.seqOk ho (.seqOk ?_ (.call (.notOk .anyFail)))))) ?_
  · exact sp_or hw2 Solid.nil (by rw [List.append_nil]; exact hr)
  · simpa using he

end Verif
