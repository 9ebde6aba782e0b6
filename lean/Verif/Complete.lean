import Verif.Range

/-! # Every clearly spaced query is parsed as it reads -/

namespace Verif

open PExp

theorem fpred {u l w1 ob o} (h : FBtw u l) (hw1 : WS w1) (hne1 : w1 ≠ []) (hob : MatchW ob o) : FPrd (u ++ (w1 ++ ob)) (.pred l (.op o)) := by
  refine ⟨h.1.append _, fun w x hw hb hg h1 h2 => ?_⟩
  obtain ⟨k1, k2, k3⟩ := hob.ok (w ++ x)
  obtain ⟨eu, oku, efu⟩ := h.2 w1 (ob ++ (w ++ x)) hw1 k2 (glue_ws hw1 hne1) (hob.stop _)
  have tail : Ok prdT (w1 ++ (ob ++ (w ++ x))) _ x :=
    .seqOk (.call (.seqOk (sp1_ok hw1 hne1 k2.no) (.seqOk (op_text k1) (.seqOk (sp_ok hw hb.no) .act)))) .act
  refine ⟨_, x, .inr rfl, Ok.cast (.call (.seqOk oku (.optSome tail))) (by simp) rfl rfl, ?_⟩
  have e1 : Eff [.text ob, .act 20] [.op o] [] := eff_op (by decide) k3
  have := eff_act5 (ns := []) (by have := efu.append e1; simpa using this)
  simpa using this

theorem fin {u l w1 ob o w2 a n} (h : FPrd u l) (hw1 : WS w1) (hob : InW ob o) (hap : Apart u w1 ob) (hw2 : WS w2) (ha : LitArr a n) :
    FCin (u ++ (w1 ++ (ob ++ (w2 ++ a)))) (.cmp l (.op o) n) := by
  refine ⟨h.1.append _, fun w x hw hb hg h1 h2 h3 => ?_⟩
  have hne : ob ≠ [] := by
    rintro rfl
    have := (hob.ok [' ']).2.1
    exact absurd (this ' ' [] rfl) (by decide)
  obtain ⟨ea, oka, efa⟩ := ha.ok (w ++ x)
  obtain ⟨k1, k2, k3⟩ := hob.ok (w2 ++ (a ++ (w ++ x)))
  obtain ⟨s1, s2⟩ := hob.stop (w2 ++ (a ++ (w ++ x)))
  obtain ⟨eu, r, hr, oku, efu⟩ := h.2 w1 (ob ++ (w2 ++ (a ++ (w ++ x)))) hw1 k2
    (hap.glue hw1 hne (by have := hob.hd (S := [('.', '.'), ('(', '('), ('0', '9')]) (by decide) (by decide) (by decide) (by decide) []; rwa [List.append_nil] at this)) s1 s2
  have asol := (Val.solid (.inr ha))
  have tail : Ok cinT r _ (w ++ x) :=
    .seqOk (sp_or hw1 k2 hr) (.seqOk (op_text k1) (.seqOk (sp_ok hw2 (solid_append asol.1 asol.2).no) (.seqOk .act (.seqOk oka .act))))
  refine ⟨_, w ++ x, .inl rfl, Ok.cast (.call (.seqOk oku (.optSome tail))) (by simp) rfl rfl, ?_⟩
  have e1 : Eff [.text ob, .act 3] [.op o] [] := eff_op (by decide) k3
  have := eff_act4 (ns := []) (by have := (efu.append e1).append efa; simpa using this)
  simpa using this

theorem fcmp {u l w1 ob o w2 v m} (h : FCmp u l) (hw1 : WS w1) (hob : CmpW ob o) (hap : Apart u w1 ob) (hw2 : WS w2) (hv : FCin v m) :
    FCmp (u ++ (w1 ++ (ob ++ (w2 ++ v)))) (.cmp l (.op o) m) := by
  refine ⟨h.1.append _, fun w x hw hb hg h1 h2 h3 => ?_⟩
  have hsol := hob.reach.solid (w2 ++ (v ++ (w ++ x)))
  have hne : ob ≠ [] := by
    rintro rfl
    have := hob.reach.solid [' ']
    exact absurd (this ' ' [] rfl) (by decide)
  have hgv : Glue v w x := by
    have : Glue ((u ++ (w1 ++ (ob ++ w2))) ++ v) w x := by simpa using hg
    exact this.right
  obtain ⟨ev, rv, hrv, okv, efv⟩ := hv.2 w x hw hb hgv h1 h2 h3
  have nt := fun w (hw : WS w) => hob.reach.noTails (r := w2 ++ (v ++ (w ++ x))) hw
  obtain ⟨eu, r, hr, efu, oku⟩ := h.2 w1 (ob ++ (w2 ++ (v ++ (w ++ x)))) hw1 hsol
    (hap.glue hw1 hne (by have := hob.hd (S := [('.', '.'), ('(', '('), ('0', '9')]) (by decide) []; rwa [List.append_nil] at this))
    (fun w' hw' => (hob.reach.noTails hw').1) (fun w' hw' => (hob.reach.noTails hw').2.1) (fun w' hw' => (hob.reach.noTails hw').2.2)
  have hcmp : ∃ ec, Ok (.call .Compare) r ec (v ++ (w ++ x)) ∧ Eff ec [.op o] [] := by
    rcases hr with rfl | rfl
    · exact compare_ok hw1 hob.reach hw2 (hv.1.solid _) (hv.1.noEq _)
    · have := compare_ok (w1 := []) .nil hob.reach hw2 (hv.1.solid (w ++ x)) (hv.1.noEq _)
      simpa using this
  obtain ⟨ec, okc, efc⟩ := hcmp
  refine ⟨eu ++ (ec ++ (ev ++ [.act 2])), rv, hrv, ?_, fun ev' r' hs => ?_⟩
  · have := eff_act2 (ns := []) (by have := (efu.append efc).append efv; simpa using this)
    simpa using this
  · have := oku _ _ (.starCons (.seqOk okc (.seqOk okv .act)) hs)
    simpa using this

theorem compare_no_not {k r : Str} (hk : CI c!"not" k) : No (.call .CompareExpression) (k ++ r) := by
  have hid : No (.call .Identifier) (k ++ r) := .call (.seqFail1 (.notFail (ciLit_ok r hk)))
  have hp : No (.call .PrimaryExpression) (k ++ r) := by
    refine .call (.alt2 ?_ (.alt2 ?_ (.alt2 (.seqFail1 hid) (.call (.alt2 (.call (.seqFail2 .act (.seqFail1 hid))) (.alt2 (.call (.seqFail1 hid)) hid))))))
    · exact (hk.hd (S := [('(', '(')]) (by decide) (by decide) r).no (by decide) (by decide) (by decide)
    · obtain ⟨x, t, rfl, hx, y, t', rfl, hy, _⟩ := hk
      refine .call (.alt2 (.call (.swIn (by rcases hx with rfl | rfl <;> decide) (.call (.seqFail1 (.txtFail (.alt2 ?_ ?_)))))) ?_)
      · refine lit_no_prefix (by decide) ?_
        rintro ⟨t, h⟩
        simp at h
        rcases hy with rfl | rfl
        · exact absurd h.2.1 (by decide)
        · exact absurd h.2.1 (by decide)
      · refine lit_no_prefix (by decide) ?_
        rintro ⟨t, h⟩
        simp at h
        rcases hy with rfl | rfl
        · exact absurd h.2.1 (by decide)
        · exact absurd h.2.1 (by decide)
      · have : x ≠ '[' ∧ x ≠ '(' := by rcases hx with rfl | rfl <;> decide
        exact .call (.alt2 (.seqFail1 (.chrFail this.1)) (.seqFail1 (.chrFail this.2)))
  exact .call (.seqFail1 (.call (.seqFail1 (.call (.seqFail1 (.call (.seqFail1 hp)))))))

theorem fneg {k w1 u n} (hk : CI c!"not" k) (hw1 : WS w1) (hne : w1 ≠ []) (h : FCmp u n) : FNeg (k ++ (w1 ++ u)) (.not n) := by
  refine ⟨?_, fun w x hw hb hg h1 h2 h3 h4 => ?_⟩
  · obtain ⟨c, t, rfl, hc⟩ := hk.head
    exact ⟨c, _, rfl, by rcases hc with rfl | rfl <;> decide⟩
  · have hgu : Glue u w x := by
      have : Glue ((k ++ w1) ++ u) w x := by simpa using hg
      exact this.right
    obtain ⟨ev, r, hr, he, ho⟩ := h.2 w x hw hb hgu h1 h2 h3
    have hs := ho [] r (.starNil (or_no hw h4 hr))
    rw [List.append_nil] at hs
    have hsol : Solid (k ++ (w1 ++ (u ++ (w ++ x)))) := hk.hd (by decide) (by decide) _
    refine ⟨_, r, hr, Ok.cast (.call (.alt2 (compare_no_not hk) (.seqOk (sp_nil hsol.no) (.seqOk (ciLit_ok _ hk)
      (.seqOk (sp1_ok hw1 hne (h.1.solid _).no) (.seqOk hs .act)))))) (by simp) rfl rfl, ?_⟩
    have := eff_act1 (ns := []) he
    simpa using this

theorem flog {u l w1 ob o w2 v m} (h : FLog u l) (hw1 : WS w1) (hob : LogicOp ob o) (hap : Apart u w1 ob) (hw2 : WS w2) (hv : FNeg v m) :
    FLog (u ++ (w1 ++ (ob ++ (w2 ++ v)))) (.logic l (.op o) m) := by
  refine ⟨h.1.append _, fun w x hw hb hg h1 h2 h3 h4 => ?_⟩
  have hsol : Solid (ob ++ (w2 ++ (v ++ (w ++ x)))) := hob.hd _ (by decide)
  have hne : ob ≠ [] := by
    rintro rfl
    have := hob.hd (S := wsF) [' '] (by decide)
    exact absurd (this ' ' [] rfl) (by decide)
  have hgv : Glue v w x := by
    have : Glue ((u ++ (w1 ++ (ob ++ w2))) ++ v) w x := by simpa using hg
    exact this.right
  obtain ⟨ev, rv, hrv, okv, efv⟩ := hv.2 w x hw hb hgv h1 h2 h3 h4
  have nt := fun w' (hw' : WS w') => After.of (r := ob ++ (w2 ++ (v ++ (w ++ x)))) hw' hsol (hob.hd _ (by decide)) (hob.hd _ (by decide))
  obtain ⟨eu, r, hr, efu, oku⟩ := h.2 w1 (ob ++ (w2 ++ (v ++ (w ++ x)))) hw1 hsol
    (hap.glue hw1 hne (by have := hob.hd (S := [('.', '.'), ('(', '('), ('0', '9')]) [] (by decide); rwa [List.append_nil] at this))
    (fun w' hw' => (nt w' hw').1) (fun w' hw' => (nt w' hw').2.1) (fun w' hw' => (nt w' hw').2.2.1) (fun w' hw' => (nt w' hw').2.2.2)
  have hlog : ∃ ec, Ok (.call .Logic) r ec (v ++ (w ++ x)) ∧ Eff ec [.op o] [] := by
    rcases hr with rfl | rfl
    · exact logic_ok hw1 hob hw2 (hv.1.solid _)
    · have := logic_ok (w1 := []) .nil hob hw2 (hv.1.solid (w ++ x))
      simpa using this
  obtain ⟨ec, okc, efc⟩ := hlog
  refine ⟨eu ++ (ec ++ (ev ++ [.act 0])), rv, hrv, ?_, fun ev' r' hs => ?_⟩
  · have := eff_act0 (ns := []) (by have := (efu.append efc).append efv; simpa using this)
    simpa using this
  · have := oku _ _ (.starCons (.seqOk okc (.seqOk okv .act)) hs)
    simpa using this

/-- The induction predicate. -/
def FSp : Lvl → Str → Node → Prop
  | .prim, u, n => FPrim u n
  | .btw, u, n => FBtw u n
  | .prd, u, n => FPrd u n
  | .cin, u, n => FCin u n
  | .cmp, u, n => FCmp u n
  | .neg, u, n => FNeg u n
  | .logic, u, n => FLog u n
  | .args1, u, n => ∀ ns, n = .arr ns → Items FLog u ns
  | .args, u, n => FArgs u n

theorem Sp.fwd {l u n} (h : Sp l u n) : FSp l u n := by
  induction h with
  | lit h => exact fprim_lit h
  | arr h => exact fprim_arr h
  | tupleEmpty hw => exact fprim_tupleEmpty hw
  | tuple a b c d e f => exact fprim_tuple a b c d e f
  | name a b => exact fprim_name a b
  | paren a _ c ih => exact fprim_paren a ih c
  | range a _ b c d e f g h i j k l ih => exact fprim_range a (frng ih b c d e f g h i j k) l
  | func a b _ ih => exact fprim_func a b ih
  | argOne _ ih => rintro ns ⟨⟩; exact .one ih
  | argMore _ b c _ ih1 ih2 => rintro ns ⟨⟩; exact .more (ih1 _ rfl) b c ih2
  | argsNone hw => exact fargs_none hw
  | argsSome a _ c d e ih => exact fargs_some a (ih _ rfl) c d e
  | btwUp _ ih => exact FPrim.up ih
  | btw _ a b c d e f g h i ih => exact fbtw ih a b c d e f g h i
  | prdUp _ ih => exact FBtw.up ih
  | pred _ a b c ih => exact fpred ih a b c
  | cinUp _ ih => exact FPrd.up ih
  | isIn _ a b c d e ih => exact fin ih a b c d e
  | cmpUp _ ih => exact FCin.up ih
  | cmp _ a b c d _ ih1 ih2 => exact fcmp ih1 a b c d ih2
  | negUp _ ih => exact FCmp.up ih
  | neg a b c _ ih => exact fneg a b c ih
  | logicUp _ ih => exact FNeg.up ih
  | logic _ a b c d _ ih1 ih2 => exact flog ih1 a b c d ih2

/-- A clearly spaced query parses to the tree it spells. -/
theorem spaced_parse {s n} (h : Spaced s n) : parse s = .ok n := by
  obtain ⟨w1, u, w2, rfl, hw1, hs, hw2⟩ := h
  have hg : Glue u w2 [] := glue_hd (by rw [List.append_nil]; exact ws_hd hw2 (by decide))
  have key : Start u ∧ ∃ ev r, (r = w2 ∨ r = []) ∧ Ok (.call .Expression) (u ++ w2) ev r ∧ Eff ev [n] [] := by
    rcases hs with hs | hs
    · have hf : FLog u n := hs.fwd
      refine ⟨hf.1, ?_⟩
      simpa using hf.expr hw2 Solid.nil hg Hd.nil Hd.nil Hd.nil
    · have hf : FRng u n := by
        cases hs with
        | mk h a b c d e f g i j k => exact frng h.fwd a b c d e f g i j k
      refine ⟨hf.1, ?_⟩
      simpa using hf.expr hw2 Solid.nil hg Hd.nil Hd.nil Hd.nil Hd.nil
  obtain ⟨hst, ev, r, hr, ho, he⟩ := key
  refine parse_of_eff (ev := [] ++ (ev ++ ([] ++ []))) (.call (.seqOk (sp_ok hw1 (hst.solid _).no) (.seqOk ho (.seqOk ?_ (.call (.notOk .anyFail)))))) ?_
  · exact sp_or hw2 Solid.nil (by rw [List.append_nil]; exact hr)
  · simpa using he

end Verif
