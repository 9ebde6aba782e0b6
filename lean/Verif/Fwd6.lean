import Verif.Fwd5

/-! # Forward derivations: ranges -/

namespace Verif

open PExp

theorem hd_lit {S : CSet} {ob : Str} (h : ∃ c t, ob = c :: t ∧ S.has c = false) (y : Str) : Hd S (ob ++ y) := by
  obtain ⟨c, t, rfl, hc⟩ := h; exact Hd.cons hc

theorem BetweenW.hd {ob o} (h : BetweenW ob o) {S : CSet} (h1 : S.has 'b' = false) (h2 : S.has 'n' = false) (h3 : S.has 'N' = false) (y : Str) :
    Hd S (ob ++ y) := by
  cases h with
  | btw => exact Hd.cons h1
  | notBtw ha _ => rw [List.append_assoc]; exact ha.hd h2 h3 _

theorem InW.hd {ob o} (h : InW ob o) {S : CSet} (h1 : S.has 'i' = false) (h1' : S.has 'I' = false) (h2 : S.has 'n' = false)
    (h3 : S.has 'N' = false) (y : Str) : Hd S (ob ++ y) := by
  cases h with
  | inn h => exact h.hd h1 h1' _
  | notIn ha _ _ => rw [List.append_assoc]; exact ha.hd h2 h3 _

theorem MatchW.hd {ob o} (h : MatchW ob o) {S : CSet} (h1 : S.has 'i' = false) (h2 : S.has 'n' = false) (y : Str) : Hd S (ob ++ y) := by
  cases h with
  | isnull => exact Hd.cons h1
  | notnull => exact Hd.cons h2
  | is _ _ => exact Hd.cons h1
  | isNot _ _ _ => exact Hd.cons h1

theorem CmpW.hd {ob o} (h : CmpW ob o) {S : CSet} (hS : ∀ p ∈ cmpH, S.has p.1 = false) (y : Str) : Hd S (ob ++ y) := by
  cases h with
  | sym h =>
    simp at h
    rcases h with ⟨rfl, rfl⟩ | ⟨rfl, rfl⟩ | ⟨rfl, rfl⟩ | ⟨rfl, rfl⟩ | ⟨rfl, rfl⟩ | ⟨rfl, rfl⟩ | ⟨rfl, rfl⟩
    · exact Hd.cons (hS ('>', '>') (by decide))
    · exact Hd.cons (hS ('<', '<') (by decide))
    · exact Hd.cons (hS ('=', '=') (by decide))
    · exact Hd.cons (hS ('<', '<') (by decide))
    · exact Hd.cons (hS ('=', '=') (by decide))
    · exact Hd.cons (hS ('>', '>') (by decide))
    · exact Hd.cons (hS ('!', '!') (by decide))
  | word h hc =>
    simp at h
    rcases h with rfl | rfl | rfl | rfl | rfl
    · exact hc.hd (hS ('g', 'g') (by decide)) (hS ('G', 'G') (by decide)) _
    · exact hc.hd (hS ('l', 'l') (by decide)) (hS ('L', 'L') (by decide)) _
    · exact hc.hd (hS ('e', 'e') (by decide)) (hS ('E', 'E') (by decide)) _
    · exact hc.hd (hS ('n', 'n') (by decide)) (hS ('N', 'N') (by decide)) _
    · exact hc.hd (hS ('l', 'l') (by decide)) (hS ('L', 'L') (by decide)) _
  | notLike ha _ _ => rw [List.append_assoc]; exact ha.hd (hS ('n', 'n') (by decide)) (hS ('N', 'N') (by decide)) _

theorem op_text {e : PExp} {ob r : Str} (h : Ok e (ob ++ r) [] r) : Ok (.txt e) (ob ++ r) [.text ob] r := by
  have := Big.txtOk h
  rw [txt_eq] at this
  exact this

theorem fbtw {u l w1 ob o w2 a lo w3 k w4 b hi} (h : FPrim u l) (hw1 : WS w1) (hob : BetweenW ob o) (hap : Apart u w1 ob) (hw2 : WS w2)
    (ha : Val a lo) (hw3 : WS w3) (hk : CI c!"and" k) (hw4 : WS w4) (hb : Val b hi) :
    FBtw (u ++ (w1 ++ (ob ++ (w2 ++ (a ++ (w3 ++ (k ++ (w4 ++ b)))))))) (.between l (.op o) lo hi) := by
  refine ⟨h.1.append _, fun w x hw hbs hg h1 => ?_⟩
  have hob' := fun y => hob.ok y
  have hne : ob ≠ [] := by
    rintro rfl
    have := (hob.ok [' ']).2.1
    exact absurd (this ' ' [] rfl) (by decide)
  obtain ⟨eb, okb, efb⟩ := hb.ok (hg.1)
  have kd : Hd [('0', '9')] (w3 ++ (k ++ (w4 ++ (b ++ (w ++ x))))) := hd_append (ws_hd hw3 (by decide)) (hk.hd (by decide) (by decide) _)
  obtain ⟨ea, oka, efa⟩ := ha.ok kd
  have hd0 : ∀ {S : CSet}, S.has 'b' = false → S.has 'n' = false → S.has 'N' = false → ∀ y, Hd S (ob ++ y) := fun a b c y => hob.hd a b c y
  obtain ⟨eu, oku, efu⟩ := h.2 w1 (ob ++ (w2 ++ (a ++ (w3 ++ (k ++ (w4 ++ (b ++ (w ++ x)))))))) hw1
    (hob' _).2.1
    (hap.glue hw1 hne (by have := hd0 (S := [('.', '.'), ('(', '('), ('0', '9')]) (by decide) (by decide) (by decide) []; rwa [List.append_nil] at this))
  have ksol : Solid (k ++ (w4 ++ (b ++ (w ++ x)))) := hk.hd (by decide) (by decide) _
  have tail : Ok btwT (w1 ++ (ob ++ (w2 ++ (a ++ (w3 ++ (k ++ (w4 ++ (b ++ (w ++ x))))))))) _ (w ++ x) :=
    .seqOk (sp_ok hw1 (hob' _).2.1.no) (.seqOk (op_text (hob' _).1) (.seqOk .act (.seqOk (sp_ok hw2 (solid_append ha.solid.1 ha.solid.2).no)
      (.seqOk (.alt1 (.seqOk oka (.seqOk (sp_ok hw3 ksol.no) (.seqOk (ciLit_ok _ hk) (.seqOk (sp_ok hw4 (solid_append hb.solid.1 hb.solid.2).no) okb)))))
        .act))))
  refine ⟨_, Ok.cast (.call (.seqOk oku (.optSome tail))) (by simp) rfl rfl, ?_⟩
  have e1 : Eff [.text ob, .act 6] [.op o] [] := eff_op (by decide) (hob' []).2.2
  have := eff_act7 (ns := []) (by have := ((efu.append e1).append efa).append efb; simpa using this)
  simpa using this

end Verif
