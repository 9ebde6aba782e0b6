import Verif.Ext

/-! # Forward derivations: tails, operators, chains -/

namespace Verif

open PExp

/-- The optional tail of BetweenExpression. -/
def btwT : PExp := seqs [.call .sp, .txt gBetweenOp, .act 6, .call .sp, gBounds, .act 7]
/-- The optional tail of PredicateExpression. -/
def prdT : PExp := seqs [.call .Match, .act 5]
/-- The optional tail of CompareInExpression. -/
def cinT : PExp := seqs [.call .sp, .txt gInOp, .call .sp, .act 3, .call .Array, .act 4]
/-- The repeated tail of CompareExpression. -/
def cmpT : PExp := seqs [.call .Compare, .call .CompareInExpression, .act 2]
/-- The repeated tail of LogicExpression. -/
def logT : PExp := seqs [.call .Logic, .call .NotExpression, .act 0]

/-- The text does not start with a character of the set. -/
def Hd (S : CSet) (r : Str) : Prop := ∀ c t, r = c :: t → S.has c = false

theorem Hd.mono {S S' : CSet} {r} (h : Hd S r) (hs : S'.sub S = true) : Hd S' r := by
  intro c t e
  cases hh : S'.has c with
  | false => rfl
  | true => have := CSet.has_sub hs hh; rw [h c t e] at this; cases this

theorem Hd.nil {S} : Hd S [] := by rintro c t ⟨⟩

theorem Hd.cons {S : CSet} {c : Char} {t : Str} (h : S.has c = false) : Hd S (c :: t) := by rintro c t ⟨⟩; exact h

theorem Hd.no {e : PExp} {r : Str} {S : CSet} (h : Hd S r) (hs : (first nulG firstG e).sub S = true)
    (hr : ranked nulG rankG 16 16 e = true) (hn : nullable nulG e = false) : No e r :=
  big_none hr hn (h.mono hs)

theorem sp_seq_no {w r : Str} {e : PExp} (hw : WS w) (hr : Solid r) (h : No e r) : No (.seq (.call .sp) e) (w ++ r) :=
  .seqFail2 (sp_ok hw hr.no) h

/-- First characters of `between`, `in`, `is…` and their negations. -/
def relF : CSet := [('n', 'n'), ('N', 'N'), ('b', 'b'), ('i', 'i'), ('I', 'I')]
/-- First characters of comparison operators. -/
def cmpH : CSet := [('<', '<'), ('>', '>'), ('=', '='), ('!', '!'), ('g', 'g'), ('G', 'G'), ('l', 'l'), ('L', 'L'),
  ('e', 'e'), ('E', 'E'), ('n', 'n'), ('N', 'N')]
/-- First characters of logic operators. -/
def logH : CSet := [('a', 'a'), ('A', 'A'), ('o', 'o'), ('O', 'O'), ('&', '&'), ('|', '|')]

theorem btwT_no {w r : Str} (hw : WS w) (hr : Solid r) (h : Hd relF r) : No btwT (w ++ r) :=
  sp_seq_no hw hr (h.no (by decide) (by decide) (by decide))

theorem cinT_no {w r : Str} (hw : WS w) (hr : Solid r) (h : Hd relF r) : No cinT (w ++ r) :=
  sp_seq_no hw hr (h.no (by decide) (by decide) (by decide))

theorem prdT_no' {w r : Str} (hw : WS w) (hr : Solid r) (h : No (.seq (.txt gMatchOp) (seqs [.call .sp, .act 20])) r) : No prdT (w ++ r) := by
  refine .seqFail1 (.call ?_)
  by_cases hne : w = []
  · subst hne; exact .seqFail1 (.call (.seqFail1 hr.no))
  · exact .seqFail2 (sp1_ok hw hne hr.no) h

theorem prdT_no {w r : Str} (hw : WS w) (hr : Solid r) (h : Hd relF r) : No prdT (w ++ r) :=
  prdT_no' hw hr (h.no (by decide) (by decide) (by decide))

theorem cmpT_no {w r : Str} (hw : WS w) (hr : Solid r) (h : Hd cmpH r) : No cmpT (w ++ r) := by
  refine .seqFail1 (.call (.alt2 ?_ (.alt2 ?_ ?_)))
  · exact sp_seq_no hw hr (h.no (by decide) (by decide) (by decide))
  · exact sp_seq_no hw hr (h.no (by decide) (by decide) (by decide))
  · exact sp_seq_no hw hr (h.no (by decide) (by decide) (by decide))

theorem logT_no {w r : Str} (hw : WS w) (hr : Solid r) (h : Hd logH r) : No logT (w ++ r) := by
  refine .seqFail1 (.call (.alt2 ?_ ?_))
  · exact sp_seq_no hw hr (h.no (by decide) (by decide) (by decide))
  · exact sp_seq_no hw hr (h.no (by decide) (by decide) (by decide))

/-! ## Lifting a primary expression -/

theorem up_btw {s ev r} (h : Ok (.call .PrimaryExpression) s ev r) (hb : No btwT r) : Ok (.call .BetweenExpression) s ev r :=
  .call (by have := Big.seqOk h (.optNone hb); rwa [List.append_nil] at this)

theorem up_prd {s ev r} (h : Ok (.call .BetweenExpression) s ev r) (hb : No prdT r) : Ok (.call .PredicateExpression) s ev r :=
  .call (by have := Big.seqOk h (.optNone hb); rwa [List.append_nil] at this)

theorem up_cin {s ev r} (h : Ok (.call .PredicateExpression) s ev r) (hb : No cinT r) : Ok (.call .CompareInExpression) s ev r :=
  .call (by have := Big.seqOk h (.optNone hb); rwa [List.append_nil] at this)

theorem up_cmp {s ev r} (h : Ok (.call .CompareInExpression) s ev r) (hb : No cmpT r) : Ok (.call .CompareExpression) s ev r :=
  .call (by have := Big.seqOk h (.starNil hb); rwa [List.append_nil] at this)

theorem up_not {s ev r} (h : Ok (.call .CompareExpression) s ev r) : Ok (.call .NotExpression) s ev r := .call (.alt1 h)

theorem up_log {s ev r} (h : Ok (.call .NotExpression) s ev r) (hb : No logT r) : Ok (.call .LogicExpression) s ev r :=
  .call (by have := Big.seqOk h (.starNil hb); rwa [List.append_nil] at this)

/-- From a primary expression to CompareIn, when no operator of that strength follows. -/
theorem prim_cin {s ev r} (h : Ok (.call .PrimaryExpression) s ev r) (h1 : No btwT r) (h2 : No prdT r) (h3 : No cinT r) :
    Ok (.call .CompareInExpression) s ev r := up_cin (up_prd (up_btw h h1) h2) h3

/-! ## Operators -/

theorem CI.head {c : Char} {w u : Str} (h : CI (c :: w) u) : ∃ x t, u = x :: t ∧ (x = c ∨ x = c.toUpper) := by
  obtain ⟨x, t, h1, h2, _⟩ := h; exact ⟨x, t, h1, h2⟩

/-- Head of a keyword is outside a set when both cases are. -/
theorem CI.hd {S : CSet} {c : Char} {w u : Str} (h : CI (c :: w) u) (h1 : S.has c = false) (h2 : S.has c.toUpper = false) (r : Str) :
    Hd S (u ++ r) := by
  obtain ⟨x, t, rfl, rfl | rfl⟩ := h.head
  · exact Hd.cons h1
  · exact Hd.cons h2

theorem solid_of_hd {r : Str} (h : Hd wsF r) : Solid r := h

/-- `_ <op> _ {action}`. -/
theorem op_ok {e : PExp} {k : Nat} {w1 ob w2 r : Str} (hw1 : WS w1) (hs : Solid (ob ++ (w2 ++ r))) (hw2 : WS w2) (hr : Solid r)
    (h : Ok e (ob ++ (w2 ++ r)) [] (w2 ++ r)) :
    Ok (seqs [.call .sp, .txt e, .call .sp, .act k]) (w1 ++ (ob ++ (w2 ++ r))) [.text ob, .act k] r := by
  have ht := Big.txtOk h
  rw [txt_eq] at ht
  exact .seqOk (sp_ok hw1 hs.no) (.seqOk ht (.seqOk (sp_ok hw2 hr.no) .act))

/-- Comparison operators that the recogniser can reach. -/
inductive CmpOpR : Str → Str → Prop where
  | sym {u o} : (u, o) ∈ [(c!">=", c!"gte"), (c!"<=", c!"lte"), (c!"==", c!"eq"), (c!"<", c!"lt"), (c!"=", c!"eq"),
      (c!">", c!"gt"), (c!"!=", c!"neq")] → CmpOpR u o
  | word {w u} : w ∈ [c!"gt", c!"lt", c!"eq", c!"neq", c!"like"] → CI w u → CmpOpR u w
  | notLike {a s b} : CI c!"not" a → WS s → s ≠ [] → CI c!"like" b → CmpOpR (a ++ (s ++ b)) (normOp (a ++ (s ++ b)))

/-- Characters that would be taken as part of a comparison operator. -/
def eqF : CSet := [('=', '=')]

theorem hd_append {S : CSet} {w r : Str} (h1 : Hd S w) (h2 : Hd S r) : Hd S (w ++ r) := by
  cases w with
  | nil => exact h2
  | cons c w => rintro d t ⟨⟩; exact h1 _ _ rfl

theorem ws_hd {w : Str} (hw : WS w) {S : CSet} (hS : ∀ p ∈ wsF, S.has p.1 = false) : Hd S w := by
  cases hw with
  | nil => exact Hd.nil
  | blank hc _ =>
    simp [blanks] at hc
    rcases hc with rfl | rfl | rfl | rfl
    · exact Hd.cons (hS (' ', ' ') (by decide))
    · exact Hd.cons (hS ('\t', '\t') (by decide))
    · exact Hd.cons (hS ('\n', '\n') (by decide))
    · exact Hd.cons (hS ('\r', '\r') (by decide))
  | comment ho _ _ _ =>
    rcases ho with rfl | rfl
    · exact Hd.cons (hS ('-', '-') (by decide))
    · exact Hd.cons (hS ('/', '/') (by decide))

theorem lit_no {c d : Char} {w r : Str} (h : Hd [(d, d)] r) : No (.lit (c :: d :: w)) (c :: r) := by
  refine .seqFail2 .chrOk ?_
  have hc : No (.chr d) r := chr_no fun t e => by have := h _ _ e; simp [CSet.has] at this
  cases w with
  | nil => exact hc
  | cons x w => exact .seqFail1 hc

theorem cmpSym_ok {ob o r : Str} (h : (ob, o) ∈ [(c!">=", c!"gte"), (c!"<=", c!"lte"), (c!"==", c!"eq"), (c!"<", c!"lt"), (c!"=", c!"eq"),
      (c!">", c!"gt"), (c!"!=", c!"neq")]) (hr : Hd eqF r) : Ok gCmpSym (ob ++ r) [] r := by
  have ne : ∀ {c d : Char} {w t : Str}, c ≠ d → No (.lit (d :: w)) (c :: t) := by
    intro c d w t h
    cases w with
    | nil => exact .chrFail h
    | cons x w => exact .seqFail1 (.chrFail h)
  simp at h
  rcases h with ⟨rfl, rfl⟩ | ⟨rfl, rfl⟩ | ⟨rfl, rfl⟩ | ⟨rfl, rfl⟩ | ⟨rfl, rfl⟩ | ⟨rfl, rfl⟩ | ⟨rfl, rfl⟩
  · exact .alt1 (lit_ok _ _)
  · exact .alt2 (ne (by decide)) (.alt1 (lit_ok _ _))
  · exact .alt2 (ne (by decide)) (.alt2 (ne (by decide)) (.alt1 (lit_ok _ _)))
  · exact .alt2 (ne (by decide)) (.alt2 (lit_no hr) (.alt2 (ne (by decide)) (.alt1 .chrOk)))
  · exact .alt2 (ne (by decide)) (.alt2 (ne (by decide)) (.alt2 (lit_no hr) (.alt2 (.chrFail (by decide)) (.swIn (by decide) .chrOk))))
  · exact .alt2 (lit_no hr) (.alt2 (ne (by decide)) (.alt2 (ne (by decide)) (.alt2 (.chrFail (by decide))
      (.swOut (by decide) (.swOut (by decide) (.swIn (by decide) .chrOk))))))
  · exact .alt2 (ne (by decide)) (.alt2 (ne (by decide)) (.alt2 (ne (by decide)) (.alt2 (.chrFail (by decide))
      (.swOut (by decide) (.swOut (by decide) (.swOut (by decide) (lit_ok _ _)))))))

/-- Two keywords that differ at their first or second letter. -/
theorem ciLit_no1 {c : Char} {w : Str} {x : Char} {t : Str} (h : x ≠ c ∧ x ≠ c.toUpper) : No (.ciLit (c :: w)) (x :: t) := by
  have : No (.ci c) (x :: t) := .alt2 (.chrFail h.1) (.chrFail h.2)
  cases w with
  | nil => exact this
  | cons d w => exact .seqFail1 this

theorem ciLit_no2 {c d : Char} {w : Str} {x y : Char} {t : Str} (hx : x = c ∨ x = c.toUpper) (h : y ≠ d ∧ y ≠ d.toUpper) :
    No (.ciLit (c :: d :: w)) (x :: y :: t) := .seqFail2 (ci_ok hx) (ciLit_no1 h)

theorem cmpWord_ok {w ob r : Str} (h : w ∈ [c!"gt", c!"lt", c!"eq", c!"neq"]) (hc : CI w ob) : Ok gCmpWord (ob ++ r) [] r := by
  have hok := ciLit_ok r hc
  simp at h
  rcases h with rfl | rfl | rfl | rfl
  · exact .alt1 hok
  · obtain ⟨x, t, rfl, hx⟩ := hc.head
    refine .alt2 (ciLit_no1 ?_) (.alt1 hok)
    rcases hx with rfl | rfl <;> decide
  · obtain ⟨x, t, rfl, hx⟩ := hc.head
    have hin : x ∈ c!"Ee" ∧ x ∉ c!"Nn" ∧ (x ≠ 'g' ∧ x ≠ 'G') ∧ (x ≠ 'l' ∧ x ≠ 'L') := by rcases hx with rfl | rfl <;> decide
    exact .alt2 (ciLit_no1 hin.2.2.1) (.alt2 (ciLit_no1 hin.2.2.2) (.swOut hin.2.1 (.swIn hin.1 hok)))
  · obtain ⟨x, t, rfl, hx⟩ := hc.head
    have hin : x ∈ c!"Nn" ∧ (x ≠ 'g' ∧ x ≠ 'G') ∧ (x ≠ 'l' ∧ x ≠ 'L') := by rcases hx with rfl | rfl <;> decide
    exact .alt2 (ciLit_no1 hin.2.1) (.alt2 (ciLit_no1 hin.2.2) (.swIn hin.1 hok))

/-- `not __ word`. -/
theorem notWord_ok {w a sep b r : Str} (ha : CI c!"not" a) (hs : WS sep) (hne : sep ≠ []) (hb : CI w b) (hsol : Solid (b ++ r)) :
    Ok (seqs [ciLit c!"not", .call .sp1, ciLit w]) (a ++ (sep ++ (b ++ r))) [] r :=
  .seqOk (ciLit_ok _ ha) (.seqOk (sp1_ok hs hne hsol.no) (ciLit_ok _ hb))

/-- `not __ word` fails on another word. -/
theorem notWord_no {e : PExp} {a sep r : Str} (ha : CI c!"not" a) (hs : WS sep) (hne : sep ≠ []) (hsol : Solid r) (h : No e r) :
    No (seqs [ciLit c!"not", .call .sp1, e]) (a ++ (sep ++ r)) :=
  .seqFail2 (ciLit_ok _ ha) (.seqFail2 (sp1_ok hs hne hsol.no) h)

/-- Heads of comparison operators. -/
theorem CmpOpR.solid {ob o : Str} (h : CmpOpR ob o) (r : Str) : Solid (ob ++ r) := by
  have kw : ∀ {c : Char} {w : Str} {u r : Str}, CI (c :: w) u → wsF.has c = false → wsF.has c.toUpper = false → Solid (u ++ r) :=
    fun h h1 h2 => h.hd h1 h2 _
  cases h with
  | sym h =>
    simp at h
    rcases h with ⟨rfl, rfl⟩ | ⟨rfl, rfl⟩ | ⟨rfl, rfl⟩ | ⟨rfl, rfl⟩ | ⟨rfl, rfl⟩ | ⟨rfl, rfl⟩ | ⟨rfl, rfl⟩ <;> exact Solid.cons (by decide)
  | word h hc =>
    simp at h
    rcases h with rfl | rfl | rfl | rfl | rfl <;> exact kw hc (by decide) (by decide)
  | notLike ha _ _ _ =>
    rw [List.append_assoc]
    exact kw ha (by decide) (by decide)

theorem CmpOpR.norm {ob o : Str} (h : CmpOpR ob o) : normOp ob = o := by
  cases h with
  | sym h =>
    simp at h
    rcases h with ⟨rfl, rfl⟩ | ⟨rfl, rfl⟩ | ⟨rfl, rfl⟩ | ⟨rfl, rfl⟩ | ⟨rfl, rfl⟩ | ⟨rfl, rfl⟩ | ⟨rfl, rfl⟩ <;> decide
  | word h hc =>
    simp at h
    rcases h with rfl | rfl | rfl | rfl | rfl <;> exact normOp_word (by decide) hc (by decide)
  | notLike => rfl

/-- The rule Compare. -/
theorem compare_ok {w1 ob o w2 r : Str} (hw1 : WS w1) (h : CmpOpR ob o) (hw2 : WS w2) (hr : Solid r) (heq : Hd eqF r) :
    ∃ ev, Ok (.call .Compare) (w1 ++ (ob ++ (w2 ++ r))) ev r ∧ Eff ev [.op o] [] := by
  have hsol := h.solid (w2 ++ r)
  have hn := h.norm
  have hd2 : Hd eqF (w2 ++ r) := hd_append (ws_hd hw2 (by decide)) heq
  cases h with
  | sym h =>
    exact ⟨_, .call (.alt1 (op_ok hw1 hsol hw2 hr (cmpSym_ok h hd2))), eff_op (by decide) hn⟩
  | word h hc =>
    simp at h
    have nosym : No gCmpSym (ob ++ (w2 ++ r)) := by
      have : Hd [('<', '<'), ('>', '>'), ('=', '='), ('!', '!')] (ob ++ (w2 ++ r)) := by
        rcases h with rfl | rfl | rfl | rfl | rfl <;> exact hc.hd (by decide) (by decide) _
      exact this.no (by decide) (by decide) (by decide)
    have n1 : No (seqs [.call .sp, .txt gCmpSym, .call .sp, .act 15]) (w1 ++ (ob ++ (w2 ++ r))) :=
      sp_seq_no hw1 hsol (.seqFail1 (.txtFail nosym))
    by_cases hl : o = c!"like"
    · subst hl
      refine ⟨_, .call (.alt2 n1 (.alt2 ?_ (op_ok hw1 hsol hw2 hr (.alt1 (ciLit_ok _ hc))))), eff_op (by decide) hn⟩
      refine sp_seq_no hw1 hsol (.seqFail1 (.txtFail ?_))
      obtain ⟨x, t, rfl, hx, y, t', rfl, hy, _⟩ := hc
      have hx' : x ∈ c!"Ll" ∧ (x ≠ 'g' ∧ x ≠ 'G') ∧ x ∉ c!"Nn" ∧ x ∉ c!"Ee" ∧ (x = 'l' ∨ x = 'L') := by rcases hx with rfl | rfl <;> decide
      have hy' : y ≠ 't' ∧ y ≠ 'T' := by rcases hy with rfl | rfl <;> decide
      exact .alt2 (ciLit_no1 hx'.2.1) (.alt2 (ciLit_no2 hx hy') (.swOut hx'.2.2.1 (.swOut hx'.2.2.2.1 (.swIn hx'.1 (ciLit_no2 hx hy')))))
    · have h' : o ∈ [c!"gt", c!"lt", c!"eq", c!"neq"] := by
        simp
        rcases h with h | h | h | h | h
        · exact .inl h
        · exact .inr (.inl h)
        · exact .inr (.inr (.inl h))
        · exact .inr (.inr (.inr h))
        · exact absurd h hl
      exact ⟨_, .call (.alt2 n1 (.alt1 (op_ok hw1 hsol hw2 hr (cmpWord_ok h' hc)))), eff_op (by decide) hn⟩
  | @notLike a s b ha hs hne hb =>
    rw [List.append_assoc, List.append_assoc] at hsol ⊢
    have hlike : Solid (b ++ (w2 ++ r)) := hb.hd (by decide) (by decide) _
    have n1 : No (seqs [.call .sp, .txt gCmpSym, .call .sp, .act 15]) (w1 ++ (a ++ (s ++ (b ++ (w2 ++ r))))) := by
      refine sp_seq_no hw1 hsol (.seqFail1 (.txtFail ?_))
      have : Hd [('<', '<'), ('>', '>'), ('=', '='), ('!', '!')] (a ++ (s ++ (b ++ (w2 ++ r)))) := ha.hd (by decide) (by decide) _
      exact this.no (by decide) (by decide) (by decide)
    obtain ⟨x, t, rfl, hx, y, t', rfl, hy, ht'⟩ := ha
    have ha : CI c!"not" (x :: y :: t') := ⟨x, _, rfl, hx, y, t', rfl, hy, ht'⟩
    have hx' : x ∈ c!"Nn" ∧ (x ≠ 'g' ∧ x ≠ 'G') ∧ (x ≠ 'l' ∧ x ≠ 'L') := by rcases hx with rfl | rfl <;> decide
    have hy' : y ≠ 'e' ∧ y ≠ 'E' := by rcases hy with rfl | rfl <;> decide
    have n2 : No (seqs [.call .sp, .txt gCmpWord, .call .sp, .act 16]) (w1 ++ (x :: y :: t' ++ (s ++ (b ++ (w2 ++ r))))) := by
      refine sp_seq_no hw1 hsol (.seqFail1 (.txtFail ?_))
      exact .alt2 (ciLit_no1 hx'.2.1) (.alt2 (ciLit_no1 hx'.2.2) (.swIn hx'.1 (ciLit_no2 hx hy')))
    refine ⟨_, .call (.alt2 n1 (.alt2 n2 ?_)), eff_op (k := 17) (by decide) rfl⟩
    have := op_ok (k := 17) (e := gCmpLike) (ob := x :: y :: t' ++ (s ++ b)) (w1 := w1) (w2 := w2) (r := r) hw1 (by simpa using hsol) hw2 hr (by
      have : Ok gCmpLike _ _ _ := Big.alt2 (a := ciLit c!"like") (ciLit_no1 (by exact hx'.2.2)) (notWord_ok (r := w2 ++ r) ha hs hne hb hlike)
      simpa using this)
    simp only [List.append_assoc, List.cons_append] at this ⊢
    exact this

/-- The rule Logic. -/
theorem logic_ok {w1 ob o w2 r : Str} (hw1 : WS w1) (h : LogicOp ob o) (hw2 : WS w2) (hr : Solid r) :
    ∃ ev, Ok (.call .Logic) (w1 ++ (ob ++ (w2 ++ r))) ev r ∧ Eff ev [.op o] [] := by
  cases h with
  | word h hc =>
    simp at h
    have hsol : Solid (ob ++ (w2 ++ r)) := by
      rcases h with rfl | rfl <;> exact hc.hd (by decide) (by decide) _
    have hn : normOp ob = o := by rcases h with rfl | rfl <;> exact normOp_word (by decide) hc (by decide)
    refine ⟨_, .call (.alt1 (op_ok hw1 hsol hw2 hr ?_)), eff_op (by decide) hn⟩
    rcases h with rfl | rfl
    · exact .alt1 (ciLit_ok _ hc)
    · obtain ⟨x, t, rfl, hx⟩ := hc.head
      refine .alt2 (ciLit_no1 ?_) (ciLit_ok _ hc)
      rcases hx with rfl | rfl <;> decide
  | amp =>
    have hsol : Solid (c!"&&" ++ (w2 ++ r)) := Solid.cons (by decide)
    refine ⟨_, .call (.alt2 ?_ (op_ok hw1 hsol hw2 hr (.alt1 (lit_ok _ _)))), eff_op (by decide) (by decide)⟩
    exact sp_seq_no hw1 hsol (big_none_cons (by decide) (by decide) (by decide))
  | bar =>
    have hsol : Solid (c!"||" ++ (w2 ++ r)) := Solid.cons (by decide)
    refine ⟨_, .call (.alt2 ?_ (op_ok hw1 hsol hw2 hr (.alt2 (.seqFail1 (.chrFail (by decide))) (lit_ok _ _)))), eff_op (by decide) (by decide)⟩
    exact sp_seq_no hw1 hsol (big_none_cons (by decide) (by decide) (by decide))

theorem LogicOp.hd {ob o : Str} (h : LogicOp ob o) (r : Str) {S : CSet} (hS : ∀ p ∈ logH, S.has p.1 = false) : Hd S (ob ++ r) := by
  cases h with
  | word h hc =>
    simp at h
    rcases h with rfl | rfl
    · exact hc.hd (hS ('a', 'a') (by decide)) (hS ('A', 'A') (by decide)) _
    · exact hc.hd (hS ('o', 'o') (by decide)) (hS ('O', 'O') (by decide)) _
  | amp => exact Hd.cons (hS ('&', '&') (by decide))
  | bar => exact Hd.cons (hS ('|', '|') (by decide))

end Verif
