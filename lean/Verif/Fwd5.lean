import Verif.Fwd4

/-! # Forward derivations: every clearly spaced query is parsed as it reads -/

namespace Verif

open PExp

theorem Blanks.ws {s} (h : Blanks s) : WS s := by
  replace h := h.2
  induction s with
  | nil => exact .nil
  | cons c s ih => exact .blank (h c (by simp)) (ih fun x hx => h x (List.mem_cons_of_mem _ hx))

/-! ## Operators -/

theorem normOp_not {a s w b : Str} (ha : CI c!"not" a) (hs : Blanks s) (hw : LowerWord w) (nw : w ≠ []) (hb : CI w b)
    (hl : ∀ m, m ≠ [] → normTable.lookup (c!"not" ++ (m ++ w)) = none) : normOp (a ++ (s ++ b)) = c!"not " ++ w := by
  rw [normOp_two (by decide) hw ha hb (by decide) nw hl hs.1, lower_blanks hs.2, squeeze_blanks hs.2 hs.1]
  rfl

theorem lookup_not_like (m : Str) : normTable.lookup (c!"not" ++ (m ++ c!"like")) = none :=
  lookup_none_n (append_ne_of_last (m := c!"ot" ++ m) (w := c!"lik") (v := c!"otnul") (by decide))
theorem lookup_not_in (m : Str) : normTable.lookup (c!"not" ++ (m ++ c!"in")) = none :=
  lookup_none_n (append_ne_of_last (m := c!"ot" ++ m) (w := c!"i") (v := c!"otnul") (by decide))
theorem lookup_not_between (m : Str) : normTable.lookup (c!"not" ++ (m ++ c!"between")) = none :=
  lookup_none_n (append_ne_of_last (m := c!"ot" ++ m) (w := c!"betwee") (v := c!"otnul") (by decide))

theorem CmpW.reach {ob o} (h : CmpW ob o) : CmpOpR ob o := by
  cases h with
  | sym h => exact .sym h
  | word h hc => exact .word h hc
  | @notLike a s b ha hs hb =>
    have := CmpOpR.notLike ha hs.ws hs.1 hb
    have e : normOp (a ++ (s ++ b)) = c!"not like" := normOp_not ha hs (by decide) (by decide) hb fun m _ => lookup_not_like m
    rw [e] at this
    exact this

/-- `in` / `not in` as operator text. -/
theorem InW.ok {ob o} (h : InW ob o) (r : Str) : Ok gInOp (ob ++ r) [] r ∧ Solid (ob ++ r) ∧ normOp ob = o := by
  cases h with
  | inn h => exact ⟨.alt1 (ciLit_ok _ h), h.hd (by decide) (by decide) _, normOp_word (by decide) h (by decide)⟩
  | @notIn a s b ha hs hb =>
    rw [List.append_assoc, List.append_assoc]
    refine ⟨.alt2 ?_ (notWord_ok ha hs.ws hs.1 hb (hb.hd (by decide) (by decide) _)), ha.hd (by decide) (by decide) _, ?_⟩
    · obtain ⟨x, t, rfl, hx⟩ := ha.head
      refine ciLit_no1 ?_
      rcases hx with rfl | rfl <;> decide
    · exact normOp_not ha hs (by decide) (by decide) hb fun m _ => lookup_not_in m

theorem BetweenW.ok {ob o} (h : BetweenW ob o) (r : Str) : Ok gBetweenOp (ob ++ r) [] r ∧ Solid (ob ++ r) ∧ normOp ob = o := by
  cases h with
  | btw =>
    refine ⟨.seqOk (.optNone (.seqFail1 (ciLit_no1 (by decide)))) (lit_ok c!"between" r), Solid.cons (by decide), by decide⟩
  | @notBtw a s ha hs =>
    rw [List.append_assoc, List.append_assoc]
    refine ⟨.seqOk (.optSome (.seqOk (ciLit_ok _ ha) (sp1_ok hs.ws hs.1 (Solid.cons (by decide)).no))) (lit_ok c!"between" r),
      ha.hd (by decide) (by decide) _, ?_⟩
    exact normOp_not ha hs (by decide) (by decide) (CI.refl c!"between") fun m _ => lookup_not_between m

theorem tfn_ok {w : Str} (h : w ∈ [c!"null", c!"true", c!"false"]) (r : Str) : Ok gTfn (w ++ r) [] r := by
  simp at h
  rcases h with rfl | rfl | rfl
  · exact .swIn (by decide) (lit_ok c!"null" r)
  · exact .swOut (by decide) (.swOut (by decide) (lit_ok c!"true" r))
  · exact .swOut (by decide) (.swIn (by decide) (lit_ok c!"false" r))

theorem tfn_lower {w : Str} (h : w ∈ [c!"null", c!"true", c!"false"]) : LowerWord w = true ∧ w ≠ [] ∧ 4 ≤ w.length := by
  simp at h; rcases h with rfl | rfl | rfl <;> decide

theorem tfn_solid {w : Str} (h : w ∈ [c!"null", c!"true", c!"false"]) (r : Str) : Solid (w ++ r) ∧ Hd [('n', 'n')] (w ++ r) ∨
    Solid (w ++ r) ∧ ∃ t, w = 'n' :: 'u' :: t := by
  simp at h
  rcases h with rfl | rfl | rfl
  · exact .inr ⟨Solid.cons (by decide), _, rfl⟩
  · exact .inl ⟨Solid.cons (by decide), Hd.cons (by decide)⟩
  · exact .inl ⟨Solid.cons (by decide), Hd.cons (by decide)⟩

theorem blanks_hd {s r : Str} (h : Blanks s) {S : CSet} (hS : ∀ p ∈ wsF, S.has p.1 = false) : Hd S (s ++ r) := by
  cases s with
  | nil => exact absurd rfl h.1
  | cons c s => exact Hd.cons (ws_hd h.ws hS c s rfl)

theorem MatchW.ok {ob o} (h : MatchW ob o) (r : Str) : Ok gMatchOp (ob ++ r) [] r ∧ Solid (ob ++ r) ∧ normOp ob = o := by
  cases h with
  | isnull => exact ⟨.alt1 (lit_ok c!"isnull" r), Solid.cons (by decide), by decide⟩
  | notnull => exact ⟨.alt2 (.seqFail1 (.chrFail (by decide))) (.alt1 (lit_ok c!"notnull" r)), Solid.cons (by decide), by decide⟩
  | @is s w hs hw =>
    have hsol : Solid (w ++ r) := by rcases tfn_solid hw r with h | h <;> exact h.1
    obtain ⟨l1, l2, l3⟩ := tfn_lower hw
    refine ⟨?_, Solid.cons (by decide), ?_⟩
    · simp only [List.append_assoc]
      refine .alt2 (.seqFail2 .chrOk (.seqFail2 .chrOk (.seqFail1 ?_))) (.alt2 (.seqFail1 (.chrFail (by decide)))
        (.alt1 (.seqOk .chrOk (.seqOk .chrOk (.seqOk (sp1_ok hs.ws hs.1 hsol.no) (tfn_ok hw r))))))
      exact (blanks_hd hs (S := [('n', 'n')]) (by decide)).no (by decide) (by decide) (by decide)
    · rw [normOp_two (w1 := c!"is") (by decide) l1 (CI.refl _) (CI.refl _) (by decide) l2 ?_ hs.1, lower_blanks hs.2, squeeze_blanks hs.2 hs.1]
      · rfl
      · intro m hm
        apply lookup_none_i
        intro h
        have := congrArg List.length h
        have hm' : 0 < m.length := List.length_pos_iff.mpr hm
        simp at this
        omega
  | @isNot s s' w hs hs' hw =>
    have hsol : Solid (w ++ r) := by rcases tfn_solid hw r with h | h <;> exact h.1
    obtain ⟨l1, l2, l3⟩ := tfn_lower hw
    refine ⟨?_, Solid.cons (by decide), ?_⟩
    · simp only [List.append_assoc]
      have hsp : Ok (.call .sp1) (s ++ (c!"not" ++ (s' ++ (w ++ r)))) [] (c!"not" ++ (s' ++ (w ++ r))) :=
        sp1_ok hs.ws hs.1 (Solid.cons (by decide)).no
      refine .alt2 (.seqFail2 .chrOk (.seqFail2 .chrOk (.seqFail1 ?_))) (.alt2 (.seqFail1 (.chrFail (by decide)))
        (.alt2 (.seqFail2 .chrOk (.seqFail2 .chrOk (.seqFail2 hsp ?_)))
          (.seqOk .chrOk (.seqOk .chrOk (.seqOk hsp (.seqOk .chrOk (.seqOk .chrOk (.seqOk .chrOk
            (.seqOk (sp1_ok hs'.ws hs'.1 hsol.no) (tfn_ok hw r))))))))))
      · exact (blanks_hd hs (S := [('n', 'n')]) (by decide)).no (by decide) (by decide) (by decide)
      · exact .swIn (by decide) (.seqFail2 .chrOk (.seqFail1 (.chrFail (by decide))))
    · rw [normOp_three l1 l2 hs.1 hs'.1 l3, lower_blanks hs.2, squeeze_blanks hs.2 hs.1, lower_blanks hs'.2, squeeze_blanks hs'.2 hs'.1]
      rfl

/-! ## What an operator keeps from being read at tighter levels -/

/-- No `between` here, whatever blanks precede. -/
def NoB (x : Str) : Prop := ∀ w, WS w → No btwT (w ++ x)
/-- No predicate here. -/
def NoP (x : Str) : Prop := ∀ w, WS w → No prdT (w ++ x)
/-- No `in` here. -/
def NoI (x : Str) : Prop := ∀ w, WS w → No cinT (w ++ x)
/-- No comparison here. -/
def NoC (x : Str) : Prop := ∀ w, WS w → No cmpT (w ++ x)
/-- No logic operator here. -/
def NoL (x : Str) : Prop := ∀ w, WS w → No logT (w ++ x)

theorem MatchW.stop {ob o} (h : MatchW ob o) (r : Str) : NoB (ob ++ r) := by
  intro w hw
  refine sp_seq_no hw (h.ok r).2.1 (.seqFail1 (.txtFail ?_))
  have hi : ∀ t, No gBetweenOp ('i' :: t) := fun t => .seqFail2 (.optNone (.seqFail1 (ciLit_no1 (by decide)))) (.seqFail1 (.chrFail (by decide)))
  cases h with
  | isnull => exact hi _
  | notnull =>
    refine .seqFail2 (.optNone (.seqFail2 (ciLit_ok (c!"null" ++ r) (CI.refl c!"not")) ?_)) (.seqFail1 (.chrFail (by decide)))
    exact big_none_cons (by decide) (by decide) (by decide)
  | is _ _ => exact hi _
  | isNot _ _ _ => exact hi _

/-- `notnull` does not start with `not` and a blank. -/
theorem notnull_no {a s r : Str} (ha : CI c!"not" a) (hs : Blanks s) : No (lit c!"notnull") (a ++ (s ++ r)) := by
  refine lit_no_prefix (by decide) ?_
  rintro ⟨t, h⟩
  obtain ⟨x, t1, rfl, hx, y, t2, rfl, hy, z, t3, rfl, hz, rfl⟩ := ha
  obtain ⟨hne, hb⟩ := hs
  cases s with
  | nil => exact absurd rfl hne
  | cons c s =>
    simp at h
    have := hb c (by simp)
    rw [← h.2.2.2.1] at this
    exact absurd this (by decide)

theorem InW.stop {ob o} (h : InW ob o) (r : Str) : NoB (ob ++ r) ∧ NoP (ob ++ r) := by
  have hsol := (h.ok r).2.1
  cases h with
  | inn h =>
    have hb : Hd [('n', 'n'), ('N', 'N'), ('b', 'b')] (ob ++ r) := h.hd (by decide) (by decide) r
    refine ⟨fun w hw => sp_seq_no hw hsol (.seqFail1 (.txtFail (hb.no (by decide) (by decide) (by decide)))), fun w hw => prdT_no' hw hsol (.seqFail1 (.txtFail ?_))⟩
    obtain ⟨x, t, rfl, hx, y, t', rfl, hy, rfl⟩ := h
    have hy' : y ≠ 's' := by rcases hy with rfl | rfl <;> decide
    have key : ∀ e, No (.seq (.chr 'i') (.seq (.chr 's') e)) (x :: y :: [] ++ r) := by
      intro e
      by_cases hi : x = 'i'
      · subst hi; exact .seqFail2 .chrOk (.seqFail1 (.chrFail hy'))
      · exact .seqFail1 (.chrFail hi)
    have hn : x ≠ 'n' := by rcases hx with rfl | rfl <;> decide
    exact .alt2 (key _) (.alt2 (.seqFail1 (.chrFail hn)) (.alt2 (key _) (key _)))
  | @notIn a s b ha hs hb =>
    simp only [List.append_assoc] at hsol ⊢
    have hin : Solid (b ++ r) := hb.hd (by decide) (by decide) _
    have hlb : Hd [('b', 'b')] (b ++ r) := hb.hd (by decide) (by decide) _
    have hahd : Hd [('i', 'i')] (a ++ (s ++ (b ++ r))) := ha.hd (by decide) (by decide) _
    refine ⟨fun w hw => sp_seq_no hw hsol (.seqFail1 (.txtFail ?_)), fun w hw => prdT_no' hw hsol (.seqFail1 (.txtFail ?_))⟩
    · refine .seqFail2 (.optSome (.seqOk (ciLit_ok _ ha) (sp1_ok hs.ws hs.1 hin.no))) ?_
      exact hlb.no (by decide) (by decide) (by decide)
    · have hi : No (.chr 'i') (a ++ (s ++ (b ++ r))) := hahd.no (by decide) (by decide) (by decide)
      exact .alt2 (.seqFail1 hi) (.alt2 (notnull_no ha hs) (.alt2 (.seqFail1 hi) (.seqFail1 hi)))

/-- No operator starts with this head. -/
theorem stop_of_hd {x : Str} (hs : Solid x) (hr : Hd relF x) : NoB x ∧ NoP x ∧ NoI x :=
  ⟨fun _ hw => btwT_no hw hs hr, fun _ hw => prdT_no hw hs hr, fun _ hw => cinT_no hw hs hr⟩

/-! ## The induction -/

/-- What follows does not start with a digit and does not continue a word at the end of `u`. -/
def Glue (u w x : Str) : Prop := Hd [('0', '9')] (w ++ x) ∧ ((∃ p c, u = p ++ [c] ∧ IdTail c) → Hd nameF (w ++ x))

/-- The text starts like an operand. -/
def Start (u : Str) : Prop := ∃ c t, u = c :: t ∧ primF.has c = true

theorem Start.solid {u} (h : Start u) (r : Str) : Solid (u ++ r) := by
  obtain ⟨h1, h2⟩ := start_solid (by decide) (by decide) h
  exact solid_append h1 h2

theorem Start.noEq {u} (h : Start u) (r : Str) : Hd eqF (u ++ r) := by
  obtain ⟨c, t, rfl, hc⟩ := h
  refine Hd.cons ?_
  cases he : eqF.has c with
  | false => rfl
  | true =>
    simp [eqF, CSet.has] at he
    have : c = '=' := Char.toNat_inj' (by show c.toNat = 61; have h1 : 61 ≤ c.toNat := he.1; have h2 : c.toNat ≤ 61 := he.2; omega)
    subst this; exact absurd hc (by decide)

theorem Start.append {u} (h : Start u) (r : Str) : Start (u ++ r) := by
  obtain ⟨c, t, rfl, hc⟩ := h; exact ⟨c, t ++ r, rfl, hc⟩

theorem glue_ws {u w x : Str} (hw : WS w) (hne : w ≠ []) : Glue u w x := by
  cases w with
  | nil => exact absurd rfl hne
  | cons c w =>
    have := ws_hd hw (S := nameF) (by decide)
    have h : Hd nameF (c :: w ++ x) := Hd.cons (this c w rfl)
    exact ⟨h.mono (by decide), fun _ => h⟩

theorem glue_hd {u w x : Str} (h : Hd nameF (w ++ x)) : Glue u w x := ⟨h.mono (by decide), fun _ => h⟩

theorem Apart.glue {u w ob y : Str} (hw : WS w) (h : Apart u w ob) (hne : ob ≠ []) (hd : Hd [('.', '.'), ('(', '('), ('0', '9')] ob) : Glue u w (ob ++ y) := by
  by_cases hw0 : w = []
  · subst hw0
    refine ⟨?_, ?_⟩
    · cases ob with
      | nil => exact absurd rfl hne
      | cons d t => exact Hd.cons ((hd.mono (by decide)) d t rfl)
    rintro ⟨p, c, hu, hc⟩
    cases ob with
    | nil => exact absurd rfl hne
    | cons d t =>
      have h1 := h rfl p c d t hu rfl hc
      have h2 := (hd.mono (S' := [('.', '.'), ('(', '(')]) (by decide)) d t rfl
      refine Hd.cons ?_
      show CSet.has (idF ++ [('.', '.'), ('(', '(')]) d = false
      rw [CSet.has_append, h2]
      cases hi : idF.has d with
      | false => rfl
      | true => exact absurd (idF_iff.mp hi) h1
  · exact glue_ws hw hw0

theorem Glue.right {u v w x : Str} (h : Glue (u ++ v) w x) : Glue v w x := by
  refine ⟨h.1, ?_⟩
  rintro ⟨p, c, rfl, hc⟩
  exact h.2 ⟨u ++ p, c, by simp, hc⟩

/-- Reading `u` as a primary expression. -/
def FPrim (u : Str) (n : Node) : Prop := Start u ∧ ∀ w x, WS w → Solid x → Glue u w x →
  ∃ ev, Ok (.call .PrimaryExpression) (u ++ (w ++ x)) ev (w ++ x) ∧ Eff ev [n] []

def FBtw (u : Str) (n : Node) : Prop := Start u ∧ ∀ w x, WS w → Solid x → Glue u w x → NoB x →
  ∃ ev, Ok (.call .BetweenExpression) (u ++ (w ++ x)) ev (w ++ x) ∧ Eff ev [n] []

def FPrd (u : Str) (n : Node) : Prop := Start u ∧ ∀ w x, WS w → Solid x → Glue u w x → NoB x → NoP x →
  ∃ ev r, (r = w ++ x ∨ r = x) ∧ Ok (.call .PredicateExpression) (u ++ (w ++ x)) ev r ∧ Eff ev [n] []

def FCin (u : Str) (n : Node) : Prop := Start u ∧ ∀ w x, WS w → Solid x → Glue u w x → NoB x → NoP x → NoI x →
  ∃ ev r, (r = w ++ x ∨ r = x) ∧ Ok (.call .CompareInExpression) (u ++ (w ++ x)) ev r ∧ Eff ev [n] []

def FCmp (u : Str) (n : Node) : Prop := Start u ∧ ∀ w x, WS w → Solid x → Glue u w x → NoB x → NoP x → NoI x →
  ∃ ev r, (r = w ++ x ∨ r = x) ∧ Eff ev [n] [] ∧
    ∀ ev' r', Ok (.star cmpT) r ev' r' → Ok (.call .CompareExpression) (u ++ (w ++ x)) (ev ++ ev') r'

def FNeg (u : Str) (n : Node) : Prop := Start u ∧ ∀ w x, WS w → Solid x → Glue u w x → NoB x → NoP x → NoI x → NoC x →
  ∃ ev r, (r = w ++ x ∨ r = x) ∧ Ok (.call .NotExpression) (u ++ (w ++ x)) ev r ∧ Eff ev [n] []

def FLog (u : Str) (n : Node) : Prop := Start u ∧ ∀ w x, WS w → Solid x → Glue u w x → NoB x → NoP x → NoI x → NoC x →
  ∃ ev r, (r = w ++ x ∨ r = x) ∧ Eff ev [n] [] ∧
    ∀ ev' r', Ok (.star logT) r ev' r' → Ok (.call .LogicExpression) (u ++ (w ++ x)) (ev ++ ev') r'

theorem or_no {P : Str → Prop} {w x r : Str} (hw : WS w) (h : ∀ w, WS w → P (w ++ x)) (hr : r = w ++ x ∨ r = x) : P r := by
  rcases hr with rfl | rfl
  · exact h w hw
  · exact h [] .nil

theorem FPrim.up {u n} (h : FPrim u n) : FBtw u n := ⟨h.1, fun w x hw hb hg h1 => by
  obtain ⟨ev, ho, he⟩ := h.2 w x hw hb hg
  exact ⟨ev, up_btw ho (h1 w hw), he⟩⟩

theorem FBtw.up {u n} (h : FBtw u n) : FPrd u n := ⟨h.1, fun w x hw hb hg h1 h2 => by
  obtain ⟨ev, ho, he⟩ := h.2 w x hw hb hg h1
  exact ⟨ev, _, .inl rfl, up_prd ho (h2 w hw), he⟩⟩

theorem FPrd.up {u n} (h : FPrd u n) : FCin u n := ⟨h.1, fun w x hw hb hg h1 h2 h3 => by
  obtain ⟨ev, r, hr, ho, he⟩ := h.2 w x hw hb hg h1 h2
  exact ⟨ev, r, hr, up_cin ho (or_no hw h3 hr), he⟩⟩

theorem FCin.up {u n} (h : FCin u n) : FCmp u n := ⟨h.1, fun w x hw hb hg h1 h2 h3 => by
  obtain ⟨ev, r, hr, ho, he⟩ := h.2 w x hw hb hg h1 h2 h3
  exact ⟨ev, r, hr, he, fun ev' r' hs => .call (.seqOk ho hs)⟩⟩

theorem FCmp.up {u n} (h : FCmp u n) : FNeg u n := ⟨h.1, fun w x hw hb hg h1 h2 h3 h4 => by
  obtain ⟨ev, r, hr, he, ho⟩ := h.2 w x hw hb hg h1 h2 h3
  have := ho [] r (.starNil (or_no hw h4 hr))
  rw [List.append_nil] at this
  exact ⟨ev, r, hr, up_not this, he⟩⟩

theorem FNeg.up {u n} (h : FNeg u n) : FLog u n := ⟨h.1, fun w x hw hb hg h1 h2 h3 h4 => by
  obtain ⟨ev, r, hr, ho, he⟩ := h.2 w x hw hb hg h1 h2 h3 h4
  exact ⟨ev, r, hr, he, fun ev' r' hs => .call (.seqOk ho hs)⟩⟩

/-- Reading `u` as a whole expression. -/
theorem FLog.expr {u n} (h : FLog u n) {w x : Str} (hw : WS w) (hb : Solid x) (hg : Glue u w x) (hr : Hd relF x) (hc : Hd cmpH x) (hl : Hd logH x) :
    ∃ ev r, (r = w ++ x ∨ r = x) ∧ Ok (.call .Expression) (u ++ (w ++ x)) ev r ∧ Eff ev [n] [] := by
  obtain ⟨h1, h2, h3⟩ := stop_of_hd hb hr
  obtain ⟨ev, r, hr, he, ho⟩ := h.2 w x hw hb hg h1 h2 h3 (fun w hw => cmpT_no hw hb hc)
  have := ho [] r (.starNil (or_no hw (P := No logT) (fun w hw => logT_no hw hb hl) hr))
  rw [List.append_nil] at this
  exact ⟨ev, r, hr, .call this, he⟩

theorem FLog.closer {u n} (h : FLog u n) {w y : Str} (hw : WS w) (hy : Closer y) :
    ∃ ev r, (r = w ++ y ∨ r = y) ∧ Ok (.call .Expression) (u ++ (w ++ y)) ev r ∧ Eff ev [n] [] := by
  have hn : Hd nameF (w ++ y) := by
    refine hd_append (ws_hd hw (by decide)) ?_
    obtain ⟨c, t, rfl, rfl | rfl | rfl⟩ := hy <;> exact Hd.cons (by decide)
  have key : ∀ S : CSet, S.has ',' = false → S.has ')' = false → S.has ']' = false → Hd S y := by
    intro S a b c
    obtain ⟨d, t, rfl, rfl | rfl | rfl⟩ := hy
    · exact Hd.cons a
    · exact Hd.cons b
    · exact Hd.cons c
  exact h.expr hw hy.solid (glue_hd hn) (key _ (by decide) (by decide) (by decide))
    (key _ (by decide) (by decide) (by decide)) (key _ (by decide) (by decide) (by decide))

theorem closer_paren (t : Str) : Closer (')' :: t) := ⟨_, _, rfl, .inr (.inl rfl)⟩

theorem FLog.item {u n} (h : FLog u n) : ItemOk .Argument u n := by
  have hs := h.1.solid []
  rw [List.append_nil] at hs
  refine ⟨hs, ?_, fun w y hw hy => ?_⟩
  · obtain ⟨c, t, rfl, _⟩ := h.1; simp
  · obtain ⟨ev, r, hr, ho, he⟩ := h.closer hw hy
    exact ⟨ev, r, .call ho, hr, he⟩

theorem fprim_lit {u n} (h : Lit u n) : FPrim u n := by
  obtain ⟨c, t, hu, hc⟩ := h.start
  refine ⟨⟨c, t, hu, CSet.has_sub (by decide) hc⟩, fun w x hw hb hg => ?_⟩
  obtain ⟨ev, ho, he⟩ := Val.ok (.inl h) hg.1
  refine ⟨ev, .call (.alt2 (paren_alt_no fun t' e => ?_) (.alt1 ho)), he⟩
  rw [hu] at e; simp at e; rw [e.1] at hc; exact absurd hc (by decide)

theorem fprim_arr {t n} (h : LitArr ('[' :: t) n) : FPrim ('[' :: t) n := by
  refine ⟨⟨_, _, rfl, by decide⟩, fun w x hw hb hg => ?_⟩
  obtain ⟨ev, ho, he⟩ := Val.ok (.inr h) hg.1
  exact ⟨ev, .call (.alt2 (paren_alt_no fun t' e => by simp at e) (.alt1 ho)), he⟩

theorem fprim_name {u n} (h : Name u n) (hk : KwFree u) : FPrim u n := by
  have hends : ∃ p c, u = p ++ [c] ∧ IdTail c := by
    have key : ∀ v, IdText v → ∃ p c, v = p ++ [c] ∧ IdTail c := by
      intro v hv
      have hne : v ≠ [] := by obtain ⟨c, t, rfl, _⟩ := idText_head hv; simp
      exact ⟨v.dropLast, v.getLast hne, (List.dropLast_concat_getLast hne).symm, idText_chars hv _ (List.getLast_mem hne)⟩
    have keyL : ∀ l : List Str, l ≠ [] → (∀ x ∈ l, IdText x) → ∃ p c, joinDots l = p ++ [c] ∧ IdTail c := by
      intro l
      induction l with
      | nil => intro h; exact absurd rfl h
      | cons a l ih =>
        intro _ hl
        cases l with
        | nil => exact key a (hl a (by simp))
        | cons b l =>
          obtain ⟨p, c, e, hc⟩ := ih (by simp) (fun x hx => hl x (List.mem_cons_of_mem _ hx))
          exact ⟨a ++ '.' :: p, c, by rw [joinDots_head, e]; simp, hc⟩
    cases h with
    | ident hu => exact key _ hu
    | ref hu => exact keyL _ (by simp) hu
  refine ⟨?_, fun w x hw hb hg => ?_⟩
  · cases h with
    | ident hu => obtain ⟨c, t, he, _, hc⟩ := idText_head hu; exact ⟨c, t, he, CSet.has_sub (by decide) hc⟩
    | ref hu =>
      obtain ⟨c, t, he, _, hc⟩ := idText_head (hu _ (List.mem_cons_self ..))
      rw [joinDots_head, he]
      exact ⟨c, _, rfl, CSet.has_sub (by decide) hc⟩
  · refine h.ok hk (hg.2 hends) ?_
    intro t e
    cases hw with
    | nil => have := hb _ _ e; exact absurd this (by decide)
    | blank hc _ => simp at e; rw [e.1] at hc; exact absurd hc (by decide)
    | comment ho _ _ _ => rcases ho with rfl | rfl <;> simp at e

/-- Inside parentheses. -/
theorem fprim_paren {w1 u w2 n} (hw1 : WS w1) (h : FLog u n) (hw2 : WS w2) : FPrim ('(' :: (w1 ++ (u ++ (w2 ++ c!")")))) (.paren n) := by
  refine ⟨⟨_, _, rfl, by decide⟩, fun w x hw hb hg => ?_⟩
  obtain ⟨ev, r, hr, ho, he⟩ := h.closer hw2 (closer_paren (w ++ x))
  refine ⟨[] ++ ([] ++ (ev ++ ([] ++ ([] ++ [.act 8])))), Ok.cast (.call (.alt1 (.seqOk .chrOk (.seqOk (sp_ok hw1 (h.1.solid _).no) (.seqOk ho
    (.seqOk (sp_or hw2 (closer_paren _).solid hr) (.seqOk .chrOk .act))))))) (by simp) rfl rfl, ?_⟩
  have := eff_act8 (ns := []) he
  simpa using this

theorem expr_no_paren (t : Str) : No (.call .Expression) (')' :: t) := big_none_cons (by decide) (by decide) (by decide)

theorem fprim_tupleEmpty {w0} (hw0 : WS w0) : FPrim ('(' :: (w0 ++ c!")")) (.arr []) := by
  refine ⟨⟨_, _, rfl, by decide⟩, fun w x hw hb hg => ?_⟩
  obtain ⟨ev, ho, he⟩ := Val.ok (.inr (.empty (o := '(') (c := ')') (by decide) hw0)) hg.1
  refine ⟨ev, .call (.alt2 ?_ (.alt1 ho)), he⟩
  have : No (seqs [.chr '(', .call .sp, .call .Expression, .call .sp, .chr ')', .act 8]) ('(' :: (w0 ++ (')' :: (w ++ x)))) :=
    .seqFail2 .chrOk (.seqFail2 (sp_ok hw0 (Solid.cons (by decide)).no) (.seqFail1 (expr_no_paren _)))
  simpa using this

/-- The first literal of a list and what follows it. -/
theorem LitItems.first {u ns} (h : LitItems u ns) : ∃ u0 n0, Lit u0 n0 ∧ ((u = u0 ∧ ns.length = 1) ∨ ∃ w' z, WS w' ∧ u = u0 ++ (w' ++ ',' :: z)) := by
  induction h with
  | one h => exact ⟨_, _, h, .inl ⟨rfl, rfl⟩⟩
  | @more u ns w1 w2 v n h0 hw1 hw2 hv ih =>
    obtain ⟨u0, n0, hl, ⟨rfl, _⟩ | ⟨w', z, hw', rfl⟩⟩ := ih
    · exact ⟨u, n0, hl, .inr ⟨w1, _, hw1, rfl⟩⟩
    · exact ⟨u0, n0, hl, .inr ⟨w', z ++ (w1 ++ ',' :: (w2 ++ v)), hw', by simp⟩⟩

theorem fprim_tuple {w0 u ns w1 t w2} (hw0 : WS w0) (hi : LitItems u ns) (hw1 : WS w1) (ht : t = [] ∨ t = c!",")
    (hc : 2 ≤ ns.length ∨ t = c!",") (hw2 : WS w2) : FPrim ('(' :: (w0 ++ (u ++ (w1 ++ (t ++ (w2 ++ c!")")))))) (.arr ns) := by
  refine ⟨⟨_, _, rfl, by decide⟩, fun w x hw hb hg => ?_⟩
  obtain ⟨ev, ho, he⟩ := Val.ok (.inr (.items (o := '(') (c := ')') (by decide) hw0 hi hw1 ht hw2)) hg.1
  refine ⟨ev, .call (.alt2 ?_ (.alt1 ho)), he⟩
  have key : ∃ u0 n0 w' z, Lit u0 n0 ∧ WS w' ∧ u ++ (w1 ++ (t ++ (w2 ++ ')' :: (w ++ x)))) = u0 ++ (w' ++ ',' :: z) := by
    obtain ⟨u0, n0, hl, ⟨rfl, h1⟩ | ⟨w', z, hw', rfl⟩⟩ := hi.first
    · have : t = c!"," := by rcases hc with h | h; · omega
                             · exact h
      subst this
      exact ⟨u, n0, w1, _, hl, hw1, rfl⟩
    · exact ⟨u0, n0, w', _, hl, hw', by simp; rfl⟩
  obtain ⟨u0, n0, w', z, hl, hw', e⟩ := key
  obtain ⟨ev0, r0, hr0, ho0, _⟩ := (fprim_lit hl).up.up.up.up.up.up.closer hw' (y := ',' :: z) ⟨_, _, rfl, .inl rfl⟩
  have : No (seqs [.chr '(', .call .sp, .call .Expression, .call .sp, .chr ')', .act 8]) ('(' :: (w0 ++ (u0 ++ (w' ++ ',' :: z)))) :=
    .seqFail2 .chrOk (.seqFail2 (sp_ok hw0 ((fprim_lit hl).1.solid _).no) (.seqFail2 ho0 (.seqFail2 (sp_or hw' (Solid.cons (by decide)) hr0)
      (.seqFail1 (.chrFail (by decide))))))
  rw [← e] at this
  simpa using this

/-- Reading an argument list. -/
def FArgs (u : Str) (n : Node) : Prop := ∀ r, ∃ ev, Ok (.call .ArgumentList) ('(' :: (u ++ ')' :: r)) ev r ∧ Eff ev [n] []

theorem fprim_func {f u ns} (hf : IdText f) (hk : KwFree f) (h : FArgs u (.arr ns)) : FPrim (f ++ '(' :: (u ++ c!")")) (.func f ns) := by
  obtain ⟨c, t, hc, _, hal⟩ := idText_head hf
  refine ⟨⟨c, _, by rw [hc]; rfl, CSet.has_sub (by decide) hal⟩, fun w x hw hb hg => ?_⟩
  obtain ⟨ev, ho, he⟩ := h (w ++ x)
  have hkw := kwFree_append hk (r := '(' :: (u ++ ')' :: (w ++ x))) (Hd.cons (by decide))
  have hval : No (.call .Value) (f ++ '(' :: (u ++ ')' :: (w ++ x))) := by
    rw [hc] at hkw ⊢; exact value_no hal hkw
  have hp : ∀ t, f ++ '(' :: (u ++ ')' :: (w ++ x)) ≠ '(' :: t := by
    intro t' e; rw [hc] at e; simp at e; rw [e.1] at hal; exact absurd hal (by decide)
  have hi := identifier_ok hf (r := '(' :: (u ++ ')' :: (w ++ x))) (Hd.cons (by decide))
  refine ⟨_, Ok.cast (.call (.alt2 (paren_alt_no hp) (.alt2 hval (.alt1 (.seqOk hi (.seqOk ho .act)))))) (by simp) rfl rfl, ?_⟩
  have := eff_act9 (ns := []) ((eff_name f).append he)
  simpa using this

theorem fargs_none {w} (hw : WS w) : FArgs w (.arr []) := by
  intro r
  have hs : Solid (')' :: r) := Solid.cons (by decide)
  refine ⟨[] ++ ([] ++ ([.act 10] ++ ([] ++ ([] ++ ([] ++ [.act 11]))))), .call (.seqOk .chrOk (.seqOk (sp_ok hw hs.no) (.seqOk .act
    (.seqOk (.optNone (.seqFail1 (.call (expr_no_paren _)))) (.seqOk (sp_nil hs.no) (.seqOk .chrOk .act)))))), ?_⟩
  have := eff_arr (k := 10) (k' := 11) (by decide) .nil
  simpa using this

theorem fargs_some {w u ns w1 t w2} (hw : WS w) (h : Items FLog u ns) (hw1 : WS w1) (ht : t = [] ∨ t = c!",") (hw2 : WS w2) :
    FArgs (w ++ (u ++ (w1 ++ (t ++ w2)))) (.arr ns) := by
  intro r
  obtain ⟨ev, hl, he⟩ := list_ok (x := .Argument) (fun _ _ h => h.item) (fun t => big_none_cons (by decide) (by decide) (by decide))
    (fun t => big_none_cons (by decide) (by decide) (by decide)) (.inl rfl) h hw1 ht hw2 r
  obtain ⟨s1, s2, _⟩ := items_ok (x := .Argument) (fun _ _ h => h.item) h
  obtain ⟨e1, r1, e2, i1, i2, rfl⟩ := hl.seq_inv
  obtain ⟨e3, r3, e4, i3, i4, rfl⟩ := i2.seq_inv
  refine ⟨[] ++ ([] ++ ([.act 10] ++ (e1 ++ (e3 ++ (e4 ++ [.act 11]))))), Ok.cast (.call (.seqOk .chrOk (.seqOk (sp_ok hw (solid_append s1 s2).no)
    (.seqOk .act (.seqOk i1 (.seqOk i3 (.seqOk i4 .act))))))) (by simp) rfl rfl, ?_⟩
  have := eff_arr (k := 10) (k' := 11) (by decide) he
  simpa using this

end Verif
