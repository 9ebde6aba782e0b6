import Verif.Fwd2
import Verif.Join

/-! # Parenthesised queries and chains of them -/

namespace Verif

open PExp

/-- An accepted query before a closing parenthesis: blanks, the same expression, blanks. -/
theorem hole_parts {q n} (h : parse q = .ok n) (hb : Balanced q false) (t : Str) :
    ∃ ev r1 r2, Ok (.call .sp) (q ++ ')' :: t) [] r1 ∧ Ok (.call .Expression) r1 ev r2 ∧ Ok (.call .sp) r2 [] (')' :: t) ∧ Eff ev [n] [] := by
  rcases parse_cases q with ⟨ev, hg, hp⟩ | ⟨_, b, e, hp, _⟩
  · obtain ⟨a, p, m, es, hbal, heff, hcm, _, hr⟩ := grammar_sound hg
    have ha : a = false := by
      unfold Balanced at hb hbal
      rw [hb] at hbal
      simpa using hbal.symm
    have hes : es = [] ∧ m = n := by
      rw [hp, finish, heff.finish] at h
      cases es with
      | nil => simp [Tree.pop] at h; exact ⟨rfl, h⟩
      | cons e es => simp at h
    obtain ⟨rfl, rfl⟩ := hes
    obtain ⟨rfl, _⟩ := hr ha rfl
    cases hg with | call hg => ?_
    generalize hx : some (ev, ([] : Str)) = x at hg
    cases hg with
    | seqFail1 _ => cases hx
    | seqFail2 _ _ => cases hx
    | @seqOk _ _ _ e1 r1 e2 _ h1 hg => ?_
    cases hx
    generalize hx : some (e2, ([] : Str)) = x at hg
    cases hg with
    | seqFail1 _ => cases hx
    | seqFail2 _ _ => cases hx
    | @seqOk _ _ _ e3 r3 e4 _ h3 hg => ?_
    cases hx
    generalize hx : some (e4, ([] : Str)) = x at hg
    cases hg with
    | seqFail1 _ => cases hx
    | seqFail2 _ _ => cases hx
    | @seqOk _ _ _ e5 r5 e6 _ h5 h6 => ?_
    cases hx
    obtain ⟨rfl, rfl, -⟩ : Post .EndOfFile _ _ _ := post_all h6
    have hcl : Closes q .code ([] ++ []) := ⟨_, _, hb⟩
    obtain ⟨x1, c1⟩ := ext t h1 .code [] .code [] [] rfl hcl
    obtain ⟨x3, c3⟩ := ext t h3 .code [] .code [] [] rfl (c1 _ _ rfl)
    obtain ⟨x5, _⟩ := ext t h5 .code [] .code [] [] rfl (c3 _ _ rfl)
    obtain ⟨rfl, -⟩ : PostWS _ _ _ := post_all h1
    obtain ⟨rfl, -⟩ : PostWS _ _ _ := post_all h5
    exact ⟨_, _, _, x1, x3, x5, by simpa using heff⟩
  · rw [hp] at h; cases h

/-- A query accepted on its own can be used between parentheses, whatever follows. -/
theorem paren_ok {q n} (h : parse q = .ok n) (hb : Balanced q false) (t : Str) :
    ∃ ev, Ok (.call .PrimaryExpression) ('(' :: (q ++ ')' :: t)) ev t ∧ Eff ev [.paren n] [] := by
  obtain ⟨ev, r1, r2, x1, x3, x5, he⟩ := hole_parts h hb t
  refine ⟨_, .call (.alt1 (.seqOk .chrOk (.seqOk x1 (.seqOk x3 (.seqOk x5 (.seqOk .chrOk .act)))))), ?_⟩
  have := eff_act8 (ns := []) (n := n) he
  simpa using this

/-- One link of a chain: blanks, operator (as written and as recorded), blanks, parenthesised query and its tree. -/
structure Link where
  w1 : Str
  ob : Str
  o : Str
  w2 : Str
  q : Str
  n : Node

/-- The text of a chain. -/
def chainText : List Link → Str
  | [] => []
  | l :: ls => l.w1 ++ (l.ob ++ (l.w2 ++ '(' :: (l.q ++ ')' :: chainText ls)))

/-- A well formed link with operators of class `O`. -/
structure Link.Good (O : Str → Str → Prop) (l : Link) : Prop where
  w1 : WS l.w1
  op : O l.ob l.o
  w2 : WS l.w2
  parses : parse l.q = .ok l.n
  noArrow : Balanced l.q false

/-- No operator tighter than logic follows. -/
def After (t : Str) : Prop := No btwT t ∧ No prdT t ∧ No cinT t ∧ No cmpT t

theorem After.of {w r : Str} (hw : WS w) (hr : Solid r) (h1 : Hd relF r) (h2 : Hd cmpH r) : After (w ++ r) :=
  ⟨btwT_no hw hr h1, prdT_no hw hr h1, cinT_no hw hr h1, cmpT_no hw hr h2⟩

theorem paren_solid {t : Str} : Solid ('(' :: t) := Solid.cons (by decide)

theorem after_chain {ls : List Link} (h : ∀ l ∈ ls, l.Good LogicOp) {r : Str} (hr : After r) : After (chainText ls ++ r) := by
  cases ls with
  | nil => exact hr
  | cons l ls =>
    have hl := h l (by simp)
    simp only [chainText, List.append_assoc]
    exact After.of hl.w1 (hl.op.hd _ (by decide)) (hl.op.hd _ (by decide)) (hl.op.hd _ (by decide))

theorem not_paren_ok {q n} (h : parse q = .ok n) (hb : Balanced q false) {t : Str} (ht : After t) :
    ∃ ev, Ok (.call .NotExpression) ('(' :: (q ++ ')' :: t)) ev t ∧ Eff ev [.paren n] [] := by
  obtain ⟨ev, h1, h2⟩ := paren_ok h hb t
  exact ⟨ev, up_not (up_cmp (prim_cin h1 ht.1 ht.2.1 ht.2.2.1) ht.2.2.2), h2⟩

theorem logic_star {ls : List Link} (h : ∀ l ∈ ls, l.Good LogicOp) {r : Str} (hr : After r) (hl : No logT r) :
    ∃ ev, Ok (.star logT) (chainText ls ++ r) ev r ∧ ∀ e0 n0, Eff e0 [n0] [] →
      Eff (e0 ++ ev) [ls.foldl (fun n l => .logic n (.op l.o) (.paren l.n)) n0] [] := by
  induction ls with
  | nil => exact ⟨[], .starNil hl, fun e0 n0 h => by simpa using h⟩
  | cons l ls ih =>
    have hg := h l (by simp)
    have hls : ∀ l ∈ ls, l.Good LogicOp := fun x hx => h x (List.mem_cons_of_mem _ hx)
    obtain ⟨ev, h1, h2⟩ := ih hls
    obtain ⟨e1, o1, f1⟩ := logic_ok (r := '(' :: (l.q ++ ')' :: (chainText ls ++ r))) hg.w1 hg.op hg.w2 paren_solid
    obtain ⟨e2, o2, f2⟩ := not_paren_ok hg.parses hg.noArrow (after_chain hls hr)
    refine ⟨(e1 ++ (e2 ++ [.act 0])) ++ ev, ?_, ?_⟩
    · have : Ok (.star logT) _ _ _ := .starCons (.seqOk o1 (.seqOk o2 .act)) h1
      simpa [chainText] using this
    · intro e0 n0 h0
      have := h2 (e0 ++ (e1 ++ (e2 ++ [.act 0]))) (.logic n0 (.op l.o) (.paren l.n)) (by
        have := eff_act0 (ns := []) (by have := h0.append (f1.append f2); simpa using this)
        simpa using this)
      simpa using this

/-- A chain of logic operators over parenthesised queries. -/
theorem parse_logic_chain {q n} (h : parse q = .ok n) (hb : Balanced q false) {ls : List Link} (hls : ∀ l ∈ ls, l.Good LogicOp)
    {w1 w2 : Str} (hw1 : WS w1) (hw2 : WS w2) :
    parse (w1 ++ ('(' :: (q ++ ')' :: (chainText ls ++ w2)))) =
      .ok (ls.foldl (fun n l => .logic n (.op l.o) (.paren l.n)) (.paren n)) := by
  have haft : After w2 := by
    have := After.of hw2 Solid.nil Hd.nil Hd.nil; simpa using this
  have hlog : No logT w2 := by
    have := logT_no hw2 Solid.nil Hd.nil; simpa using this
  obtain ⟨e1, o1, f1⟩ := not_paren_ok h hb (after_chain hls haft)
  obtain ⟨e2, o2, f2⟩ := logic_star hls haft hlog
  refine parse_of_eff (ev := [] ++ ((e1 ++ e2) ++ ([] ++ []))) (.call (.seqOk (sp_ok hw1 paren_solid.no) (.seqOk (.call (.call (.seqOk o1 o2)))
    (.seqOk ?_ (.call (.notOk .anyFail)))))) ?_
  · have := sp_ok hw2 Solid.nil.no
    simpa using this
  · have := f2 e1 _ f1
    simpa using this

/-! ## Comparison chains -/

theorem CmpOpR.noTails {w ob o r : Str} (hw : WS w) (h : CmpOpR ob o) : No btwT (w ++ (ob ++ r)) ∧ No prdT (w ++ (ob ++ r)) ∧ No cinT (w ++ (ob ++ r)) := by
  have hsol := h.solid r
  have easy : Hd relF (ob ++ r) → No btwT (w ++ (ob ++ r)) ∧ No prdT (w ++ (ob ++ r)) ∧ No cinT (w ++ (ob ++ r)) :=
    fun hd => ⟨btwT_no hw hsol hd, prdT_no hw hsol hd, cinT_no hw hsol hd⟩
  cases h with
  | sym h =>
    simp at h
    rcases h with ⟨rfl, rfl⟩ | ⟨rfl, rfl⟩ | ⟨rfl, rfl⟩ | ⟨rfl, rfl⟩ | ⟨rfl, rfl⟩ | ⟨rfl, rfl⟩ | ⟨rfl, rfl⟩ <;> exact easy (Hd.cons (by decide))
  | word h hc =>
    simp at h
    rcases h with rfl | rfl | rfl | rfl | rfl
    · exact easy (hc.hd (by decide) (by decide) _)
    · exact easy (hc.hd (by decide) (by decide) _)
    · exact easy (hc.hd (by decide) (by decide) _)
    · obtain ⟨x, t, rfl, hx, y, t', rfl, hy, ht'⟩ := hc
      have hy' : y ≠ 'o' ∧ y ≠ 'O' := by rcases hy with rfl | rfl <;> decide
      have hnot : ∀ {e}, No (.seq (ciLit c!"not") e) (x :: y :: t' ++ r) := fun {e} => .seqFail1 (ciLit_no2 hx hy')
      have hx' : x ≠ 'b' ∧ x ≠ 'i' ∧ x ≠ 'I' := by rcases hx with rfl | rfl <;> decide
      refine ⟨sp_seq_no hw hsol ?_, prdT_no' hw hsol ?_, sp_seq_no hw hsol ?_⟩
      · exact .seqFail1 (.txtFail (.seqFail2 (.optNone hnot) (.seqFail1 (.chrFail hx'.1))))
      · refine .seqFail1 (.txtFail (.alt2 (.seqFail1 (.chrFail hx'.2.1)) (.alt2 ?_ (.alt2 (.seqFail1 (.chrFail hx'.2.1)) (.seqFail1 (.chrFail hx'.2.1))))))
        by_cases hn : x = 'n'
        · subst hn; exact .seqFail2 .chrOk (.seqFail1 (.chrFail hy'.1))
        · exact .seqFail1 (.chrFail hn)
      · exact .seqFail1 (.txtFail (.alt2 (ciLit_no1 hx'.2) hnot))
    · exact easy (hc.hd (by decide) (by decide) _)
  | @notLike a s b ha hs hne hb =>
    rw [List.append_assoc, List.append_assoc] at hsol ⊢
    have hlike : Solid (b ++ r) := hb.hd (by decide) (by decide) _
    have hlb : Hd [('b', 'b'), ('i', 'i'), ('I', 'I')] (b ++ r) := hb.hd (by decide) (by decide) _
    have hahd : Hd [('b', 'b'), ('i', 'i'), ('I', 'I')] (a ++ (s ++ (b ++ r))) := ha.hd (by decide) (by decide) _
    refine ⟨sp_seq_no hw hsol ?_, prdT_no' hw hsol ?_, sp_seq_no hw hsol ?_⟩
    · refine .seqFail1 (.txtFail (.seqFail2 (.optSome (.seqOk (ciLit_ok _ ha) (sp1_ok hs hne hlike.no))) ?_))
      exact hlb.no (by decide) (by decide) (by decide)
    · have hi : No (.chr 'i') (a ++ (s ++ (b ++ r))) := hahd.no (by decide) (by decide) (by decide)
      refine .seqFail1 (.txtFail (.alt2 (.seqFail1 hi) (.alt2 ?_ (.alt2 (.seqFail1 hi) (.seqFail1 hi)))))
      obtain ⟨x, t, rfl, hx, y, t', rfl, hy, z, t'', rfl, hz, ht''⟩ := ha
      cases ht''
      by_cases hxn : x = 'n'
      · subst hxn
        refine .seqFail2 .chrOk ?_
        by_cases hyn : y = 'o'
        · subst hyn
          refine .seqFail2 .chrOk ?_
          by_cases hzn : z = 't'
          · subst hzn
            refine .seqFail2 .chrOk (.seqFail1 (chr_no ?_))
            have := ws_hd hs (S := [('n', 'n')]) (by decide)
            cases s with
            | nil => exact absurd rfl hne
            | cons c s =>
              rintro t e
              have hc := this c s rfl
              simp at e
              rw [e.1] at hc
              exact absurd hc (by decide)
          · exact .seqFail1 (.chrFail hzn)
        · exact .seqFail1 (.chrFail hyn)
      · exact .seqFail1 (.chrFail hxn)
    · refine .seqFail1 (.txtFail (.alt2 ?_ (notWord_no ha hs hne hlike ?_)))
      · exact hahd.no (by decide) (by decide) (by decide)
      · exact hlb.no (by decide) (by decide) (by decide)

theorem cin_chain {ls : List Link} (h : ∀ l ∈ ls, l.Good CmpOpR) {r : Str} (hr : No btwT r ∧ No prdT r ∧ No cinT r) :
    No btwT (chainText ls ++ r) ∧ No prdT (chainText ls ++ r) ∧ No cinT (chainText ls ++ r) := by
  cases ls with
  | nil => exact hr
  | cons l ls =>
    have hl := h l (by simp)
    simp only [chainText, List.append_assoc]
    exact hl.op.noTails hl.w1

theorem cmp_star {ls : List Link} (h : ∀ l ∈ ls, l.Good CmpOpR) {r : Str} (hr : No btwT r ∧ No prdT r ∧ No cinT r) (hl : No cmpT r) :
    ∃ ev, Ok (.star cmpT) (chainText ls ++ r) ev r ∧ ∀ e0 n0, Eff e0 [n0] [] →
      Eff (e0 ++ ev) [ls.foldl (fun n l => .cmp n (.op l.o) (.paren l.n)) n0] [] := by
  induction ls with
  | nil => exact ⟨[], .starNil hl, fun e0 n0 h => by simpa using h⟩
  | cons l ls ih =>
    have hg := h l (by simp)
    have hls : ∀ l ∈ ls, l.Good CmpOpR := fun x hx => h x (List.mem_cons_of_mem _ hx)
    obtain ⟨ev, h1, h2⟩ := ih hls
    obtain ⟨e1, o1, f1⟩ := compare_ok (r := '(' :: (l.q ++ ')' :: (chainText ls ++ r))) hg.w1 hg.op hg.w2 paren_solid (Hd.cons (by decide))
    obtain ⟨e2, o2, f2⟩ := paren_ok hg.parses hg.noArrow (chainText ls ++ r)
    have hcl := cin_chain hls hr
    refine ⟨(e1 ++ (e2 ++ [.act 2])) ++ ev, ?_, ?_⟩
    · have : Ok (.star cmpT) _ _ _ := .starCons (.seqOk o1 (.seqOk (prim_cin o2 hcl.1 hcl.2.1 hcl.2.2) .act)) h1
      simpa [chainText] using this
    · intro e0 n0 h0
      have := h2 (e0 ++ (e1 ++ (e2 ++ [.act 2]))) (.cmp n0 (.op l.o) (.paren l.n)) (by
        have := eff_act2 (ns := []) (by have := h0.append (f1.append f2); simpa using this)
        simpa using this)
      simpa using this

/-- A chain of comparisons over parenthesised queries. -/
theorem parse_cmp_chain {q n} (h : parse q = .ok n) (hb : Balanced q false) {ls : List Link} (hls : ∀ l ∈ ls, l.Good CmpOpR)
    {w1 w2 : Str} (hw1 : WS w1) (hw2 : WS w2) :
    parse (w1 ++ ('(' :: (q ++ ')' :: (chainText ls ++ w2)))) =
      .ok (ls.foldl (fun n l => .cmp n (.op l.o) (.paren l.n)) (.paren n)) := by
  have haft : After w2 := by
    have := After.of hw2 Solid.nil Hd.nil Hd.nil; simpa using this
  have hlog : No logT w2 := by
    have := logT_no hw2 Solid.nil Hd.nil; simpa using this
  have hcl := cin_chain hls ⟨haft.1, haft.2.1, haft.2.2.1⟩
  obtain ⟨e1, o1, f1⟩ := paren_ok h hb (chainText ls ++ w2)
  obtain ⟨e2, o2, f2⟩ := cmp_star hls ⟨haft.1, haft.2.1, haft.2.2.1⟩ haft.2.2.2
  refine parse_of_eff (ev := [] ++ ((e1 ++ e2) ++ ([] ++ []))) (.call (.seqOk (sp_ok hw1 paren_solid.no) (.seqOk (.call (up_log (up_not
    (.call (.seqOk (prim_cin o1 hcl.1 hcl.2.1 hcl.2.2) o2))) hlog))
    (.seqOk ?_ (.call (.notOk .anyFail)))))) ?_
  · have := sp_ok hw2 Solid.nil.no
    simpa using this
  · have := f2 e1 _ f1
    simpa using this

end Verif
