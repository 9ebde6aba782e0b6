import Verif.Fwd4
import Verif.Soundness

/-! # Replacing the first operand of a query -/

namespace Verif

open PExp

/-- Wherever `e` succeeds on `s1` it succeeds on `s2`, with `e2` in place of the leading `e1`; and it does succeed on `s1`. -/
def Swap (s1 s2 : Str) (e1 e2 : List Ev) (e : PExp) : Prop :=
  ¬ No e s1 ∧ ∀ ev r, Ok e s1 ev r → ∃ et, ev = e1 ++ et ∧ Ok e s2 (e2 ++ et) r

theorem Swap.of {s1 s2 e1 e2 r e} (h1 : Ok e s1 e1 r) (h2 : Ok e s2 e2 r) : Swap s1 s2 e1 e2 e := by
  refine ⟨fun h => (nomatch h1.det h), fun ev r' h => ?_⟩
  cases h1.det h
  exact ⟨[], by simp, by simpa using h2⟩

theorem Swap.call {s1 s2 e1 e2 R} (h : Swap s1 s2 e1 e2 (G R)) : Swap s1 s2 e1 e2 (.call R) := by
  refine ⟨fun hn => ?_, fun ev r hk => ?_⟩
  · cases hn with | call hn => exact h.1 hn
  · cases hk with
    | call hk =>
      obtain ⟨et, he, hk'⟩ := h.2 _ _ hk
      exact ⟨et, he, .call hk'⟩

theorem Swap.seq {s1 s2 e1 e2 a b} (h : Swap s1 s2 e1 e2 a) (hb : ∀ r, ¬ No b r) : Swap s1 s2 e1 e2 (.seq a b) := by
  refine ⟨fun hn => ?_, fun ev r hk => ?_⟩
  · cases hn with
    | seqFail1 hn => exact h.1 hn
    | seqFail2 _ hn => exact hb _ hn
  · generalize hx : some (ev, r) = x at hk
    cases hk with
    | seqOk h1 h2 =>
      cases hx
      obtain ⟨et, rfl, h1'⟩ := h.2 _ _ h1
      exact ⟨_, List.append_assoc .., by have := Big.seqOk h1' h2; simpa using this⟩

theorem star_not_no {a r} : ¬ No (.star a) r := by intro h; cases h

theorem opt_not_no {a r} : ¬ No (.opt a) r := by intro h; cases h

theorem Swap.alt {s1 s2 e1 e2 a b} (h : Swap s1 s2 e1 e2 a) : Swap s1 s2 e1 e2 (.alt a b) := by
  refine ⟨fun hn => ?_, fun ev r hk => ?_⟩
  · cases hn with | alt2 hn _ => exact h.1 hn
  · cases hk with
    | alt1 hk => obtain ⟨et, he, hk'⟩ := h.2 _ _ hk; exact ⟨et, he, .alt1 hk'⟩
    | alt2 hn _ => exact absurd hn h.1

theorem Swap.expression {s1 s2 e1 e2} (h : Swap s1 s2 e1 e2 (.call .PrimaryExpression)) : Swap s1 s2 e1 e2 (.call .Expression) :=
  .call (.call (.seq (.call (.alt (.call (.seq (.call (.seq (.call (.seq (.call (.seq h (fun _ => opt_not_no)))
    (fun _ => opt_not_no))) (fun _ => opt_not_no))) (fun _ => star_not_no))))) (fun _ => star_not_no)))

/-- The text `p1->p2->…->`. -/
def arrows : List Str → Str
  | [] => []
  | p :: ps => p ++ '-' :: '>' :: arrows ps

theorem IdText.solid {u : Str} (h : IdText u) (r : Str) : Solid (u ++ r) := by
  obtain ⟨c, t, rfl, hc, _⟩ := idText_head h
  refine Solid.cons ?_
  have := idHead_iff.mp hc
  simp [wsF, CSet.has]
  omega

/-- A plain name as operand, with its actions. -/
theorem ident_prim {u r : Str} (hu : IdText u) (hk : KwFree u) (hr : Hd nameF r) (ha : ∀ t, r ≠ '-' :: '>' :: t) :
    Ok (.call .PrimaryExpression) (u ++ r) [.text u, .act 14] r := by
  have hid : Hd idF r := hr.mono (by decide)
  have hdot : Hd [('.', '.')] r := hr.mono (by decide)
  have hpar : Hd [('(', '(')] r := hr.mono (by decide)
  have hkw := kwFree_append hk hid
  obtain ⟨c, t, he, hc, hal⟩ := idText_head hu
  have hval : No (.call .Value) (u ++ r) := by
    rw [he] at hkw ⊢; exact value_no hal hkw
  have hp : ∀ t, u ++ r ≠ '(' :: t := by
    intro t' e; rw [he] at e; simp at e; rw [e.1] at hal; exact absurd hal (by decide)
  have hi := identifier_ok hu hid
  refine .call (.alt2 (paren_alt_no hp) (.alt2 hval (.alt2 (.seqFail2 hi (.seqFail1 ?_)) (.call (.alt2 (.call ?_) (.alt2 (.call ?_) hi))))))
  · exact hpar.no (by decide) (by decide) (by decide)
  · refine .seqFail2 .act (.seqFail2 hi (.seqFail1 (chr_no fun t e => ?_)))
    have := hdot _ _ e; exact absurd this (by decide)
  · refine .seqFail2 hi ?_
    cases r with
    | nil => exact .seqFail1 .chrNil
    | cons x r =>
      by_cases hx : x = '-'
      · subst hx
        exact .seqFail2 .chrOk (.seqFail1 (chr_no fun t e => ha t (by rw [e])))
      · exact .seqFail1 (.chrFail hx)

theorem json_ok {p : Str} {ps : List Str} (hp : ∀ x ∈ p :: ps, IdText x) {b r : Str} (hb : IdText b) (hr : Hd idF r) (ha : ∀ t, r ≠ '-' :: '>' :: t) :
    ∃ ev, Ok (.call .JsonReference) (arrows (p :: ps) ++ (b ++ r)) (ev ++ [.text b, .act 14]) r ∧ Eff ev ((p :: ps).map .ident) [] := by
  induction ps generalizing p with
  | nil =>
    have hi := identifier_ok (hp p (by simp)) (r := '-' :: '>' :: (b ++ r)) (Hd.cons (by decide))
    have hi2 := identifier_ok hb hr
    have hno : No (.call .JsonReference) (b ++ r) := by
      refine .call (.seqFail2 hi2 ?_)
      cases r with
      | nil => exact .seqFail1 .chrNil
      | cons x r =>
        by_cases hx : x = '-'
        · subst hx; exact .seqFail2 .chrOk (.seqFail1 (chr_no fun t e => ha t (by rw [e])))
        · exact .seqFail1 (.chrFail hx)
    have heq : arrows [p] ++ (b ++ r) = p ++ '-' :: '>' :: (b ++ r) := by simp [arrows]
    rw [heq]
    exact ⟨_, .call (.seqOk hi (.seqOk .chrOk (.seqOk .chrOk (.alt2 hno hi2)))), eff_name p⟩
  | cons q ps ih =>
    obtain ⟨ev, h1, h2⟩ := ih (p := q) (fun x hx => hp x (List.mem_cons_of_mem _ hx))
    have hi := identifier_ok (hp p (by simp)) (r := '-' :: '>' :: (arrows (q :: ps) ++ (b ++ r))) (Hd.cons (by decide))
    have heq : arrows (p :: q :: ps) ++ (b ++ r) = p ++ '-' :: '>' :: (arrows (q :: ps) ++ (b ++ r)) := by simp [arrows]
    rw [heq]
    have hk : Ok (.call .JsonReference) _ _ _ := .call (.seqOk hi (.seqOk .chrOk (.seqOk .chrOk (.alt1 h1))))
    refine ⟨[.text p, .act 14] ++ ev, by simpa using hk, ?_⟩
    have := (eff_name p).append h2; simpa using this

theorem arrow_prim {p : Str} {ps : List Str} (hp : ∀ x ∈ p :: ps, IdText x) (hk : KwFree p) {b r : Str} (hb : IdText b) (hr : Hd idF r)
    (ha : ∀ t, r ≠ '-' :: '>' :: t) :
    ∃ ev, Ok (.call .PrimaryExpression) (arrows (p :: ps) ++ (b ++ r)) (ev ++ [.text b, .act 14]) r ∧ Eff ev ((p :: ps).map .ident) [] := by
  obtain ⟨ev, h1, h2⟩ := json_ok hp hb hr ha
  refine ⟨ev, ?_, h2⟩
  obtain ⟨c, t, he, hc, hal⟩ := idText_head (hp p (by simp))
  have heq : arrows (p :: ps) ++ (b ++ r) = p ++ '-' :: '>' :: (arrows ps ++ (b ++ r)) := by simp [arrows]
  have hi := identifier_ok (hp p (by simp)) (r := '-' :: '>' :: (arrows ps ++ (b ++ r))) (Hd.cons (by decide))
  have hkw : KwFree (p ++ '-' :: '>' :: (arrows ps ++ (b ++ r))) := kwFree_append hk (Hd.cons (by decide))
  rw [heq] at h1 ⊢
  have hval : No (.call .Value) (p ++ '-' :: '>' :: (arrows ps ++ (b ++ r))) := by
    rw [he] at hkw ⊢; exact value_no hal hkw
  have hpar : ∀ t, p ++ '-' :: '>' :: (arrows ps ++ (b ++ r)) ≠ '(' :: t := by
    intro t' e; rw [he] at e; simp at e; rw [e.1] at hal; exact absurd hal (by decide)
  refine .call (.alt2 (paren_alt_no hpar) (.alt2 hval (.alt2 (.seqFail2 hi (.seqFail1 (.call (.seqFail1 (.chrFail (by decide)))))) (.call (.alt2 (.call ?_) (.alt1 h1))))))
  exact .seqFail2 .act (.seqFail2 hi (.seqFail1 (.chrFail (by decide))))

end Verif
