import Verif.PlainOps
import Verif.Pieces
import Verif.RoundTrip

/-! # Without comments, operators are recorded under their documented names: queries with `->` too -/

namespace Verif

theorem lower_mark {c d : Char} (hd : d = '-' ∨ d = '/') (h : lowerChar c = d) : c = d := by
  rcases hd with rfl | rfl <;> exact lowerChar_ascii (by decide) (by decide) h

theorem mark_solid {d : Char} (hd : d = '-' ∨ d = '/') : reSpace d = false ∧ d ∉ whites ∧ lowerChar d = d ∧ d ≠ ' ' := by
  rcases hd with rfl | rfl <;> decide

theorem pair_squeeze {d : Char} (hd : d = '-' ∨ d = '/') : ∀ (u : Str) (p : Bool), [d, d] <:+: squeeze p (goLower u) → [d, d] <:+: u
  | [], p, h => by simp [goLower, squeeze] at h
  | c :: u, p, h => by
    have ih := pair_squeeze hd u
    simp only [goLower, List.map_cons, squeeze, reSpace_lower] at h
    have up : ∀ q, [d, d] <:+: squeeze q (goLower u) → [d, d] <:+: c :: u := fun q h => (ih q h).trans (List.suffix_cons _ _).isInfix
    cases hc : reSpace c with
    | true =>
      simp only [hc, if_true] at h
      cases p with
      | true => exact up true h
      | false =>
        simp only [Bool.false_eq_true, if_false] at h
        rcases List.infix_cons_iff.mp h with h | h
        · exact absurd (List.cons_prefix_cons.mp h).1 (mark_solid hd).2.2.2
        · exact up true h
    | false =>
      simp only [hc, Bool.false_eq_true, if_false] at h
      rcases List.infix_cons_iff.mp h with h | h
      · obtain ⟨e, h⟩ := List.cons_prefix_cons.mp h
        cases u with
        | nil => simp [squeeze] at h
        | cons c2 u =>
          simp only [List.map_cons, squeeze, reSpace_lower] at h
          cases hc2 : reSpace c2 with
          | true =>
            simp only [hc2, if_true, Bool.false_eq_true, if_false] at h
            exact absurd (List.cons_prefix_cons.mp h).1 (mark_solid hd).2.2.2
          | false =>
            simp only [hc2, Bool.false_eq_true, if_false] at h
            rw [lower_mark hd e.symm, lower_mark hd (List.cons_prefix_cons.mp h).1.symm]
            exact (List.prefix_append [d, d] u).isInfix
      · exact up false h

theorem pair_condensed {d : Char} (hd : d = '-' ∨ d = '/') {u m : Str} (h : Condensed u m) : [d, d] <:+: u → [d, d] <:+: m := by
  induction h with
  | nil => intro h; simp at h
  | @run b u m _ hb _ _ ih =>
    intro h
    have : ∀ b : Str, (∀ c ∈ b, c ∈ whites) → [d, d] <:+: b ++ u → [d, d] <:+: u := by
      intro b
      induction b with
      | nil => intro _ h; exact h
      | cons x b ihb =>
        intro hb h
        rcases List.infix_cons_iff.mp h with h | h
        · exact absurd ((List.cons_prefix_cons.mp h).1 ▸ hb x (by simp)) (mark_solid hd).2.1
        · exact ihb (fun c hc => hb c (by simp [hc])) h
    exact (ih (this b hb h)).trans (List.suffix_cons _ _).isInfix
  | @char c u m hc hu ih =>
    intro h
    rcases List.infix_cons_iff.mp h with h | h
    · obtain ⟨rfl, t, rfl⟩ := List.cons_prefix_cons.mp h
      have : ∃ m', m = d :: m' := by
        generalize hx : [d] ++ t = x at hu
        cases hu with
        | nil => cases hx
        | @run b u m hne hb _ _ =>
          cases b with
          | nil => exact absurd rfl hne
          | cons y b =>
            simp only [List.cons_append, List.cons.injEq] at hx
            exact absurd (hx.1 ▸ hb y (by simp)) (mark_solid hd).2.1
        | char _ _ =>
          simp only [List.cons_append, List.nil_append, List.cons.injEq] at hx
          exact ⟨_, by rw [← hx.1, (mark_solid hd).2.2.1]⟩
      obtain ⟨m', rfl⟩ := this
      rw [(mark_solid hd).2.2.1]
      exact (List.prefix_append [d, d] m').isInfix
    · exact (ih h).trans (List.suffix_cons _ _).isInfix

theorem Sep.clean {u m} (h : Sep u m) (hm : CommentFree m) : m = c!" " :=
  h.plain ⟨fun c => hm.1 (pair_condensed (.inl rfl) h.2.2 c), fun c => hm.2 (pair_condensed (.inr rfl) h.2.2 c)⟩

theorem OpName.plain {o} (h : OpName o) (hf : CommentFree o) : o ∈ opNames := by
  obtain ⟨u, h | h | h | h | h⟩ := h
  · cases h with
    | sym h => exact (CmpOp.sym h).plain (by
        simp only [List.mem_cons, Prod.mk.injEq, List.not_mem_nil, or_false] at h
        rcases h with ⟨rfl, _⟩ | ⟨rfl, _⟩ | ⟨rfl, _⟩ | ⟨rfl, _⟩ | ⟨rfl, _⟩ | ⟨rfl, _⟩ | ⟨rfl, _⟩ | ⟨rfl, _⟩ <;> (unfold CommentFree; decide))
    | word h _ =>
      simp only [List.mem_cons, List.not_mem_nil, or_false] at h
      rcases h with rfl | rfl | rfl | rfl | rfl | rfl | rfl <;> decide
    | notLike _ hs _ => rw [hs.clean hf.right.left]; decide
  · exact h.plain
  · cases h with
    | inn _ => decide
    | notIn _ hs _ => rw [hs.clean hf.right.left]; decide
  · cases h with
    | btw => decide
    | notBtw _ hs => rw [hs.clean hf.right.left]; decide
  · cases h with
    | isnull => decide
    | notnull => decide
    | is hs hw =>
      rw [hs.clean hf.right.left]
      simp only [List.mem_cons, List.not_mem_nil, or_false] at hw
      rcases hw with rfl | rfl | rfl <;> decide
    | isNot hs hs' hw =>
      rw [hs.clean hf.right.left, hs'.clean hf.right.right.right.left]
      simp only [List.mem_cons, List.not_mem_nil, or_false] at hw
      rcases hw with rfl | rfl | rfl <;> decide

theorem lookup_pair {l : List (Str × Str)} {k w} (hl : l.lookup k = some w) : (k, w) ∈ l := by
  induction l with
  | nil => cases hl
  | cons a l ih =>
    rw [List.lookup_cons] at hl
    split at hl
    · rename_i he
      cases hl
      rw [beq_iff_eq.mp he]
      simp
    · exact List.mem_cons_of_mem _ (ih hl)

theorem normOp_clean {x : Str} (h : CommentFree x) : CommentFree (normOp x) := by
  have tab : ∀ v ∈ normTable.map Prod.snd, CommentFree v := by unfold CommentFree; decide
  have key : CommentFree (squeeze false (goLower (goTrim x))) :=
    ⟨fun c => h.1 ((pair_squeeze (.inl rfl) _ _ c).trans (trim_infix x)), fun c => h.2 ((pair_squeeze (.inr rfl) _ _ c).trans (trim_infix x))⟩
  unfold normOp
  simp only
  split
  · rename_i v hv
    exact tab v (List.mem_map_of_mem (f := Prod.snd) (lookup_pair hv))
  · exact key

theorem LitNode.fine {n} (h : LitNode n) : Fine n := .val (by cases n <;> first | exact h | exact h.elim)

theorem Fine.kid {n k : Node} (h : Fine n) (hk : k ∈ kids n) : Fine k := by
  cases h with
  | @val n h =>
    cases n with
    | arr l => exact (h k hk).fine
    | _ => first | exact h.elim | cases hk
  | op _ => cases hk
  | ident _ => cases hk
  | ref _ => cases hk
  | pred h1 h2 =>
    simp only [kids, List.mem_cons, List.not_mem_nil, or_false] at hk
    rcases hk with rfl | rfl
    · exact h1
    · obtain ⟨u, hu⟩ := h2
      exact .op ⟨u, .inr (.inr (.inr (.inr hu)))⟩
  | cmp h1 h2 h3 =>
    simp only [kids, List.mem_cons, List.not_mem_nil, or_false] at hk
    rcases hk with rfl | rfl | rfl <;> assumption
  | logic h1 h2 h3 =>
    simp only [kids, List.mem_cons, List.not_mem_nil, or_false] at hk
    rcases hk with rfl | rfl | rfl <;> assumption
  | paren h1 =>
    simp only [kids, List.mem_cons, List.not_mem_nil, or_false] at hk
    rcases hk with rfl
    exact h1
  | not h1 =>
    simp only [kids, List.mem_cons, List.not_mem_nil, or_false] at hk
    rcases hk with rfl
    exact h1
  | between h1 h2 h3 h4 =>
    simp only [kids, List.mem_cons, List.not_mem_nil, or_false] at hk
    rcases hk with rfl | rfl | rfl | rfl
    · exact h1
    · obtain ⟨u, hu⟩ := h2
      exact .op ⟨u, .inr (.inr (.inr (.inl hu)))⟩
    · exact .val h3
    · exact .val h4
  | func _ h => exact h k hk

theorem Fine.subOp {n : Node} (h : Fine n) : ∀ o, Sub (.op o) n → OpName o := by
  intro o hs
  have : Fine (.op o) := by
    generalize hm : Node.op o = m at hs
    induction hs with
    | refl => exact h
    | step hk _ ih => exact ih (h.kid hk)
  cases this with
  | val h => exact h.elim
  | op h => exact h

/-- In a query without comments every operator is recorded under a documented name. -/
theorem parse_plain_all {s n} (h : parse s = .ok n) (hf : CommentFree s) : ∀ o, Sub (.op o) n → o ∈ opNames := by
  intro o ho
  obtain ⟨x, hx, e⟩ := parse_from h _ ho
  refine ((parse_fine h).1.subOp o ho).plain ?_
  rw [e]
  exact normOp_clean (hf.infix hx)

end Verif
