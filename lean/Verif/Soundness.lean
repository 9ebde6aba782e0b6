import Verif.Sound2

/-! # Consequences of rule soundness for `Parse` -/

namespace Verif

theorem ValNode.complete {n} (h : ValNode n) : Complete n := by
  have lit : ∀ {m}, LitNode m → Complete m := by
    intro m h; cases m <;> first | exact h.elim | exact .int | exact .bool | exact .str | exact .null
  cases n with
  | arr l => exact .arr fun n hn => lit (h n hn)
  | _ => exact lit h

theorem Fine.complete {n} (h : Fine n) : Complete n := by
  induction h with
  | val h => exact h.complete
  | op => exact .op
  | ident => exact .ident
  | ref => exact .ref
  | pred _ _ ih => exact .pred ih .op
  | cmp _ _ _ h1 h2 h3 => exact .cmp h1 h2 h3
  | logic _ _ _ h1 h2 h3 => exact .logic h1 h2 h3
  | paren _ ih => exact .paren ih
  | not _ ih => exact .not ih
  | between _ _ h2 h3 ih => exact .between ih .op h2.complete h3.complete
  | func _ _ ih => exact .func ih

/-- What an accepting derivation of the whole grammar gives. -/
theorem grammar_sound {s ev} (h : Big G (.call .Grammar) s (some (ev, []))) :
    ∃ a p n es, Balanced s a ∧ Eff ev (p ++ [n]) es ∧ Fine n ∧ NotOp n ∧ (a = false → es = [] → p = [] ∧ Query s n) := by
  obtain ⟨w1, u, w2, rfl, hw1, hw2, -, u', a, ns, es, he, hc, heff, hne, hcm, hr⟩ : Post .Grammar _ _ _ := post_all h
  simp at he
  subst he
  obtain ⟨p, n, rfl, hno⟩ := hne
  refine ⟨a, p, n, es, ?_, heff, hcm n (by simp), hno, ?_⟩
  · have := (hw1.closed.append (hc.append hw2.closed)).balanced
    simpa using this
  · intro ha hes
    obtain ⟨m, hm, hrd⟩ := hr ha hes
    have hp : p = [] := by cases p <;> simp at hm ⊢
    subst hp
    simp at hm
    subst hm
    exact ⟨rfl, w1, u, w2, rfl, hw1, hrd, hw2⟩

/-- `Parse` returns a complete tree, or an error. -/
theorem parse_sound (s : Str) :
    (∃ n a, parse s = .ok n ∧ (Fine n ∧ NotOp n) ∧ Balanced s a ∧ (a = false → Query s n)) ∨ ∃ e, parse s = .err e := by
  rcases parse_cases s with ⟨ev, hb, hp⟩ | ⟨_, b, e, hp, _⟩
  · obtain ⟨a, p, n, es, hbal, heff, hcm, hno, hr⟩ := grammar_sound hb
    rw [hp, finish, heff.finish]
    cases es with
    | nil => exact .inl ⟨n, a, by simp [Tree.pop], ⟨hcm, hno⟩, hbal, fun ha => (hr ha rfl).2⟩
    | cons e es => exact .inr ⟨e, rfl⟩
  · exact .inr ⟨_, hp⟩

theorem parse_ok {s n} (h : parse s = .ok n) : ∃ a, Complete n ∧ Balanced s a ∧ (a = false → Query s n) := by
  rcases parse_sound s with ⟨m, a, hm, h1, h2, h3⟩ | ⟨e, he⟩
  · rw [h] at hm; cases hm; exact ⟨a, h1.1.complete, h2, h3⟩
  · rw [h] at he; cases he

/-- Every accepted query, with or without `->`, gives a tree made of proper parts, and not a bare operator. -/
theorem parse_fine {s n} (h : parse s = .ok n) : Fine n ∧ NotOp n := by
  rcases parse_sound s with ⟨m, a, hm, h1, _⟩ | ⟨e, he⟩
  · rw [h] at hm; cases hm; exact h1
  · rw [h] at he; cases he

/-- An accepting derivation with a single-node effect determines the result of `Parse`. -/
theorem parse_of_eff {s ev n} (h : Big G (.call .Grammar) s (some (ev, []))) (he : Eff ev [n] []) : parse s = .ok n := by
  rw [parse_of_big h, finish, he.finish]; rfl

end Verif
