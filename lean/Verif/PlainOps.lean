import Verif.ShapeThms
import Verif.Spec.Print

/-! # Without comments, operators are recorded under their documented names -/

namespace Verif

theorem CommentFree.infix {u v : Str} (h : CommentFree v) (hu : u <:+: v) : CommentFree u := ⟨fun c => h.1 (c.trans hu), fun c => h.2 (c.trans hu)⟩
theorem CommentFree.left {u v : Str} (h : CommentFree (u ++ v)) : CommentFree u := h.infix (List.prefix_append _ _).isInfix
theorem CommentFree.right {u v : Str} (h : CommentFree (u ++ v)) : CommentFree v := h.infix (List.suffix_append _ _).isInfix
theorem CommentFree.tail {c : Char} {v : Str} (h : CommentFree (c :: v)) : CommentFree v := h.infix (List.suffix_cons _ _).isInfix

theorem WS.plain {u} (h : WS u) : CommentFree u → ∀ c ∈ u, c ∈ blanks := by
  induction h with
  | nil => intro _ c hc; cases hc
  | blank hb _ ih =>
    intro hf c hc
    rcases List.mem_cons.mp hc with rfl | hc
    · exact hb
    · exact ih hf.tail c hc
  | comment ho _ _ _ _ =>
    intro hf
    rcases ho with rfl | rfl
    · exact absurd (List.prefix_append _ _).isInfix hf.1
    · exact absurd (List.prefix_append _ _).isInfix hf.2

theorem Sep.plain {u m} (h : Sep u m) (hf : CommentFree u) : m = c!" " := h.blank (h.1.plain hf)

theorem CmpOp.plain {u o} (h : CmpOp u o) (hf : CommentFree u) : o ∈ opNames := by
  cases h with
  | sym h =>
    simp only [List.mem_cons, Prod.mk.injEq, List.not_mem_nil, or_false] at h
    rcases h with ⟨_, rfl⟩ | ⟨_, rfl⟩ | ⟨_, rfl⟩ | ⟨_, rfl⟩ | ⟨_, rfl⟩ | ⟨_, rfl⟩ | ⟨_, rfl⟩ | ⟨_, rfl⟩ <;> decide
  | word h _ =>
    simp only [List.mem_cons, List.not_mem_nil, or_false] at h
    rcases h with rfl | rfl | rfl | rfl | rfl | rfl | rfl <;> decide
  | notLike _ hs _ => rw [hs.plain hf.right.left]; decide

theorem LogicOp.plain {u o} (h : LogicOp u o) : o ∈ opNames := by
  rcases logicOp_name h with rfl | rfl <;> decide

theorem InOp.plain {u o} (h : InOp u o) (hf : CommentFree u) : o ∈ opNames := by
  cases h with
  | inn _ => decide
  | notIn _ hs _ => rw [hs.plain hf.right.left]; decide

theorem BetweenOp.plain {u o} (h : BetweenOp u o) (hf : CommentFree u) : o ∈ opNames := by
  cases h with
  | btw => decide
  | notBtw _ hs => rw [hs.plain hf.right.left]; decide

theorem MatchOp.plain {u o} (h : MatchOp u o) (hf : CommentFree u) : o ∈ opNames := by
  cases h with
  | isnull => decide
  | notnull => decide
  | is hs hw =>
    rw [hs.plain hf.right.left]
    simp only [List.mem_cons, List.not_mem_nil, or_false] at hw
    rcases hw with rfl | rfl | rfl <;> decide
  | isNot hs hs' hw =>
    rw [hs.plain hf.right.left, hs'.plain hf.right.right.right.left]
    simp only [List.mem_cons, List.not_mem_nil, or_false] at hw
    rcases hw with rfl | rfl | rfl <;> decide

/-- All operators of the tree are documented ones. -/
def Plain1 (n : Node) : Prop := ∀ o, Sub (.op o) n → o ∈ opNames

theorem Plain1.of_kids {n : Node} (hn : NotOp n) (h : ∀ k ∈ kids n, Plain1 k) : Plain1 n := by
  intro o hs
  cases hs with
  | refl => exact absurd rfl (hn o)
  | step hk hs => exact h _ hk o hs

theorem Plain1.op {o} (h : o ∈ opNames) : Plain1 (.op o) := by
  intro o' hs
  cases hs with
  | refl => exact h
  | step hk _ => simp [kids] at hk

theorem LitShape.plain {n} (h : LitShape n) : Plain1 n := by
  cases h <;> exact .of_kids nofun (by simp [kids])

theorem ValShape.plain {n} (h : ValShape n) : Plain1 n := by
  cases h with
  | lit h => exact h.plain
  | arr h => exact .of_kids nofun fun k hk => (h k hk).plain

theorem Rd.plain {l u n} (h : Rd l u n) : CommentFree u → Plain1 n := by
  induction h with
  | val h => intro _; exact h.shape.plain
  | name h _ => intro _; cases h <;> exact .of_kids nofun (by simp [kids])
  | paren _ _ _ ih => intro hf; exact .of_kids nofun (by simpa [kids] using ih hf.tail.right.left)
  | func _ _ _ ih =>
    intro hf
    have := ih hf.right.tail.left
    exact .of_kids nofun fun k hk o ho => this o (.step hk ho)
  | argOne _ ih => intro hf; exact .of_kids nofun (by simpa [kids] using ih hf)
  | argMore _ _ _ _ ih1 ih2 =>
    intro hf
    have h1 := ih1 hf.left
    have h2 := ih2 hf.right.right.tail.right
    refine .of_kids nofun fun k hk => ?_
    rcases List.mem_append.mp hk with hk | hk
    · exact fun o ho => h1 o (.step hk ho)
    · rw [List.mem_singleton.mp hk]; exact h2
  | argsNone _ => intro _; exact .of_kids nofun (by simp [kids])
  | argsSome _ _ _ _ _ ih => intro hf; exact ih hf.right.left
  | btwUp _ ih => exact ih
  | btwAnd _ _ ho _ h1 _ _ _ h2 ih =>
    intro hf
    refine .of_kids nofun ?_
    simp only [kids, List.mem_cons, List.not_mem_nil, or_false, forall_eq_or_imp, forall_eq]
    exact ⟨ih hf.left, .op (ho.plain hf.right.right.left), h1.shape.plain, h2.shape.plain⟩
  | btwArr _ _ ho _ _ h1 _ _ h2 _ ih =>
    intro hf
    refine .of_kids nofun ?_
    simp only [kids, List.mem_cons, List.not_mem_nil, or_false, forall_eq_or_imp, forall_eq]
    exact ⟨ih hf.left, .op (ho.plain hf.right.right.left), h1.shape.plain, h2.shape.plain⟩
  | prdUp _ ih => exact ih
  | pred _ _ _ ho _ ih =>
    intro hf
    refine .of_kids nofun ?_
    simp only [kids, List.mem_cons, List.not_mem_nil, or_false, forall_eq_or_imp, forall_eq]
    exact ⟨ih hf.left, .op (ho.plain hf.right.right.left)⟩
  | cinUp _ ih => exact ih
  | isIn _ _ ho _ ha ih =>
    intro hf
    refine .of_kids nofun ?_
    simp only [kids, List.mem_cons, List.not_mem_nil, or_false, forall_eq_or_imp, forall_eq]
    exact ⟨ih hf.left, .op (ho.plain hf.right.right.left), (Val.shape (.inr ha)).plain⟩
  | cmpUp _ ih => exact ih
  | cmp _ _ ho _ _ ih1 ih2 =>
    intro hf
    refine .of_kids nofun ?_
    simp only [kids, List.mem_cons, List.not_mem_nil, or_false, forall_eq_or_imp, forall_eq]
    exact ⟨ih1 hf.left, .op (ho.plain hf.right.right.left), ih2 hf.right.right.right.right⟩
  | negUp _ ih => exact ih
  | neg _ _ _ _ _ ih => intro hf; exact .of_kids nofun (by simpa [kids] using ih hf.right.right.right)
  | logicUp _ ih => exact ih
  | logic _ _ ho _ _ ih1 ih2 =>
    intro hf
    refine .of_kids nofun ?_
    simp only [kids, List.mem_cons, List.not_mem_nil, or_false, forall_eq_or_imp, forall_eq]
    exact ⟨ih1 hf.left, .op ho.plain, ih2 hf.right.right.right.right⟩

/-- In a query without comments and without `->` every operator is recorded under a documented name. -/
theorem parse_plain {s n} (h : parse s = .ok n) (ha : Balanced s false) (hf : CommentFree s) : ∀ o, Sub (.op o) n → o ∈ opNames := by
  obtain ⟨w1, u, w2, rfl, _, hr, _⟩ := arrowFree h ha
  exact hr.plain hf.right.left

end Verif
