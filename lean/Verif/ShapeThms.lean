import Verif.TextThms2
import Verif.Spec.Shape

/-! # Grammatical trees: shape and names -/

namespace Verif

theorem Lit.shape {u n} (h : Lit u n) : LitShape n := by
  cases h with
  | int hk => exact .int hk
  | tru _ => exact .bool
  | fls _ => exact .bool
  | null _ => exact .null
  | sq _ => exact .str
  | dq _ => exact .str

theorem LitItems.shape {u ns} (h : LitItems u ns) : ∀ n ∈ ns, LitShape n := by
  induction h with
  | one h => intro n hn; rw [List.mem_singleton.mp hn]; exact h.shape
  | more _ _ _ h ih =>
    intro n hn
    rcases List.mem_append.mp hn with hn | hn
    · exact ih n hn
    · rw [List.mem_singleton.mp hn]; exact h.shape

theorem LitArr.shape {u n} (h : LitArr u n) : ∃ ns, n = .arr ns ∧ ∀ n ∈ ns, LitShape n := by
  cases h with
  | empty => exact ⟨[], rfl, by simp⟩
  | items _ _ h => exact ⟨_, rfl, h.shape⟩

theorem Val.shape {u n} (h : Val u n) : ValShape n := by
  rcases h with h | h
  · exact .lit h.shape
  · obtain ⟨ns, rfl, hs⟩ := h.shape; exact .arr hs

/-- The induction predicate: argument lists carry an array node. -/
def ShapeL : Lvl → Node → Prop
  | .args1, n => ∀ ns, n = .arr ns → ∀ m ∈ ns, Shape .logic m
  | .args, n => ∀ ns, n = .arr ns → ∀ m ∈ ns, Shape .logic m
  | l, n => Shape l n

theorem logicOp_name {u o} (h : LogicOp u o) : o = c!"and" ∨ o = c!"or" := by
  cases h with
  | word h _ => simpa using h
  | amp => exact .inl rfl
  | bar => exact .inr rfl

theorem Rd.shapeL {l u n} (h : Rd l u n) : ShapeL l n := by
  induction h with
  | val h => exact Shape.val h.shape
  | name h hk =>
    cases h with
    | ident hu => exact Shape.ident hu hk
    | ref hu => rw [joinDots_head] at hk; exact Shape.ref hu (kwFree_left hk)
  | paren _ _ _ ih => exact Shape.paren ih
  | func hf hk _ ih => exact Shape.func hf hk (ih _ rfl)
  | argOne _ ih => rintro ns ⟨⟩ m hm; rw [List.mem_singleton.mp hm]; exact ih
  | argMore _ _ _ _ ih1 ih2 =>
    rintro ns ⟨⟩ m hm
    rcases List.mem_append.mp hm with hm | hm
    · exact ih1 _ rfl m hm
    · rw [List.mem_singleton.mp hm]; exact ih2
  | argsNone _ => rintro ns ⟨⟩ m hm; simp at hm
  | argsSome _ _ _ _ _ ih => exact ih
  | btwUp _ ih => exact Shape.btwUp ih
  | btwAnd _ _ ho _ h1 _ _ _ h2 ih => exact Shape.btw ih ⟨_, ho⟩ h1.shape h2.shape
  | btwArr _ _ ho _ _ h1 _ _ h2 _ ih => exact Shape.btw ih ⟨_, ho⟩ h1.shape h2.shape
  | prdUp _ ih => exact Shape.prdUp ih
  | pred _ _ _ ho _ ih => exact Shape.pred ih ⟨_, ho⟩
  | cinUp _ ih => exact Shape.cinUp ih
  | isIn _ _ ho _ ha ih => obtain ⟨ns, rfl, hs⟩ := ha.shape; exact Shape.isIn ih ⟨_, ho⟩ hs
  | cmpUp _ ih => exact Shape.cmpUp ih
  | cmp _ _ ho _ _ ih1 ih2 => exact Shape.cmp ih1 ⟨_, ho⟩ ih2
  | negUp _ ih => exact Shape.negUp ih
  | neg _ _ _ _ _ ih => exact Shape.neg ih
  | logicUp _ ih => exact Shape.logicUp ih
  | logic _ _ ho _ _ ih1 ih2 => exact Shape.logic ih1 (logicOp_name ho) ih2

theorem arrowFree {s : Str} {n : Node} (h : parse s = .ok n) (ha : Balanced s false) : Query s n := by
  obtain ⟨a, _, h2, h3⟩ := parse_ok h
  have : a = false := by
    unfold Balanced at ha h2
    rw [ha] at h2
    simpa using h2.symm
  exact h3 this

theorem parse_shape {s n} (h : parse s = .ok n) (ha : Balanced s false) : Shape .logic n := by
  obtain ⟨_, _, _, _, _, hr, _⟩ := arrowFree h ha
  exact hr.shapeL

theorem ValShape.kids {n} (h : ValShape n) : ∀ m ∈ kids n, ∃ lv, Shape lv m := by
  cases h with
  | lit h => cases h <;> simp [Verif.kids]
  | arr h => exact fun m hm => ⟨.prim, .val (.lit (h m hm))⟩

/-- Children of grammatical trees are grammatical, or operators. -/
theorem Shape.kids {lv n} (h : Shape lv n) : ∀ m ∈ kids n, (∃ lv, Shape lv m) ∨ ∃ o, m = .op o := by
  induction h with
  | val h => exact fun m hm => .inl (h.kids m hm)
  | ident _ _ => simp [Verif.kids]
  | ref _ _ => simp [Verif.kids]
  | paren h _ => intro m hm; simp [Verif.kids] at hm; subst hm; exact .inl ⟨_, h⟩
  | func _ _ h _ => exact fun m hm => .inl ⟨_, h m hm⟩
  | btwUp _ ih => exact ih
  | btw h1 _ h3 h4 _ =>
    intro m hm; simp [Verif.kids] at hm
    rcases hm with rfl | rfl | rfl | rfl
    · exact .inl ⟨_, h1⟩
    · exact .inr ⟨_, rfl⟩
    · exact .inl ⟨_, .val h3⟩
    · exact .inl ⟨_, .val h4⟩
  | prdUp _ ih => exact ih
  | pred h _ _ =>
    intro m hm; simp [Verif.kids] at hm
    rcases hm with rfl | rfl
    · exact .inl ⟨_, h⟩
    · exact .inr ⟨_, rfl⟩
  | cinUp _ ih => exact ih
  | isIn h _ h3 _ =>
    intro m hm; simp [Verif.kids] at hm
    rcases hm with rfl | rfl | rfl
    · exact .inl ⟨_, h⟩
    · exact .inr ⟨_, rfl⟩
    · exact .inl ⟨_, .val (.arr h3)⟩
  | cmpUp _ ih => exact ih
  | cmp h _ h3 _ _ =>
    intro m hm; simp [Verif.kids] at hm
    rcases hm with rfl | rfl | rfl
    · exact .inl ⟨_, h⟩
    · exact .inr ⟨_, rfl⟩
    · exact .inl ⟨_, h3⟩
  | negUp _ ih => exact ih
  | neg h _ => intro m hm; simp [Verif.kids] at hm; subst hm; exact .inl ⟨_, h⟩
  | logicUp _ ih => exact ih
  | logic h _ h3 _ _ =>
    intro m hm; simp [Verif.kids] at hm
    rcases hm with rfl | rfl | rfl
    · exact .inl ⟨_, h⟩
    · exact .inr ⟨_, rfl⟩
    · exact .inl ⟨_, h3⟩

theorem Shape.sub {lv n m} (h : Shape lv n) (hm : Sub m n) : (∃ lv, Shape lv m) ∨ ∃ o, m = .op o := by
  induction hm generalizing lv with
  | refl => exact .inl ⟨_, h⟩
  | step hk hs ih =>
    rcases h.kids _ hk with ⟨_, h'⟩ | ⟨o, rfl⟩
    · exact ih h'
    · cases hs with
      | refl => exact .inr ⟨o, rfl⟩
      | step hk _ => simp [Verif.kids] at hk

/-- Logic nodes occur only at the logic level. -/
theorem Shape.not_logic {lv n} (h : Shape lv n) : lv ≠ .logic → ∀ l' o' r', n ≠ .logic l' o' r' := by
  induction h with
  | val h =>
    intro _ l' o' r' e
    cases h with
    | lit h => cases h <;> cases e
    | arr _ => cases e
  | ident _ _ => intros; simp
  | ref _ _ => intros; simp
  | paren _ _ => intros; simp
  | func _ _ _ _ => intros; simp
  | btwUp _ ih => exact fun _ => ih (by simp)
  | btw _ _ _ _ _ => intros; simp
  | prdUp _ ih => exact fun _ => ih (by simp)
  | pred _ _ _ => intros; simp
  | cinUp _ ih => exact fun _ => ih (by simp)
  | isIn _ _ _ _ => intros; simp
  | cmpUp _ ih => exact fun _ => ih (by simp)
  | cmp _ _ _ _ _ => intros; simp
  | negUp _ ih => exact fun _ => ih (by simp)
  | neg _ _ => intros; simp
  | logicUp _ _ => exact fun h => absurd rfl h
  | logic _ _ _ _ _ => exact fun h => absurd rfl h

/-! ## Names -/

theorem Weave.append {s xs t ys} (h1 : Weave s xs) (h2 : Weave t ys) : Weave (s ++ t) (xs ++ ys) := by
  induction h1 with
  | nil => exact h2
  | gap hg _ ih => rw [List.append_assoc]; exact .gap hg ih
  | name hx _ ih => rw [List.append_assoc]; exact .name hx ih

theorem Weave.gap1 {g} (h : Gap g) : Weave g [] := by have := Weave.gap h .nil; rwa [List.append_nil] at this
theorem Weave.app0 {s t ys} (h1 : Weave s []) (h2 : Weave t ys) : Weave (s ++ t) ys := h1.append h2
theorem Weave.app1 {s t ys} (h1 : Weave s ys) (h2 : Weave t []) : Weave (s ++ t) ys := by have := h1.append h2; rwa [List.append_nil] at this
theorem Weave.ws {w} (h : WS w) : Weave w [] := .gap1 (.ws h)
theorem Weave.punct {c s xs} (hc : c ∈ c!"()[],.<>=!&|") (h : Weave s xs) : Weave (c :: s) xs := .gap (g := [c]) (.punct hc) h
theorem Weave.word {w u} (hw : w ∈ [c!"and", c!"or", c!"not", c!"in", c!"like", c!"gt", c!"lt", c!"gte", c!"lte", c!"eq", c!"neq", c!"is", c!"null", c!"true",
      c!"false", c!"between", c!"isnull", c!"notnull"]) (h : CI w u) : Weave u [] := .gap1 (.word hw h)

theorem namesL_lit {u ns} (h : LitItems u ns) : namesL ns = [] := by
  induction h with
  | one h => cases h <;> rfl
  | more _ _ _ h ih => rw [namesL_append, ih]; cases h <;> rfl

theorem names_val {u n} (h : Val u n) : names n = [] := by
  rcases h with h | h
  · cases h <;> rfl
  · cases h with
    | empty => rfl
    | items _ _ h => simp [names, namesL_lit h]

theorem LitItems.weave {u ns} (h : LitItems u ns) : Weave u [] := by
  induction h with
  | one h => exact .gap1 (.lit h)
  | more _ h1 h2 h3 ih => exact ih.app0 ((Weave.ws h1).app0 (.punct (by decide) ((Weave.ws h2).app0 (.gap1 (.lit h3)))))

theorem LitArr.weave {u n} (h : LitArr u n) : Weave u [] := by
  cases h with
  | @empty o c w hoc hw =>
    have : o ∈ c!"()[],.<>=!&|" ∧ c ∈ c!"()[],.<>=!&|" := by simp at hoc; rcases hoc with ⟨rfl, rfl⟩ | ⟨rfl, rfl⟩ <;> decide
    exact .punct this.1 ((Weave.ws hw).app0 (.punct this.2 .nil))
  | @items o c w u ns w1 t w2 hoc hw hi hw1 ht hw2 =>
    have : o ∈ c!"()[],.<>=!&|" ∧ c ∈ c!"()[],.<>=!&|" := by simp at hoc; rcases hoc with ⟨rfl, rfl⟩ | ⟨rfl, rfl⟩ <;> decide
    have htw : Weave t [] := by
      rcases ht with rfl | rfl
      · exact .nil
      · exact .punct (by decide) .nil
    exact .punct this.1 ((Weave.ws hw).app0 (hi.weave.app0 ((Weave.ws hw1).app0 (htw.app0 ((Weave.ws hw2).app0 (.punct this.2 .nil))))))

theorem Val.weave {u n} (h : Val u n) : Weave u [] := by
  rcases h with h | h
  · exact .gap1 (.lit h)
  · exact h.weave

theorem puncts {u : Str} (h : ∀ c ∈ u, c ∈ c!"()[],.<>=!&|") : Weave u [] := by
  induction u with
  | nil => exact .nil
  | cons c u ih => exact .punct (h c (by simp)) (ih fun x hx => h x (List.mem_cons_of_mem _ hx))

theorem CmpOp.weave {u o} (h : CmpOp u o) : Weave u [] := by
  cases h with
  | sym h =>
    refine puncts ?_
    simp at h
    rcases h with ⟨rfl, _⟩ | ⟨rfl, _⟩ | ⟨rfl, _⟩ | ⟨rfl, _⟩ | ⟨rfl, _⟩ | ⟨rfl, _⟩ | ⟨rfl, _⟩ | ⟨rfl, _⟩ <;> decide
  | word h hc =>
    refine .word ?_ hc
    simp at h
    rcases h with rfl | rfl | rfl | rfl | rfl | rfl | rfl <;> decide
  | notLike h1 h2 h3 => exact (Weave.word (w := c!"not") (by decide) h1).app0 ((Weave.ws h2.1).app0 (.word (w := c!"like") (by decide) h3))

theorem LogicOp.weave {u o} (h : LogicOp u o) : Weave u [] := by
  cases h with
  | word h hc => refine .word ?_ hc; simp at h; rcases h with rfl | rfl <;> decide
  | amp => exact puncts (by decide)
  | bar => exact puncts (by decide)

theorem InOp.weave {u o} (h : InOp u o) : Weave u [] := by
  cases h with
  | inn h => exact .word (w := c!"in") (by decide) h
  | notIn h1 h2 h3 => exact (Weave.word (w := c!"not") (by decide) h1).app0 ((Weave.ws h2.1).app0 (.word (w := c!"in") (by decide) h3))

theorem BetweenOp.weave {u o} (h : BetweenOp u o) : Weave u [] := by
  cases h with
  | btw => exact .word (w := c!"between") (by decide) (CI.refl _)
  | notBtw h1 h2 => exact (Weave.word (w := c!"not") (by decide) h1).app0 ((Weave.ws h2.1).app0 (.word (w := c!"between") (by decide) (CI.refl _)))

theorem MatchOp.weave {u o} (h : MatchOp u o) : Weave u [] := by
  have tfn : ∀ w, w ∈ [c!"null", c!"true", c!"false"] → Weave w [] := by
    intro w hw; refine .word (w := w) ?_ (CI.refl _); simp at hw; rcases hw with rfl | rfl | rfl <;> decide
  cases h with
  | isnull => exact .word (w := c!"isnull") (by decide) (CI.refl _)
  | notnull => exact .word (w := c!"notnull") (by decide) (CI.refl _)
  | is h1 h2 => exact (Weave.word (w := c!"is") (by decide) (CI.refl _)).app0 ((Weave.ws h1.1).app0 (tfn _ h2))
  | isNot h1 h2 h3 =>
    exact (Weave.word (w := c!"is") (by decide) (CI.refl _)).app0 ((Weave.ws h1.1).app0 ((Weave.word (w := c!"not") (by decide) (CI.refl _)).app0
      ((Weave.ws h2.1).app0 (tfn _ h3))))

theorem joinDots_weave : ∀ {l : List Str}, (∀ x ∈ l, IdText x) → Weave (joinDots l) l
  | [], _ => .nil
  | [a], h => by
    have := Weave.name (h a (by simp)) .nil
    rwa [List.append_nil] at this
  | a :: b :: l, h => .name (h a (by simp)) (.punct (by decide) (joinDots_weave fun x hx => h x (List.mem_cons_of_mem _ hx)))

theorem Rd.weave {l u n} (h : Rd l u n) : Weave u (names n) := by
  induction h with
  | val h => rw [names_val h]; exact h.weave
  | name h _ =>
    cases h with
    | ident hu => have := Weave.name hu .nil; rwa [List.append_nil] at this
    | ref hu => exact joinDots_weave hu
  | paren h1 _ h2 ih => exact .punct (by decide) ((Weave.ws h1).app0 (ih.app1 ((Weave.ws h2).app0 (.punct (by decide) .nil))))
  | func hf _ _ ih => exact .name hf (.punct (by decide) (ih.app1 (.punct (by decide) .nil)))
  | argOne _ ih => simpa [names, namesL] using ih
  | argMore _ h1 h2 _ ih1 ih2 =>
    have := ih1.append ((Weave.ws h1).app0 (.punct (c := ',') (by decide) ((Weave.ws h2).app0 ih2)))
    simpa [names, namesL_append, namesL] using this
  | argsNone h => exact Weave.ws h
  | argsSome h _ h1 ht h2 ih =>
    refine (Weave.ws h).app0 (ih.app1 ((Weave.ws h1).app0 (Weave.app0 ?_ (Weave.ws h2))))
    rcases ht with rfl | rfl
    · exact .nil
    · exact .punct (by decide) .nil
  | btwUp _ ih => exact ih
  | btwAnd _ h1 h2 h3 h4 h5 h6 h7 h8 ih =>
    simp only [names, names_val h4, names_val h8, List.append_nil]
    exact ih.app1 ((Weave.ws h1).app0 (h2.weave.app0 ((Weave.ws h3).app0 (h4.weave.app0 ((Weave.ws h5).app0
      ((Weave.word (w := c!"and") (by decide) h6).app0 ((Weave.ws h7).app0 h8.weave)))))))
  | btwArr _ h1 h2 h3 h3' h4 h5 h6 h7 h8 ih =>
    simp only [names, names_val h4, names_val h7, List.append_nil]
    exact ih.app1 ((Weave.ws h1).app0 (h2.weave.app0 ((Weave.ws h3).app0 (.punct (by decide) ((Weave.ws h3').app0 (h4.weave.app0 ((Weave.ws h5).app0
      (.punct (by decide) ((Weave.ws h6).app0 (h7.weave.app0 ((Weave.ws h8).app0 (.punct (by decide) .nil))))))))))))
  | prdUp _ ih => exact ih
  | pred _ h1 _ h2 h3 ih =>
    simp only [names, List.append_nil]
    exact ih.app1 ((Weave.ws h1).app0 (h2.weave.app0 (Weave.ws h3)))
  | cinUp _ ih => exact ih
  | isIn _ h1 h2 h3 h4 ih =>
    simp only [names, names_val (.inr h4), List.append_nil]
    exact ih.app1 ((Weave.ws h1).app0 (h2.weave.app0 ((Weave.ws h3).app0 h4.weave)))
  | cmpUp _ ih => exact ih
  | cmp _ h1 h2 h3 _ ih1 ih2 =>
    simp only [names, List.append_nil]
    exact ih1.append ((Weave.ws h1).app0 (h2.weave.app0 ((Weave.ws h3).app0 ih2)))
  | negUp _ ih => exact ih
  | neg h1 h2 h3 _ _ ih => exact (Weave.ws h1).app0 ((Weave.word (w := c!"not") (by decide) h2).app0 ((Weave.ws h3).app0 ih))
  | logicUp _ ih => exact ih
  | logic _ h1 h2 h3 _ ih1 ih2 =>
    simp only [names, List.append_nil]
    exact ih1.append ((Weave.ws h1).app0 (h2.weave.app0 ((Weave.ws h3).app0 ih2)))

end Verif
