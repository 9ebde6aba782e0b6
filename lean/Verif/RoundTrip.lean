import Verif.BuildThms
import Verif.PlainOps
import Verif.MsgThms
import Verif.Pieces

/-!
# When does a printed tree parse back to itself?

Counting arguments for `C07_round_trip_iff`: backslashes show that no string of the tree needed escaping, calls written in the text show that
no call was printed under the wrong name.
-/

namespace Verif

/-! ## Counts over a tree -/

mutual
/-- The sum of `f` over the strings of a tree, plus `k` for each call. -/
def tot (f : Str → Nat) (k : Nat) : Node → Nat
  | .str s => f s
  | .func _ ps => k + totL f k ps
  | .arr l => totL f k l
  | .pred l o => tot f k l + tot f k o
  | .cmp l o r => tot f k l + tot f k o + tot f k r
  | .logic l o r => tot f k l + tot f k o + tot f k r
  | .paren e => tot f k e
  | .not e => tot f k e
  | .between l o a b => tot f k l + tot f k o + tot f k a + tot f k b
  | _ => 0
/-- The same for a list of trees. -/
def totL (f : Str → Nat) (k : Nat) : List Node → Nat
  | [] => 0
  | n :: ns => tot f k n + totL f k ns
end

theorem totL_append (f : Str → Nat) (k : Nat) (a b : List Node) : totL f k (a ++ b) = totL f k a + totL f k b := by
  induction a with
  | nil => simp [totL]
  | cons n a ih => simp [totL, ih, Nat.add_assoc]

/-- Counts of a text which only grow when texts are put together. -/
def Super (f : Str → Nat) : Prop := ∀ u v, f u + f v ≤ f (u ++ v)

theorem Super.left {f} (h : Super f) (u v : Str) : f u ≤ f (u ++ v) := Nat.le_trans (Nat.le_add_right _ _) (h u v)
theorem Super.right {f} (h : Super f) (u v : Str) : f v ≤ f (u ++ v) := Nat.le_trans (Nat.le_add_left _ _) (h u v)
theorem Super.tail {f} (h : Super f) (c : Char) (v : Str) : f v ≤ f (c :: v) := h.right [c] v

/-! ## What the text of a query contains -/

theorem Lit.tot_le {f} (hf : Super f) {u n} (h : Lit u n) (k : Nat) : tot f k n ≤ f u := by
  cases h with
  | sq _ => exact Nat.le_trans (hf.left _ _) (hf.tail _ _)
  | dq _ => exact Nat.le_trans (hf.left _ _) (hf.tail _ _)
  | _ => exact Nat.zero_le _

theorem LitItems.tot_le {f} (hf : Super f) {u ns} (h : LitItems u ns) (k : Nat) : totL f k ns ≤ f u := by
  induction h with
  | one h => simpa [totL] using h.tot_le hf k
  | @more u ns w1 w2 v n _ _ _ hl ih =>
    rw [totL_append]
    have h1 := hl.tot_le hf k
    have h2 := hf u (w1 ++ ',' :: (w2 ++ v))
    have h3 := hf.right w1 (',' :: (w2 ++ v))
    have h4 := hf.tail ',' (w2 ++ v)
    have h5 := hf.right w2 v
    simp [totL]
    omega

theorem LitArr.tot_le {f} (hf : Super f) {u n} (h : LitArr u n) (k : Nat) : tot f k n ≤ f u := by
  cases h with
  | empty _ _ => exact Nat.zero_le _
  | @items o c w u ns w1 t w2 _ _ hi _ _ _ =>
    refine Nat.le_trans (hi.tot_le hf k) (Nat.le_trans ?_ (hf.tail _ _))
    exact Nat.le_trans (hf.left _ _) (hf.right _ _)

theorem Val.tot_le {f} (hf : Super f) {u n} (h : Val u n) (k : Nat) : tot f k n ≤ f u := by
  rcases h with h | h
  · exact h.tot_le hf k
  · exact h.tot_le hf k

/-- Everything counted in the tree is counted in the text, if a call is worth `k` in it. -/
theorem Rd.tot_le {f k} (hf : Super f) (hc : ∀ g u, IdText g → k + f ('(' :: u) ≤ f (g ++ '(' :: u)) {l u n} (h : Rd l u n) : tot f k n ≤ f u := by
  induction h with
  | val h => exact h.tot_le hf k
  | name h _ => cases h <;> exact Nat.zero_le _
  | @paren w1 u w2 n _ _ _ ih =>
    refine Nat.le_trans ih (Nat.le_trans ?_ (hf.tail _ _))
    exact Nat.le_trans (hf.left _ _) (hf.right _ _)
  | @func g u ns hg _ _ ih =>
    have h1 := hc g (u ++ c!")") hg
    have h2 := hf.tail '(' (u ++ c!")")
    have h3 := hf.left u c!")"
    simp only [tot] at ih ⊢
    omega
  | argOne _ ih => simpa [tot, totL] using ih
  | @argMore u ns w1 w2 v n _ _ _ _ ih1 ih2 =>
    simp only [tot, totL_append, totL] at ih1 ⊢
    have h2 := hf u (w1 ++ ',' :: (w2 ++ v))
    have h3 := hf.right w1 (',' :: (w2 ++ v))
    have h4 := hf.tail ',' (w2 ++ v)
    have h5 := hf.right w2 v
    omega
  | argsNone _ => exact Nat.zero_le _
  | argsSome _ _ _ _ _ ih => exact Nat.le_trans ih (Nat.le_trans (hf.left _ _) (hf.right _ _))
  | btwUp _ ih => exact ih
  | @btwAnd u l w1 ob o w2 a lo w3 kw w4 b hi _ _ _ _ ha _ _ _ hb ih =>
    have h1 := ha.tot_le hf k
    have h2 := hb.tot_le hf k
    have a1 := hf u (w1 ++ (ob ++ (w2 ++ (a ++ (w3 ++ (kw ++ (w4 ++ b)))))))
    have a2 := hf.right w1 (ob ++ (w2 ++ (a ++ (w3 ++ (kw ++ (w4 ++ b))))))
    have a3 := hf.right ob (w2 ++ (a ++ (w3 ++ (kw ++ (w4 ++ b)))))
    have a4 := hf.right w2 (a ++ (w3 ++ (kw ++ (w4 ++ b))))
    have a5 := hf a (w3 ++ (kw ++ (w4 ++ b)))
    have a6 := hf.right w3 (kw ++ (w4 ++ b))
    have a7 := hf.right kw (w4 ++ b)
    have a8 := hf.right w4 b
    simp only [tot]
    omega
  | @btwArr u l w1 ob o w2 w3 a lo w4 w5 b hi w6 _ _ _ _ _ ha _ _ hb _ ih =>
    have h1 := ha.tot_le hf k
    have h2 := hb.tot_le hf k
    have a1 := hf u (w1 ++ (ob ++ (w2 ++ '[' :: (w3 ++ (a ++ (w4 ++ ',' :: (w5 ++ (b ++ (w6 ++ c!"]")))))))))
    have a2 := hf.right w1 (ob ++ (w2 ++ '[' :: (w3 ++ (a ++ (w4 ++ ',' :: (w5 ++ (b ++ (w6 ++ c!"]"))))))))
    have a3 := hf.right ob (w2 ++ '[' :: (w3 ++ (a ++ (w4 ++ ',' :: (w5 ++ (b ++ (w6 ++ c!"]")))))))
    have a4 := hf.right w2 ('[' :: (w3 ++ (a ++ (w4 ++ ',' :: (w5 ++ (b ++ (w6 ++ c!"]")))))))
    have a5 := hf.tail '[' (w3 ++ (a ++ (w4 ++ ',' :: (w5 ++ (b ++ (w6 ++ c!"]"))))))
    have a6 := hf.right w3 (a ++ (w4 ++ ',' :: (w5 ++ (b ++ (w6 ++ c!"]")))))
    have a7 := hf a (w4 ++ ',' :: (w5 ++ (b ++ (w6 ++ c!"]"))))
    have a8 := hf.right w4 (',' :: (w5 ++ (b ++ (w6 ++ c!"]"))))
    have a9 := hf.tail ',' (w5 ++ (b ++ (w6 ++ c!"]")))
    have a10 := hf.right w5 (b ++ (w6 ++ c!"]"))
    have a11 := hf.left b (w6 ++ c!"]")
    simp only [tot]
    omega
  | prdUp _ ih => exact ih
  | pred _ _ _ _ _ ih => exact Nat.le_trans ih (hf.left _ _)
  | cinUp _ ih => exact ih
  | @isIn u l w1 ob o w2 a n _ _ _ _ ha ih =>
    have h1 := ha.tot_le hf k
    have a1 := hf u (w1 ++ (ob ++ (w2 ++ a)))
    have a2 := hf.right w1 (ob ++ (w2 ++ a))
    have a3 := hf.right ob (w2 ++ a)
    have a4 := hf.right w2 a
    simp only [tot]
    omega
  | cmpUp _ ih => exact ih
  | @cmp u l w1 ob o w2 v r _ _ _ _ _ ih1 ih2 =>
    have a1 := hf u (w1 ++ (ob ++ (w2 ++ v)))
    have a2 := hf.right w1 (ob ++ (w2 ++ v))
    have a3 := hf.right ob (w2 ++ v)
    have a4 := hf.right w2 v
    simp only [tot]
    omega
  | negUp _ ih => exact ih
  | neg _ _ _ _ _ ih => exact Nat.le_trans ih (Nat.le_trans (hf.right _ _) (Nat.le_trans (hf.right _ _) (hf.right _ _)))
  | logicUp _ ih => exact ih
  | @logic u l w1 ob o w2 v r _ _ _ _ _ ih1 ih2 =>
    have a1 := hf u (w1 ++ (ob ++ (w2 ++ v)))
    have a2 := hf.right w1 (ob ++ (w2 ++ v))
    have a3 := hf.right ob (w2 ++ v)
    have a4 := hf.right w2 v
    simp only [tot]
    omega

/-! ## Backslashes -/

/-- The number of backslashes. -/
def slashes (s : Str) : Nat := s.count '\\'

theorem slashes_append (u v : Str) : slashes (u ++ v) = slashes u + slashes v := List.count_append
theorem slashes_cons {c : Char} (h : c ≠ '\\') (v : Str) : slashes (c :: v) = slashes v := by
  simp [slashes, h]
theorem slashes_zero {u : Str} (h : '\\' ∉ u) : slashes u = 0 := List.count_eq_zero.mpr h

/-- No line ends: the text contains no complete comment. -/
def NoEol (u : Str) : Prop := ∀ c ∈ u, c ≠ '\n' ∧ c ≠ '\r'

theorem NoEol.left {u v : Str} (h : NoEol (u ++ v)) : NoEol u := fun c hc => h c (List.mem_append_left _ hc)
theorem NoEol.right {u v : Str} (h : NoEol (u ++ v)) : NoEol v := fun c hc => h c (List.mem_append_right _ hc)
theorem NoEol.tail {c : Char} {v : Str} (h : NoEol (c :: v)) : NoEol v := fun d hd => h d (List.mem_cons_of_mem _ hd)

theorem WS.flatBlanks {u} (h : WS u) : NoEol u → ∀ c ∈ u, c ∈ blanks := by
  induction h with
  | nil => intro _ c hc; cases hc
  | blank hb _ ih =>
    intro hf c hc
    rcases List.mem_cons.mp hc with rfl | hc
    · exact hb
    · exact ih hf.tail c hc
  | comment _ _ he _ _ =>
    intro hf
    have := hf.right.right _ (List.mem_cons_self)
    rcases he with rfl | rfl
    · exact absurd rfl this.1
    · exact absurd rfl this.2

theorem WS.slashes0 {u} (h : WS u) (hf : NoEol u) : slashes u = 0 :=
  slashes_zero fun hm => absurd (h.flatBlanks hf _ hm) (by decide)

theorem Sep.one {u m} (h : Sep u m) (hf : NoEol u) : m = c!" " := h.blank (h.1.flatBlanks hf)

theorem CI.slashes0 {w u} (hw : LowerWord w) (h : CI w u) : slashes u = 0 :=
  slashes_zero fun hm => by
    have := letter_toNat (h.mem hw _ hm)
    revert this
    decide

theorem CmpOp.slashes0 {u o} (h : CmpOp u o) (hf : NoEol u) : slashes u = 0 ∧ o ∈ opNames := by
  cases h with
  | sym h =>
    simp only [List.mem_cons, Prod.mk.injEq, List.not_mem_nil, or_false] at h
    rcases h with ⟨rfl, rfl⟩ | ⟨rfl, rfl⟩ | ⟨rfl, rfl⟩ | ⟨rfl, rfl⟩ | ⟨rfl, rfl⟩ | ⟨rfl, rfl⟩ | ⟨rfl, rfl⟩ | ⟨rfl, rfl⟩ <;> decide
  | word h hc =>
    simp only [List.mem_cons, List.not_mem_nil, or_false] at h
    rcases h with rfl | rfl | rfl | rfl | rfl | rfl | rfl <;> exact ⟨hc.slashes0 (by decide), by decide⟩
  | notLike h1 hs h2 =>
    rw [slashes_append, slashes_append, h1.slashes0 (by decide), h2.slashes0 (by decide), hs.1.slashes0 hf.right.left, hs.one hf.right.left]
    decide

theorem LogicOp.slashes0 {u o} (h : LogicOp u o) : slashes u = 0 ∧ o ∈ opNames := by
  refine ⟨?_, h.plain⟩
  cases h with
  | word h hc =>
    simp only [List.mem_cons, List.not_mem_nil, or_false] at h
    rcases h with rfl | rfl <;> exact hc.slashes0 (by decide)
  | amp => decide
  | bar => decide

theorem InOp.slashes0 {u o} (h : InOp u o) (hf : NoEol u) : slashes u = 0 ∧ o ∈ opNames := by
  cases h with
  | inn h => exact ⟨h.slashes0 (by decide), by decide⟩
  | notIn h1 hs h2 =>
    rw [slashes_append, slashes_append, h1.slashes0 (by decide), h2.slashes0 (by decide), hs.1.slashes0 hf.right.left, hs.one hf.right.left]
    decide

theorem BetweenOp.slashes0 {u o} (h : BetweenOp u o) (hf : NoEol u) : slashes u = 0 ∧ o ∈ opNames := by
  cases h with
  | btw => decide
  | notBtw h1 hs =>
    rw [slashes_append, slashes_append, h1.slashes0 (by decide), hs.1.slashes0 hf.right.left, hs.one hf.right.left]
    decide

theorem MatchOp.slashes0 {u o} (h : MatchOp u o) (hf : NoEol u) : slashes u = 0 ∧ o ∈ opNames := by
  cases h with
  | isnull => decide
  | notnull => decide
  | is hs hw =>
    rw [slashes_append, slashes_append, hs.1.slashes0 hf.right.left, hs.one hf.right.left]
    simp only [List.mem_cons, List.not_mem_nil, or_false] at hw
    rcases hw with rfl | rfl | rfl <;> decide
  | isNot hs hs' hw =>
    rw [slashes_append, slashes_append, slashes_append, slashes_append, hs.1.slashes0 hf.right.left, hs.one hf.right.left,
      hs'.1.slashes0 hf.right.right.right.left, hs'.one hf.right.right.right.left]
    simp only [List.mem_cons, List.not_mem_nil, or_false] at hw
    rcases hw with rfl | rfl | rfl <;> decide

theorem idText_noSlash {u : Str} (h : IdText u) : slashes u = 0 := by
  obtain ⟨⟨c, t, rfl, hc, ht⟩, _⟩ := h
  refine slashes_zero fun hm => ?_
  have key : ¬ IdTail '\\' := by unfold IdTail IdHead; decide
  rcases List.mem_cons.mp hm with e | hm
  · exact key (e ▸ .inl hc)
  · exact key (ht _ hm)

theorem joinDots_noSlash : ∀ {l : List Str}, (∀ x ∈ l, IdText x) → slashes (joinDots l) = 0
  | [], _ => rfl
  | [a], h => idText_noSlash (h a (by simp))
  | a :: b :: l, h => by
    show slashes (a ++ '.' :: joinDots (b :: l)) = 0
    rw [slashes_append, slashes_cons (by decide), idText_noSlash (h a (by simp)), joinDots_noSlash fun x hx => h x (List.mem_cons_of_mem _ hx)]

theorem digits_noSlash (k : Nat) : slashes (Nat.toDigits 10 k) = 0 := by
  refine slashes_zero fun hm => ?_
  have := (Nat.isDigit_of_mem_toDigits (by decide) (by decide) hm)
  exact absurd this (by decide)

theorem Lit.slashes_le {u n} (h : Lit u n) : slashes u ≤ tot slashes 0 n := by
  cases h with
  | int _ => rw [digits_noSlash]; exact Nat.zero_le _
  | tru h => rcases h with rfl | rfl <;> decide
  | fls h => rcases h with rfl | rfl <;> decide
  | null h => rcases h with rfl | rfl <;> decide
  | sq _ => rw [slashes_cons (by decide), slashes_append]; exact Nat.le_refl _
  | dq _ => rw [slashes_cons (by decide), slashes_append]; exact Nat.le_refl _

theorem LitItems.slashes_le {u ns} (h : LitItems u ns) : NoEol u → slashes u ≤ totL slashes 0 ns := by
  induction h with
  | one h => intro _; simpa [totL] using h.slashes_le
  | @more u ns w1 w2 v n _ h1 h2 hl ih =>
    intro hf
    have hr := hf.right.right.tail
    rw [totL_append, slashes_append, slashes_append, slashes_cons (by decide), slashes_append, h1.slashes0 hf.right.left, h2.slashes0 hr.left]
    have := ih hf.left
    have := hl.slashes_le
    simp [totL]
    omega

theorem LitArr.slashes_le {u n} (h : LitArr u n) (hf : NoEol u) : slashes u ≤ tot slashes 0 n := by
  have op : ∀ {o c : Char}, (o, c) ∈ [('[', ']'), ('(', ')')] → o ≠ '\\' ∧ c ≠ '\\' := by
    intro o c h
    simp at h
    rcases h with ⟨rfl, rfl⟩ | ⟨rfl, rfl⟩ <;> decide
  cases h with
  | empty ho hw =>
    have ho := op ho
    rw [slashes_cons ho.1, slashes_append, hw.slashes0 hf.tail.left, slashes_cons ho.2]
    exact Nat.zero_le _
  | @items o c w u ns w1 t w2 ho h1 hi h2 ht h3 =>
    have ho := op ho
    have f1 := hf.tail
    have ht0 : slashes t = 0 := by rcases ht with rfl | rfl <;> rfl
    rw [slashes_cons ho.1, slashes_append, slashes_append, slashes_append, slashes_append, slashes_append, h1.slashes0 f1.left,
      h2.slashes0 f1.right.right.left, h3.slashes0 f1.right.right.right.right.left, ht0, slashes_cons ho.2]
    have := hi.slashes_le f1.right.left
    simp [tot, slashes]
    simpa [slashes] using this

theorem Val.slashes_le {u n} (h : Val u n) (hf : NoEol u) : slashes u ≤ tot slashes 0 n := by
  rcases h with h | h
  · exact h.slashes_le
  · exact h.slashes_le hf

/-- Without line ends all backslashes of the text are in the strings of the tree. -/
theorem Rd.slashes_le {l u n} (h : Rd l u n) : NoEol u → slashes u ≤ tot slashes 0 n ∧ Plain1 n := by
  have s1 : ∀ {c : Char} {v : Str}, c ≠ '\\' → slashes (c :: v) = slashes v := fun h => slashes_cons h _
  induction h with
  | val h => exact fun hf => ⟨h.slashes_le hf, h.shape.plain⟩
  | name h _ =>
    intro _
    cases h with
    | ident h => rw [idText_noSlash h]; exact ⟨Nat.zero_le _, .of_kids nofun (by simp [kids])⟩
    | ref h => rw [joinDots_noSlash h]; exact ⟨Nat.zero_le _, .of_kids nofun (by simp [kids])⟩
  | paren h1 _ h2 ih =>
    intro hf
    have f := hf.tail
    obtain ⟨i1, i2⟩ := ih f.right.left
    rw [s1 (by decide), slashes_append, slashes_append, slashes_append, h1.slashes0 f.left, h2.slashes0 f.right.right.left]
    refine ⟨?_, .of_kids nofun (by simpa [kids] using i2)⟩
    simpa [tot, slashes] using i1
  | func hg _ _ ih =>
    intro hf
    obtain ⟨i1, i2⟩ := ih hf.right.tail.left
    rw [slashes_append, s1 (by decide), slashes_append, idText_noSlash hg]
    refine ⟨?_, .of_kids nofun fun k hk o ho => i2 o (.step hk ho)⟩
    simpa [tot, slashes] using i1
  | argOne _ ih =>
    intro hf
    obtain ⟨i1, i2⟩ := ih hf
    exact ⟨by simpa [tot, totL] using i1, .of_kids nofun (by simpa [kids] using i2)⟩
  | argMore _ h1 h2 _ ih1 ih2 =>
    intro hf
    have f := hf.right.right.tail
    obtain ⟨i1, i2⟩ := ih1 hf.left
    obtain ⟨j1, j2⟩ := ih2 f.right
    rw [slashes_append, slashes_append, s1 (by decide), slashes_append, h1.slashes0 hf.right.left, h2.slashes0 f.left]
    constructor
    · simp only [tot, totL_append, totL] at i1 ⊢; omega
    · refine .of_kids nofun fun k hk => ?_
      rcases List.mem_append.mp hk with hk | hk
      · exact fun o ho => i2 o (.step hk ho)
      · rw [List.mem_singleton.mp hk]; exact j2
  | argsNone h => intro hf; rw [h.slashes0 hf]; exact ⟨Nat.zero_le _, .of_kids nofun (by simp [kids])⟩
  | argsSome h _ h1 ht h2 ih =>
    intro hf
    obtain ⟨i1, i2⟩ := ih hf.right.left
    rw [slashes_append, slashes_append, slashes_append, slashes_append, h.slashes0 hf.left, h1.slashes0 hf.right.right.left,
      h2.slashes0 hf.right.right.right.right]
    refine ⟨?_, i2⟩
    rcases ht with rfl | rfl
    · simpa [slashes] using i1
    · simpa [slashes] using i1
  | btwUp _ ih => exact ih
  | btwAnd _ h1 ho h2 ha h3 hk h4 hb ih =>
    intro hf
    obtain ⟨i1, i2⟩ := ih hf.left
    have f := hf.right
    obtain ⟨o1, o2⟩ := ho.slashes0 f.right.left
    have a := ha.slashes_le f.right.right.right.left
    have b := hb.slashes_le f.right.right.right.right.right.right.right
    simp only [slashes_append, h1.slashes0 f.left, o1, h2.slashes0 f.right.right.left, h3.slashes0 f.right.right.right.right.left,
      hk.slashes0 (by decide : LowerWord c!"and" = true), h4.slashes0 f.right.right.right.right.right.right.left]
    refine ⟨by simp only [tot]; omega, .of_kids nofun ?_⟩
    simp only [kids, List.mem_cons, List.not_mem_nil, or_false, forall_eq_or_imp, forall_eq]
    exact ⟨i2, .op o2, ha.shape.plain, hb.shape.plain⟩
  | btwArr _ h1 ho h2 h3 ha h4 h5 hb h6 ih =>
    intro hf
    obtain ⟨i1, i2⟩ := ih hf.left
    have f := hf.right
    obtain ⟨o1, o2⟩ := ho.slashes0 f.right.left
    have g := f.right.right.right.tail
    have g' := g.right.right.right.tail
    have a := ha.slashes_le g.right.left
    have b := hb.slashes_le g'.right.left
    have e : slashes c!"]" = 0 := rfl
    simp only [slashes_append, s1 (by decide : '[' ≠ '\\'), s1 (by decide : ',' ≠ '\\'), h1.slashes0 f.left, o1, h2.slashes0 f.right.right.left,
      h3.slashes0 g.left, h4.slashes0 g.right.right.left, h5.slashes0 g'.left, h6.slashes0 g'.right.right.left, e]
    refine ⟨by simp only [tot]; omega, .of_kids nofun ?_⟩
    simp only [kids, List.mem_cons, List.not_mem_nil, or_false, forall_eq_or_imp, forall_eq]
    exact ⟨i2, .op o2, ha.shape.plain, hb.shape.plain⟩
  | prdUp _ ih => exact ih
  | pred _ h1 _ ho h2 ih =>
    intro hf
    obtain ⟨i1, i2⟩ := ih hf.left
    have f := hf.right
    obtain ⟨o1, o2⟩ := ho.slashes0 f.right.left
    simp only [slashes_append, h1.slashes0 f.left, o1, h2.slashes0 f.right.right]
    refine ⟨by simp only [tot]; omega, .of_kids nofun ?_⟩
    simp only [kids, List.mem_cons, List.not_mem_nil, or_false, forall_eq_or_imp, forall_eq]
    exact ⟨i2, .op o2⟩
  | cinUp _ ih => exact ih
  | isIn _ h1 ho h2 ha ih =>
    intro hf
    obtain ⟨i1, i2⟩ := ih hf.left
    have f := hf.right
    obtain ⟨o1, o2⟩ := ho.slashes0 f.right.left
    have a := ha.slashes_le f.right.right.right
    simp only [slashes_append, h1.slashes0 f.left, o1, h2.slashes0 f.right.right.left]
    refine ⟨by simp only [tot]; omega, .of_kids nofun ?_⟩
    simp only [kids, List.mem_cons, List.not_mem_nil, or_false, forall_eq_or_imp, forall_eq]
    exact ⟨i2, .op o2, (Val.shape (.inr ha)).plain⟩
  | cmpUp _ ih => exact ih
  | cmp _ h1 ho h2 _ ih1 ih2 =>
    intro hf
    obtain ⟨i1, i2⟩ := ih1 hf.left
    have f := hf.right
    obtain ⟨o1, o2⟩ := ho.slashes0 f.right.left
    obtain ⟨j1, j2⟩ := ih2 f.right.right.right
    simp only [slashes_append, h1.slashes0 f.left, o1, h2.slashes0 f.right.right.left]
    refine ⟨by simp only [tot]; omega, .of_kids nofun ?_⟩
    simp only [kids, List.mem_cons, List.not_mem_nil, or_false, forall_eq_or_imp, forall_eq]
    exact ⟨i2, .op o2, j2⟩
  | negUp _ ih => exact ih
  | neg h1 hk h2 _ _ ih =>
    intro hf
    obtain ⟨i1, i2⟩ := ih hf.right.right.right
    simp only [slashes_append, h1.slashes0 hf.left, hk.slashes0 (by decide : LowerWord c!"not" = true), h2.slashes0 hf.right.right.left]
    exact ⟨by simp only [tot]; omega, .of_kids nofun (by simpa [kids] using i2)⟩
  | logicUp _ ih => exact ih
  | logic _ h1 ho h2 _ ih1 ih2 =>
    intro hf
    obtain ⟨i1, i2⟩ := ih1 hf.left
    have f := hf.right
    obtain ⟨o1, o2⟩ := ho.slashes0
    obtain ⟨j1, j2⟩ := ih2 f.right.right.right
    simp only [slashes_append, h1.slashes0 f.left, o1, h2.slashes0 f.right.right.left]
    refine ⟨by simp only [tot]; omega, .of_kids nofun ?_⟩
    simp only [kids, List.mem_cons, List.not_mem_nil, or_false, forall_eq_or_imp, forall_eq]
    exact ⟨i2, .op o2, j2⟩

/-! ## Adjacent characters -/

/-- The number of places where a character `z` follows one satisfying `p`. -/
def pairs (p : Char → Bool) (z : Char) : Str → Nat
  | [] => 0
  | c :: s => (if p c && s.head? == some z then 1 else 0) + pairs p z s

theorem pairs_super (p : Char → Bool) (z : Char) : Super (pairs p z) := by
  intro u v
  induction u with
  | nil => simp [pairs]
  | cons c u ih =>
    simp only [List.cons_append, pairs]
    have : (if (p c && u.head? == some z) = true then 1 else 0) ≤ (if (p c && (u ++ v).head? == some z) = true then 1 else 0) := by
      cases u with
      | nil => simp
      | cons d u => simp
    omega

theorem pairs_append {p : Char → Bool} {z : Char} (u : Str) {v : Str} (h : v.head? ≠ some z) : pairs p z (u ++ v) = pairs p z u + pairs p z v := by
  induction u with
  | nil => simp [pairs]
  | cons c u ih =>
    simp only [List.cons_append, pairs, ih]
    cases u with
    | nil => simp [h]
    | cons d u => simp [Nat.add_assoc]

theorem pairs_cons {p : Char → Bool} {z c : Char} (h : p c = false) (v : Str) : pairs p z (c :: v) = pairs p z v := by simp [pairs, h]

theorem pairs_zero {p : Char → Bool} {z : Char} : ∀ {u : Str}, z ∉ u → pairs p z u = 0
  | [], _ => rfl
  | c :: u, h => by
    rw [pairs, pairs_zero fun hm => h (List.mem_cons_of_mem _ hm)]
    cases u with
    | nil => simp
    | cons d u =>
      have : d ≠ z := fun e => h (by simp [e])
      simp [this]

theorem pairs_infix {p : Char → Bool} {z : Char} {u v : Str} (h : u <:+: v) (hv : pairs p z v = 0) : pairs p z u = 0 := by
  obtain ⟨a, b, rfl⟩ := h
  have h1 := (pairs_super p z).left (a ++ u) b
  have h2 := (pairs_super p z).right a u
  omega

/-! ## What the printed text consists of -/

theorem cat_parts {a b : Option Str} {t : Str} (h : cat a b = some t) : ∃ x y, a = some x ∧ b = some y ∧ t = x ++ y := by
  cases a with
  | none => cases h
  | some x =>
    cases b with
    | none => cases h
    | some y => exact ⟨x, y, rfl, rfl, (Option.some.inj h).symm⟩

/-- A relation between trees and texts that holds of the printed text if it holds of the parts. -/
structure Built (P : Char → Bool) (root : Str) (R : Node → Str → Prop) : Prop where
  lit : ∀ {n t}, LitShape n → (∀ s, n ≠ .str s) → buildN P root n = some t → R n t
  str : ∀ s, R (.str s) (quote P s)
  ident : ∀ {x}, IdText x → R (.ident x) x
  ref : ∀ {l}, (∀ x ∈ l, IdText x) → R (.ref l) (joinDots l)
  paren : ∀ {n t}, R n t → R (.paren n) ('(' :: (t ++ c!")"))
  not : ∀ {n t}, R n t → R (.not n) (c!"not " ++ t)
  arr : ∀ {ns t}, R (.arr ns) t → R (.arr ns) ('[' :: (t ++ c!"]"))
  none : R (.arr []) []
  one : ∀ {n t}, R n t → R (.arr [n]) t
  more : ∀ {n t m l u}, R n t → R (.arr (m :: l)) u → R (.arr (n :: m :: l)) (t ++ ',' :: u)
  func : ∀ {f ns t}, R (.arr ns) t → R (.func f ns) (root ++ '(' :: (t ++ c!")"))
  pred : ∀ {l o t v}, R l t → R o v → R (.pred l o) (t ++ ' ' :: v)
  cmp : ∀ {l o r t v u}, R l t → R o v → R r u → R (.cmp l o r) (t ++ ' ' :: (v ++ ' ' :: u))
  logic : ∀ {l o r t v u}, R l t → R o v → R r u → R (.logic l o r) (t ++ ' ' :: (v ++ ' ' :: u))
  between : ∀ {l o a b t v x y}, R l t → R o v → R a x → R b y → R (.between l o a b) (t ++ ' ' :: (v ++ ' ' :: (x ++ (c!" and " ++ y))))

section
variable {P : Char → Bool} {root : Str} {R : Node → Str → Prop} (hR : Built P root R)
include hR

theorem Built.list : ∀ {ns : List Node} {t}, (∀ n ∈ ns, ∀ t, buildN P root n = some t → R n t) → buildL P root ns = some t → R (.arr ns) t
  | [], t, _, h => by simp [buildL] at h; subst h; exact hR.none
  | [n], t, hn, h => hR.one (hn n (by simp) t (by simpa [buildL] using h))
  | n :: m :: l, t, hn, h => by
    rw [buildL] at h
    obtain ⟨x, y, h1, h2, rfl⟩ := cat_parts h
    obtain ⟨x', y', h3, h4, rfl⟩ := cat_parts h2
    cases h3
    exact hR.more (hn n (by simp) x h1) (Built.list (fun k hk => hn k (List.mem_cons_of_mem _ hk)) h4)

theorem Built.litShape {n t} (h : LitShape n) (ht : buildN P root n = some t) : R n t := by
  cases h with
  | str => simp [buildN] at ht; subst ht; exact hR.str _
  | int h => exact hR.lit (.int h) nofun ht
  | bool => exact hR.lit .bool nofun ht
  | null => exact hR.lit .null nofun ht

theorem Built.arrShape {ns t} (h : ∀ n ∈ ns, LitShape n) (ht : buildN P root (.arr ns) = some t) : R (.arr ns) t := by
  rw [buildN] at ht
  obtain ⟨x, y, h1, h2, rfl⟩ := cat_parts ht
  obtain ⟨x', y', h3, h4, rfl⟩ := cat_parts h2
  cases h1; cases h4
  exact hR.arr (hR.list (fun n hn t ht => hR.litShape (h n hn) ht) h3)

theorem Built.valShape {n t} (h : ValShape n) (ht : buildN P root n = some t) : R n t := by
  cases h with
  | lit h => exact hR.litShape h ht
  | arr h => exact hR.arrShape h ht

/-- The relation holds of the whole tree, if it holds of its operators. -/
theorem Built.shape {lv n} (h : Shape lv n) : ∀ t, (∀ o, Sub (.op o) n → R (.op o) (printPretty o)) → buildN P root n = some t → R n t := by
  have bin : ∀ {l o r t}, cat (buildN P root l) (cat (some c!" ") (cat (buildN P root (.op o)) (cat (some c!" ") (buildN P root r)))) = some t →
      ∃ x y, buildN P root l = some x ∧ buildN P root r = some y ∧ t = x ++ ' ' :: (printPretty o ++ ' ' :: y) := by
    intro l o r t h
    obtain ⟨x, y, h1, h2, rfl⟩ := cat_parts h
    obtain ⟨x', y', h3, h4, rfl⟩ := cat_parts h2
    obtain ⟨x'', y'', h5, h6, rfl⟩ := cat_parts h4
    cases h3
    simp [buildN] at h5
    subst h5
    obtain ⟨z, w, h7, h8, rfl⟩ := cat_parts h6
    cases h7
    exact ⟨x, w, h1, h8, rfl⟩
  have nn : ∀ {lv n}, Shape lv n → n ≠ .nil := by
    intro lv n h
    induction h with
    | val h => cases h with | lit h => cases h <;> exact nofun | arr => exact nofun
    | btwUp _ ih => exact ih
    | prdUp _ ih => exact ih
    | cinUp _ ih => exact ih
    | cmpUp _ ih => exact ih
    | negUp _ ih => exact ih
    | logicUp _ ih => exact ih
    | _ => exact nofun
  induction h with
  | val h => exact fun t _ ht => hR.valShape h ht
  | ident h _ => intro t _ ht; simp [buildN] at ht; subst ht; exact hR.ident h
  | ref h _ => intro t _ ht; simp only [buildN, Option.some.injEq] at ht; subst ht; rw [goJoinDots_eq]; exact hR.ref h
  | paren _ ih =>
    intro t ho ht
    rw [buildN] at ht
    obtain ⟨x, y, h1, h2, rfl⟩ := cat_parts ht
    obtain ⟨x', y', h3, h4, rfl⟩ := cat_parts h2
    cases h1; cases h4
    exact hR.paren (ih x' (fun o h => ho o (.step (by simp [kids]) h)) h3)
  | func _ _ _ ih =>
    intro t ho ht
    rw [buildN] at ht
    obtain ⟨x, y, h1, h2, rfl⟩ := cat_parts ht
    obtain ⟨x', y', h3, h4, rfl⟩ := cat_parts h2
    cases h1; cases h4
    have := hR.list (fun k hk t ht => ih k hk t (fun o h => ho o (.step hk h)) ht) h3
    simpa using hR.func this
  | btwUp _ ih => exact ih
  | btw _ _ ha hb ih =>
    intro t ho ht
    rw [buildN] at ht
    obtain ⟨x, y, h1, h2, rfl⟩ := cat_parts ht
    obtain ⟨x1, y1, e1, h3, rfl⟩ := cat_parts h2
    obtain ⟨x2, y2, e2, h4, rfl⟩ := cat_parts h3
    obtain ⟨x3, y3, e3, h5, rfl⟩ := cat_parts h4
    obtain ⟨x4, y4, e4, h6, rfl⟩ := cat_parts h5
    obtain ⟨x5, y5, e5, h7, rfl⟩ := cat_parts h6
    cases e1; cases e3; cases e5
    simp [buildN] at e2
    subst e2
    exact hR.between (ih x (fun o h => ho o (.step (by simp [kids]) h)) h1) (ho _ (.step (k := .op _) (by simp [kids]) .refl)) (hR.valShape ha e4) (hR.valShape hb h7)
  | prdUp _ ih => exact ih
  | pred _ _ ih =>
    intro t ho ht
    rw [buildN] at ht
    obtain ⟨x, y, h1, h2, rfl⟩ := cat_parts ht
    obtain ⟨x1, y1, e1, h3, rfl⟩ := cat_parts h2
    cases e1
    simp [buildN] at h3
    subst h3
    exact hR.pred (ih x (fun o h => ho o (.step (by simp [kids]) h)) h1) (ho _ (.step (k := .op _) (by simp [kids]) .refl))
  | cinUp _ ih => exact ih
  | isIn _ _ hl ih =>
    intro t ho ht
    rw [buildN] at ht; case x_1 => exact nofun
    obtain ⟨x, y, h1, h2, rfl⟩ := bin ht
    exact hR.cmp (ih x (fun o h => ho o (.step (by simp [kids]) h)) h1) (ho _ (.step (k := .op _) (by simp [kids]) .refl)) (hR.arrShape hl h2)
  | cmpUp _ ih => exact ih
  | cmp _ _ hr ih1 ih2 =>
    intro t ho ht
    rw [buildN] at ht; case x_1 => exact nn hr
    obtain ⟨x, y, h1, h2, rfl⟩ := bin ht
    exact hR.cmp (ih1 x (fun o h => ho o (.step (by simp [kids]) h)) h1) (ho _ (.step (k := .op _) (by simp [kids]) .refl))
      (ih2 y (fun o h => ho o (.step (by simp [kids]) h)) h2)
  | negUp _ ih => exact ih
  | neg _ ih =>
    intro t ho ht
    rw [buildN] at ht
    obtain ⟨x, y, h1, h2, rfl⟩ := cat_parts ht
    cases h1
    exact hR.not (ih y (fun o h => ho o (.step (by simp [kids]) h)) h2)
  | logicUp _ ih => exact ih
  | logic _ _ hr ih1 ih2 =>
    intro t ho ht
    rw [buildN] at ht; case x_1 => exact nn hr
    obtain ⟨x, y, h1, h2, rfl⟩ := bin ht
    exact hR.logic (ih1 x (fun o h => ho o (.step (by simp [kids]) h)) h1) (ho _ (.step (k := .op _) (by simp [kids]) .refl))
      (ih2 y (fun o h => ho o (.step (by simp [kids]) h)) h2)

end

/-! ## Backslashes and line ends of the printed text -/

theorem noEol_append {u v : Str} : NoEol (u ++ v) ↔ NoEol u ∧ NoEol v :=
  ⟨fun h => ⟨h.left, h.right⟩, fun h c hc => (List.mem_append.mp hc).elim (h.1 c) (h.2 c)⟩
theorem noEol_cons {c : Char} {v : Str} : NoEol (c :: v) ↔ (c ≠ '\n' ∧ c ≠ '\r') ∧ NoEol v :=
  ⟨fun h => ⟨h c (by simp), h.tail⟩, fun h d hd => (List.mem_cons.mp hd).elim (fun e => e ▸ h.1) (h.2 d)⟩
theorem noEol_nil : NoEol [] := nofun

theorem idText_mem {u : Str} (h : IdText u) : ∀ c ∈ u, IdTail c := by
  obtain ⟨⟨c, t, rfl, hc, ht⟩, _⟩ := h
  intro d hd
  rcases List.mem_cons.mp hd with rfl | hd
  · exact .inl hc
  · exact ht d hd

theorem joinDots_mem : ∀ {l : List Str}, (∀ x ∈ l, IdText x) → ∀ c ∈ joinDots l, IdTail c ∨ c = '.'
  | [], _, c, h => by cases h
  | [a], h, c, hc => .inl (idText_mem (h a (by simp)) c hc)
  | a :: b :: l, h, c, hc => by
    have hc : c ∈ a ++ '.' :: joinDots (b :: l) := hc
    rcases List.mem_append.mp hc with hc | hc
    · exact .inl (idText_mem (h a (by simp)) c hc)
    · rcases List.mem_cons.mp hc with rfl | hc
      · exact .inr rfl
      · exact joinDots_mem (fun x hx => h x (List.mem_cons_of_mem _ hx)) c hc

theorem lit_mem {P root n t} (h : LitShape n) (hs : ∀ s, n ≠ .str s) (ht : buildN P root n = some t) : ∀ c ∈ t, IdTail c := by
  cases h with
  | @int k _ =>
    simp [buildN] at ht
    subst ht
    have : ¬ ((k : Int) < 0) := by omega
    intro c hc
    simp [fmtInt, this] at hc
    have := Nat.isDigit_of_mem_toDigits (by decide) (by decide) hc
    simp only [Char.isDigit, Bool.and_eq_true, decide_eq_true_eq] at this
    exact .inr (.inl this)
  | @bool b =>
    simp [buildN] at ht
    subst ht
    cases b <;> (unfold IdTail IdHead; decide)
  | null => simp [buildN] at ht; subst ht; unfold IdTail IdHead; decide
  | str => exact absurd rfl (hs _)

theorem not_idTail {c : Char} (h : c ∈ c!"\n\r\\()>") : ¬ IdTail c := by
  simp only [List.mem_cons, List.not_mem_nil, or_false] at h
  rcases h with rfl | rfl | rfl | rfl | rfl | rfl <;> (unfold IdTail IdHead; decide)

/-- The printed text contains all backslashes of its strings, and no line end. -/
theorem built_slashes {P : Char → Bool} (hn : P '\n' = false) (hr : P '\r' = false) {root : Str} (hroot : NoEol root) :
    Built P root fun n t => tot (fun s => slashes (quote P s)) 0 n ≤ slashes t ∧ NoEol t where
  lit h hs ht := by
    have hm := lit_mem h hs ht
    refine ⟨?_, fun c hc => ⟨?_, ?_⟩⟩
    · cases h with
      | str => exact absurd rfl (hs _)
      | _ => exact Nat.zero_le _
    · rintro rfl; exact not_idTail (by decide) (hm _ hc)
    · rintro rfl; exact not_idTail (by decide) (hm _ hc)
  str s := by
    refine ⟨Nat.le_refl _, fun c hc => ⟨?_, ?_⟩⟩
    · rintro rfl; exact quote_noCtl hn (by decide) (by decide) (by decide) s hc
    · rintro rfl; exact quote_noCtl hr (by decide) (by decide) (by decide) s hc
  ident h := by
    refine ⟨Nat.zero_le _, fun c hc => ⟨?_, ?_⟩⟩
    · rintro rfl; exact not_idTail (by decide) (idText_mem h _ hc)
    · rintro rfl; exact not_idTail (by decide) (idText_mem h _ hc)
  ref h := by
    refine ⟨Nat.zero_le _, fun c hc => ⟨?_, ?_⟩⟩
    · rintro rfl; exact (joinDots_mem h _ hc).elim (not_idTail (by decide)) (by decide)
    · rintro rfl; exact (joinDots_mem h _ hc).elim (not_idTail (by decide)) (by decide)
  paren h := by
    refine ⟨?_, ?_⟩
    · rw [slashes_cons (by decide), slashes_append]; exact Nat.le_trans h.1 (Nat.le_add_right _ _)
    · simp [noEol_cons, noEol_append, h.2, noEol_nil]
  not h := by
    refine ⟨?_, ?_⟩
    · rw [slashes_append]; exact Nat.le_trans h.1 (Nat.le_add_left _ _)
    · rw [noEol_append]; exact ⟨by unfold NoEol; decide, h.2⟩
  arr h := by
    refine ⟨?_, ?_⟩
    · rw [slashes_cons (by decide), slashes_append]; exact Nat.le_trans h.1 (Nat.le_add_right _ _)
    · simp [noEol_cons, noEol_append, h.2, noEol_nil]
  none := ⟨Nat.zero_le _, noEol_nil⟩
  one h := ⟨by simpa [tot, totL] using h.1, h.2⟩
  more h1 h2 := by
    refine ⟨?_, ?_⟩
    · rw [slashes_append, slashes_cons (by decide)]
      exact Nat.add_le_add h1.1 h2.1
    · simp [noEol_cons, noEol_append, h1.2, h2.2]
  func h := by
    refine ⟨?_, ?_⟩
    · rw [slashes_append, slashes_cons (by decide), slashes_append]
      have := h.1
      simp only [tot, Nat.zero_add] at this ⊢
      omega
    · simp [noEol_cons, noEol_append, h.2, hroot, noEol_nil]
  pred h1 h2 := by
    refine ⟨?_, ?_⟩
    · rw [slashes_append, slashes_cons (by decide)]
      exact Nat.add_le_add h1.1 h2.1
    · simp [noEol_cons, noEol_append, h1.2, h2.2]
  cmp h1 h2 h3 := by
    refine ⟨?_, ?_⟩
    · rw [slashes_append, slashes_cons (by decide), slashes_append, slashes_cons (by decide), ← Nat.add_assoc]
      exact Nat.add_le_add (Nat.add_le_add h1.1 h2.1) h3.1
    · simp [noEol_cons, noEol_append, h1.2, h2.2, h3.2]
  logic h1 h2 h3 := by
    refine ⟨?_, ?_⟩
    · rw [slashes_append, slashes_cons (by decide), slashes_append, slashes_cons (by decide), ← Nat.add_assoc]
      exact Nat.add_le_add (Nat.add_le_add h1.1 h2.1) h3.1
    · simp [noEol_cons, noEol_append, h1.2, h2.2, h3.2]
  between h1 h2 h3 h4 := by
    refine ⟨?_, ?_⟩
    · simp only [slashes_append, slashes_cons (by decide : ' ' ≠ '\\')]
      have := h1.1; have := h2.1; have := h3.1; have := h4.1
      simp only [tot]
      omega
    · simp [noEol_cons, noEol_append, h1.2, h2.2, h3.2, h4.2]

/-- The printed text has no adjacent characters of a kind but those in its strings, if a call is printed without. -/
theorem built_pairs {P : Char → Bool} {p : Char → Bool} {z : Char} {root : Str} (hp : ∀ c ∈ c!" ,[(", p c = false) (hz : z = '>' ∨ z = '(')
    (hroot : pairs p z (root ++ c!"(") = 0) :
    Built P root fun n t => pairs p z t ≤ tot (fun s => pairs p z (quote P s)) 0 n := by
  have nz : ¬ IdTail z := by rcases hz with rfl | rfl <;> exact not_idTail (by decide)
  have zs : ∀ c ∈ c!" ,]).", c ≠ z := by rcases hz with rfl | rfl <;> decide
  have hd : ∀ {c : Char} {v : Str}, c ≠ z → (c :: v).head? ≠ some z := by intro c v h; simpa using h
  have sp : p ' ' = false := hp _ (by decide)
  have sep : ∀ {c : Char} (u v : Str), c ≠ z → p c = false → pairs p z (u ++ c :: v) = pairs p z u + pairs p z v := by
    intro c u v h1 h2
    rw [pairs_append u (hd h1), pairs_cons h2]
  have fin : ∀ {c : Char} (u : Str), c ≠ z → pairs p z (u ++ [c]) = pairs p z u := by
    intro c u h1
    rw [pairs_append u (hd h1)]
    simp [pairs]
  have word : ∀ {u : Str}, (∀ c ∈ u, IdTail c) → pairs p z u = 0 := fun h => pairs_zero fun hm => nz (h _ hm)
  exact {
    lit := fun h hs ht => by
      show pairs p z _ ≤ _
      rw [word (lit_mem h hs ht)]; exact Nat.zero_le _
    str := fun s => Nat.le_refl _
    ident := fun h => by
      show pairs p z _ ≤ _
      rw [word (idText_mem h)]; exact Nat.zero_le _
    ref := fun h => by
      show pairs p z _ ≤ _
      rw [pairs_zero fun hm => (joinDots_mem h _ hm).elim nz (fun e => zs '.' (by decide) e.symm)]; exact Nat.zero_le _
    paren := fun h => by
      show pairs p z _ ≤ _
      rw [pairs_cons (hp _ (by decide)), fin _ (zs _ (by decide))]; exact h
    not := fun {n t} h => by
      show pairs p z (c!"not" ++ ' ' :: t) ≤ _
      rw [sep _ _ (zs _ (by decide)) sp, word (by unfold IdTail IdHead; decide), Nat.zero_add]; exact h
    arr := fun h => by
      show pairs p z _ ≤ _
      rw [pairs_cons (hp _ (by decide)), fin _ (zs _ (by decide))]; exact h
    none := Nat.zero_le _
    one := fun h => by simpa [tot, totL] using h
    more := fun h1 h2 => by
      show pairs p z _ ≤ _
      rw [sep _ _ (zs _ (by decide)) (hp _ (by decide))]
      exact Nat.add_le_add h1 h2
    func := fun {f ns t} h => by
      show pairs p z (root ++ '(' :: (t ++ c!")")) ≤ _
      have : ∀ (u v : Str), pairs p z (u ++ c!"(" ++ v) = pairs p z (u ++ c!"(") + pairs p z v := by
        intro u v
        induction u with
        | nil => rw [List.nil_append, List.singleton_append, pairs_cons (hp _ (by decide)), pairs_cons (hp _ (by decide))]; simp [pairs]
        | cons c u ih =>
          rw [List.cons_append, List.cons_append, pairs, pairs, ih]
          cases u <;> simp [Nat.add_assoc]
      rw [show root ++ '(' :: (t ++ c!")") = root ++ c!"(" ++ (t ++ c!")") by simp, this, hroot, fin _ (zs _ (by decide)), Nat.zero_add]
      simpa [tot] using h
    pred := fun h1 h2 => by
      show pairs p z _ ≤ _
      rw [sep _ _ (zs _ (by decide)) sp]
      exact Nat.add_le_add h1 h2
    cmp := fun h1 h2 h3 => by
      show pairs p z _ ≤ _
      rw [sep _ _ (zs _ (by decide)) sp, sep _ _ (zs _ (by decide)) sp, ← Nat.add_assoc]
      exact Nat.add_le_add (Nat.add_le_add h1 h2) h3
    logic := fun h1 h2 h3 => by
      show pairs p z _ ≤ _
      rw [sep _ _ (zs _ (by decide)) sp, sep _ _ (zs _ (by decide)) sp, ← Nat.add_assoc]
      exact Nat.add_le_add (Nat.add_le_add h1 h2) h3
    between := fun {l o a b t v x y} h1 h2 h3 h4 => by
      show pairs p z (t ++ ' ' :: (v ++ ' ' :: (x ++ ' ' :: (c!"and" ++ ' ' :: y)))) ≤ _
      rw [sep _ _ (zs _ (by decide)) sp, sep _ _ (zs _ (by decide)) sp, sep _ _ (zs _ (by decide)) sp, sep _ _ (zs _ (by decide)) sp,
        word (u := c!"and") (by unfold IdTail IdHead; decide)]
      simp only [tot]
      omega }

/-! ## Escapes -/

theorem quoteRune_shape (P : Char → Bool) (c : Char) : (P c = true ∧ c ≠ '"' ∧ c ≠ '\\') ∧ quoteRune P c = [c] ∨
    ∃ u, quoteRune P c = '\\' :: u ∧ (c = '\\' → u = c!"\\") ∧ '-' ∉ quoteRune P c := by
  by_cases hc : P c = true ∧ c ≠ '"' ∧ c ≠ '\\'
  · left; exact ⟨hc, by simp [quoteRune, hc]⟩
  · right
    have hd : ∃ u, quoteRune P c = '\\' :: u ∧ (c = '\\' → u = c!"\\") := by
      by_cases h0 : c = '"' ∨ c = '\\'
      · exact ⟨[c], by rw [quoteRune, if_pos h0], fun e => by rw [e]⟩
      · have h0' : c ≠ '"' ∧ c ≠ '\\' := not_or.mp h0
        have h1 : ¬ P c = true := fun h => hc ⟨h, h0'⟩
        have two : ∀ (b : Prop) [Decidable b] (x y : Str), (∃ u, x = '\\' :: u) → (∃ u, y = '\\' :: u) → ∃ u, (if b then x else y) = '\\' :: u := by
          intro b _ x y hx hy; by_cases hb : b <;> simp only [hb, if_true, if_false] <;> assumption
        have : ∃ u, quoteRune P c = '\\' :: u := by
          rw [quoteRune, if_neg h0, if_neg h1]
          repeat' apply two
          all_goals exact ⟨_, rfl⟩
        obtain ⟨u, hu⟩ := this
        exact ⟨u, hu, fun e => absurd e h0'.2⟩
    obtain ⟨u, h1, h2⟩ := hd
    refine ⟨u, h1, h2, fun hm => ?_⟩
    rcases quoteRune_mem hm with ⟨e, h⟩ | h | h
    · rw [← e] at h hc
      rcases h with h | h | h
      · exact hc ⟨h, by decide⟩
      · exact absurd h (by decide)
      · exact absurd h (by decide)
    · exact absurd h (by decide)
    · exact absurd h (by decide)

theorem slashes_quoteRune (P : Char → Bool) (c : Char) :
    slashes [c] ≤ slashes (quoteRune P c) ∧ (slashes (quoteRune P c) ≤ slashes [c] → P c = true ∧ c ≠ '"' ∧ c ≠ '\\') := by
  rcases quoteRune_shape P c with ⟨h, e⟩ | ⟨u, e, h, _⟩
  · rw [e]; exact ⟨Nat.le_refl _, fun _ => h⟩
  · rw [e]
    by_cases hc : c = '\\'
    · rw [h hc, hc]; exact ⟨by decide, fun h => absurd h (by decide)⟩
    · rw [slashes_cons hc]
      simp [slashes]

theorem slashes_quote (P : Char → Bool) (s : Str) : slashes s ≤ slashes (quote P s) ∧ (slashes (quote P s) ≤ slashes s → Clean P s) := by
  have key : slashes s ≤ slashes (s.flatMap (quoteRune P)) ∧ (slashes (s.flatMap (quoteRune P)) ≤ slashes s → Clean P s) := by
    induction s with
    | nil => exact ⟨Nat.le_refl _, fun _ => nofun⟩
    | cons c s ih =>
      obtain ⟨h1, h2⟩ := slashes_quoteRune P c
      obtain ⟨h3, h4⟩ := ih
      rw [List.flatMap_cons, slashes_append, ← List.singleton_append, slashes_append]
      refine ⟨Nat.add_le_add h1 h3, fun h => ?_⟩
      have a := h2 (by omega)
      have b := h4 (by omega)
      intro x hx
      rcases List.mem_append.mp hx with hx | hx
      · rw [List.mem_singleton.mp hx]; exact a
      · exact b x hx
  rw [quote, slashes_cons (by decide), slashes_append]
  exact key

/-- Escaping makes no arrows. -/
theorem pairs_quote (P : Char → Bool) (s : Str) (h : pairs (· == '-') '>' s = 0) : pairs (· == '-') '>' (quote P s) = 0 := by
  have skip : ∀ (q v : Str), '-' ∉ q → pairs (· == '-') '>' (q ++ v) = pairs (· == '-') '>' v := by
    intro q v hq
    induction q with
    | nil => rfl
    | cons c q ih =>
      rw [List.cons_append, pairs_cons, ih fun hm => hq (List.mem_cons_of_mem _ hm)]
      simp only [beq_eq_false_iff_ne]
      exact fun e => hq (by simp [e])
  have head : ∀ s : Str, (s.flatMap (quoteRune P)).head? = some '>' → s.head? = some '>' := by
    intro s hs
    cases s with
    | nil => cases hs
    | cons c s =>
      rw [List.flatMap_cons] at hs
      rcases quoteRune_shape P c with ⟨_, e⟩ | ⟨u, e, _⟩
      · rw [e] at hs; simpa using hs
      · rw [e] at hs; simp at hs
  have key : pairs (· == '-') '>' (s.flatMap (quoteRune P)) = 0 := by
    induction s with
    | nil => rfl
    | cons c s ih =>
      rw [pairs] at h
      have h1 : pairs (· == '-') '>' s = 0 := by omega
      rw [List.flatMap_cons]
      rcases quoteRune_shape P c with ⟨_, e⟩ | ⟨u, e, _, hm⟩
      · rw [e, List.singleton_append, pairs, ih h1]
        rw [h1] at h
        by_cases hh : (s.flatMap (quoteRune P)).head? = some '>'
        · rw [head s hh] at h
          rw [hh]
          exact h
        · simp [hh]
      · rw [skip _ _ hm, ih h1]
  rw [quote, pairs_cons (by decide), pairs_append _ (by decide), key]
  rfl

/-! ## Operators -/

theorem squeeze_noEol : ∀ (s : Str) (b : Bool), NoEol (squeeze b s)
  | [], _ => nofun
  | c :: s, b => by
    rw [squeeze]
    by_cases hc : reSpace c = true
    · rw [if_pos hc]
      cases b
      · exact noEol_cons.mpr ⟨by decide, squeeze_noEol s _⟩
      · exact squeeze_noEol s _
    · rw [if_neg hc]
      refine noEol_cons.mpr ⟨⟨?_, ?_⟩, squeeze_noEol s _⟩
      · rintro rfl; exact hc (by decide)
      · rintro rfl; exact hc (by decide)

theorem squeeze_pairs : ∀ (s : Str) (b : Bool), pairs (· == '-') '>' s = 0 → pairs (· == '-') '>' (squeeze b s) = 0 ∧
    ((squeeze b s).head? = some '>' → b = false → s.head? = some '>')
  | [], _, _ => ⟨rfl, nofun⟩
  | c :: s, b, h => by
    rw [pairs] at h
    have h1 : pairs (· == '-') '>' s = 0 := by omega
    rw [squeeze]
    by_cases hc : reSpace c = true
    · rw [if_pos hc]
      cases b
      · refine ⟨?_, nofun⟩
        rw [if_neg (by decide), pairs_cons (by decide)]
        exact (squeeze_pairs s true h1).1
      · exact ⟨(squeeze_pairs s true h1).1, nofun⟩
    · rw [if_neg hc]
      refine ⟨?_, fun h _ => h⟩
      obtain ⟨i1, i2⟩ := squeeze_pairs s false h1
      rw [pairs, i1]
      by_cases hh : (squeeze false s).head? = some '>'
      · rw [hh]
        rw [i2 hh rfl, h1] at h
        exact h
      · simp [hh]

theorem lower_pairs (s : Str) (h : pairs (· == '-') '>' s = 0) : pairs (· == '-') '>' (goLower s) = 0 := by
  have low : ∀ c d : Char, (d = '-' ∨ d = '>') → lowerChar c = d → c = d := by
    intro c d hd e
    rcases hd with rfl | rfl <;> exact lowerChar_ascii (by decide) (by decide) e
  induction s with
  | nil => rfl
  | cons c s ih =>
    rw [pairs] at h
    have h1 : pairs (· == '-') '>' s = 0 := by omega
    rw [goLower, List.map_cons, pairs]
    have := ih h1
    rw [goLower] at this
    rw [this]
    by_cases hc : lowerChar c = '-'
    · by_cases hs : (s.map lowerChar).head? = some '>'
      · cases s with
        | nil => cases hs
        | cons d s =>
          simp at hs
          have e1 := low c _ (.inl rfl) hc
          have e2 := low d _ (.inr rfl) hs
          subst e1; subst e2
          simp at h
      · have hs : ((s.map lowerChar).head? == some '>') = false := beq_eq_false_iff_ne.mpr hs
        rw [hs, Bool.and_false]; rfl
    · simp [hc]

theorem trim_infix (s : Str) : goTrim s <:+: s := by
  refine List.IsInfix.trans ?_ (List.dropWhile_suffix goIsSpace).isInfix
  rw [goTrim]
  have := (List.dropWhile_suffix (l := (s.dropWhile goIsSpace).reverse) goIsSpace)
  have := List.reverse_prefix.mpr this
  rw [List.reverse_reverse] at this
  exact this.isInfix

/-- The printed operators have no line ends and no arrows. -/
theorem printPretty_normOp {x : Str} (h : pairs (· == '-') '>' x = 0) : NoEol (printPretty (normOp x)) ∧ pairs (· == '-') '>' (printPretty (normOp x)) = 0 := by
  have tab : ∀ v ∈ normTable.map Prod.snd ++ pretties.map Prod.snd, NoEol v ∧ pairs (· == '-') '>' v = 0 := by unfold NoEol; decide
  have mem : ∀ (l : List (Str × Str)) k v, l.lookup k = some v → v ∈ l.map Prod.snd := by
    intro l k v
    induction l with
    | nil => intro h; cases h
    | cons a l ih =>
      obtain ⟨a, b⟩ := a
      rw [List.lookup_cons]
      by_cases hk : (k == a) = true
      · rw [hk]; intro h; cases h; simp
      · rw [Bool.not_eq_true] at hk; rw [hk]; intro h; exact List.mem_cons_of_mem _ (ih h)
  have h1 : NoEol (normOp x) ∧ pairs (· == '-') '>' (normOp x) = 0 := by
    unfold normOp
    simp only
    cases hl : normTable.lookup (squeeze false (goLower (goTrim x))) with
    | none => exact ⟨squeeze_noEol _ _, (squeeze_pairs _ _ (lower_pairs _ (pairs_infix (trim_infix x) h))).1⟩
    | some v => exact tab v (List.mem_append_left _ (mem _ _ _ hl))
  unfold printPretty
  cases hl : pretties.lookup (normOp x) with
  | none => exact h1
  | some v => exact tab v (List.mem_append_right _ (mem _ _ _ hl))

/-! ## Texts without arrows -/

theorem pairs_of_noArrow : ∀ {s : Str}, ¬ c!"->" <:+: s → pairs (· == '-') '>' s = 0
  | [], _ => rfl
  | c :: s, h => by
    rw [pairs, pairs_of_noArrow fun hi => h (hi.trans (List.suffix_cons _ _).isInfix), Nat.add_zero]
    cases s with
    | nil => simp
    | cons d s =>
      by_cases hc : c = '-' ∧ d = '>'
      · obtain ⟨rfl, rfl⟩ := hc
        exact absurd (List.prefix_append c!"->" s).isInfix h
      · simp only [List.head?_cons, Bool.and_eq_true, beq_iff_eq, Option.some.injEq, hc, if_false]

theorem scanStep_flag {m m1 : Mode} {st st1 : Str} {a a1 : Bool} {c : Char} (h : scanStep (m, st, a) c = some (m1, st1, a1)) (hm : m = .dash → c ≠ '>') :
    a1 = a ∧ (m1 = .dash → c = '-') := by
  cases m <;> simp only [scanStep] at h
  case dash =>
    have := hm rfl
    split at h
    · cases h; exact ⟨rfl, nofun⟩
    · first
        | (cases h; done)
        | (split at h
           · contradiction
           · cases h)
  case code =>
    repeat' split at h
    all_goals first
      | (cases h; done)
      | (cases h; refine ⟨rfl, fun _ => ?_⟩; assumption)
      | (cases h; refine ⟨rfl, fun e => ?_⟩; cases e; done)
  all_goals
    repeat' split at h
    all_goals first
      | (cases h; done)
      | (cases h; exact ⟨rfl, nofun⟩)

theorem scan_flag : ∀ {s : Str} {m m' : Mode} {st st' : Str} {a a' : Bool}, pairs (· == '-') '>' s = 0 → (m = .dash → s.head? ≠ some '>') →
    scan s (m, st, a) = some (m', st', a') → a' = a
  | [], _, _, _, _, _, _, _, _, h => by rw [scan] at h; cases h; rfl
  | c :: s, m, m', st, st', a, a', hp, hm, h => by
    rw [scan] at h
    cases hs : scanStep (m, st, a) c with
    | none => rw [hs] at h; cases h
    | some y =>
      obtain ⟨m1, st1, a1⟩ := y
      rw [hs] at h
      obtain ⟨rfl, h2⟩ := scanStep_flag hs (fun e ec => hm e (by rw [ec]; rfl))
      rw [pairs] at hp
      refine scan_flag (by omega) (fun e hh => ?_) h
      rw [h2 e, hh] at hp
      simp at hp

/-- An accepted text in which `->` does not occur. -/
theorem parse_arrowless {s : Str} {n : Node} (h : parse s = .ok n) (ha : pairs (· == '-') '>' s = 0) : Balanced s false ∧ Query s n := by
  obtain ⟨a, _, hb, hq⟩ := parse_ok h
  have : a = false := scan_flag ha (fun e => by cases e) hb
  subst this
  exact ⟨hb, hq rfl⟩

/-! ## Comparing counts -/

/-- The number `k` for a call. -/
def ownTot (k : Nat) : Node → Nat
  | .func _ _ => k
  | _ => 0

theorem tot_kids (f : Str → Nat) (k : Nat) (n : Node) (h : ∀ s, n ≠ .str s) : tot f k n = ownTot k n + totL f k (kids n) := by
  cases n <;> first | exact absurd rfl (h _) | simp [tot, totL, kids, ownTot, Nat.add_assoc]

theorem totL_mono {f g : Str → Nat} {j k : Nat} {l : List Node} (h : ∀ n ∈ l, tot f j n ≤ tot g k n) : totL f j l ≤ totL g k l := by
  induction l with
  | nil => exact Nat.le_refl _
  | cons n l ih =>
    exact Nat.add_le_add (h n (by simp)) (ih fun m hm => h m (List.mem_cons_of_mem _ hm))

theorem sizeOf_kid {k n : Node} (h : k ∈ kids n) : sizeOf k < sizeOf n := by
  cases n <;> simp only [kids, List.not_mem_nil] at h
  case arr => have := List.sizeOf_lt_of_mem h; simp; omega
  case func => have := List.sizeOf_lt_of_mem h; simp; omega
  all_goals
    simp only [List.mem_cons, List.not_mem_nil, or_false] at h
    rcases h with rfl | h <;> simp <;> first | omega | (rcases h with rfl | h <;> first | omega | (rcases h with rfl | h <;> first | omega | (subst h; omega))) | skip

theorem tot_mono {f g : Str → Nat} {j k : Nat} (hjk : j ≤ k) (n : Node) (h : ∀ s, Sub (.str s) n → f s ≤ g s) : tot f j n ≤ tot g k n := by
  by_cases hs : ∃ s, n = .str s
  · obtain ⟨s, rfl⟩ := hs
    exact h s .refl
  · have hs' : ∀ s, n ≠ .str s := fun s e => hs ⟨s, e⟩
    rw [tot_kids f j n hs', tot_kids g k n hs']
    refine Nat.add_le_add ?_ (totL_mono fun m hm => ?_)
    · cases n <;> first | exact hjk | exact Nat.le_refl _
    · have := sizeOf_kid hm
      exact tot_mono hjk m fun s h' => h s (.step hm h')
termination_by sizeOf n

theorem tot_kid {f g : Str → Nat} {j k : Nat} (hjk : j ≤ k) (hfg : ∀ s, f s ≤ g s) {m n : Node} (hm : m ∈ kids n) :
    tot f j n + tot g k m ≤ tot g k n + tot f j m := by
  have hs' : ∀ s, n ≠ .str s := by rintro s rfl; cases hm
  rw [tot_kids f j n hs', tot_kids g k n hs']
  have h1 : ownTot j n ≤ ownTot k n := by cases n <;> first | exact hjk | exact Nat.le_refl _
  have h2 : ∀ l : List Node, m ∈ l → totL f j l + tot g k m ≤ totL g k l + tot f j m := by
    intro l
    induction l with
    | nil => intro h; cases h
    | cons a l ih =>
      intro h
      simp only [totL]
      have a1 := tot_mono hjk a fun s _ => hfg s
      have a2 := totL_mono (l := l) fun x _ => tot_mono hjk x fun s _ => hfg s
      rcases List.mem_cons.mp h with rfl | h
      · omega
      · have := ih h; omega
  have := h2 _ hm
  omega

theorem tot_str {f g : Str → Nat} (hfg : ∀ s, f s ≤ g s) {m n : Node} (h : Sub m n) : tot f 0 n + tot g 0 m ≤ tot g 0 n + tot f 0 m := by
  induction h with
  | refl => omega
  | step hk _ ih => have := tot_kid (Nat.le_refl 0) hfg hk; omega

theorem tot_call {f : Str → Nat} {m n : Node} (h : Sub m n) : tot f 0 n + tot f 1 m ≤ tot f 1 n + tot f 0 m := by
  induction h with
  | refl => omega
  | step hk _ ih => have := tot_kid (Nat.zero_le 1) (fun s => Nat.le_refl (f s)) hk; omega

theorem tot_zero (f : Str → Nat) (n : Node) (h : ∀ s, Sub (.str s) n → f s = 0) : tot f 0 n = 0 := by
  have z : ∀ n : Node, tot (fun _ => 0) 0 n = 0 := by
    intro n
    induction hk : sizeOf n using Nat.strongRecOn generalizing n with
    | _ k ih =>
      by_cases hs : ∃ s, n = .str s
      · obtain ⟨s, rfl⟩ := hs; rfl
      · rw [tot_kids _ _ n fun s e => hs ⟨s, e⟩]
        have h1 : ownTot 0 n = 0 := by cases n <;> rfl
        have h2 : ∀ l : List Node, (∀ m ∈ l, tot (fun _ => 0) 0 m = 0) → totL (fun _ => 0) 0 l = 0 := by
          intro l
          induction l with
          | nil => intro _; rfl
          | cons a l ih => intro h; simp only [totL]; rw [h a (by simp), ih fun m hm => h m (List.mem_cons_of_mem _ hm)]
        rw [h1, h2 _ fun m hm => ih (sizeOf m) (by have := sizeOf_kid hm; omega) m rfl]
  have := tot_mono (f := f) (g := fun _ => 0) (Nat.le_refl 0) n fun s hs => Nat.le_of_eq (h s hs)
  rw [z n] at this
  omega

/-! ## Renaming calls -/

mutual
/-- The tree with all calls renamed to `f`. -/
def ren (f : Str) : Node → Node
  | .func _ ps => .func f (renL f ps)
  | .arr l => .arr (renL f l)
  | .pred l o => .pred (ren f l) (ren f o)
  | .cmp l o r => .cmp (ren f l) (ren f o) (ren f r)
  | .logic l o r => .logic (ren f l) (ren f o) (ren f r)
  | .paren e => .paren (ren f e)
  | .not e => .not (ren f e)
  | .between l o a b => .between (ren f l) (ren f o) (ren f a) (ren f b)
  | n => n
/-- The same for lists. -/
def renL (f : Str) : List Node → List Node
  | [] => []
  | n :: ns => ren f n :: renL f ns
end

theorem renL_map (f : Str) (l : List Node) : renL f l = l.map (ren f) := by
  induction l with
  | nil => rfl
  | cons n l ih => rw [renL, ih]; rfl

theorem kids_ren (f : Str) (n : Node) : kids (ren f n) = (kids n).map (ren f) := by
  cases n <;> simp [ren, kids, renL_map]

theorem LitShape.ren_id {f n} (h : LitShape n) : ren f n = n := by cases h <;> rfl

theorem litList_ren {f : Str} {l : List Node} (h : ∀ n ∈ l, LitShape n) : renL f l = l := by
  rw [renL_map]
  induction l with
  | nil => rfl
  | cons n l ih => rw [List.map_cons, (h n (by simp)).ren_id, ih fun m hm => h m (List.mem_cons_of_mem _ hm)]

theorem ValShape.ren_id {f n} (h : ValShape n) : ren f n = n := by
  cases h with
  | lit h => exact h.ren_id
  | arr h => rw [ren, litList_ren h]

theorem Shape.ren {f lv n} (hf : IdText f) (hk : KwFree f) (h : Shape lv n) : Shape lv (ren f n) := by
  induction h with
  | val h => rw [h.ren_id]; exact .val h
  | ident h1 h2 => exact .ident h1 h2
  | ref h1 h2 => exact .ref h1 h2
  | paren _ ih => exact .paren ih
  | func _ _ _ ih =>
    rw [Verif.ren, renL_map]
    refine .func hf hk fun m hm => ?_
    obtain ⟨k, hk, rfl⟩ := List.mem_map.mp hm
    exact ih k hk
  | btwUp _ ih => exact .btwUp ih
  | btw _ ho ha hb ih => rw [Verif.ren, ha.ren_id, hb.ren_id]; exact .btw ih ho ha hb
  | prdUp _ ih => exact .prdUp ih
  | pred _ ho ih => exact .pred ih ho
  | cinUp _ ih => exact .cinUp ih
  | isIn _ ho hl ih => rw [Verif.ren, Verif.ren, litList_ren hl]; exact .isIn ih ho hl
  | cmpUp _ ih => exact .cmpUp ih
  | cmp _ ho _ ih1 ih2 => exact .cmp ih1 ho ih2
  | negUp _ ih => exact .negUp ih
  | neg _ ih => exact .neg ih
  | logicUp _ ih => exact .logicUp ih
  | logic _ ho _ ih1 ih2 => exact .logic ih1 ho ih2

theorem sub_ren {f : Str} {m n : Node} (h : Sub m (ren f n)) : ∃ k, Sub k n ∧ m = ren f k := by
  generalize e : ren f n = r at h
  induction h generalizing n with
  | refl => exact ⟨n, .refl, e.symm⟩
  | step hk _ ih =>
    rw [← e, kids_ren] at hk
    obtain ⟨k, hk', rfl⟩ := List.mem_map.mp hk
    obtain ⟨j, hj, rfl⟩ := ih rfl
    exact ⟨j, .step hk' hj, rfl⟩

theorem ren_fix {f : Str} {m n : Node} (h : Sub m n) : ren f n = n → ren f m = m := by
  induction h with
  | refl => exact id
  | @step k n hk _ ih =>
    intro e
    apply ih
    have := kids_ren f n
    rw [e] at this
    have key : ∀ l : List Node, l = l.map (ren f) → ∀ x ∈ l, ren f x = x := by
      intro l
      induction l with
      | nil => intro _ x hx; cases hx
      | cons a l ih =>
        intro h x hx
        rw [List.map_cons] at h
        injection h with h1 h2
        rcases List.mem_cons.mp hx with rfl | hx
        · exact h1.symm
        · exact ih h2 x hx
    exact key _ this k hk

theorem ren_nil {f : Str} {n : Node} : ren f n = .nil ↔ n = .nil := by cases n <;> simp [ren]

mutual
theorem buildN_ren (P : Char → Bool) (f : Str) : ∀ n, buildN P f (ren f n) = buildN P f n
  | .func _ ps => by rw [ren, buildN, buildN, buildL_ren P f ps]
  | .arr l => by rw [ren, buildN, buildN, buildL_ren P f l]
  | .pred l o => by rw [ren, buildN, buildN, buildN_ren P f l, buildN_ren P f o]
  | .cmp l o r => by
    rw [ren]
    by_cases h : r = .nil
    · rw [ren_nil.mpr h, h, buildN, buildN, buildN_ren P f l, buildN_ren P f o]
    · rw [buildN_cmp (mt ren_nil.mp h), buildN_cmp h, buildN_ren P f l, buildN_ren P f o, buildN_ren P f r]
  | .logic l o r => by
    rw [ren]
    by_cases h : r = .nil
    · rw [ren_nil.mpr h, h, buildN, buildN, buildN_ren P f l, buildN_ren P f o]
    · rw [buildN_logic (mt ren_nil.mp h), buildN_logic h, buildN_ren P f l, buildN_ren P f o, buildN_ren P f r]
  | .paren e => by rw [ren, buildN, buildN, buildN_ren P f e]
  | .not e => by rw [ren, buildN, buildN, buildN_ren P f e]
  | .between l o a b => by rw [ren, buildN, buildN, buildN_ren P f l, buildN_ren P f o, buildN_ren P f a, buildN_ren P f b]
  | .nil => rfl
  | .op _ => rfl
  | .ident _ => rfl
  | .ref _ => rfl
  | .str _ => rfl
  | .int _ => rfl
  | .bool _ => rfl
  | .null => rfl
theorem buildL_ren (P : Char → Bool) (f : Str) : ∀ l, buildL P f (renL f l) = buildL P f l
  | [] => rfl
  | [n] => by rw [renL, renL, buildL, buildL, buildN_ren P f n]
  | n :: m :: l => by
    have := buildL_ren P f (m :: l)
    rw [renL] at this
    rw [renL, renL, buildL, buildL, buildN_ren P f n, this]
end

/-! ## The main argument -/

theorem Shape.root {lv n} (h : Shape lv n) : rootName n = [] ∨ IdText (rootName n) ∧ KwFree (rootName n) := by
  induction h with
  | val h =>
    cases h with
    | lit h => cases h <;> exact .inl rfl
    | arr _ => exact .inl rfl
  | ident h1 h2 => exact .inr ⟨h1, h2⟩
  | func h1 h2 _ _ => exact .inr ⟨h1, h2⟩
  | btwUp _ ih => exact ih
  | prdUp _ ih => exact ih
  | cinUp _ ih => exact ih
  | cmpUp _ ih => exact ih
  | negUp _ ih => exact ih
  | logicUp _ ih => exact ih
  | _ => exact .inl rfl

/-- The characters of identifiers, as a test. -/
def idChar (c : Char) : Bool := c.isAlphanum || c == '_'

theorem idTail_idChar {c : Char} (h : IdTail c) : idChar c = true := by
  simp only [idChar, Char.isAlphanum, Char.isAlpha, Char.isUpper, Char.isLower, Char.isDigit, Bool.or_eq_true, Bool.and_eq_true, decide_eq_true_eq, beq_iff_eq]
  rcases h with (h | h) | h | h
  · exact .inl (.inl (.inr h))
  · exact .inl (.inl (.inl h))
  · exact .inl (.inr h)
  · exact .inr h

theorem call_pairs {g : Str} (u : Str) (h : IdText g) : 1 + pairs idChar '(' ('(' :: u) ≤ pairs idChar '(' (g ++ '(' :: u) := by
  have hne : g ≠ [] := by obtain ⟨⟨c, t, rfl, _⟩, _⟩ := h; exact nofun
  have hl := idTail_idChar (idText_mem h _ (List.getLast_mem hne))
  rw [← List.dropLast_concat_getLast hne, List.append_assoc, List.singleton_append]
  refine Nat.le_trans ?_ ((pairs_super idChar '(').right _ _)
  rw [pairs.eq_2 idChar '(' (g.getLast hne), hl]
  exact Nat.le_refl _

/-- If the text printed for an accepted query parses back to its tree, then the tree is fit for printing. -/
theorem round_trip_fit {P : Char → Bool} (hn : P '\n' = false) (hr : P '\r' = false) {s t : Str} {n : Node} (h : parse s = .ok n) (ha : ¬ c!"->" <:+: s)
    (hb : build P n = some t) (ht : parse t = .ok n) : Fit P (rootName n) n := by
  have hs0 := pairs_of_noArrow ha
  have sh := parse_shape h (parse_arrowless h hs0).1
  have hfrom := parse_from h
  have ops : ∀ o, Sub (.op o) n → NoEol (printPretty o) ∧ pairs (· == '-') '>' (printPretty o) = 0 := by
    intro o ho
    obtain ⟨x, hx, rfl⟩ := hfrom _ ho
    exact printPretty_normOp (pairs_infix hx hs0)
  have rootc : ∀ c ∈ rootName n, IdTail c := by
    rcases sh.root with e | ⟨hi, _⟩
    · rw [e]; nofun
    · exact idText_mem hi
  have hroot : NoEol (rootName n) := fun c hc => ⟨by rintro rfl; exact not_idTail (by decide) (rootc _ hc), by rintro rfl; exact not_idTail (by decide) (rootc _ hc)⟩
  obtain ⟨s1, s2⟩ := (built_slashes hn hr hroot).shape sh t (fun o ho => ⟨Nat.zero_le _, (ops o ho).1⟩) hb
  have ar : pairs (· == '-') '>' t = 0 := by
    have := (built_pairs (P := P) (p := (· == '-')) (z := '>') (root := rootName n) (by decide) (.inl rfl) (pairs_zero fun hm => by
      rcases List.mem_append.mp hm with hm | hm
      · exact not_idTail (by decide) (rootc _ hm)
      · exact absurd hm (by decide))).shape sh t (fun o ho => Nat.le_of_eq (ops o ho).2) hb
    rw [tot_zero _ n fun x hx => pairs_quote P x (pairs_infix (hfrom _ hx) hs0)] at this
    omega
  obtain ⟨_, w1, u, w2, e, hw1, hrd, hw2⟩ := parse_arrowless ht ar
  have e1 := hrd.slashes_le (by rw [e] at s2; exact s2.right.left)
  have clean : ∀ x, Sub (.str x) n → Clean P x := by
    intro x hx
    have h1 := tot_str (fun s => (slashes_quote P s).1) hx
    have h2 : slashes t = slashes u := by
      rw [e] at s2 ⊢
      rw [slashes_append, slashes_append, hw1.slashes0 s2.left, hw2.slashes0 s2.right.right]
      omega
    refine (slashes_quote P x).2 ?_
    simp only [tot] at h1
    omega
  intro m hm
  cases m <;> try trivial
  case str x => exact clean x hm
  case op o => exact e1.2 o hm
  case func g ps =>
    show g = rootName n
    rcases sh.root with e0 | ⟨hi, hk⟩
    · exfalso
      have a1 := hrd.tot_le (k := 1) (pairs_super idChar '(') (fun g u hg => call_pairs u hg)
      have a2 : pairs idChar '(' u ≤ pairs idChar '(' t := by
        rw [e]; exact Nat.le_trans ((pairs_super _ _).left _ _) ((pairs_super _ _).right _ _)
      have a3 := (built_pairs (P := P) (p := idChar) (z := '(') (root := rootName n) (by decide) (.inr rfl) (by rw [e0]; decide)).shape sh t
        (fun o ho => Nat.le_of_eq ((by decide : ∀ o ∈ opNames, pairs idChar '(' (printPretty o) = 0) o (e1.2 o ho))) hb
      have a4 := tot_mono (f := fun s => pairs idChar '(' (quote P s)) (g := pairs idChar '(') (Nat.le_refl 0) n fun x hx => by
        show pairs idChar '(' (quote P x) ≤ _
        rw [quote_clean (clean x hx), pairs_cons (by decide), pairs_append _ (by decide)]
        exact Nat.le_refl _
      have a5 := tot_call (f := pairs idChar '(') hm
      have a6 := totL_mono (f := pairs idChar '(') (g := pairs idChar '(') (l := ps) fun x _ => tot_mono (Nat.zero_le 1) x fun s _ => Nat.le_refl _
      simp only [tot] at a5
      omega
    · have hfit : Fit P (rootName n) (ren (rootName n) n) := by
        intro m hm
        obtain ⟨k, hk, rfl⟩ := sub_ren hm
        cases k <;> try trivial
        case str x => exact clean x hk
        case op o => exact e1.2 o hk
      obtain ⟨t', h1, h2⟩ := (sh.ren hi hk).built hfit
      rw [buildN_ren] at h1
      rw [build, h1] at hb
      cases hb
      have h3 := h2.parse
      rw [ht] at h3
      injection h3 with h3
      have := ren_fix hm h3.symm
      rw [ren] at this
      injection this with h4
      exact h4.symm

end Verif
