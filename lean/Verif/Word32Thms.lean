import Verif.Word32
import Verif.ParseThms

/-! # Counting tokens -/

namespace Verif

/-- How far the number of tokens can get ahead of eight per character read: at the end of a rule, and on the way. -/
def tokT : Rule → Int × Int
  | .Grammar => (9, 9) | .Expression => (5, 5) | .LogicExpression => (4, 4) | .NotExpression => (3, 3) | .CompareExpression => (2, 2)
  | .CompareInExpression => (1, 1) | .PredicateExpression => (0, 1) | .BetweenExpression => (-1, 1) | .PrimaryExpression => (-2, 1)
  | .ArgumentList => (-4, 2) | .Argument => (6, 6) | .Reference => (-4, 1) | .IdentifierReference => (-15, 1) | .JsonReference => (-25, 0)
  | .Identifier => (-5, 0) | .Compare => (-3, 1) | .Logic => (-11, 1) | .Match => (-48, 0) | .Value => (-3, 0) | .Array => (-11, 0) | .Literal => (-4, 0)
  | .Integer => (-5, 0) | .Boolean => (-29, 0) | .Null => (-29, 0) | .String => (-13, 0) | .SpaceComment => (-5, 0) | .sp => (1, 1) | .sp1 => (-4, 0)
  | .Comment => (-22, 0) | .Space => (-6, 0) | .EndOfLine => (-7, 0) | .EndOfFile => (1, 1)

/-- The same for expressions; the flag: every turn of a loop reads at least a character for every eight tokens. -/
def tok : PExp → Int × Int × Bool
  | .eps => (0, 0, true)
  | .any | .chr _ | .rng _ _ => (-8, 0, true)
  | .seq a b => ((tok a).1 + (tok b).1, max (tok a).2.1 ((tok a).1 + (tok b).2.1), (tok a).2.2 && (tok b).2.2)
  | .alt a b | .sw _ a b => (max (tok a).1 (tok b).1, max (tok a).2.1 (tok b).2.1, (tok a).2.2 && (tok b).2.2)
  | .star a => (0, max 0 (tok a).2.1, (tok a).2.2 && decide ((tok a).1 ≤ 0))
  | .opt a => (max 0 (tok a).1, max 0 (tok a).2.1, (tok a).2.2)
  | .notP a => (0, max 0 (tok a).2.1, (tok a).2.2)
  | .call r => ((tokT r).1, (tokT r).2, true)
  | .txt a => ((tok a).1 + 1, max (tok a).2.1 ((tok a).1 + 1), (tok a).2.2)
  | .act _ => (1, 1, true)

theorem tokT_ok (r : Rule) : (tok (G r)).2.2 = true ∧ (tok (G r)).1 + 1 ≤ (tokT r).1 ∧ (tok (G r)).2.1 ≤ (tokT r).2 ∧ (tok (G r)).1 + 1 ≤ (tokT r).2 := by
  cases r <;> decide +kernel

/-- The state is inside the text, has at most eight tokens per character read and `a` more, and the array is no longer than `8 * L + 9`,
or than the bound `K` that it had from earlier queries. -/
structure In32 (K L : Nat) (a : Int) (st : St) : Prop where
  pos : st.pos ≤ L
  ti : (st.ti : Int) ≤ 8 * (st.pos : Int) + a
  tree : st.tree.length ≤ max K (8 * L + 9)

/-- What is known of an outcome. -/
def Post32 (K L : Nat) (a : Int) : Out → Prop
  | .ok st => In32 K L a st
  | .fail st => st.tree.length ≤ max K (8 * L + 9)
  | _ => True

theorem buf_inside {s : Str} {p x : Nat} (h : (mkBuf s)[p]? = some x) (hx : x ≠ endSymbol) : p < s.length := by
  unfold mkBuf at h
  rcases Nat.lt_trichotomy p s.length with hp | hp | hp
  · exact hp
  · subst hp
    rw [List.getElem?_append_right (by simp)] at h
    simp at h
    exact absurd h.symm hx
  · rw [List.getElem?_append_right (by simp; omega)] at h
    have : p - (s.map Char.toNat).length = (p - s.length - 1) + 1 := by simp; omega
    rw [this] at h
    simp at h

theorem char_small (c : Char) : c.toNat < endSymbol := by
  have := c.valid
  have h : c.toNat < 55296 ∨ (57343 < c.toNat ∧ c.toNat < 1114112) := this
  unfold endSymbol
  omega

theorem In32.weaken {K L a b st} (h : In32 K L a st) (hab : a ≤ b) : In32 K L b st := ⟨h.pos, by have := h.ti; omega, h.tree⟩

theorem In32.restore {K L a b} {st st' : St} (h : In32 K L a st) (ht : st'.tree.length ≤ max K (8 * L + 9)) (hab : a ≤ b) : In32 K L b { st' with pos := st.pos, ti := st.ti } :=
  ⟨h.pos, by have := h.ti; simp only; omega, ht⟩

theorem In32.step {K L a st} (h : In32 K L a st) (hp : st.pos < L) : In32 K L (a + -8) { st with pos := st.pos + 1 } :=
  ⟨hp, by have := h.ti; simp only; omega, h.tree⟩

theorem addTok32_eq {inc : Nat → Nat} {K L a st k b} (hL : ∀ x, x + 1 ≤ 8 * L + 9 → inc x = x + 1) (h : In32 K L a st) (ha : a + 1 ≤ 9) :
    addTok32 inc k b st = addTok k b st ∧ In32 K L (a + 1) (addTok k b st) := by
  have h1 := h.ti
  have h2 := h.pos
  have h4 := h.tree
  have h3 : st.ti + 1 ≤ 8 * L + 9 := by omega
  refine ⟨?_, h.pos, ?_, ?_⟩
  · unfold addTok32 addTok
    rw [hL _ (by omega)]
  · show ((st.ti + 1 : Nat) : Int) ≤ 8 * (st.pos : Int) + (a + 1)
    omega
  · show (if st.ti ≥ st.tree.length then st.tree ++ [_] else st.tree.set st.ti _).length ≤ _
    split
    · simp; omega
    · simpa using h4

theorem step32 {inc : Nat → Nat} {K : Nat} {s : Str} {a : Int} {st : St} {x : Nat} (hL : ∀ x, x + 1 ≤ 8 * s.length + 9 → inc x = x + 1) (h : In32 K s.length a st) (hb : (mkBuf s)[st.pos]? = some x)
    (hx : x ≠ endSymbol) : inc st.pos = st.pos + 1 ∧ In32 K s.length (a + -8) { st with pos := st.pos + 1 } := by
  have := buf_inside hb hx
  exact ⟨hL _ (by omega), h.step this⟩

theorem exec32_eq {inc : Nat → Nat} {K : Nat} {s : Str} (hL : ∀ x, x + 1 ≤ 8 * s.length + 9 → inc x = x + 1) {env32 env : Rule → St → Out}
    (henv : ∀ r st a, In32 K s.length a st → a + (tokT r).2 ≤ 9 → env32 r st = env r st ∧ Post32 K s.length (a + (tokT r).1) (env r st)) :
    ∀ (e : PExp) (st : St) (a : Int), (tok e).2.2 = true → In32 K s.length a st → a + (tok e).2.1 ≤ 9 →
      exec32 inc (mkBuf s) env32 e st = exec (mkBuf s) env e st ∧ Post32 K s.length (a + (tok e).1) (exec (mkBuf s) env e st) := by
  intro e
  induction e with
  | eps => intro st a _ h _; exact ⟨rfl, by simpa [tok, exec, Post32] using h⟩
  | any =>
    intro st a _ h _
    simp only [exec32, exec, tok]
    cases hb : (mkBuf s)[st.pos]? with
    | none => exact ⟨rfl, trivial⟩
    | some x =>
      simp only
      split
      · rename_i hx
        obtain ⟨h1, h2⟩ := step32 hL h hb hx
        rw [h1]
        exact ⟨rfl, h2⟩
      · exact ⟨rfl, h.tree⟩
  | chr c =>
    intro st a _ h _
    simp only [exec32, exec, tok]
    cases hb : (mkBuf s)[st.pos]? with
    | none => exact ⟨rfl, trivial⟩
    | some x =>
      simp only
      split
      · exact ⟨rfl, h.tree⟩
      · rename_i hx
        have := char_small c
        obtain ⟨h1, h2⟩ := step32 hL h hb (by omega)
        rw [h1]
        exact ⟨rfl, h2⟩
  | rng lo hi =>
    intro st a _ h _
    simp only [exec32, exec, tok]
    cases hb : (mkBuf s)[st.pos]? with
    | none => exact ⟨rfl, trivial⟩
    | some x =>
      simp only
      split
      · exact ⟨rfl, h.tree⟩
      · rename_i hx
        have := char_small hi
        obtain ⟨h1, h2⟩ := step32 hL h hb (by omega)
        rw [h1]
        exact ⟨rfl, h2⟩
  | seq x y ihx ihy =>
    intro st a hc h hm
    simp only [tok, Bool.and_eq_true] at hc hm ⊢
    obtain ⟨e1, p1⟩ := ihx st a hc.1 h (by omega)
    simp only [exec32, exec, e1]
    cases hx : exec (mkBuf s) env x st with
    | ok st' =>
      rw [hx] at p1
      have := ihy st' _ hc.2 p1 (by omega)
      rwa [Int.add_assoc] at this
    | fail st' => rw [hx] at p1; exact ⟨rfl, p1⟩
    | panic => exact ⟨rfl, trivial⟩
    | div => exact ⟨rfl, trivial⟩
  | alt x y ihx ihy =>
    intro st a hc h hm
    simp only [tok, Bool.and_eq_true] at hc hm ⊢
    obtain ⟨e1, p1⟩ := ihx st a hc.1 h (by omega)
    simp only [exec32, exec, e1]
    cases hx : exec (mkBuf s) env x st with
    | ok st' => rw [hx] at p1; exact ⟨rfl, In32.weaken p1 (by omega)⟩
    | fail st' =>
      rw [hx] at p1
      obtain ⟨e2, p2⟩ := ihy _ a hc.2 (h.restore p1 (Int.le_refl _)) (by omega)
      refine ⟨e2, ?_⟩
      revert p2
      simp only
      cases exec (mkBuf s) env y { st' with pos := st.pos, ti := st.ti } with
      | ok st'' => exact fun p2 => In32.weaken p2 (by omega)
      | fail st'' => exact id
      | panic => exact fun _ => trivial
      | div => exact fun _ => trivial
    | panic => exact ⟨rfl, trivial⟩
    | div => exact ⟨rfl, trivial⟩
  | sw cs x y ihx ihy =>
    intro st a hc h hm
    simp only [tok, Bool.and_eq_true] at hc hm ⊢
    have weak : ∀ {o : Out} {b c : Int}, Post32 K s.length b o → b ≤ c → Post32 K s.length c o := by
      intro o b c hp hbc
      cases o with
      | ok st'' => exact In32.weaken hp hbc
      | fail st'' => exact hp
      | _ => trivial
    simp only [exec32, exec]
    cases hb : (mkBuf s)[st.pos]? with
    | none => exact ⟨rfl, trivial⟩
    | some v =>
      simp only
      split
      · obtain ⟨e1, p1⟩ := ihx st a hc.1 h (by omega)
        exact ⟨e1, weak p1 (by omega)⟩
      · obtain ⟨e1, p1⟩ := ihy st a hc.2 h (by omega)
        exact ⟨e1, weak p1 (by omega)⟩
  | star x ih =>
    intro st a hc h hm
    simp only [tok, Bool.and_eq_true, decide_eq_true_eq] at hc hm ⊢
    simp only [exec32, exec, Int.add_zero]
    generalize (mkBuf s).length - st.pos = n
    induction n generalizing st with
    | zero => exact ⟨rfl, trivial⟩
    | succ n ihn =>
      obtain ⟨e1, p1⟩ := ih st a hc.1 h (by omega)
      simp only [execStar, e1]
      cases hx : exec (mkBuf s) env x st with
      | ok st' => rw [hx] at p1; exact ihn st' (In32.weaken p1 (by omega))
      | fail st' => rw [hx] at p1; exact ⟨rfl, h.restore p1 (Int.le_refl _)⟩
      | panic => exact ⟨rfl, trivial⟩
      | div => exact ⟨rfl, trivial⟩
  | opt x ih =>
    intro st a hc h hm
    simp only [tok] at hc hm ⊢
    obtain ⟨e1, p1⟩ := ih st a hc h (by omega)
    simp only [exec32, exec, e1]
    cases hx : exec (mkBuf s) env x st with
    | ok st' => rw [hx] at p1; exact ⟨rfl, In32.weaken p1 (by omega)⟩
    | fail st' => rw [hx] at p1; exact ⟨rfl, h.restore p1 (by omega)⟩
    | panic => exact ⟨rfl, trivial⟩
    | div => exact ⟨rfl, trivial⟩
  | notP x ih =>
    intro st a hc h hm
    simp only [tok] at hc hm ⊢
    obtain ⟨e1, p1⟩ := ih st a hc h (by omega)
    simp only [exec32, exec, e1]
    cases hx : exec (mkBuf s) env x st with
    | ok st' => rw [hx] at p1; exact ⟨rfl, In32.tree p1⟩
    | fail st' => rw [hx] at p1; exact ⟨rfl, h.restore p1 (by omega)⟩
    | panic => exact ⟨rfl, trivial⟩
    | div => exact ⟨rfl, trivial⟩
  | call r =>
    intro st a _ h hm
    exact henv r st a h hm
  | txt x ih =>
    intro st a hc h hm
    simp only [tok] at hc hm ⊢
    obtain ⟨e1, p1⟩ := ih st a hc h (by omega)
    simp only [exec32, exec, e1]
    cases hx : exec (mkBuf s) env x st with
    | ok st' =>
      rw [hx] at p1
      obtain ⟨e2, p2⟩ := addTok32_eq (k := .text) (b := st.pos) hL p1 (by omega)
      simp only [e2]
      rw [Int.add_assoc] at p2
      exact ⟨trivial, p2⟩
    | fail st' => rw [hx] at p1; exact ⟨rfl, p1⟩
    | panic => exact ⟨rfl, trivial⟩
    | div => exact ⟨rfl, trivial⟩
  | act n =>
    intro st a _ h hm
    obtain ⟨e2, p2⟩ := addTok32_eq (k := .act n) (b := st.pos) hL h hm
    simp only [exec32, exec, e2]
    exact ⟨trivial, p2⟩

theorem execN32_eq {inc : Nat → Nat} {K : Nat} {s : Str} (hL : ∀ x, x + 1 ≤ 8 * s.length + 9 → inc x = x + 1) : ∀ (d : Nat) (r : Rule) (st : St) (a : Int), In32 K s.length a st → a + (tokT r).2 ≤ 9 →
    execN32 inc (mkBuf s) G d r st = execN (mkBuf s) G d r st ∧ Post32 K s.length (a + (tokT r).1) (execN (mkBuf s) G d r st) := by
  intro d
  induction d with
  | zero => intro r st a _ _; exact ⟨rfl, trivial⟩
  | succ d ih =>
    intro r st a h hm
    obtain ⟨c1, c2, c3, c4⟩ := tokT_ok r
    obtain ⟨e1, p1⟩ := exec32_eq hL ih (G r) st a c1 h (by omega)
    simp only [execN32, execN, e1]
    cases hx : exec (mkBuf s) (execN (mkBuf s) G d) (G r) st with
    | ok st' =>
      rw [hx] at p1
      obtain ⟨e2, p2⟩ := addTok32_eq (k := .rule r) (b := st.pos) hL p1 (by omega)
      simp only [e2]
      exact ⟨trivial, In32.weaken p2 (by omega)⟩
    | fail st' => rw [hx] at p1; exact ⟨rfl, p1⟩
    | panic => exact ⟨rfl, trivial⟩
    | div => exact ⟨rfl, trivial⟩

end Verif
