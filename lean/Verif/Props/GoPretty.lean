import Verif.Gen.PrettyRun
import Verif.Props.GoSupport

/-!
# C90: the field `Pretty` can be changed at any time

`Pretty` is an exported field of parser objects.  `goRunP` is a program that assigns to it before each use of the object (`C87` has programs that give it a value
once).  Every answer is then the one that an object made with that value gives, and up to colours it is the one of an object without colours.
-/

namespace Verif
open Gen

/-- A call in the model gives an answer or panics. -/
theorem mOp_cases (Q : Char → Bool) (b : Bool) (m : Mst) (o : Op) : (∃ x, mOp Q b m o = .ok x) ∨ mOp Q b m o = .panic := by
  cases o with
  | ask s => rcases pegParse_cases s m.arr with ⟨st', ts, ev, x1, x2, x3, -, -, -⟩ | ⟨st', x1, x2, -, -, -⟩ <;> simp [mOp, *]
  | askAt k s =>
    rcases runRule_cases k s m.arr with x1 | ⟨st', x1, hl⟩ | ⟨st', x1⟩
    · simp [mOp, pegParseAt, x1]
    · simp [mOp, pegParseAt, x1, Nat.not_lt.2 hl]
    · simp [mOp, pegParseAt, x1]
  | print => exact .inl ⟨_, rfl⟩
  | message =>
    simp only [mOp]
    cases m.err with
    | none => simp
    | some t => simp only; cases errorText Q b m.s t <;> simp
  | tree => simp only [mOp]; cases treeText Q b m.s m.toks <;> simp
  | sprint => simp only [mOp]; cases treeText Q false m.s m.toks <;> simp

/-- Each answer is the one with its value of `Pretty`. -/
theorem mOpsP_each (Q : Char → Bool) : ∀ (l : List (Bool × Op)) (m : Mst),
    (∃ xs, mOpsP Q m l = .ok xs ∧ ∀ b, ∃ ys, mOps Q b m (l.map (·.2)) = .ok ys ∧ ∀ (i : Nat) (o : Op), l[i]? = some (b, o) → ∃ x, xs[i]? = some x ∧ ys[i]? = some x) ∨
    (mOpsP Q m l = .panic ∧ ∀ b, mOps Q b m (l.map (·.2)) = .panic)
  | [], m => .inl ⟨[], rfl, fun b => ⟨[], rfl, by simp⟩⟩
  | (b0, o) :: l, m => by
    rcases mOp_cases Q b0 m o with ⟨⟨x, m'⟩, h⟩ | h
    · have ho : ∀ b, ∃ y, mOp Q b m o = .ok (y, m') := fun b => by have := mOp_pretty (Q := Q) b0 b m o; rw [h] at this; exact this
      rcases mOpsP_each Q l m' with ⟨xs, e1, e2⟩ | ⟨e1, e2⟩
      · refine .inl ⟨x :: xs, by simp only [mOpsP, h, e1], fun b => ?_⟩
        obtain ⟨ys, e3, e4⟩ := e2 b
        obtain ⟨y, hy⟩ := ho b
        refine ⟨y :: ys, by simp only [List.map_cons, mOps, hy, e3], fun i o' hi => ?_⟩
        cases i with
        | zero =>
          simp only [List.getElem?_cons_zero, Option.some.injEq, Prod.mk.injEq] at hi
          obtain ⟨rfl, rfl⟩ := hi
          rw [h] at hy
          cases hy
          exact ⟨x, rfl, rfl⟩
        | succ i => exact e4 i o' hi
      · refine .inr ⟨by simp only [mOpsP, h, e1], fun b => ?_⟩
        obtain ⟨y, hy⟩ := ho b
        simp only [List.map_cons, mOps, hy, e2]
    · refine .inr ⟨by simp only [mOpsP, h], fun b => ?_⟩
      have := mOp_pretty (Q := Q) b0 b m o
      rw [h] at this
      simp only at this
      simp only [List.map_cons, mOps, this]

/-- The bound of `C87_bound`. -/
theorem prettyRun_eq {P : Gen.Prog} (hP : readGo supportText = some P) (Q : Char → Bool) (pretty : Bool) (s : Str) (l : List (Bool × Op)) (K n : Nat)
    (hK : ∀ t, asks (l.map (·.2)) t → t.length ≤ K) (hn : 16 * K + 25 ≤ n) : goRunP P Q n pretty s l = mOpsP Q ⟨s, [], [], none⟩ l := by
  obtain ⟨n, rfl⟩ : ∃ n', n = n' + 5 := ⟨n - 5, by omega⟩
  rw [support_of hP]
  exact goRunP_eq pretty s l (by have := needs_bound Q false (l.map (·.2)) ⟨s, [], [], none⟩ (Nat.zero_le _) (Nat.zero_le _) hK; omega)

/-- C90: a program assigns to `p.Pretty` before each use of the object.  If it panics, so does the program that makes the object with any value of `Pretty` and
leaves it; else each answer after `p.Pretty = b` is the answer, at the same place, of the object that was made with `b`. -/
theorem C90_each {P : Gen.Prog} (hP : readGo supportText = some P) (Q : Char → Bool) (pretty : Bool) (s : Str) (l : List (Bool × Op)) (K n : Nat)
    (hK : ∀ t, asks (l.map (·.2)) t → t.length ≤ K) (hn : 16 * K + 25 ≤ n) :
    (∃ xs, goRunP P Q n pretty s l = .ok xs ∧
      ∀ b, ∃ ys, goRun P Q n b s (l.map (·.2)) = .ok ys ∧ ∀ (i : Nat) (o : Op), l[i]? = some (b, o) → ∃ x, xs[i]? = some x ∧ ys[i]? = some x) ∨
    (goRunP P Q n pretty s l = .panic ∧ ∀ b, goRun P Q n b s (l.map (·.2)) = .panic) := by
  rw [prettyRun_eq hP Q pretty s l K n hK hn]
  have := mOpsP_each Q l ⟨s, [], [], none⟩
  simp only [← C87_bound hP Q _ s (l.map (·.2)) K n hK hn] at this
  exact this

-- the same error, told without and with colours by one object; then a tree with colours, and the tree of SprintSyntaxTree, which never has any
example : texts (goRunP gDecls ascii 57 true c!"x" [(true, .ask c!"("), (false, .message), (true, .message), (true, .askAt 15 c!"a"), (true, .tree), (true, .sprint)]) =
    some [none, some c!"\nparse error near Unknown (line 1 symbol 1 - line 1 symbol 1):\n\"\"\n",
      some (c!"\nparse error near " ++ esc :: (c!"[34mUnknown" ++ esc :: c!"[m (line 1 symbol 1 - line 1 symbol 1):\n\"\"\n")), none,
      some (esc :: (c!"[36mIdentifier" ++ esc :: c!"[m \"a\"\n ") ++ esc :: (c!"[36mPegText" ++ esc :: c!"[m \"a\"\n")), some c!"Identifier \"a\"\n PegText \"a\"\n"] := by
  rw [prettyRun_eq C87_program ascii true c!"x" _ 2 57 (by simp [asks]) (by omega)]
  decide +kernel

/-- An answer without colours. -/
def Gen.Ans.plain : Ans → Ans
  | .text t => .text (stripColour false t)
  | x => x

/-- The answers without colours. -/
def plainly : Gen.Res (List Ans) → Gen.Res (List Ans)
  | .ok xs => .ok (xs.map Ans.plain)
  | r => r

/-- Without escape characters there is nothing to remove. -/
theorem strip_none {a : Str} (h : esc ∉ a) : stripColour false a = a := by
  have := strip_plain h []
  simpa [stripColour] using this

theorem esc_quote {Q : Char → Bool} (hQ : Q esc = false) (u : Str) : esc ∉ quote Q u := by
  have := quote_noCtl hQ (by decide) (by decide) (by decide) u
  simp [esc] at this ⊢
  exact this

/-- Messages: colours are only decoration. -/
theorem message_colour {Q : Char → Bool} (hQ : Q esc = false) (s : Str) (m : Tok) :
    errorText Q false s m = (errorText Q true s m).map (stripColour false) := by
  unfold errorText
  rw [Option.map_map]
  congr 1
  funext r
  have hd : ∀ k, esc ∉ natText k := natText_not (by decide)
  have hm : esc ∉ maxName m := fun hm => absurd (maxName_chars m _ hm) (by decide)
  have hq := esc_quote hQ (r.2.2.map Char.ofNat)
  simp only [Function.comp_apply, List.append_assoc]
  rw [strip_plain (by decide), strip_coloured hm (by decide), strip_none]
  · simp [coloured]
  · simp only [List.mem_append, not_or]
    refine ⟨by decide, hd _, by decide, hd _, by decide, hd _, by decide, hd _, by decide, hq, by decide⟩

/-- One call, up to colours. -/
theorem mOp_plain {Q : Char → Bool} (hQ : Q esc = false) (b : Bool) (m : Mst) (o : Op) :
    (∃ x y m', mOp Q b m o = .ok (x, m') ∧ mOp Q false m o = .ok (y, m') ∧ x.plain = y.plain) ∨ (mOp Q b m o = .panic ∧ mOp Q false m o = .panic) := by
  have same : mOp Q b m o = mOp Q false m o →
      (∃ x y m', mOp Q b m o = .ok (x, m') ∧ mOp Q false m o = .ok (y, m') ∧ x.plain = y.plain) ∨ (mOp Q b m o = .panic ∧ mOp Q false m o = .panic) := fun e => by
    rw [e]
    rcases mOp_cases Q false m o with ⟨⟨x, m'⟩, h⟩ | h
    · exact .inl ⟨x, x, m', h, h, rfl⟩
    · exact .inr ⟨h, h⟩
  have idem : ∀ u : Str, esc ∉ stripColour false u → (Ans.text u).plain = (Ans.text (stripColour false u)).plain := fun u h => by
    simp only [Ans.plain, strip_none h]
  cases b with
  | false => exact same rfl
  | true =>
    cases o with
    | ask s => exact same rfl
    | askAt k s => exact same rfl
    | print => exact same rfl
    | sprint => exact same rfl
    | message =>
      simp only [mOp]
      cases m.err with
      | none => exact .inl ⟨_, _, _, rfl, rfl, rfl⟩
      | some t =>
        simp only [message_colour hQ]
        cases h : errorText Q true m.s t with
        | none => exact .inr ⟨rfl, rfl⟩
        | some u => exact .inl ⟨_, _, _, rfl, rfl, idem u (strip_esc u false)⟩
    | tree =>
      simp only [mOp, C57_colour Q hQ]
      cases h : treeText Q true m.s m.toks with
      | none => exact .inr ⟨rfl, rfl⟩
      | some u => exact .inl ⟨_, _, _, rfl, rfl, idem u (strip_esc u false)⟩
where
  strip_esc : ∀ (u : Str) (c : Bool), esc ∉ stripColour c u
    | [], c => by simp [stripColour]
    | x :: u, false => by
      unfold stripColour
      split
      · exact strip_esc u true
      · rename_i hx
        simp only [List.mem_cons, not_or]
        exact ⟨fun e => hx e.symm, strip_esc u false⟩
    | x :: u, true => by
      unfold stripColour
      split
      · exact strip_esc u false
      · exact strip_esc u true

/-- C90: the field changes nothing but colours: whatever values it takes, the program sees what it would see without colours, and panics when it would.  `Q` says which
characters are printable (as in C57, the escape character is not). -/
theorem C90_colour {P : Gen.Prog} (hP : readGo supportText = some P) (Q : Char → Bool) (hQ : Q esc = false) (pretty : Bool) (s : Str) (l : List (Bool × Op)) (K n : Nat)
    (hK : ∀ t, asks (l.map (·.2)) t → t.length ≤ K) (hn : 16 * K + 25 ≤ n) :
    plainly (goRunP P Q n pretty s l) = plainly (goRun P Q n false s (l.map (·.2))) := by
  rw [prettyRun_eq hP Q pretty s l K n hK hn, C87_bound hP Q false s _ K n hK hn]
  generalize (⟨s, [], [], none⟩ : Mst) = m
  clear hK
  induction l generalizing m with
  | nil => rfl
  | cons x l ih =>
    obtain ⟨b, o⟩ := x
    simp only [List.map_cons, mOpsP, mOps]
    rcases mOp_plain hQ b m o with ⟨x, y, m', h1, h2, h3⟩ | ⟨h1, h2⟩
    · simp only [h1, h2]
      have := ih m'
      generalize mOpsP Q m' l = r1 at this
      generalize mOps Q false m' (l.map (·.2)) = r2 at this
      cases r1 <;> cases r2 <;> simp only [plainly, reduceCtorEq, Gen.Res.ok.injEq, List.map_cons, h3, List.cons.injEq, true_and] at this ⊢
      exact this
    · simp only [h1, h2]

-- the run above
example : plainly (goRunP gDecls ascii 57 true c!"x" [(true, .ask c!"("), (false, .message), (true, .message), (true, .askAt 15 c!"a"), (true, .tree), (true, .sprint)]) =
    plainly (goRun gDecls ascii 57 false c!"x" [.ask c!"(", .message, .message, .askAt 15 c!"a", .tree, .sprint]) :=
  C90_colour C87_program ascii (by decide) true c!"x" _ 2 57 (by simp [asks]) (by omega)

end Verif
