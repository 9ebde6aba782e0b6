import Verif.Spec.Size
import Verif.Props.Layout

/-! # Lemmas for C65 and C66 -/

namespace Verif

/-! ## The events of a run -/

/-- The size of what an event can add to the tree. -/
def wEv : List Ev → Nat
  | [] => 0
  | .text x :: l => 3 * x.length + wEv l
  | .act _ :: l => 1 + wEv l

theorem wEv_append (a b : List Ev) : wEv (a ++ b) = wEv a + wEv b := by
  induction a with
  | nil => simp [wEv]
  | cons e a ih => cases e <;> simp [wEv, ih] <;> omega

/-- What a rule adds at most, beyond `k` for each character it consumes. -/
def ruleCost (k : Int) (r : Rule) : Option Int :=
  if k = 5 then
    some (match r with
      | .sp | .EndOfFile => 0
      | .sp1 | .SpaceComment | .Space | .Comment | .EndOfLine => -5
      | .IdentifierReference | .JsonReference | .ArgumentList | .Array | .String | .Match => -5
      | .Logic => -3
      | _ => -1)
  else if k = 2 then
    (match r with
      | .sp => some 0
      | .sp1 | .SpaceComment | .Space | .Comment | .EndOfLine => some (-2)
      | _ => none)
  else none

/-- What an expression adds at most, beyond `k` for each character it consumes. -/
def cost (k : Int) : PExp → Option Int
  | .eps => some 0
  | .any => some (-k)
  | .chr _ => some (-k)
  | .rng _ _ => some (-k)
  | .seq a b => match cost k a, cost k b with | some x, some y => some (x + y) | _, _ => none
  | .alt a b => match cost k a, cost k b with | some x, some y => some (max x y) | _, _ => none
  | .star a => match cost k a with | some x => if x ≤ 0 then some 0 else none | none => none
  | .opt a => match cost k a with | some x => some (max x 0) | none => none
  | .notP _ => some 0
  | .call r => ruleCost k r
  | .txt a => cost (k - 3) a
  | .act _ => some 1
  | .sw _ a b => match cost k a, cost k b with | some x, some y => some (max x y) | _, _ => none

theorem cost_rules (k v : Int) (r : Rule) (h : ruleCost k r = some v) : ∃ c, cost k (G r) = some c ∧ c ≤ v := by
  unfold ruleCost at h
  have key : ∀ (o : Option Int) (v : Int), (match o with | some c => decide (c ≤ v) | none => false) = true → ∃ c, o = some c ∧ c ≤ v := by
    intro o v h
    cases o with
    | none => cases h
    | some c => exact ⟨c, rfl, of_decide_eq_true h⟩
  split at h
  · rename_i hk
    subst hk
    cases h
    apply key
    cases r <;> decide +kernel
  · split at h
    · rename_i hk
      subst hk
      cases r <;> cases h <;> exact key _ _ (by decide +kernel)
    · cases h

theorem big_cost {e s x} (h : Big G e s x) : ∀ {ev r}, x = some (ev, r) → ∀ {k c}, cost k e = some c →
    r.length ≤ s.length ∧ (wEv ev : Int) ≤ c + k * ((s.length : Int) - r.length) := by
  have one : ∀ {c : Char} {s : Str} {ev : List Ev} {r : Str} {k c' : Int}, some (([] : List Ev), s) = some (ev, r) → some (-k) = some c' →
      r.length ≤ (c :: s).length ∧ (wEv ev : Int) ≤ c' + k * (((c :: s).length : Int) - r.length) := by
    intro c s ev r k c' h1 h2
    cases h1
    cases h2
    refine ⟨by simp, ?_⟩
    have : (((c :: s).length : Int) - s.length) = 1 := by simp; omega
    rw [this]
    simp [wEv]
    omega
  have zero : ∀ {s : Str} {ev : List Ev} {r : Str} {k c' : Int}, some (([] : List Ev), s) = some (ev, r) → 0 ≤ c' →
      r.length ≤ s.length ∧ (wEv ev : Int) ≤ c' + k * ((s.length : Int) - r.length) := by
    intro s ev r k c' h1 h2
    cases h1
    refine ⟨Nat.le_refl _, ?_⟩
    simp [wEv]
    omega
  have two : ∀ {s r1 r2 : Str} {e1 e2 : List Ev} {k c1 c2 c : Int}, (r1.length ≤ s.length ∧ (wEv e1 : Int) ≤ c1 + k * ((s.length : Int) - r1.length)) →
      (r2.length ≤ r1.length ∧ (wEv e2 : Int) ≤ c2 + k * ((r1.length : Int) - r2.length)) → c1 + c2 ≤ c →
      r2.length ≤ s.length ∧ (wEv (e1 ++ e2) : Int) ≤ c + k * ((s.length : Int) - r2.length) := by
    intro s r1 r2 e1 e2 k c1 c2 c h1 h2 hc
    refine ⟨by omega, ?_⟩
    rw [wEv_append]
    have e : k * ((s.length : Int) - r2.length) = k * ((s.length : Int) - r1.length) + k * ((r1.length : Int) - r2.length) := by
      rw [← Int.mul_add]; congr 1; omega
    have := h1.2
    have := h2.2
    push_cast
    omega
  have up : ∀ {s r : Str} {ev : List Ev} {k c c' : Int}, (r.length ≤ s.length ∧ (wEv ev : Int) ≤ c + k * ((s.length : Int) - r.length)) → c ≤ c' →
      r.length ≤ s.length ∧ (wEv ev : Int) ≤ c' + k * ((s.length : Int) - r.length) := fun h hc => ⟨h.1, by have := h.2; omega⟩
  induction h with
  | eps => intro ev r h k c hc; cases hc; exact zero h (Int.le_refl _)
  | anyOk => intro ev r h k c hc; exact one h hc
  | anyFail => intro ev r h; cases h
  | chrOk => intro ev r h k c hc; exact one h hc
  | chrNil => intro ev r h; cases h
  | chrFail => intro ev r h; cases h
  | rngOk => intro ev r h k c hc; exact one h hc
  | rngNil => intro ev r h; cases h
  | rngFail => intro ev r h; cases h
  | seqOk _ _ ih1 ih2 =>
    intro ev r h k c hc
    simp only [cost] at hc
    split at hc
    · rename_i x y h1 h2
      cases h
      cases hc
      exact two (ih1 rfl h1) (ih2 rfl h2) (Int.le_refl _)
    · cases hc
  | seqFail1 => intro ev r h; cases h
  | seqFail2 => intro ev r h; cases h
  | alt1 _ ih =>
    intro ev r h k c hc
    simp only [cost] at hc
    split at hc
    · rename_i x y h1 h2
      cases hc
      exact up (ih h h1) (Int.le_max_left _ _)
    · cases hc
  | alt2 _ _ _ ih =>
    intro ev r h k c hc
    simp only [cost] at hc
    split at hc
    · rename_i x y h1 h2
      cases hc
      exact up (ih h h2) (Int.le_max_right _ _)
    · cases hc
  | starNil _ _ =>
    intro ev r h k c hc
    simp only [cost] at hc
    split at hc
    · split at hc
      · cases hc; exact zero h (Int.le_refl _)
      · cases hc
    · cases hc
  | starCons _ _ ih1 ih2 =>
    intro ev r h k c hc
    have hc0 := hc
    simp only [cost] at hc
    split at hc
    · rename_i x h1
      split at hc
      · rename_i h0
        cases h
        cases hc
        exact two (ih1 rfl h1) (ih2 rfl hc0) (by omega)
      · cases hc
    · cases hc
  | optSome _ ih =>
    intro ev r h k c hc
    simp only [cost] at hc
    split at hc
    · rename_i x h1
      cases hc
      exact up (ih h h1) (Int.le_max_left _ _)
    · cases hc
  | optNone _ _ =>
    intro ev r h k c hc
    simp only [cost] at hc
    split at hc
    · cases hc
      exact zero h (Int.le_max_right _ _)
    · cases hc
  | notFail => intro ev r h; cases h
  | notOk => intro ev r h k c hc; cases hc; exact zero h (Int.le_refl _)
  | call _ ih =>
    intro ev r h k c hc
    obtain ⟨c', h1, h2⟩ := cost_rules _ _ _ hc
    exact up (ih h h1) h2
  | @txtOk a s e r _ ih =>
    intro ev r' h k c hc
    cases h
    have := ih rfl (k := k - 3) hc
    refine ⟨this.1, ?_⟩
    rw [wEv_append]
    have hl : wEv [Ev.text (s.take (s.length - r.length))] = 3 * (s.length - r.length) := by
      simp [wEv]
    rw [hl]
    have h2 := this.2
    rw [Int.sub_mul] at h2
    have h1 := this.1
    omega
  | txtFail => intro ev r h; cases h
  | act =>
    intro ev r h k c hc
    cases h
    cases hc
    simp [wEv]
  | swIn _ _ ih =>
    intro ev r h k c hc
    simp only [cost] at hc
    split at hc
    · rename_i x y h1 h2
      cases hc
      exact up (ih h h1) (Int.le_max_left _ _)
    · cases hc
  | swOut _ _ ih =>
    intro ev r h k c hc
    simp only [cost] at hc
    split at hc
    · rename_i x y h1 h2
      cases hc
      exact up (ih h h2) (Int.le_max_right _ _)
    · cases hc
  | swNil _ ih =>
    intro ev r h k c hc
    simp only [cost] at hc
    split at hc
    · rename_i x y h1 h2
      cases hc
      exact up (ih h h2) (Int.le_max_right _ _)
    · cases hc

/-! ## The tree -/

theorem weightL_append (a b : List Node) : weightL (a ++ b) = weightL a + weightL b := by
  induction a with
  | nil => simp [weightL]
  | cons n a ih => simp [weightL, ih]; omega

theorem weightL_reverse (a : List Node) : weightL a.reverse = weightL a := by
  induction a with
  | nil => rfl
  | cons n a ih => rw [List.reverse_cons, weightL_append, ih]; simp [weightL]; omega

theorem squeeze_length (s : Str) : ∀ b, (squeeze b s).length ≤ s.length := by
  induction s with
  | nil => intro b; exact Nat.le_refl _
  | cons c s ih =>
    intro b
    rw [squeeze]
    have := ih true
    have := ih false
    split
    · split <;> simp <;> omega
    · simp; omega

theorem dropWhile_length (p : Char → Bool) (s : Str) : (s.dropWhile p).length ≤ s.length := (List.dropWhile_sublist p).length_le

/-- Operator names are at most three times as long as their spelling. -/
theorem normOp_length (s : Str) : (normOp s).length ≤ 3 * s.length := by
  have h1 : (squeeze false (goLower (goTrim s))).length ≤ s.length := by
    refine Nat.le_trans (squeeze_length _ _) ?_
    rw [goLower, List.length_map, goTrim, List.length_reverse]
    refine Nat.le_trans (dropWhile_length _ _) ?_
    rw [List.length_reverse]
    exact dropWhile_length _ _
  unfold normOp
  simp only
  split
  · rename_i v hv
    have : ∀ x ∈ normTable, x.2.length ≤ 3 * x.1.length := by decide
    have key : ∀ {l : List (Str × Str)} {k w}, l.lookup k = some w → (k, w) ∈ l := by
      intro l k w hl
      induction l with
      | nil => cases hl
      | cons a l ih =>
        rw [List.lookup_cons] at hl
        split at hl
        · rename_i he
          cases hl
          rw [beq_iff_eq.mp he]
          simp
        · exact List.mem_cons_of_mem _ (ih hl)
    have := this _ (key hv)
    simp only at this
    omega
  · omega

theorem pop_weight (t : Tree) : weight t.pop.1 + weightL t.pop.2.stack = weightL t.stack := by
  unfold Tree.pop
  split <;> rename_i h <;> simp [h, weight, weightL]

theorem popMarked_weight {t : Tree} {l t'} (h : t.popMarked = some (l, t')) : weightL l + weightL t'.stack = weightL t.stack := by
  unfold Tree.popMarked at h
  split at h
  · cases h
  · split at h
    · cases h
    · cases h
      simp only [weightL_reverse]
      rw [← weightL_append, List.take_append_drop]

theorem names_weight {l : List Node} : ∀ {ns}, l.mapM Tree.nodeName = some ns → (ns.map fun x => 1 + x.length).sum ≤ weightL l := by
  induction l with
  | nil => intro ns h; cases h; simp
  | cons n l ih =>
    intro ns h
    rw [List.mapM_cons] at h
    cases hn : Tree.nodeName n with
    | none => rw [hn] at h; cases h
    | some x =>
      rw [hn] at h
      cases hl : l.mapM Tree.nodeName with
      | none => rw [hl] at h; cases h
      | some xs =>
        rw [hl] at h
        cases h
        have := ih hl
        have h1 : 1 + x.length ≤ weight n := by
          cases n <;> simp only [Tree.nodeName] at hn <;> cases hn <;> simp [weight] <;> omega
        simp only [List.map_cons, List.sum_cons, weightL]
        omega

/-- An action adds one node, and the captured text if it reads it. -/
theorem act_weight {k x t t'} (h : runAct k x t = some t') :
    weightL t'.stack ≤ weightL t.stack + 1 + (if k ∈ textActs then 3 * x.length else 0) := by
  have tx : ∀ {n : Node}, weight n ≤ 1 + 3 * x.length → weightL (t.push n).stack ≤ weightL t.stack + 1 + 3 * x.length := by
    intro n hn
    simp only [Tree.push, weightL]
    omega
  have hop : weightL (t.addOperation x).stack ≤ weightL t.stack + 1 + 3 * x.length := by
    refine tx ?_
    have := normOp_length x
    simp only [weight]; omega
  have p1 := pop_weight t
  have p2 := pop_weight t.pop.2
  have p3 := pop_weight t.pop.2.pop.2
  have p4 := pop_weight t.pop.2.pop.2.pop.2
  have add : ∀ e, (t.addError e).stack = t.stack := fun e => by cases e <;> rfl
  have harr : ∀ {t'}, t.popArray = some t' → weightL t'.stack ≤ weightL t.stack + 1 := by
    intro t' h
    unfold Tree.popArray at h
    split at h
    · cases h
    · rename_i hm
      cases h
      have := popMarked_weight hm
      simp only [Tree.push, weightL, weight]
      omega
  unfold runAct at h
  split at h
  all_goals first
    | (cases h
       simp only [Tree.popLogic, Tree.popNot, Tree.popCompare, Tree.popPredicate, Tree.popBetween, Tree.popParentheses, Tree.push, Tree.addMark, weightL, weight]
       omega)
    | (cases h; exact hop)
    | exact harr h
    | skip
  · cases h
    simp only [Tree.popFunction]
    split
    · rename_i h1 h2
      rw [h2] at p1
      rw [h1] at p2
      simp only [Tree.push, weightL, weight] at *
      omega
    · have e : ∀ (t : Tree) e, (t.addError e).stack = t.stack := fun t e => by cases e <;> rfl
      rw [e]
      omega
  · unfold Tree.popIdentifierReference at h
    split at h
    · cases h
    · rename_i hm
      split at h
      · cases h
      · rename_i hn
        cases h
        have := popMarked_weight hm
        have := names_weight hn
        simp only [Tree.push, weightL, weight]
        omega
  · cases h; exact tx (by simp only [weight]; omega)
  · cases h
    simp only [Tree.addInteger, Tree.push, add, weightL, weight]
    omega
  · cases h
    simp only [Tree.addBoolean, Tree.push, add, weightL, weight]
    omega
  · cases h
    simp only [Tree.addNull, Tree.push, weightL, weight]
    omega
  · cases h; exact tx (by simp only [weight]; omega)
  · cases h; exact tx (by simp only [weight]; omega)
  · cases h; omega

/-- The size of a captured text that has not been used yet. -/
def Cap.pending (p : Cap) (x : Str) : Nat := match p with | .no => 0 | _ => 3 * x.length

theorem run_weight {B p ev ev' p'} (h : LEv B p ev ev' p') : ∀ {x t x' t'}, runX x ev t = some (x', t') →
    weightL t'.stack + p'.pending x' ≤ weightL t.stack + p.pending x + wEv ev := by
  induction h with
  | nil => intro x t x' t' h; cases h; simp [wEv]
  | same => intro x t x' t' h; cases h; simp [wEv, Cap.pending]
  | loose => intro x t x' t' h; cases h; simp [wEv, Cap.pending]
  | @op p k _ hp =>
    intro x t x' t' h
    simp only [runX] at h
    split at h
    · cases h
    · rename_i h1
      cases h
      have := act_weight h1
      have e : p.pending x = 3 * x.length := by cases p <;> first | exact absurd rfl hp | rfl
      simp only [wEv, e]
      simp only [Cap.pending]
      split at this <;> omega
  | use _ | str _ _ =>
    intro x t x' t' h
    simp only [runX] at h
    split at h
    · cases h
    · rename_i h1
      cases h
      have := act_weight h1
      simp only [wEv, Cap.pending]
      split at this <;> omega
  | act hk =>
    intro x t x' t' h
    simp only [runX] at h
    split at h
    · cases h
    · rename_i h1
      cases h
      have := act_weight h1
      rw [if_neg hk] at this
      simp only [wEv, Cap.pending]
      omega
  | app _ _ ih1 ih2 =>
    intro x t x' t' h
    rw [runX_append] at h
    cases h1 : runX x _ t with
    | none => rw [h1] at h; cases h
    | some y =>
      rw [h1] at h
      have a := ih1 h1
      have b := ih2 h
      rw [wEv_append]
      omega

/-! ## Sizes and depths -/

mutual
theorem depth_le_weight : ∀ n : Node, depth n ≤ weight n
  | .nil => Nat.le_refl _
  | .int _ | .bool _ | .null | .str _ | .op _ | .ident _ | .ref _ => by simp [depth, weight]
  | .arr l => by have := depthL_le_weight l; simp only [depth, weight]; omega
  | .pred l o => by have := depth_le_weight l; have := depth_le_weight o; simp only [depth, weight]; omega
  | .cmp l o r => by have := depth_le_weight l; have := depth_le_weight o; have := depth_le_weight r; simp only [depth, weight]; omega
  | .logic l o r => by have := depth_le_weight l; have := depth_le_weight o; have := depth_le_weight r; simp only [depth, weight]; omega
  | .paren e => by have := depth_le_weight e; simp only [depth, weight]; omega
  | .not e => by have := depth_le_weight e; simp only [depth, weight]; omega
  | .between l o a b => by
    have := depth_le_weight l; have := depth_le_weight o; have := depth_le_weight a; have := depth_le_weight b
    simp only [depth, weight]; omega
  | .func f l => by have := depthL_le_weight l; simp only [depth, weight]; omega
theorem depthL_le_weight : ∀ l : List Node, depthL l ≤ weightL l
  | [] => Nat.le_refl _
  | n :: l => by have := depth_le_weight n; have := depthL_le_weight l; simp only [depthL, weightL]; omega
end

mutual
theorem wide_rangeFree : ∀ n : Node, rangeFree n = true → wide n = weight n
  | .nil, _ => rfl
  | .int _, _ | .bool _, _ | .null, _ | .str _, _ | .op _, _ | .ident _, _ | .ref _, _ => by simp [wide]
  | .arr l, _ => rfl
  | .pred l o, h => by
    simp only [rangeFree, Bool.and_eq_true] at h
    simp only [wide, weight, wide_rangeFree l h.1, wide_rangeFree o h.2]
  | .cmp l o r, h => by
    simp only [rangeFree, Bool.and_eq_true] at h
    simp only [wide, weight, wide_rangeFree l h.1, wide_rangeFree o h.2.1, wide_rangeFree r h.2.2]
  | .logic l o r, h => by
    simp only [rangeFree, Bool.and_eq_true] at h
    simp only [wide, weight, wide_rangeFree l h.1, wide_rangeFree o h.2.1, wide_rangeFree r h.2.2]
  | .paren e, h => by simp only [rangeFree] at h; simp only [wide, weight, wide_rangeFree e h]
  | .not e, h => by simp only [rangeFree] at h; simp only [wide, weight, wide_rangeFree e h]
  | .between _ _ _ _, h => by cases h
  | .func f l, h => by simp only [rangeFree] at h; simp only [wide, weight, wideL_rangeFree l h]
theorem wideL_rangeFree : ∀ l : List Node, rangeFreeL l = true → wideL l = weightL l
  | [], _ => rfl
  | n :: l, h => by
    simp only [rangeFreeL, Bool.and_eq_true] at h
    simp only [wideL, weightL, wide_rangeFree n h.1, wideL_rangeFree l h.2]
end

mutual
theorem wide_flat : ∀ n : Node, flatRanges n = true → wide n ≤ 2 * weight n
  | .nil, _ => Nat.le_refl _
  | .int _, _ | .bool _, _ | .null, _ | .str _, _ | .op _, _ | .ident _, _ | .ref _, _ => by simp only [wide, weight]; omega
  | .arr l, _ => by simp only [wide, weight]; omega
  | .pred l o, h => by
    simp only [flatRanges, Bool.and_eq_true] at h
    have := wide_flat l h.1; have := wide_flat o h.2
    simp only [wide, weight]; omega
  | .cmp l o r, h => by
    simp only [flatRanges, Bool.and_eq_true] at h
    have := wide_flat l h.1; have := wide_flat o h.2.1; have := wide_flat r h.2.2
    simp only [wide, weight]; omega
  | .logic l o r, h => by
    simp only [flatRanges, Bool.and_eq_true] at h
    have := wide_flat l h.1; have := wide_flat o h.2.1; have := wide_flat r h.2.2
    simp only [wide, weight]; omega
  | .paren e, h => by simp only [flatRanges] at h; have := wide_flat e h; simp only [wide, weight]; omega
  | .not e, h => by simp only [flatRanges] at h; have := wide_flat e h; simp only [wide, weight]; omega
  | .between l o a b, h => by
    simp only [flatRanges, Bool.and_eq_true] at h
    simp only [wide, weight, wide_rangeFree l h.1, wide_rangeFree o h.2.1, wide_rangeFree a h.2.2.1, wide_rangeFree b h.2.2.2]
    omega
  | .func f l, h => by simp only [flatRanges] at h; have := wideL_flat l h; simp only [wide, weight]; omega
theorem wideL_flat : ∀ l : List Node, flatRangesL l = true → wideL l ≤ 2 * weightL l
  | [], _ => Nat.le_refl _
  | n :: l, h => by
    simp only [flatRangesL, Bool.and_eq_true] at h
    have := wide_flat n h.1; have := wideL_flat l h.2
    simp only [wideL, weightL]; omega
end

/-- The size of the tree of a query. -/
theorem parse_weight {s n} (h : parse s = .ok n) : weight n + 1 ≤ 5 * s.length := by
  rcases parse_cases s with ⟨ev, h1, e1⟩ | ⟨_, b, e, e1, _⟩
  · obtain ⟨a, _, _, _, hb, _⟩ := grammar_sound h1
    have hl : Layout Seps s s := by
      have := Layout.prepend (B := Seps) (fun w h => ⟨h, h⟩) .nil s.length (Nat.le_refl _) rfl hb rfl
      simpa using this
    obtain ⟨x', hx', hc⟩ := layout_sync (fun _ _ h => h) h1 (p := .no) rfl hl
    obtain ⟨ev', r', rfl, he, _⟩ := hc.some
    have hcost := (big_cost h1 rfl (k := 5) (c := -1) rfl).2
    rw [h, finish, runEvs_eq] at e1
    cases hr : runX [] ev {} with
    | none => rw [hr] at e1; cases e1
    | some y =>
      rw [hr] at e1
      simp only [Option.map_some] at e1
      have hw := run_weight he hr
      have hp := pop_weight y.2
      have e : n = y.2.pop.1 := by
        revert e1
        cases y.2.errors with
        | nil => intro e1; cases e1; rfl
        | cons e es => intro e1; cases e1
      rw [← e] at hp
      simp only [Cap.pending, weightL] at hw
      simp at hcost
      omega
  · rw [h] at e1; cases e1

end Verif
