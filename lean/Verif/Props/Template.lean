import Verif.Guard
import Verif.Props.Accept
import Verif.Props.Structure

/-! # Queries put together from queries (C59, C16) -/

namespace Verif

/-! ## C59: embedding -/

/-- C59, partial (queries without `->`): accepted queries, each between parentheses or as the only argument of a call, at any number of places and
any depth of a clearly spelled text, are read as their own trees, and the text around them as it is spelled.  Missing: queries with `->`, for which
it is false. -/
theorem C59_embed_partial (H : Str → Node → Prop) (hH : ∀ q n, H q n → parse q = .ok n ∧ Balanced q false) (s : Str) (n : Node) (h : Filled H s n) :
    parse s = .ok n := filled_parse hH h

-- The query `a or -- x⏎ b` in `a = 7 and (…)` and in `a(…)`.
example : ∃ H : Str → Node → Prop, (∀ q n, H q n → parse q = .ok n ∧ Balanced q false) ∧
    Filled H c!"a = 7 and (a or -- x\n b)" (.logic (.cmp (.ident c!"a") (.op c!"eq") (.int 7)) (.op c!"and")
      (.paren (.logic (.ident c!"a") (.op c!"or") (.ident c!"b")))) ∧
    Filled H c!"a(a or -- x\n b)" (.func c!"a" [.logic (.ident c!"a") (.op c!"or") (.ident c!"b")]) := by
  refine ⟨fun q n => q = c!"a or -- x\n b" ∧ n = .logic (.ident c!"a") (.op c!"or") (.ident c!"b"), ?_, ?_, ?_⟩
  · rintro q n ⟨rfl, rfl⟩
    exact ⟨by decide +kernel, by unfold Balanced; decide⟩
  · refine ⟨[], _, [], by simp; rfl, .nil, .inl ?_, .nil⟩
    have ha : Tpl (fun q n => q = c!"a or -- x\n b" ∧ n = .logic (.ident c!"a") (.op c!"or") (.ident c!"b")) .cin c!"a" (.ident c!"a") :=
      .cinUp (.prdUp (.btwUp (.name (.ident idText_a) kwFree_a)))
    exact .logic (u := c!"a = 7") (w1 := c!" ") (ob := c!"and") (w2 := c!" ") (v := c!"(a or -- x\n b)")
      (.logicUp (.negUp (.cmp (w1 := c!" ") (ob := c!"=") (w2 := c!" ") (.cmpUp ha) ws_space (.sym (by decide)) (apart_space _ _ _ (by decide)) ws_space
        (.cinUp (.prdUp (.btwUp (.lit (.int (k := 7) (by decide)))))))))
      ws_space (.word (w := c!"and") (by decide) (CI.refl _)) (apart_space _ _ _ (by decide)) ws_space
      (.negUp (.cmpUp (.cinUp (.prdUp (.btwUp (.hole (q := c!"a or -- x\n b") ⟨rfl, rfl⟩))))))
  · refine ⟨[], _, [], by simp; rfl, .nil, .inl ?_, .nil⟩
    exact .logicUp (.negUp (.cmpUp (.cinUp (.prdUp (.btwUp (.func (f := c!"a") (u := c!"a or -- x\n b") idText_a kwFree_a (.argHole ⟨rfl, rfl⟩)))))))

/-- C59, partial (texts without `->`): a chain of `and` and `or` in which some operands are clearly written and the others are arbitrary texts between
parentheses, quotes, comments and brackets closed.  If it is accepted at all, it is read operand by operand: the written ones as written, the others
as one node each, and as their own tree if they are accepted on their own. -/
theorem C59_frame_partial (u w1 w2 : Str) (P : Node → Prop) (n : Node) (h : Frame Within u P) (hw1 : WS w1) (hw2 : WS w2)
    (hp : parse (w1 ++ (u ++ w2)) = .ok n) : P n := frame_parse h hw1 hw2 hp

/-- C59, partial: a guard cannot be weakened by the text it guards, accepted or not: rows selected by `u and (q)` and by `(q) and u` satisfy `u`. -/
theorem C59_guard_partial (v : Node → Bool) (u : Str) (l : Node) (hu : Sp .neg u l) (q : Str) (hq : Balanced q false) (n : Node)
    (hp : parse (u ++ (c!" and " ++ '(' :: (q ++ c!")"))) = .ok n ∨ parse ('(' :: (q ++ c!")") ++ (c!" and " ++ u)) = .ok n)
    (ht : truth v n = true) : truth v l = true := by
  rcases hp with hp | hp
  · have := frame_parse (w1 := []) (w2 := []) (.more (w1 := c!" ") (ob := c!"and") (w2 := c!" ") (.one (.clear hu)) ws_space
      (.word (w := c!"and") (by decide) (CI.refl _)) (apart_space _ _ _ (by decide)) ws_space (.any hq)) .nil .nil (by simpa using hp)
    obtain ⟨a, b, rfl, rfl, -⟩ := this
    simp [truth] at ht
    exact ht.1
  · have := frame_parse (w1 := []) (w2 := []) (.more (w1 := c!" ") (ob := c!"and") (w2 := c!" ") (.one (.any hq)) ws_space
      (.word (w := c!"and") (by decide) (CI.refl _)) (apart_space _ _ _ (by decide)) ws_space (.clear hu)) .nil .nil (by simpa using hp)
    obtain ⟨a, b, rfl, -, rfl⟩ := this
    simp [truth] at ht
    exact ht.2

-- A text that is not a query, accepted inside the guard.
example : Balanced c!"1, 'x) or ('" false ∧ SyntaxError c!"1, 'x) or ('" ∧
    parse c!"a and (1, 'x) or (')" = .ok (.logic (.ident c!"a") (.op c!"and") (.arr [.int 1, .str c!"x) or ("])) :=
  ⟨by unfold Balanced; decide, ⟨0, 1, by decide +kernel⟩, by decide +kernel⟩

/-- C59 is false for texts with a bracket open (the guard `a` does not hold on a selected row) and for queries with `->` (the guard is lost). -/
theorem C59_refuted :
    (∃ n v, parse c!"a and (b) or (c)" = .ok n ∧ truth v n = true ∧ truth v (.ident c!"a") = false) ∧
    parse c!"b->c" = .ok (.ident c!"c") ∧ parse c!"a and (b->c)" = .ok (.logic (.op c!"and") (.ident c!"b") (.paren (.ident c!"c"))) :=
  ⟨⟨.logic (.logic (.ident c!"a") (.op c!"and") (.paren (.ident c!"b"))) (.op c!"or") (.paren (.ident c!"c")),
    fun n => decide (n = .ident c!"c"), by decide +kernel, by decide +kernel, by decide +kernel⟩, by decide +kernel, by decide +kernel⟩

/-! ## C16: a list that contains rejected queries -/

theorem and_frame (f : Str → Node) (v : Node → Bool) (rest : List Str) : ∀ u P, Frame Within u P → (∀ x ∈ rest, Balanced x false) →
    ∃ P', Frame Within (u ++ chainText (rest.map (andLink f))) P' ∧ ∀ n, P' n → truth v n = true →
      (∃ m, P m ∧ truth v m = true) ∧ ∀ x ∈ rest, ∃ m, Within x m ∧ truth v m = true := by
  induction rest with
  | nil => intro u P h _; exact ⟨P, by simpa [chainText] using h, fun n hn ht => ⟨⟨n, hn, ht⟩, by simp⟩⟩
  | cons q rest ih =>
    intro u P h hb
    obtain ⟨P', h1, h2⟩ := ih _ _ (.more (w1 := c!" ") (ob := c!"and") (w2 := c!" ") h ws_space
      (.word (w := c!"and") (by decide) (CI.refl _)) (apart_space _ _ _ (by decide)) ws_space (.any (hb q (by simp)))) fun x hx => hb x (by simp [hx])
    refine ⟨P', by simpa [chainText, andLink] using h1, fun n hn ht => ?_⟩
    obtain ⟨⟨m, ⟨a, b, rfl, ha, hb⟩, htm⟩, h4⟩ := h2 n hn ht
    simp [truth] at htm
    refine ⟨⟨a, ha, htm.1⟩, fun x hx => ?_⟩
    rcases List.mem_cons.mp hx with rfl | hx
    · exact ⟨b, hb, htm.2⟩
    · exact h4 x hx

/-- C16, partial: if `Join` of the list is accepted, rows that satisfy it satisfy every query of the list that is accepted on its own, whatever the
other entries are, queries or not, as long as the quotes, comments and brackets of each are closed and there is no `->`. -/
theorem C16_rejected_entries_partial (v : Node → Bool) (qs : List Str) (h2 : 2 ≤ qs.length) (hb : ∀ q ∈ qs, goTrim q ≠ [] → Balanced q false)
    (n : Node) (hp : parse (join qs) = .ok n) (ht : truth v n = true) : ∀ q ∈ qs, goTrim q ≠ [] → ∀ k, parse q = .ok k → truth v k = true := by
  intro x hx hxw k hk
  rw [join_text (fun _ => .nil) qs h2] at hp
  have hmem : x ∈ qs.filter written := List.mem_filter.mpr ⟨hx, by simpa [written] using hxw⟩
  have hbal : ∀ y ∈ qs.filter written, Balanced y false := by
    intro y hy
    rw [List.mem_filter] at hy
    exact hb y hy.1 (by simpa [written] using hy.2)
  have fin : ∀ {m}, Within x m → truth v m = true → truth v k = true := by
    intro m hm htm
    rw [hm.2 k hk] at htm
    simpa [truth] using htm
  cases hf : qs.filter written with
  | nil => rw [hf] at hmem; cases hmem
  | cons q rest =>
    rw [hf] at hmem hp hbal
    obtain ⟨P, h1, h3⟩ := and_frame (fun _ => .nil) v rest _ _ (.one (.any (hbal q (by simp)))) fun y hy => hbal y (by simp [hy])
    have hn := frame_parse (w1 := []) (w2 := []) (n := n) h1 .nil .nil (by simpa using hp)
    obtain ⟨⟨m, hm, htm⟩, h4⟩ := h3 n hn ht
    rcases List.mem_cons.mp hmem with rfl | hmem
    · exact fin hm htm
    · obtain ⟨m, hm, htm⟩ := h4 x hmem
      exact fin hm htm

-- The second entry is rejected on its own, the list is accepted.
example : SyntaxError c!"1, 2" ∧ (∀ q ∈ [c!"a = 1", c!"1, 2"], goTrim q ≠ [] → Balanced q false) ∧
    parse (join [c!"a = 1", c!"1, 2"]) = .ok (.logic (.paren (.cmp (.ident c!"a") (.op c!"eq") (.int 1))) (.op c!"and") (.arr [.int 1, .int 2])) := by
  refine ⟨⟨0, 1, by decide +kernel⟩, ?_, by decide +kernel⟩
  intro q hq _
  simp only [List.mem_cons, List.not_mem_nil, or_false] at hq
  rcases hq with rfl | rfl <;> (unfold Balanced; decide)

end Verif
