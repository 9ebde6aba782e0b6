import Verif.LeafThms
import Verif.Props.ParseErrors
import Verif.Props.Structure

/-! # C17: what of an accepted query reaches the tree

Stated with the tokens of the query (its parse tree, leaves first, /repo/miniquery.peg.go:188-233), the leaves of the returned tree (Spec/Leaves)
and the names in it (Spec/Names). -/

namespace Verif

/-- C17 for all accepted queries, with or without `->`: every name, operator and literal written in the query is a leaf of the returned tree or of one
of the trees that were dropped, in reading order, and what is dropped comes first.  Exactly one tree is dropped per arrow outside the arguments of
function calls. -/
theorem C17_account {s n} (h : parse s = .ok n) (tree0 toks tr : List Tok) (ht : pegParse s tree0 = .ok toks tr) :
    ∃ lost : List Node, lost.length = (freeArrows toks).length ∧
      ShowsL (captured s toks) (atomsL lost ++ atoms n) ∧ identTexts s toks = namesL lost ++ names n := by
  have hd := pegParse_deriv s tree0 toks tr ht
  have hb := hd.big
  simp only [List.drop_zero, List.drop_length] at hb
  have hp : parse s = finish (toks.filterMap (evOf s)) := by
    rcases parse_cases s with ⟨evs, hb', hp⟩ | ⟨hb', _⟩
    · have := hb.det hb'; simp only [Option.some.injEq, Prod.mk.injEq] at this; rw [hp, this.1]
    · have := hb.det hb'; cases this
  obtain ⟨ns, es, k, hw, hl⟩ : Stacks s 0 s.length toks := (lpost_all hd).2
  rw [hp, finish, hw.eff.finish] at h
  cases es with
  | cons e es => simp at h
  | nil =>
    have hne : ns ≠ [] := by intro e; rw [e] at hl; simp at hl
    obtain ⟨lost, m, rfl⟩ : ∃ lost m, ns = lost ++ [m] := ⟨ns.dropLast, ns.getLast hne, (List.dropLast_concat_getLast hne).symm⟩
    simp [Tree.pop] at h
    subst h
    refine ⟨lost, ?_, ?_, ?_⟩
    · rw [hw.count]; simpa using hl
    · have := hw.leaf rfl
      rw [atomsL_append] at this
      simpa [atomsL] using this
    · rw [hw.ids, namesL_append]; simp [namesL]

/-- C17, partial: without an arrow outside the arguments of functions nothing is dropped.  What is written is, one for one and in order, what the tree
consists of. -/
theorem C17_complete_partial {s n} (h : parse s = .ok n) (tree0 toks tr : List Tok) (ht : pegParse s tree0 = .ok toks tr)
    (ha : freeArrows toks = []) : ShowsL (captured s toks) (atoms n) ∧ identTexts s toks = names n := by
  obtain ⟨lost, hl, h1, h2⟩ := C17_account h tree0 toks tr ht
  rw [ha] at hl
  cases List.length_eq_zero_iff.mp hl
  exact ⟨by simpa [atomsL] using h1, by simpa [namesL] using h2⟩

/-- C17: nothing is invented.  In every accepted query the names of the tree are the last names of the query. -/
theorem C17_suffix {s n} (h : parse s = .ok n) (tree0 toks tr : List Tok) (ht : pegParse s tree0 = .ok toks tr) : names n <:+ identTexts s toks := by
  obtain ⟨lost, _, _, h2⟩ := C17_account h tree0 toks tr ht
  exact ⟨_, h2.symm⟩

-- `x = a->b and …`: the operator of `=` became the left operand, and the column `x` is gone.
example : parse c!"x = a->b and y in (1, 'z')" =
      .ok (.logic (.cmp (.op c!"eq") (.ident c!"a") (.ident c!"b")) (.op c!"and") (.cmp (.ident c!"y") (.op c!"in") (.arr [.int 1, .str c!"z"]))) ∧
    captured c!"x = a->b and y in (1, 'z')" (toksOf c!"x = a->b and y in (1, 'z')") =
      [c!"x", c!"=", c!"a", c!"b", c!"and", c!"y", c!"in", c!"1", c!"z"] ∧
    (freeArrows (toksOf c!"x = a->b and y in (1, 'z')")).length = 1 := by decide +kernel
example : identTexts c!"x = a->b and y in (1, 'z')" (toksOf c!"x = a->b and y in (1, 'z')") = [c!"x", c!"a", c!"b", c!"y"] := by decide +kernel
-- An arrow among the arguments of a function drops nothing: it separates two arguments, like a comma.
example : freeArrows (toksOf c!"f(a->b,c) = 1") = [] ∧ captured c!"f(a->b,c) = 1" (toksOf c!"f(a->b,c) = 1") = [c!"f", c!"a", c!"b", c!"c", c!"=", c!"1"] ∧
    parse c!"f(a->b,c) = 1" = .ok (.cmp (.func c!"f" [.ident c!"a", .ident c!"b", .ident c!"c"]) (.op c!"eq") (.int 1)) := by decide +kernel
example : (freeArrows (toksOf c!"f(a->b,c) = a->b->c")).length = 2 := by decide +kernel
example : atoms (.cmp (.func c!"f" [.ident c!"a", .ref [c!"b", c!"c"]]) (.op c!"eq") (.int 1)) =
    [.ident c!"f", .ident c!"a", .ident c!"b", .ident c!"c", .op c!"eq", .int 1] := by decide

end Verif
