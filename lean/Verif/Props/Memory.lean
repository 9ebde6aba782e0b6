import Verif.MemoryThms

/-! # C71: how much memory trees take -/

namespace Verif

theorem Mem.words_own (m : Mem) : m.words + m.letters = m.own + m.heads + m.places := by
  simp only [Mem.words, Mem.own, Mem.heads, Mem.places]
  omega

theorem Paid.total {h : HTree} (p : Paid 0 0 h) : h.mem.words + h.mem.letters ≤ 20 * h.mem.own + 45 := by
  rw [Mem.words_own]
  have := p.cap
  have := p.paid
  have : h.mem.cells.length ≤ h.mem.own := Nat.le_add_right _ _
  omega

/-- C71: what `Parse` puts into memory for the tree, counting all that is made on the way and never given back, is at most proportional to the
length of the text, whether it is accepted or not.  Lists that are copied from the stack, and the stack when it is moved, do not add up to more. -/
theorem C71_parse {grow : Nat → Nat} (hg : Growth grow) (s : Str) :
    (hparse grow s).2.tree.mem.words + (hparse grow s).2.tree.mem.letters ≤ 100 * s.length + 45 := by
  obtain ⟨a, b, _⟩ := query_own hg {} .init s
  have := a.total
  have e : ({} : HPeg).tree.mem.own = 0 := rfl
  show (({} : HPeg).query grow s).2.tree.mem.words + _ ≤ _
  unfold hparse
  omega

/-- C71 for an object that is used again and again: in proportion to all the texts together, accepted or not, also for the errors and marks it keeps. -/
theorem C71_history {grow : Nat → Nat} (hg : Growth grow) (l : List Str) :
    (({} : HPeg).queries grow l).2.tree.mem.words + (({} : HPeg).queries grow l).2.tree.mem.letters ≤ 100 * (l.map List.length).sum + 45 ∧
    (({} : HPeg).queries grow l).2.tree.errors.length + (({} : HPeg).queries grow l).2.tree.marks.length ≤ 5 * (l.map List.length).sum := by
  obtain ⟨a, b, c⟩ := queries_own hg l {} .init
  have := a.total
  have e : ({} : HPeg).tree.mem.own = 0 := rfl
  have e' : ({} : HPeg).tree.notes = 0 := rfl
  rw [e] at b
  rw [e'] at c
  refine ⟨by omega, ?_⟩
  show HTree.notes _ ≤ _
  omega

/-- Go's rule meets the assumption. -/
theorem goGrow_growth : Growth goGrow := by
  intro n
  unfold goGrow
  split <;> constructor <;> omega

-- `a in (1, 2)`: six nodes with 3 letters, arrays of 0, 1, 2 and 4 places for the stack and one of 2 for the list.
example : (hparse goGrow c!"a in (1, 2)").2.tree.mem.words = 15 ∧ (hparse goGrow c!"a in (1, 2)").2.tree.mem.letters = 3 := by decide +kernel
example : (hparse goGrow c!"a.b.c = f('xyz')").2.tree.mem.words = 24 ∧ (hparse goGrow c!"a.b.c = f('xyz')").2.tree.mem.letters = 9 := by decide +kernel

/-- What is assumed of `append` is needed: if it made room for one more only, a stack of `n` nodes would take about `n * n / 2` places on the way. -/
example : [c!"(1)", c!"(1,1)", c!"(1,1,1,1)", c!"(1,1,1,1,1,1,1,1)"].map (fun s => (hparse (fun _ => 0) s).2.tree.mem.words) = [3, 8, 19, 53] ∧
    [c!"(1)", c!"(1,1)", c!"(1,1,1,1)", c!"(1,1,1,1,1,1,1,1)"].map (fun s => (hparse goGrow s).2.tree.mem.words) = [3, 8, 16, 32] := by
  decide +kernel

end Verif
