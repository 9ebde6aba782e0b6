import Verif.HeapThms
import Verif.Spec.Leaves
import Verif.Props.Tokens

/-! # Trees in memory (C68) -/

namespace Verif

theorem Answers.frame {m m' : Mem} {l hs F} (h : Answers m l hs F) (hf : ∀ r ∈ F, m.Same m' r) : Answers m' l hs F := by
  induction l generalizing hs F with
  | nil => exact h
  | cons a l ih =>
    cases a with
    | ok n =>
      obtain ⟨p, hl, G, H, rfl, h1, h2, rfl⟩ := h
      exact ⟨p, hl, G, H, rfl, h1.frame fun r hr => hf r (by simp [hr]), ih h2 fun r hr => hf r (by simp [hr]), rfl⟩
    | err e | panic | div => obtain ⟨hl, rfl, h2⟩ := h; exact ⟨hl, rfl, ih h2 hf⟩

/-- One query. -/
theorem query_heap (grow : Nat → Nat) (h : HPeg) (p : Peg) (F : List Block) (ht : h.toks = p.toks) (r : Rep h.tree p.tree F) (s : Str) :
    ∃ F' E, (h.query grow s).2.toks = (p.query s).2.toks ∧ Rep (h.query grow s).2.tree (p.query s).2.tree F' ∧
      Answers (h.query grow s).2.tree.mem [(p.query s).1] [(h.query grow s).1] E ∧ (Block.arr (h.query grow s).2.tree.stack.arr :: (F' ++ E)).Nodup ∧
      Keeps h.tree (h.query grow s).2.tree F (F' ++ E) := by
  have stay : Keeps h.tree h.tree F (F ++ []) := by rw [List.append_nil]; exact .refl _ _
  have hnd : (Block.arr h.tree.stack.arr :: (F ++ [])).Nodup := by rw [List.append_nil]; exact r.nodup
  unfold HPeg.query Peg.query
  rw [ht]
  cases hp : pegParse s p.toks with
  | div => exact ⟨F, [], ht, r, ⟨_, rfl, rfl, rfl⟩, hnd, stay⟩
  | panic => exact ⟨F, [], ht, r, ⟨_, rfl, rfl, rfl⟩, hnd, stay⟩
  | err m tr => exact ⟨F, [], rfl, r, ⟨_, rfl, rfl, rfl⟩, hnd, stay⟩
  | ok toks tr =>
    simp only []
    split
    · rcases moves_run (grow := grow) (toks.filterMap (evOf s)) [] r with ⟨e1, e2⟩ | ⟨h1, t1, e1, e2, F1, r1, k1⟩
      · rw [e1, e2]; exact ⟨F, [], rfl, r, ⟨_, rfl, rfl, rfl⟩, hnd, stay⟩
      · rw [e1, e2]
        have he := r1.errors
        simp only []
        cases ht1 : t1.errors with
        | cons e es =>
          rw [ht1] at he
          rw [he]
          exact ⟨F1, [], rfl, r1, ⟨_, rfl, rfl, rfl⟩, by rw [List.append_nil]; exact r1.nodup, by rw [List.append_nil]; exact k1⟩
        | nil =>
          rw [ht1] at he
          rw [he]
          obtain ⟨F2, E, rfl, d, r2, m2, a2⟩ := r1.pop
          refine ⟨F2, E, rfl, r2, ⟨_, _, E, [], rfl, ?_, ⟨rfl, rfl⟩, by simp⟩, ?_, ?_⟩
          · show Den h1.pop.2.mem _ _ _; rw [m2]; exact d
          · show (Block.arr h1.pop.2.stack.arr :: _).Nodup; rw [a2]; exact r1.nodup
          · intro x hx hn
            obtain ⟨h3, h4⟩ := k1 x hx hn
            show _ ∧ x ∉ Block.arr h1.pop.2.stack.arr :: _
            rw [a2]
            exact ⟨by show h.tree.mem.Same h1.pop.2.mem x; rw [m2]; exact h3, h4⟩
    · exact ⟨F, [], rfl, r, ⟨_, rfl, rfl, rfl⟩, hnd, stay⟩

theorem Answers.has {m : Mem} {l hs F} (h : Answers m l hs F) : ∀ r ∈ F, m.Has r := by
  induction l generalizing hs F with
  | nil => rw [h.2]; simp
  | cons a l ih =>
    cases a with
    | ok n =>
      obtain ⟨p, hl, G, H, rfl, h1, h2, rfl⟩ := h
      intro r hr
      rcases List.mem_append.mp hr with hr | hr
      · exact h1.has r hr
      · exact ih h2 r hr
    | err e | panic | div => obtain ⟨hl, rfl, h2⟩ := h; exact ih h2

theorem Answers.cons {m : Mem} {a b l hs E F} (h1 : Answers m [a] [b] E) (h2 : Answers m l hs F) : Answers m (a :: l) (b :: hs) (E ++ F) := by
  cases a with
  | ok n =>
    obtain ⟨p, hl, G, H, e, h1, ⟨_, rfl⟩, rfl⟩ := h1
    cases e
    exact ⟨p, hs, G, F, rfl, h1, h2, by simp⟩
  | err e | panic | div => obtain ⟨hl, e, _, rfl⟩ := h1; cases e; exact ⟨hs, rfl, h2⟩

theorem history_heap (grow : Nat → Nat) (l : List Str) : ∀ (h : HPeg) (p : Peg) (F : List Block), h.toks = p.toks → Rep h.tree p.tree F →
    ∃ t S E, Rep (h.queries grow l).2.tree t S ∧ Answers (h.queries grow l).2.tree.mem (p.queries l) (h.queries grow l).1 E ∧
      (Block.arr (h.queries grow l).2.tree.stack.arr :: (S ++ E)).Nodup ∧ Keeps h.tree (h.queries grow l).2.tree F (S ++ E) := by
  induction l with
  | nil =>
    intro h p F _ r
    exact ⟨_, F, [], r, ⟨rfl, rfl⟩, by rw [List.append_nil]; exact r.nodup, by rw [List.append_nil]; exact .refl _ _⟩
  | cons s l ih =>
    intro h p F ht r
    obtain ⟨F1, E1, ht1, r1, a1, nd1, k1⟩ := query_heap grow h p F ht r s
    obtain ⟨t, S, E2, r2, a2, nd2, k2⟩ := ih _ _ F1 ht1 r1
    have hloose : ∀ x ∈ E1, x ∉ Block.arr (h.query grow s).2.tree.stack.arr :: F1 := by
      intro x hx hc
      rw [← List.cons_append, List.nodup_append] at nd1
      exact nd1.2.2 x hc x hx rfl
    refine ⟨t, S, E1 ++ E2, r2, ?_, ?_, ?_⟩
    · exact (a1.frame fun x hx => (k2 x (a1.has x hx) (hloose x hx)).1).cons a2
    · rw [← List.cons_append, List.nodup_append] at nd1
      show (Block.arr ((h.query grow s).2.queries grow l).2.tree.stack.arr :: _).Nodup
      have hp : (Block.arr ((h.query grow s).2.queries grow l).2.tree.stack.arr :: (S ++ (E1 ++ E2))).Perm
          (E1 ++ (Block.arr ((h.query grow s).2.queries grow l).2.tree.stack.arr :: (S ++ E2))) := by
        rw [← List.append_assoc]
        refine List.Perm.trans (List.Perm.cons _ (List.Perm.append_right _ List.perm_append_comm)) ?_
        rw [List.append_assoc]
        exact List.perm_middle.symm
      rw [hp.nodup_iff, List.nodup_append]
      refine ⟨nd1.2.1, nd2, ?_⟩
      rintro x hx y hy rfl
      exact (k2 x (a1.has x hx) (hloose x hx)).2 hy
    · intro x hx hn
      obtain ⟨h1, h2⟩ := k1 x hx hn
      have h2' : x ∉ Block.arr (h.query grow s).2.tree.stack.arr :: F1 ∧ x ∉ E1 := by
        simp only [List.mem_cons, List.mem_append, not_or] at h2 ⊢
        exact ⟨⟨h2.1, h2.2.1⟩, h2.2.2⟩
      obtain ⟨h3, h4⟩ := k2 x (h1.has hx) h2'.1
      refine ⟨h1.trans h3, ?_⟩
      simp only [List.mem_cons, List.mem_append, not_or] at h4 ⊢
      exact ⟨h4.1, h4.2.1, h2'.2, h4.2.2⟩

/-- C68: the pointer that `Parse` returns stands for the tree of the model by value, whatever room `append` makes, and no node and no list of that
tree is met twice. -/
theorem C68_parse (grow : Nat → Nat) (s : Str) :
    ∃ F, Answers (hparse grow s).2.tree.mem [parse s] [(hparse grow s).1] F ∧ F.Nodup := by
  obtain ⟨F, E, _, _, a, nd, _⟩ := query_heap grow {} {} [] rfl .init s
  rw [← List.cons_append, List.nodup_append] at nd
  rw [parse_peg]
  exact ⟨E, a, nd.2.1⟩

/-- C68 for a parser object that is used again and again, with accepted and rejected queries in any order: at the end every pointer that was returned
still stands for the tree of its query, and no two of these trees have a node or list in common, nor has one of them anything in common with the
stack (what rejected queries have left there, with the blocks `S`, and the array that holds it). -/
theorem C68_history (grow : Nat → Nat) (l : List Str) :
    ∃ ns S F, DenL (({} : HPeg).queries grow l).2.tree.mem ns ((({} : HPeg).queries grow l).2.tree.mem.read (({} : HPeg).queries grow l).2.tree.stack) S ∧
      Answers (({} : HPeg).queries grow l).2.tree.mem (({} : Peg).queries l) (({} : HPeg).queries grow l).1 F ∧
      (Block.arr (({} : HPeg).queries grow l).2.tree.stack.arr :: (S ++ F)).Nodup := by
  obtain ⟨t, S, F, r, h1, h2, _⟩ := history_heap grow l {} {} [] rfl .init
  exact ⟨_, S, F, r.den, h1, h2⟩

/-- The array of the stack (3) is used again by the second query: what it held of the first tree has been overwritten.  The list of the first
tree is in an array of its own (4), and is as it was. -/
example :
    (({} : HPeg).queries (fun n => n) [c!"a in (1,2)", c!"c = d"]).1 = [.ok (some 5), .ok (some 9)] ∧
    (({} : HPeg).query (fun n => n) c!"a in (1,2)").2.tree.mem.arrays = [[], [some 0], [some 0, some 1, some 2], [some 5, some 1, some 4, some 3, none, none, none], [some 2, some 3]] ∧
    (({} : HPeg).queries (fun n => n) [c!"a in (1,2)", c!"c = d"]).2.tree.mem.arrays =
      [[], [some 0], [some 0, some 1, some 2], [some 9, some 7, some 8, some 3, none, none, none], [some 2, some 3]] := by decide +kernel

/-- The blocks are those of the tree: of `a = b` the two names, the operator and the comparison. -/
example : Answers (hparse (fun n => n) c!"a = b").2.tree.mem [.ok (.cmp (.ident c!"a") (.op c!"eq") (.ident c!"b"))] [.ok (some 3)]
    [.cell 3, .cell 0, .cell 1, .cell 2] :=
  ⟨some 3, [], [.cell 3, .cell 0, .cell 1, .cell 2], [], rfl,
    ⟨3, some 0, some 1, some 2, [.cell 0], [.cell 1], [.cell 2], ⟨rfl, by decide +kernel⟩, ⟨0, ⟨rfl, by decide +kernel⟩, rfl⟩,
      ⟨1, ⟨rfl, by decide +kernel⟩, rfl⟩, ⟨2, ⟨rfl, by decide +kernel⟩, rfl⟩, rfl⟩, ⟨rfl, rfl⟩, rfl⟩

/-! ## Changing a node -/

theorem Mem.rename_same {m : Mem} {i : Nat} {y : Str} {r : Block} (h : r ≠ .cell i) : m.Same (m.rename i y) r := by
  cases r with
  | cell j =>
    show (m.cells.modify i _)[j]? = m.cells[j]?
    rw [List.getElem?_modify_ne]
    rintro rfl; exact h rfl
  | arr j => rfl

theorem Mem.rename_at {m : Mem} {i : Nat} {x y : Str} (h : m.cells[i]? = some { type := .identifier, name := x }) :
    (m.rename i y).At (some i) i { type := .identifier, name := y } := by
  refine ⟨rfl, ?_⟩
  show (m.cells.modify i _)[i]? = _
  rw [List.getElem?_modify_eq, h]
  rfl

theorem notIn_of_nodup {i : Nat} {A B : List Block} (h : (A ++ B).Nodup) (hi : .cell i ∈ A) : ∀ r ∈ B, r ≠ .cell i := by
  rintro r hr rfl
  exact (List.nodup_append.mp h).2.2 _ hi _ hr rfl

theorem notIn_of_nodup' {i : Nat} {A B : List Block} (h : (A ++ B).Nodup) (hi : .cell i ∈ B) : ∀ r ∈ A, r ≠ .cell i := by
  rintro r hr rfl
  exact (List.nodup_append.mp h).2.2 _ hr _ hi rfl

mutual
theorem Den.rename {m : Mem} {i : Nat} {x y : Str} (hc : m.cells[i]? = some { type := .identifier, name := x }) :
    ∀ {n p F}, Den m n p F → F.Nodup → .cell i ∈ F → ∃ n', Den (m.rename i y) n' p F ∧ Renamed x y n n'
  | .nil, p, F, h, nd, hi => by simp only [Den] at h; rw [h.2] at hi; cases hi
  | .int _, p, F, h, nd, hi | .bool _, p, F, h, nd, hi | .str _, p, F, h, nd, hi | .null, p, F, h, nd, hi | .op _, p, F, h, nd, hi
  | .ref _, p, F, h, nd, hi => by
    simp only [Den] at h
    obtain ⟨j, ⟨rfl, ha⟩, rfl⟩ := h
    simp only [List.mem_singleton, Block.cell.injEq] at hi
    subst hi
    rw [hc] at ha; simp at ha
  | .ident z, p, F, h, nd, hi => by
    simp only [Den] at h
    obtain ⟨j, ⟨rfl, ha⟩, rfl⟩ := h
    simp only [List.mem_singleton, Block.cell.injEq] at hi
    subst hi
    rw [hc] at ha; simp at ha; subst ha
    refine ⟨.ident y, ?_, by simp [noIdent], [], [], by simp [atoms], by simp [atoms]⟩
    simp only [Den]
    exact ⟨i, Mem.rename_at hc, rfl⟩
  | .arr l, p, F, h, nd, hi => by
    simp only [Den] at h
    obtain ⟨j, s, G, ha, hb, hl, rfl⟩ := h
    have hj : Block.cell j ≠ .cell i := by rintro e; cases e; have := ha.2; rw [hc] at this; simp at this
    simp only [List.mem_cons, hj.symm, false_or, reduceCtorEq] at hi
    rw [List.nodup_cons, List.nodup_cons] at nd
    obtain ⟨l', h1, h2, a, b, h3, h4⟩ := DenL.rename (y := y) hc hl nd.2.2 hi
    refine ⟨.arr l', ?_, by simp [noIdent, h2], a, b, by simp [atoms, h3], by simp [atoms, h4]⟩
    simp only [Den]
    refine ⟨j, s, G, ha.frame (Mem.rename_same hj), hb, ?_, rfl⟩
    rw [Mem.read_frame (s := s) (Mem.rename_same (by simp))]
    exact h1
  | .func f l, p, F, h, nd, hi => by
    simp only [Den] at h
    obtain ⟨j, s, G, ha, hb, hl, rfl⟩ := h
    have hj : Block.cell j ≠ .cell i := by rintro e; cases e; have := ha.2; rw [hc] at this; simp at this
    simp only [List.mem_cons, hj.symm, false_or, reduceCtorEq] at hi
    rw [List.nodup_cons, List.nodup_cons] at nd
    obtain ⟨l', h1, h2, a, b, h3, h4⟩ := DenL.rename (y := y) hc hl nd.2.2 hi
    refine ⟨.func f l', ?_, by simp [noIdent, h2], .ident f :: a, b, by simp [atoms, h3], by simp [atoms, h4]⟩
    simp only [Den]
    refine ⟨j, s, G, ha.frame (Mem.rename_same hj), hb, ?_, rfl⟩
    rw [Mem.read_frame (s := s) (Mem.rename_same (by simp))]
    exact h1
  | .pred l o, p, F, h, nd, hi => by
    simp only [Den] at h
    obtain ⟨j, pl, po, G, H, ha, h1, h2, rfl⟩ := h
    have hj : Block.cell j ≠ .cell i := by rintro e; cases e; have := ha.2; rw [hc] at this; simp at this
    simp only [List.mem_cons, hj.symm, false_or, List.mem_append] at hi
    rw [List.nodup_cons] at nd
    have nd := nd.2
    have hat := ha.frame (Mem.rename_same (y := y) hj)
    rcases hi with hi | hi
    · obtain ⟨n', d, h5, a, b, h3, h4⟩ := Den.rename (y := y) hc h1 (List.nodup_append.mp nd).1 hi
      refine ⟨.pred n' o, ?_, by simp [noIdent, h5], a, b ++ atoms o, by simp [atoms, h3], by simp [atoms, h4]⟩
      simp only [Den]
      exact ⟨j, pl, po, G, H, hat, d, h2.frame fun r hr => Mem.rename_same (notIn_of_nodup nd hi r hr), rfl⟩
    · obtain ⟨n', d, h5, a, b, h3, h4⟩ := Den.rename (y := y) hc h2 (List.nodup_append.mp nd).2.1 hi
      refine ⟨.pred l n', ?_, by simp [noIdent, h5], atoms l ++ a, b, by simp [atoms, h3], by simp [atoms, h4]⟩
      simp only [Den]
      exact ⟨j, pl, po, G, H, hat, h1.frame fun r hr => Mem.rename_same (notIn_of_nodup' nd hi r hr), d, rfl⟩
  | .cmp l o t, p, F, h, nd, hi => by
    simp only [Den] at h
    obtain ⟨j, pl, po, pr, G, H, K, ha, h1, h2, h6, rfl⟩ := h
    have hj : Block.cell j ≠ .cell i := by rintro e; cases e; have := ha.2; rw [hc] at this; simp at this
    simp only [List.mem_cons, hj.symm, false_or, List.mem_append] at hi
    rw [List.nodup_cons] at nd
    have nd := nd.2
    have nd2 := (List.nodup_append.mp nd).1
    have hat := ha.frame (Mem.rename_same (y := y) hj)
    rcases hi with (hi | hi) | hi
    · obtain ⟨n', d, h5, a, b, h3, h4⟩ := Den.rename (y := y) hc h1 (List.nodup_append.mp nd2).1 hi
      refine ⟨.cmp n' o t, ?_, by simp [noIdent, h5], a, b ++ atoms o ++ atoms t, by simp [atoms, h3], by simp [atoms, h4]⟩
      simp only [Den]
      exact ⟨j, pl, po, pr, G, H, K, hat, d, h2.frame fun r hr => Mem.rename_same (notIn_of_nodup nd2 hi r hr),
        h6.frame fun r hr => Mem.rename_same (notIn_of_nodup nd (by simp [hi]) r hr), rfl⟩
    · obtain ⟨n', d, h5, a, b, h3, h4⟩ := Den.rename (y := y) hc h2 (List.nodup_append.mp nd2).2.1 hi
      refine ⟨.cmp l n' t, ?_, by simp [noIdent, h5], atoms l ++ a, b ++ atoms t, by simp [atoms, h3], by simp [atoms, h4]⟩
      simp only [Den]
      exact ⟨j, pl, po, pr, G, H, K, hat, h1.frame fun r hr => Mem.rename_same (notIn_of_nodup' nd2 hi r hr), d,
        h6.frame fun r hr => Mem.rename_same (notIn_of_nodup nd (by simp [hi]) r hr), rfl⟩
    · obtain ⟨n', d, h5, a, b, h3, h4⟩ := Den.rename (y := y) hc h6 (List.nodup_append.mp nd).2.1 hi
      refine ⟨.cmp l o n', ?_, by simp [noIdent, h5], atoms l ++ atoms o ++ a, b, by simp [atoms, h3], by simp [atoms, h4]⟩
      simp only [Den]
      exact ⟨j, pl, po, pr, G, H, K, hat, h1.frame fun r hr => Mem.rename_same (notIn_of_nodup' nd hi r (by simp [hr])),
        h2.frame fun r hr => Mem.rename_same (notIn_of_nodup' nd hi r (by simp [hr])), d, rfl⟩
  | .logic l o t, p, F, h, nd, hi => by
    simp only [Den] at h
    obtain ⟨j, pl, po, pr, G, H, K, ha, h1, h2, h6, rfl⟩ := h
    have hj : Block.cell j ≠ .cell i := by rintro e; cases e; have := ha.2; rw [hc] at this; simp at this
    simp only [List.mem_cons, hj.symm, false_or, List.mem_append] at hi
    rw [List.nodup_cons] at nd
    have nd := nd.2
    have nd2 := (List.nodup_append.mp nd).1
    have hat := ha.frame (Mem.rename_same (y := y) hj)
    rcases hi with (hi | hi) | hi
    · obtain ⟨n', d, h5, a, b, h3, h4⟩ := Den.rename (y := y) hc h1 (List.nodup_append.mp nd2).1 hi
      refine ⟨.logic n' o t, ?_, by simp [noIdent, h5], a, b ++ atoms o ++ atoms t, by simp [atoms, h3], by simp [atoms, h4]⟩
      simp only [Den]
      exact ⟨j, pl, po, pr, G, H, K, hat, d, h2.frame fun r hr => Mem.rename_same (notIn_of_nodup nd2 hi r hr),
        h6.frame fun r hr => Mem.rename_same (notIn_of_nodup nd (by simp [hi]) r hr), rfl⟩
    · obtain ⟨n', d, h5, a, b, h3, h4⟩ := Den.rename (y := y) hc h2 (List.nodup_append.mp nd2).2.1 hi
      refine ⟨.logic l n' t, ?_, by simp [noIdent, h5], atoms l ++ a, b ++ atoms t, by simp [atoms, h3], by simp [atoms, h4]⟩
      simp only [Den]
      exact ⟨j, pl, po, pr, G, H, K, hat, h1.frame fun r hr => Mem.rename_same (notIn_of_nodup' nd2 hi r hr), d,
        h6.frame fun r hr => Mem.rename_same (notIn_of_nodup nd (by simp [hi]) r hr), rfl⟩
    · obtain ⟨n', d, h5, a, b, h3, h4⟩ := Den.rename (y := y) hc h6 (List.nodup_append.mp nd).2.1 hi
      refine ⟨.logic l o n', ?_, by simp [noIdent, h5], atoms l ++ atoms o ++ a, b, by simp [atoms, h3], by simp [atoms, h4]⟩
      simp only [Den]
      exact ⟨j, pl, po, pr, G, H, K, hat, h1.frame fun r hr => Mem.rename_same (notIn_of_nodup' nd hi r (by simp [hr])),
        h2.frame fun r hr => Mem.rename_same (notIn_of_nodup' nd hi r (by simp [hr])), d, rfl⟩
  | .paren e, p, F, h, nd, hi => by
    simp only [Den] at h
    obtain ⟨j, pe, G, ha, h1, rfl⟩ := h
    have hj : Block.cell j ≠ .cell i := by rintro e; cases e; have := ha.2; rw [hc] at this; simp at this
    simp only [List.mem_cons, hj.symm, false_or] at hi
    rw [List.nodup_cons] at nd
    obtain ⟨n', d, h5, a, b, h3, h4⟩ := Den.rename (y := y) hc h1 nd.2 hi
    refine ⟨.paren n', ?_, by simp [noIdent, h5], a, b, by simp [atoms, h3], by simp [atoms, h4]⟩
    simp only [Den]
    exact ⟨j, pe, G, ha.frame (Mem.rename_same hj), d, rfl⟩
  | .not e, p, F, h, nd, hi => by
    simp only [Den] at h
    obtain ⟨j, pe, G, ha, h1, rfl⟩ := h
    have hj : Block.cell j ≠ .cell i := by rintro e; cases e; have := ha.2; rw [hc] at this; simp at this
    simp only [List.mem_cons, hj.symm, false_or] at hi
    rw [List.nodup_cons] at nd
    obtain ⟨n', d, h5, a, b, h3, h4⟩ := Den.rename (y := y) hc h1 nd.2 hi
    refine ⟨.not n', ?_, by simp [noIdent, h5], a, b, by simp [atoms, h3], by simp [atoms, h4]⟩
    simp only [Den]
    exact ⟨j, pe, G, ha.frame (Mem.rename_same hj), d, rfl⟩
  | .between l o u v, p, F, h, nd, hi => by
    simp only [Den] at h
    obtain ⟨j, pl, po, s, q1, q2, G, H, K, L, ha, h1, h2, hb, hr, h6, h7, rfl⟩ := h
    have hj : Block.cell j ≠ .cell i := by rintro e; cases e; have := ha.2; rw [hc] at this; simp at this
    simp only [List.mem_cons, hj.symm, false_or, List.mem_append, reduceCtorEq] at hi
    rw [List.nodup_cons, List.nodup_cons] at nd
    have nd := nd.2.2
    have nd2 := (List.nodup_append.mp nd).1
    have nd3 := (List.nodup_append.mp nd2).1
    have hat := ha.frame (Mem.rename_same (y := y) hj)
    have hrd : (m.rename i y).read s = [q1, q2] := by rw [Mem.read_frame (s := s) (Mem.rename_same (by simp)), hr]
    rcases hi with ((hi | hi) | hi) | hi
    · obtain ⟨n', d, h5, a, b, h3, h4⟩ := Den.rename (y := y) hc h1 (List.nodup_append.mp nd3).1 hi
      refine ⟨.between n' o u v, ?_, by simp [noIdent, h5], a, b ++ atoms o ++ atoms u ++ atoms v, by simp [atoms, h3], by simp [atoms, h4]⟩
      simp only [Den]
      exact ⟨j, pl, po, s, q1, q2, G, H, K, L, hat, d, h2.frame fun r hr => Mem.rename_same (notIn_of_nodup nd3 hi r hr), hb, hrd,
        h6.frame fun r hr => Mem.rename_same (notIn_of_nodup nd2 (by simp [hi]) r hr),
        h7.frame fun r hr => Mem.rename_same (notIn_of_nodup nd (by simp [hi]) r hr), rfl⟩
    · obtain ⟨n', d, h5, a, b, h3, h4⟩ := Den.rename (y := y) hc h2 (List.nodup_append.mp nd3).2.1 hi
      refine ⟨.between l n' u v, ?_, by simp [noIdent, h5], atoms l ++ a, b ++ atoms u ++ atoms v, by simp [atoms, h3], by simp [atoms, h4]⟩
      simp only [Den]
      exact ⟨j, pl, po, s, q1, q2, G, H, K, L, hat, h1.frame fun r hr => Mem.rename_same (notIn_of_nodup' nd3 hi r hr), d, hb, hrd,
        h6.frame fun r hr => Mem.rename_same (notIn_of_nodup nd2 (by simp [hi]) r hr),
        h7.frame fun r hr => Mem.rename_same (notIn_of_nodup nd (by simp [hi]) r hr), rfl⟩
    · obtain ⟨n', d, h5, a, b, h3, h4⟩ := Den.rename (y := y) hc h6 (List.nodup_append.mp nd2).2.1 hi
      refine ⟨.between l o n' v, ?_, by simp [noIdent, h5], atoms l ++ atoms o ++ a, b ++ atoms v, by simp [atoms, h3], by simp [atoms, h4]⟩
      simp only [Den]
      exact ⟨j, pl, po, s, q1, q2, G, H, K, L, hat, h1.frame fun r hr => Mem.rename_same (notIn_of_nodup' nd2 hi r (by simp [hr])),
        h2.frame fun r hr => Mem.rename_same (notIn_of_nodup' nd2 hi r (by simp [hr])), hb, hrd, d,
        h7.frame fun r hr => Mem.rename_same (notIn_of_nodup nd (by simp [hi]) r hr), rfl⟩
    · obtain ⟨n', d, h5, a, b, h3, h4⟩ := Den.rename (y := y) hc h7 (List.nodup_append.mp nd).2.1 hi
      refine ⟨.between l o u n', ?_, by simp [noIdent, h5], atoms l ++ atoms o ++ atoms u ++ a, b, by simp [atoms, h3], by simp [atoms, h4]⟩
      simp only [Den]
      exact ⟨j, pl, po, s, q1, q2, G, H, K, L, hat, h1.frame fun r hr => Mem.rename_same (notIn_of_nodup' nd hi r (by simp [hr])),
        h2.frame fun r hr => Mem.rename_same (notIn_of_nodup' nd hi r (by simp [hr])), hb, hrd,
        h6.frame fun r hr => Mem.rename_same (notIn_of_nodup' nd hi r (by simp [hr])), d, rfl⟩
theorem DenL.rename {m : Mem} {i : Nat} {x y : Str} (hc : m.cells[i]? = some { type := .identifier, name := x }) :
    ∀ {ns ps F}, DenL m ns ps F → F.Nodup → .cell i ∈ F → ∃ ns', DenL (m.rename i y) ns' ps F ∧ RenamedL x y ns ns'
  | [], ps, F, h, nd, hi => by simp only [DenL] at h; rw [h.2] at hi; cases hi
  | n :: ns, ps, F, h, nd, hi => by
    simp only [DenL] at h
    obtain ⟨p, qs, G, H, rfl, h1, h2, rfl⟩ := h
    rcases List.mem_append.mp hi with hi | hi
    · obtain ⟨n', d, h5, a, b, h3, h4⟩ := Den.rename (y := y) hc h1 (List.nodup_append.mp nd).1 hi
      refine ⟨n' :: ns, ?_, by simp [noIdentL, h5], a, b ++ atomsL ns, by simp [atomsL, h3], by simp [atomsL, h4]⟩
      simp only [DenL]
      exact ⟨p, qs, G, H, rfl, d, h2.frame fun r hr => Mem.rename_same (notIn_of_nodup nd hi r hr), rfl⟩
    · obtain ⟨n', d, h5, a, b, h3, h4⟩ := DenL.rename (y := y) hc h2 (List.nodup_append.mp nd).2.1 hi
      refine ⟨n :: n', ?_, by simp [noIdentL, h5], atoms n ++ a, b, by simp [atomsL, h3], by simp [atomsL, h4]⟩
      simp only [DenL]
      exact ⟨p, qs, G, H, rfl, h1.frame fun r hr => Mem.rename_same (notIn_of_nodup' nd hi r hr), d, rfl⟩
end

/-- C68: a returned tree can be edited in place.  Giving another name to one identifier node of the tree changes the tree in that one place. -/
theorem C68_rename (grow : Nat → Nat) (s : Str) (n : Node) (h : parse s = .ok n) :
    ∃ p F, (hparse grow s).1 = .ok p ∧ Den (hparse grow s).2.tree.mem n p F ∧ F.Nodup ∧
      ∀ i x y, Block.cell i ∈ F → (hparse grow s).2.tree.mem.cells[i]? = some { type := .identifier, name := x } →
        ∃ n', Den ((hparse grow s).2.tree.mem.rename i y) n' p F ∧ Renamed x y n n' := by
  obtain ⟨F, ha, nd⟩ := C68_parse grow s
  rw [h] at ha
  obtain ⟨p, hl, G, H, e, hd, ⟨_, rfl⟩, rfl⟩ := ha
  rw [List.append_nil] at nd
  injection e with e
  exact ⟨p, G, e, hd, nd, fun i x y hi hc => Den.rename hc hd nd hi⟩


/-- The second name of `a = b` is the node 2; named `c` the tree is that of `a = c`. -/
example : (hparse (fun n => n) c!"a = b").2.tree.mem.cells[2]? = some { type := .identifier, name := c!"b" } ∧
    (hparse (fun n => n) c!"a = c").2.tree.mem = (hparse (fun n => n) c!"a = b").2.tree.mem.rename 2 c!"c" := by decide +kernel

/-- Distinctness of the blocks is needed: where the two sides of `a = a` are one node, the new name appears on both sides. -/
example : let m : Mem := { cells := [{ type := .identifier, name := c!"a" }, { type := .operation, operation := c!"=" },
      { type := .compare, left := some 0, op := some 1, right := some 0 }] }
    Den m (.cmp (.ident c!"a") (.op c!"=") (.ident c!"a")) (some 2) [.cell 2, .cell 0, .cell 1, .cell 0] ∧
    Den (m.rename 0 c!"b") (.cmp (.ident c!"b") (.op c!"=") (.ident c!"b")) (some 2) [.cell 2, .cell 0, .cell 1, .cell 0] :=
  ⟨⟨2, some 0, some 1, some 0, [.cell 0], [.cell 1], [.cell 0], ⟨rfl, by decide +kernel⟩, ⟨0, ⟨rfl, by decide +kernel⟩, rfl⟩,
      ⟨1, ⟨rfl, by decide +kernel⟩, rfl⟩, ⟨0, ⟨rfl, by decide +kernel⟩, rfl⟩, rfl⟩,
   ⟨2, some 0, some 1, some 0, [.cell 0], [.cell 1], [.cell 0], ⟨rfl, by decide +kernel⟩, ⟨0, ⟨rfl, by decide +kernel⟩, rfl⟩,
      ⟨1, ⟨rfl, by decide +kernel⟩, rfl⟩, ⟨0, ⟨rfl, by decide +kernel⟩, rfl⟩, rfl⟩⟩

end Verif
