import Verif.Word32Thms
import Verif.Ast

/-! # The 32-bit counters of the recogniser (C67) -/

namespace Verif

theorem init_in32 (s : Str) : In32 0 s.length 0 initSt := ⟨Nat.zero_le _, by simp [initSt], by simp [initSt]⟩

/-- **C67**. As long as `8 * n + 9` is below 2^32, where `n` is the number of characters of the query, no counter wraps around: `Parse` with its 32-bit
counters gives what it would give with unbounded ones.  Every other theorem is about the latter. -/
theorem C67_counters (s : Str) (h : 8 * s.length + 9 < 4294967296) : parse32 s = parse s := by
  have hL : ∀ x, x + 1 ≤ 8 * s.length + 9 → inc32 x = x + 1 := fun x hx => Nat.mod_eq_of_lt (by omega)
  unfold parse32 parse
  rw [(execN32_eq hL (depthBound s.length) .Grammar initSt 0 (init_in32 s) (by decide)).1]
  cases execN (mkBuf s) G (depthBound s.length) .Grammar initSt <;> rfl

/-- **C67**, memory: whether the query is accepted or not, the recogniser never holds more than `8 * n + 9` tokens. -/
theorem C67_tokens (s : Str) (st : St)
    (h : execN (mkBuf s) G (depthBound s.length) .Grammar initSt = .ok st ∨ execN (mkBuf s) G (depthBound s.length) .Grammar initSt = .fail st) :
    st.tree.length ≤ 8 * s.length + 9 := by
  have := (execN32_eq (inc := fun x => x + 1) (s := s) (fun _ _ => rfl) (depthBound s.length) .Grammar initSt 0 (init_in32 s) (by decide)).2
  rcases h with h | h <;> rw [h] at this
  · exact this.tree
  · exact this

/-- **C67**, memory of a parser object that is used again: the array of tokens does not grow beyond what the longest query needs, and the tokens of an
accepted query are never more than its own bound. -/
theorem C67_reuse (s : Str) (tree0 : List Tok) :
    (∀ ts tr, pegParse s tree0 = .ok ts tr → ts.length ≤ 8 * s.length + 9 ∧ tr.length ≤ max tree0.length (8 * s.length + 9)) ∧
    (∀ m tr, pegParse s tree0 = .err m tr → tr.length ≤ max tree0.length (8 * s.length + 9)) := by
  have h0 : In32 tree0.length s.length 0 { initSt with tree := tree0 } := ⟨Nat.zero_le _, by simp [initSt], by simp only; omega⟩
  have := (execN32_eq (inc := fun x => x + 1) (s := s) (fun _ _ => rfl) (depthBound s.length) .Grammar _ 0 h0 (by decide)).2
  constructor
  · intro ts tr h
    unfold pegParse at h
    split at h <;> try cases h
    rename_i st hx
    rw [hx] at this
    split at h <;> cases h
    have h1 := In32.ti this
    have h2 := In32.pos this
    have h3 : (0 : Int) + (tokT .Grammar).1 ≤ 9 := by decide
    exact ⟨by rw [List.length_take]; omega, In32.tree this⟩
  · intro m tr h
    unfold pegParse at h
    split at h <;> try cases h
    · rename_i st hx
      rw [hx] at this
      exact this
    · split at h <;> cases h

/-- A short query after a long one that was refused: the array stays as it was. -/
example : (match pegParse c!"(a = 1 or" [] with
    | .err _ tr => match pegParse c!"1" tr with
      | .ok ts tr' => some (tr.length, ts.length, tr'.length)
      | _ => none
    | _ => none) = some (39, 17, 39) := by decide +kernel

/-- The number of tokens left after the recogniser has run. -/
def tokensLeft (s : Str) : Option Nat :=
  match execN (mkBuf s) G (depthBound s.length) .Grammar initSt with
  | .ok st | .fail st => some st.tree.length
  | _ => none

/-- A query for which the bound is attained, and a rejected query after which tokens are left in the array. -/
example : tokensLeft c!"1" = some (8 * 1 + 9) ∧ (∃ b e, parse c!"(a = 1 or" = .err (.syntax b e)) ∧ tokensLeft c!"(a = 1 or" = some 39 ∧
    parse32 c!"a = 1 or b" = .ok (.logic (.cmp (.ident c!"a") (.op c!"eq") (.int 1)) (.op c!"or") (.ident c!"b")) :=
  ⟨by decide +kernel, ⟨7, 9, by decide +kernel⟩, by decide +kernel, by decide +kernel⟩

theorem blanks_at {n p : Nat} (h : p < n) : (mkBuf (List.replicate n ' '))[p]? = some 32 := by
  unfold mkBuf
  rw [List.getElem?_append_left (by simpa using h)]
  simp [h]

/-- One turn of the loop over blanks. -/
theorem blank_turn {N : Nat} (hN : 4294967296 ≤ N) {d : Nat} {st : St} (h : st.pos < 4294967296) :
    ∃ st', execN32 inc32 (mkBuf (List.replicate N ' ')) G (d + 2) .SpaceComment st = .ok st' ∧ st'.pos < 4294967296 := by
  have hb := blanks_at (Nat.lt_of_lt_of_le h hN)
  generalize mkBuf (List.replicate N ' ') = buf at hb
  have e1 : exec32 inc32 buf (execN32 inc32 buf G d) (G .Space) st = .ok { st with pos := inc32 st.pos } := by
    show exec32 inc32 buf _ gSpace st = _
    have h1 : ¬ (32 = Char.toNat '\t') := by decide
    have h2 : 32 = Char.toNat ' ' := by decide
    simp only [gSpace, exec32, hb, List.map_cons, List.map_nil, List.mem_singleton, if_neg h1, if_pos h2]
    rw [if_neg (by simp [← h2])]
  have e2 : execN32 inc32 buf G (d + 1) .Space st = .ok (addTok32 inc32 (.rule .Space) st.pos { st with pos := inc32 st.pos }) := by
    rw [execN32, e1]
  refine ⟨addTok32 inc32 (.rule .SpaceComment) st.pos (addTok32 inc32 (.rule .Space) st.pos { st with pos := inc32 st.pos }), ?_, Nat.mod_lt _ (by decide)⟩
  have e3 : exec32 inc32 buf (execN32 inc32 buf G (d + 1)) (G .SpaceComment) st = .ok (addTok32 inc32 (.rule .Space) st.pos { st with pos := inc32 st.pos }) := by
    show exec32 inc32 buf _ gSpaceComment st = _
    simp only [gSpaceComment, exec32, e2]
  rw [execN32, e3]

/-- The loop over blanks never ends, however long it runs. -/
theorem blank_loop {N : Nat} (hN : 4294967296 ≤ N) (d n : Nat) (st : St) (h : st.pos < 4294967296) :
    execStar (execN32 inc32 (mkBuf (List.replicate N ' ')) G (d + 2) .SpaceComment) n st = .div := by
  induction n generalizing st with
  | zero => rfl
  | succ n ih =>
    obtain ⟨st', h1, h2⟩ := blank_turn hN (d := d) h
    rw [execStar, h1]
    exact ih st' h2

/-- The bound on the length is needed: in a query of 2^32 or more blanks the position wraps around, and the loop over blanks never ends, however many turns it
is given; `Parse` hangs.  With unbounded counters the query would be rejected. -/
theorem C67_wrap_refuted (N : Nat) (hN : 4294967296 ≤ N) :
    (∀ d n st, st.pos < 4294967296 → execStar (execN32 inc32 (mkBuf (List.replicate N ' ')) G (d + 2) .SpaceComment) n st = .div) ∧
    parse32 (List.replicate N ' ') = .div := by
  refine ⟨blank_loop hN, ?_⟩
  have hk : ∃ k, depthBound (List.replicate N ' ').length = k + 4 := ⟨16 * (List.replicate N ' ').length + 12, rfl⟩
  obtain ⟨k, hk⟩ := hk
  have hl := fun n st h => blank_loop hN k n st h
  unfold parse32
  rw [hk]
  generalize mkBuf (List.replicate N ' ') = buf at hl
  have e1 : execN32 inc32 buf G (k + 3) .sp initSt = .div := by
    rw [execN32]
    have : exec32 inc32 buf (execN32 inc32 buf G (k + 2)) (G .sp) initSt = .div := hl (buf.length - initSt.pos) initSt (by decide)
    rw [this]
  have e2 : execN32 inc32 buf G (k + 4) .Grammar initSt = .div := by
    rw [execN32]
    have : exec32 inc32 buf (execN32 inc32 buf G (k + 3)) (G .Grammar) initSt = .div := by
      show exec32 inc32 buf _ gGrammar initSt = _
      simp only [gGrammar, PExp.seqs, exec32, e1]
    rw [this]
  rw [e2]

end Verif
