import Verif.Props.Lexical
import Verif.Complete

/-! # Clearly spelled queries are accepted (C48) -/

namespace Verif

/-- C48: a clearly spelled query is accepted, with exactly the tree it spells: any blanks and comments, any letter case of the
operators, both kinds of quotes and brackets, both forms of ranges, arguments and arrays of any length, any nesting. -/
theorem C48_accepted {s : Str} {n : Node} (h : Spaced s n) : parse s = .ok n := spaced_parse h

/-- C48: a text is a clear spelling of at most one tree. -/
theorem C48_unique {s : Str} {n m : Node} (h : Spaced s n) (h' : Spaced s m) : n = m := by
  have := (spaced_parse h).symm.trans (spaced_parse h')
  cases this; rfl

/-- C48, bracketed ranges: `u between [a, b]` is the range from `a` to `b`, in any letter case of `not`, with any blanks. -/
theorem C48_range {u l w1 ob o w2 w3 a lo w4 w5 b hi w6} (hu : Sp .prim u l) (hw1 : WS w1) (hob : BetweenW ob o) (hap : Apart u w1 ob) (hw2 : WS w2)
    (hw3 : WS w3) (ha : Val a lo) (hw4 : WS w4) (hw5 : WS w5) (hb : Val b hi) (hw6 : WS w6) :
    parse (u ++ (w1 ++ (ob ++ (w2 ++ pairT w3 a w4 w5 b w6)))) = .ok (.between l (.op o) lo hi) :=
  spaced_parse ⟨[], _, [], by simp, .nil, .inr (.mk hu hw1 hob hap hw2 hw3 ha hw4 hw5 hb hw6), .nil⟩

/-- The two forms of a range give the same tree. -/
theorem C48_range_forms {u l w1 ob o w2 w3 a lo w4 w5 b hi w6 w7 k w8} (hu : Sp .prim u l) (hw1 : WS w1) (hob : BetweenW ob o) (hap : Apart u w1 ob)
    (hw2 : WS w2) (hw3 : WS w3) (ha : Val a lo) (hw4 : WS w4) (hw5 : WS w5) (hb : Val b hi) (hw6 : WS w6) (hw7 : WS w7) (hk : CI c!"and" k)
    (hw8 : WS w8) :
    parse (u ++ (w1 ++ (ob ++ (w2 ++ pairT w3 a w4 w5 b w6)))) = parse (u ++ (w1 ++ (ob ++ (w2 ++ (a ++ (w7 ++ (k ++ (w8 ++ b)))))))) := by
  rw [C48_range hu hw1 hob hap hw2 hw3 ha hw4 hw5 hb hw6]
  exact (Sp.parse (Sp.cin_logic (.cinUp (.prdUp (.btw hu hw1 hob hap hw2 ha hw7 hk hw8 hb))))).symm

/-- C48 cannot be extended to a bracketed range followed by `and`: the pair is then taken for the lower bound. -/
theorem C48_range_then_and_refuted :
    parse c!"a between [1, 2] and 3 = b" = .ok (.cmp (.between (.ident c!"a") (.op c!"between") (.arr [.int 1, .int 2]) (.int 3)) (.op c!"eq") (.ident c!"b")) ∧
    parse c!"(a between [1, 2]) and 3 = b" = .ok (.logic (.paren (.between (.ident c!"a") (.op c!"between") (.int 1) (.int 2))) (.op c!"and")
      (.cmp (.int 3) (.op c!"eq") (.ident c!"b"))) := by decide +kernel

/-- A spelling with comments, mixed case and a bracketed range. -/
example : Spaced c!"-- x\n(a NOt between [ 1,'b' ])  OR not a = NULL" (.logic
    (.paren (.between (.ident c!"a") (.op c!"not between") (.int 1) (.str c!"b"))) (.op c!"or") (.not (.cmp (.ident c!"a") (.op c!"eq") .null))) := by
  refine ⟨c!"-- x\n", c!"(a NOt between [ 1,'b' ])  OR not a = NULL", [], rfl, .comment (b := c!" x") (u := []) (.inl rfl) (by decide) (.inl rfl) .nil,
    .inl ?_, .nil⟩
  have hp := sp_ident _ idText_a kwFree_a
  have sb : ∀ s : Str, s = c!" " ∨ s = c!"  " → WS s := by
    rintro s (rfl | rfl)
    · exact ws_space
    · exact .blank (by decide) ws_space
  have h1 := Sp.range (w := []) (w1 := c!" ") (w2 := c!" ") (w3 := c!" ") (w4 := []) (w5 := []) (w6 := c!" ") (w7 := []) (a := c!"1") (b := c!"'b'")
    .nil hp ws_space (.notBtw (a := c!"NOt") (s := c!" ") ⟨'N', _, rfl, .inr rfl, 'O', _, rfl, .inr rfl, 't', _, rfl, .inl rfl, rfl⟩ (by unfold Blanks; decide))
    (apart_space _ _ _ (by decide)) ws_space ws_space (.inl (.int (k := 1) (by decide))) .nil .nil (.inl (.sq (s := c!"b") (by decide))) ws_space .nil
  have h2 : Sp .cmp c!"a = NULL" (.cmp (.ident c!"a") (.op c!"eq") .null) := .cmp (w1 := c!" ") (ob := c!"=") (w2 := c!" ") (v := c!"NULL") sp_a ws_space (.sym (by decide))
    (apart_space _ _ _ (by decide)) ws_space (Sp.prim_cin (.lit (.null (.inr rfl))))
  exact .logic (w1 := c!"  ") (ob := c!"OR") (w2 := c!" ") (v := c!"not a = NULL") (Sp.cin_logic h1.prim_cin) (sb _ (.inr rfl))
    (.word (w := c!"or") (by decide) ⟨'O', _, rfl, .inr rfl, 'R', _, rfl, .inr rfl, rfl⟩) (apart_space _ _ _ (by decide)) ws_space
    (.neg (k := c!"not") (w1 := c!" ") (CI.refl _) ws_space (by decide) h2)

example : parse c!"a between [ 1,2 ]" = parse c!"a between 1 aNd 2" := by decide +kernel

end Verif
