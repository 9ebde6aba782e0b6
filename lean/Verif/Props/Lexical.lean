import Verif.Pieces
import Verif.TextThms2

/-! # Literals, operators and names (C08–C11, C14) -/

namespace Verif

open PExp

/-! ## C08: integer literals -/

/-- C08: a canonical decimal of any length parses to exactly its value, or to an error if it does not fit 64 bits. -/
theorem C08_integer_exact (k : Nat) :
    parse (Nat.toDigits 10 k) = if k ≤ 9223372036854775807 then .ok (.int k) else .err (.intRange (Nat.toDigits 10 k)) := by
  obtain ⟨ev, ho, hs, he⟩ := prim_int k
  have sv : Solid (Nat.toDigits 10 k) := by have := hs.solid []; rwa [List.append_nil] at this
  rw [parse_lone ho sv he]
  by_cases hk : k ≤ maxInt
  · have hk' : k ≤ 9223372036854775807 := hk
    simp [hk, hk', outcome]
  · have hk' : ¬ k ≤ 9223372036854775807 := hk
    simp [hk, hk', outcome]

/-- C08 for a literal compared with any operand. -/
theorem C08_integer_operand {u l w1 ob o w2} (hu : Sp .cmp u l) (hw1 : WS w1) (hob : CmpW ob o) (hap : Apart u w1 ob) (hw2 : WS w2) (k : Nat) :
    parse (u ++ (w1 ++ (ob ++ (w2 ++ Nat.toDigits 10 k)))) =
      if k ≤ 9223372036854775807 then .ok (.cmp l (.op o) (.int k)) else .err (.intRange (Nat.toDigits 10 k)) := by
  obtain ⟨ev, ho, hs, he⟩ := prim_int k
  rw [parse_operand hu hw1 hob hap hw2 (prim_cin_end ho) hs he]
  by_cases hk : k ≤ maxInt
  · have hk' : k ≤ 9223372036854775807 := hk
    simp [hk, hk', outcome]
  · have hk' : ¬ k ≤ 9223372036854775807 := hk
    simp [hk, hk', outcome]

/-- C08: every integer in the tree of an accepted query, at any depth, fits Go's `int` and its plain decimal numeral stands in the query. -/
theorem C08_accepted_literal (s : Str) (n : Node) (i : Int) (h : parse s = .ok n) (hi : Sub (.int i) n) :
    ∃ k : Nat, i = k ∧ k ≤ 9223372036854775807 ∧ Nat.toDigits 10 k <:+: s := by
  obtain ⟨x, hx, ha⟩ := parse_from h _ hi
  obtain ⟨k, h1, h2, h3⟩ := atoi_written ha
  exact ⟨k, h1, h2, h3.trans hx⟩

example : parse c!"f(a) in [1, 9223372036854775807]" = .ok (.cmp (.func c!"f" [.ident c!"a"]) (.op c!"in") (.arr [.int 1, .int 9223372036854775807])) ∧
    Sub (.int 9223372036854775807) (.cmp (.func c!"f" [.ident c!"a"]) (.op c!"in") (.arr [.int 1, .int 9223372036854775807])) := by
  refine ⟨by decide +kernel, .step (k := .arr [.int 1, .int 9223372036854775807]) (by simp [kids]) (.step (k := .int 9223372036854775807) (by simp [kids]) .refl)⟩

/-- The spelling `a` as an operand. -/
theorem sp_ident (u : Str) (h : IdText u) (hk : KwFree u) : Sp .prim u (.ident u) := .name (.ident h) hk

theorem idText_a : IdText c!"a" := by
  refine ⟨⟨'a', [], rfl, by unfold IdHead; decide, by simp⟩, ?_⟩
  intro a t h hc
  obtain ⟨x, y, rfl, hx, _⟩ := hc
  simp at h
  rw [← h.1] at hx
  rcases hx with hx | hx <;> exact absurd hx (by decide)

theorem kwFree_a : KwFree c!"a" := by intro k hk; simp at hk; rcases hk with rfl | rfl | rfl | rfl | rfl | rfl <;> decide

theorem sp_a : Sp .cmp c!"a" (.ident c!"a") := .cmpUp (sp_ident _ idText_a kwFree_a).prim_cin

theorem apart_space (u : Str) (w x : Str) (h : w ≠ []) : Apart u w x := fun e => absurd e h

theorem ws_space : WS c!" " := .blank (by decide) .nil

example : parse c!"a = 9223372036854775807" = .ok (.cmp (.ident c!"a") (.op c!"eq") (.int 9223372036854775807)) := by decide +kernel
example : parse c!"a = 9223372036854775808" = .err (.intRange c!"9223372036854775808") := by decide +kernel
example (k : Nat) (h : k ≤ 9223372036854775807) : parse (c!"a" ++ (c!" " ++ (c!"=" ++ (c!" " ++ Nat.toDigits 10 k)))) =
    .ok (.cmp (.ident c!"a") (.op c!"eq") (.int k)) := by
  have := C08_integer_operand sp_a ws_space (.sym (u := c!"=") (o := c!"eq") (by decide)) (apart_space _ _ _ (by decide)) ws_space k
  rwa [if_pos h] at this

/-! ## C09: string literals -/

/-- C09, single quotes. -/
theorem C09_single_quoted (s : Str) (h : '\'' ∉ s) : parse ('\'' :: (s ++ c!"'")) = .ok (.str s) :=
  (Sp.lit (.sq h)).prim_cin.cin_logic.parse

/-- C09, double quotes. -/
theorem C09_double_quoted (s : Str) (h : '"' ∉ s) : parse ('"' :: (s ++ c!"\"")) = .ok (.str s) :=
  (Sp.lit (.dq h)).prim_cin.cin_logic.parse

/-- C09 for a literal compared with any operand. -/
theorem C09_string_operand {u l w1 ob o w2} (hu : Sp .cmp u l) (hw1 : WS w1) (hob : CmpW ob o) (hap : Apart u w1 ob) (hw2 : WS w2)
    (q : Char) (hq : q = '\'' ∨ q = '"') (s : Str) (h : q ∉ s) :
    parse (u ++ (w1 ++ (ob ++ (w2 ++ q :: (s ++ [q]))))) = .ok (.cmp l (.op o) (.str s)) := by
  refine (Sp.cmp_logic (.cmp hu hw1 hob hap hw2 (Sp.prim_cin (.lit ?_)))).parse
  rcases hq with rfl | rfl
  · exact .sq h
  · exact .dq h

example : parse c!"a = ' It\"s \\n -- AND (not) // '" = .ok (.cmp (.ident c!"a") (.op c!"eq") (.str c!" It\"s \\n -- AND (not) // ")) := by
  decide +kernel

/-! ## C10: operators -/

/-- C10: comparisons, any operands, any spelling, blanks and comments around the operator. -/
theorem C10_compare {u l w1 ob o w2 v r} (hu : Sp .cmp u l) (hw1 : WS w1) (hob : CmpW ob o) (hap : Apart u w1 ob) (hw2 : WS w2)
    (hv : Sp .cin v r) : parse (u ++ (w1 ++ (ob ++ (w2 ++ v)))) = .ok (.cmp l (.op o) r) :=
  (Sp.cmp_logic (.cmp hu hw1 hob hap hw2 hv)).parse

/-- C10: logic operators. -/
theorem C10_logic {u l w1 ob o w2 v r} (hu : Sp .logic u l) (hw1 : WS w1) (hob : LogicOp ob o) (hap : Apart u w1 ob) (hw2 : WS w2)
    (hv : Sp .neg v r) : parse (u ++ (w1 ++ (ob ++ (w2 ++ v)))) = .ok (.logic l (.op o) r) :=
  (Sp.logic hu hw1 hob hap hw2 hv).parse

/-- C10: membership. -/
theorem C10_in {u l w1 ob o w2 a n} (hu : Sp .prd u l) (hw1 : WS w1) (hob : InW ob o) (hap : Apart u w1 ob) (hw2 : WS w2)
    (ha : LitArr a n) : parse (u ++ (w1 ++ (ob ++ (w2 ++ a)))) = .ok (.cmp l (.op o) n) :=
  (Sp.cin_logic (.isIn hu hw1 hob hap hw2 ha)).parse

/-- C10: ranges. -/
theorem C10_between {u l w1 ob o w2 a lo w3 k w4 b hi} (hu : Sp .prim u l) (hw1 : WS w1) (hob : BetweenW ob o) (hap : Apart u w1 ob)
    (hw2 : WS w2) (ha : Val a lo) (hw3 : WS w3) (hk : CI c!"and" k) (hw4 : WS w4) (hb : Val b hi) :
    parse (u ++ (w1 ++ (ob ++ (w2 ++ (a ++ (w3 ++ (k ++ (w4 ++ b)))))))) = .ok (.between l (.op o) lo hi) :=
  (Sp.cin_logic (.cinUp (.prdUp (.btw hu hw1 hob hap hw2 ha hw3 hk hw4 hb)))).parse

/-- C10: predicates. -/
theorem C10_predicate {u l w1 ob o} (hu : Sp .btw u l) (hw1 : WS w1) (hne : w1 ≠ []) (hob : MatchW ob o) :
    parse (u ++ (w1 ++ ob)) = .ok (.pred l (.op o)) :=
  (Sp.cin_logic (.cinUp (.pred hu hw1 hne hob))).parse

/-- C10: normalising is idempotent, for every text. -/
theorem C10_idempotent (s : Str) : normOp (normOp s) = normOp s := normOp_idem s

example : parse c!"a NoT \t\n liKE 'x' oR b is   not\tnull and c not  between 1 AND 2 || d nOt  In (1,2,)" =
    .ok (.logic (.logic (.logic (.cmp (.ident c!"a") (.op c!"not like") (.str c!"x")) (.op c!"or") (.pred (.ident c!"b") (.op c!"is not null")))
      (.op c!"and") (.between (.ident c!"c") (.op c!"not between") (.int 1) (.int 2))) (.op c!"or")
      (.cmp (.ident c!"d") (.op c!"not in") (.arr [.int 1, .int 2]))) := by decide +kernel
example : BetweenW c!"nOT \r between" c!"not between" :=
  .notBtw (a := c!"nOT") (s := c!" \r ") ⟨'n', _, rfl, by decide, 'O', _, rfl, by decide, 'T', _, rfl, by decide, rfl⟩ ⟨by decide, by decide⟩
/-- Without the blanks-only restriction the recorded operation keeps the comment text. -/
example : parse c!"a not--x\nin (1)" = .ok (.cmp (.ident c!"a") (.op c!"not--x in") (.arr [.int 1])) := by decide +kernel

/-! ## C11: which comparison operators are reachable -/

/-- C11 (partial): `>= <= == != > < = gt lt eq neq like` and `not like` work between all operands, as documented.
Missing: `<>`, `gte`, `lte`, which never work (see below). -/
theorem C11_comparisons_partial {u l w1 ob o w2 v r} (hu : Sp .cmp u l) (hw1 : WS w1) (hob : CmpW ob o) (hne : w1 ≠ []) (hw2 : WS w2)
    (hv : Sp .cin v r) : parse (u ++ (w1 ++ (ob ++ (w2 ++ v)))) = .ok (.cmp l (.op o) r) :=
  C10_compare hu hw1 hob (apart_space _ _ _ hne) hw2 hv

/-- C11 is false for `<>`: after any operand, and whatever follows, it is a syntax error. -/
theorem C11_ltgt_refuted {u l w1} (hu : Sp .cmp u l) (hw1 : WS w1) (y : Str) : SyntaxError (u ++ (w1 ++ (c!"<>" ++ y))) := by
  have hs : Solid (c!"<>" ++ y) := Solid.cons (by decide)
  obtain ⟨h1, h2, h3⟩ := stop_of_hd hs (Hd.cons (by decide))
  have := stuck (w1 := []) .nil hu.cmp_logic hw1 hs (glue_hd (hd_append (ws_hd hw1 (by decide)) (Hd.cons (by decide)))) (by simp) h1 h2 h3
    (noC_ltgt y) (noL_of_hd hs (Hd.cons (by decide)))
  simpa using this

/-- C11 is false for `gte` and `lte`: the recogniser takes `gt`/`lt` and then the name `e`, so that a following operand is a
syntax error. -/
theorem C11_gte_lte_refuted {u l w1 w k w2 y} (hu : Sp .cmp u l) (hw1 : WS w1) (hne1 : w1 ≠ []) (hw : w = c!"gte" ∨ w = c!"lte") (hk : CI w k)
    (hw2 : WS w2) (hne2 : w2 ≠ []) (hy : y ≠ []) (hs : Solid y) (h1 : Hd relF y) (h2 : Hd cmpH y) (h3 : Hd logH y) :
    SyntaxError (u ++ (w1 ++ (k ++ (w2 ++ y)))) := by
  have split : ∃ g e o, k = g ++ e ∧ CmpW g o ∧ (e = c!"e" ∨ e = c!"E") := by
    rcases hw with rfl | rfl
    · obtain ⟨a, _, rfl, ha, b, _, rfl, hb, c, _, rfl, hc, rfl⟩ := hk
      refine ⟨[a, b], [c], c!"gt", rfl, .word (by decide) ⟨a, _, rfl, ha, b, _, rfl, hb, rfl⟩, ?_⟩
      rcases hc with rfl | rfl
      · exact .inl rfl
      · exact .inr rfl
    · obtain ⟨a, _, rfl, ha, b, _, rfl, hb, c, _, rfl, hc, rfl⟩ := hk
      refine ⟨[a, b], [c], c!"lt", rfl, .word (by decide) ⟨a, _, rfl, ha, b, _, rfl, hb, rfl⟩, ?_⟩
      rcases hc with rfl | rfl
      · exact .inl rfl
      · exact .inr rfl
  obtain ⟨g, e, o, rfl, hg, he⟩ := split
  have spe : Sp .prim e (.ident e) := by
    refine sp_ident e ?_ ?_
    · refine ⟨?_, ?_⟩
      · rcases he with rfl | rfl <;> exact ⟨_, [], rfl, by unfold IdHead; decide, by simp⟩
      · rintro a t h ⟨x, y, rfl, hx, _⟩
        rcases he with rfl | rfl <;> simp at h <;> rw [← h.1] at hx <;> rcases hx with hx | hx <;> exact absurd hx (by decide)
    · intro q hq
      simp at hq
      rcases he with rfl | rfl <;> rcases hq with rfl | rfl | rfl | rfl | rfl | rfl <;> decide
  obtain ⟨n1, n2, n3⟩ := stop_of_hd hs h1
  have := stuck (w1 := []) .nil (Sp.cmp_logic (.cmp hu hw1 hg (apart_space _ _ _ hne1) .nil spe.prim_cin)) hw2 hs (glue_ws hw2 hne2) hy n1 n2 n3
    (noC_of_hd hs h2) (noL_of_hd hs h3)
  simpa using this

example : ∃ b e, parse c!"a gte 1" = .err (.syntax b e) := ⟨5, 6, by decide +kernel⟩
example : ∃ b e, parse c!"a <> 1" = .err (.syntax b e) := ⟨2, 3, by decide +kernel⟩
/-- With a parenthesis `gte` is even misread. -/
example : parse c!"a gte(1)" = .ok (.cmp (.ident c!"a") (.op c!"gt") (.func c!"e" [.int 1])) := by decide +kernel

/-! ## C14: names that start with a keyword -/

/-- C14 is false: no accepted query (without `->`) contains a column, relation or function that starts with `true`, `false`,
`null` (lower or upper case) or with `not` in any letter case. -/
theorem C14_keyword_prefix_refuted (q : Str) (n : Node) (h : parse q = .ok n) (ha : Balanced q false) (x : Str) (hx : x ∈ heads n) :
    (∀ k ∈ [c!"true", c!"false", c!"TRUE", c!"FALSE", c!"null", c!"NULL"], ¬ k <+: x) ∧ ∀ a t, x = a ++ t → ¬ CI c!"not" a := by
  obtain ⟨a, _, h2, h3⟩ := parse_ok h
  have : a = false := by
    unfold Balanced at ha h2
    rw [ha] at h2
    simpa using h2.symm
  obtain ⟨_, _, _, _, _, hr, _⟩ := h3 this
  exact hr.heads x hx

/-- C14: a query that starts with `not` and goes on without a blank is always a syntax error, e.g. `notes = 1` or `not(a)`. -/
theorem C14_not_prefix_refuted (w k y : Str) (hw : WS w) (hk : CI c!"not" k) (hy : Solid y) : SyntaxError (w ++ (k ++ y)) :=
  no_start hw (hk.hd (by decide) (by decide) _) (not_no hk hy)

/-- C14 (partial): every other identifier is a column.  Missing: the identifiers excluded above. -/
theorem C14_names_partial (x : Str) (h : IdText x) (hk : KwFree x) : parse x = .ok (.ident x) :=
  (sp_ident x h hk).prim_cin.cin_logic.parse

example : ∃ b e, parse c!"notes = 1" = .err (.syntax b e) := ⟨0, 0, by decide +kernel⟩
example : ∃ b e, parse c!"nullable = 1" = .err (.syntax b e) := ⟨0, 4, by decide +kernel⟩
example : heads (.cmp (.ref [c!"x", c!"trueness"]) (.op c!"eq") (.func c!"f" [.ident c!"y"])) = [c!"x", c!"f", c!"y"] := by decide
example : parse c!"x.trueness = f(y)" = .ok (.cmp (.ref [c!"x", c!"trueness"]) (.op c!"eq") (.func c!"f" [.ident c!"y"])) := by decide +kernel
/-- Keywords are glued to what follows: this is `true > 1`. -/
example : parse c!"truegt1" = .ok (.cmp (.bool true) (.op c!"gt") (.int 1)) := by decide +kernel

end Verif
