import Verif.BuildThms
import Verif.Spec.Meaning
import Verif.Props.Structure
import Verif.RoundTrip
import Verif.Spec.Values

/-! # Printing: Build, Value, String (C06, C07, C42, C45) -/

namespace Verif

/-! ## C06 -/

/-- C06: every grammatical tree whose strings need no escaping, whose operators are documented ones and whose function calls all
carry the name of the root (so: only the root is a call, or nested calls of the same function) is printed without panic, and
the text parses back to exactly this tree. -/
theorem C06_build_parse (P : Char → Bool) (n : Node) (h : Shape .logic n) (hf : Fit P (rootName n) n) :
    ∃ t, build P n = some t ∧ parse t = .ok n := by
  obtain ⟨t, h1, h2⟩ := h.built hf
  exact ⟨t, h1, h2.parse⟩

/-- Printable ASCII, for examples. -/
def asciiPrint (c : Char) : Bool := decide (32 ≤ c.toNat ∧ c.toNat < 127)

example : build asciiPrint (.func c!"f" [.not (.paren (.logic (.cmp (.ref [c!"a", c!"b"]) (.op c!"gte") (.int 1)) (.op c!"or")
    (.between (.ident c!"c") (.op c!"not between") (.str c!"x") .null)))]) =
    some c!"f(not (a.b >= 1 || c not between \"x\" and null))" := by decide +kernel
example : parse c!"f(not (a.b >= 1 || c not between \"x\" and null))" =
    .ok (.func c!"f" [.not (.paren (.logic (.cmp (.ref [c!"a", c!"b"]) (.op c!"gte") (.int 1)) (.op c!"or")
    (.between (.ident c!"c") (.op c!"not between") (.str c!"x") .null)))]) := by decide +kernel

/-! ## C07 -/

/-- C07, partial: Build and Parse round-trip for accepted queries without `->` whose tree is fit for printing.  See the refutations
below for why both are needed. -/
theorem C07_round_trip_partial (P : Char → Bool) (s : Str) (n : Node) (h : parse s = .ok n) (ha : Balanced s false) (hf : Fit P (rootName n) n) :
    ∃ t, build P n = some t ∧ parse t = .ok n := C06_build_parse P n (parse_shape h ha) hf

/-- Hypotheses of `C07_round_trip_partial` on a concrete query. -/
example : parse c!"a >= 'x y'" = .ok (.cmp (.ident c!"a") (.op c!"gte") (.str c!"x y")) ∧ Balanced c!"a >= 'x y'" false ∧
    Fit asciiPrint (rootName (.cmp (.ident c!"a") (.op c!"gte") (.str c!"x y"))) (.cmp (.ident c!"a") (.op c!"gte") (.str c!"x y")) := by
  refine ⟨by decide +kernel, by unfold Balanced; decide, ?_⟩
  intro m hm
  cases hm with
  | refl => trivial
  | step hk hm =>
    simp [kids] at hk
    rcases hk with rfl | rfl | rfl
    · cases hm with
      | refl => trivial
      | step hk _ => simp [kids] at hk
    · cases hm with
      | refl => exact (by decide : c!"gte" ∈ opNames)
      | step hk _ => simp [kids] at hk
    · cases hm with
      | refl => exact (by decide : ∀ c ∈ c!"x y", asciiPrint c = true ∧ c ≠ '"' ∧ c ≠ '\\')
      | step hk _ => simp [kids] at hk

/-- C07, exactly: for an accepted query in which `->` does not occur, the text printed for its tree parses back to the same tree if and only if
the tree is fit for printing, that is: no string of it needs escaping, all its calls carry the name of the root, and its operators are recorded
under their documented names (no comment was left in one).  Line ends must count as not printable, as they do for `strconv.Quote`. -/
theorem C07_round_trip_iff (P : Char → Bool) (hn : P '\n' = false) (hr : P '\r' = false) (s : Str) (n : Node) (h : parse s = .ok n)
    (ha : ¬ c!"->" <:+: s) : (∃ t, build P n = some t ∧ parse t = .ok n) ↔ Fit P (rootName n) n := by
  constructor
  · rintro ⟨t, hb, ht⟩
    exact round_trip_fit hn hr h ha hb ht
  · exact C07_round_trip_partial P s n h (parse_arrowless h (pairs_of_noArrow ha)).1

theorem buildL_complete {P : Char → Bool} {root : Str} : ∀ {l : List Node}, (∀ n ∈ l, ∃ t, buildN P root n = some t) → ∃ t, buildL P root l = some t
  | [], _ => ⟨[], rfl⟩
  | [n], h => h n (by simp)
  | n :: m :: l, h => by
    obtain ⟨v, hv⟩ := h n (by simp)
    obtain ⟨vs, hvs⟩ := buildL_complete (l := m :: l) fun k hk => h k (List.mem_cons_of_mem _ hk)
    exact ⟨_, by simp only [buildL, hv, hvs]; rfl⟩

theorem buildN_complete {P : Char → Bool} {root : Str} {n : Node} (h : Complete n) : ∃ t, buildN P root n = some t := by
  have ne : ∀ {r}, Complete r → r ≠ .nil := by rintro r h rfl; cases h
  induction h with
  | arr _ ih => obtain ⟨t, ht⟩ := buildL_complete ih; exact ⟨_, by simp only [buildN, ht]; rfl⟩
  | func _ ih => obtain ⟨t, ht⟩ := buildL_complete ih; exact ⟨_, by simp only [buildN, ht]; rfl⟩
  | pred _ _ i1 i2 => obtain ⟨a, ha⟩ := i1; obtain ⟨b, hb⟩ := i2; exact ⟨_, by simp only [buildN, ha, hb]; rfl⟩
  | cmp _ _ h3 i1 i2 i3 =>
    obtain ⟨a, ha⟩ := i1; obtain ⟨b, hb⟩ := i2; obtain ⟨c, hc⟩ := i3; exact ⟨_, by rw [buildN_cmp (ne h3), ha, hb, hc]; rfl⟩
  | logic _ _ h3 i1 i2 i3 =>
    obtain ⟨a, ha⟩ := i1; obtain ⟨b, hb⟩ := i2; obtain ⟨c, hc⟩ := i3; exact ⟨_, by rw [buildN_logic (ne h3), ha, hb, hc]; rfl⟩
  | paren _ i => obtain ⟨a, ha⟩ := i; exact ⟨_, by simp only [buildN, ha]; rfl⟩
  | not _ i => obtain ⟨a, ha⟩ := i; exact ⟨_, by simp only [buildN, ha]; rfl⟩
  | between _ _ _ _ i1 i2 i3 i4 =>
    obtain ⟨a, ha⟩ := i1; obtain ⟨b, hb⟩ := i2; obtain ⟨c, hc⟩ := i3; obtain ⟨e, he⟩ := i4
    exact ⟨_, by simp only [buildN, ha, hb, hc, he]; rfl⟩
  | _ => exact ⟨_, by simp only [buildN]; rfl⟩

/-- C07: whether or not it comes back, the tree of every accepted query is printed; `Build` does not panic on it. -/
theorem C07_printed (P : Char → Bool) (s : Str) (n : Node) (h : parse s = .ok n) : ∃ t, build P n = some t :=
  buildN_complete ((parse_fine h).1.complete)

/-- A tree that does not come back is printed. -/
example : parse c!"f(g(1), 'a\"b')" = .ok (.func c!"f" [.func c!"g" [.int 1], .str c!"a\"b"]) ∧
    build asciiPrint (.func c!"f" [.func c!"g" [.int 1], .str c!"a\"b"]) = some c!"f(f(1),\"a\\\"b\")" := by decide +kernel

/-- The three ways to be unfit: a string that needs escaping, a call below a root of another name, a comment within an operator. -/
example : asciiPrint '\n' = false ∧ asciiPrint '\r' = false ∧
    (parse c!"a = 'x\\y'" = .ok (.cmp (.ident c!"a") (.op c!"eq") (.str c!"x\\y")) ∧ ¬ c!"->" <:+: c!"a = 'x\\y'") ∧
    (parse c!"a = f(1)" = .ok (.cmp (.ident c!"a") (.op c!"eq") (.func c!"f" [.int 1])) ∧ ¬ c!"->" <:+: c!"a = f(1)") ∧
    (parse c!"a not --x\n like 'b'" = .ok (.cmp (.ident c!"a") (.op c!"not --x like") (.str c!"b")) ∧ ¬ c!"->" <:+: c!"a not --x\n like 'b'") := by
  decide +kernel
example : ¬ Fit asciiPrint [] (.cmp (.ident c!"a") (.op c!"eq") (.str c!"x\\y")) ∧ ¬ Fit asciiPrint [] (.cmp (.ident c!"a") (.op c!"eq") (.func c!"f" [.int 1])) ∧
    ¬ Fit asciiPrint [] (.cmp (.ident c!"a") (.op c!"not --x like") (.str c!"b")) := by
  refine ⟨fun h => ?_, fun h => ?_, fun h => ?_⟩
  · have : Clean asciiPrint c!"x\\y" := h (.str c!"x\\y") (.step (k := .str c!"x\\y") (by simp [kids]) .refl)
    exact absurd (this '\\' (by simp)).2.2 (by decide)
  · have : c!"f" = ([] : Str) := h (.func c!"f" [.int 1]) (.step (k := .func c!"f" [.int 1]) (by simp [kids]) .refl)
    exact absurd this (by decide)
  · have : c!"not --x like" ∈ opNames := h (.op c!"not --x like") (.step (k := .op c!"not --x like") (by simp [kids]) .refl)
    exact absurd this (by decide)

theorem quoteRune_len (P : Char → Bool) (c : Char) : 1 ≤ (quoteRune P c).length ∧ ((quoteRune P c).length = 1 → P c = true ∧ c ≠ '"' ∧ c ≠ '\\') := by
  unfold quoteRune
  by_cases h0 : c = '"' ∨ c = '\\'
  · rw [if_pos h0]; simp
  · rw [if_neg h0]
    have h0' : c ≠ '"' ∧ c ≠ '\\' := not_or.mp h0
    by_cases h1 : P c = true
    · rw [if_pos h1]; exact ⟨by simp, fun _ => ⟨h1, h0'⟩⟩
    · rw [if_neg h1]
      have two : ∀ (b : Prop) [Decidable b] (x y : Str), 2 ≤ x.length → 2 ≤ y.length → 2 ≤ (if b then x else y).length := by
        intro b _ x y hx hy; by_cases hb : b <;> simp [hb, hx, hy]
      have : 2 ≤ (if c.toNat = 7 then c!"\\a" else if c.toNat = 8 then c!"\\b" else if c.toNat = 12 then c!"\\f" else if c.toNat = 10 then c!"\\n"
        else if c.toNat = 13 then c!"\\r" else if c.toNat = 9 then c!"\\t" else if c.toNat = 11 then c!"\\v"
        else if c.toNat < 32 ∨ c.toNat = 127 then c!"\\x" ++ hexPad 2 c.toNat
        else if c.toNat < 65536 then c!"\\u" ++ hexPad 4 c.toNat else c!"\\U" ++ hexPad 8 c.toNat).length := by
        refine two _ _ _ (by simp) (two _ _ _ (by simp) (two _ _ _ (by simp) (two _ _ _ (by simp) (two _ _ _ (by simp) (two _ _ _ (by simp)
          (two _ _ _ (by simp) (two _ _ _ ?_ (two _ _ _ ?_ ?_)))))))) <;> simp
      exact ⟨by omega, fun h => by omega⟩

theorem quote_fix {P : Char → Bool} : ∀ {s : Str}, s.flatMap (quoteRune P) = s → Clean P s
  | [], _ => by simp [Clean]
  | c :: s, h => by
    have hlen : ∀ l : Str, l.length ≤ (l.flatMap (quoteRune P)).length := by
      intro l
      induction l with
      | nil => simp
      | cons d l ih => rw [List.flatMap_cons, List.length_append, List.length_cons]; have := (quoteRune_len P d).1; omega
    have hl := congrArg List.length h
    rw [List.flatMap_cons, List.length_append, List.length_cons] at hl
    have h1 := quoteRune_len P c
    have h2 := hlen s
    have hc := h1.2 (by omega)
    have hq : quoteRune P c = [c] := by simp [quoteRune, hc]
    rw [List.flatMap_cons, hq] at h
    have ih := quote_fix (s := s) (by simpa using h)
    intro x hx
    rcases List.mem_cons.mp hx with rfl | hx
    · exact hc
    · exact ih x hx

theorem hex_noQuote (n : Nat) : '"' ∉ Nat.toDigits 16 n := by
  have dig : ∀ d : Nat, d < 16 → '"' ≠ Nat.digitChar d := by decide
  induction n using Nat.strongRecOn with
  | _ n ih =>
    rw [Nat.toDigits_eq_if (by decide)]
    by_cases h : n < 16
    · rw [if_pos h]; simp [dig n h]
    · rw [if_neg h]
      intro hm
      rcases List.mem_append.mp hm with hm | hm
      · exact ih (n / 16) (by omega) hm
      · exact dig (n % 16) (by omega) (List.mem_singleton.mp hm)

theorem quoteRune_noQuote (P : Char → Bool) {c : Char} (hc : c ≠ '"') : '"' ∉ quoteRune P c := by
  have nodig : ∀ n k, '"' ∉ hexPad k n := by
    intro n k hm
    simp only [hexPad, List.mem_append, List.mem_replicate] at hm
    rcases hm with ⟨_, h⟩ | h
    · exact absurd h (by decide)
    · exact hex_noQuote n h
  have two : ∀ (b : Prop) [Decidable b] (x y : Str), '"' ∉ x → '"' ∉ y → '"' ∉ (if b then x else y) := by
    intro b _ x y hx hy; by_cases hb : b <;> simp [hb, hx, hy]
  unfold quoteRune
  refine two _ _ _ (by simpa using fun e : '"' = c => hc e.symm) (two _ _ _ (by simpa using fun e : '"' = c => hc e.symm) (two _ _ _ (by decide) (two _ _ _ (by decide)
    (two _ _ _ (by decide) (two _ _ _ (by decide) (two _ _ _ (by decide) (two _ _ _ (by decide) (two _ _ _ (by decide) (two _ _ _ ?_ (two _ _ _ ?_ ?_))))))))))
  all_goals
    intro hm
    rcases List.mem_append.mp hm with hm | hm
    · exact absurd hm (by decide)
    · exact nodig _ _ hm

/-- C07 fails for exactly the string literals that need escaping (shown for texts without a double quote; see `C07_quote_refuted` for
the quote): the text printed for a string literal parses back to it only if nothing in it is escaped (a backslash, a newline, ...). -/
theorem C07_string_literal (P : Char → Bool) (s : Str) (hq : '"' ∉ s) : (∃ t, build P (.str s) = some t ∧ parse t = .ok (.str s)) ↔ Clean P s := by
  constructor
  · rintro ⟨t, ht, hp⟩
    simp only [build, buildN, Option.some.injEq] at ht
    subst ht
    have hx := fun c hc => quoteRune_noQuote P (c := c) hc
    have hfree : '"' ∉ s.flatMap (quoteRune P) := by
      intro hm
      obtain ⟨c, hc, hm⟩ := List.mem_flatMap.mp hm
      exact hx c (fun e => hq (e ▸ hc)) hm
    have h2 := C09_double_quoted _ hfree
    rw [quote, h2] at hp
    simp at hp
    exact quote_fix hp
  · intro h
    refine ⟨_, rfl, ?_⟩
    rw [quote_clean h]
    exact C09_double_quoted s hq

/-- C07 is false: `'a"b'` is accepted, but the text printed for it is rejected, whatever characters count as printable. -/
theorem C07_quote_refuted (P : Char → Bool) (ha : P 'a' = true) (hb : P 'b' = true) :
    parse c!"'a\"b'" = .ok (.str c!"a\"b") ∧ ∃ t, build P (.str c!"a\"b") = some t ∧ SyntaxError t := by
  refine ⟨by decide +kernel, c!"\"a\\\"b\"", by simp [build, buildN, quote, quoteRune, ha, hb], ⟨0, 4, by decide +kernel⟩⟩

/-- C07 is false: nested calls are printed with the name of the root.  For all distinct names `f` and `g`, `f(g())` comes back as `f(f())`. -/
theorem C07_nested_call_refuted (P : Char → Bool) {f g : Str} (hf : IdText f) (hk : KwFree f) :
    ∃ t, build P (.func f [.func g []]) = some t ∧ parse t = .ok (.func f [.func f []]) := by
  have h : Shape .logic (.func f [.func f []]) := by
    have up : ∀ {n}, Shape .prim n → Shape .logic n := fun h => .logicUp (.negUp (.cmpUp (.cinUp (.prdUp (.btwUp h)))))
    refine up (.func hf hk ?_)
    intro n hn
    rw [List.mem_singleton.mp hn]
    exact up (.func hf hk (by simp))
  obtain ⟨t, h1, h2⟩ := C06_build_parse P _ h (by
    intro m hm
    cases hm with
    | refl => rfl
    | step hk hm =>
      simp [kids] at hk
      subst hk
      cases hm with
      | refl => rfl
      | step hk _ => simp [kids] at hk)
  exact ⟨t, by simpa [build, buildN, buildL, rootName] using h1, h2⟩

example : IdText c!"a" ∧ KwFree c!"a" := ⟨idText_a, kwFree_a⟩

/-! ## C42: String -/

/-- C42 is false: the debug string of every predicate node is the same, whatever its operand and operator, and that of a between node
depends only on its bounds. -/
theorem C42_string_lossy_refuted (l o l' o' a b : Node) :
    nodeStr (.pred l o) = some c!"predicates()" ∧ nodeStr (.between l o a b) = nodeStr (.between l' o' a b) := ⟨rfl, rfl⟩

/-- The debug strings of the nodes stand in the text one after another. -/
inductive InOrder : Str → List Node → Prop where
  | nil {t} : InOrder t []
  | cons {pre u t k ks} : nodeStr k = some u → InOrder t ks → InOrder (pre ++ (u ++ t)) (k :: ks)

/-- What the debug string shows of a node, in this order: everything but the left side and the operator of predicates and ranges. -/
def shown : Node → List Node
  | .cmp l o r => [l, o, r]
  | .logic l o r => [o, l, r]
  | .not e => [e]
  | .paren e => [e]
  | .func _ ps => ps
  | .between _ _ a b => [a, b]
  | _ => []

theorem cat_some {a b : Option Str} {t : Str} (h : cat a b = some t) : ∃ x y, a = some x ∧ b = some y ∧ t = x ++ y := by
  cases a with
  | none => simp [cat] at h
  | some x => cases b with
    | none => simp [cat] at h
    | some y => simp [cat] at h; exact ⟨x, y, rfl, rfl, h.symm⟩

theorem valueL_complete : ∀ {l : List Node}, (∀ n ∈ l, ∃ v, value n = some v) → ∃ vs, valueL l = some vs
  | [], _ => ⟨[], rfl⟩
  | n :: l, h => by
    obtain ⟨v, hv⟩ := h n (by simp)
    obtain ⟨vs, hvs⟩ := valueL_complete fun m hm => h m (List.mem_cons_of_mem _ hm)
    exact ⟨v :: vs, by simp [valueL, hv, hvs]⟩

theorem value_complete {n} (h : Complete n) : ∃ v, value n = some v := by
  induction h with
  | arr _ ih => obtain ⟨vs, hvs⟩ := valueL_complete ih; exact ⟨_, by simp only [value, hvs]; rfl⟩
  | _ => exact ⟨_, rfl⟩

theorem nodeStrs_complete : ∀ {l : List Node}, (∀ n ∈ l, ∃ v, nodeStr n = some v) → ∃ vs, nodeStrs l = some vs
  | [], _ => ⟨[], rfl⟩
  | n :: l, h => by
    obtain ⟨v, hv⟩ := h n (by simp)
    obtain ⟨vs, hvs⟩ := nodeStrs_complete fun m hm => h m (List.mem_cons_of_mem _ hm)
    exact ⟨_, by simp only [nodeStrs, hv, hvs]; rfl⟩

/-- Printing a complete tree never panics. -/
theorem nodeStr_complete {n} (h : Complete n) : ∃ t, nodeStr n = some t := by
  induction h with
  | @arr l hl ih => obtain ⟨vs, hvs⟩ := valueL_complete fun n hn => value_complete (hl n hn); exact ⟨_, by simp only [nodeStr, hvs]; rfl⟩
  | func _ ih => obtain ⟨vs, hvs⟩ := nodeStrs_complete ih; exact ⟨_, by simp only [nodeStr, hvs]; rfl⟩
  | cmp _ _ _ i1 i2 i3 => obtain ⟨a, ha⟩ := i1; obtain ⟨b, hb⟩ := i2; obtain ⟨c, hc⟩ := i3; exact ⟨_, by simp only [nodeStr, ha, hb, hc]; rfl⟩
  | logic _ _ _ i1 i2 i3 => obtain ⟨a, ha⟩ := i1; obtain ⟨b, hb⟩ := i2; obtain ⟨c, hc⟩ := i3; exact ⟨_, by simp only [nodeStr, ha, hb, hc]; rfl⟩
  | paren _ i => obtain ⟨a, ha⟩ := i; exact ⟨_, by simp only [nodeStr, ha]; rfl⟩
  | not _ i => obtain ⟨a, ha⟩ := i; exact ⟨_, by simp only [nodeStr, ha]; rfl⟩
  | between _ _ _ _ _ _ i3 i4 => obtain ⟨a, ha⟩ := i3; obtain ⟨b, hb⟩ := i4; exact ⟨_, by simp only [nodeStr, ha, hb]; rfl⟩
  | _ => exact ⟨_, rfl⟩

theorem Complete.sub {m n} (h : Sub m n) : Complete n → Complete m := by
  induction h with
  | refl => exact id
  | step hk _ ih =>
    intro hn
    refine ih ?_
    cases hn <;> simp only [kids, List.mem_cons, List.not_mem_nil, or_false] at hk <;>
      first | exact hk.elim | (rename_i h; exact h _ hk) | (rcases hk with rfl | rfl | rfl | rfl <;> assumption) |
        (rcases hk with rfl | rfl | rfl <;> assumption) | (rcases hk with rfl | rfl <;> assumption) | (subst hk; assumption)

theorem InOrder.after {t ks} (h : InOrder t ks) (p : Str) : InOrder (p ++ t) ks := by
  cases h with
  | nil => exact .nil
  | cons h1 h2 => rw [← List.append_assoc]; exact .cons h1 h2

theorem nodeStrs_order : ∀ {l : List Node}, (∀ n ∈ l, ∃ v, nodeStr n = some v) → ∀ suf, ∃ vs, nodeStrs l = some vs ∧ InOrder (vs ++ suf) l
  | [], _, _ => ⟨[], rfl, .nil⟩
  | n :: l, h, suf => by
    obtain ⟨v, hv⟩ := h n (by simp)
    obtain ⟨vs, hvs, ho⟩ := nodeStrs_order (fun m hm => h m (List.mem_cons_of_mem _ hm)) suf
    refine ⟨c!"," ++ (v ++ vs), by simp only [nodeStrs, hv, hvs]; rfl, ?_⟩
    rw [List.append_assoc, List.append_assoc]
    exact .cons hv ho

theorem joinDots_names {x : Str} : ∀ {l : List Str}, x ∈ l → x <:+: goJoinDots l
  | [], h => absurd h (by simp)
  | [y], h => by
    have : x = y := by simpa using h
    subst this
    exact List.infix_refl _
  | y :: z :: l, h => by
    rcases List.mem_cons.mp h with rfl | h
    · exact (List.prefix_append x ('.' :: goJoinDots (z :: l))).isInfix
    · exact (joinDots_names h).trans ⟨y ++ c!".", [], by simp [goJoinDots]⟩

/-- C42, partial: String never panics on any node of a tree returned by Parse, and shows the children in order, the node's own name or text, the names
of a path, and literals: integers in decimal, `true`, `false` and `nil` (missing: left side and operator of predicates and ranges, where the claim is
false). -/
theorem C42_string_partial {s m n} (h : parse s = .ok m) (hs : Sub n m) :
    ∃ t, nodeStr n = some t ∧ InOrder t (shown n) ∧
      (∀ x, n = .ident x ∨ n = .op x ∨ n = .str x ∨ (∃ ps, n = .func x ps) ∨ (∃ l, n = .ref l ∧ x ∈ l) → x <:+: t) ∧
      (∀ k : Nat, n = .int k → Nat.toDigits 10 k <:+: t) ∧ (n = .bool true → c!"true" <:+: t) ∧ (n = .bool false → c!"false" <:+: t) ∧
      (n = .null → c!"nil" <:+: t) := by
  obtain ⟨_, hm, _⟩ := parse_ok h
  have hc := hm.sub hs
  obtain ⟨t, ht⟩ := nodeStr_complete hc
  refine ⟨t, ht, ?_, ?_, ?_, ?_, ?_, ?_⟩
  · cases hc with
    | cmp h1 h2 h3 =>
      obtain ⟨a, ha⟩ := nodeStr_complete h1
      obtain ⟨b, hb⟩ := nodeStr_complete h2
      obtain ⟨c, hc⟩ := nodeStr_complete h3
      have : t = c!"compare(" ++ (a ++ (c!"," ++ (b ++ (c!"," ++ (c ++ c!")"))))) := by
        simp only [nodeStr, ha, hb, hc] at ht; exact (Option.some.inj ht).symm
      rw [this]; exact .cons ha (.cons hb (.cons hc .nil))
    | logic h1 h2 h3 =>
      obtain ⟨a, ha⟩ := nodeStr_complete h1
      obtain ⟨b, hb⟩ := nodeStr_complete h2
      obtain ⟨c, hc⟩ := nodeStr_complete h3
      have : t = c!"logic(" ++ (b ++ (c!"," ++ (a ++ (c!"," ++ (c ++ c!")"))))) := by
        simp only [nodeStr, ha, hb, hc] at ht; exact (Option.some.inj ht).symm
      rw [this]; exact .cons hb (.cons ha (.cons hc .nil))
    | between _ _ h1 h2 =>
      obtain ⟨a, ha⟩ := nodeStr_complete h1
      obtain ⟨b, hb⟩ := nodeStr_complete h2
      have : t = c!"between(" ++ (a ++ (c!"," ++ (b ++ c!")"))) := by
        simp only [nodeStr, ha, hb] at ht; exact (Option.some.inj ht).symm
      rw [this]; exact .cons ha (.cons hb .nil)
    | not h1 =>
      obtain ⟨a, ha⟩ := nodeStr_complete h1
      have : t = c!"not(" ++ (a ++ c!")") := by simp only [nodeStr, ha] at ht; exact (Option.some.inj ht).symm
      rw [this]; exact .cons ha .nil
    | paren h1 =>
      obtain ⟨a, ha⟩ := nodeStr_complete h1
      have : t = c!"parentheses(" ++ (a ++ c!")") := by simp only [nodeStr, ha] at ht; exact (Option.some.inj ht).symm
      rw [this]; exact .cons ha .nil
    | @func f l hl =>
      obtain ⟨vs, hvs, ho⟩ := nodeStrs_order (fun k hk => nodeStr_complete (hl k hk)) c!")"
      have : t = (c!"function(" ++ f) ++ (vs ++ c!")") := by simp only [nodeStr, hvs] at ht; exact (Option.some.inj ht).symm
      rw [this]
      exact ho.after _
    | _ => exact .nil
  · rintro x (rfl | rfl | rfl | ⟨ps, rfl⟩ | ⟨l, rfl, hx⟩)
    · cases ht; exact ⟨c!"identifier(", c!")", rfl⟩
    · cases ht; exact ⟨c!"operation(", c!")", rfl⟩
    · cases ht; exact ⟨c!"value(", c!")", rfl⟩
    · cases hps : nodeStrs ps with
      | none => simp only [nodeStr, hps] at ht; cases ht
      | some vs =>
        have : t = (c!"function(" ++ x) ++ (vs ++ c!")") := by simp only [nodeStr, hps] at ht; exact (Option.some.inj ht).symm
        rw [this]; exact ⟨c!"function(", _, rfl⟩
    · cases ht; exact (joinDots_names hx).trans ⟨c!"reference(", c!")", rfl⟩
  · rintro k rfl
    cases ht
    refine ⟨c!"value(", c!")", ?_⟩
    have : fmtInt (k : Int) = Nat.toDigits 10 k := by
      unfold fmtInt
      rw [if_neg (by omega), Int.natAbs_natCast]
    rw [this]
  · rintro rfl; cases ht; exact ⟨c!"value(", c!")", rfl⟩
  · rintro rfl; cases ht; exact ⟨c!"value(", c!")", rfl⟩
  · rintro rfl; cases ht; exact ⟨c!"value(<", c!">)", rfl⟩

/-- A literal as it is shown in lists. -/
inductive LitShown : Str → Node → Prop where
  | int {k : Nat} : LitShown (Nat.toDigits 10 k) (.int k)
  | tru : LitShown c!"true" (.bool true)
  | fls : LitShown c!"false" (.bool false)
  | null : LitShown c!"<nil>" .null
  | str {x} : LitShown x (.str x)

/-- Literals with one blank between them. -/
inductive LitRow : Str → List Node → Prop where
  | nil : LitRow [] []
  | one {u n} : LitShown u n → LitRow u [n]
  | cons {u n t m l} : LitShown u n → LitRow t (m :: l) → LitRow (u ++ ' ' :: t) (n :: m :: l)

/-- C42, for arrays of literals of any length: the elements are shown in order, with a blank between them. -/
theorem C42_array (l : List Node) (h : ValShape (.arr l)) : ∃ v, LitRow v l ∧ nodeStr (.arr l) = some (c!"value([" ++ v ++ c!"])") := by
  have hl : ∀ n ∈ l, LitShape n := by cases h with
    | lit h => cases h
    | arr h => exact h
  have lit : ∀ {n}, LitShape n → ∃ x, value n = some x ∧ LitShown (fmtVal x) n := by
    intro n h
    cases h with
    | @int k _ =>
      refine ⟨_, rfl, ?_⟩
      have : fmtVal (.int (k : Int)) = Nat.toDigits 10 k := by
        unfold fmtVal fmtInt
        rw [if_neg (by omega), Int.natAbs_natCast]
      rw [this]
      exact .int
    | @bool b => cases b <;> exact ⟨_, rfl, by constructor⟩
    | null => exact ⟨_, rfl, .null⟩
    | str => exact ⟨_, rfl, .str⟩
  have key : ∀ l : List Node, (∀ n ∈ l, LitShape n) → ∃ vs, valueL l = some vs ∧ LitRow (fmtVals vs) l := by
    intro l
    induction l with
    | nil => exact fun _ => ⟨[], rfl, .nil⟩
    | cons n l ih =>
      intro h
      obtain ⟨x, hx, hs⟩ := lit (h n (by simp))
      obtain ⟨vs, hvs, hsp⟩ := ih fun m hm => h m (List.mem_cons_of_mem _ hm)
      refine ⟨x :: vs, by simp [valueL, hx, hvs], ?_⟩
      cases l with
      | nil => cases hvs; exact .one hs
      | cons m l =>
        cases vs with
        | nil => obtain ⟨y, hy, _⟩ := lit (h m (by simp)); simp only [valueL, hy] at hvs; cases hv : valueL l <;> rw [hv] at hvs <;> simp at hvs
        | cons y vs => exact .cons hs hsp
  obtain ⟨vs, hvs, hs⟩ := key l hl
  exact ⟨_, hs, by simp only [nodeStr, hvs]; simp [fmtVal]⟩

example : ValShape (.arr [.int 1, .null, .str c!"a"]) ∧ nodeStr (.arr [.int 1, .null, .str c!"a"]) = some c!"value([1 <nil> a])" :=
  ⟨.arr (by intro n hn; simp only [List.mem_cons, List.not_mem_nil, or_false] at hn; rcases hn with rfl | rfl | rfl <;> first | exact .int (k := 1) (by decide) | constructor), by decide +kernel⟩

example : nodeStr (.cmp (.ident c!"a") (.op c!"eq") (.arr [.int 1, .null])) = some c!"compare(identifier(a),operation(eq),value([1 <nil>]))" := by decide +kernel
example : parse c!"not (a between 1 and 2 or f(x, y))" = .ok (.not (.paren (.logic (.between (.ident c!"a") (.op c!"between") (.int 1) (.int 2)) (.op c!"or")
    (.func c!"f" [.ident c!"x", .ident c!"y"])))) ∧
    nodeStr (.not (.paren (.logic (.between (.ident c!"a") (.op c!"between") (.int 1) (.int 2)) (.op c!"or") (.func c!"f" [.ident c!"x", .ident c!"y"])))) =
      some c!"not(parentheses(logic(operation(or),between(value(1),value(2)),function(f,identifier(x),identifier(y)))))" := by decide +kernel

/-! ## C45: Value -/

/-- C45: the value of a literal node is the literal, that of an array (of any length) the list of the values of its elements in order. -/
theorem C45_value (n : Node) (h : ValShape n) :
    (LitShape n → value n = some (litVal n)) ∧ ∀ l, n = .arr l → value n = some (.slice (l.map litVal)) := by
  have lit : ∀ {m}, LitShape m → value m = some (litVal m) := by intro m h; cases h <;> rfl
  refine ⟨lit, ?_⟩
  rintro l rfl
  have hl : ∀ n ∈ l, LitShape n := by cases h with
    | lit h => cases h
    | arr h => exact h
  have : ∀ l : List Node, (∀ n ∈ l, LitShape n) → valueL l = some (l.map litVal) := by
    intro l
    induction l with
    | nil => intro _; rfl
    | cons m l ih =>
      intro h
      simp [valueL, lit (h m (by simp)), ih fun n hn => h n (List.mem_cons_of_mem _ hn)]
  simp [value, this l hl]

theorem Written.lit {u v} (h : Written u v) : ∃ n, Lit u n ∧ value n = some v := by
  cases h with
  | int h => exact ⟨_, .int h, rfl⟩
  | tru h => exact ⟨_, .tru h, rfl⟩
  | fls h => exact ⟨_, .fls h, rfl⟩
  | null h => exact ⟨_, .null h, rfl⟩
  | str hq h =>
    rcases hq with rfl | rfl
    · exact ⟨_, .sq h, rfl⟩
    · exact ⟨_, .dq h, rfl⟩

theorem valueL_append {a b : List Node} {x y : List GoVal} (h1 : valueL a = some x) (h2 : valueL b = some y) : valueL (a ++ b) = some (x ++ y) := by
  induction a generalizing x with
  | nil => simp [valueL] at h1; subst h1; exact h2
  | cons n a ih =>
    rw [List.cons_append, valueL]
    rw [valueL] at h1
    cases hn : value n with
    | none => simp [hn] at h1
    | some v =>
      cases ha : valueL a with
      | none => simp [hn, ha] at h1
      | some w => simp [hn, ha] at h1; subst h1; simp [ih ha]

theorem WrittenList.lits {u vs} (h : WrittenList u vs) : ∃ ns, LitItems u ns ∧ valueL ns = some vs := by
  induction h with
  | one h =>
    obtain ⟨n, h1, h2⟩ := h.lit
    exact ⟨[n], .one h1, by simp [valueL, h2]⟩
  | more _ hw1 hw2 h ih =>
    obtain ⟨ns, h1, h2⟩ := ih
    obtain ⟨n, h3, h4⟩ := h.lit
    exact ⟨ns ++ [n], .more h1 hw1 hw2 h3, valueL_append h2 (by simp [valueL, h4])⟩

/-- C45 from query text: a literal, alone or compared with any operand, is read as a value node whose value is what was written. -/
theorem C45_written {t v} (h : Written t v) : (∃ n, parse t = .ok n ∧ value n = some v ∧ isValue n = true ∧ isExpression n = false) ∧
    ∀ {u l w1 ob o w2}, Sp .cmp u l → WS w1 → CmpW ob o → Apart u w1 ob → WS w2 →
      ∃ n, parse (u ++ (w1 ++ (ob ++ (w2 ++ t)))) = .ok (.cmp l (.op o) n) ∧ value n = some v := by
  obtain ⟨n, h1, h2⟩ := h.lit
  refine ⟨⟨n, (Sp.cmp_logic (.cmpUp (Sp.prim_cin (.lit h1)))).parse, h2, ?_⟩, fun hu hw1 hob hap hw2 => ⟨n, ?_, h2⟩⟩
  · cases h1 <;> exact ⟨rfl, rfl⟩
  · exact (Sp.cmp_logic (.cmp hu hw1 hob hap hw2 (Sp.prim_cin (.lit h1)))).parse

/-- C45 from query text, arrays of any length: the value of the array of `in [...]` is the slice of the values written, in order. -/
theorem C45_written_array {t vs} (h : WrittenList t vs) : (∃ n, parse ('[' :: (t ++ c!"]")) = .ok n ∧ value n = some (.slice vs) ∧ isValue n = true) ∧
    ∀ {u l w1 ob o w2}, Sp .prd u l → WS w1 → InW ob o → Apart u w1 ob → WS w2 →
      ∃ n, parse (u ++ (w1 ++ (ob ++ (w2 ++ '[' :: (t ++ c!"]"))))) = .ok (.cmp l (.op o) n) ∧ value n = some (.slice vs) := by
  obtain ⟨ns, h1, h2⟩ := h.lits
  have ha : LitArr ('[' :: (t ++ c!"]")) (.arr ns) := by
    have := LitArr.items (o := '[') (c := ']') (w := []) (w1 := []) (w2 := []) (by decide) .nil h1 .nil (.inl rfl) .nil
    simpa using this
  have hv : value (.arr ns) = some (.slice vs) := by simp [value, h2]
  exact ⟨⟨_, (Sp.cmp_logic (.cmpUp (Sp.prim_cin (.arr ha)))).parse, hv, rfl⟩, fun hu hw1 hob hap hw2 =>
    ⟨_, (Sp.cmp_logic (.cmpUp (.isIn hu hw1 hob hap hw2 ha))).parse, hv⟩⟩

example : Written c!"42" (.int 42) ∧ Written c!"'x'" (.str c!"x") ∧ Written c!"NULL" .nil :=
  ⟨.int (k := 42) (by decide), .str (q := '\'') (s := c!"x") (by decide) (by decide), .null (.inr rfl)⟩
example : WrittenList c!"42 , 'x'" [.int 42, .str c!"x"] :=
  .more (u := c!"42") (vs := [.int 42]) (w1 := c!" ") (w2 := c!" ") (.one (.int (k := 42) (by decide))) (.blank (by decide) .nil) (.blank (by decide) .nil)
    (.str (q := '\'') (s := c!"x") (by decide) (by decide))
example : value (.arr [.int 3, .null, .str c!"x", .bool true]) = some (.slice [.int 3, .nil, .str c!"x", .bool true]) := rfl
example : ValShape (.arr [.int 3, .null, .str c!"x"]) := .arr (by
  intro n hn; simp at hn; rcases hn with rfl | rfl | rfl
  · exact LitShape.int (k := 3) (by decide)
  · exact .null
  · exact .str)

end Verif
