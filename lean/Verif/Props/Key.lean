import Verif.KeyThms
import Verif.Props.Build

/-! # C79: the printed text as a key -/

namespace Verif

/-- C79 for trees: two grammatical trees whose calls all carry the name of the root and whose operators are documented ones are equal if `Build`
gives the same text, whatever their strings are and whatever characters are printable. -/
theorem C79_trees_partial (P : Char → Bool) (n m : Node) (hn : Shape .logic n) (hm : Shape .logic m) (kn : Keyed (rootName n) n) (km : Keyed (rootName m) m)
    (h : build P n = build P m) : n = m := by
  obtain ⟨t, t', h1, h2, h3⟩ := hn.kp (P := P) kn
  obtain ⟨u, u', g1, g2, g3⟩ := hm.kp (P := P) km
  unfold build at h
  rw [h1, g1] at h
  cases h
  rw [h3] at g3
  cases g3
  have fit : ∀ k, Keyed (rootName k) k → Fit (fun _ => true) (rootName (knode P k)) (knode P k) := by
    intro k hk; rw [rootName_knode]; exact hk.fit
  obtain ⟨v, e1, e2⟩ := C06_build_parse (fun _ => true) _ (hn.knode (P := P)) (fit n kn)
  obtain ⟨w, e3, e4⟩ := C06_build_parse (fun _ => true) _ (hm.knode (P := P)) (fit m km)
  unfold build at e1 e3
  rw [rootName_knode, h2] at e1
  rw [rootName_knode, g2] at e3
  cases e1
  cases e3
  rw [e2] at e4
  exact knode_inj P n m (by injection e4)

/-- C79: two accepted queries without `->` outside strings, whose calls all carry the name of the root and whose operators have no comment inside, have
the same tree if `Build` prints the same text.  This covers strings that are escaped, with which the text cannot be read back (`C07_quote_refuted`).
Missing: the refuted cases below. -/
theorem C79_key_partial (P : Char → Bool) (s s' : Str) (n m : Node) (h : parse s = .ok n) (h' : parse s' = .ok m) (ha : Balanced s false)
    (ha' : Balanced s' false) (kn : Keyed (rootName n) n) (km : Keyed (rootName m) m) : build P n = build P m ↔ n = m :=
  ⟨C79_trees_partial P n m (parse_shape h ha) (parse_shape h' ha') kn km, fun e => e ▸ rfl⟩

/-- Two queries with escaped strings that differ in a single character. -/
example : parse c!"a = '\"'" = .ok (.cmp (.ident c!"a") (.op c!"eq") (.str c!"\"")) ∧ parse c!"a = '\\\"'" = .ok (.cmp (.ident c!"a") (.op c!"eq") (.str c!"\\\"")) ∧
    Balanced c!"a = '\"'" false ∧ Balanced c!"a = '\\\"'" false ∧
    (∀ x, Keyed (rootName (.cmp (.ident c!"a") (.op c!"eq") (.str x))) (.cmp (.ident c!"a") (.op c!"eq") (.str x))) ∧
    build asciiPrint (.cmp (.ident c!"a") (.op c!"eq") (.str c!"\"")) = some c!"a == \"\\\"\"" ∧
    build asciiPrint (.cmp (.ident c!"a") (.op c!"eq") (.str c!"\\\"")) = some c!"a == \"\\\\\\\"\"" := by
  refine ⟨by decide +kernel, by decide +kernel, by unfold Balanced; decide, by unfold Balanced; decide, ?_, by decide +kernel, by decide +kernel⟩
  intro x m hm
  cases hm with
  | refl => trivial
  | step hk hm =>
    simp only [kids, List.mem_cons, List.not_mem_nil, or_false] at hk
    rcases hk with rfl | rfl | rfl
    · cases hm with
      | refl => trivial
      | step hk _ => simp [kids] at hk
    · cases hm with
      | refl => show c!"eq" ∈ opNames; decide
      | step hk _ => simp [kids] at hk
    · cases hm with
      | refl => trivial
      | step hk _ => simp [kids] at hk

/-- C79 is false for calls: the name of a call that is not the root is not printed, so that for all operands all calls look alike, and a call of one
argument looks like its argument in parentheses. -/
theorem C79_calls_refuted (P : Char → Bool) (f g : Str) (ps : List Node) (e r : Node) (o : Str) :
    build P (.cmp (.func f ps) (.op o) r) = build P (.cmp (.func g ps) (.op o) r) ∧
    build P (.cmp (.func f [e]) (.op o) r) = build P (.cmp (.paren e) (.op o) r) := by
  have key : ∀ l l', buildN P [] l = buildN P [] l' → buildN P [] (.cmp l (.op o) r) = buildN P [] (.cmp l' (.op o) r) := by
    intro l l' h
    cases r <;> simp only [buildN, h]
  exact ⟨key _ _ (by simp only [buildN]), key _ _ (by simp only [buildN, buildL]; rfl)⟩

/-- Three accepted queries with one text: a function of the column, another function, the column itself. -/
example : parse c!"lower(a) = 'x'" = .ok (.cmp (.func c!"lower" [.ident c!"a"]) (.op c!"eq") (.str c!"x")) ∧
    parse c!"upper(a) = 'x'" = .ok (.cmp (.func c!"upper" [.ident c!"a"]) (.op c!"eq") (.str c!"x")) ∧
    parse c!"(a) = 'x'" = .ok (.cmp (.paren (.ident c!"a")) (.op c!"eq") (.str c!"x")) ∧
    build asciiPrint (.cmp (.func c!"lower" [.ident c!"a"]) (.op c!"eq") (.str c!"x")) = some c!"(a) == \"x\"" := by decide +kernel

/-- C79 is false for comments inside operators: the text of the comment becomes part of the operator, and its end is not visible in the printed text. -/
theorem C79_comment_refuted (P : Char → Bool) : ∃ n m, n ≠ m ∧
    parse c!"a is -- x\nnull and b is null" = .ok n ∧ parse c!"a is -- x null && b is\nnull" = .ok m ∧ build P n = build P m := by
  refine ⟨.logic (.pred (.ident c!"a") (.op c!"is -- x null")) (.op c!"and") (.pred (.ident c!"b") (.op c!"is null")),
    .pred (.ident c!"a") (.op c!"is -- x null && b is null"), nofun, by decide +kernel, by decide +kernel, ?_⟩
  simp [build, buildN, cat, printPretty, pretties, List.lookup]

/-- C79 is false with `->`: the operator and the left operand are dropped, and a comparison looks like a conjunction. -/
theorem C79_arrow_refuted (P : Char → Bool) : ∃ n m, n ≠ m ∧ parse c!"x = p->q->r" = .ok n ∧ parse c!"x and p->q->r" = .ok m ∧ build P n = build P m :=
  ⟨.cmp (.ident c!"p") (.ident c!"q") (.ident c!"r"), .logic (.ident c!"p") (.ident c!"q") (.ident c!"r"), nofun, by decide +kernel, by decide +kernel,
    rfl⟩

end Verif
