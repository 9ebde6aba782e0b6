import Verif.Soundness

/-! # Properties of `Parse`: totality, completeness of the tree, balance, grammaticality (C01–C05) -/

namespace Verif

/-- C01: `Parse` returns a node or an error for every text; it neither panics nor runs for ever (the recogniser needs a call
depth of at most `16 * length + 16`). -/
theorem C01_parse_total (s : Str) :
    ((∃ n, parse s = .ok n) ∨ ∃ e, parse s = .err e) ∧ parse s ≠ .panic ∧ parse s ≠ .div := by
  rcases parse_sound s with ⟨n, _, h, _⟩ | ⟨e, h⟩
  · rw [h]; exact ⟨.inl ⟨n, rfl⟩, by simp, by simp⟩
  · rw [h]; exact ⟨.inr ⟨e, rfl⟩, by simp, by simp⟩

/-- C01, for every rule: from any reachable machine state the rule functions of the recogniser return within that depth. -/
theorem C01_rules_total (s0 : Str) (r : Rule) (st : St) (s : Str) (h : Rel s0 st s) :
    (∃ st', execN (mkBuf s0) G (depthBound s0.length) r st = .ok st') ∨
    (∃ st', execN (mkBuf s0) G (depthBound s0.length) r st = .fail st') := by
  have hl : s.length ≤ s0.length := by have := h.len; omega
  have hr : rankG r < 16 := by cases r <;> decide
  have hnd := denoteN_ne_div r s (depthBound s0.length) (by unfold depthBound; omega)
  have hm := execN_match G s0 (depthBound s0.length) r st s h
  cases hd : denoteN G (depthBound s0.length) r s with
  | div => exact absurd hd hnd
  | fail => rw [hd] at hm; obtain ⟨st', ho, _⟩ := hm; exact .inr ⟨st', ho⟩
  | ok e t => rw [hd] at hm; obtain ⟨st', _, ho, _⟩ := hm; exact .inl ⟨st', ho⟩

example : parse c!"not (a.b = 1 and date(c) > '2020')" =
    .ok (.not (.paren (.logic (.cmp (.ref [c!"a", c!"b"]) (.op c!"eq") (.int 1)) (.op c!"and")
      (.cmp (.func c!"date" [.ident c!"c"]) (.op c!"gt") (.str c!"2020"))))) := by decide +kernel
example : parse c!"a = 99999999999999999999" = .err (.intRange c!"99999999999999999999") := by decide +kernel
example : ∃ b e, parse c!"a = (" = .err (.syntax b e) := ⟨3, 4, by decide +kernel⟩

/-- C02: a tree returned without error contains no nil anywhere. -/
theorem C02_complete_tree (s : Str) (n : Node) (h : parse s = .ok n) : Complete n := by
  obtain ⟨_, h1, _⟩ := parse_ok h; exact h1

example : parse c!"x between 1 and [2,'a'] or f(a, b is null)" =
    .ok (.logic (.between (.ident c!"x") (.op c!"between") (.int 1) (.arr [.int 2, .str c!"a"])) (.op c!"or")
      (.func c!"f" [.ident c!"a", .pred (.ident c!"b") (.op c!"is null")])) := by decide +kernel

/-- C03: whatever tokens an arbitrary history of abandoned branches has left in the token array, a rule that succeeds leaves
the earlier tokens untouched and adds exactly the tokens of a successful derivation of the text it consumed. -/
theorem C03_only_successful_derivation (s0 : Str) (d : Nat) (r : Rule) (st st' : St) (s : Str)
    (hrel : Rel s0 st s) (hdep : depthBound s0.length ≤ d) (h : execN (mkBuf s0) G d r st = .ok st') :
    ∃ evs rest toks, Big G (.call r) s (some (evs, rest)) ∧ rest = s0.drop st'.pos ∧
      st'.tree.take st'.ti = st.tree.take st.ti ++ toks ∧ toks.filterMap (evOf s0) = evs := by
  have hd : denoteN G d r s ≠ .div := by
    have hl : s.length ≤ s0.length := by have := hrel.len; omega
    have hr : rankG r < 16 := by cases r <;> decide
    exact denoteN_ne_div r s d (by unfold depthBound at hdep; omega)
  have hm := execN_match G s0 d r st s hrel
  have hb := denoteN_big (G := G) d r s hd
  cases hdn : denoteN G d r s with
  | div => exact absurd hdn hd
  | fail => rw [hdn, h] at hm; obtain ⟨_, ho, _⟩ := hm; cases ho
  | ok e t =>
    rw [hdn] at hm hb
    obtain ⟨st'', toks, ho, hr, _, ht, he, _⟩ := hm
    rw [h] at ho; cases ho
    exact ⟨e, t, toks, hb, hr.rest, ht, he⟩

/-- The text of the last capture, nothing before the first one. -/
def lastText (pre : List Ev) : Str := (pre.filterMap fun | .text s => some s | .act _ => none).getLastD []

/-- The actions of the tail of a derivation, each with the text captured last before it. -/
def actionCalls : List Ev → List Ev → List (Nat × Str)
  | _, [] => []
  | pre, .act n :: evs => (n, lastText pre) :: actionCalls (pre ++ [.act n]) evs
  | pre, .text s :: evs => actionCalls (pre ++ [.text s]) evs

theorem runEvs_calls (evs : List Ev) : ∀ (pre : List Ev) (t : Tree),
    runEvs (lastText pre) evs t = (actionCalls pre evs).foldlM (fun t c => runAct c.1 c.2 t) t := by
  induction evs with
  | nil => intro pre t; rfl
  | cons e evs ih =>
    intro pre t
    cases e with
    | text s =>
      have : lastText (pre ++ [.text s]) = s := by simp [lastText]
      rw [runEvs, actionCalls, ← ih, this]
    | act n =>
      have : lastText (pre ++ [.act n]) = lastText pre := by simp [lastText]
      rw [runEvs, actionCalls, List.foldlM_cons]
      cases runAct n (lastText pre) t with
      | none => rfl
      | some t' => simp only; rw [← this, ih]; rfl

/-- C03 for `Parse`: the actions executed are those of the one successful derivation of the whole text, in order, each with the text captured last
before it in the derivation. -/
theorem C03_parse_runs_derivation (s : Str) (n : Node) (h : parse s = .ok n) :
    ∃ evs t, Big G (.call .Grammar) s (some (evs, [])) ∧ (∀ evs', Big G (.call .Grammar) s (some (evs', [])) → evs' = evs) ∧
      (actionCalls [] evs).foldlM (fun t c => runAct c.1 c.2 t) {} = some t ∧ t.errors = [] ∧ t.pop.1 = n := by
  rcases parse_cases s with ⟨evs, hb, hp⟩ | ⟨_, b, e, hp, _⟩
  · rw [hp] at h
    unfold finish at h
    cases ht : runEvs [] evs {} with
    | none => rw [ht] at h; simp at h
    | some t =>
      rw [ht] at h
      simp only at h
      cases he : t.errors with
      | cons x y => rw [he] at h; simp at h
      | nil =>
        rw [he] at h
        simp only [ParseRes.ok.injEq] at h
        exact ⟨evs, t, hb, fun evs' h' => by have := Big.det h' hb; simpa using this, (runEvs_calls evs [] {}).symm.trans ht, he, h⟩
  · rw [hp] at h; cases h

/-- `(1, 2)` is first tried as a parenthesised expression; that branch has already written tokens when it is abandoned. -/
example : parse c!"(1, 2)" = .ok (.arr [.int 1, .int 2]) := by decide +kernel

/-- C04: quotes, comments and brackets of an accepted query are all closed and properly nested. -/
theorem C04_accepted_balanced (s : Str) (n : Node) (h : parse s = .ok n) : ∃ a, Balanced s a := by
  obtain ⟨a, _, h2, _⟩ := parse_ok h; exact ⟨a, h2⟩

example : parse c!"a in ['(', \"]\"] -- )\n" = .ok (.cmp (.ident c!"a") (.op c!"in") (.arr [.str c!"(", .str c!"]"])) := by
  decide +kernel
example : ¬ ∃ a, Balanced c!"(a]" a := by rintro ⟨a, h⟩; revert h; unfold Balanced; cases a <;> decide

/-- C05: an accepted query without `->` reads, as a whole and according to the declarative grammar, as the returned tree. -/
theorem C05_accepted_grammatical (s : Str) (n : Node) (h : parse s = .ok n) (ha : Balanced s false) : Query s n := by
  obtain ⟨a, _, h2, h3⟩ := parse_ok h
  have : a = false := by
    unfold Balanced at ha h2
    rw [ha] at h2
    simpa using h2.symm
  exact h3 this

example : Balanced c!"not a = 1 and (b in (1,2))" false := by unfold Balanced; decide

end Verif
