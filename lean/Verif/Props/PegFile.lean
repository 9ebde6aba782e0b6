import Verif.PegFileThms
import Verif.Props.Errors
import Verif.PegText

/-! # C54: the generated parser is a parser for the grammar file -/

namespace Verif

deriving instance DecidableEq for GExp

/-- C54: `grammarFile` is what the text of miniquery.peg says: the file has one definition for each rule, and it reads as `grammarFile` does. -/
theorem C54_text : ∃ rules, PegText.readPeg PegText.pegText = some rules ∧ (rules.map (·.1)).Nodup ∧ ∀ r e, (r, e) ∈ rules ↔ e = grammarFile r := by
  have h : PegText.readPeg PegText.pegText = some (PegText.ruleNames.map fun x => (x.2, grammarFile x.2)) := by decide +kernel
  refine ⟨_, h, by decide +kernel, fun r e => ?_⟩
  simp only [List.mem_map, Prod.mk.injEq]
  constructor
  · rintro ⟨x, _, rfl, rfl⟩; rfl
  · rintro rfl
    have : ∃ x ∈ PegText.ruleNames, x.2 = r := by cases r <;> decide +kernel
    obtain ⟨x, hx, rfl⟩ := this
    exact ⟨x, hx, rfl, rfl⟩

/-- The notation is read as it is meant: `<` with `-` begins a definition, alone a capture; `!` binds closer than a sequence, a sequence closer than `/`. -/
example : PegText.readPeg c!"Null <- !'a' <'x'/[b-d_]>* {p.AddNull()} / _" = none ∧
    PegText.readPeg c!"Null <- !'a' <'x'/[b-d_]> {p.AddNull()} / _*" =
      some [(.Null, (.no (.lit c!"a") ⬝ .cap (.lit c!"x" ∕ .cls [('b', 'd'), ('_', '_')]) ⬝ .act .AddNull) ∕ .star (.rule .sp))] := by decide +kernel

/-- C54: the grammar file is unambiguous and complete as a program: every rule either matches or fails on every text, in exactly one way. -/
theorem C54_file_total (r : Rule) (s : Str) : ∃ x, Parses grammarFile (.rule r) s x ∧ ∀ y, Parses grammarFile (.rule r) s y → y = x := by
  have h := denoteN_parses (16 * s.length + rankG r + 1) r s (denoteN_ne_div r s _ (by omega))
  exact ⟨_, h, fun y hy => hy.det h⟩

/-- C54: from every state that the generated parser can be in, with `s` still unread, each of its rule functions does what the file says about the rule:
it fails, with position and token index restored, if the rule fails on `s`; otherwise it moves to the end of what the rule matches and adds tokens that
stand for the captures and calls of the rule, in order. -/
theorem C54_rules (s0 s : Str) (r : Rule) (st : St) (h : Rel s0 st s) :
    (Parses grammarFile (.rule r) s none →
      ∃ st', execN (mkBuf s0) G (depthBound s0.length) r st = .fail st' ∧ st'.pos = st.pos ∧ st'.ti = st.ti) ∧
    (∀ evs rest, Parses grammarFile (.rule r) s (some (evs, rest)) →
      ∃ st' toks, execN (mkBuf s0) G (depthBound s0.length) r st = .ok st' ∧ s0.drop st'.pos = rest ∧
        st'.tree.take st'.ti = st.tree.take st.ti ++ toks ∧ (toks.filterMap (evOf s0)).filterMap upEv = evs) := by
  have hl : s.length ≤ s0.length := by have := h.len; omega
  have hr : rankG r < 16 := by cases r <;> decide
  have hnd := denoteN_ne_div r s (depthBound s0.length) (by unfold depthBound; omega)
  have hm := execN_match G s0 (depthBound s0.length) r st s h
  have hp := denoteN_parses _ r s hnd
  cases hd : denoteN G (depthBound s0.length) r s with
  | div => exact absurd hd hnd
  | fail =>
    rw [hd] at hm hp
    refine ⟨fun _ => ?_, fun _ _ h => by cases h.det hp⟩
    obtain ⟨st', ho, _⟩ := hm
    refine ⟨st', ho, ?_⟩
    obtain ⟨m, hm⟩ : ∃ m, depthBound s0.length = m + 1 := ⟨16 * s0.length + 15, rfl⟩
    rw [hm, execN] at ho
    split at ho <;> cases ho
    exact ⟨rfl, rfl⟩
  | ok e t =>
    rw [hd] at hm hp
    refine ⟨fun h => (nomatch h.det hp), fun evs rest h => ?_⟩
    cases h.det hp
    obtain ⟨st', toks, ho, hr, _, ht, he, _⟩ := hm
    exact ⟨st', toks, ho, hr.rest.symm, ht, by rw [he]⟩

/-- C54: `Parse` returns a tree exactly when the file's first rule matches and the calls of that match, run in order, leave it on top without an error. -/
theorem C54_parse (s : Str) (n : Node) :
    parse s = .ok n ↔ ∃ evs rest t, Parses grammarFile (.rule .Grammar) s (some (evs, rest)) ∧ doMeths [] evs {} = some t ∧ t.errors = [] ∧ t.pop.1 = n := by
  have hd := denoteN_ne_div .Grammar s (16 * s.length + rankG .Grammar + 1) (by omega)
  have hb := denoteN_big (G := G) _ .Grammar s hd
  have hp := denoteN_parses _ .Grammar s hd
  rcases parse_cases s with ⟨evs, h1, h2⟩ | ⟨h1, b, e, h2, _⟩
  · cases hc : denoteN G (16 * s.length + rankG .Grammar + 1) .Grammar s with
    | div => exact absurd hc hd
    | fail => rw [hc] at hb; cases h1.det hb
    | ok evs' rest =>
      rw [hc] at hb hp
      cases h1.det hb
      rw [h2, finish, runEvs_up]
      constructor
      · intro h
        cases ht : doMeths [] (evs.filterMap upEv) {} with
        | none => rw [ht] at h; cases h
        | some t =>
          rw [ht] at h
          simp only at h
          cases he : t.errors with
          | cons x y => rw [he] at h; cases h
          | nil => rw [he] at h; cases h; exact ⟨_, _, t, hp, ht, he, rfl⟩
      · rintro ⟨evs', rest, t, h3, h4, h5, h6⟩
        cases h3.det hp
        simp only [h4, h5, h6]
  · cases hc : denoteN G (16 * s.length + rankG .Grammar + 1) .Grammar s with
    | div => exact absurd hc hd
    | ok evs' rest => rw [hc] at hb; cases h1.det hb
    | fail =>
      rw [hc] at hp
      rw [h2]
      exact ⟨fun h => (by cases h), fun ⟨_, _, _, h3, _⟩ => (by cases h3.det hp)⟩

/-- C54: `Parse` reports a syntax error exactly when the file's first rule fails. -/
theorem C54_syntax_error (s : Str) : (∃ b e, parse s = .err (.syntax b e)) ↔ Parses grammarFile (.rule .Grammar) s none := by
  have hd := denoteN_ne_div .Grammar s (16 * s.length + rankG .Grammar + 1) (by omega)
  have hb := denoteN_big (G := G) _ .Grammar s hd
  have hp := denoteN_parses _ .Grammar s hd
  constructor
  · rintro ⟨b, e, h⟩
    rcases parse_cases s with ⟨evs, h1, h2⟩ | ⟨h1, _⟩
    · rw [h2] at h; exact absurd h (finish_not_syntax evs b e)
    · cases hc : denoteN G (16 * s.length + rankG .Grammar + 1) .Grammar s with
      | div => exact absurd hc hd
      | ok evs' rest => rw [hc] at hb; cases h1.det hb
      | fail => rw [hc] at hp; exact hp
  · intro h
    cases hc : denoteN G (16 * s.length + rankG .Grammar + 1) .Grammar s with
    | div => exact absurd hc hd
    | ok evs rest => rw [hc] at hp; cases h.det hp
    | fail => rw [hc] at hb; exact parse_of_big_none hb

/-- A file rule at work: `a` is an identifier up to the blank. -/
example : Parses grammarFile (.rule .Identifier) c!"a b" (some ([.text c!"a", .act .AddName], c!" b")) := by
  have h := denoteN_parses 40 .Identifier c!"a b" (by decide +kernel)
  have e : (denoteN G 40 .Identifier c!"a b").up = some ([.text c!"a", .act .AddName], c!" b") := by decide +kernel
  rwa [e] at h

example : Parses grammarFile (.rule .Identifier) c!"nothing" none := by
  have h := denoteN_parses 40 .Identifier c!"nothing" (by decide +kernel)
  have e : (denoteN G 40 .Identifier c!"nothing").up = none := by decide +kernel
  rwa [e] at h

example : parse c!"a = 1" = .ok (.cmp (.ident c!"a") (.op c!"eq") (.int 1)) := by decide +kernel

end Verif
