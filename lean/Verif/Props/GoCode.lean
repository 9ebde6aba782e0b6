import Verif.GoThms
import Verif.DeepThms
import Verif.Props.PegFile

/-! # C77: the text of the generated file does what the model of the recogniser says -/

namespace Verif

open Verif.Go

/-- C77: called in any state, on any buffer, the function written down for a rule in miniquery.peg.go returns what `execN` says, and nothing else.
(`execN` has `div` as result exactly if the bound `d` of the call depth is exceeded, see `C77_rules` for a bound that always suffices.) -/
theorem C77_functions (buf : List Nat) (r : Rule) (st : St) (d : Nat) (h : execN buf G d r st ≠ .div) (o : Out) :
    Calls buf (.rule r) st o ↔ o = execN buf G d r st :=
  ⟨fun h' => h'.det (execN_runs buf d r st h), fun e => e ▸ execN_runs buf d r st h⟩

/-- C77: the function written down for an action adds its token and returns true. -/
theorem C77_actions (buf : List Nat) (n : Nat) (hn : n < 30) (st : St) (o : Out) :
    Calls buf (.act n) st o ↔ o = .ok (addTok (.act n) st.pos st) :=
  ⟨fun h' => h'.det (actOk buf n hn st), fun e => e ▸ actOk buf n hn st⟩

/-- C77: from every state in which `s` is still unread, the function written down for a rule does what the grammar file says about the rule: it returns false,
with position and token index restored, if the rule fails on `s`; otherwise it returns true, at the end of what the rule matches, with tokens added that stand
for the captures and calls of the rule. -/
theorem C77_rules (s0 s : Str) (r : Rule) (st : St) (h : Rel s0 st s) :
    (Parses grammarFile (.rule r) s none →
      ∃ st', (∀ o, Calls (mkBuf s0) (.rule r) st o ↔ o = .fail st') ∧ st'.pos = st.pos ∧ st'.ti = st.ti) ∧
    (∀ evs rest, Parses grammarFile (.rule r) s (some (evs, rest)) →
      ∃ st' toks, (∀ o, Calls (mkBuf s0) (.rule r) st o ↔ o = .ok st') ∧ s0.drop st'.pos = rest ∧
        st'.tree.take st'.ti = st.tree.take st.ti ++ toks ∧ (toks.filterMap (evOf s0)).filterMap upEv = evs) := by
  obtain ⟨h1, h2⟩ := C54_rules s0 s r st h
  constructor
  · intro hp
    obtain ⟨st', e, e'⟩ := h1 hp
    exact ⟨st', fun o => e ▸ C77_functions _ r st _ (by rw [e]; simp) o, e'⟩
  · intro evs rest hp
    obtain ⟨st', toks, e, e'⟩ := h2 evs rest hp
    exact ⟨st', toks, fun o => e ▸ C77_functions _ r st _ (by rw [e]; simp) o, e'⟩

/-- What `Parse` makes of the value returned by `p.rules[1]()`: /repo/miniquery/miniquery.peg.go:475-487, /repo/miniquery/parse.go:7-15.
A token array shorter than the token index cannot be cut (`Trim`), and a token that does not lie in the text cannot be read (`Execute`). -/
def afterRules (s : Str) : Out → ParseRes
  | .ok st =>
    if st.tree.length < st.ti then .panic
    else
      match execute s (st.tree.take st.ti) with
      | none => .panic
      | some t => match t.errors with | e :: _ => .err e | [] => .ok t.pop.1
  | .fail st => .err (.syntax st.max.b st.max.e)
  | .panic => .panic
  | .div => .div

/-- C77: on every text the function of the first rule, as written down, returns, in one way only, and `Parse` makes its result of that.  It does not panic. -/
theorem C77_parse (s : Str) :
    ∃ o, (∀ o', Calls (mkBuf s) (.rule .Grammar) initSt o' ↔ o' = o) ∧ o ≠ .panic ∧ o ≠ .div ∧ parse s = afterRules s o := by
  have hnd : execN (mkBuf s) G (depthBound s.length) .Grammar initSt ≠ .div :=
    execN_ne_div (denoteN_ne_div .Grammar s _ (by have : rankG .Grammar < 16 := by decide
                                                  unfold depthBound; omega))
  refine ⟨_, C77_functions _ _ _ _ hnd, ?_, hnd, ?_⟩
  · have hm := execN_match G s (depthBound s.length) .Grammar initSt s (initSt_rel s)
    intro e
    rw [e] at hm
    cases hd : denoteN G (depthBound s.length) .Grammar s with
    | div => exact absurd hd (denoteN_ne_div .Grammar s _ (by have : rankG .Grammar < 16 := by decide
                                                              unfold depthBound; omega))
    | ok a b => rw [hd] at hm; obtain ⟨_, _, h, _⟩ := hm; cases h
    | fail => rw [hd] at hm; obtain ⟨_, h, _⟩ := hm; cases h
  · unfold parse
    cases execN (mkBuf s) G (depthBound s.length) .Grammar initSt <;> rfl

/-- C77: the first rule function returns false exactly on the texts that `Parse` rejects with a syntax error. -/
theorem C77_rejects (s : Str) : (∃ st, Calls (mkBuf s) (.rule .Grammar) initSt (.fail st)) ↔ ∃ b e, parse s = .err (.syntax b e) := by
  obtain ⟨o, h, hp, hd, he⟩ := C77_parse s
  rw [C54_syntax_error]
  have hr := C77_rules s s .Grammar initSt (initSt_rel s)
  constructor
  · rintro ⟨st, hs⟩
    obtain ⟨x, hx, _⟩ := C54_file_total .Grammar s
    cases x with
    | none => exact hx
    | some x =>
      obtain ⟨st', _, hc, _⟩ := hr.2 x.1 x.2 hx
      cases (hc _).1 hs
  · intro hx
    obtain ⟨st', hc, _⟩ := hr.1 hx
    exact ⟨st', (hc _).2 rfl⟩

/-- C77: the cases written down in `Execute` call, for each action, the method that the model runs for it; a method that is called without `text` does not
depend on it. -/
theorem C77_execute (n : Nat) (text : Str) (t : Tree) :
    runAct n text t = (match executeCases.find? (·.1 = .act n) with | some (_, m, _) => doMeth m text t | none => some t) ∧
    ∀ m, (.act n, m, false) ∈ executeCases → ∀ text', doMeth m text' t = doMeth m text t := by
  have small : ∀ n < 30, (executeCases.find? (·.1 = .act n)).map (·.2.1) = methOf n := by decide +kernel
  have all : ∀ x ∈ executeCases, ∃ k < 30, x.1 = .act k := by decide +kernel
  have still : ∀ x ∈ executeCases, x.2.2 = false → x.2.1 ∈ [.PopLogic, .PopNot, .PopCompare, .PopPredicate, .PopBetween, .PopParentheses, .PopFunction,
      .AddMark, .PopArray, .PopIdentifierReference, .AddNull] := by decide +kernel
  have run : runAct n text t = match methOf n with | some m => doMeth m text t | none => some t := by
    unfold runAct methOf
    split <;> first | rfl | simp [*]
  constructor
  · rw [run]
    by_cases hn : n < 30
    · have := small n hn
      cases hf : executeCases.find? (·.1 = .act n) with
      | none => rw [hf] at this; rw [← this]; rfl
      | some x => rw [hf] at this; rw [← this]; rfl
    · have hf : executeCases.find? (·.1 = .act n) = none := by
        rw [List.find?_eq_none]
        intro x hx h
        obtain ⟨k, hk, e⟩ := all x hx
        rw [e] at h
        simp only [decide_eq_true_eq, TokKind.act.injEq] at h
        omega
      rw [hf]
      have : methOf n = none := by unfold methOf; split <;> first | rfl | (exact absurd (by decide) hn)
      rw [this]
  · intro m hm text'
    have := still _ hm rfl
    simp only [List.mem_cons, List.not_mem_nil, or_false] at this
    rcases this with h | h | h | h | h | h | h | h | h | h | h <;> subst h <;> rfl

/-- The function of the first rule is `p.rules[1]`, which `p.parse` calls: /repo/miniquery/miniquery.peg.go:476-480. -/
example : func (.rule .Grammar) = (rulesTable[1]?.join).map layout := by decide +kernel

/-- The functions at work: the end of the text is reached, and is not reached. -/
example : Calls (mkBuf []) (.rule .EndOfFile) initSt (.ok (addTok (.rule .EndOfFile) 0 initSt)) :=
  (C77_functions _ .EndOfFile _ 1 (by decide +kernel) _).2 (by decide +kernel)
example : Calls (mkBuf c!"a") (.rule .EndOfFile) initSt (.fail initSt) :=
  (C77_functions _ .EndOfFile _ 1 (by decide +kernel) _).2 (by decide +kernel)

/-- A state in the middle of a text, as `C77_rules` speaks of. -/
example : Rel c!"a=1" { pos := 2, ti := 0, tree := [], max := ⟨.rule .Grammar, 0, 0⟩ } c!"1" :=
  ⟨by decide, by decide, by decide, by decide, by decide⟩

/-- An action that gets the text, and one that does not. -/
example : (.act 25, .AddInteger, true) ∈ executeCases ∧ (.act 0, .PopLogic, false) ∈ executeCases := by decide +kernel

end Verif
