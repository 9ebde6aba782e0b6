import Verif.ParseThms

/-!
# Everything the recogniser writes down

`trace` lists, in order of time, all tokens that the generated code adds while it runs, including those that are overwritten or
trimmed later because their alternative was abandoned.
-/

namespace Verif

/-- Tokens added by the loop compiled from `e*`; /repo/miniquery/miniquery.peg.go:570-585. -/
def traceStar (p : St → Out) (c : St → List Tok) : Nat → St → List Tok
  | 0, _ => []
  | n + 1, st =>
    match p st with
    | .ok st' => c st ++ traceStar p c n st'
    | _ => c st

/-- Tokens added by the code compiled from each expression form (same line numbers as `exec`); `env` is what the rule functions do, `log` what
they add. -/
def trace (buf : List Nat) (env : Rule → St → Out) (log : Rule → St → List Tok) : PExp → St → List Tok
  | .eps, _ => []
  | .any, _ => []
  | .chr _, _ => []
  | .rng _ _, _ => []
  | .seq a b, st =>
    match exec buf env a st with
    | .ok st' => trace buf env log a st ++ trace buf env log b st'
    | _ => trace buf env log a st
  | .alt a b, st =>
    match exec buf env a st with
    | .fail st' => trace buf env log a st ++ trace buf env log b { st' with pos := st.pos, ti := st.ti }
    | _ => trace buf env log a st
  | .star a, st => traceStar (exec buf env a) (trace buf env log a) (buf.length - st.pos) st
  | .opt a, st => trace buf env log a st
  | .notP a, st => trace buf env log a st
  | .call r, st => log r st
  | .txt a, st =>
    match exec buf env a st with
    | .ok st' => trace buf env log a st ++ [⟨.text, st.pos, st'.pos⟩]
    | _ => trace buf env log a st
  | .act n, st => [⟨.act n, st.pos, st.pos⟩]
  | .sw cs a b, st =>
    match buf[st.pos]? with
    | none => []
    | some x => if x ∈ cs.map Char.toNat then trace buf env log a st else trace buf env log b st

/-- Tokens added by the rule functions; e.g. /repo/miniquery/miniquery.peg.go:548-561. -/
def traceN (buf : List Nat) (G : Rule → PExp) : Nat → Rule → St → List Tok
  | 0, _, _ => []
  | n + 1, r, st =>
    trace buf (execN buf G n) (traceN buf G n) (G r) st ++
      match exec buf (execN buf G n) (G r) st with
      | .ok st' => [⟨.rule r, st.pos, st'.pos⟩]
      | _ => []

/-- All tokens added when `Parse` is called on `s`, in order: /repo/miniquery/parse.go:3-16, /repo/miniquery/miniquery.peg.go:475-495. -/
def parseTrace (s : Str) : List Tok := traceN (mkBuf s) G (depthBound s.length) .Grammar initSt

/-! ## `max` is a function of the trace -/

/-- One update of `max`, /repo/miniquery/miniquery.peg.go:492-494. -/
def maxStep (m t : Tok) : Tok := if t.b ≠ t.e ∧ t.e > m.e then t else m

/-- The code leaves `max` as the tokens `l` determine it. -/
def Logged (st : St) (l : List Tok) : Out → Prop
  | .ok st' => st'.max = l.foldl maxStep st.max
  | .fail st' => st'.max = l.foldl maxStep st.max
  | _ => True

theorem addTok_logged (k b st) : (addTok k b st).max = maxStep st.max ⟨k, b, st.pos⟩ := rfl

theorem Logged.then {st st' : St} {l l' : List Tok} {o : Out} (h : st'.max = l.foldl maxStep st.max) (ho : Logged st' l' o) :
    Logged st (l ++ l') o := by
  cases o <;> simp only [Logged, List.foldl_append] at * <;> rw [← h] <;> exact ho

theorem execStar_logged {p : St → Out} {c : St → List Tok} (hp : ∀ st, Logged st (c st) (p st)) :
    ∀ n st, Logged st (traceStar p c n st) (execStar p n st)
  | 0, _ => trivial
  | n + 1, st => by
    unfold execStar traceStar
    have h := hp st
    cases ho : p st with
    | ok st' => rw [ho] at h; exact Logged.then h (execStar_logged hp n st')
    | fail st' => rw [ho] at h; exact h
    | panic => trivial
    | div => trivial

theorem exec_logged {buf : List Nat} {env : Rule → St → Out} {log : Rule → St → List Tok} (henv : ∀ r st, Logged st (log r st) (env r st)) :
    ∀ e st, Logged st (trace buf env log e st) (exec buf env e st) := by
  intro e
  induction e with
  | eps => intro st; exact rfl
  | any => intro st; unfold exec trace; split <;> try trivial
           split <;> exact rfl
  | chr c => intro st; unfold exec trace; split <;> try trivial
             split <;> exact rfl
  | rng lo hi => intro st; unfold exec trace; split <;> try trivial
                 split <;> exact rfl
  | seq a b iha ihb =>
    intro st
    have h := iha st
    unfold exec trace
    cases ho : exec buf env a st with
    | ok st' => rw [ho] at h; exact Logged.then h (ihb st')
    | _ => rw [ho] at h; exact h
  | alt a b iha ihb =>
    intro st
    have h := iha st
    unfold exec trace
    cases ho : exec buf env a st with
    | fail st' =>
      rw [ho] at h
      exact Logged.then (st' := { st' with pos := st.pos, ti := st.ti }) h (ihb _)
    | _ => rw [ho] at h; exact h
  | star a iha => intro st; exact execStar_logged iha _ st
  | opt a iha =>
    intro st
    have h := iha st
    unfold exec trace
    cases ho : exec buf env a st with
    | _ => rw [ho] at h; exact h
  | notP a iha =>
    intro st
    have h := iha st
    unfold exec trace
    cases ho : exec buf env a st with
    | _ => rw [ho] at h; exact h
  | call r => intro st; exact henv r st
  | txt a iha =>
    intro st
    have h := iha st
    unfold exec trace
    cases ho : exec buf env a st with
    | ok st' =>
      rw [ho] at h
      simp only [Logged] at h
      simp only [Logged, addTok_logged, List.foldl_append, List.foldl_cons, List.foldl_nil, ← h]
    | _ => rw [ho] at h; exact h
  | act n => intro st; exact rfl
  | sw cs a b iha ihb =>
    intro st
    unfold exec trace
    cases buf[st.pos]? with
    | none => trivial
    | some x =>
      simp only
      split
      · exact iha st
      · exact ihb st

theorem execN_logged (buf : List Nat) (G : Rule → PExp) : ∀ n r st, Logged st (traceN buf G n r st) (execN buf G n r st) := by
  intro n
  induction n with
  | zero => intro r st; trivial
  | succ n ih =>
    intro r st
    have h := exec_logged (buf := buf) ih (G r) st
    unfold execN traceN
    cases ho : exec buf (execN buf G n) (G r) st with
    | ok st' =>
      rw [ho] at h
      simp only [Logged] at h
      simp only [Logged, addTok_logged, List.foldl_append, List.foldl_cons, List.foldl_nil, ← h]
    | fail st' => rw [ho] at h; simpa [Logged] using h
    | panic => trivial
    | div => trivial

/-! ## What the updates compute -/

/-- `m` is the first of the farthest reaching non-empty tokens of `l`. -/
def FirstFarthest (l : List Tok) (m : Tok) : Prop :=
  ∃ pre post, l = pre ++ m :: post ∧ m.b ≠ m.e ∧ (∀ t ∈ pre, t.b ≠ t.e → t.e < m.e) ∧ (∀ t ∈ post, t.b ≠ t.e → t.e ≤ m.e)

theorem foldl_maxStep (l : List Tok) (m0 : Tok) :
    (l.foldl maxStep m0 = m0 ∧ ∀ t ∈ l, t.b ≠ t.e → t.e ≤ m0.e) ∨ (FirstFarthest l (l.foldl maxStep m0) ∧ m0.e < (l.foldl maxStep m0).e) := by
  induction l generalizing m0 with
  | nil => exact .inl ⟨rfl, by simp⟩
  | cons t l ih =>
    rw [List.foldl_cons]
    by_cases ht : t.b ≠ t.e ∧ t.e > m0.e
    · have hs : maxStep m0 t = t := if_pos ht
      rw [hs]
      rcases ih t with ⟨h1, h2⟩ | ⟨⟨pre, post, h1, h2, h3, h4⟩, h5⟩
      · rw [h1]
        exact .inr ⟨⟨[], l, rfl, ht.1, by simp, h2⟩, ht.2⟩
      · refine .inr ⟨⟨t :: pre, post, congrArg (t :: ·) h1, h2, ?_, h4⟩, Nat.lt_trans ht.2 h5⟩
        intro x hx hne
        rcases List.mem_cons.mp hx with rfl | hx
        · exact h5
        · exact h3 x hx hne
    · have hs : maxStep m0 t = m0 := if_neg ht
      have ht' : t.b ≠ t.e → t.e ≤ m0.e := fun hne => Nat.not_lt.mp fun h => ht ⟨hne, h⟩
      rw [hs]
      rcases ih m0 with ⟨h1, h2⟩ | ⟨⟨pre, post, h1, h2, h3, h4⟩, h5⟩
      · refine .inl ⟨h1, fun x hx hne => ?_⟩
        rcases List.mem_cons.mp hx with rfl | hx
        · exact ht' hne
        · exact h2 x hx hne
      · refine .inr ⟨⟨t :: pre, post, congrArg (t :: ·) h1, h2, ?_, h4⟩, h5⟩
        intro x hx hne
        rcases List.mem_cons.mp hx with rfl | hx
        · exact Nat.lt_of_le_of_lt (ht' hne) h5
        · exact h3 x hx hne

/-! ## The tokens of the trace are pieces of the text -/

/-- Success never moves back. -/
def Ahead (st : St) : Out → Prop
  | .ok st' => st.pos ≤ st'.pos
  | _ => True

theorem Ahead.then {st st' : St} {o : Out} (h : st.pos ≤ st'.pos) (ho : Ahead st' o) : Ahead st o := by
  cases o <;> simp only [Ahead] at * <;> omega

theorem execStar_ahead {p : St → Out} (hp : ∀ st, Ahead st (p st)) : ∀ n st, Ahead st (execStar p n st)
  | 0, _ => trivial
  | n + 1, st => by
    unfold execStar
    have h := hp st
    cases ho : p st with
    | ok st' => rw [ho] at h; exact Ahead.then h (execStar_ahead hp n st')
    | fail st' => exact Nat.le_refl _
    | panic => trivial
    | div => trivial

theorem exec_ahead {buf : List Nat} {env : Rule → St → Out} (henv : ∀ r st, Ahead st (env r st)) : ∀ e st, Ahead st (exec buf env e st) := by
  intro e
  induction e with
  | eps => intro st; exact Nat.le_refl _
  | any => intro st; unfold exec; split <;> try trivial
           split <;> simp [Ahead]
  | chr c => intro st; unfold exec; split <;> try trivial
             split <;> simp [Ahead]
  | rng lo hi => intro st; unfold exec; split <;> try trivial
                 split <;> simp [Ahead]
  | seq a b iha ihb =>
    intro st
    have h := iha st
    unfold exec
    cases ho : exec buf env a st with
    | ok st' => rw [ho] at h; exact Ahead.then h (ihb st')
    | _ => trivial
  | alt a b iha ihb =>
    intro st
    have h := iha st
    unfold exec
    cases ho : exec buf env a st with
    | ok st' => rw [ho] at h; exact h
    | fail st' => exact ihb { st' with pos := st.pos, ti := st.ti }
    | _ => trivial
  | star a iha => intro st; exact execStar_ahead iha _ st
  | opt a iha =>
    intro st
    have h := iha st
    unfold exec
    cases ho : exec buf env a st with
    | ok st' => rw [ho] at h; exact h
    | fail st' => exact Nat.le_refl _
    | _ => trivial
  | notP a iha =>
    intro st
    unfold exec
    cases ho : exec buf env a st with
    | fail st' => exact Nat.le_refl _
    | _ => trivial
  | call r => intro st; exact henv r st
  | txt a iha =>
    intro st
    have h := iha st
    unfold exec
    cases ho : exec buf env a st with
    | ok st' => rw [ho] at h; exact h
    | _ => trivial
  | act n => intro st; exact Nat.le_refl _
  | sw cs a b iha ihb =>
    intro st
    unfold exec
    cases buf[st.pos]? with
    | none => trivial
    | some x =>
      simp only
      split
      · exact iha st
      · exact ihb st

theorem execN_ahead (buf : List Nat) (G : Rule → PExp) : ∀ n r st, Ahead st (execN buf G n r st) := by
  intro n
  induction n with
  | zero => intro r st; trivial
  | succ n ih =>
    intro r st
    have h := exec_ahead (buf := buf) ih (G r) st
    unfold execN
    cases ho : exec buf (execN buf G n) (G r) st with
    | ok st' => rw [ho] at h; exact h
    | _ => trivial

theorem traceStar_ordered {p : St → Out} {c : St → List Tok} (hc : ∀ st, ∀ t ∈ c st, t.b ≤ t.e) : ∀ n st, ∀ t ∈ traceStar p c n st, t.b ≤ t.e
  | 0, _, t, h => nomatch h
  | n + 1, st, t, h => by
    unfold traceStar at h
    cases ho : p st with
    | ok st' =>
      rw [ho] at h
      rcases List.mem_append.mp h with h | h
      · exact hc st t h
      · exact traceStar_ordered hc n st' t h
    | _ => rw [ho] at h; exact hc st t h

theorem trace_ordered {buf : List Nat} {env : Rule → St → Out} {log : Rule → St → List Tok} (henv : ∀ r st, Ahead st (env r st))
    (hlog : ∀ r st, ∀ t ∈ log r st, t.b ≤ t.e) : ∀ e st, ∀ t ∈ trace buf env log e st, t.b ≤ t.e := by
  intro e
  induction e with
  | seq a b iha ihb =>
    intro st t h
    unfold trace at h
    cases ho : exec buf env a st with
    | ok st' =>
      rw [ho] at h
      rcases List.mem_append.mp h with h | h
      · exact iha st t h
      · exact ihb st' t h
    | _ => rw [ho] at h; exact iha st t h
  | alt a b iha ihb =>
    intro st t h
    unfold trace at h
    cases ho : exec buf env a st with
    | fail st' =>
      rw [ho] at h
      rcases List.mem_append.mp h with h | h
      · exact iha st t h
      · exact ihb _ t h
    | _ => rw [ho] at h; exact iha st t h
  | star a iha => intro st; exact traceStar_ordered iha _ st
  | opt a iha => exact iha
  | notP a iha => exact iha
  | call r => intro st; exact hlog r st
  | txt a iha =>
    intro st t h
    have ha := exec_ahead (buf := buf) henv a st
    unfold trace at h
    cases ho : exec buf env a st with
    | ok st' =>
      rw [ho] at h ha
      rcases List.mem_append.mp h with h | h
      · exact iha st t h
      · rw [List.mem_singleton.mp h]; exact ha
    | _ => rw [ho] at h; exact iha st t h
  | act n => intro st t h; rw [trace, List.mem_singleton] at h; rw [h]; exact Nat.le_refl _
  | sw cs a b iha ihb =>
    intro st t h
    unfold trace at h
    cases hb : buf[st.pos]? with
    | none => rw [hb] at h; cases h
    | some x =>
      rw [hb] at h
      simp only at h
      split at h
      · exact iha st t h
      · exact ihb st t h
  | _ => intro st t h; cases h

theorem traceN_ordered (buf : List Nat) (G : Rule → PExp) : ∀ n r st, ∀ t ∈ traceN buf G n r st, t.b ≤ t.e := by
  intro n
  induction n with
  | zero => intro r st t h; cases h
  | succ n ih =>
    intro r st t h
    have ha := exec_ahead (buf := buf) (execN_ahead buf G n) (G r) st
    unfold traceN at h
    rcases List.mem_append.mp h with h | h
    · exact trace_ordered (execN_ahead buf G n) ih (G r) st t h
    · cases ho : exec buf (execN buf G n) (G r) st with
      | ok st' => rw [ho] at h ha; rw [List.mem_singleton.mp h]; exact ha
      | _ => rw [ho] at h; cases h

end Verif
