import Verif.PegThms

/-! # The generated code refines the functional semantics -/

namespace Verif

/-- What `Execute` sees of a token (/repo/miniquery/miniquery.peg.go:362-367): rule tokens are ignored, a PegText token
stands for the captured slice of the buffer. -/
def evOf (s0 : Str) (t : Tok) : Option Ev :=
  match t.kind with
  | .rule _ => none
  | .text => some (.text ((s0.drop t.b).take (t.e - t.b)))
  | .act n => some (.act n)

/-- The machine stands at input `s` (a suffix of the whole query `s0`). -/
structure Rel (s0 : Str) (st : St) (s : Str) : Prop where
  pos_le : st.pos ≤ s0.length
  rest : s = s0.drop st.pos
  ti_le : st.ti ≤ st.tree.length
  maxb : st.max.b ≤ st.max.e
  maxe : st.max.e ≤ s0.length

/-- After a failure only tokens at or above the saved token index may have changed. -/
structure FRel (s0 : Str) (st st' : St) : Prop where
  tree : st'.tree.take st.ti = st.tree.take st.ti
  ti_le : st.ti ≤ st'.tree.length
  maxb : st'.max.b ≤ st'.max.e
  maxe : st'.max.e ≤ s0.length

/-- The token's slice of the buffer is within bounds. -/
def tokIn (s0 : Str) (t : Tok) : Prop := t.b ≤ t.e ∧ t.e ≤ s0.length

/-- The machine outcome `o` from `st` matches the functional result `d`. -/
def Match (s0 : Str) (st : St) (o : Out) : Res → Prop
  | .ok evs rest => ∃ st' toks, o = .ok st' ∧ Rel s0 st' rest ∧ st.ti ≤ st'.ti ∧
      st'.tree.take st'.ti = st.tree.take st.ti ++ toks ∧ toks.filterMap (evOf s0) = evs ∧ ∀ t ∈ toks, tokIn s0 t
  | .fail => ∃ st', o = .fail st' ∧ FRel s0 st st'
  | .div => True

theorem Rel.len {s0 st s} (h : Rel s0 st s) : s.length = s0.length - st.pos := by
  rw [h.rest]; simp

theorem FRel.restore {s0 st st' s} (h : FRel s0 st st') (hr : Rel s0 st s) :
    Rel s0 { st' with pos := st.pos, ti := st.ti } s :=
  ⟨hr.pos_le, hr.rest, h.ti_le, h.maxb, h.maxe⟩

theorem FRel.refl {s0 st s} (hr : Rel s0 st s) : FRel s0 st st := ⟨rfl, hr.ti_le, hr.maxb, hr.maxe⟩

theorem mkBuf_nil {s0 st} (h : Rel s0 st []) : (mkBuf s0)[st.pos]? = some endSymbol := by
  have hl := h.len; simp at hl
  have hp := h.pos_le
  have : st.pos = s0.length := by omega
  rw [this]; simp [mkBuf]

theorem mkBuf_cons {s0 st x t} (h : Rel s0 st (x :: t)) : (mkBuf s0)[st.pos]? = some x.toNat := by
  have hl := h.len; simp at hl
  have h2 := h.rest
  have h3 : (s0.drop st.pos)[0]? = some x := by rw [← h2]; rfl
  rw [List.getElem?_drop] at h3
  simp only [Nat.add_zero] at h3
  unfold mkBuf
  rw [List.getElem?_append_left (by simp; omega)]
  simp [h3]

theorem Rel.advance {s0 st x t} (h : Rel s0 st (x :: t)) : Rel s0 { st with pos := st.pos + 1 } t := by
  have hl := h.len; simp at hl
  refine ⟨by show st.pos + 1 ≤ _; omega, ?_, h.ti_le, h.maxb, h.maxe⟩
  have h2 := h.rest
  show t = s0.drop (st.pos + 1)
  rw [← List.tail_drop, ← h2]; rfl

theorem Char.toNat_lt (c : Char) : c.toNat < endSymbol := by
  have := c.valid
  unfold Char.toNat endSymbol
  rcases this with h | h
  · exact Nat.lt_trans h (by decide)
  · exact h.2

theorem Char.toNat_ne_end (c : Char) : c.toNat ≠ endSymbol := Nat.ne_of_lt (Verif.Char.toNat_lt c)

theorem Char.toNat_inj' {a b : Char} (h : a.toNat = b.toNat) : a = b := by
  apply Char.ext
  apply UInt32.toNat_inj.mp
  exact h

theorem match_same {s0 st s} (h : Rel s0 st s) : Match s0 st (.ok st) (.ok [] s) :=
  ⟨st, [], rfl, h, Nat.le_refl _, by simp, rfl, by simp⟩

theorem match_adv {s0 st x t} (h : Rel s0 st (x :: t)) :
    Match s0 st (.ok { st with pos := st.pos + 1 }) (.ok [] t) :=
  ⟨_, [], rfl, h.advance, Nat.le_refl _, by simp, rfl, by simp⟩

theorem match_fail {s0 st s} (h : Rel s0 st s) : Match s0 st (.fail st) .fail := ⟨st, rfl, FRel.refl h⟩

theorem addTok_take (k : TokKind) (b : Nat) (st : St) (h : st.ti ≤ st.tree.length) :
    (addTok k b st).tree.take (st.ti + 1) = st.tree.take st.ti ++ [⟨k, b, st.pos⟩] := by
  unfold addTok
  simp only
  split
  · rename_i hge
    have : st.ti = st.tree.length := by omega
    rw [this]; simp [List.take_of_length_le]
  · rename_i hlt
    have hlt' : st.ti < st.tree.length := by omega
    rw [List.take_add_one, List.getElem?_set_self hlt', List.take_set_of_le (Nat.le_refl _)]
    simp

theorem addTok_len (k : TokKind) (b : Nat) (st : St) (h : st.ti ≤ st.tree.length) :
    st.ti + 1 ≤ (addTok k b st).tree.length := by
  unfold addTok; simp only
  split
  · simp; omega
  · simp; omega

theorem addTok_rel {s0 st s} (k : TokKind) (b : Nat) (h : Rel s0 st s) (hb : b ≤ st.pos) : Rel s0 (addTok k b st) s := by
  refine ⟨h.pos_le, h.rest, addTok_len k b st h.ti_le, ?_, ?_⟩
  · unfold addTok; simp only; split
    · exact hb
    · exact h.maxb
  · unfold addTok; simp only; split
    · exact h.pos_le
    · exact h.maxe

theorem match_ok_trans {s0 st st1 toks1 s1 o e2 r2} (_h1 : Rel s0 st1 s1) (hti : st.ti ≤ st1.ti)
    (ht : st1.tree.take st1.ti = st.tree.take st.ti ++ toks1) (hin : ∀ t ∈ toks1, tokIn s0 t) (h : Match s0 st1 o (.ok e2 r2)) :
    Match s0 st o (.ok (toks1.filterMap (evOf s0) ++ e2) r2) := by
  obtain ⟨st2, toks2, ho, hr, hti2, ht2, he2, hin2⟩ := h
  refine ⟨st2, toks1 ++ toks2, ho, hr, by omega, ?_, ?_, ?_⟩
  · rw [ht2, ht, List.append_assoc]
  · rw [List.filterMap_append, he2]
  · intro t ht; rcases List.mem_append.mp ht with h | h
    · exact hin t h
    · exact hin2 t h

theorem match_fail_trans {s0 st st1 toks1 s1 o} (h0 : Rel s0 st s1') (_h1 : Rel s0 st1 s1) (hti : st.ti ≤ st1.ti)
    (ht : st1.tree.take st1.ti = st.tree.take st.ti ++ toks1) (h : Match s0 st1 o .fail) : Match s0 st o .fail := by
  obtain ⟨st2, ho, hf⟩ := h
  refine ⟨st2, ho, ?_, ?_, hf.maxb, hf.maxe⟩
  · have := congrArg (List.take st.ti) hf.tree
    rw [ht, List.take_take, Nat.min_eq_left hti] at this
    rw [this, List.take_append_of_le_length (by rw [List.length_take]; have := h0.ti_le; omega), List.take_take, Nat.min_self]
  · have := hf.ti_le; omega

theorem match_ok_restore {s0 st st1 s} (_h0 : Rel s0 st s) (hf : FRel s0 st st1) {o d}
    (h : Match s0 { st1 with pos := st.pos, ti := st.ti } o d) : Match s0 st o d := by
  cases d with
  | div => trivial
  | fail =>
    obtain ⟨st2, ho, hf2⟩ := h
    refine ⟨st2, ho, ?_, hf2.ti_le, hf2.maxb, hf2.maxe⟩
    exact hf2.tree.trans hf.tree
  | ok e r =>
    obtain ⟨st2, toks2, ho, hr, hti2, ht2, he2, hin2⟩ := h
    refine ⟨st2, toks2, ho, hr, hti2, ?_, he2, hin2⟩
    rw [ht2]; exact congrArg (· ++ toks2) hf.tree

theorem execStar_match {s0 : Str} {p : St → Out} {q : Str → Res}
    (hpq : ∀ st s, Rel s0 st s → Match s0 st (p st) (q s)) :
    ∀ n st s, Rel s0 st s → Match s0 st (execStar p n st) (starLoop q n s) := by
  intro n
  induction n with
  | zero => intros; trivial
  | succ n ih =>
    intro st s hr
    have h := hpq st s hr
    unfold execStar starLoop
    cases hq : q s with
    | div => trivial
    | fail =>
      rw [hq] at h
      obtain ⟨st', ho, hf⟩ := h
      rw [ho]
      exact ⟨_, [], rfl, hf.restore hr, Nat.le_refl _, by simpa using hf.tree, rfl, by simp⟩
    | ok e1 r1 =>
      rw [hq] at h
      obtain ⟨st1, toks1, ho, hr1, hti, ht, he, hin⟩ := h
      rw [ho]
      simp only
      have h2 := ih st1 r1 hr1
      cases hs : starLoop q n r1 with
      | div => trivial
      | fail => rw [hs] at h2; exact match_fail_trans hr hr1 hti ht h2
      | ok e2 r2 =>
        rw [hs] at h2
        rw [← he]
        exact match_ok_trans hr1 hti ht hin h2

theorem exec_match {s0 : Str} {envX : Rule → St → Out} {envD : Rule → Str → Res}
    (henv : ∀ r st s, Rel s0 st s → Match s0 st (envX r st) (envD r s))
    (hlen : ∀ a s e t, denote envD a s = .ok e t → t.length ≤ s.length) :
    ∀ e st s, Rel s0 st s → Match s0 st (exec (mkBuf s0) envX e st) (denote envD e s) := by
  intro e
  induction e with
  | eps => intro st s h; exact match_same h
  | any =>
    intro st s h
    cases s with
    | nil => simp only [exec, mkBuf_nil h, denote]; simpa using match_fail h
    | cons x t =>
      simp only [exec, mkBuf_cons h, denote]
      rw [if_pos (Char.toNat_ne_end x)]
      exact match_adv h
  | chr c =>
    intro st s h
    cases s with
    | nil =>
      simp only [exec, mkBuf_nil h, denote]
      rw [if_pos (Ne.symm (Char.toNat_ne_end c))]
      exact match_fail h
    | cons x t =>
      simp only [exec, mkBuf_cons h, denote]
      by_cases hx : x = c
      · subst hx; simpa using match_adv h
      · have : x.toNat ≠ c.toNat := fun h' => hx (Char.toNat_inj' h')
        simpa [hx, this] using match_fail h
  | rng lo hi =>
    intro st s h
    cases s with
    | nil =>
      simp only [exec, mkBuf_nil h, denote]
      have : endSymbol < lo.toNat ∨ endSymbol > hi.toNat := .inr (Char.toNat_lt hi)
      rw [if_pos this]
      exact match_fail h
    | cons x t =>
      simp only [exec, mkBuf_cons h, denote]
      by_cases hx : lo.toNat ≤ x.toNat ∧ x.toNat ≤ hi.toNat
      · rw [if_neg (by omega), if_pos hx]; exact match_adv h
      · rw [if_pos (by omega), if_neg hx]; exact match_fail h
  | seq a b iha ihb =>
    intro st s h
    have ha := iha st s h
    unfold exec denote
    cases hd : denote envD a s with
    | div => trivial
    | fail => rw [hd] at ha; obtain ⟨st', ho, hf⟩ := ha; rw [ho]; exact ⟨st', rfl, hf⟩
    | ok e1 r1 =>
      rw [hd] at ha
      obtain ⟨st1, toks1, ho, hr1, hti, ht, he, hin⟩ := ha
      rw [ho]
      have hb := ihb st1 r1 hr1
      simp only
      cases hd2 : denote envD b r1 with
      | div => trivial
      | fail => rw [hd2] at hb; exact match_fail_trans h hr1 hti ht hb
      | ok e2 r2 => rw [hd2] at hb; rw [← he]; exact match_ok_trans hr1 hti ht hin hb
  | alt a b iha ihb =>
    intro st s h
    have ha := iha st s h
    unfold exec denote
    cases hd : denote envD a s with
    | div => trivial
    | fail =>
      rw [hd] at ha; obtain ⟨st', ho, hf⟩ := ha; rw [ho]
      exact match_ok_restore h hf (ihb _ s (hf.restore h))
    | ok e1 r1 =>
      rw [hd] at ha
      obtain ⟨st1, toks1, ho, hr1, hti, ht, he, hin⟩ := ha
      rw [ho]
      exact ⟨st1, toks1, rfl, hr1, hti, ht, he, hin⟩
  | star a iha =>
    intro st s h
    unfold exec denote
    have hl := h.len
    have hp := h.pos_le
    have : (mkBuf s0).length - st.pos = s.length + 1 := by simp [mkBuf]; omega
    rw [this]
    exact execStar_match iha _ st s h
  | opt a iha =>
    intro st s h
    have ha := iha st s h
    unfold exec denote
    cases hd : denote envD a s with
    | div => trivial
    | fail =>
      rw [hd] at ha; obtain ⟨st', ho, hf⟩ := ha; rw [ho]
      exact ⟨_, [], rfl, hf.restore h, Nat.le_refl _, by simpa using hf.tree, rfl, by simp⟩
    | ok e1 r1 =>
      rw [hd] at ha
      obtain ⟨st1, toks1, ho, hr1, hti, ht, he, hin⟩ := ha
      rw [ho]
      exact ⟨st1, toks1, rfl, hr1, hti, ht, he, hin⟩
  | notP a iha =>
    intro st s h
    have ha := iha st s h
    unfold exec denote
    cases hd : denote envD a s with
    | div => trivial
    | fail =>
      rw [hd] at ha; obtain ⟨st', ho, hf⟩ := ha; rw [ho]
      exact ⟨_, [], rfl, hf.restore h, Nat.le_refl _, by simpa using hf.tree, rfl, by simp⟩
    | ok e1 r1 =>
      rw [hd] at ha
      obtain ⟨st1, toks1, ho, hr1, hti, ht, he, hin⟩ := ha
      rw [ho]
      exact match_fail_trans h hr1 hti ht (match_fail hr1)
  | call r => intro st s h; exact henv r st s h
  | txt a iha =>
    intro st s h
    have ha := iha st s h
    unfold exec denote
    cases hd : denote envD a s with
    | div => trivial
    | fail => rw [hd] at ha; obtain ⟨st', ho, hf⟩ := ha; rw [ho]; exact ⟨st', rfl, hf⟩
    | ok e1 r1 =>
      rw [hd] at ha
      obtain ⟨st1, toks1, ho, hr1, hti, ht, he, hin⟩ := ha
      rw [ho]
      have hl := h.len; have hl1 := hr1.len; have hp := h.pos_le; have hp1 := hr1.pos_le
      have hle : r1.length ≤ s.length := hlen a s _ _ hd
      refine ⟨_, toks1 ++ [⟨.text, st.pos, st1.pos⟩], rfl, addTok_rel _ _ hr1 (by omega), ?_, ?_, ?_, ?_⟩
      · show st.ti ≤ st1.ti + 1; omega
      · show (addTok _ _ st1).tree.take (st1.ti + 1) = _
        rw [addTok_take _ _ _ hr1.ti_le, ht, List.append_assoc]
      · rw [List.filterMap_append, he]
        simp only [List.filterMap_cons, evOf, List.filterMap_nil]
        have : st1.pos - st.pos = s.length - r1.length := by omega
        rw [this, ← h.rest]
      · intro t ht'; rcases List.mem_append.mp ht' with h' | h'
        · exact hin t h'
        · rw [List.mem_singleton.mp h']; exact ⟨by show st.pos ≤ st1.pos; omega, hp1⟩
  | act n =>
    intro st s h
    refine ⟨_, [⟨.act n, st.pos, st.pos⟩], rfl, addTok_rel _ _ h (Nat.le_refl _), Nat.le_succ _, ?_, rfl,
      by intro t ht; rw [List.mem_singleton.mp ht]; exact ⟨Nat.le_refl _, h.pos_le⟩⟩
    exact addTok_take _ _ _ h.ti_le
  | sw cs a b iha ihb =>
    intro st s h
    cases s with
    | nil =>
      simp only [exec, mkBuf_nil h, denote]
      have : endSymbol ∉ cs.map Char.toNat := by
        intro hm
        obtain ⟨c, _, hc⟩ := List.mem_map.mp hm
        exact Char.toNat_ne_end c hc
      rw [if_neg this]
      exact ihb st [] h
    | cons x t =>
      simp only [exec, mkBuf_cons h, denote]
      by_cases hx : x ∈ cs
      · rw [if_pos (List.mem_map.mpr ⟨x, hx, rfl⟩), if_pos hx]
        exact iha st _ h
      · have : x.toNat ∉ cs.map Char.toNat := by
          intro hm
          obtain ⟨c, hc, hcx⟩ := List.mem_map.mp hm
          exact hx (Char.toNat_inj' hcx ▸ hc)
        rw [if_neg this, if_neg hx]
        exact ihb st _ h

/-- The rule functions of the generated code compute what the functional semantics says, do not panic, and leave in the
token array, above the tokens that were there before, exactly the tokens of the successful derivation. -/
theorem execN_match (G : Rule → PExp) (s0 : Str) :
    ∀ n r st s, Rel s0 st s → Match s0 st (execN (mkBuf s0) G n r st) (denoteN G n r s) := by
  intro n
  induction n with
  | zero => intros; trivial
  | succ n ih =>
    intro r st s h
    have hlen : ∀ a s e t, denote (denoteN G n) a s = .ok e t → t.length ≤ s.length := by
      intro a s e t h
      have := denote_big (G := G) (denoteN_big n) a s (by rw [h]; simp)
      rw [h] at this; exact Big.length_le this
    have hm := exec_match ih hlen (G r) st s h
    show Match s0 st (match exec (mkBuf s0) (execN (mkBuf s0) G n) (G r) st with
      | .ok st' => .ok (addTok (.rule r) st.pos st')
      | .fail st' => .fail { st' with pos := st.pos, ti := st.ti }
      | .panic => .panic
      | .div => .div) (denote (denoteN G n) (G r) s)
    cases hd : denote (denoteN G n) (G r) s with
    | div => trivial
    | fail =>
      rw [hd] at hm; obtain ⟨st', ho, hf⟩ := hm; rw [ho]
      exact ⟨_, rfl, hf.tree, hf.ti_le, hf.maxb, hf.maxe⟩
    | ok e1 r1 =>
      rw [hd] at hm
      obtain ⟨st1, toks1, ho, hr1, hti, ht, he, hin⟩ := hm
      rw [ho]
      have hl := h.len; have hl1 := hr1.len; have hp := h.pos_le; have hp1 := hr1.pos_le
      have hle : r1.length ≤ s.length := hlen (G r) s _ _ hd
      refine ⟨_, toks1 ++ [⟨.rule r, st.pos, st1.pos⟩], rfl, addTok_rel _ _ hr1 (by omega), ?_, ?_, ?_, ?_⟩
      · show st.ti ≤ st1.ti + 1; omega
      · show (addTok _ _ st1).tree.take (st1.ti + 1) = _
        rw [addTok_take _ _ _ hr1.ti_le, ht, List.append_assoc]
      · rw [List.filterMap_append, he]; simp [evOf]
      · intro t ht'; rcases List.mem_append.mp ht' with h' | h'
        · exact hin t h'
        · rw [List.mem_singleton.mp h']; exact ⟨by show st.pos ≤ st1.pos; omega, hp1⟩

end Verif
