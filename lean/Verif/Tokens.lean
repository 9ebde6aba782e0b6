import Verif.Ast
import Verif.Soundness

/-! # The token array: independence of earlier runs, nesting, what each token stands for -/

namespace Verif

/-! ## Segments -/

/-- The tokens written while the machine moves from `p` to `q`: sequences, and pieces closed by a token that spans them. -/
inductive Seg : Nat → Nat → List Tok → Prop where
  | nil {p q} : p ≤ q → Seg p q []
  | app {p q r ts us} : Seg p q ts → Seg q r us → Seg p r (ts ++ us)
  | wrap {p q ts} (k : TokKind) : Seg p q ts → Seg p q (ts ++ [⟨k, p, q⟩])

theorem Seg.le {p q ts} (h : Seg p q ts) : p ≤ q := by
  induction h with
  | nil h => exact h
  | app _ _ h1 h2 => omega
  | wrap _ _ h => exact h

/-- `b` has exactly the tokens `ts` above those of `a`. -/
structure TAdds (a b : St) (ts : List Tok) : Prop where
  tree : b.tree.take b.ti = a.tree.take a.ti ++ ts
  ti : b.ti ≤ b.tree.length

/-- The tokens of `a` are still there in `b`. -/
structure TKeeps (a b : St) : Prop where
  tree : b.tree.take a.ti = a.tree.take a.ti
  ti : a.ti ≤ b.tree.length

theorem TAdds.refl {a : St} (h : a.ti ≤ a.tree.length) : TAdds a a [] := ⟨by simp, h⟩
theorem TKeeps.refl {a : St} (h : a.ti ≤ a.tree.length) : TKeeps a a := ⟨rfl, h⟩

theorem TAdds.ti_eq {a b ts} (h : TAdds a b ts) (ha : a.ti ≤ a.tree.length) : b.ti = a.ti + ts.length := by
  have := congrArg List.length h.tree
  rw [List.length_take, List.length_append, List.length_take] at this
  have := h.ti
  omega

theorem TAdds.trans {a b c ts us} (h : TAdds a b ts) (h' : TAdds b c us) : TAdds a c (ts ++ us) :=
  ⟨by rw [h'.tree, h.tree, List.append_assoc], h'.ti⟩

theorem TAdds.keeps {a b c ts} (h : TAdds a b ts) (ha : a.ti ≤ a.tree.length) (h' : TKeeps b c) : TKeeps a c := by
  have e := h.ti_eq ha
  refine ⟨?_, by have := h'.ti; omega⟩
  have h1 := congrArg (List.take a.ti) h'.tree
  rw [h.tree, List.take_take, Nat.min_eq_left (by omega)] at h1
  rw [h1, List.take_append_of_le_length (by rw [List.length_take]; omega), List.take_take, Nat.min_self]

theorem TKeeps.tadds {a b : St} (h : TKeeps a b) : TAdds a { b with pos := a.pos, ti := a.ti } [] :=
  ⟨by show b.tree.take a.ti = _; rw [h.tree, List.append_nil], h.ti⟩

theorem TKeeps.through {a b c : St} (h : TKeeps a b) (h' : TKeeps { b with pos := a.pos, ti := a.ti } c) : TKeeps a c :=
  ⟨by have := h'.tree; exact this.trans h.tree, h'.ti⟩

theorem TKeeps.tadds_through {a b c : St} {ts} (h : TKeeps a b) (h' : TAdds { b with pos := a.pos, ti := a.ti } c ts) : TAdds a c ts :=
  ⟨by have := h'.tree; rw [this]; exact congrArg (· ++ ts) h.tree, h'.ti⟩

theorem TAdds.addTok {a b ts} (h : TAdds a b ts) (k : TokKind) (p : Nat) : TAdds a (addTok k p b) (ts ++ [⟨k, p, b.pos⟩]) :=
  ⟨by show (Verif.addTok k p b).tree.take (b.ti + 1) = _; rw [addTok_take k p b h.ti, h.tree, List.append_assoc],
    by show b.ti + 1 ≤ _; exact addTok_len k p b h.ti⟩

/-! ## Independence of earlier runs -/

/-- Two runs from states that agree on position and `max`: they end alike. -/
def Sim (a b : St) : Out → Out → Prop
  | .ok a', .ok b' => a'.pos = b'.pos ∧ a'.max = b'.max ∧ ∃ ts, TAdds a a' ts ∧ TAdds b b' ts ∧ Seg a.pos a'.pos ts
  | .fail a', .fail b' => a'.max = b'.max ∧ TKeeps a a' ∧ TKeeps b b'
  | .panic, .panic => True
  | .div, .div => True
  | _, _ => False

/-- The states agree on what steers the machine. -/
structure TAlike (a b : St) : Prop where
  pos : a.pos = b.pos
  max : a.max = b.max
  ta : a.ti ≤ a.tree.length
  tb : b.ti ≤ b.tree.length

theorem Sim.same {a b : St} (h : TAlike a b) : Sim a b (.ok a) (.ok b) :=
  ⟨h.pos, h.max, [], .refl h.ta, .refl h.tb, .nil (Nat.le_refl _)⟩

theorem Sim.failSame {a b : St} (h : TAlike a b) : Sim a b (.fail a) (.fail b) := ⟨h.max, .refl h.ta, .refl h.tb⟩

theorem Sim.adv {a b : St} (h : TAlike a b) : Sim a b (.ok { a with pos := a.pos + 1 }) (.ok { b with pos := b.pos + 1 }) :=
  ⟨congrArg (· + 1) h.pos, h.max, [], ⟨by simp, h.ta⟩, ⟨by simp, h.tb⟩, .nil (Nat.le_succ _)⟩

theorem TAlike.restore {a b a' b' : St} (h : TAlike a b) (hm : a'.max = b'.max) (ka : TKeeps a a') (kb : TKeeps b b') :
    TAlike { a' with pos := a.pos, ti := a.ti } { b' with pos := b.pos, ti := b.ti } := ⟨h.pos, hm, ka.ti, kb.ti⟩

theorem Sim.okRestore {a b a' b' : St} (h : TAlike a b) (hm : a'.max = b'.max) (ka : TKeeps a a') (kb : TKeeps b b') :
    Sim a b (.ok { a' with pos := a.pos, ti := a.ti }) (.ok { b' with pos := b.pos, ti := b.ti }) :=
  ⟨h.pos, hm, [], ka.tadds, kb.tadds, .nil (Nat.le_refl _)⟩

theorem Sim.restore {a b a' b' : St} (ka : TKeeps a a') (kb : TKeeps b b') {o o' : Out}
    (hs : Sim { a' with pos := a.pos, ti := a.ti } { b' with pos := b.pos, ti := b.ti } o o') : Sim a b o o' := by
  cases o <;> cases o' <;> first | exact hs.elim | trivial | skip
  · obtain ⟨h1, h2, ts, h3, h4, h5⟩ := hs
    exact ⟨h1, h2, ts, ka.tadds_through h3, kb.tadds_through h4, h5⟩
  · obtain ⟨h1, h2, h3⟩ := hs
    exact ⟨h1, ka.through h2, kb.through h3⟩

theorem Sim.after {a b a' b' : St} {ts} (h : TAlike a b) (ka : TAdds a a' ts) (kb : TAdds b b' ts) (hs : Seg a.pos a'.pos ts) {o o' : Out}
    (h' : Sim a' b' o o') : Sim a b o o' := by
  cases o <;> cases o' <;> first | exact h'.elim | trivial | skip
  · obtain ⟨h1, h2, us, h3, h4, h5⟩ := h'
    exact ⟨h1, h2, ts ++ us, ka.trans h3, kb.trans h4, hs.app h5⟩
  · obtain ⟨h1, h2, h3⟩ := h'
    exact ⟨h1, ka.keeps h.ta h2, kb.keeps h.tb h3⟩

theorem addTok_max_eq {a b : St} (k : TokKind) (p : Nat) (h1 : a.pos = b.pos) (h2 : a.max = b.max) : (addTok k p a).max = (addTok k p b).max := by
  simp [addTok, h1, h2]

theorem Sim.token {a b a' b' : St} {ts} (h : TAlike a b) (h1 : a'.pos = b'.pos) (h2 : a'.max = b'.max) (ka : TAdds a a' ts) (kb : TAdds b b' ts)
    (hs : Seg a.pos a'.pos ts) (k : TokKind) : Sim a b (.ok (addTok k a.pos a')) (.ok (addTok k b.pos b')) := by
  refine ⟨h1, by rw [← h.pos]; exact addTok_max_eq k _ h1 h2, _, ka.addTok k a.pos, ?_, hs.wrap k⟩
  have := kb.addTok k b.pos
  rw [← h.pos, ← h1] at this
  rw [← h.pos]
  exact this

theorem execStar_sim {p q : St → Out} (hp : ∀ a b, TAlike a b → Sim a b (p a) (q b)) : ∀ n a b, TAlike a b → Sim a b (execStar p n a) (execStar q n b)
  | 0, _, _, _ => trivial
  | n + 1, a, b, h => by
    rw [execStar, execStar]
    have hs := hp a b h
    cases ho : p a <;> cases ho' : q b <;> rw [ho, ho'] at hs <;> first | exact hs.elim | trivial | skip
    · obtain ⟨h1, h2, ts, h3, h4, h5⟩ := hs
      exact Sim.after h h3 h4 h5 (execStar_sim hp n _ _ ⟨h1, h2, h3.ti, h4.ti⟩)
    · obtain ⟨h1, h2, h3⟩ := hs
      exact Sim.okRestore h h1 h2 h3

theorem exec_sim {buf : List Nat} {env : Rule → St → Out} (henv : ∀ r a b, TAlike a b → Sim a b (env r a) (env r b)) :
    ∀ e a b, TAlike a b → Sim a b (exec buf env e a) (exec buf env e b) := by
  intro e
  induction e with
  | eps => intro a b h; exact .same h
  | any =>
    intro a b h; rw [exec, exec, h.pos]
    cases buf[b.pos]? with
    | none => trivial
    | some x =>
      by_cases hx : x ≠ endSymbol
      · simp only [if_pos hx]; have := Sim.adv h; rwa [h.pos] at this
      · simp only [if_neg hx]; exact .failSame h
  | chr c =>
    intro a b h; rw [exec, exec, h.pos]
    cases buf[b.pos]? with
    | none => trivial
    | some x =>
      by_cases hx : x ≠ c.toNat
      · simp only [if_pos hx]; exact .failSame h
      · simp only [if_neg hx]; have := Sim.adv h; rwa [h.pos] at this
  | rng lo hi =>
    intro a b h; rw [exec, exec, h.pos]
    cases buf[b.pos]? with
    | none => trivial
    | some x =>
      by_cases hx : x < lo.toNat ∨ x > hi.toNat
      · simp only [if_pos hx]; exact .failSame h
      · simp only [if_neg hx]; have := Sim.adv h; rwa [h.pos] at this
  | seq e f ihe ihf =>
    intro a b h; rw [exec, exec]
    have hs := ihe a b h
    cases ho : exec buf env e a <;> cases ho' : exec buf env e b <;> rw [ho, ho'] at hs <;> first | exact hs.elim | trivial | skip
    · obtain ⟨h1, h2, ts, h3, h4, h5⟩ := hs
      exact Sim.after h h3 h4 h5 (ihf _ _ ⟨h1, h2, h3.ti, h4.ti⟩)
  | alt e f ihe ihf =>
    intro a b h; rw [exec, exec]
    have hs := ihe a b h
    cases ho : exec buf env e a <;> cases ho' : exec buf env e b <;> rw [ho, ho'] at hs <;> first | exact hs.elim | trivial | skip
    · obtain ⟨h1, h2, h3⟩ := hs
      exact Sim.restore h2 h3 (ihf _ _ (h.restore h1 h2 h3))
  | star e ihe => intro a b h; rw [exec, exec, h.pos]; exact execStar_sim ihe _ _ _ h
  | opt e ihe =>
    intro a b h; rw [exec, exec]
    have hs := ihe a b h
    cases ho : exec buf env e a <;> cases ho' : exec buf env e b <;> rw [ho, ho'] at hs <;> first | exact hs.elim | trivial | skip
    · obtain ⟨h1, h2, h3⟩ := hs
      exact Sim.okRestore h h1 h2 h3
  | notP e ihe =>
    intro a b h; rw [exec, exec]
    have hs := ihe a b h
    cases ho : exec buf env e a <;> cases ho' : exec buf env e b <;> rw [ho, ho'] at hs <;> first | exact hs.elim | trivial | skip
    · obtain ⟨_, h2, ts, h3, h4, _⟩ := hs
      exact ⟨h2, h3.keeps h.ta (.refl h3.ti), h4.keeps h.tb (.refl h4.ti)⟩
    · obtain ⟨h1, h2, h3⟩ := hs
      exact Sim.okRestore h h1 h2 h3
  | call r => intro a b h; exact henv r a b h
  | txt e ihe =>
    intro a b h; rw [exec, exec]
    have hs := ihe a b h
    cases ho : exec buf env e a <;> cases ho' : exec buf env e b <;> rw [ho, ho'] at hs <;> first | exact hs.elim | trivial | skip
    · obtain ⟨h1, h2, ts, h3, h4, h5⟩ := hs
      exact Sim.token h h1 h2 h3 h4 h5 .text
  | act n => intro a b h; exact Sim.token h h.pos h.max (.refl h.ta) (.refl h.tb) (.nil (Nat.le_refl _)) (.act n)
  | sw cs e f ihe ihf =>
    intro a b h; rw [exec, exec, h.pos]
    cases buf[b.pos]? with
    | none => trivial
    | some x =>
      by_cases hx : x ∈ cs.map Char.toNat
      · simp only [if_pos hx]; exact ihe _ _ h
      · simp only [if_neg hx]; exact ihf _ _ h

theorem execN_sim (buf : List Nat) (G : Rule → PExp) : ∀ n r a b, TAlike a b → Sim a b (execN buf G n r a) (execN buf G n r b)
  | 0, _, _, _, _ => trivial
  | n + 1, r, a, b, h => by
    rw [execN, execN]
    have hs := exec_sim (buf := buf) (execN_sim buf G n) (G r) a b h
    cases ho : exec buf (execN buf G n) (G r) a <;> cases ho' : exec buf (execN buf G n) (G r) b <;> rw [ho, ho'] at hs <;>
      first | exact hs.elim | trivial | skip
    · obtain ⟨h1, h2, ts, h3, h4, h5⟩ := hs
      exact Sim.token h h1 h2 h3 h4 h5 (.rule r)
    · obtain ⟨h1, h2, h3⟩ := hs
      exact ⟨h1, ⟨h2.tree, h2.ti⟩, ⟨h3.tree, h3.ti⟩⟩

/-! ## What a token stands for -/

/-- The captures `<...>` of an expression. -/
def PExp.caps : PExp → List PExp
  | .seq a b | .alt a b | .sw _ a b => a.caps ++ b.caps
  | .star a | .opt a | .notP a => a.caps
  | .txt a => a :: a.caps
  | _ => []

/-- The token is a piece of `s` really recognised: by its rule, by a capture of the grammar, or the empty piece of an action. -/
def TokOk (s : Str) (t : Tok) : Prop :=
  t.b ≤ t.e ∧ t.e ≤ s.length ∧
  match t.kind with
  | .rule r => ∃ ev, Big G (.call r) (s.drop t.b) (some (ev, s.drop t.e))
  | .text => ∃ r a ev, a ∈ (G r).caps ∧ Big G a (s.drop t.b) (some (ev, s.drop t.e))
  | .act _ => t.b = t.e

/-- All tokens are pieces of `s`, also those left over by alternatives that failed; `max` is one of them or empty. -/
structure Clear (s : Str) (st : St) : Prop where
  tree : ∀ t ∈ st.tree, TokOk s t
  max : TokOk s st.max ∨ st.max.b = 0 ∧ st.max.e = 0

def ClearO (s : Str) : Out → Prop
  | .ok st => Clear s st
  | .fail st => Clear s st
  | _ => True

theorem Clear.addTok {s st} (h : Clear s st) {k b} (ht : TokOk s ⟨k, b, st.pos⟩) : Clear s (addTok k b st) := by
  refine ⟨?_, ?_⟩
  · intro t hm
    simp only [Verif.addTok] at hm
    split at hm
    · rcases List.mem_append.mp hm with hm | hm
      · exact h.tree t hm
      · rw [List.mem_singleton.mp hm]; exact ht
    · rcases List.mem_or_eq_of_mem_set hm with hm | rfl
      · exact h.tree t hm
      · exact ht
  · simp only [Verif.addTok]
    split
    · exact .inl ht
    · exact h.max

theorem Clear.set {s st p t} (h : Clear s st) : Clear s { st with pos := p, ti := t } := ⟨h.tree, h.max⟩

/-- The outcome of the code of `e` from `st`, standing at `s`, is what the relation says, and all tokens stay in order. -/
def Snd (s0 : Str) (e : PExp) (s : Str) (st : St) : Out → Prop
  | .ok st' => ∃ ev r, Big G e s (some (ev, r)) ∧ Rel s0 st' r ∧ Clear s0 st' ∧ st.pos ≤ st'.pos
  | .fail st' => Big G e s none ∧ Clear s0 st' ∧ st'.max.b ≤ st'.max.e ∧ st'.max.e ≤ s0.length
  | _ => True

theorem Rel.talike {s0 st s} (h : Rel s0 st s) : TAlike st st := ⟨rfl, rfl, h.ti_le, h.ti_le⟩

theorem Rel.restored {s0 st s} {st' : St} (hr : Rel s0 st s) (hk : TKeeps st st') (h1 : st'.max.b ≤ st'.max.e) (h2 : st'.max.e ≤ s0.length) :
    Rel s0 { st' with pos := st.pos, ti := st.ti } s := ⟨hr.pos_le, hr.rest, hk.ti, h1, h2⟩

theorem Snd.same {s0 e s st ev} (hr : Rel s0 st s) (hc : Clear s0 st) (h : Big G e s (some (ev, s))) : Snd s0 e s st (.ok st) :=
  ⟨_, _, h, hr, hc, Nat.le_refl _⟩

theorem Snd.adv {s0 e x t st} (hr : Rel s0 st (x :: t)) (hc : Clear s0 st) (h : Big G e (x :: t) (some ([], t))) :
    Snd s0 e (x :: t) st (.ok { st with pos := st.pos + 1 }) := ⟨_, _, h, hr.advance, ⟨hc.tree, hc.max⟩, Nat.le_succ _⟩

theorem Snd.no {s0 e s st} (hr : Rel s0 st s) (hc : Clear s0 st) (h : Big G e s none) : Snd s0 e s st (.fail st) := ⟨h, hc, hr.maxb, hr.maxe⟩

theorem execStar_snd {s0 : Str} {e : PExp} {p : St → Out} (hsim : ∀ a b, TAlike a b → Sim a b (p a) (p b))
    (hp : ∀ st s, Rel s0 st s → Clear s0 st → Snd s0 e s st (p st)) :
    ∀ n st s, Rel s0 st s → Clear s0 st → Snd s0 (.star e) s st (execStar p n st)
  | 0, _, _, _, _ => trivial
  | n + 1, st, s, hr, hc => by
    rw [execStar]
    have h := hp st s hr hc
    have hs := hsim st st hr.talike
    cases ho : p st with
    | panic => trivial
    | div => trivial
    | fail st' =>
      rw [ho] at h hs
      exact ⟨_, _, .starNil h.1, hr.restored hs.2.1 h.2.2.1 h.2.2.2, h.2.1.set, Nat.le_refl _⟩
    | ok st' =>
      rw [ho] at h
      obtain ⟨ev, r, hb, hr', hc', hle⟩ := h
      have h2 := execStar_snd hsim hp n st' r hr' hc'
      simp only
      cases ho2 : execStar p n st' with
      | panic => trivial
      | div => trivial
      | fail st2 => rw [ho2] at h2; have h3 := h2.1; cases h3
      | ok st2 =>
        rw [ho2] at h2
        obtain ⟨ev2, r2, hb2, hr2, hc2, hle2⟩ := h2
        exact ⟨_, _, .starCons hb hb2, hr2, hc2, Nat.le_trans hle hle2⟩

theorem exec_snd {s0 : Str} {env : Rule → St → Out} (hsim : ∀ r a b, TAlike a b → Sim a b (env r a) (env r b))
    (henv : ∀ r st s, Rel s0 st s → Clear s0 st → Snd s0 (.call r) s st (env r st)) :
    ∀ e, (∀ a ∈ e.caps, ∃ r, a ∈ (G r).caps) → ∀ st s, Rel s0 st s → Clear s0 st → Snd s0 e s st (exec (mkBuf s0) env e st) := by
  intro e
  induction e with
  | eps => intro _ st s hr hc; exact .same hr hc .eps
  | any =>
    intro _ st s hr hc
    cases s with
    | nil => simp only [exec, mkBuf_nil hr]; exact .no hr hc .anyFail
    | cons x t => simp only [exec, mkBuf_cons hr]; rw [if_pos (Char.toNat_ne_end x)]; exact .adv hr hc .anyOk
  | chr c =>
    intro _ st s hr hc
    cases s with
    | nil => simp only [exec, mkBuf_nil hr]; rw [if_pos (Ne.symm (Char.toNat_ne_end c))]; exact .no hr hc .chrNil
    | cons x t =>
      simp only [exec, mkBuf_cons hr]
      by_cases hx : x = c
      · subst hx; rw [if_neg (by simp)]; exact .adv hr hc .chrOk
      · rw [if_pos fun h' => hx (Char.toNat_inj' h')]; exact .no hr hc (.chrFail hx)
  | rng lo hi =>
    intro _ st s hr hc
    cases s with
    | nil =>
      simp only [exec, mkBuf_nil hr]
      rw [if_pos (.inr (Char.toNat_lt hi))]; exact .no hr hc .rngNil
    | cons x t =>
      simp only [exec, mkBuf_cons hr]
      by_cases hx : lo.toNat ≤ x.toNat ∧ x.toNat ≤ hi.toNat
      · rw [if_neg (by omega)]; exact .adv hr hc (.rngOk hx.1 hx.2)
      · rw [if_pos (by omega)]; exact .no hr hc (.rngFail hx)
  | seq a b iha ihb =>
    intro hcap st s hr hc
    have h := iha (fun x hx => hcap x (by simp [PExp.caps, hx])) st s hr hc
    rw [exec]
    cases ho : exec (mkBuf s0) env a st with
    | panic => trivial
    | div => trivial
    | fail st' => rw [ho] at h; exact ⟨.seqFail1 h.1, h.2⟩
    | ok st' =>
      rw [ho] at h
      obtain ⟨ev, r, hb, hr', hc', hle⟩ := h
      have h2 := ihb (fun x hx => hcap x (by simp [PExp.caps, hx])) st' r hr' hc'
      simp only
      cases ho2 : exec (mkBuf s0) env b st' with
      | panic => trivial
      | div => trivial
      | fail st2 => rw [ho2] at h2; exact ⟨.seqFail2 hb h2.1, h2.2⟩
      | ok st2 =>
        rw [ho2] at h2
        obtain ⟨ev2, r2, hb2, hr2, hc2, hle2⟩ := h2
        exact ⟨_, _, .seqOk hb hb2, hr2, hc2, Nat.le_trans hle hle2⟩
  | alt a b iha ihb =>
    intro hcap st s hr hc
    have h := iha (fun x hx => hcap x (by simp [PExp.caps, hx])) st s hr hc
    have hs := exec_sim (buf := mkBuf s0) hsim a st st hr.talike
    rw [exec]
    cases ho : exec (mkBuf s0) env a st with
    | panic => trivial
    | div => trivial
    | ok st' => rw [ho] at h; obtain ⟨ev, r, hb, h'⟩ := h; exact ⟨_, _, .alt1 hb, h'⟩
    | fail st' =>
      rw [ho] at h hs
      have h2 := ihb (fun x hx => hcap x (by simp [PExp.caps, hx])) _ s (hr.restored hs.2.1 h.2.2.1 h.2.2.2) h.2.1.set
      simp only
      cases ho2 : exec (mkBuf s0) env b { st' with pos := st.pos, ti := st.ti } with
      | panic => trivial
      | div => trivial
      | fail st2 => rw [ho2] at h2; exact ⟨.alt2 h.1 h2.1, h2.2⟩
      | ok st2 => rw [ho2] at h2; obtain ⟨ev, r, hb, h'⟩ := h2; exact ⟨_, _, .alt2 h.1 hb, h'⟩
  | star a iha => intro hcap st s hr hc; rw [exec]; exact execStar_snd (exec_sim hsim a) (iha hcap) _ st s hr hc
  | opt a iha =>
    intro hcap st s hr hc
    have h := iha hcap st s hr hc
    have hs := exec_sim (buf := mkBuf s0) hsim a st st hr.talike
    rw [exec]
    cases ho : exec (mkBuf s0) env a st with
    | panic => trivial
    | div => trivial
    | ok st' => rw [ho] at h; obtain ⟨ev, r, hb, h'⟩ := h; exact ⟨_, _, .optSome hb, h'⟩
    | fail st' =>
      rw [ho] at h hs
      exact ⟨_, _, .optNone h.1, hr.restored hs.2.1 h.2.2.1 h.2.2.2, h.2.1.set, Nat.le_refl _⟩
  | notP a iha =>
    intro hcap st s hr hc
    have h := iha hcap st s hr hc
    have hs := exec_sim (buf := mkBuf s0) hsim a st st hr.talike
    rw [exec]
    cases ho : exec (mkBuf s0) env a st with
    | panic => trivial
    | div => trivial
    | ok st' => rw [ho] at h; obtain ⟨ev, r, hb, hr', hc', _⟩ := h; exact ⟨.notFail hb, hc', hr'.maxb, hr'.maxe⟩
    | fail st' =>
      rw [ho] at h hs
      exact ⟨_, _, .notOk h.1, hr.restored hs.2.1 h.2.2.1 h.2.2.2, h.2.1.set, Nat.le_refl _⟩
  | call r => intro _ st s hr hc; exact henv r st s hr hc
  | txt a iha =>
    intro hcap st s hr hc
    have h := iha (fun x hx => hcap x (by simp [PExp.caps, hx])) st s hr hc
    rw [exec]
    cases ho : exec (mkBuf s0) env a st with
    | panic => trivial
    | div => trivial
    | fail st' => rw [ho] at h; exact ⟨.txtFail h.1, h.2⟩
    | ok st' =>
      rw [ho] at h
      obtain ⟨ev, r, hb, hr', hc', hle⟩ := h
      obtain ⟨q, hq⟩ := hcap a (by simp [PExp.caps])
      refine ⟨_, _, .txtOk hb, addTok_rel _ _ hr' hle, hc'.addTok ⟨hle, hr'.pos_le, q, a, ev, hq, ?_⟩, hle⟩
      rw [hr.rest, hr'.rest] at hb
      exact hb
  | act n =>
    intro _ st s hr hc
    exact ⟨_, _, .act, addTok_rel _ _ hr (Nat.le_refl _), hc.addTok ⟨Nat.le_refl _, hr.pos_le, rfl⟩, Nat.le_refl _⟩
  | sw cs a b iha ihb =>
    intro hcap st s hr hc
    have ha := iha (fun x hx => hcap x (by simp [PExp.caps, hx])) st s hr hc
    have hb := ihb (fun x hx => hcap x (by simp [PExp.caps, hx])) st s hr hc
    cases s with
    | nil =>
      simp only [exec, mkBuf_nil hr]
      have : endSymbol ∉ cs.map Char.toNat := by
        intro hm
        obtain ⟨c, _, hc⟩ := List.mem_map.mp hm
        exact Char.toNat_ne_end c hc
      rw [if_neg this]
      cases ho : exec (mkBuf s0) env b st with
      | panic => trivial
      | div => trivial
      | ok st' => rw [ho] at hb; obtain ⟨ev, r, h, h'⟩ := hb; exact ⟨_, _, .swNil h, h'⟩
      | fail st' => rw [ho] at hb; exact ⟨.swNil hb.1, hb.2⟩
    | cons x t =>
      simp only [exec, mkBuf_cons hr]
      by_cases hx : x ∈ cs
      · rw [if_pos (List.mem_map.mpr ⟨x, hx, rfl⟩)]
        cases ho : exec (mkBuf s0) env a st with
        | panic => trivial
        | div => trivial
        | ok st' => rw [ho] at ha; obtain ⟨ev, r, h, h'⟩ := ha; exact ⟨_, _, .swIn hx h, h'⟩
        | fail st' => rw [ho] at ha; exact ⟨.swIn hx ha.1, ha.2⟩
      · have : x.toNat ∉ cs.map Char.toNat := by
          intro hm
          obtain ⟨c, hc, hcx⟩ := List.mem_map.mp hm
          exact hx (Char.toNat_inj' hcx ▸ hc)
        rw [if_neg this]
        cases ho : exec (mkBuf s0) env b st with
        | panic => trivial
        | div => trivial
        | ok st' => rw [ho] at hb; obtain ⟨ev, r, h, h'⟩ := hb; exact ⟨_, _, .swOut hx h, h'⟩
        | fail st' => rw [ho] at hb; exact ⟨.swOut hx hb.1, hb.2⟩

theorem execN_snd (s0 : Str) : ∀ n r st s, Rel s0 st s → Clear s0 st → Snd s0 (.call r) s st (execN (mkBuf s0) G n r st)
  | 0, _, _, _, _, _ => trivial
  | n + 1, r, st, s, hr, hc => by
    have h := exec_snd (execN_sim (mkBuf s0) G n) (execN_snd s0 n) (G r) (fun a ha => ⟨r, ha⟩) st s hr hc
    rw [execN]
    cases ho : exec (mkBuf s0) (execN (mkBuf s0) G n) (G r) st with
    | panic => trivial
    | div => trivial
    | fail st' => rw [ho] at h; exact ⟨.call h.1, h.2.1.set, h.2.2⟩
    | ok st' =>
      rw [ho] at h
      obtain ⟨ev, q, hb, hr', hc', hle⟩ := h
      refine ⟨_, _, .call hb, addTok_rel _ _ hr' hle, hc'.addTok ⟨hle, hr'.pos_le, ev, ?_⟩, hle⟩
      rw [hr.rest, hr'.rest] at hb
      exact .call hb

/-! ## Trees built from segments -/

/-- The trees `F` lie side by side, in order, between `p` and `q`, and so do the children of every node inside the node. -/
inductive Forest : Nat → Nat → List N32 → Prop where
  | nil {p q} : p ≤ q → Forest p q []
  | cons {p q t up F} : p ≤ t.b → t.b < t.e → Forest t.b t.e up → Forest t.e q F → Forest p q (.mk t up :: F)

mutual
/-- Tokens of a tree, children first. -/
def N32.post : N32 → List Tok
  | .mk t up => postL up ++ [t]
/-- Tokens of a list of trees. -/
def postL : List N32 → List Tok
  | [] => []
  | n :: ns => n.post ++ postL ns
end

theorem postL_append : ∀ a b, postL (a ++ b) = postL a ++ postL b
  | [], _ => rfl
  | n :: a, b => by rw [List.cons_append, postL, postL, postL_append a b, List.append_assoc]

theorem Forest.append {p q r A B} (h : Forest p q A) (h' : Forest q r B) (hq : q ≤ r) : Forest p r (A ++ B) := by
  induction h with
  | nil hle =>
    cases h' with
    | nil _ => exact .nil (by omega)
    | cons h1 h2 h3 h4 => exact .cons (by omega) h2 h3 h4
  | cons h1 h2 h3 _ _ ih => exact .cons h1 h2 h3 (ih h' hq)

theorem Forest.le {p q A} (h : Forest p q A) : p ≤ q := by
  induction h with
  | nil h => exact h
  | cons h1 h2 _ _ _ h3 => omega

theorem Forest.inside {p q A} (h : Forest p q A) : ∀ n ∈ A, p ≤ n.tok.b ∧ n.tok.b < n.tok.e ∧ n.tok.e ≤ q := by
  induction h with
  | nil _ => intro n hn; cases hn
  | cons h1 h2 h3 h4 _ ih =>
    intro n hn
    rcases List.mem_cons.mp hn with rfl | hn
    · exact ⟨h1, h2, h4.le⟩
    · have := ih n hn; omega

theorem popInto_all {t : Tok} {S : List N32} (hS : ∀ n ∈ S, n.tok.b < t.b) : ∀ (A up : List N32), (∀ n ∈ A, n.tok.b ≥ t.b ∧ n.tok.e ≤ t.e) →
    popInto t (A ++ S) up = (A.reverse ++ up, S)
  | [], up, _ => by
    cases S with
    | nil => rfl
    | cons n S =>
      have := hS n (by simp)
      rw [List.nil_append, popInto, if_neg (by omega)]; rfl
  | n :: A, up, h => by
    rw [List.cons_append, popInto, if_pos (h n (by simp)), popInto_all hS A _ fun m hm => h m (by simp [hm])]
    simp

theorem seg_ast {p q ts} (h : Seg p q ts) : ∀ S : List N32, (∀ n ∈ S, n.tok.b < n.tok.e ∧ n.tok.e ≤ p) →
    ∃ F, ts.foldl astStep S = F.reverse ++ S ∧ Forest p q F ∧ postL F = ts.filter fun t => decide (t.b ≠ t.e) := by
  induction h with
  | nil h => intro S _; exact ⟨[], rfl, .nil h, rfl⟩
  | @app p q r ts us h1 h2 ih1 ih2 =>
    intro S hS
    obtain ⟨F, hf, hF, hp⟩ := ih1 S hS
    obtain ⟨E, he, hE, hp'⟩ := ih2 (F.reverse ++ S) (by
      intro n hn
      rcases List.mem_append.mp hn with hn | hn
      · have := hF.inside n (List.mem_reverse.mp hn); omega
      · have := hS n hn; have := h1.le; omega)
    refine ⟨F ++ E, ?_, hF.append hE h2.le, ?_⟩
    · rw [List.foldl_append, hf, he]; simp
    · rw [postL_append, hp, hp', List.filter_append]
  | @wrap p q ts k h ih =>
    intro S hS
    obtain ⟨F, hf, hF, hp⟩ := ih S hS
    rw [List.foldl_append, hf, List.foldl_cons, List.foldl_nil, astStep, List.filter_append]
    by_cases hpq : p = q
    · refine ⟨F, by rw [if_pos hpq], hF, ?_⟩
      rw [hp]; simp [hpq]
    · have hle := h.le
      have := popInto_all (t := ⟨k, p, q⟩) (S := S) (fun n hn => by have := hS n hn; show _ < p; omega) F.reverse []
        (fun n hn => by have := hF.inside n (List.mem_reverse.mp hn); exact ⟨this.1, this.2.2⟩)
      rw [if_neg hpq, this]
      refine ⟨[.mk ⟨k, p, q⟩ F], by simp, ?_, ?_⟩
      · exact .cons (Nat.le_refl _) (show p < q by omega) hF (.nil (Nat.le_refl _))
      · simp [postL, N32.post, hp, hpq]

end Verif
