import Verif.Steps

/-! # Steps against tokens and characters -/

namespace Verif

/-- The token buffer holds at most `n` tokens when the code is left. -/
def Out.within (n : Nat) : Out → Prop
  | .ok st => st.tree.length ≤ n
  | .fail st => st.tree.length ≤ n
  | _ => True

theorem Out.within.mono {n m : Nat} {o : Out} (h : o.within n) (hm : n ≤ m) : o.within m := by
  cases o <;> simp only [Out.within] at * <;> omega

theorem addTok_tree (k b st) : (addTok k b st).tree.length ≤ st.tree.length + 1 := by
  unfold addTok; simp only; split <;> simp

theorem execStar_tree {p : St → Out} {c : St → Nat} (h : ∀ st, (p st).within (st.tree.length + c st)) :
    ∀ n st, (execStar p n st).within (st.tree.length + stepsStar p c n st) := by
  intro n
  induction n with
  | zero => intro st; trivial
  | succ n ih =>
    intro st
    have h1 := h st
    unfold execStar stepsStar
    cases hp : p st with
    | ok st' =>
      rw [hp] at h1
      simp only [Out.within] at h1
      exact (ih st').mono (by simp only; omega)
    | fail st' => rw [hp] at h1; simp only [Out.within] at h1 ⊢; omega
    | panic => trivial
    | div => trivial

theorem exec_tree {buf : List Nat} {env : Rule → St → Out} {cost : Rule → St → Nat}
    (h : ∀ r st, (env r st).within (st.tree.length + cost r st)) :
    ∀ e st, (exec buf env e st).within (st.tree.length + steps buf env cost e st) := by
  intro e
  induction e with
  | eps => intro st; simp [exec, Out.within]
  | any => intro st; unfold exec; split <;> try trivial
           split <;> simp [Out.within]
  | chr c => intro st; unfold exec; split <;> try trivial
             split <;> simp [Out.within]
  | rng lo hi => intro st; unfold exec; split <;> try trivial
                 split <;> simp [Out.within]
  | seq a b iha ihb =>
    intro st
    have h1 := iha st
    unfold exec steps
    cases ha : exec buf env a st with
    | ok st' => rw [ha] at h1; simp only [Out.within] at h1; exact (ihb st').mono (by simp only; omega)
    | fail st' => rw [ha] at h1; simp only [Out.within] at h1 ⊢; omega
    | panic => trivial
    | div => trivial
  | alt a b iha ihb =>
    intro st
    have h1 := iha st
    unfold exec steps
    cases ha : exec buf env a st with
    | ok st' => rw [ha] at h1; simp only [Out.within] at h1 ⊢; omega
    | fail st' => rw [ha] at h1; simp only [Out.within] at h1; exact (ihb _).mono (by simp only; omega)
    | panic => trivial
    | div => trivial
  | star a iha => intro st; exact execStar_tree iha _ st
  | opt a iha =>
    intro st
    have h1 := iha st
    unfold exec steps
    cases ha : exec buf env a st with
    | ok st' => rw [ha] at h1; simp only [Out.within] at h1 ⊢; omega
    | fail st' => rw [ha] at h1; simp only [Out.within] at h1 ⊢; omega
    | panic => trivial
    | div => trivial
  | notP a iha =>
    intro st
    have h1 := iha st
    unfold exec steps
    cases ha : exec buf env a st with
    | ok st' => rw [ha] at h1; simp only [Out.within] at h1 ⊢; omega
    | fail st' => rw [ha] at h1; simp only [Out.within] at h1 ⊢; omega
    | panic => trivial
    | div => trivial
  | call r => intro st; exact h r st
  | txt a iha =>
    intro st
    have h1 := iha st
    unfold exec steps
    cases ha : exec buf env a st with
    | ok st' =>
      rw [ha] at h1
      have := addTok_tree .text st.pos st'
      simp only [Out.within] at h1 ⊢; omega
    | fail st' => rw [ha] at h1; simp only [Out.within] at h1 ⊢; omega
    | panic => trivial
    | div => trivial
  | act n =>
    intro st
    have := addTok_tree (.act n) st.pos st
    simp only [exec, Out.within, steps]; omega
  | sw cs a b iha ihb =>
    intro st
    unfold exec steps
    cases buf[st.pos]? with
    | none => trivial
    | some x =>
      simp only
      split
      · exact (iha st).mono (by omega)
      · exact (ihb st).mono (by omega)

theorem execN_tree (buf : List Nat) (G : Rule → PExp) :
    ∀ n r st, (execN buf G n r st).within (st.tree.length + stepsN buf G n r st) := by
  intro n
  induction n with
  | zero => intro r st; trivial
  | succ n ih =>
    intro r st
    have h1 := exec_tree (buf := buf) ih (G r) st
    unfold execN stepsN
    cases ha : exec buf (execN buf G n) (G r) st with
    | ok st' =>
      rw [ha] at h1
      have := addTok_tree (.rule r) st.pos st'
      simp only [Out.within] at h1 ⊢; omega
    | fail st' => rw [ha] at h1; simp only [Out.within] at h1 ⊢; omega
    | panic => trivial
    | div => trivial

/-- Every consumed character costs a step. -/
theorem Run.consumed {G : Rule → PExp} {e s x k} (h : Run G e s x k) : ∀ r, x = some r → s.length ≤ r.length + k := by
  induction h with
  | seqOk _ _ ih1 ih2 => intro r e; have := ih1 _ rfl; have := ih2 r e; omega
  | alt2 _ _ ih1 ih2 => intro r e; have := ih2 r e; omega
  | starCons _ _ ih1 ih2 => intro r e; have := ih1 _ rfl; have := ih2 r e; omega
  | alt1 _ ih => intro r e; have := ih r e; omega
  | optSome _ ih => intro r e; have := ih r e; omega
  | call _ ih => intro r e; have := ih r e; omega
  | txt _ ih => intro r e; have := ih r e; omega
  | swIn _ _ ih => intro r e; have := ih r e; omega
  | swOut _ _ ih => intro r e; have := ih r e; omega
  | swNil _ ih => intro r e; have := ih r e; omega
  | _ => intro r e; cases e <;> simp <;> omega

end Verif
