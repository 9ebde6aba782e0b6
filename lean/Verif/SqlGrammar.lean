import Verif.SqlThms

/-! # A grammar of SQL conditions, and that the reader follows it (helper for the theorems about the translators) -/

namespace Verif

/-- What may follow an operand. -/
def Fol : List SqlTok → Prop
  | [] => True
  | .rp :: _ => True
  | .comma :: _ => True
  | .word _ :: _ => True
  | .sym s :: _ => s ≠ c!"::"
  | _ => False

/-- What may follow a predicate. -/
def Stop : List SqlTok → Prop
  | [] => True
  | .rp :: _ => True
  | .comma :: _ => True
  | .word w :: _ => w = c!"and" ∨ w = c!"or"
  | _ => False

/-- What may follow a disjunction. -/
def StopO : List SqlTok → Prop
  | [] => True
  | .rp :: _ => True
  | .comma :: _ => True
  | .word w :: _ => w = c!"or"
  | _ => False

theorem StopO.stop {ts} (h : StopO ts) : Stop ts := by
  unfold StopO at h; split at h <;> simp_all [Stop]

theorem Stop.fol {ts} (h : Stop ts) : Fol ts := by
  unfold Stop at h; split at h <;> simp_all [Fol]

theorem Stop.predOp {ts} (h : Stop ts) : Verif.predOp ts = none := by
  unfold Stop at h
  split at h
  · rfl
  · rfl
  · rfl
  · rcases h with rfl | rfl <;> rfl
  · exact h.elim

inductive SLvl where
  | prim | pred | not | and | or
  deriving DecidableEq

/-- The beginning of something that is not a negation. -/
def NoNot (ts : List SqlTok) : Prop := ∃ t us, ts = t :: us ∧ t ≠ .word c!"not"

/-- Conditions and the words they are written with. -/
inductive SG : SLvl → List SqlTok → SExpr → Prop where
  | val {v} : SG .prim [.val v] (.val v)
  | cast {v w} : castOk v w = true → SG .prim [.val v, .sym c!"::", .word w] (.val v)
  | null : SG .prim [.word c!"null"] (.val .nil)
  | name {x} : SG .prim [.name x] (.name x)
  | paren {ts e} : SG .or ts e → SG .prim (.lp :: (ts ++ [.rp])) e
  | call {f ts e} : f ≠ c!"not" → SG .or ts e → SG .prim (.word f :: .lp :: (ts ++ [.rp])) (.call f [e])
  | predUp {ts e} : SG .prim ts e → SG .pred ts e
  | cmp {ts x os o us y} : SG .prim ts x → (∀ r, Fol (os ++ r) ∧ predOp (os ++ r) = some (.cmp o, r)) → SG .prim us y →
      SG .pred (ts ++ (os ++ us)) (.cmp o x y)
  | set {ts x os o us v} : SG .prim ts x → (∀ r, Fol (os ++ r) ∧ predOp (os ++ r) = some (.set o, r)) →
      (∀ r, ∃ f, pSet f (us ++ r) = some (v, r)) → SG .pred (ts ++ (os ++ us)) (.cmp o x (.val v))
  | is {ts x os o} : SG .prim ts x → (∀ r, Fol (os ++ r) ∧ predOp (os ++ r) = some (.is o, r)) → SG .pred (ts ++ os) (.pred o x)
  | btw {ts x os n us y vs z} : SG .prim ts x → (∀ r, Fol (os ++ r) ∧ predOp (os ++ r) = some (.btw n, r)) → SG .prim us y → SG .prim vs z →
      SG .pred (ts ++ (os ++ (us ++ .word c!"and" :: vs))) (.between n x y z)
  | notUp {ts e} : SG .pred ts e → SG .not ts e
  | not {ts e} : SG .not ts e → SG .not (.word c!"not" :: ts) (.not e)
  | andUp {ts e} : SG .not ts e → SG .and ts e
  | and {ts x us y} : SG .and ts x → SG .not us y → SG .and (ts ++ .word c!"and" :: us) (.and x y)
  | orUp {ts e} : SG .and ts e → SG .or ts e
  | or {ts x us y} : SG .or ts x → SG .and us y → SG .or (ts ++ .word c!"or" :: us) (.or x y)

theorem SG.head {l ts e} (h : SG l ts e) : ∃ t us, ts = t :: us ∧ t ≠ .rp := by
  have app : ∀ {ts us : List SqlTok}, (∃ t r, ts = t :: r ∧ t ≠ .rp) → ∃ t r, ts ++ us = t :: r ∧ t ≠ .rp := by
    rintro _ us ⟨t, r, rfl, h⟩; exact ⟨t, r ++ us, rfl, h⟩
  induction h with
  | predUp _ ih | notUp _ ih | andUp _ ih | orUp _ ih => exact ih
  | cmp _ _ _ ih _ | set _ _ _ ih | is _ _ ih | btw _ _ _ _ ih _ _ | and _ _ ih _ | or _ _ ih _ => exact app ih
  | _ => exact ⟨_, _, rfl, by simp⟩

theorem NoNot.app {ts us} (h : NoNot ts) : NoNot (ts ++ us) := by
  obtain ⟨t, r, rfl, h⟩ := h; exact ⟨t, r ++ us, rfl, h⟩

theorem NoNot.pNot {ts} (h : NoNot ts) (f : Nat) : Verif.pNot (f + 1) ts = pPred f ts := by
  obtain ⟨t, r, rfl, h⟩ := h
  rw [Verif.pNot.eq_def]
  split
  · rename_i h1; cases h1
  · rename_i h1; cases h1
    split
    · rename_i h2; cases h2
      rw [if_neg (fun hw => h (by rw [hw]))]
    · rfl

theorem andTail_stop {e ts} (h : StopO ts) : andTail 1 e ts = some (e, ts) := by
  rw [andTail.eq_def]
  split
  · rename_i h1; cases h1
  · rename_i h1; cases h1
    split
    · simp only [StopO] at h; subst h; rfl
    · rfl

theorem orTail_stop {e ts} (h : ∀ w us, ts = .word w :: us → w ≠ c!"or") : orTail 1 e ts = some (e, ts) := by
  rw [orTail.eq_def]
  split
  · rename_i h1; cases h1
  · rename_i h1; cases h1
    split
    · rw [if_neg (h _ _ rfl)]
    · rfl

theorem endCmp_stop {e ts} (h : Stop ts) : endCmp e ts = some (e, ts) := by rw [endCmp, h.predOp]
theorem endPred_stop {e ts} (h : Stop ts) : endPred e ts = some (e, ts) := by rw [endPred, h.predOp]; rfl

/-- What the reader does with words of each level. -/
def Comp : SLvl → List SqlTok → SExpr → Prop
  | .prim, ts, e => NoNot ts ∧ ∀ r, Fol r → ∃ f, pPrim f (ts ++ r) = some (e, r)
  | .pred, ts, e => NoNot ts ∧ ∀ r, Stop r → ∃ f, pPred f (ts ++ r) = some (e, r)
  | .not, ts, e => ∀ r, Stop r → ∃ f, pNot f (ts ++ r) = some (e, r)
  | .and, ts, e => ∀ r x, Stop r → (∃ f, andTail f e r = some x) → ∃ f, pAnd f (ts ++ r) = some x
  | .or, ts, e => ∀ r x, StopO r → (∃ f, orTail f e r = some x) → ∃ f, pOr f (ts ++ r) = some x

theorem SG.comp {l ts e} (h : SG l ts e) : Comp l ts e := by
  induction h with
  | val =>
    refine ⟨⟨_, _, rfl, by simp⟩, fun r hr => ⟨1, ?_⟩⟩
    rw [pPrim.eq_def]
    simp only [List.cons_append, List.nil_append]
    rw [pVal.eq_def]
    split
    · rename_i h; cases h
      simp only [Fol] at hr
      rw [if_neg hr]; rfl
    · rename_i h; cases h; rfl
    · rename_i h; cases h
    · rename_i h _; exact absurd rfl (h _ _)
  | cast h =>
    refine ⟨⟨_, _, rfl, by simp⟩, fun r hr => ⟨1, ?_⟩⟩
    rw [pPrim.eq_def]
    simp [pVal, h]
  | null =>
    refine ⟨⟨_, _, rfl, by simp⟩, fun r hr => ⟨1, ?_⟩⟩
    rw [pPrim.eq_def]
    simp only [List.cons_append, List.nil_append]
    split
    · rename_i h; cases h
    · rename_i h; cases h
    · rename_i h; cases h; exact hr.elim
    · rename_i h; cases h; exact hr.elim
    · rfl
  | name =>
    exact ⟨⟨_, _, rfl, by simp⟩, fun r hr => ⟨1, rfl⟩⟩
  | paren _ ih =>
    refine ⟨⟨_, _, rfl, by simp⟩, fun r hr => ?_⟩
    rename_i ts e _
    obtain ⟨f, hf⟩ := ih (.rp :: r) (e, .rp :: r) trivial ⟨1, orTail_stop (by rintro _ _ ⟨⟩)⟩
    refine ⟨f + 1, ?_⟩
    rw [pPrim.eq_def]
    simp [hf]
  | call hn hg ih =>
    refine ⟨⟨_, _, rfl, by simpa using hn⟩, fun r hr => ?_⟩
    rename_i g ts e
    obtain ⟨f, hf⟩ := ih (.rp :: r) (e, .rp :: r) trivial ⟨1, orTail_stop (by rintro _ _ ⟨⟩)⟩
    refine ⟨f + 2, ?_⟩
    rw [pPrim.eq_def]
    simp only [List.cons_append, List.append_assoc, List.nil_append]
    split
    · rename_i h; cases h
    · rename_i h; cases h
    · rename_i h
      obtain ⟨t, us, rfl, ht⟩ := hg.head
      cases h; exact absurd rfl ht
    · rename_i h
      cases h
      rw [pArgs, hf]
      rfl
    · rename_i h; exact absurd rfl (h _ _)
  | predUp _ ih =>
    refine ⟨ih.1, fun r hr => ?_⟩
    obtain ⟨f, hf⟩ := ih.2 r hr.fol
    refine ⟨f + 1, ?_⟩
    rw [pPred, hf]
    simp [hr.predOp]
  | cmp _ ho _ ih1 ih2 =>
    refine ⟨ih1.1.app, fun r hr => ?_⟩
    rename_i ts x os o us y _ _
    obtain ⟨f, hf⟩ := ih1.2 (os ++ (us ++ r)) (ho _).1
    obtain ⟨g, hg⟩ := ih2.2 r hr.fol
    refine ⟨max f g + 1, ?_⟩
    rw [pPred]
    simp only [List.append_assoc]
    rw [pPrim_le hf (Nat.le_max_left f g)]
    simp only [Option.bind_some, (ho _).2]
    rw [pPrim_le hg (Nat.le_max_right f g)]
    simp [endCmp_stop hr]
  | set _ ho hs ih1 =>
    refine ⟨ih1.1.app, fun r hr => ?_⟩
    rename_i ts x os o us y _
    obtain ⟨f, hf⟩ := ih1.2 (os ++ (us ++ r)) (ho _).1
    obtain ⟨g, hg⟩ := hs r
    refine ⟨max f g + 1, ?_⟩
    rw [pPred]
    simp only [List.append_assoc]
    rw [pPrim_le hf (Nat.le_max_left f g)]
    simp only [Option.bind_some, (ho _).2]
    have : ∀ g', g ≤ g' → pSet g' (us ++ r) = some (y, r) := by
      intro g' h
      induction h with
      | refl => exact hg
      | step _ ih => exact pSet_mono ih
    rw [this _ (Nat.le_max_right f g)]
    simp [endCmp_stop hr]
  | is _ ho ih1 =>
    refine ⟨ih1.1.app, fun r hr => ?_⟩
    obtain ⟨f, hf⟩ := ih1.2 _ (ho r).1
    refine ⟨f + 1, ?_⟩
    rw [pPred]
    simp only [List.append_assoc]
    rw [hf]
    simp only [Option.bind_some, (ho _).2]
    exact endPred_stop hr
  | btw _ ho _ _ ih1 ih2 ih3 =>
    refine ⟨ih1.1.app, fun r hr => ?_⟩
    rename_i ts x os n us y vs z _ _ _
    obtain ⟨f, hf⟩ := ih1.2 (os ++ (us ++ .word c!"and" :: (vs ++ r))) (ho _).1
    obtain ⟨g, hg⟩ := ih2.2 (.word c!"and" :: (vs ++ r)) trivial
    obtain ⟨k, hk⟩ := ih3.2 r hr.fol
    refine ⟨max f (max g k) + 1, ?_⟩
    rw [pPred]
    simp only [List.append_assoc, List.cons_append]
    rw [pPrim_le hf (by omega)]
    simp only [Option.bind_some, (ho _).2]
    rw [pPrim_le hg (by omega)]
    simp only [Option.bind_some, if_true]
    rw [pPrim_le hk (by omega)]
    exact endPred_stop hr
  | notUp _ ih =>
    intro r hr
    obtain ⟨f, hf⟩ := ih.2 r hr
    exact ⟨f + 1, by rw [ih.1.app.pNot]; exact hf⟩
  | not _ ih =>
    intro r hr
    obtain ⟨f, hf⟩ := ih r hr
    refine ⟨f + 1, ?_⟩
    rw [List.cons_append, pNot]
    simp [hf]
  | andUp _ ih =>
    rintro r x hr ⟨g, hg⟩
    obtain ⟨f, hf⟩ := ih r hr
    refine ⟨max f g + 1, ?_⟩
    rw [pAnd, pNot_le hf (Nat.le_max_left f g)]
    exact andTail_le hg (Nat.le_max_right f g)
  | and _ _ ih1 ih2 =>
    rintro r x hr ⟨g, hg⟩
    rename_i ts a us b _ _
    obtain ⟨f, hf⟩ := ih2 r hr
    have := ih1 (.word c!"and" :: (us ++ r)) x (.inl rfl) ⟨max f g + 1, by
      rw [andTail]
      simp only [if_true]
      rw [pNot_le hf (Nat.le_max_left f g)]
      exact andTail_le hg (Nat.le_max_right f g)⟩
    simpa using this
  | orUp _ ih =>
    rintro r x hr ⟨g, hg⟩
    rename_i ts e _
    obtain ⟨f, hf⟩ := ih r (e, r) hr.stop ⟨1, andTail_stop hr⟩
    refine ⟨max f g + 1, ?_⟩
    rw [pOr, pAnd_le hf (Nat.le_max_left f g)]
    exact orTail_le hg (Nat.le_max_right f g)
  | or _ _ ih1 ih2 =>
    rintro r x hr ⟨g, hg⟩
    rename_i ts a us b _ _
    obtain ⟨f, hf⟩ := ih2 r (b, r) hr.stop ⟨1, andTail_stop hr⟩
    have := ih1 (.word c!"or" :: (us ++ r)) x rfl ⟨max f g + 1, by
      rw [orTail]
      simp only [if_true]
      rw [pAnd_le hf (Nat.le_max_left f g)]
      exact orTail_le hg (Nat.le_max_right f g)⟩
    simpa using this

/-- Words of a condition are read as the condition. -/
theorem SG.reads {ts e} (h : SG .or ts e) : Reads ts e := by
  obtain ⟨f, hf⟩ := h.comp [] (e, []) trivial ⟨1, rfl⟩
  exact ⟨f, by simpa using hf⟩

end Verif
