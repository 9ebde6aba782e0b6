import Verif.ParseThms
import Verif.Spec.PegFile

/-! # The generated rules mean what the grammar file says -/

namespace Verif

open GExp

/-- The call made by each action number (/repo/miniquery/miniquery.peg.go:369-428). -/
def methOf : Nat → Option Meth
  | 0 => some .PopLogic | 1 => some .PopNot | 2 => some .PopCompare | 3 => some .AddCompare | 4 => some .PopCompare | 5 => some .PopPredicate
  | 6 => some .AddOperation | 7 => some .PopBetween | 8 => some .PopParentheses | 9 => some .PopFunction | 10 => some .AddMark
  | 11 => some .PopArray | 12 => some .AddMark | 13 => some .PopIdentifierReference | 14 => some .AddName | 15 => some .AddCompare
  | 16 => some .AddCompare | 17 => some .AddCompare | 18 => some .AddLogic | 19 => some .AddLogic | 20 => some .AddMatch | 21 => some .AddMark
  | 22 => some .PopArray | 23 => some .AddMark | 24 => some .PopArray | 25 => some .AddInteger | 26 => some .AddBoolean | 27 => some .AddNull
  | 28 => some .AddString | 29 => some .AddString | _ => none

def upEv : Ev → Option FEv
  | .text s => some (.text s)
  | .act n => (methOf n).map .act

theorem runEvs_up : ∀ (evs : List Ev) (x : Str) (t : Tree), runEvs x evs t = doMeths x (evs.filterMap upEv) t
  | [], _, _ => rfl
  | .text s :: evs, x, t => runEvs_up evs s t
  | .act n :: evs, x, t => by
    have h : runAct n x t = match methOf n with | some m => doMeth m x t | none => some t := by
      unfold runAct methOf
      split <;> first | rfl | simp [*]
    rw [runEvs, h, List.filterMap_cons]
    cases hm : methOf n with
    | none => simp only [upEv, hm, Option.map_none]; exact runEvs_up evs x t
    | some m =>
      simp only [upEv, hm, Option.map_some, doMeths]
      cases doMeth m x t with
      | none => rfl
      | some t' => exact runEvs_up evs x t'

def Res.up : Res → Option (List FEv × Str)
  | .ok e r => some (e.filterMap upEv, r)
  | _ => none

/-- At this input the generated expression does what the file's expression says. -/
def Impl (env : Rule → Str → Res) (e : PExp) (g : GExp) (s : Str) : Prop :=
  denote env e s ≠ .div → Parses grammarFile g s (denote env e s).up

variable {env : Rule → Str → Res}

theorem CI.length : ∀ {w u : Str}, CI w u → u.length = w.length
  | [], u, h => by rw [show u = [] from h]
  | _ :: _, _, ⟨_, _, h, _, h'⟩ => by rw [h]; simp [CI.length h']

theorem CI.prefix_eq {w u u' r r' : Str} (h : CI w u) (h' : CI w u') (e : u ++ r = u' ++ r') : u = u' ∧ r = r' :=
  List.append_inj e (by rw [h.length, h'.length])

/-- The textbook semantics is deterministic. -/
theorem Parses.det {g : Rule → GExp} {e s x} (h : Parses g e s x) : ∀ {y}, Parses g e s y → x = y := by
  induction h with
  | @lit w r =>
    intro y hy
    generalize hs : w ++ r = s at hy
    cases hy with
    | lit => rw [List.append_cancel_left hs]
    | litFail h => exact absurd hs.symm (h r)
  | litFail h =>
    intro y hy
    cases hy with
    | lit => exact absurd rfl (h _)
    | litFail => rfl
  | @word w u r hu =>
    intro y hy
    generalize hs : u ++ r = s at hy
    cases hy with
    | word h => rw [(hu.prefix_eq h hs).2]
    | wordFail h => exact absurd hs.symm (h u r hu)
  | wordFail h =>
    intro y hy
    cases hy with
    | word hu => exact absurd rfl (h _ _ hu)
    | wordFail => rfl
  | cls h =>
    intro y hy
    cases hy with
    | cls => rfl
    | clsFail h' => exact absurd h (h' _ _ rfl)
  | clsFail h =>
    intro y hy
    cases hy with
    | cls h' => exact absurd h' (h _ _ rfl)
    | clsFail => rfl
  | other h =>
    intro y hy
    cases hy with
    | other => rfl
    | otherFail h' => exact absurd (h' _ _ rfl) h
  | otherFail h =>
    intro y hy
    cases hy with
    | other h' => exact absurd (h _ _ rfl) h'
    | otherFail => rfl
  | dot => intro y hy; cases hy; rfl
  | dotFail => intro y hy; cases hy; rfl
  | seq _ _ ih1 ih2 =>
    intro y hy
    cases hy with
    | seq h1 h2 => cases ih1 h1; cases ih2 h2; rfl
    | seqFail1 h1 => cases ih1 h1
    | seqFail2 h1 h2 => cases ih1 h1; cases ih2 h2
  | seqFail1 _ ih =>
    intro y hy
    cases hy with
    | seq h1 _ => cases ih h1
    | seqFail1 => rfl
    | seqFail2 h1 _ => cases ih h1
  | seqFail2 _ _ ih1 ih2 =>
    intro y hy
    cases hy with
    | seq h1 h2 => cases ih1 h1; cases ih2 h2
    | seqFail1 => rfl
    | seqFail2 => rfl
  | alt1 _ ih =>
    intro y hy
    cases hy with
    | alt1 h => exact ih h
    | alt2 h _ => cases ih h
  | alt2 _ _ ih1 ih2 =>
    intro y hy
    cases hy with
    | alt1 h => cases ih1 h
    | alt2 _ h => exact ih2 h
  | starNil _ ih =>
    intro y hy
    cases hy with
    | starNil => rfl
    | starCons h _ => cases ih h
  | starCons _ _ ih1 ih2 =>
    intro y hy
    cases hy with
    | starNil h => cases ih1 h
    | starCons h1 h2 => cases ih1 h1; cases ih2 h2; rfl
  | plus _ ih => intro y hy; cases hy with | plus h => exact ih h
  | optSome _ ih =>
    intro y hy
    cases hy with
    | optSome h => exact ih h
    | optNone h => cases ih h
  | optNone _ ih =>
    intro y hy
    cases hy with
    | optSome h => cases ih h
    | optNone => rfl
  | noFail _ ih =>
    intro y hy
    cases hy with
    | noFail => rfl
    | no h => cases ih h
  | no _ ih =>
    intro y hy
    cases hy with
    | noFail h => cases ih h
    | no => rfl
  | rule _ ih => intro y hy; cases hy with | rule h => exact ih h
  | @cap a u r e _ ih =>
    intro y hy
    generalize hs : u ++ r = s at hy ih
    cases hy with
    | cap h =>
      cases ih h
      rw [List.append_cancel_right hs]
    | capFail h => cases ih h
  | capFail _ ih =>
    intro y hy
    cases hy with
    | cap h => cases ih h
    | capFail => rfl
  | act => intro y hy; cases hy; rfl

/-! ## Forms that are compiled one to one -/

theorem Impl.seq {a b g h s} (ha : Impl env a g s) (hb : ∀ r, Impl env b h r) : Impl env (.seq a b) (g ⬝ h) s := by
  intro hd
  unfold Impl at ha
  rw [denote] at hd ⊢
  cases hc : denote env a s with
  | fail => rw [hc] at ha; exact .seqFail1 (ha (by simp))
  | div => simp [hc] at hd
  | ok e1 r1 =>
    rw [hc] at ha hd
    have hb := hb r1
    unfold Impl at hb
    simp only at hd ⊢
    cases hc2 : denote env b r1 with
    | fail => rw [hc2] at hb; exact .seqFail2 (ha (by simp)) (hb (by simp))
    | div => simp [hc2] at hd
    | ok e2 r2 =>
      rw [hc2] at hb
      have := Parses.seq (ha (by simp)) (hb (by simp))
      rwa [← List.filterMap_append] at this

theorem Impl.alt {a b g h s} (ha : Impl env a g s) (hb : Impl env b h s) : Impl env (.alt a b) (g ∕ h) s := by
  intro hd
  unfold Impl at ha hb
  rw [denote] at hd ⊢
  cases hc : denote env a s with
  | fail => rw [hc] at ha hd; exact .alt2 (ha (by simp)) (hb hd)
  | div => simp [hc] at hd
  | ok e1 r1 => rw [hc] at ha; exact .alt1 (ha (by simp))

theorem Impl.opt {a g s} (ha : Impl env a g s) : Impl env (.opt a) (.opt g) s := by
  intro hd
  unfold Impl at ha
  rw [denote] at hd ⊢
  cases hc : denote env a s with
  | fail => rw [hc] at ha; exact .optNone (ha (by simp))
  | div => simp [hc] at hd
  | ok e1 r1 => rw [hc] at ha; exact .optSome (ha (by simp))

theorem Impl.no {a g s} (ha : Impl env a g s) : Impl env (.notP a) (.no g) s := by
  intro hd
  unfold Impl at ha
  rw [denote] at hd ⊢
  cases hc : denote env a s with
  | fail => rw [hc] at ha; exact .no (ha (by simp))
  | div => simp [hc] at hd
  | ok e1 r1 => rw [hc] at ha; exact .noFail (ha (by simp))

theorem starLoop_parses {p : Str → Res} {g : GExp} (hp : ∀ s, p s ≠ .div → Parses grammarFile g s (p s).up) :
    ∀ n s, starLoop p n s ≠ .div → Parses grammarFile (.star g) s (starLoop p n s).up
  | 0, s, h => absurd rfl h
  | n + 1, s, h => by
    have hps := hp s
    rw [starLoop] at h ⊢
    cases hc : p s with
    | fail => rw [hc] at hps; exact .starNil (hps (by simp))
    | div => simp [hc] at h
    | ok e1 r1 =>
      rw [hc] at hps h
      simp only at h ⊢
      have ih := starLoop_parses hp n r1
      cases hc2 : starLoop p n r1 with
      | fail =>
        rw [hc2] at ih
        cases ih (by simp)
      | div => simp [hc2] at h
      | ok e2 r2 =>
        rw [hc2] at ih
        have := Parses.starCons (hps (by simp)) (ih (by simp))
        rwa [← List.filterMap_append] at this

theorem Impl.star {a g} (ha : ∀ s, Impl env a g s) (s) : Impl env (.star a) (.star g) s := starLoop_parses ha _ s

theorem Impl.plus {a g} (ha : ∀ s, Impl env a g s) (s) : Impl env (.seq a (.star a)) (.plus g) s :=
  fun hd => .plus (Impl.seq (ha s) (Impl.star ha) hd)

theorem Impl.act {n m s} (h : methOf n = some m) : Impl env (.act n) (.act m) s := by
  intro _
  have : (denote env (.act n) s).up = some ([.act m], s) := by simp [denote, Res.up, upEv, h]
  rw [this]
  exact .act

theorem Impl.any {s} : Impl env .any .dot s := by
  intro _
  cases s with
  | nil => exact .dotFail
  | cons c r => exact .dot

/-- What is left after a match is a piece of the input. -/
theorem starLoop_suffix {p : Str → Res} (hp : ∀ s e r, p s = .ok e r → r <:+ s) : ∀ n s e r, starLoop p n s = .ok e r → r <:+ s
  | 0, _, _, _, h => by cases h
  | n + 1, s, e, r, h => by
    rw [starLoop] at h
    cases hc : p s with
    | fail => rw [hc] at h; cases h; exact List.suffix_refl _
    | div => rw [hc] at h; cases h
    | ok e1 r1 =>
      rw [hc] at h
      simp only at h
      cases hc2 : starLoop p n r1 with
      | fail => rw [hc2] at h; cases h
      | div => rw [hc2] at h; cases h
      | ok e2 r2 =>
        rw [hc2] at h; cases h
        exact (starLoop_suffix hp n r1 e2 r hc2).trans (hp _ _ _ hc)

theorem denote_suffix (henv : ∀ r s e t, env r s = .ok e t → t <:+ s) : ∀ (p : PExp) (s e r), denote env p s = .ok e r → r <:+ s := by
  intro p
  induction p with
  | eps => intro s e r h; cases h; exact List.suffix_refl _
  | any => intro s e r h; cases s with
    | nil => cases h
    | cons c t => cases h; exact List.suffix_cons _ _
  | chr c =>
    intro s e r h
    cases s with
    | nil => cases h
    | cons x t =>
      rw [denote] at h
      split at h
      · cases h; exact List.suffix_cons _ _
      · cases h
  | rng lo hi =>
    intro s e r h
    cases s with
    | nil => cases h
    | cons x t =>
      rw [denote] at h
      split at h
      · cases h; exact List.suffix_cons _ _
      · cases h
  | seq a b iha ihb =>
    intro s e r h
    rw [denote] at h
    cases hc : denote env a s with
    | fail => rw [hc] at h; cases h
    | div => rw [hc] at h; cases h
    | ok e1 r1 =>
      rw [hc] at h
      simp only at h
      cases hc2 : denote env b r1 with
      | fail => rw [hc2] at h; cases h
      | div => rw [hc2] at h; cases h
      | ok e2 r2 => rw [hc2] at h; cases h; exact (ihb _ _ _ hc2).trans (iha _ _ _ hc)
  | alt a b iha ihb =>
    intro s e r h
    rw [denote] at h
    cases hc : denote env a s with
    | fail => rw [hc] at h; exact ihb _ _ _ h
    | div => rw [hc] at h; cases h
    | ok e1 r1 => rw [hc] at h; cases h; exact iha _ _ _ hc
  | star a iha => intro s e r h; exact starLoop_suffix iha _ _ _ _ h
  | opt a iha =>
    intro s e r h
    rw [denote] at h
    cases hc : denote env a s with
    | fail => rw [hc] at h; cases h; exact List.suffix_refl _
    | div => rw [hc] at h; cases h
    | ok e1 r1 => rw [hc] at h; cases h; exact iha _ _ _ hc
  | notP a iha =>
    intro s e r h
    rw [denote] at h
    cases hc : denote env a s with
    | fail => rw [hc] at h; cases h; exact List.suffix_refl _
    | div => rw [hc] at h; cases h
    | ok e1 r1 => rw [hc] at h; cases h
  | call r => intro s e t h; exact henv _ _ _ _ h
  | txt a iha =>
    intro s e r h
    rw [denote] at h
    cases hc : denote env a s with
    | fail => rw [hc] at h; cases h
    | div => rw [hc] at h; cases h
    | ok e1 r1 => rw [hc] at h; cases h; exact iha _ _ _ hc
  | act n => intro s e r h; cases h; exact List.suffix_refl _
  | sw cs a b iha ihb =>
    intro s e r h
    cases s with
    | nil => exact ihb _ _ _ h
    | cons x t =>
      rw [denote] at h
      split at h
      · exact iha _ _ _ h
      · exact ihb _ _ _ h

theorem denoteN_suffix : ∀ n r s e t, denoteN G n r s = .ok e t → t <:+ s
  | 0, _, _, _, _, h => by cases h
  | n + 1, r, s, e, t, h => denote_suffix (denoteN_suffix n) (G r) s e t h

theorem Impl.cap {a g s} (henv : ∀ r s e t, env r s = .ok e t → t <:+ s) (ha : Impl env a g s) : Impl env (.txt a) (.cap g) s := by
  intro hd
  unfold Impl at ha
  rw [denote] at hd ⊢
  cases hc : denote env a s with
  | fail => rw [hc] at ha; exact .capFail (ha (by simp))
  | div => simp [hc] at hd
  | ok e1 r1 =>
    rw [hc] at ha
    obtain ⟨u, hu⟩ := denote_suffix henv a s _ _ hc
    subst hu
    have := Parses.cap (ha (by simp))
    simpa [Res.up, upEv, List.filterMap_append] using this

/-- `(!c .)`, the code made from `[^c]`. -/
theorem Impl.other {c s} : Impl env (.seq (.notP (.chr c)) .any) (.other c) s := by
  intro _
  cases s with
  | nil => exact .otherFail fun _ _ h => by cases h
  | cons x t =>
    by_cases hx : x = c
    · subst hx
      simpa [denote, Res.up] using Parses.otherFail (g := grammarFile) (x := x) (s := x :: t) fun c r h => by cases h; rfl
    · simpa [denote, hx, Res.up] using Parses.other (g := grammarFile) (r := t) hx

theorem litFail_nil {c : Char} {w : Str} : Parses grammarFile (.lit (c :: w)) [] none := .litFail fun _ h => by cases h
theorem wordFail_nil {c : Char} {w : Str} : Parses grammarFile (.word (c :: w)) [] none := .wordFail fun u r h e => by
  obtain ⟨x, t, rfl, _⟩ := h
  cases e

theorem litFail_head {c x : Char} {w t : Str} (h : x ≠ c) : Parses grammarFile (.lit (c :: w)) (x :: t) none :=
  .litFail fun r e => h (by cases e; rfl)

theorem wordFail_head {c x : Char} {w t : Str} (h : ¬ (x = c ∨ x = c.toUpper)) : Parses grammarFile (.word (c :: w)) (x :: t) none :=
  .wordFail fun u r hu e => by
    obtain ⟨y, v, rfl, hy, _⟩ := hu
    cases e
    exact h hy

theorem seqs_cons2 {a b : PExp} {l : List PExp} : PExp.seqs (a :: b :: l) = .seq a (PExp.seqs (b :: l)) := rfl

theorem denote_lit : ∀ (w s : Str), (∃ r, s = w ++ r ∧ denote env (PExp.lit w) s = .ok [] r) ∨ ((∀ r, s ≠ w ++ r) ∧ denote env (PExp.lit w) s = .fail)
  | [], s => .inl ⟨s, rfl, rfl⟩
  | [c], [] => .inr ⟨fun r h => (by cases h), rfl⟩
  | [c], x :: t => by
    show (∃ r, _ ∧ denote env (.chr c) _ = _) ∨ (_ ∧ denote env (.chr c) _ = _)
    by_cases hx : x = c
    · subst hx; exact .inl ⟨t, rfl, by simp [denote]⟩
    · exact .inr ⟨fun r h => hx (by cases h; rfl), by simp [denote, hx]⟩
  | c :: d :: w, [] => .inr ⟨fun r h => (by cases h), by show denote env (.seq (.chr c) (PExp.lit (d :: w))) [] = _; simp [denote]⟩
  | c :: d :: w, x :: t => by
    show (∃ r, _ ∧ denote env (.seq (.chr c) (PExp.lit (d :: w))) _ = _) ∨ (_ ∧ denote env (.seq (.chr c) (PExp.lit (d :: w))) _ = _)
    by_cases hx : x = c
    · subst hx
      rcases denote_lit (d :: w) t with ⟨r, h1, h2⟩ | ⟨h1, h2⟩
      · exact .inl ⟨r, by rw [h1]; rfl, by rw [denote]; simp [denote, h2]⟩
      · exact .inr ⟨fun r h => h1 r (by cases h; rfl), by rw [denote]; simp [denote, h2]⟩
    · exact .inr ⟨fun r h => hx (by cases h; rfl), by rw [denote]; simp [denote, hx]⟩

theorem Impl.lit {w s} : Impl env (PExp.lit w) (.lit w) s := by
  intro _
  rcases denote_lit (env := env) w s with ⟨r, h1, h2⟩ | ⟨h1, h2⟩
  · rw [h2, h1]; exact .lit
  · rw [h2]; exact .litFail h1

theorem Impl.chr {c s} : Impl env (.chr c) (.lit [c]) s := Impl.lit (w := [c])

theorem denote_ci (c x : Char) (t : Str) : denote env (PExp.ci c) (x :: t) = if x = c ∨ x = c.toUpper then .ok [] t else .fail := by
  by_cases h1 : x = c
  · simp [PExp.ci, denote, h1]
  · by_cases h2 : x = c.toUpper
    · subst h2; simp [PExp.ci, denote, h1]
    · simp [PExp.ci, denote, h1, h2]

theorem denote_word : ∀ (w s : Str), (∃ u r, CI w u ∧ s = u ++ r ∧ denote env (PExp.ciLit w) s = .ok [] r) ∨
    ((∀ u r, CI w u → s ≠ u ++ r) ∧ denote env (PExp.ciLit w) s = .fail)
  | [], s => .inl ⟨[], s, rfl, rfl, rfl⟩
  | [c], [] => .inr ⟨fun u r hu h => (by obtain ⟨x, t, rfl, _⟩ := hu; cases h), rfl⟩
  | [c], x :: t => by
    show (∃ u r, _ ∧ _ ∧ denote env (PExp.ci c) _ = _) ∨ (_ ∧ denote env (PExp.ci c) _ = _)
    rw [denote_ci]
    by_cases hx : x = c ∨ x = c.toUpper
    · exact .inl ⟨[x], t, ⟨x, [], rfl, hx, rfl⟩, rfl, by rw [if_pos hx]⟩
    · exact .inr ⟨fun u r hu h => by obtain ⟨y, v, rfl, hy, _⟩ := hu; cases h; exact hx hy, by rw [if_neg hx]⟩
  | c :: d :: w, [] => .inr ⟨fun u r hu h => (by obtain ⟨x, t, rfl, _⟩ := hu; cases h), by
      show denote env (.seq (PExp.ci c) (PExp.ciLit (d :: w))) [] = _; rw [denote]; simp [PExp.ci, denote]⟩
  | c :: d :: w, x :: t => by
    show (∃ u r, _ ∧ _ ∧ denote env (.seq (PExp.ci c) (PExp.ciLit (d :: w))) _ = _) ∨ (_ ∧ denote env (.seq (PExp.ci c) (PExp.ciLit (d :: w))) _ = _)
    rw [denote, denote_ci]
    by_cases hx : x = c ∨ x = c.toUpper
    · rw [if_pos hx]
      rcases denote_word (d :: w) t with ⟨u, r, h0, h1, h2⟩ | ⟨h1, h2⟩
      · exact .inl ⟨x :: u, r, ⟨x, u, rfl, hx, h0⟩, by rw [h1]; rfl, by simp [h2]⟩
      · exact .inr ⟨fun u r hu h => by
          obtain ⟨y, v, rfl, hy, hv⟩ := hu
          cases h
          exact h1 v r hv rfl, by simp [h2]⟩
    · rw [if_neg hx]
      exact .inr ⟨fun u r hu h => by obtain ⟨y, v, rfl, hy, _⟩ := hu; cases h; exact hx hy, rfl⟩

theorem Impl.word {w s} : Impl env (PExp.ciLit w) (.word w) s := by
  intro _
  rcases denote_word (env := env) w s with ⟨u, r, h0, h1, h2⟩ | ⟨h1, h2⟩
  · rw [h2, h1]; exact .word h0
  · rw [h2]; exact .wordFail h1

theorem char_le {a b : Char} : a ≤ b ↔ a.toNat ≤ b.toNat := Iff.rfl

theorem Impl.rng {lo hi s} : Impl env (.rng lo hi) (.cls [(lo, hi)]) s := by
  intro _
  cases s with
  | nil => exact .clsFail fun _ _ h => by cases h
  | cons x t =>
    by_cases hx : lo.toNat ≤ x.toNat ∧ x.toNat ≤ hi.toNat
    · have h : denote env (.rng lo hi) (x :: t) = .ok [] t := by simp only [denote, if_pos hx]
      rw [h]
      exact .cls ⟨(lo, hi), by simp, hx⟩
    · have h : denote env (.rng lo hi) (x :: t) = .fail := by simp only [denote, if_neg hx]
      rw [h]
      exact .clsFail fun c r e ⟨p, hp, hc⟩ => by cases e; cases List.mem_singleton.mp hp; exact hx hc

/-! ## Ordered choice compiled to a switch -/

/-- An alternative of the file that fails here. -/
theorem Impl.skip {a g h s} (hg : Parses grammarFile g s none) (ha : Impl env a h s) : Impl env a (g ∕ h) s := fun hd => .alt2 hg (ha hd)

/-- The later alternatives of the file fail here. -/
theorem Impl.first {a g h s} (ha : Impl env a g s) (hh : Parses grammarFile h s none) : Impl env a (g ∕ h) s := by
  intro hd
  have := ha hd
  cases hc : denote env a s with
  | div => exact absurd hc hd
  | fail => rw [hc] at this; exact .alt2 this hh
  | ok e r => rw [hc] at this; exact .alt1 this

/-- An alternative of the code that fails here. -/
theorem Impl.pass {a b g s} (h : denote env a s = .fail) (hb : Impl env b g s) : Impl env (.alt a b) g s := by
  intro hd
  rw [denote, h] at hd ⊢
  exact hb hd

theorem Impl.sw {cs a b g s} (ha : ∀ c t, c ∈ cs → s = c :: t → Impl env a g s) (hb : (∀ c ∈ cs, ∀ t, s ≠ c :: t) → Impl env b g s) :
    Impl env (.sw cs a b) g s := by
  intro hd
  cases s with
  | nil => exact hb (fun _ _ _ h => by cases h) hd
  | cons x t =>
    by_cases hx : x ∈ cs
    · have e : denote env (.sw cs a b) (x :: t) = denote env a (x :: t) := by simp [denote, hx]
      rw [e] at hd ⊢; exact ha x t hx rfl hd
    · have e : denote env (.sw cs a b) (x :: t) = denote env b (x :: t) := by simp [denote, hx]
      rw [e] at hd ⊢; exact hb (fun c hc r h => hx (by cases h; exact hc)) hd

/-- A literal whose first character is not there. -/
theorem litFail_no {c : Char} {w s : Str} (h : ∀ t, s ≠ c :: t) : Parses grammarFile (.lit (c :: w)) s none := .litFail fun _ e => h _ e

theorem wordFail_no {c : Char} {w s : Str} (h : ∀ t, s ≠ c :: t) (h' : ∀ t, s ≠ c.toUpper :: t) : Parses grammarFile (.word (c :: w)) s none :=
  .wordFail fun u r hu e => by
    obtain ⟨y, v, rfl, hy, _⟩ := hu
    rcases hy with rfl | rfl
    · exact h _ e
    · exact h' _ e

theorem denote_assoc {a b c : PExp} {s} : denote env (.seq a (.seq b c)) s = denote env (.seq (.seq a b) c) s := by
  simp only [denote]
  cases denote env a s with
  | fail => rfl
  | div => rfl
  | ok e1 r1 =>
    simp only
    cases denote env b r1 with
    | fail => rfl
    | div => rfl
    | ok e2 r2 =>
      simp only
      cases denote env c r2 with
      | fail => rfl
      | div => rfl
      | ok e3 r3 => simp

theorem Impl.assoc {a b c : PExp} {g s} (h : Impl env (.seq (.seq a b) c) g s) : Impl env (.seq a (.seq b c)) g s := by
  unfold Impl; rw [denote_assoc]; exact h

theorem Impl.assoc' {a b c : PExp} {g s} (h : Impl env (.seq a (.seq b c)) g s) : Impl env (.seq (.seq a b) c) g s := by
  unfold Impl; rw [← denote_assoc]; exact h

/-- A quoted character that is no letter. -/
theorem Impl.mark {c s} (h : c.toUpper = c) : Impl env (.chr c) (.word [c]) s := by
  intro _
  cases s with
  | nil => exact wordFail_nil
  | cons x t =>
    by_cases hx : x = c
    · subst hx
      have : denote env (.chr x) (x :: t) = .ok [] t := by simp [denote]
      rw [this]; exact .word (u := [x]) ⟨x, [], rfl, .inl rfl, rfl⟩
    · have : denote env (.chr c) (x :: t) = .fail := by simp [denote, hx]
      rw [this]; exact wordFail_head (by rw [h]; simpa using hx)

section Rules

variable (hsuf : ∀ r s e t, env r s = .ok e t → t <:+ s) (hcall : ∀ r s, Impl env (.call r) (.rule r) s)

set_option hygiene false in
/-- Everything that is compiled one to one. -/
local macro "impl" : tactic => `(tactic| repeat' first
  | exact Impl.lit | exact Impl.word | exact Impl.chr | exact Impl.rng | exact Impl.any | exact Impl.other | exact Impl.act rfl | exact hcall _ _
  | refine Impl.seq ?_ (fun _ => ?_) | refine Impl.alt ?_ ?_ | refine Impl.opt ?_ | refine Impl.no ?_ | refine Impl.star (fun _ => ?_) _
  | refine Impl.cap hsuf ?_)

theorem impl_tfn {s} : Impl env gTfn (.lit c!"true" ∕ .lit c!"false" ∕ .lit c!"null") s := by
  refine Impl.sw (fun c t hc e => ?_) (fun h1 => ?_)
  · cases List.mem_singleton.mp hc; subst e
    exact .skip (litFail_head (by decide)) (.skip (litFail_head (by decide)) .lit)
  · refine Impl.sw (fun c t hc e => ?_) (fun h2 => ?_)
    · cases List.mem_singleton.mp hc; subst e
      exact .skip (litFail_head (by decide)) (.first .lit (litFail_head (by decide)))
    · exact .first .lit (.alt2 (litFail_no (h2 _ (by simp))) (litFail_no (h1 _ (by simp))))

theorem impl_boolean {s} : Impl env (.sw ['F'] (PExp.lit c!"FALSE") (.sw ['T'] (PExp.lit c!"TRUE") (.sw ['f'] (PExp.lit c!"false") (PExp.lit c!"true"))))
    (.lit c!"true" ∕ .lit c!"false" ∕ .lit c!"TRUE" ∕ .lit c!"FALSE") s := by
  refine Impl.sw (fun c t hc e => ?_) (fun h1 => ?_)
  · cases List.mem_singleton.mp hc; subst e
    exact .skip (litFail_head (by decide)) (.skip (litFail_head (by decide)) (.skip (litFail_head (by decide)) .lit))
  · refine Impl.sw (fun c t hc e => ?_) (fun h2 => ?_)
    · cases List.mem_singleton.mp hc; subst e
      exact .skip (litFail_head (by decide)) (.skip (litFail_head (by decide)) (.first .lit (litFail_head (by decide))))
    · refine Impl.sw (fun c t hc e => ?_) (fun h3 => ?_)
      · cases List.mem_singleton.mp hc; subst e
        exact .skip (litFail_head (by decide)) (.first .lit (.alt2 (litFail_head (by decide)) (litFail_head (by decide))))
      · exact .first .lit (.alt2 (litFail_no (h3 _ (by simp))) (.alt2 (litFail_no (h2 _ (by simp))) (litFail_no (h1 _ (by simp)))))

theorem impl_cmpSym {s} : Impl env gCmpSym
    (.lit c!">=" ∕ .lit c!"<=" ∕ .lit c!"==" ∕ .lit c!"!=" ∕ .lit c!">" ∕ .lit c!"<" ∕ .lit c!"<>" ∕ .lit c!"=") s := by
  refine .alt .lit (.alt .lit (.alt .lit ?_))
  have lt : ∀ t, Impl env (.alt (.chr '<') (.sw ['='] (.chr '=') (.sw ['<'] (PExp.lit c!"<>") (.sw ['>'] (.chr '>') (PExp.lit c!"!=")))))
      (.lit c!"!=" ∕ .lit c!">" ∕ .lit c!"<" ∕ .lit c!"<>" ∕ .lit c!"=") ('<' :: t) := fun t hd => by
    have e : denote env (.alt (.chr '<') (.sw ['='] (.chr '=') (.sw ['<'] (PExp.lit c!"<>") (.sw ['>'] (.chr '>') (PExp.lit c!"!="))))) ('<' :: t) = .ok [] t := by
      simp [denote]
    rw [e]
    exact .alt2 (litFail_head (by decide)) (.alt2 (litFail_head (by decide)) (.alt1 (.lit (w := c!"<"))))
  by_cases hl : ∃ t, s = '<' :: t
  · obtain ⟨t, rfl⟩ := hl; exact lt t
  have hl' : ∀ t, s ≠ '<' :: t := fun t e => hl ⟨t, e⟩
  refine .pass (by cases s with
    | nil => rfl
    | cons x t => have : x ≠ '<' := fun e => hl' t (by rw [e]); simp [denote, this]) ?_
  refine Impl.sw (fun c t hc e => ?_) (fun h1 => ?_)
  · cases List.mem_singleton.mp hc; subst e
    exact .skip (litFail_head (by decide)) (.skip (litFail_head (by decide)) (.skip (litFail_head (by decide)) (.skip (litFail_head (by decide)) .chr)))
  · refine Impl.sw (fun c t hc e => ?_) (fun h2 => ?_)
    · cases List.mem_singleton.mp hc; exact absurd e (hl' t)
    · refine Impl.sw (fun c t hc e => ?_) (fun h3 => ?_)
      · cases List.mem_singleton.mp hc; subst e
        exact .skip (litFail_head (by decide)) (.first .chr (.alt2 (litFail_head (by decide)) (.alt2 (litFail_head (by decide)) (litFail_head (by decide)))))
      · exact .first .lit (.alt2 (litFail_no (h3 _ (by simp))) (.alt2 (litFail_no hl') (.alt2 (litFail_no hl') (litFail_no (h1 _ (by simp))))))

theorem impl_cmpWord {s} : Impl env gCmpWord (.word c!"gt" ∕ .word c!"lt" ∕ .word c!"gte" ∕ .word c!"lte" ∕ .word c!"eq" ∕ .word c!"neq") s := by
  refine .alt .word (.alt .word ?_)
  refine Impl.sw (fun c t hc e => ?_) (fun h1 => ?_)
  · subst e
    have hc : c = 'N' ∨ c = 'n' := by simpa using hc
    rcases hc with rfl | rfl
    all_goals exact .skip (wordFail_head (by decide)) (.skip (wordFail_head (by decide)) (.skip (wordFail_head (by decide)) .word))
  · refine Impl.sw (fun c t hc e => ?_) (fun h2 => ?_)
    · subst e
      have hc : c = 'E' ∨ c = 'e' := by simpa using hc
      rcases hc with rfl | rfl
      all_goals exact .skip (wordFail_head (by decide)) (.skip (wordFail_head (by decide)) (.first .word (wordFail_head (by decide))))
    · refine Impl.sw (fun c t hc e => ?_) (fun h3 => ?_)
      · subst e
        have hc : c = 'L' ∨ c = 'l' := by simpa using hc
        rcases hc with rfl | rfl
        all_goals exact .skip (wordFail_head (by decide)) (.first .word (.alt2 (wordFail_head (by decide)) (wordFail_head (by decide))))
      · exact .first .word (.alt2 (wordFail_no (h3 _ (by decide)) (h3 _ (by decide))) (.alt2 (wordFail_no (h2 _ (by decide)) (h2 _ (by decide)))
          (wordFail_no (h1 _ (by decide)) (h1 _ (by decide)))))

theorem impl_idHead {s} : Impl env gIdHead (.cls [('a', 'z'), ('A', 'Z')]) s := by
  intro _
  cases s with
  | nil => exact .clsFail fun _ _ h => by cases h
  | cons x t =>
    by_cases h1 : 'a'.toNat ≤ x.toNat ∧ x.toNat ≤ 'z'.toNat
    · have h : denote env gIdHead (x :: t) = .ok [] t := by simp only [gIdHead, denote, if_pos h1]
      rw [h]; exact .cls ⟨('a', 'z'), by simp, h1⟩
    · by_cases h2 : 'A'.toNat ≤ x.toNat ∧ x.toNat ≤ 'Z'.toNat
      · have h : denote env gIdHead (x :: t) = .ok [] t := by simp only [gIdHead, denote, if_neg h1, if_pos h2]
        rw [h]; exact .cls ⟨('A', 'Z'), by simp, h2⟩
      · have h : denote env gIdHead (x :: t) = .fail := by simp only [gIdHead, denote, if_neg h1, if_neg h2]
        rw [h]
        refine .clsFail fun c r e ⟨p, hp, hc⟩ => ?_
        cases e
        simp only [List.mem_cons, List.not_mem_nil, or_false] at hp
        rcases hp with rfl | rfl
        · exact h1 hc
        · exact h2 hc

/-- The case labels are the letters of the range. -/
theorem digit_labels {x : Char} : x ∈ digits ↔ '0' ≤ x ∧ x ≤ '9' := by
  constructor
  · intro h
    have : ∀ c ∈ digits, '0' ≤ c ∧ c ≤ '9' := by decide
    exact this x h
  · intro h
    have : ∀ n, n < 58 → 48 ≤ n → Char.ofNat n ∈ digits := by decide
    have h' := this x.toNat (by have := char_le.mp h.2; simpa using Nat.lt_succ_of_le this) (char_le.mp h.1)
    rwa [Char.ofNat_toNat] at h'

theorem upper_labels {x : Char} : x ∈ uppers ↔ 'A' ≤ x ∧ x ≤ 'Z' := by
  constructor
  · intro h
    have : ∀ c ∈ uppers, 'A' ≤ c ∧ c ≤ 'Z' := by decide
    exact this x h
  · intro h
    have : ∀ n, n < 91 → 65 ≤ n → Char.ofNat n ∈ uppers := by decide
    have h' := this x.toNat (by have := char_le.mp h.2; simpa using Nat.lt_succ_of_le this) (char_le.mp h.1)
    rwa [Char.ofNat_toNat] at h'

theorem impl_idTail {s} : Impl env gIdTail (.cls [('_', '_'), ('a', 'z'), ('A', 'Z'), ('0', '9')]) s := by
  intro _
  cases s with
  | nil => exact .clsFail fun _ _ h => by cases h
  | cons x t =>
    by_cases h1 : '0' ≤ x ∧ x ≤ '9'
    · have h : denote env gIdTail (x :: t) = .ok [] t := by
        simp only [gIdTail, denote, if_pos (digit_labels.mpr h1)]
        exact if_pos h1
      rw [h]; exact .cls ⟨('0', '9'), by simp, h1⟩
    · by_cases h2 : 'A' ≤ x ∧ x ≤ 'Z'
      · have h : denote env gIdTail (x :: t) = .ok [] t := by
          simp only [gIdTail, denote, if_neg (fun h => h1 (digit_labels.mp h)), if_pos (upper_labels.mpr h2)]
          exact if_pos h2
        rw [h]; exact .cls ⟨('A', 'Z'), by simp, h2⟩
      · by_cases h3 : x = '_'
        · subst h3
          have h : denote env gIdTail ('_' :: t) = .ok [] t := by
            simp only [gIdTail, denote, if_neg (fun h => h1 (digit_labels.mp h)), if_neg (fun h => h2 (upper_labels.mp h))]
            simp
          rw [h]; exact .cls ⟨('_', '_'), by simp, by decide⟩
        · by_cases h4 : 'a' ≤ x ∧ x ≤ 'z'
          · have h : denote env gIdTail (x :: t) = .ok [] t := by
              simp only [gIdTail, denote, if_neg (fun h => h1 (digit_labels.mp h)), if_neg (fun h => h2 (upper_labels.mp h))]
              rw [if_neg (by simpa using h3)]; exact if_pos h4
            rw [h]; exact .cls ⟨('a', 'z'), by simp, h4⟩
          · have h : denote env gIdTail (x :: t) = .fail := by
              simp only [gIdTail, denote, if_neg (fun h => h1 (digit_labels.mp h)), if_neg (fun h => h2 (upper_labels.mp h))]
              rw [if_neg (by simpa using h3)]; exact if_neg h4
            rw [h]
            refine .clsFail fun c r e ⟨p, hp, hc⟩ => ?_
            cases e
            simp only [List.mem_cons, List.not_mem_nil, or_false] at hp
            rcases hp with rfl | rfl | rfl | rfl
            · exact h3 (Char.le_antisymm hc.2 hc.1)
            · exact h4 hc
            · exact h2 hc
            · exact h1 hc

include hcall in
theorem impl_space {s} : Impl env gSpace (.lit c!" " ∕ .lit c!"\t" ∕ .rule .EndOfLine) s := by
  have eol : ∀ x t, x = ' ' ∨ x = '\t' → Parses grammarFile (.rule .EndOfLine) (x :: t) none := by
    rintro x t (rfl | rfl)
    all_goals exact .rule (.alt2 (litFail_head (by decide)) (.alt2 (litFail_head (by decide)) (litFail_head (by decide))))
  refine Impl.sw (fun c t hc e => ?_) (fun h1 => ?_)
  · cases List.mem_singleton.mp hc; subst e
    exact .skip (litFail_head (by decide)) (.first .chr (eol _ _ (.inr rfl)))
  · refine Impl.sw (fun c t hc e => ?_) (fun h2 => ?_)
    · cases List.mem_singleton.mp hc; subst e
      exact .first .chr (.alt2 (litFail_head (by decide)) (eol _ _ (.inl rfl)))
    · exact .skip (litFail_no (h2 _ (by simp))) (.skip (litFail_no (h1 _ (by simp))) (hcall _ _))

theorem string_fails {s} (h : ∀ t, s ≠ '\'' :: t) (h' : ∀ t, s ≠ '"' :: t) : Parses grammarFile (.rule .String) s none :=
  .rule (.alt2 (.seqFail1 (wordFail_no h h)) (.seqFail1 (litFail_no h')))

theorem integer_fails {x : Char} {t} (h : ¬ ('0' ≤ x ∧ x ≤ '9')) : Parses grammarFile (.rule .Integer) (x :: t) none := by
  refine .rule (.seqFail1 (.capFail (.alt2 (litFail_head fun e => h (by rw [e]; decide)) (.seqFail1 (.clsFail fun c r e ⟨p, hp, hc⟩ => ?_)))))
  cases e; cases List.mem_singleton.mp hp
  exact h ⟨char_le.mpr (Nat.le_trans (by decide) (char_le.mp hc.1)), hc.2⟩

theorem boolean_fails {s} (h1 : ∀ t, s ≠ 't' :: t) (h2 : ∀ t, s ≠ 'f' :: t) (h3 : ∀ t, s ≠ 'T' :: t) (h4 : ∀ t, s ≠ 'F' :: t) :
    Parses grammarFile (.rule .Boolean) s none :=
  .rule (.seqFail1 (.capFail (.alt2 (litFail_no h1) (.alt2 (litFail_no h2) (.alt2 (litFail_no h3) (litFail_no h4))))))

theorem null_fails {s} (h1 : ∀ t, s ≠ 'n' :: t) (h2 : ∀ t, s ≠ 'N' :: t) : Parses grammarFile (.rule .Null) s none :=
  .rule (.seqFail1 (.capFail (.alt2 (litFail_no h1) (litFail_no h2))))

theorem head_ne {x c : Char} {t : Str} (h : x ≠ c) : ∀ r, x :: t ≠ c :: r := fun _ e => h (by cases e; rfl)

include hcall in
theorem impl_literal {s} : Impl env gLiteral (.rule .String ∕ .rule .Integer ∕ .rule .Boolean ∕ .rule .Null) s := by
  refine Impl.sw (fun c t hc e => ?_) (fun h1 => ?_)
  · subst e
    have hc : c = 'N' ∨ c = 'n' := by simpa using hc
    rcases hc with rfl | rfl
    all_goals
      exact .skip (string_fails (head_ne (by decide)) (head_ne (by decide))) (.skip (integer_fails (by decide))
        (.skip (boolean_fails (head_ne (by decide)) (head_ne (by decide)) (head_ne (by decide)) (head_ne (by decide))) (hcall _ _)))
  · refine Impl.sw (fun c t hc e => ?_) (fun h2 => ?_)
    · subst e
      have hc : c = 'F' ∨ c = 'T' ∨ c = 'f' ∨ c = 't' := by simpa using hc
      rcases hc with rfl | rfl | rfl | rfl
      all_goals
        exact .skip (string_fails (head_ne (by decide)) (head_ne (by decide))) (.skip (integer_fails (by decide))
          (.first (hcall _ _) (null_fails (head_ne (by decide)) (head_ne (by decide)))))
    · have hb : Parses grammarFile (.rule .Boolean) s none := boolean_fails (h2 _ (by decide)) (h2 _ (by decide)) (h2 _ (by decide)) (h2 _ (by decide))
      have hn : Parses grammarFile (.rule .Null) s none := null_fails (h1 _ (by decide)) (h1 _ (by decide))
      refine Impl.sw (fun c t hc e => ?_) (fun h3 => ?_)
      · subst e
        refine .first (hcall _ _) (.alt2 (integer_fails ?_) (.alt2 hb hn))
        have hc : c = '"' ∨ c = '\'' := by simpa using hc
        rcases hc with rfl | rfl <;> decide
      · exact .skip (string_fails (h3 _ (by decide)) (h3 _ (by decide))) (.first (hcall _ _) (.alt2 hb hn))

include hsuf hcall in
/-- Every rule body. -/
theorem impl_rules (r : Rule) (s : Str) : Impl env (G r) (grammarFile r) s := by
  cases r
  case Grammar => simp only [G, gGrammar, grammarFile, PExp.seqs]; impl
  case Expression => simp only [G, gExpression, grammarFile]; impl
  case LogicExpression => simp only [G, gLogicExpression, grammarFile, PExp.seqs]; impl
  case NotExpression => simp only [G, gNotExpression, grammarFile, PExp.seqs]; impl
  case CompareExpression => simp only [G, gCompareExpression, grammarFile, PExp.seqs]; impl
  case CompareInExpression => simp only [G, gCompareInExpression, gInOp, grammarFile, PExp.seqs]; impl
  case PredicateExpression => simp only [G, gPredicateExpression, grammarFile, PExp.seqs]; impl
  case BetweenExpression => simp only [G, gBetweenExpression, gBetweenOp, gBounds, grammarFile, PExp.seqs]; impl
  case PrimaryExpression => simp only [G, gPrimaryExpression, grammarFile, PExp.seqs, PExp.alts]; impl
  case ArgumentList => simp only [G, gArgumentList, grammarFile, PExp.seqs]; impl
  case Argument => simp only [G, gArgument, grammarFile]; impl
  case Reference => simp only [G, gReference, grammarFile, PExp.alts]; impl
  case IdentifierReference => simp only [G, gIdentifierReference, grammarFile, PExp.seqs]; impl
  case JsonReference =>
    simp only [G, gJsonReference, grammarFile, PExp.seqs]
    refine Impl.seq (hcall _ _) fun _ => Impl.assoc (Impl.seq (Impl.lit (w := c!"->")) fun _ => ?_)
    impl
  case Identifier => simp only [G, gIdentifier, grammarFile, PExp.seqs]; impl; exact impl_idHead; impl; exact impl_idTail; impl
  case Compare =>
    simp only [G, gCompare, gCmpLike, grammarFile, PExp.seqs, PExp.alts]
    refine .alt (.seq (hcall _ _) fun _ => .seq (.cap hsuf impl_cmpSym) fun _ => ?_) (.alt (.seq (hcall _ _) fun _ => .seq (.cap hsuf impl_cmpWord) fun _ => ?_) ?_)
    all_goals impl
  case Logic => simp only [G, gLogic, gLogicWord, gLogicSym, grammarFile, PExp.seqs]; impl
  case Match =>
    simp only [G, gMatch, gMatchOp, grammarFile, PExp.seqs, PExp.alts]
    refine .seq (hcall _ _) fun _ => .seq (.cap hsuf (.alt .lit (.alt .lit (.alt ?_ ?_)))) fun _ => ?_
    · exact .assoc (.seq (Impl.lit (w := c!"is")) fun _ => .seq (hcall _ _) fun _ => impl_tfn)
    · exact .assoc (.seq (Impl.lit (w := c!"is")) fun _ => .seq (hcall _ _) fun _ =>
        Impl.assoc (Impl.assoc (.seq (Impl.assoc' (Impl.lit (w := c!"not"))) fun _ => .seq (hcall _ _) fun _ => impl_tfn)))
    · impl
  case Value => simp only [G, gValue, grammarFile]; impl
  case Array => simp only [G, gArray, grammarFile, PExp.seqs]; impl
  case Literal => exact impl_literal hcall
  case Integer => simp only [G, gInteger, grammarFile]; impl
  case Boolean => exact .seq (.cap hsuf impl_boolean) fun _ => .act rfl
  case Null => simp only [G, gNull, grammarFile]; impl
  case String => simp only [G, gString, gStrBody, grammarFile, PExp.seqs]; impl; all_goals exact .mark rfl
  case SpaceComment => simp only [G, gSpaceComment, grammarFile]; impl
  case sp => simp only [G, gSp, grammarFile]; impl
  case sp1 => exact Impl.plus (fun _ => hcall _ _) s
  case Comment => simp only [G, gComment, grammarFile, PExp.seqs]; impl
  case Space => exact impl_space hcall
  case EndOfLine => simp only [G, gEndOfLine, grammarFile, PExp.alts]; impl
  case EndOfFile => simp only [G, gEndOfFile, grammarFile]; impl

end Rules

/-- Rules of the generated parser, with enough call depth, do what the file says. -/
theorem denoteN_parses : ∀ n r s, denoteN G n r s ≠ .div → Parses grammarFile (.rule r) s (denoteN G n r s).up
  | 0, _, _, h => absurd rfl h
  | n + 1, r, s, h => .rule (impl_rules (env := denoteN G n) (denoteN_suffix n) (fun r s => denoteN_parses n r s) r s h)

end Verif
