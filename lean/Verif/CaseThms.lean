import Verif.LayoutThms
import Verif.InertThms
import Verif.Spec.Case
import Verif.Fwd4
import Verif.TextThms
import Verif.Props.ParseErrors

/-! # Two runs of the recogniser on texts that differ in the case of letters -/

namespace Verif

/-! ## Letters -/

theorem SameLetters.refl (s : Str) : SameLetters s s := rfl
theorem SameLetters.symm {s s' : Str} (h : SameLetters s s') : SameLetters s' s := Eq.symm h

theorem SameLetters.nil_left {s' : Str} (h : SameLetters [] s') : s' = [] := by
  cases s' with
  | nil => rfl
  | cons => cases h

theorem SameLetters.cons_left {c : Char} {t s' : Str} (h : SameLetters (c :: t) s') :
    ∃ c' t', s' = c' :: t' ∧ c.toLower = c'.toLower ∧ SameLetters t t' := by
  cases s' with
  | nil => cases h
  | cons c' t' =>
    have h : c.toLower :: t.map Char.toLower = c'.toLower :: t'.map Char.toLower := h
    injection h with h1 h2
    exact ⟨c', t', rfl, h1, h2⟩

theorem SameLetters.cons {c c' : Char} {t t' : Str} (h : c.toLower = c'.toLower) (ht : SameLetters t t') : SameLetters (c :: t) (c' :: t') := by
  unfold SameLetters at *
  rw [List.map_cons, List.map_cons, h, ht]

theorem SameLetters.append {x x' y y' : Str} (h : SameLetters x x') (h2 : SameLetters y y') : SameLetters (x ++ y) (x' ++ y') := by
  unfold SameLetters at *
  rw [List.map_append, List.map_append, h, h2]

theorem SameLetters.length {x x' : Str} (h : SameLetters x x') : x.length = x'.length := by
  have := congrArg List.length h
  simpa using this

theorem SameLetters.split {x y s' : Str} (h : SameLetters (x ++ y) s') : ∃ x' y', s' = x' ++ y' ∧ SameLetters x x' ∧ SameLetters y y' := by
  induction x generalizing s' with
  | nil => exact ⟨[], s', rfl, rfl, h⟩
  | cons c x ih =>
    obtain ⟨c', t', rfl, hc, ht⟩ := SameLetters.cons_left (t := x ++ y) h
    obtain ⟨x', y', rfl, hx, hy⟩ := ih ht
    exact ⟨c' :: x', y', rfl, .cons hc hx, hy⟩

theorem SameLetters.drop {x x' y y' : Str} (hx : SameLetters x x') (h : SameLetters (x ++ y) (x' ++ y')) : SameLetters y y' := by
  obtain ⟨u, v, e, hu, hv⟩ := h.split
  have : x' = u := List.append_inj_left e (by rw [← hx.length, hu.length])
  subst this
  have := List.append_cancel_left e
  subst this
  exact hv

/-- Characters without case. -/
theorem lower_eq {c c' : Char} (h : c.toLower = c'.toLower) (hc : ¬ ((65 ≤ c.toNat ∧ c.toNat ≤ 90) ∨ (97 ≤ c.toNat ∧ c.toNat ≤ 122))) : c' = c := by
  rw [toLower_of_not_upper (fun h => hc (.inl h))] at h
  by_cases hu : 65 ≤ c'.toNat ∧ c'.toNat ≤ 90
  · have := toLower_upper hu
    rw [← h] at this
    exact absurd (.inr ⟨by omega, by omega⟩) hc
  · rw [toLower_of_not_upper hu] at h; exact h.symm

/-- A property of characters that does not depend on the case of letters. -/
def caseClosed (p : Char → Bool) : Bool := uppers.all fun c => p c == p c.toLower

theorem caseClosed.eq {p : Char → Bool} (h : caseClosed p = true) {c c' : Char} (hc : c.toLower = c'.toLower) : p c = p c' := by
  have key : ∀ c : Char, p c = p c.toLower := by
    intro c
    by_cases hu : 65 ≤ c.toNat ∧ c.toNat ≤ 90
    · have := List.all_eq_true.mp h c (mem_uppers.mpr hu)
      exact eq_of_beq this
    · rw [toLower_of_not_upper hu]
  rw [key c, hc, ← key c']

theorem idTail_lower {c c' : Char} (h : c.toLower = c'.toLower) : IdTail c ↔ IdTail c' := by
  have := caseClosed.eq (p := idF.has) (by decide) h
  rw [← idF_iff, ← idF_iff, this]

theorem alF_iff {c : Char} : alF.has c = true ↔ IdHead c := by
  simp only [alF, CSet.has, List.any_cons, List.any_nil, Bool.or_false, Bool.or_eq_true, Bool.and_eq_true, decide_eq_true_eq]
  exact Iff.rfl

theorem idHead_lower {c c' : Char} (h : c.toLower = c'.toLower) : IdHead c ↔ IdHead c' := by
  have := caseClosed.eq (p := alF.has) (by decide) h
  rw [← alF_iff, ← alF_iff, this]

/-! ## Texts -/

section
variable {s0 t0 : Str}

/-- The rests of the two queries. -/
structure CRel (s0 t0 s s' : Str) : Prop where
  letters : SameLetters s s'
  kept : FixedKept s s'
  left : s <:+ s0
  right : s' <:+ t0
  len : s0.length = t0.length

theorem CRel.symm {s s'} (h : CRel s0 t0 s s') : CRel t0 s0 s' s :=
  ⟨h.letters.symm, fun i => ⟨fun w hw => ((h.kept i).1 w hw).symm, (h.kept i).2.symm⟩, h.right, h.left, h.len.symm⟩

theorem CRel.rest {x x' y y'} (h : CRel s0 t0 (x ++ y) (x' ++ y')) (hx : SameLetters x x') : CRel s0 t0 y y' := by
  refine ⟨hx.drop h.letters, fun i => ?_, (List.suffix_append _ _).trans h.left, (List.suffix_append _ _).trans h.right, h.len⟩
  have d : ∀ (x y : Str), (x ++ y).drop (x.length + i) = y.drop i := fun x y => by rw [← List.drop_drop, List.drop_left]
  have := h.kept (x.length + i)
  rw [d] at this
  rw [hx.length, d] at this
  exact this

theorem CRel.split {x y s'} (h : CRel s0 t0 (x ++ y) s') : ∃ x' y', s' = x' ++ y' ∧ SameLetters x x' ∧ CRel s0 t0 y y' := by
  obtain ⟨x', y', rfl, hx, _⟩ := h.letters.split
  exact ⟨x', y', rfl, hx, h.rest hx⟩

theorem CRel.nil {s'} (h : CRel s0 t0 [] s') : s' = [] := h.letters.nil_left

theorem CRel.cons {c t s'} (h : CRel s0 t0 (c :: t) s') : ∃ c' t', s' = c' :: t' ∧ c.toLower = c'.toLower ∧ CRel s0 t0 t t' := by
  obtain ⟨c', t', rfl, hc, _⟩ := h.letters.cons_left
  exact ⟨c', t', rfl, hc, CRel.rest (x := [c]) (x' := [c']) h (.cons hc rfl)⟩

/-- Fixed keywords. -/
theorem CRel.fixed {w r s'} (h : CRel s0 t0 (w ++ r) s') (hw : w ∈ fixedWords) : ∃ r', s' = w ++ r' ∧ CRel s0 t0 r r' := by
  obtain ⟨r', rfl⟩ := ((h.kept 0).1 w hw).mp (List.prefix_append _ _)
  exact ⟨r', rfl, h.rest rfl⟩

/-- Texts without letters. -/
theorem SameLetters.caseless {x x' : Str} (h : SameLetters x x') (hx : ∀ c ∈ x, ¬ ((65 ≤ c.toNat ∧ c.toNat ≤ 90) ∨ (97 ≤ c.toNat ∧ c.toNat ≤ 122))) : x' = x := by
  induction x generalizing x' with
  | nil => exact h.nil_left
  | cons c x ih =>
    obtain ⟨c', t', rfl, hc, ht⟩ := h.cons_left
    rw [lower_eq hc (hx c (by simp)), ih ht fun d hd => hx d (by simp [hd])]

theorem WS.recase {w : Str} (h : WS w) : ∀ {w'}, SameLetters w w' → WS w' := by
  induction h with
  | nil => intro w' h; rw [h.nil_left]; exact .nil
  | @blank c u hc _ ih =>
    intro w' h
    obtain ⟨c', t', rfl, hl, ht⟩ := h.cons_left
    rw [lower_eq hl (by clear hl h; revert hc; revert c; decide)]
    exact .blank hc (ih ht)
  | @comment o b e u ho hb he _ ih =>
    intro w' h
    obtain ⟨o', y, rfl, h1, h2⟩ := h.split
    obtain ⟨b', z, rfl, h3, h4⟩ := h2.split
    obtain ⟨e', u', rfl, h5, h6⟩ := h4.cons_left
    rw [h1.caseless (by rcases ho with rfl | rfl <;> decide), lower_eq h5 (by rcases he with rfl | rfl <;> decide)]
    refine .comment ho ?_ he (ih h6)
    clear h1 h2 h4 h5 h6 ih h
    induction b generalizing b' with
    | nil => rw [h3.nil_left]; simp
    | cons c b ih =>
      obtain ⟨c', t', rfl, hc, ht⟩ := h3.cons_left
      intro d hd
      rcases List.mem_cons.mp hd with rfl | hd
      · have := hb c (by simp)
        constructor <;> rintro rfl
        · exact this.1 (lower_eq hc.symm (by decide))
        · exact this.2 (lower_eq hc.symm (by decide))
      · exact ih (fun d hd => hb d (by simp [hd])) t' ht d hd

/-- The rests of the two queries begin at the same place. -/
theorem CRel.place {s s'} (h : CRel s0 t0 s s') : ∃ p p', s0 = p ++ s ∧ t0 = p' ++ s' ∧ p.length = p'.length := by
  obtain ⟨p, rfl⟩ := h.left
  obtain ⟨p', rfl⟩ := h.right
  refine ⟨p, p', rfl, rfl, ?_⟩
  have h1 := h.len
  have h2 := h.letters.length
  rw [List.length_append, List.length_append] at h1
  omega

/-- A name in both queries, at the same place. -/
def NameAt (s0 t0 x x' : Str) : Prop :=
  SameLetters x x' ∧ (∀ c ∈ x, IdTail c) ∧
    ∃ p r p' r', s0 = p ++ (x ++ r) ∧ t0 = p' ++ (x' ++ r') ∧ p.length = p'.length ∧ WordEnd r

/-- The body of a string in both queries, at the same place. -/
def StrAt (s0 t0 x x' : Str) : Prop :=
  SameLetters x x' ∧ ∃ q p r p' r', (q = '\'' ∨ q = '"') ∧ s0 = p ++ q :: (x ++ q :: r) ∧ t0 = p' ++ q :: (x' ++ q :: r') ∧ p.length = p'.length

/-! ## Events -/

/-- Actions that use a text exactly as it is written. -/
def exactActs : List Nat := [14, 25, 26, 28, 29]

/-- Corresponding events. -/
inductive CEv (s0 t0 : Str) : List Ev → List Ev → Prop where
  | nil : CEv s0 t0 [] []
  | text {x x'} : SameLetters x x' → CEv s0 t0 [.text x] [.text x']
  | act {k} : k ∉ exactActs → CEv s0 t0 [.act k] [.act k]
  | name {x x'} : NameAt s0 t0 x x' → CEv s0 t0 [.text x, .act 14] [.text x', .act 14]
  | str {x x' k} : k = 28 ∨ k = 29 → StrAt s0 t0 x x' → CEv s0 t0 [.text x, .act k] [.text x', .act k]
  | same {x k} : k = 25 ∨ k = 26 → CEv s0 t0 [.text x, .act k] [.text x, .act k]
  | app {e1 e1' e2 e2'} : CEv s0 t0 e1 e1' → CEv s0 t0 e2 e2' → CEv s0 t0 (e1 ++ e2) (e1' ++ e2')

/-- Corresponding outcomes. -/
def CCorr (s0 t0 s s' : Str) : Option (List Ev × Str) → Option (List Ev × Str) → Prop
  | none, none => True
  | some (ev, r), some (ev', r') => CEv s0 t0 ev ev' ∧ CRel s0 t0 r r' ∧ ∃ y y', s = y ++ r ∧ s' = y' ++ r' ∧ SameLetters y y'
  | _, _ => False

theorem CCorr.none {s s' x'} (h : CCorr s0 t0 s s' none x') : x' = none := by
  cases x' with
  | none => rfl
  | some p => exact h.elim

theorem CCorr.some {s s' ev r x'} (h : CCorr s0 t0 s s' (some (ev, r)) x') :
    ∃ ev' r', x' = some (ev', r') ∧ CEv s0 t0 ev ev' ∧ CRel s0 t0 r r' ∧ ∃ y y', s = y ++ r ∧ s' = y' ++ r' ∧ SameLetters y y' := by
  cases x' with
  | none => exact h.elim
  | some p => exact ⟨p.1, p.2, rfl, h⟩

/-- The two runs of an expression correspond. -/
def CSync (e : PExp) : Prop := ∀ {s0 t0 s s' x}, CRel s0 t0 s s' → Big G e s x → ∃ x', Big G e s' x' ∧ CCorr s0 t0 s s' x x'

/-- It is enough to consider matches. -/
theorem csync_of_ok {e : PExp} (hr : ranked nulG rankG 16 16 e = true)
    (h : ∀ {s0 t0 s s' ev r}, CRel s0 t0 s s' → Ok e s ev r → ∃ ev' r', Ok e s' ev' r' ∧ CCorr s0 t0 s s' (some (ev, r)) (some (ev', r'))) :
    CSync e := by
  intro s0 t0 s s' x hc hb
  cases x with
  | none =>
    obtain ⟨x', hx⟩ := big_exp_total e s' 16 (by omega) hr
    cases x' with
    | none => exact ⟨_, hx, trivial⟩
    | some p =>
      obtain ⟨ev', r', h', _⟩ := h hc.symm hx
      cases Big.det hb h'
  | some p =>
    obtain ⟨ev', r', h', h2⟩ := h hc hb
    exact ⟨_, h', h2⟩

theorem satG_of_ok {e s ev r} (h : Ok e s ev r) : SatG e s ev r := Big.sat (P := Post) (fun _ _ _ _ h _ => post_all h) h _ _ rfl

/-! ## The parts of the grammar that depend on case -/

theorem csync_lit {w : Str} (hr : ranked nulG rankG 16 16 (.lit w) = true) (hw : w ∈ fixedWords) : CSync (.lit w) := by
  refine csync_of_ok hr fun {s0 t0 s s' ev r} hc h => ?_
  obtain ⟨rfl, rfl⟩ := sat_lit (satG_of_ok h)
  obtain ⟨r', rfl, hr'⟩ := hc.fixed hw
  exact ⟨_, _, lit_ok _ _, .nil, hr', w, w, rfl, rfl, rfl⟩

theorem caseTfn_ok {w : Str} (hw : w ∈ [c!"null", c!"true", c!"false"]) (r : Str) : Ok gTfn (w ++ r) [] r := by
  simp only [List.mem_cons, List.not_mem_nil, or_false] at hw
  rcases hw with rfl | rfl | rfl
  · exact .swIn (by decide) (lit_ok c!"null" r)
  · exact .swOut (by decide) (.swOut (by decide) (lit_ok c!"true" r))
  · exact .swOut (by decide) (.swIn (by decide) (lit_ok c!"false" r))

theorem caseTfn_sat {s ev r} (h : SatG gTfn s ev r) : ev = [] ∧ ∃ w ∈ [c!"null", c!"true", c!"false"], s = w ++ r := by
  rcases h with ⟨_, h⟩ | ⟨_, ⟨_, h⟩ | ⟨_, h⟩⟩ <;> obtain ⟨rfl, rfl⟩ := sat_lit h <;> exact ⟨rfl, _, by decide, rfl⟩

theorem caseTfn_fixed {w : Str} (hw : w ∈ [c!"null", c!"true", c!"false"]) : w ∈ fixedWords := by revert hw; revert w; decide

theorem caseTfn_solid {w : Str} (hw : w ∈ [c!"null", c!"true", c!"false"]) (r : Str) : Solid (w ++ r) := by
  simp only [List.mem_cons, List.not_mem_nil, or_false] at hw
  rcases hw with rfl | rfl | rfl <;> rintro _ _ ⟨⟩ <;> rfl

theorem csync_tfn : CSync gTfn := by
  refine csync_of_ok (by decide) fun {s0 t0 s s' ev r} hc h => ?_
  obtain ⟨rfl, w, hw, rfl⟩ := caseTfn_sat (satG_of_ok h)
  obtain ⟨r', rfl, hr'⟩ := hc.fixed (caseTfn_fixed hw)
  exact ⟨_, _, caseTfn_ok hw _, .nil, hr', w, w, rfl, rfl, rfl⟩

theorem csync_null : CSync (.alt (.lit c!"null") (.lit c!"NULL")) := by
  refine csync_of_ok (by decide) fun {s0 t0 s s' ev r} hc h => ?_
  rcases satG_of_ok h with h | ⟨_, h⟩ <;> obtain ⟨rfl, rfl⟩ := sat_lit h <;> obtain ⟨r', rfl, hr'⟩ := hc.fixed (by decide)
  · exact ⟨_, _, .alt1 (lit_ok c!"null" _), .nil, hr', c!"null", c!"null", rfl, rfl, rfl⟩
  · exact ⟨_, _, .alt2 (.seqFail1 (.chrFail (by decide))) (lit_ok c!"NULL" _), .nil, hr', c!"NULL", c!"NULL", rfl, rfl, rfl⟩

theorem csync_boolean : CSync (.call .Boolean) := by
  refine csync_of_ok (by decide) fun {s0 t0 s s' ev r} hc h => ?_
  cases h with
  | call h =>
  obtain ⟨e1, r1, e2, ⟨e3, h3, rfl⟩, ⟨rfl, rfl⟩, rfl⟩ := satG_of_ok h
  have fin : ∀ {w : Str} {r r'}, Ok (.sw ['F'] (.lit c!"FALSE") (.sw ['T'] (.lit c!"TRUE") (.sw ['f'] (.lit c!"false") (.lit c!"true")))) (w ++ r') [] r' →
      CRel s0 t0 r r' → ∃ ev' r1, Ok (.call .Boolean) (w ++ r') ev' r1 ∧
        CCorr s0 t0 (w ++ r) (w ++ r') (some (([] ++ [.text (List.take ((w ++ r).length - r.length) (w ++ r))]) ++ [.act 26], r)) (some (ev', r1)) := by
    intro w r r' h hr
    have := Big.txtOk h
    rw [txt_eq] at this ⊢
    exact ⟨_, _, .call (.seqOk this .act), .same (.inr rfl), hr, w, w, rfl, rfl, rfl⟩
  rcases h3 with ⟨_, h⟩ | ⟨_, ⟨_, h⟩ | ⟨_, ⟨_, h⟩ | ⟨_, h⟩⟩⟩ <;> obtain ⟨rfl, rfl⟩ := sat_lit h <;> obtain ⟨r', rfl, hr'⟩ := hc.fixed (by decide)
  · exact fin (.swIn (by decide) (lit_ok c!"FALSE" _)) hr'
  · exact fin (.swOut (by decide) (.swIn (by decide) (lit_ok c!"TRUE" _))) hr'
  · exact fin (.swOut (by decide) (.swOut (by decide) (.swIn (by decide) (lit_ok c!"false" _)))) hr'
  · exact fin (.swOut (by decide) (.swOut (by decide) (.swOut (by decide) (lit_ok c!"true" _)))) hr'

/-- The sequence `is …`. -/
def gIs : PExp := PExp.seqs [.chr 'i', .chr 's', .call .sp1, gTfn]
/-- The sequence `is not …`. -/
def gIsNot : PExp := PExp.seqs [.chr 'i', .chr 's', .call .sp1, .chr 'n', .chr 'o', .chr 't', .call .sp1, gTfn]

theorem csync_is : CSync gIs := by
  refine csync_of_ok (by decide) fun {s0 t0 s s' ev r} hc h => ?_
  obtain ⟨e1, r1, e2, ⟨rfl, rfl⟩, ⟨e3, r3, e4, ⟨rfl, rfl⟩, ⟨e5, r5, e6, h5, h6, rfl⟩, rfl⟩, rfl⟩ := satG_of_ok h
  obtain ⟨rfl, u, rfl, hu, hne⟩ : PostWS1 _ _ _ := h5
  obtain ⟨rfl, w, hw, rfl⟩ := caseTfn_sat h6
  obtain ⟨r1, rfl, h1⟩ := CRel.fixed (w := c!"is") hc (by decide)
  obtain ⟨u', r2, rfl, hu', h2⟩ := h1.split
  obtain ⟨r', rfl, h3⟩ := h2.fixed (caseTfn_fixed hw)
  have hne' : u' ≠ [] := by rintro rfl; exact hne hu'.symm.nil_left
  refine ⟨_, _, .seqOk .chrOk (.seqOk .chrOk (.seqOk (sp1_ok (w := u') (hu.recase hu') hne' (caseTfn_solid hw r').no) (caseTfn_ok hw _))), .nil, h3,
    c!"is" ++ (u ++ w), c!"is" ++ (u' ++ w), by simp, by simp, ?_⟩
  exact SameLetters.append rfl (hu'.append rfl)

theorem csync_isNot : CSync gIsNot := by
  refine csync_of_ok (by decide) fun {s0 t0 s s' ev r} hc h => ?_
  obtain ⟨e1, r1, e2, ⟨rfl, rfl⟩, ⟨e3, r3, e4, ⟨rfl, rfl⟩, ⟨e5, r5, e6, h5, ⟨e7, r7, e8, ⟨rfl, rfl⟩, ⟨e9, r9, e10, ⟨rfl, rfl⟩,
    ⟨e11, r11, e12, ⟨rfl, rfl⟩, ⟨e13, r13, e14, h13, h14, rfl⟩, rfl⟩, rfl⟩, rfl⟩, rfl⟩, rfl⟩, rfl⟩ := satG_of_ok h
  obtain ⟨rfl, u, rfl, hu, hne⟩ : PostWS1 _ _ _ := h5
  obtain ⟨rfl, v, rfl, hv, hnev⟩ : PostWS1 _ _ _ := h13
  obtain ⟨rfl, w, hw, rfl⟩ := caseTfn_sat h14
  obtain ⟨u2, t2, ⟨hne2, hu2⟩, e⟩ := (hc.kept 0).2.mp ⟨u, v ++ (w ++ r), ⟨hne, hu⟩, rfl⟩
  obtain ⟨r1, rfl, h1⟩ := CRel.fixed (w := c!"is") hc (by decide)
  have e : r1 = u2 ++ (c!"not" ++ t2) := List.append_cancel_left e
  obtain ⟨u', r2, rfl, hu', h2⟩ := h1.split
  obtain ⟨n', r3, rfl, hn', h3⟩ := CRel.split (x := c!"not") (y := v ++ (w ++ r)) h2
  have hs1 : Solid (n' ++ r3) := by
    obtain ⟨a, n1, rfl, ha, _⟩ := SameLetters.cons_left hn'
    rintro _ _ ⟨⟩
    have := caseClosed.eq (p := wsF.has) (by decide) ha
    exact this.symm.trans (by decide)
  have hs2 : Solid (c!"not" ++ t2) := by rintro _ _ ⟨⟩; rfl
  have d := sp_ok hu2 hs2.no
  rw [← e] at d
  have := Big.det d (sp_ok (hu.recase hu') hs1.no)
  simp only [Option.some.injEq, Prod.mk.injEq, true_and] at this
  have hn : n' = c!"not" := (List.append_inj_left this (by rw [← hn'.length])).symm
  subst hn
  obtain ⟨v', r4, rfl, hv', h4⟩ := h3.split
  obtain ⟨r', rfl, h5⟩ := h4.fixed (caseTfn_fixed hw)
  have hne' : u' ≠ [] := by rintro rfl; exact hne hu'.symm.nil_left
  have hnev' : v' ≠ [] := by rintro rfl; exact hnev hv'.symm.nil_left
  refine ⟨_, _, .seqOk .chrOk (.seqOk .chrOk (.seqOk (sp1_ok (w := u') (hu.recase hu') hne' hs1.no) (.seqOk .chrOk (.seqOk .chrOk (.seqOk .chrOk
    (.seqOk (sp1_ok (w := v') (hv.recase hv') hnev' (caseTfn_solid hw r').no) (caseTfn_ok hw _))))))), .nil, h5,
    c!"is" ++ (u ++ (c!"not" ++ (v ++ w))), c!"is" ++ (u' ++ (c!"not" ++ (v' ++ w))), by simp, by simp, ?_⟩
  exact SameLetters.append rfl (hu'.append (SameLetters.append rfl (hv'.append rfl)))

theorem lower_upper {c : Char} (h : 97 ≤ c.toNat ∧ c.toNat ≤ 122) : c.toUpper.toLower = c.toLower := by
  obtain ⟨h1, h2⟩ := h
  obtain ⟨k, hk, hc⟩ : ∃ k : Fin 26, k.val = c.toNat - 97 ∧ c = Char.ofNat (97 + k.val) := by
    refine ⟨⟨c.toNat - 97, by omega⟩, rfl, ?_⟩
    rw [show 97 + (c.toNat - 97) = c.toNat by omega, Char.ofNat_toNat]
  rw [hc]
  clear hc hk h1 h2 c
  revert k; decide

theorem upper_of_lower {c x : Char} (h : 97 ≤ c.toNat ∧ c.toNat ≤ 122) (hx : x.toLower = c) : x = c ∨ x = c.toUpper := by
  by_cases hu : 65 ≤ x.toNat ∧ x.toNat ≤ 90
  · right
    subst hx
    clear h
    have hm := mem_uppers.mpr hu
    clear hu
    revert x; decide
  · left; rw [toLower_of_not_upper hu] at hx; exact hx

theorem CI.letters {w u : Str} (hw : ∀ c ∈ w, 97 ≤ c.toNat ∧ c.toNat ≤ 122) (h : CI w u) : SameLetters w u := by
  induction w generalizing u with
  | nil => cases h; rfl
  | cons c w ih =>
    obtain ⟨x, t, rfl, hx, ht⟩ := h
    refine .cons ?_ (ih (fun d hd => hw d (by simp [hd])) ht)
    rcases hx with rfl | rfl
    · rfl
    · exact (lower_upper (hw c (by simp))).symm

theorem CI.of_letters {w u : Str} (hw : ∀ c ∈ w, 97 ≤ c.toNat ∧ c.toNat ≤ 122) (h : SameLetters w u) : CI w u := by
  induction w generalizing u with
  | nil => exact h.nil_left
  | cons c w ih =>
    obtain ⟨x, t, rfl, hx, ht⟩ := h.cons_left
    refine ⟨x, t, rfl, ?_, ih (fun d hd => hw d (by simp [hd])) ht⟩
    have hc := hw c (by simp)
    rw [toLower_of_not_upper (by omega)] at hx
    exact upper_of_lower hc hx.symm

theorem IdText.recase {u u' : Str} (h : IdText u) (hl : SameLetters u u') : IdText u' := by
  obtain ⟨⟨c, t, rfl, hc, ht⟩, hn⟩ := h
  obtain ⟨c', t', rfl, h1, h2⟩ := hl.cons_left
  refine ⟨⟨c', t', rfl, (idHead_lower h1).mp hc, ?_⟩, ?_⟩
  · clear hn hl
    induction t generalizing t' with
    | nil => rw [h2.nil_left]; simp
    | cons d t ih =>
      obtain ⟨d', t1, rfl, h3, h4⟩ := h2.cons_left
      intro x hx
      rcases List.mem_cons.mp hx with rfl | hx
      · exact (idTail_lower h3).mp (ht d (by simp))
      · exact ih (fun x hx => ht x (by simp [hx])) _ h4 x hx
  · intro a t1 e ha
    rw [e] at hl
    obtain ⟨b, t2, e2, hb, _⟩ := hl.symm.split
    refine hn b t2 e2 (CI.of_letters (by decide) ?_)
    exact Eq.trans (CI.letters (by decide) ha) hb

theorem WordEnd.hd {r : Str} (h : WordEnd r) : Hd idF r := by
  intro c t e
  have := h c t e
  rw [← idF_iff] at this
  simpa using this

theorem csync_identifier : CSync (.call .Identifier) := by
  refine csync_of_ok (by decide) fun {s0 t0 s s' ev r} hc h => ?_
  obtain ⟨u, rfl, hu, _⟩ : Post .Identifier _ _ _ := post_all h
  have hend : WordEnd r := by
    rintro c t rfl hc
    cases h with
    | call h =>
    obtain ⟨e1, r1, e2, ⟨hn, rfl, rfl⟩, ⟨e3, r3, e4, ⟨e5, ⟨e6, r6, e7, h6, ⟨h7, hs⟩, rfl⟩, rfl⟩, ⟨rfl, rfl⟩, rfl⟩, rfl⟩ := satG_of_ok h
    cases Big.det hs (idTail_ok hc)
  cases Big.det h (identifier_ok hu hend.hd)
  obtain ⟨u', r', rfl, hl, hr⟩ := hc.split
  have hend' : WordEnd r' := by
    rintro c t rfl hid
    obtain ⟨c1, t1, rfl, h1, _⟩ := hr.letters.symm.cons_left
    exact hend _ _ rfl ((idTail_lower h1).mp hid)
  refine ⟨_, _, identifier_ok (hu.recase hl) hend'.hd, .name ⟨hl, idText_chars hu, ?_⟩, hr, u, u', rfl, rfl, hl⟩
  obtain ⟨p, p', h1, h2, h3⟩ := hc.place
  exact ⟨p, r, p', r', h1, h2, h3, hend⟩

theorem quote_lower {q c : Char} (hq : q = '\'' ∨ q = '"') (h : q.toLower = c.toLower) : c = q :=
  lower_eq h (by rcases hq with rfl | rfl <;> decide)

theorem quote_free {q : Char} {u u' : Str} (hq : q = '\'' ∨ q = '"') (hu : q ∉ u) (hl : SameLetters u u') : q ∉ u' := by
  induction u generalizing u' with
  | nil => rw [hl.nil_left]; simp
  | cons c u ih =>
    obtain ⟨c', t', rfl, h1, h2⟩ := hl.cons_left
    intro hm
    rcases List.mem_cons.mp hm with rfl | hm
    · exact hu (by rw [← quote_lower hq h1.symm]; simp)
    · exact ih (fun h => hu (by simp [h])) h2 hm

theorem iter_decimals {s ev r} (h : Iter (SatG (.rng '0' '9')) s ev r) : ev = [] ∧ ∃ u, s = u ++ r ∧ ∀ c ∈ u, 48 ≤ c.toNat ∧ c.toNat ≤ 57 := by
  induction h with
  | nil => exact ⟨rfl, [], rfl, by simp⟩
  | cons h _ ih =>
    obtain ⟨rfl, c, rfl, h1, h2⟩ := h
    obtain ⟨rfl, u, rfl, hu⟩ := ih
    refine ⟨rfl, c :: u, rfl, ?_⟩
    intro d hd
    rcases List.mem_cons.mp hd with rfl | hd
    · exact ⟨h1, h2⟩
    · exact hu d hd

theorem csync_string : CSync (.call .String) := by
  refine csync_of_ok (by decide) fun {s0 t0 s s' ev r} hc h => ?_
  have key : ∃ q u, (q = '\'' ∨ q = '"') ∧ q ∉ u ∧ s = q :: (u ++ q :: r) := by
    cases h with
    | call h =>
    rcases satG_of_ok h with h | ⟨_, h⟩ <;>
      obtain ⟨e1, r1, e2, ⟨rfl, rfl⟩, ⟨e3, r3, e4, ⟨e5, ⟨h5, _⟩, rfl⟩, ⟨e6, r6, e7, ⟨rfl, rfl⟩, ⟨rfl, rfl⟩, rfl⟩, rfl⟩, rfl⟩ := h <;>
      obtain ⟨rfl, u, rfl, hu⟩ := iter_strBody h5
    · exact ⟨_, u, .inl rfl, hu, rfl⟩
    · exact ⟨_, u, .inr rfl, hu, rfl⟩
  obtain ⟨q, u, hq, hu, rfl⟩ := key
  obtain ⟨k, hk, hs⟩ := string_ok hq
  cases Big.det h (hs u r hu)
  obtain ⟨p, p', h1, h2, h3⟩ := hc.place
  obtain ⟨q1, s1, rfl, e1, c1⟩ := hc.cons
  have := quote_lower hq e1
  subst this
  obtain ⟨u', s2, rfl, hl, c2⟩ := c1.split
  obtain ⟨q2, r', rfl, e2, c3⟩ := c2.cons
  have := quote_lower hq e2
  subst this
  have hu' : q2 ∉ u' := quote_free hq hu hl
  refine ⟨_, _, hs u' r' hu', .str hk ⟨hl, q2, p, r, p', r', hq, h1, h2, h3⟩, c3, q2 :: (u ++ [q2]), q2 :: (u' ++ [q2]), by simp, by simp, ?_⟩
  exact .cons rfl (hl.append rfl)

theorem csync_integer : CSync (.call .Integer) := by
  refine csync_of_ok (by decide) fun {s0 t0 s s' ev r} hc h => ?_
  have fin : ∀ {u : Str} {r r'}, Ok (.alt (.chr '0') (.seq (.rng '1' '9') (.star (.rng '0' '9')))) (u ++ r') [] r' →
      CRel s0 t0 r r' → ∃ ev' r1, Ok (.call .Integer) (u ++ r') ev' r1 ∧
        CCorr s0 t0 (u ++ r) (u ++ r') (some (([] ++ [.text (List.take ((u ++ r).length - r.length) (u ++ r))]) ++ [.act 25], r)) (some (ev', r1)) := by
    intro w r r' h hr
    have := Big.txtOk h
    rw [txt_eq] at this ⊢
    exact ⟨_, _, .call (.seqOk this .act), .same (.inl rfl), hr, w, w, rfl, rfl, rfl⟩
  cases h with
  | call h =>
  obtain ⟨e1, r1, e2, ⟨e3, h3, rfl⟩, ⟨rfl, rfl⟩, rfl⟩ := satG_of_ok h
  rcases h3 with ⟨rfl, rfl⟩ | ⟨_, e4, r4, e5, ⟨rfl, c, rfl, hc1, hc2⟩, ⟨h5, hs⟩, rfl⟩
  · obtain ⟨c', r', rfl, h1, hr⟩ := hc.cons
    have := lower_eq h1 (by decide)
    subst this
    exact fin (u := c!"0") (.alt1 .chrOk) hr
  · obtain ⟨rfl, u, rfl, hu⟩ := iter_decimals h5
    have hc1 : 49 ≤ c.toNat := hc1
    have hc2 : c.toNat ≤ 57 := hc2
    obtain ⟨v, r', rfl, hl, hr⟩ := CRel.split (x := c :: u) hc
    have : v = c :: u := hl.caseless (by
      intro d hd
      rcases List.mem_cons.mp hd with rfl | hd
      · omega
      · have := hu d hd; omega)
    subst this
    have hs' : No (.rng '0' '9') r' := by
      cases r' with
      | nil => exact .rngNil
      | cons d t =>
        refine .rngFail ?_
        rintro ⟨h1, h2⟩
        have h1 : 48 ≤ d.toNat := h1
        have h2 : d.toNat ≤ 57 := h2
        obtain ⟨d', t', rfl, h3, _⟩ := hr.letters.symm.cons_left
        have := lower_eq h3 (by omega)
        subst this
        cases hs with
        | rngFail h => exact h ⟨h1, h2⟩
    refine fin (u := c :: u) (.alt2 (.chrFail ?_) (.seqOk (.rngOk (lo := '1') (hi := '9') hc1 hc2) (star_chars hs' u fun d hd t => .rngOk (hu d hd).1 (hu d hd).2))) hr
    rintro rfl
    exact absurd hc1 (by decide)

/-! ## The rest of the grammar -/

/-- Expressions that match one character of a class. -/
def classOf : PExp → Option (Char → Bool)
  | .chr c => some fun x => x == c
  | .rng lo hi => some fun x => decide (lo.toNat ≤ x.toNat ∧ x.toNat ≤ hi.toNat)
  | .alt a b =>
    match classOf a, classOf b with
    | some p, some q => some fun x => p x || q x
    | _, _ => none
  | .sw cs a b =>
    match classOf a, classOf b with
    | some p, some q => some fun x => if x ∈ cs then p x else q x
    | _, _ => none
  | _ => none

/-- What such an expression does. -/
def classRes (p : Char → Bool) : Str → Option (List Ev × Str)
  | [] => none
  | c :: t =>
    match p c with
    | true => some ([], t)
    | false => none

theorem classOf_big : ∀ {e p}, classOf e = some p → ∀ s, Big G e s (classRes p s) := by
  intro e
  induction e with
  | chr c =>
    intro p h s
    cases h
    cases s with
    | nil => exact .chrNil
    | cons x t =>
      by_cases hx : x = c
      · subst hx; simp only [classRes, beq_self_eq_true]; exact .chrOk
      · simp only [classRes, beq_eq_false_iff_ne.mpr hx]; exact .chrFail hx
  | rng lo hi =>
    intro p h s
    cases h
    cases s with
    | nil => exact .rngNil
    | cons x t =>
      by_cases hx : lo.toNat ≤ x.toNat ∧ x.toNat ≤ hi.toNat
      · simp only [classRes, decide_eq_true hx]; exact .rngOk hx.1 hx.2
      · simp only [classRes, decide_eq_false hx]; exact .rngFail hx
  | alt a b iha ihb =>
    intro p h s
    simp only [classOf] at h
    split at h
    · rename_i p1 p2 h1 h2
      cases h
      have ha := iha h1 s
      have hb := ihb h2 s
      cases s with
      | nil => exact .alt2 ha hb
      | cons x t =>
        simp only [classRes] at ha hb ⊢
        cases hx : p1 x with
        | true => rw [hx] at ha; simp only [Bool.true_or] at ha ⊢; exact .alt1 ha
        | false => rw [hx] at ha; simp only [Bool.false_or] at ha ⊢; exact .alt2 ha hb
    · cases h
  | sw cs a b iha ihb =>
    intro p h s
    simp only [classOf] at h
    split at h
    · rename_i p1 p2 h1 h2
      cases h
      have ha := iha h1 s
      have hb := ihb h2 s
      cases s with
      | nil => exact .swNil hb
      | cons x t =>
        simp only [classRes] at ha hb ⊢
        by_cases hx : x ∈ cs
        · rw [if_pos hx]; exact .swIn hx ha
        · rw [if_neg hx]; exact .swOut hx hb
    · cases h
  | _ => intro p h; cases h

/-- A class of characters that is closed under case. -/
def classOk (e : PExp) : Bool :=
  match classOf e with
  | some p => caseClosed p
  | none => false

theorem classOk.sync {e : PExp} (h : classOk e = true) : CSync e := by
  unfold classOk at h
  split at h
  · rename_i p hp
    intro s0 t0 s s' x hc hb
    have := Big.det hb (classOf_big hp s)
    subst this
    refine ⟨_, classOf_big hp s', ?_⟩
    cases s with
    | nil => rw [hc.nil]; trivial
    | cons c t =>
      obtain ⟨c', t', rfl, h1, h2⟩ := hc.cons
      simp only [classRes, caseClosed.eq h h1]
      cases p c' with
      | true => exact ⟨.nil, h2, [c], [c'], rfl, rfl, .cons h1 rfl⟩
      | false => trivial
  · cases h

/-- The parts of the grammar treated above. -/
def caseAtoms : List PExp :=
  [.lit c!"between", .lit c!"isnull", .lit c!"notnull", gTfn, gIs, gIsNot, .alt (.lit c!"null") (.lit c!"NULL"), .call .Boolean, .call .Identifier,
   .call .String, .call .Integer]

theorem caseAtoms.sync : ∀ e ∈ caseAtoms, CSync e := by
  intro e he
  simp only [caseAtoms, List.mem_cons, List.not_mem_nil, or_false] at he
  rcases he with rfl | rfl | rfl | rfl | rfl | rfl | rfl | rfl | rfl | rfl | rfl
  · exact csync_lit (by decide) (by decide)
  · exact csync_lit (by decide) (by decide)
  · exact csync_lit (by decide) (by decide)
  · exact csync_tfn
  · exact csync_is
  · exact csync_isNot
  · exact csync_null
  · exact csync_boolean
  · exact csync_identifier
  · exact csync_string
  · exact csync_integer

/-- Treated above, or a class closed under case. -/
def caseDone (e : PExp) : Bool := decide (e ∈ caseAtoms) || classOk e

theorem caseDone.sync {e : PExp} (h : caseDone e = true) : CSync e := by
  rcases Bool.or_eq_true_iff.mp h with h | h
  · exact caseAtoms.sync e (of_decide_eq_true h)
  · exact classOk.sync h

/-- Expressions for which the case of letters does not matter. -/
def caseOk : PExp → Bool
  | .eps => true
  | .any => true
  | .chr c => caseDone (.chr c)
  | .rng lo hi => caseDone (.rng lo hi)
  | .seq a b => caseDone (.seq a b) || (caseOk a && caseOk b)
  | .alt a b => caseDone (.alt a b) || (caseOk a && caseOk b)
  | .star a => caseOk a
  | .opt a => caseOk a
  | .notP a => caseOk a
  | .txt a => caseOk a
  | .act k => decide (k ∉ exactActs)
  | .call r => caseDone (.call r) || decide (r ∉ [Rule.Boolean, .Identifier, .String, .Integer])
  | .sw cs a b => caseDone (.sw cs a b) || (caseClosed (fun x => decide (x ∈ cs)) && (caseOk a && caseOk b))

theorem caseOk_rules : ∀ r, r ∉ [Rule.Boolean, .Identifier, .String, .Integer] → caseOk (G r) = true := by
  intro r h
  cases r <;> first | exact absurd (by decide) h | decide +kernel

/-- The two runs of every expression of the grammar correspond. -/
theorem case_sync {e s x} (h : Big G e s x) : ∀ {s'}, caseOk e = true → CRel s0 t0 s s' → ∃ x', Big G e s' x' ∧ CCorr s0 t0 s s' x x' := by
  have two : ∀ {a b : Bool} {d : Bool}, (d || (a && b)) = true → d = true ∨ (a = true ∧ b = true) := by
    intro a b d h
    rcases Bool.or_eq_true_iff.mp h with h | h
    · exact .inl h
    · exact .inr (Bool.and_eq_true_iff.mp h)
  induction h with
  | eps => intro s' _ hc; exact ⟨_, .eps, .nil, hc, [], [], rfl, rfl, rfl⟩
  | anyOk =>
    intro s' _ hc
    obtain ⟨c', t', rfl, h1, h2⟩ := hc.cons
    exact ⟨_, .anyOk, .nil, h2, [_], [c'], rfl, rfl, .cons h1 rfl⟩
  | anyFail => intro s' _ hc; rw [hc.nil]; exact ⟨_, .anyFail, trivial⟩
  | chrOk => intro s' ho hc; exact caseDone.sync ho hc .chrOk
  | chrNil => intro s' ho hc; exact caseDone.sync ho hc .chrNil
  | chrFail h => intro s' ho hc; exact caseDone.sync ho hc (.chrFail h)
  | rngOk h1 h2 => intro s' ho hc; exact caseDone.sync ho hc (.rngOk h1 h2)
  | rngNil => intro s' ho hc; exact caseDone.sync ho hc .rngNil
  | rngFail h => intro s' ho hc; exact caseDone.sync ho hc (.rngFail h)
  | seqOk h1 h2 ih1 ih2 =>
    intro s' ho hc
    rcases two ho with ho | ⟨ha, hb⟩
    · exact caseDone.sync ho hc (.seqOk h1 h2)
    obtain ⟨x1, b1, c1⟩ := ih1 ha hc
    obtain ⟨ev1, r1, rfl, e1, l1, y1, y1', rfl, rfl, hy1⟩ := c1.some
    obtain ⟨x2, b2, c2⟩ := ih2 hb l1
    obtain ⟨ev2, r2, rfl, e2, l2, y2, y2', rfl, rfl, hy2⟩ := c2.some
    exact ⟨_, .seqOk b1 b2, .app e1 e2, l2, y1 ++ y2, y1' ++ y2', by simp, by simp, hy1.append hy2⟩
  | seqFail1 h1 ih1 =>
    intro s' ho hc
    rcases two ho with ho | ⟨ha, hb⟩
    · exact caseDone.sync ho hc (.seqFail1 h1)
    obtain ⟨x1, b1, c1⟩ := ih1 ha hc
    have := c1.none
    subst this
    exact ⟨_, .seqFail1 b1, trivial⟩
  | seqFail2 h1 h2 ih1 ih2 =>
    intro s' ho hc
    rcases two ho with ho | ⟨ha, hb⟩
    · exact caseDone.sync ho hc (.seqFail2 h1 h2)
    obtain ⟨x1, b1, c1⟩ := ih1 ha hc
    obtain ⟨ev1, r1, rfl, e1, l1, _⟩ := c1.some
    obtain ⟨x2, b2, c2⟩ := ih2 hb l1
    have := c2.none
    subst this
    exact ⟨_, .seqFail2 b1 b2, trivial⟩
  | @alt1 a b s x h1 ih1 =>
    intro s' ho hc
    rcases two ho with ho | ⟨ha, hb⟩
    · exact caseDone.sync ho hc (.alt1 h1)
    obtain ⟨x1, b1, c1⟩ := ih1 ha hc
    obtain ⟨ev, r⟩ := x
    obtain ⟨ev1, r1, rfl, _⟩ := c1.some
    exact ⟨_, .alt1 b1, c1⟩
  | alt2 h1 h2 ih1 ih2 =>
    intro s' ho hc
    rcases two ho with ho | ⟨ha, hb⟩
    · exact caseDone.sync ho hc (.alt2 h1 h2)
    obtain ⟨x1, b1, c1⟩ := ih1 ha hc
    have := c1.none
    subst this
    obtain ⟨x2, b2, c2⟩ := ih2 hb hc
    exact ⟨_, .alt2 b1 b2, c2⟩
  | starNil h1 ih1 =>
    intro s' ho hc
    obtain ⟨x1, b1, c1⟩ := ih1 ho hc
    have := c1.none
    subst this
    exact ⟨_, .starNil b1, .nil, hc, [], [], rfl, rfl, rfl⟩
  | starCons h1 h2 ih1 ih2 =>
    intro s' ho hc
    obtain ⟨x1, b1, c1⟩ := ih1 ho hc
    obtain ⟨ev1, r1, rfl, e1, l1, y1, y1', rfl, rfl, hy1⟩ := c1.some
    obtain ⟨x2, b2, c2⟩ := ih2 ho l1
    obtain ⟨ev2, r2, rfl, e2, l2, y2, y2', rfl, rfl, hy2⟩ := c2.some
    exact ⟨_, .starCons b1 b2, .app e1 e2, l2, y1 ++ y2, y1' ++ y2', by simp, by simp, hy1.append hy2⟩
  | @optSome a s x h1 ih1 =>
    intro s' ho hc
    obtain ⟨x1, b1, c1⟩ := ih1 ho hc
    obtain ⟨ev, r⟩ := x
    obtain ⟨ev1, r1, rfl, _⟩ := c1.some
    exact ⟨_, .optSome b1, c1⟩
  | optNone h1 ih1 =>
    intro s' ho hc
    obtain ⟨x1, b1, c1⟩ := ih1 ho hc
    have := c1.none
    subst this
    exact ⟨_, .optNone b1, .nil, hc, [], [], rfl, rfl, rfl⟩
  | @notFail a s x h1 ih1 =>
    intro s' ho hc
    obtain ⟨x1, b1, c1⟩ := ih1 ho hc
    obtain ⟨ev, r⟩ := x
    obtain ⟨ev1, r1, rfl, _⟩ := c1.some
    exact ⟨_, .notFail b1, trivial⟩
  | notOk h1 ih1 =>
    intro s' ho hc
    obtain ⟨x1, b1, c1⟩ := ih1 ho hc
    have := c1.none
    subst this
    exact ⟨_, .notOk b1, .nil, hc, [], [], rfl, rfl, rfl⟩
  | @call r s x h1 ih1 =>
    intro s' ho hc
    rcases Bool.or_eq_true_iff.mp ho with ho | ho
    · exact caseDone.sync ho hc (.call h1)
    obtain ⟨x1, b1, c1⟩ := ih1 (caseOk_rules r (of_decide_eq_true ho)) hc
    exact ⟨_, .call b1, c1⟩
  | txtOk h1 ih1 =>
    intro s' ho hc
    obtain ⟨x1, b1, c1⟩ := ih1 ho hc
    obtain ⟨ev1, r1, rfl, e1, l1, y1, y1', rfl, rfl, hy1⟩ := c1.some
    have h2 := Big.txtOk b1
    rw [txt_eq] at h2 ⊢
    exact ⟨_, h2, .app e1 (.text hy1), l1, y1, y1', rfl, rfl, hy1⟩
  | txtFail h1 ih1 =>
    intro s' ho hc
    obtain ⟨x1, b1, c1⟩ := ih1 ho hc
    have := c1.none
    subst this
    exact ⟨_, .txtFail b1, trivial⟩
  | act => intro s' ho hc; exact ⟨_, .act, .act (of_decide_eq_true ho), hc, [], [], rfl, rfl, rfl⟩
  | @swIn cs a b c s x hi h1 ih1 =>
    intro s' ho hc
    rcases two ho with ho | ⟨hcs, hab⟩
    · exact caseDone.sync ho hc (.swIn hi h1)
    obtain ⟨x1, b1, c1⟩ := ih1 (Bool.and_eq_true_iff.mp hab).1 hc
    obtain ⟨c', t', rfl, h2, _⟩ := hc.cons
    have := caseClosed.eq hcs h2
    have hi' : c' ∈ cs := by simpa [hi] using this
    exact ⟨_, .swIn hi' b1, c1⟩
  | @swOut cs a b c s x hi h1 ih1 =>
    intro s' ho hc
    rcases two ho with ho | ⟨hcs, hab⟩
    · exact caseDone.sync ho hc (.swOut hi h1)
    obtain ⟨x1, b1, c1⟩ := ih1 (Bool.and_eq_true_iff.mp hab).2 hc
    obtain ⟨c', t', rfl, h2, _⟩ := hc.cons
    have := caseClosed.eq hcs h2
    have hi' : c' ∉ cs := by simpa [hi] using this
    exact ⟨_, .swOut hi' b1, c1⟩
  | @swNil cs a b x h1 ih1 =>
    intro s' ho hc
    rcases two ho with ho | ⟨hcs, hab⟩
    · exact caseDone.sync ho hc (.swNil h1)
    obtain ⟨x1, b1, c1⟩ := ih1 (Bool.and_eq_true_iff.mp hab).2 hc
    have := hc.nil
    subst this
    exact ⟨_, .swNil b1, c1⟩

/-! ## The trees -/

variable {N S : Str → Str → Prop}

/-- Related stacks. -/
structure XRel (N S : Str → Str → Prop) (t t' : Tree) : Prop where
  stack : SameTextsL N S t.stack t'.stack
  errors : t.errors = t'.errors
  marks : t.marks = t'.marks

theorem XRel.push {t t'} (h : XRel N S t t') {n n'} (hn : SameTexts N S n n') : XRel N S (t.push n) (t'.push n') :=
  ⟨.cons hn h.stack, h.errors, h.marks⟩

theorem XRel.pop {t t'} (h : XRel N S t t') : SameTexts N S t.pop.1 t'.pop.1 ∧ XRel N S t.pop.2 t'.pop.2 := by
  obtain ⟨st, es, ms⟩ := t
  obtain ⟨st', es', ms'⟩ := t'
  obtain ⟨h1, h2, h3⟩ := h
  cases h1 with
  | nil => exact ⟨.nil, .nil, h2, h3⟩
  | cons a b => exact ⟨a, b, h2, h3⟩

theorem XRel.addError {t t'} (h : XRel N S t t') (e : Option Err) : XRel N S (t.addError e) (t'.addError e) := by
  cases e with
  | none => exact h
  | some e => exact ⟨h.stack, by simp only [Tree.addError, h.errors], h.marks⟩

theorem SameTextsL.length {l l'} (h : SameTextsL N S l l') : l.length = l'.length := by
  induction l generalizing l' with
  | nil => cases h; rfl
  | cons n l ih => cases h with | cons h1 h2 => simp [ih h2]

theorem SameTextsL.append {l l' k k'} (h : SameTextsL N S l l') (hk : SameTextsL N S k k') : SameTextsL N S (l ++ k) (l' ++ k') := by
  induction l generalizing l' with
  | nil => cases h; exact hk
  | cons n l ih => cases h with | cons h1 h2 => exact .cons h1 (ih h2)

theorem SameTextsL.reverse {l l'} (h : SameTextsL N S l l') : SameTextsL N S l.reverse l'.reverse := by
  induction l generalizing l' with
  | nil => cases h; exact .nil
  | cons n l ih =>
    cases h with
    | cons h1 h2 => rw [List.reverse_cons, List.reverse_cons]; exact (ih h2).append (.cons h1 .nil)

theorem SameTextsL.take {l l'} (h : SameTextsL N S l l') (k : Nat) : SameTextsL N S (l.take k) (l'.take k) := by
  induction l generalizing l' k with
  | nil => cases h; simp only [List.take_nil]; exact .nil
  | cons n l ih =>
    cases h with
    | cons h1 h2 =>
      cases k with
      | zero => exact .nil
      | succ k => exact .cons h1 (ih h2 k)

theorem SameTextsL.drop {l l'} (h : SameTextsL N S l l') (k : Nat) : SameTextsL N S (l.drop k) (l'.drop k) := by
  induction l generalizing l' k with
  | nil => cases h; simp only [List.drop_nil]; exact .nil
  | cons n l ih =>
    cases h with
    | cons h1 h2 =>
      cases k with
      | zero => exact .cons h1 h2
      | succ k => exact ih h2 k

theorem XRel.addMark {t t'} (h : XRel N S t t') : XRel N S t.addMark t'.addMark :=
  ⟨h.stack, h.errors, by simp only [Tree.addMark, h.stack.length, h.marks]⟩

theorem XRel.popMarked {t t'} (h : XRel N S t t') :
    ORel (fun x y => SameTextsL N S x.1 y.1 ∧ XRel N S x.2 y.2) t.popMarked t'.popMarked := by
  obtain ⟨st, es, ms⟩ := t
  obtain ⟨st', es', ms'⟩ := t'
  obtain ⟨h1, h2, h3⟩ := h
  simp only at h1 h2 h3
  subst h2 h3
  cases ms with
  | nil => trivial
  | cons k ms =>
    simp only [Tree.popMarked, h1.length]
    split
    · trivial
    · exact ⟨(h1.take _).reverse, h1.drop _, rfl, rfl⟩

theorem SameTexts.nodeName (h0 : N [] []) {n n'} (h : SameTexts N S n n') : ORel N (Tree.nodeName n) (Tree.nodeName n') := by
  cases h <;> first | exact trivial | exact h0 | assumption

theorem SameTextsL.names (h0 : N [] []) {l l'} (h : SameTextsL N S l l') : ORel (EachText N) (l.mapM Tree.nodeName) (l'.mapM Tree.nodeName) := by
  induction l generalizing l' with
  | nil => cases h; exact .nil
  | cons n l ih =>
    cases h with
    | @cons _ m _ l' h1 h2 =>
      have e1 := h1.nodeName h0
      have e2 := ih h2
      rw [List.mapM_cons, List.mapM_cons]
      revert e1 e2
      cases Tree.nodeName n with
      | none =>
        cases Tree.nodeName m with
        | none => exact fun _ _ => trivial
        | some y => exact fun h => h.elim
      | some x =>
        cases Tree.nodeName m with
        | none => exact fun h => h.elim
        | some y =>
          cases l.mapM Tree.nodeName with
          | none =>
            cases l'.mapM Tree.nodeName with
            | none => exact fun _ _ => trivial
            | some y => exact fun _ h => h.elim
          | some a =>
            cases l'.mapM Tree.nodeName with
            | none => exact fun _ h => h.elim
            | some b => exact fun h1 h2 => EachText.cons h1 h2

theorem XRel.popArray {t t'} (h : XRel N S t t') : ORel (XRel N S) t.popArray t'.popArray := by
  have := h.popMarked
  revert this
  unfold Tree.popArray
  cases t.popMarked with
  | none => cases t'.popMarked <;> exact fun h => h
  | some x =>
    cases t'.popMarked with
    | none => exact fun h => h
    | some y => exact fun h => h.2.push (.arr h.1)

theorem XRel.popRef (h0 : N [] []) {t t'} (h : XRel N S t t') : ORel (XRel N S) t.popIdentifierReference t'.popIdentifierReference := by
  have := h.popMarked
  revert this
  unfold Tree.popIdentifierReference
  cases t.popMarked with
  | none =>
    cases t'.popMarked with
    | none => exact fun _ => trivial
    | some y => exact fun h => h.elim
  | some x =>
    cases t'.popMarked with
    | none => exact fun h => h.elim
    | some y =>
      intro h
      have e := h.1.names h0
      revert e
      simp only
      cases x.1.mapM Tree.nodeName with
      | none =>
        cases y.1.mapM Tree.nodeName with
        | none => exact fun _ => trivial
        | some l => exact fun h => h.elim
      | some l =>
        cases y.1.mapM Tree.nodeName with
        | none => exact fun h => h.elim
        | some l' => exact fun e => h.2.push (.ref e)

theorem XRel.popFunction {t t'} (h : XRel N S t t') : XRel N S t.popFunction t'.popFunction := by
  have h1 := h.pop
  have h2 := h1.2.pop
  unfold Tree.popFunction
  simp only
  revert h1 h2
  generalize t.pop.2.pop.1 = a, t'.pop.2.pop.1 = a', t.pop.1 = b, t'.pop.1 = b'
  rintro ⟨h1, -⟩ ⟨h2, h3⟩
  have err := h3.addError (some .badFunction)
  cases h2 with
  | ident hx =>
    cases h1 with
    | arr hl => exact h3.push (.func hx hl)
    | _ => exact err
  | _ => exact err

/-- The case of the letters of an operator does not matter. -/
theorem normOp_letters {x x' : Str} (h : SameLetters x x') : normOp x = normOp x' := by
  have drop : ∀ {x x' : Str}, SameLetters x x' → SameLetters (x.dropWhile goIsSpace) (x'.dropWhile goIsSpace) := by
    intro x
    induction x with
    | nil => intro x' h; rw [h.nil_left]; rfl
    | cons c t ih =>
      intro x' h
      obtain ⟨c', t', rfl, h1, h2⟩ := h.cons_left
      rw [List.dropWhile_cons, List.dropWhile_cons, ← goIsSpace_toLower c, h1, goIsSpace_toLower]
      split
      · exact ih h2
      · exact .cons h1 h2
  have rev : ∀ {x x' : Str}, SameLetters x x' → SameLetters x.reverse x'.reverse := by
    intro x x' h
    unfold SameLetters at *
    rw [List.map_reverse, List.map_reverse, h]
  have low : ∀ {x x' : Str}, SameLetters x x' → goLower x = goLower x' := by
    have e : ∀ x : Str, goLower x = (x.map Char.toLower).map lowerChar := by
      intro x
      unfold goLower
      rw [List.map_map]
      refine List.map_congr_left fun c _ => ?_
      show lowerChar c = lowerChar c.toLower
      unfold lowerChar
      by_cases hu : 65 ≤ c.toNat ∧ c.toNat ≤ 90
      · rw [if_pos (by omega), if_pos (by rw [toLower_upper hu]; omega), toLower_idem]
      · simp only [toLower_of_not_upper hu]
    intro x x' h
    rw [e, e, h]
  have h1 : goLower (goTrim x) = goLower (goTrim x') := low (rev (drop (rev (drop h))))
  unfold normOp
  simp only [h1]

theorem case_act (h0 : N [] []) {k : Nat} (hk : k ∉ exactActs) {x x' : Str} (hx : SameLetters x x') {t t' : Tree} (h : XRel N S t t') :
    ORel (XRel N S) (runAct k x t) (runAct k x' t') := by
  have hop : ORel (XRel N S) (some (t.addOperation x)) (some (t'.addOperation x')) := by
    unfold Tree.addOperation
    rw [normOp_letters hx]
    exact h.push .op
  have cmp : ORel (XRel N S) (some t.popCompare) (some t'.popCompare) :=
    h.pop.2.pop.2.pop.2.push (.cmp h.pop.2.pop.2.pop.1 h.pop.2.pop.1 h.pop.1)
  unfold runAct
  split
  · exact h.pop.2.pop.2.pop.2.push (.logic h.pop.2.pop.2.pop.1 h.pop.2.pop.1 h.pop.1)
  · exact h.pop.2.push (.not h.pop.1)
  · exact cmp
  · exact hop
  · exact cmp
  · exact h.pop.2.pop.2.push (.pred h.pop.2.pop.1 h.pop.1)
  · exact hop
  · exact h.pop.2.pop.2.pop.2.pop.2.push (.between h.pop.2.pop.2.pop.2.pop.1 h.pop.2.pop.2.pop.1 h.pop.2.pop.1 h.pop.1)
  · exact h.pop.2.push (.paren h.pop.1)
  · exact h.popFunction
  · exact h.addMark
  · exact h.popArray
  · exact h.addMark
  · exact h.popRef h0
  · exact absurd (by decide) hk
  · exact hop
  · exact hop
  · exact hop
  · exact hop
  · exact hop
  · exact hop
  · exact h.addMark
  · exact h.popArray
  · exact h.addMark
  · exact h.popArray
  · exact absurd (by decide) hk
  · exact absurd (by decide) hk
  · exact h.push .null
  · exact absurd (by decide) hk
  · exact absurd (by decide) hk
  · exact h

/-- The registers and stacks of the two runs. -/
def YRel (N S : Str → Str → Prop) (x y : Str × Tree) : Prop := SameLetters x.1 y.1 ∧ XRel N S x.2 y.2

theorem case_run (h0 : N [] []) (hN : ∀ x x', NameAt s0 t0 x x' → N x x') (hS : ∀ x x', StrAt s0 t0 x x' → S x x') {ev ev'} (h : CEv s0 t0 ev ev') :
    ∀ {x t x' t'}, YRel N S (x, t) (x', t') → ORel (YRel N S) (runX x ev t) (runX x' ev' t') := by
  induction h with
  | nil => exact fun h => h
  | text hx => exact fun h => ⟨hx, h.2⟩
  | @act k hk =>
    intro x t x' t' h
    have := case_act h0 hk h.1 h.2
    revert this
    simp only [runX]
    cases runAct k x t with
    | none => cases runAct k x' t' <;> exact fun h => h
    | some a =>
      cases runAct k x' t' with
      | none => exact fun h => h
      | some b => exact fun e => ⟨h.1, e⟩
  | name hx => exact fun h => ⟨hx.1, h.2.push (.ident (hN _ _ hx))⟩
  | str hk hx =>
    intro x t x' t' h
    rcases hk with rfl | rfl
    · exact ⟨hx.1, h.2.push (.str (hS _ _ hx))⟩
    · exact ⟨hx.1, h.2.push (.str (hS _ _ hx))⟩
  | same hk =>
    intro x t x' t' h
    rcases hk with rfl | rfl
    · exact ⟨rfl, (h.2.addError _).push .int⟩
    · exact ⟨rfl, (h.2.addError _).push .bool⟩
  | app h1 h2 ih1 ih2 =>
    intro x t x' t' h
    have := ih1 h
    rw [runX_append, runX_append]
    revert this
    cases runX x _ t with
    | none =>
      cases runX x' _ t' with
      | none => exact fun _ => trivial
      | some y => exact fun h => h.elim
    | some y =>
      cases runX x' _ t' with
      | none => exact fun h => h.elim
      | some y' => exact fun h => ih2 h

end

end Verif
