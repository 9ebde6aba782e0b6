import Verif.LayoutThms
import Verif.Spec.Inert
import Verif.Props.Structure
import Verif.Props.Parse

/-! # Layout does not matter (C63, C64, C74) -/

namespace Verif

/-! ## Operator names and separators -/

theorem blank_space {c : Char} (h : c ∈ blanks) : goIsSpace c = true ∧ reSpace c = true ∧ lowerChar c = c := by
  simp [blanks] at h
  rcases h with rfl | rfl | rfl | rfl <;> decide

/-- Both are blanks without comments. -/
def BlankRuns (w w' : Str) : Prop := BlankRun w ∧ BlankRun w'

theorem Respaced.dropSpace {t t'} (h : Respaced BlankRuns t t') : Respaced BlankRuns (t.dropWhile goIsSpace) (t'.dropWhile goIsSpace) := by
  have all : ∀ {w : Str}, (∀ c ∈ w, c ∈ blanks) → ∀ s, (w ++ s).dropWhile goIsSpace = s.dropWhile goIsSpace := by
    intro w hw s
    induction w with
    | nil => rfl
    | cons c w ih =>
      rw [List.cons_append, List.dropWhile_cons, (blank_space (hw c (by simp))).1]
      exact ih fun d hd => hw d (by simp [hd])
  induction h with
  | nil => exact .nil
  | @char c s s' h ih =>
    rw [List.dropWhile_cons, List.dropWhile_cons]
    split
    · exact ih
    · exact .char h
  | sep h _ ih => obtain ⟨h1, h2⟩ := h; rw [all h1.2, all h2.2]; exact ih

theorem Respaced.reverse {t t'} (h : Respaced BlankRuns t t') : Respaced BlankRuns t.reverse t'.reverse := by
  induction h with
  | nil => exact .nil
  | char _ ih => rw [List.reverse_cons, List.reverse_cons]; exact ih.append (.char .nil)
  | @sep w w' s s' h _ ih =>
    obtain ⟨h1, h2⟩ := h
    rw [List.reverse_append, List.reverse_append]
    have := Respaced.sep (B := BlankRuns) (w := w.reverse) (w' := w'.reverse) ⟨⟨by simp [h1.1], by simpa using h1.2⟩, ⟨by simp [h2.1], by simpa using h2.2⟩⟩ .nil
    simp only [List.append_nil] at this
    exact ih.append this

theorem Respaced.lower {t t'} (h : Respaced BlankRuns t t') : Respaced BlankRuns (goLower t) (goLower t') := by
  have same : ∀ {w : Str}, BlankRun w → goLower w = w := by
    intro w h
    unfold goLower
    conv => rhs; rw [← List.map_id w]
    exact List.map_congr_left fun c hc => (blank_space (h.2 c hc)).2.2
  induction h with
  | nil => exact .nil
  | char _ ih => exact .char ih
  | sep h _ ih =>
    rw [goLower_append, goLower_append, same h.1, same h.2]
    exact .sep h ih

theorem squeeze_skip {w : Str} (h : ∀ c ∈ w, c ∈ blanks) (s : Str) : squeeze true (w ++ s) = squeeze true s := by
  induction w with
  | nil => rfl
  | cons c w ih =>
    rw [List.cons_append, squeeze, if_pos (blank_space (h c (by simp))).2.1, if_pos rfl]
    exact ih fun d hd => h d (by simp [hd])

theorem Respaced.squeeze_eq {t t'} (h : Respaced BlankRuns t t') : ∀ b, squeeze b t = squeeze b t' := by
  have one : ∀ {w : Str}, BlankRun w → ∀ b s, squeeze b (w ++ s) = (if b then [] else [' ']) ++ squeeze true s := by
    rintro w ⟨hne, hw⟩ b s
    cases w with
    | nil => exact absurd rfl hne
    | cons c w =>
      rw [List.cons_append, squeeze, if_pos (blank_space (hw c (by simp))).2.1, squeeze_skip fun d hd => hw d (by simp [hd])]
      cases b <;> rfl
  induction h with
  | nil => intro b; rfl
  | char _ ih =>
    intro b
    rw [squeeze, squeeze, ih true, ih false]
  | sep h _ ih => intro b; rw [one h.1, one h.2, ih true]

/-- Blanks inside an operator do not matter. -/
theorem normOp_respaced {t t'} (h : Respaced BlankRuns t t') : normOp t = normOp t' := by
  have h1 := h.dropSpace.reverse.dropSpace.reverse
  have h2 : squeeze false (goLower (goTrim t)) = squeeze false (goLower (goTrim t')) := h1.lower.squeeze_eq false
  unfold normOp
  simp only [h2]

theorem mem_normOp {c : Char} {t : Str} (hc : c = '-' ∨ c = '/') (h : c ∈ t) : c ∈ normOp t := by
  have f1 : goIsSpace c = false ∧ reSpace c = false ∧ lowerChar c = c := by rcases hc with rfl | rfl <;> decide
  have drop : ∀ s : Str, c ∈ s → c ∈ s.dropWhile goIsSpace := by
    intro s hs
    induction s with
    | nil => exact hs
    | cons d s ih =>
      rw [List.dropWhile_cons]
      split
      · rename_i hd
        rcases List.mem_cons.mp hs with rfl | hs
        · rw [f1.1] at hd; cases hd
        · exact ih hs
      · exact hs
  have sq : ∀ (s : Str) b, c ∈ s → c ∈ squeeze b s := by
    intro s
    induction s with
    | nil => exact fun _ h => h
    | cons d s ih =>
      intro b hs
      rw [squeeze]
      rcases List.mem_cons.mp hs with rfl | hs
      · rw [if_neg (by simp [f1.2.1])]; exact List.mem_cons_self
      · split
        · split
          · exact ih _ hs
          · exact List.mem_cons_of_mem _ (ih _ hs)
        · exact List.mem_cons_of_mem _ (ih _ hs)
  have h1 : c ∈ goTrim t := by
    have := drop _ (by simpa using drop t h : c ∈ (t.dropWhile goIsSpace).reverse)
    simpa [goTrim] using this
  have h2 : c ∈ goLower (goTrim t) := by
    have := List.mem_map_of_mem (f := lowerChar) h1
    rwa [f1.2.2] at this
  have h3 := sq _ false h2
  unfold normOp
  simp only
  split
  · rename_i v hv
    have : ∀ x ∈ normTable, c ∉ x.1 := by rcases hc with rfl | rfl <;> decide
    have key : ∀ {l : List (Str × Str)} {k w}, l.lookup k = some w → ∃ x ∈ l, x.1 = k := by
      intro l k w hl
      induction l with
      | nil => cases hl
      | cons a l ih =>
        rw [List.lookup_cons] at hl
        split at hl
        · rename_i he
          exact ⟨a, by simp, (beq_iff_eq.mp he).symm⟩
        · obtain ⟨x, hx, he⟩ := ih hl
          exact ⟨x, by simp [hx], he⟩
    obtain ⟨x, hx, he⟩ := key hv
    exact absurd (he ▸ h3) (this x hx)
  · exact h3

theorem Respaced.plain {t t'} (h : Respaced BlankSep t t') : Respaced BlankRuns t t' := by
  induction h with
  | nil => exact .nil
  | char _ ih => exact .char ih
  | sep h _ ih =>
    rcases h with h | ⟨_, rfl⟩
    · exact .sep h ih
    · exact (Respaced.refl _).append ih

theorem OpsOf.plain {o o'} (h : OpsOf BlankSep o o') : o = o' := by
  obtain ⟨t, t', h, rfl, rfl⟩ := h
  exact normOp_respaced h.plain

theorem OpsOf.clean {o o'} (h : OpsOf Seps o o') (h1 : '-' ∉ o ∧ '/' ∉ o) (h2 : '-' ∉ o' ∧ '/' ∉ o') : o = o' := by
  obtain ⟨t, t', h, rfl, rfl⟩ := h
  have n1 : '-' ∉ t ∧ '/' ∉ t := ⟨fun h => h1.1 (mem_normOp (.inl rfl) h), fun h => h1.2 (mem_normOp (.inr rfl) h)⟩
  have n2 : '-' ∉ t' ∧ '/' ∉ t' := ⟨fun h => h2.1 (mem_normOp (.inl rfl) h), fun h => h2.2 (mem_normOp (.inr rfl) h)⟩
  clear h1 h2
  refine normOp_respaced ?_
  have plain : ∀ {w : Str}, WS1 w → '-' ∉ w ∧ '/' ∉ w → BlankRun w := by
    rintro w ⟨hne, hw⟩ hn
    refine ⟨hne, ?_⟩
    clear hne
    induction hw with
    | nil => simp
    | blank hc _ ih =>
      intro d hd
      rcases List.mem_cons.mp hd with rfl | hd
      · exact hc
      · exact ih ⟨fun h => hn.1 (by simp [h]), fun h => hn.2 (by simp [h])⟩ d hd
    | comment ho _ _ _ _ => rcases ho with rfl | rfl <;> simp at hn
  induction h with
  | nil => exact .nil
  | char _ ih => exact .char (ih ⟨fun h => n1.1 (by simp [h]), fun h => n1.2 (by simp [h])⟩ ⟨fun h => n2.1 (by simp [h]), fun h => n2.2 (by simp [h])⟩)
  | sep a _ ih =>
    obtain ⟨a, b⟩ := a
    exact .sep ⟨plain a ⟨fun h => n1.1 (by simp [h]), fun h => n1.2 (by simp [h])⟩, plain b ⟨fun h => n2.1 (by simp [h]), fun h => n2.2 (by simp [h])⟩⟩
      (ih ⟨fun h => n1.1 (by simp [h]), fun h => n1.2 (by simp [h])⟩ ⟨fun h => n2.1 (by simp [h]), fun h => n2.2 (by simp [h])⟩)

/-! ## Trees -/

mutual
theorem SameOps.eq {R : Str → Str → Prop} : ∀ {n n'}, SameOps R n n' → (∀ o ∈ opsOf n, ∀ o' ∈ opsOf n', R o o' → o = o') → n = n'
  | _, _, .nil, _ => rfl
  | _, _, .op h, hr => by rw [hr _ (by simp [opsOf]) _ (by simp [opsOf]) h]
  | _, _, .int, _ => rfl
  | _, _, .bool, _ => rfl
  | _, _, .str, _ => rfl
  | _, _, .null, _ => rfl
  | _, _, .arr h, hr => by rw [SameOpsL.eq h hr]
  | _, _, .ident, _ => rfl
  | _, _, .ref, _ => rfl
  | _, _, .paren h, hr => by rw [SameOps.eq h hr]
  | _, _, .not h, hr => by rw [SameOps.eq h hr]
  | _, _, .func h, hr => by rw [SameOpsL.eq h hr]
  | _, _, .between h1 h2 h3 h4, hr => by
    rw [SameOps.eq h1 fun o ho o' ho' => hr o (by simp [opsOf, ho]) o' (by simp [opsOf, ho']),
      SameOps.eq h2 fun o ho o' ho' => hr o (by simp [opsOf, ho]) o' (by simp [opsOf, ho']),
      SameOps.eq h3 fun o ho o' ho' => hr o (by simp [opsOf, ho]) o' (by simp [opsOf, ho']),
      SameOps.eq h4 fun o ho o' ho' => hr o (by simp [opsOf, ho]) o' (by simp [opsOf, ho'])]
  | _, _, .pred h1 h2, hr => by
    rw [SameOps.eq h1 fun o ho o' ho' => hr o (by simp [opsOf, ho]) o' (by simp [opsOf, ho']),
      SameOps.eq h2 fun o ho o' ho' => hr o (by simp [opsOf, ho]) o' (by simp [opsOf, ho'])]
  | _, _, .cmp h1 h2 h3, hr => by
    rw [SameOps.eq h1 fun o ho o' ho' => hr o (by simp [opsOf, ho]) o' (by simp [opsOf, ho']),
      SameOps.eq h2 fun o ho o' ho' => hr o (by simp [opsOf, ho]) o' (by simp [opsOf, ho']),
      SameOps.eq h3 fun o ho o' ho' => hr o (by simp [opsOf, ho]) o' (by simp [opsOf, ho'])]
  | _, _, .logic h1 h2 h3, hr => by
    rw [SameOps.eq h1 fun o ho o' ho' => hr o (by simp [opsOf, ho]) o' (by simp [opsOf, ho']),
      SameOps.eq h2 fun o ho o' ho' => hr o (by simp [opsOf, ho]) o' (by simp [opsOf, ho']),
      SameOps.eq h3 fun o ho o' ho' => hr o (by simp [opsOf, ho]) o' (by simp [opsOf, ho'])]
theorem SameOpsL.eq {R : Str → Str → Prop} : ∀ {l l'}, SameOpsL R l l' → (∀ o ∈ opsOfL l, ∀ o' ∈ opsOfL l', R o o' → o = o') → l = l'
  | _, _, .nil, _ => rfl
  | _, _, .cons h1 h2, hr => by
    rw [SameOps.eq h1 fun o ho o' ho' => hr o (by simp [opsOfL, ho]) o' (by simp [opsOfL, ho']),
      SameOpsL.eq h2 fun o ho o' ho' => hr o (by simp [opsOfL, ho]) o' (by simp [opsOfL, ho'])]
end

/-! ## C63, C64 -/

/-- The outcomes of `Parse` are the same, up to operator names related by `R` and positions of a syntax error. -/
def SameRes (R : Str → Str → Prop) : ParseRes → ParseRes → Prop
  | .ok n, .ok n' => SameOps R n n'
  | .err (.syntax _ _), .err (.syntax _ _) => True
  | .err e, .err e' => e = e'
  | _, _ => False

theorem BlankRun.ws1 {w} (h : BlankRun w) : WS1 w := by
  obtain ⟨hne, hw⟩ := h
  refine ⟨hne, ?_⟩
  clear hne
  induction w with
  | nil => exact .nil
  | cons c w ih => exact .blank (hw c (by simp)) (ih fun d hd => hw d (by simp [hd]))

theorem BlankSep.ws1 (w w') (h : BlankSep w w') : WS1 w ∧ WS1 w' := by
  rcases h with ⟨h, h'⟩ | ⟨h, rfl⟩
  · exact ⟨h.ws1, h'.ws1⟩
  · exact ⟨h, h⟩

theorem layout_parse {B : Str → Str → Prop} (hB : ∀ w w', B w w' → WS1 w ∧ WS1 w') {s s' : Str} (h : Layout B s s') :
    SameRes (OpsOf B) (parse s) (parse s') := by
  obtain ⟨x, hx⟩ := big_total .Grammar s
  obtain ⟨x', hx', hc⟩ := layout_sync hB hx (p := .no) rfl h
  rcases parse_cases s with ⟨ev, h1, e1⟩ | ⟨h1, b, e, e1, _⟩
  · have := Big.det hx h1
    subst this
    obtain ⟨ev', r', rfl, he, _⟩ := hc.some
    rcases parse_cases s' with ⟨ev1, h2, e2⟩ | ⟨h2, _⟩
    · cases Big.det hx' h2
      have hp : finish ev ≠ .panic := by rw [← e1]; exact (C01_parse_total _).2.1
      rw [e1, e2]
      have hr := layout_run he (x := []) (t := {}) (x' := []) (t' := {}) ⟨⟨.nil, rfl, rfl⟩, trivial⟩
      revert hr hp
      unfold finish
      rw [runEvs_eq, runEvs_eq]
      cases runX [] ev {} with
      | none => intro h; exact absurd rfl h
      | some y =>
        cases runX [] ev' {} with
        | none => exact fun _ h => h.elim
        | some y' =>
          rintro - ⟨hr, -⟩
          simp only [Option.map_some]
          rw [← hr.errors]
          cases y.2.errors with
          | nil => exact hr.pop.1
          | cons e es => cases e <;> first | rfl | trivial
    · cases Big.det hx' h2
  · have := Big.det hx h1
    subst this
    have := hc.none
    subst this
    rcases parse_cases s' with ⟨ev1, h2, e2⟩ | ⟨h2, b', e', e2, _⟩
    · cases Big.det hx' h2
    · rw [e1, e2]
      trivial

/-! ### Texts in which all strings and comments are closed -/

theorem scanStep_mode {m st a c y} (h : scanStep (m, st, a) c = some y) : y.1 = modeStep m c := by
  cases m with
  | code =>
    simp only [scanStep] at h
    simp only [modeStep]
    by_cases h1 : c = '\''
    · rw [if_pos h1] at h ⊢; cases h; rfl
    by_cases h2 : c = '"'
    · rw [if_neg h1, if_pos h2] at h ⊢; cases h; rfl
    by_cases h3 : c = '-'
    · rw [if_neg h1, if_neg h2, if_pos h3] at h ⊢; cases h; rfl
    by_cases h4 : c = '/'
    · rw [if_neg h1, if_neg h2, if_neg h3, if_pos h4] at h ⊢; cases h; rfl
    rw [if_neg h1, if_neg h2, if_neg h3, if_neg h4] at h ⊢
    repeat' split at h
    all_goals (cases h; try rfl)
  | dash =>
    simp only [scanStep] at h
    simp only [modeStep]
    split at h
    · rename_i e; subst e; cases h; rfl
    · split at h
      · rename_i e; subst e; cases h; rfl
      · cases h
  | slash =>
    simp only [scanStep] at h
    simp only [modeStep]
    split at h
    · rename_i e; subst e; cases h; rfl
    · cases h
  | comment =>
    simp only [scanStep] at h
    simp only [modeStep]
    split at h <;> rename_i e <;> cases h
    · rw [if_pos e]
    · rw [if_neg e]
  | sq =>
    simp only [scanStep] at h
    simp only [modeStep]
    split at h <;> rename_i e <;> cases h
    · rw [if_pos e]
    · rw [if_neg e]
  | dq =>
    simp only [scanStep] at h
    simp only [modeStep]
    split at h <;> rename_i e <;> cases h
    · rw [if_pos e]
    · rw [if_neg e]

theorem scan_mode {s : Str} : ∀ {x y}, scan s x = some y → y.1 = modeFrom x.1 s := by
  induction s with
  | nil => intro x y h; cases h; rfl
  | cons c s ih =>
    intro x y h
    rw [scan] at h
    split at h
    · cases h
    · rename_i z hz
      rw [ih h]
      show modeFrom z.1 s = modeFrom (modeStep x.1 c) s
      congr 1
      exact scanStep_mode hz

theorem quote_split {q : Char} {m : Mode} (hm : ∀ c, modeStep m c = if c = q then .code else m) (hc : m ≠ .code) :
    ∀ {u : Str}, modeFrom m u = .code → ∃ b v, u = b ++ q :: v ∧ q ∉ b ∧ modeFrom .code v = .code
  | [], h => absurd h hc
  | c :: u, h => by
    have h : modeFrom (modeStep m c) u = .code := h
    rw [hm] at h
    split at h
    · rename_i e
      exact ⟨[], u, by rw [e]; rfl, by simp, h⟩
    · rename_i e
      obtain ⟨b, v, rfl, h1, h2⟩ := quote_split hm hc h
      exact ⟨c :: b, v, rfl, by simp [Ne.symm e, h1], h2⟩

theorem comment_split : ∀ {u : Str}, modeFrom .comment u = .code →
    ∃ b e v, u = b ++ e :: v ∧ (∀ c ∈ b, c ≠ '\n' ∧ c ≠ '\r') ∧ (e = '\n' ∨ e = '\r') ∧ modeFrom .code v = .code
  | [], h => by cases h
  | c :: u, h => by
    have h : modeFrom (modeStep .comment c) u = .code := h
    simp only [modeStep] at h
    split at h
    · rename_i e
      exact ⟨[], c, u, rfl, by simp, e, h⟩
    · rename_i e
      obtain ⟨b, d, v, rfl, h1, h2, h3⟩ := comment_split h
      exact ⟨c :: b, d, v, rfl, by simpa using ⟨by simpa using e, h1⟩, h2, h3⟩

/-- Before the two texts the same text can stand. -/
theorem Layout.prepend {B : Str → Str → Prop} (hB : ∀ w, WS1 w → B w w) {t t' : Str} (h : Layout B t t') :
    ∀ (k : Nat) {u : Str} {x y}, u.length ≤ k → x.1 = Mode.code → scan u x = some y → y.1 = .code → Layout B (u ++ t) (u ++ t') := by
  intro k
  induction k with
  | zero =>
    intro u x y hk _ _ _
    cases u with
    | nil => exact h
    | cons c u => cases hk
  | succ k ih =>
    intro u x y hk hx hs hy
    cases u with
    | nil => exact h
    | cons c u =>
      have hm := (scan_mode hs).symm
      rw [hx, hy] at hm
      have hm : modeFrom (modeStep .code c) u = .code := hm
      have suf : ∀ {b v : Str}, c :: u = b ++ v → b ≠ [] → modeFrom .code b = .code → Layout B (v ++ t) (v ++ t') := by
        intro b v e hb hbm
        rw [e, scan_append] at hs
        cases hz : scan b x with
        | none => rw [hz] at hs; cases hs
        | some z =>
          rw [hz] at hs
          have := scan_mode hz
          rw [hx, hbm] at this
          refine ih (x := z) ?_ this hs hy
          have := congrArg List.length e
          have : 0 < b.length := List.length_pos_iff.mpr hb
          simp at *
          omega
      by_cases hq : c = '\'' ∨ c = '"'
      · obtain ⟨b, v, rfl, h1, h2⟩ : ∃ b v, u = b ++ c :: v ∧ c ∉ b ∧ modeFrom .code v = .code := by
          rcases hq with rfl | rfl
          · exact quote_split (m := .sq) (fun c => rfl) (by simp) hm
          · exact quote_split (m := .dq) (fun c => rfl) (by simp) hm
        have := suf (b := c :: (b ++ [c])) (v := v) (by simp) (by simp) ?_
        · have := Layout.quoted (B := B) hq hq h1 h1 this
          simpa using this
        · rcases hq with rfl | rfl
          · show modeFrom .sq (b ++ ['\'']) = .code
            rw [modeFrom, List.foldl_append]
            have : ∀ b : Str, '\'' ∉ b → b.foldl modeStep .sq = .sq := by
              intro b
              induction b with
              | nil => exact fun _ => rfl
              | cons d b ih2 =>
                intro hd
                rw [List.foldl_cons, modeStep, if_neg (by rintro rfl; simp at hd)]
                exact ih2 fun h => hd (by simp [h])
            rw [this b h1]; rfl
          · show modeFrom .dq (b ++ ['"']) = .code
            rw [modeFrom, List.foldl_append]
            have : ∀ b : Str, '"' ∉ b → b.foldl modeStep .dq = .dq := by
              intro b
              induction b with
              | nil => exact fun _ => rfl
              | cons d b ih2 =>
                intro hd
                rw [List.foldl_cons, modeStep, if_neg (by rintro rfl; simp at hd)]
                exact ih2 fun h => hd (by simp [h])
            rw [this b h1]; rfl
      simp only [not_or] at hq
      by_cases hb : c ∈ blanks
      · have := suf (b := [c]) (v := u) rfl (by simp) (by simp [blanks] at hb; rcases hb with rfl | rfl | rfl | rfl <;> rfl)
        exact Layout.sep (w := [c]) (w' := [c]) (hB _ ⟨by simp, .blank hb .nil⟩) this
      by_cases hd : c = '-' ∨ c = '/'
      · cases u with
        | nil => rcases hd with rfl | rfl <;> cases hm
        | cons d u =>
          by_cases he : d = c
          · subst he
            have hm : modeFrom .comment u = .code := by rcases hd with rfl | rfl <;> exact hm
            obtain ⟨b, e, v, rfl, h1, h2, h3⟩ := comment_split hm
            have hcm : modeFrom .code (d :: d :: (b ++ [e])) = .code := by
              have : ∀ b : Str, (∀ c ∈ b, c ≠ '\n' ∧ c ≠ '\r') → b.foldl modeStep .comment = .comment := by
                intro b
                induction b with
                | nil => exact fun _ => rfl
                | cons f b ih2 =>
                  intro hf
                  rw [List.foldl_cons, modeStep, if_neg (by simpa using hf f (by simp))]
                  exact ih2 fun g hg => hf g (by simp [hg])
              have h4 : modeFrom .comment (b ++ [e]) = .code := by
                rw [modeFrom, List.foldl_append, this b h1]
                rcases h2 with rfl | rfl <;> rfl
              rcases hd with rfl | rfl <;> exact h4
            have := suf (b := d :: d :: (b ++ [e])) (v := v) (by simp) (by simp) hcm
            have hw : WS1 ([d, d] ++ (b ++ e :: [])) :=
              ⟨by simp, .comment (by rcases hd with rfl | rfl <;> simp) h1 h2 .nil⟩
            have := Layout.sep (hB _ hw) this
            simpa using this
          · have hsc : c = '-' ∧ d = '>' := by
              rw [scan] at hs
              obtain ⟨m, st, a⟩ := x
              cases hx
              rcases hd with rfl | rfl
              · refine ⟨rfl, ?_⟩
                by_cases hg : d = '>'
                · exact hg
                · exfalso
                  simp [scanStep, scan, he, hg] at hs
              · exfalso
                simp [scanStep, scan, he] at hs
            obtain ⟨rfl, rfl⟩ := hsc
            have h1 := suf (b := ['-', '>']) (v := u) rfl (by simp) rfl
            exact .char hb hq.1 hq.2 (by simp) (.char (by decide) (by decide) (by decide) (by simp) h1)
      · simp only [not_or] at hd
        have := suf (b := [c]) (v := u) rfl (by simp) (by
          show modeStep .code c = .code
          simp [modeStep, hq, hd])
        exact .char hb hq.1 hq.2 (by simp [hd]) this

theorem Balanced.layout {B : Str → Str → Prop} (hB : ∀ w, WS1 w → B w w) {u w w' v : Str} (hu : modeAfter u = .code) (hw : WS1 w) (h : B w w')
    {a} (hb : Balanced (u ++ (w ++ v)) a) : Layout B (u ++ (w ++ v)) (u ++ (w' ++ v)) := by
  unfold Balanced at hb
  rw [scan_append] at hb
  cases h1 : scan u (.code, [], false) with
  | none => rw [h1] at hb; cases hb
  | some y =>
    obtain ⟨m, st, b⟩ := y
    have hm : m = .code := by
      have := scan_mode h1
      exact this.trans hu
    subst hm
    rw [h1, Option.bind_some, scan_append, hw.2.closed, Option.bind_some] at hb
    refine Layout.prepend hB ?_ u.length (Nat.le_refl _) rfl h1 rfl
    refine .sep h ?_
    have := Layout.prepend hB (.nil : Layout B [] []) v.length (Nat.le_refl _) rfl hb rfl
    simpa using this

/-- At a place outside strings and comments: both texts have the same layout, or `Parse` finds a syntax error in both. -/
theorem layout_place {B : Str → Str → Prop} (hB : ∀ w, WS1 w → B w w) {u w w' v : Str} (hu : modeAfter u = .code) (hw : WS1 w) (hw' : WS1 w') (h : B w w')
    (h' : B w' w) :
    (Layout B (u ++ (w ++ v)) (u ++ (w' ++ v)) ∨ Layout B (u ++ (w' ++ v)) (u ++ (w ++ v))) ∨
      (SyntaxError (u ++ (w ++ v)) ∧ SyntaxError (u ++ (w' ++ v))) := by
  rcases parse_cases (u ++ (w ++ v)) with ⟨ev, h1, _⟩ | ⟨_, b, e, e1, _⟩
  · obtain ⟨a, _, _, _, hb, _⟩ := grammar_sound h1
    exact .inl (.inl (hb.layout hB hu hw h))
  · rcases parse_cases (u ++ (w' ++ v)) with ⟨ev, h1, _⟩ | ⟨_, b', e', e2, _⟩
    · obtain ⟨a, _, _, _, hb, _⟩ := grammar_sound h1
      exact .inl (.inr (hb.layout hB hu hw' h'))
    · exact .inr ⟨⟨b, e, e1⟩, b', e', e2⟩

/-! ## C63 -/

/-- C63: two texts that differ only in the blanks between the same words, strings and comments (and in the kind of quotes) are read alike: `Parse` returns the same tree or the same
error, or finds a syntax error in both (the positions differ). -/
theorem C63_blanks {s s' : Str} (h : Layout BlankSep s s') : parse s = parse s' ∨ (SyntaxError s ∧ SyntaxError s') := by
  have := layout_parse BlankSep.ws1 h
  cases h1 : parse s with
  | ok n =>
    cases h2 : parse s' with
    | ok n' =>
      rw [h1, h2] at this
      left
      rw [SameOps.eq this fun o _ o' _ h => h.plain]
    | _ => rw [h1, h2] at this; exact this.elim
  | err e =>
    cases h2 : parse s' with
    | err e' =>
      rw [h1, h2] at this
      cases e <;> cases e' <;> first | exact .inr ⟨⟨_, _, h1⟩, _, _, h2⟩ | exact .inl (congrArg _ this) | cases this
    | _ => rw [h1, h2] at this; cases e <;> exact this.elim
  | panic => exact absurd h1 (C01_parse_total _).2.1
  | div => exact absurd h1 (C01_parse_total _).2.2

/-- C63, at a place: where a text has blanks outside strings and comments, any other blanks can stand, whatever is before and after. -/
theorem C63_place {u w w' v : Str} (hu : modeAfter u = .code) (hw : BlankRun w) (hw' : BlankRun w') :
    parse (u ++ (w ++ v)) = parse (u ++ (w' ++ v)) ∨ (SyntaxError (u ++ (w ++ v)) ∧ SyntaxError (u ++ (w' ++ v))) := by
  rcases layout_place (B := BlankSep) (fun w h => .inr ⟨h, rfl⟩) hu hw.ws1 hw'.ws1 (.inl ⟨hw, hw'⟩) (.inl ⟨hw', hw⟩) with (h | h) | h
  · exact C63_blanks h
  · rcases C63_blanks h with h | h
    · exact .inl h.symm
    · exact .inr h.symm
  · exact .inr h

/-- C63 says something about every accepted query: it has the layout of itself. -/
theorem C63_covers {s n} (h : parse s = .ok n) : Layout BlankSep s s := by
  obtain ⟨a, _, hb, _⟩ := parse_ok h
  have := Layout.prepend (B := BlankSep) (fun w h => .inr ⟨h, rfl⟩) .nil s.length (Nat.le_refl _) rfl hb rfl
  simpa using this

example : modeAfter c!"not a /" ≠ .code ∧ modeAfter c!"a is not -- it's\n" = .code ∧ BlankRun c!"\t \r\n" ∧
    parse (c!"a is not -- it's\n" ++ (c!" " ++ c!"null and b not \t in [ 'x  y' ]")) =
      .ok (.logic (.pred (.ident c!"a") (.op c!"is not -- it's null")) (.op c!"and") (.cmp (.ident c!"b") (.op c!"not in") (.arr [.str c!"x  y"]))) ∧
    parse (c!"a is not -- it's\n" ++ (c!"\t \r\n" ++ c!"null and b not \t in [ 'x  y' ]")) =
      .ok (.logic (.pred (.ident c!"a") (.op c!"is not -- it's null")) (.op c!"and") (.cmp (.ident c!"b") (.op c!"not in") (.arr [.str c!"x  y"]))) := by
  refine ⟨by decide, by decide, ⟨by decide, by decide⟩, by decide +kernel, by decide +kernel⟩

/-- Blanks in strings do matter, and so does their absence. -/
example : parse c!"a = 'x y'" ≠ parse c!"a = 'x  y'" ∧ parse c!"a in [1]" ≠ parse c!"ain [1]" := by
  decide +kernel

/-! ## C64 -/

/-- C64, the part that holds: comments count as blanks.  Acceptance does not depend on them, and the trees are equal except for the names of operators
of several words, which keep a comment inside them; so they are equal if no operator name contains `-` or `/`. -/
theorem C64_comments_partial {s s' : Str} (h : Layout Seps s s') :
    SameRes (OpsOf Seps) (parse s) (parse s') ∧
    ∀ n n', parse s = .ok n → parse s' = .ok n' → (∀ o ∈ opsOf n ++ opsOf n', '-' ∉ o ∧ '/' ∉ o) → n = n' := by
  have := layout_parse (fun _ _ h => h) h
  refine ⟨this, fun n n' h1 h2 ho => ?_⟩
  rw [h1, h2] at this
  exact SameOps.eq this fun o h1 o' h2 hr => hr.clean (ho o (by simp [h1])) (ho o' (by simp [h2]))

/-- C64, at a place: a comment can replace blanks outside strings and comments. -/
theorem C64_place_partial {u w w' v : Str} (hu : modeAfter u = .code) (hw : WS1 w) (hw' : WS1 w') {n} (h : parse (u ++ (w ++ v)) = .ok n) :
    ∃ n', parse (u ++ (w' ++ v)) = .ok n' ∧ SameOps (OpsOf Seps) n n' ∧ ((∀ o ∈ opsOf n ++ opsOf n', '-' ∉ o ∧ '/' ∉ o) → n = n') := by
  obtain ⟨a, _, hb, _⟩ := parse_ok h
  have hl : Layout Seps _ _ := hb.layout (fun w h => ⟨h, h⟩) hu hw ⟨hw, hw'⟩
  obtain ⟨h1, h2⟩ := C64_comments_partial hl
  rw [h] at h1
  cases h3 : parse (u ++ (w' ++ v)) with
  | ok n' => rw [h3] at h1; exact ⟨n', rfl, h1, h2 n n' h h3⟩
  | _ => rw [h3] at h1; exact h1.elim

example : modeAfter c!"a = 1" = .code ∧ WS1 c!" " ∧ WS1 c!"--)'\n" ∧ parse (c!"a = 1" ++ (c!" " ++ c!"or b")) =
    .ok (.logic (.cmp (.ident c!"a") (.op c!"eq") (.int 1)) (.op c!"or") (.ident c!"b")) ∧
    parse (c!"a = 1" ++ (c!"--)'\n" ++ c!"or b")) = .ok (.logic (.cmp (.ident c!"a") (.op c!"eq") (.int 1)) (.op c!"or") (.ident c!"b")) :=
  ⟨by decide, ⟨by decide, .blank (by decide) .nil⟩,
    ⟨by decide, .comment (o := c!"--") (b := c!")'") (e := '\n') (.inl rfl) (by decide) (.inl rfl) .nil⟩, by decide +kernel, by decide +kernel⟩

/-- C64 fails inside operators of several words: the comment becomes part of the operator's name. -/
theorem C64_refuted : WS1 c!" " ∧ WS1 c!"--x\n" ∧
    parse (c!"a not" ++ (c!" " ++ c!"in [1]")) = .ok (.cmp (.ident c!"a") (.op c!"not in") (.arr [.int 1])) ∧
    parse (c!"a not" ++ (c!"--x\n" ++ c!"in [1]")) = .ok (.cmp (.ident c!"a") (.op c!"not--x in") (.arr [.int 1])) :=
  ⟨⟨by decide, .blank (by decide) .nil⟩,
    ⟨by decide, .comment (o := c!"--") (b := c!"x") (e := '\n') (.inl rfl) (by decide) (.inl rfl) .nil⟩, by decide +kernel, by decide +kernel⟩

/-! ## C74 -/

theorem quoted_mode {q : Char} (hq : q = '\'' ∨ q = '"') {b : Str} (hb : q ∉ b) : modeFrom .code (q :: (b ++ [q])) = .code := by
  have stay : ∀ (m : Mode) (b : Str), (∀ c, modeStep m c = if c = q then .code else m) → q ∉ b → b.foldl modeStep m = m := by
    intro m b hm
    induction b with
    | nil => exact fun _ => rfl
    | cons d b ih =>
      intro hd
      rw [List.foldl_cons, hm, if_neg (by rintro rfl; simp at hd)]
      exact ih fun h => hd (by simp [h])
  rcases hq with rfl | rfl
  · show (b ++ ['\'']).foldl modeStep .sq = .code
    rw [List.foldl_append, stay .sq b (fun c => rfl) hb]; rfl
  · show (b ++ ['"']).foldl modeStep .dq = .code
    rw [List.foldl_append, stay .dq b (fun c => rfl) hb]; rfl

theorem Balanced.requoted {q q' : Char} (hq : q = '\'' ∨ q = '"') (hq' : q' = '\'' ∨ q' = '"') {u b v : Str} (hu : modeAfter u = .code) (h : q ∉ b)
    (h' : q' ∉ b) {a} (hb : Balanced (u ++ q :: (b ++ q :: v)) a) : Layout BlankSep (u ++ q :: (b ++ q :: v)) (u ++ q' :: (b ++ q' :: v)) := by
  unfold Balanced at hb
  rw [scan_append] at hb
  cases h1 : scan u (.code, [], false) with
  | none => rw [h1] at hb; cases hb
  | some y =>
    have hy : y.1 = .code := (scan_mode h1).trans hu
    have e : q :: (b ++ q :: v) = (q :: (b ++ [q])) ++ v := by simp
    rw [h1, Option.bind_some, e, scan_append] at hb
    cases h2 : scan (q :: (b ++ [q])) y with
    | none => rw [h2] at hb; cases hb
    | some z =>
      have hz : z.1 = .code := by rw [scan_mode h2, hy, quoted_mode hq h]
      rw [h2, Option.bind_some] at hb
      have same : ∀ w, WS1 w → BlankSep w w := fun w h => .inr ⟨h, rfl⟩
      refine Layout.prepend same (.quoted hq hq' h h' ?_) u.length (Nat.le_refl _) rfl h1 hy
      have := Layout.prepend same (.nil : Layout BlankSep [] []) v.length (Nat.le_refl _) hz hb rfl
      simpa using this

/-- C74: a string means the same in either kind of quotes, whatever is before and after it: `Parse` returns the same tree or the same error, or finds a
syntax error in both texts. -/
theorem C74_quotes {u b v : Str} (hu : modeAfter u = .code) (h1 : '\'' ∉ b) (h2 : '"' ∉ b) :
    parse (u ++ '\'' :: (b ++ '\'' :: v)) = parse (u ++ '"' :: (b ++ '"' :: v)) ∨
      (SyntaxError (u ++ '\'' :: (b ++ '\'' :: v)) ∧ SyntaxError (u ++ '"' :: (b ++ '"' :: v))) := by
  rcases parse_cases (u ++ '\'' :: (b ++ '\'' :: v)) with ⟨ev, h, _⟩ | ⟨_, x, e, e1, _⟩
  · obtain ⟨a, _, _, _, hb, _⟩ := grammar_sound h
    exact C63_blanks (hb.requoted (.inl rfl) (.inr rfl) hu h1 h2)
  · rcases parse_cases (u ++ '"' :: (b ++ '"' :: v)) with ⟨ev, h, _⟩ | ⟨_, x', e', e2, _⟩
    · obtain ⟨a, _, _, _, hb, _⟩ := grammar_sound h
      rcases C63_blanks (hb.requoted (.inr rfl) (.inl rfl) hu h2 h1) with h | h
      · exact .inl h.symm
      · exact .inr h.symm
    · exact .inr ⟨⟨x, e, e1⟩, x', e', e2⟩

example : modeAfter c!"a = \"it's\" and b in [1, " = .code ∧
    parse (c!"a = \"it's\" and b in [1, " ++ '\'' :: (c!"x -- y\\" ++ '\'' :: c!"]")) =
      .ok (.logic (.cmp (.ident c!"a") (.op c!"eq") (.str c!"it's")) (.op c!"and") (.cmp (.ident c!"b") (.op c!"in") (.arr [.int 1, .str c!"x -- y\\"]))) ∧
    parse (c!"a = \"it's\" and b in [1, " ++ '"' :: (c!"x -- y\\" ++ '"' :: c!"]")) =
      .ok (.logic (.cmp (.ident c!"a") (.op c!"eq") (.str c!"it's")) (.op c!"and") (.cmp (.ident c!"b") (.op c!"in") (.arr [.int 1, .str c!"x -- y\\"]))) := by
  decide +kernel

/-- A text that contains one kind of quote needs the other kind: there is no escaping. -/
example : parse c!"a = \"it's\"" = .ok (.cmp (.ident c!"a") (.op c!"eq") (.str c!"it's")) ∧ SyntaxError c!"a = 'it's'" ∧
    SyntaxError c!"a = 'it\\'s'" ∧ SyntaxError c!"a = 'it''s'" := by
  refine ⟨by decide +kernel, ?_, ?_, ?_⟩ <;> exact ⟨_, _, by rfl⟩

end Verif
