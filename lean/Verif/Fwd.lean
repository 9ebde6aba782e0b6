import Verif.Soundness
import Verif.First

/-! # Forward derivations: building successful and failing matches -/

namespace Verif

/-- `e` matches a prefix of `s`, with these events, leaving `r`. -/
abbrev Ok (e : PExp) (s : Str) (ev : List Ev) (r : Str) : Prop := Big G e s (some (ev, r))
/-- `e` does not match at `s`. -/
abbrev No (e : PExp) (s : Str) : Prop := Big G e s none

theorem Ok.cast {e s ev r s' ev' r'} (h : Ok e s ev r) (hs : s = s') (he : ev = ev') (hr : r = r') : Ok e s' ev' r' := by
  subst hs he hr; exact h

theorem ci_ok {c x : Char} {t : Str} (h : x = c ∨ x = c.toUpper) : Ok (.ci c) (x :: t) [] t := by
  by_cases hx : x = c
  · subst hx; exact .alt1 .chrOk
  · rcases h with rfl | rfl
    · exact absurd rfl hx
    · exact .alt2 (.chrFail hx) .chrOk

theorem ciLit_ok : ∀ {w u : Str} (r : Str), CI w u → Ok (.ciLit w) (u ++ r) [] r := by
  intro w
  induction w with
  | nil => rintro u r rfl; exact .eps
  | cons c w ih =>
    rintro u r ⟨x, t, rfl, hx, ht⟩
    cases w with
    | nil => cases ht; exact ci_ok hx
    | cons d w => exact .seqOk (ci_ok hx) (ih r ht)

/-- Fails when the head is wrong. -/
theorem chr_no {c : Char} {s : Str} (h : ∀ t, s ≠ c :: t) : No (.chr c) s := by
  cases s with
  | nil => exact .chrNil
  | cons x t => exact .chrFail (by rintro rfl; exact h t rfl)

theorem star_chars {e : PExp} {r : Str} (hr : No e r) : ∀ u : Str, (∀ c ∈ u, ∀ t, Ok e (c :: t) [] t) → Ok (.star e) (u ++ r) [] r := by
  intro u
  induction u with
  | nil => intro _; exact .starNil hr
  | cons c u ih =>
    intro h
    exact .starCons (h c (by simp) _) (ih fun d hd => h d (List.mem_cons_of_mem _ hd))

/-! ## Blanks -/

theorem eol_nl (t : Str) : Ok (.call .EndOfLine) ('\n' :: t) [] t :=
  .call (.alt2 (.seqFail1 (.chrFail (by decide))) (.alt1 .chrOk))

theorem eol_crlf (t : Str) : Ok (.call .EndOfLine) ('\r' :: '\n' :: t) [] t :=
  .call (.alt1 (.seqOk .chrOk .chrOk))

theorem eol_cr {t : Str} (h : ∀ u, t ≠ '\n' :: u) : Ok (.call .EndOfLine) ('\r' :: t) [] t :=
  .call (.alt2 (.seqFail2 .chrOk (chr_no h)) (.alt2 (.chrFail (by decide)) .chrOk))

theorem eol_no {c : Char} {t : Str} (h : c ≠ '\n' ∧ c ≠ '\r') : No (.call .EndOfLine) (c :: t) :=
  .call (.alt2 (.seqFail1 (.chrFail h.2)) (.alt2 (.chrFail h.1) (.chrFail h.2)))

theorem sc_tab (t : Str) : Ok (.call .SpaceComment) ('\t' :: t) [] t :=
  .call (.alt1 (.call (.swIn (by decide) .chrOk)))

theorem sc_space (t : Str) : Ok (.call .SpaceComment) (' ' :: t) [] t :=
  .call (.alt1 (.call (.swOut (by decide) (.swIn (by decide) .chrOk))))

theorem sc_nl (t : Str) : Ok (.call .SpaceComment) ('\n' :: t) [] t :=
  .call (.alt1 (.call (.swOut (by decide) (.swOut (by decide) (eol_nl t)))))

theorem sc_crlf (t : Str) : Ok (.call .SpaceComment) ('\r' :: '\n' :: t) [] t :=
  .call (.alt1 (.call (.swOut (by decide) (.swOut (by decide) (eol_crlf t)))))

theorem sc_cr {t : Str} (h : ∀ u, t ≠ '\n' :: u) : Ok (.call .SpaceComment) ('\r' :: t) [] t :=
  .call (.alt1 (.call (.swOut (by decide) (.swOut (by decide) (eol_cr h)))))

theorem comment_ok {o b s r : Str} (ho : o = c!"--" ∨ o = c!"//") (hb : ∀ c ∈ b, c ≠ '\n' ∧ c ≠ '\r')
    (he : Ok (.call .EndOfLine) s [] r) : Ok (.call .Comment) (o ++ (b ++ s)) [] r := by
  have h1 : Ok (.alt (.lit c!"--") (.lit c!"//")) (o ++ (b ++ s)) [] (b ++ s) := by
    rcases ho with rfl | rfl
    · exact .alt1 (lit_ok _ _)
    · exact .alt2 (.seqFail1 (.chrFail (by decide))) (lit_ok _ _)
  have h2 : Ok (.star (.seq (.notP (.call .EndOfLine)) .any)) (b ++ s) [] s := by
    refine star_chars ?_ b fun c hc t => .seqOk (.notOk (eol_no (hb c hc))) .anyOk
    exact .seqFail1 (.notFail he)
  exact .call (.seqOk h1 (.seqOk h2 he))

theorem sc_comment {o b s r : Str} (ho : o = c!"--" ∨ o = c!"//") (hb : ∀ c ∈ b, c ≠ '\n' ∧ c ≠ '\r')
    (he : Ok (.call .EndOfLine) s [] r) : Ok (.call .SpaceComment) (o ++ (b ++ s)) [] r := by
  refine .call (.alt2 ?_ (comment_ok ho hb he))
  rcases ho with rfl | rfl <;> exact big_none_cons (by decide) (by decide) (by decide)

/-- Blanks before an already skipped text are skipped as well. -/
theorem ws_star {w s r : Str} (hw : WS w) (h : Ok (.star (.call .SpaceComment)) s [] r) :
    Ok (.star (.call .SpaceComment)) (w ++ s) [] r := by
  have nl : ∀ {t}, Ok (.star (.call .SpaceComment)) ('\n' :: t) [] r → Ok (.star (.call .SpaceComment)) t [] r := by
    intro t h0
    clear h
    change Big G _ _ (some (([] : List Ev), r)) at h0
    generalize hx : some (([] : List Ev), r) = x at h0
    cases h0 with
    | starNil h => have := Big.det h (sc_nl t); simp at this
    | @starCons _ _ e1 r1 e2 r2 h1 h2 =>
      have := Big.det h1 (sc_nl t)
      simp at this
      obtain ⟨rfl, rfl⟩ := this
      simp at hx
      obtain ⟨rfl, rfl⟩ := hx
      exact h2
  induction hw with
  | nil => exact h
  | @blank c u hc _ ih =>
    simp [blanks] at hc
    rcases hc with rfl | rfl | rfl | rfl
    · exact .starCons (sc_space _) ih
    · exact .starCons (sc_tab _) ih
    · exact .starCons (sc_nl _) ih
    · by_cases hn : ∃ v, u ++ s = '\n' :: v
      · obtain ⟨v, hv⟩ := hn
        rw [hv] at ih
        show Ok _ ('\r' :: (u ++ s)) [] r
        rw [hv]
        exact .starCons (sc_crlf _) (nl ih)
      · exact .starCons (sc_cr fun v hv => hn ⟨v, hv⟩) ih
  | @comment o b e u ho hb he _ ih =>
    have : o ++ (b ++ e :: u) ++ s = o ++ (b ++ e :: (u ++ s)) := by simp
    rw [this]
    rcases he with rfl | rfl
    · exact .starCons (sc_comment ho hb (eol_nl _)) ih
    · by_cases hn : ∃ v, u ++ s = '\n' :: v
      · obtain ⟨v, hv⟩ := hn
        rw [hv] at ih ⊢
        exact .starCons (sc_comment ho hb (eol_crlf _)) (nl ih)
      · exact .starCons (sc_comment ho hb (eol_cr fun v hv => hn ⟨v, hv⟩)) ih

theorem sp_nil {r : Str} (h : No (.call .SpaceComment) r) : Ok (.call .sp) r [] r := .call (.starNil h)

theorem sp_ok {w r : Str} (hw : WS w) (h : No (.call .SpaceComment) r) : Ok (.call .sp) (w ++ r) [] r :=
  .call (ws_star hw (.starNil h))

/-- No blank or comment can start here. -/
def Solid (r : Str) : Prop := ∀ c t, r = c :: t → wsF.has c = false

theorem Solid.no {r : Str} (h : Solid r) : No (.call .SpaceComment) r := big_none (by decide) (by decide) h

theorem Solid.nil : Solid [] := by rintro c t ⟨⟩

theorem Solid.cons {c : Char} {t : Str} (h : wsF.has c = false) : Solid (c :: t) := by rintro c t ⟨⟩; exact h

theorem sp1_ok {w r : Str} (hw : WS w) (hne : w ≠ []) (h : No (.call .SpaceComment) r) : Ok (.call .sp1) (w ++ r) [] r := by
  have h2 := ws_star hw (.starNil h)
  change Big G _ _ (some (([] : List Ev), r)) at h2
  change Big G _ _ (some (([] : List Ev), r))
  generalize hx : some (([] : List Ev), r) = x at h2 ⊢
  generalize hws : w ++ r = s at h2 ⊢
  cases h2 with
  | starNil _ =>
    simp at hx
    subst hx
    have := congrArg List.length hws
    simp at this
    exact absurd this hne
  | starCons h1 h3 => exact .call (.seqOk h1 h3)

/-! ## Strings -/

theorem strBody_ok {q : Char} {u : Str} (h : q ∉ u) (r : Str) : Ok (gStrBody q) (u ++ q :: r) [] (q :: r) := by
  refine star_chars (.seqFail1 (.notFail .chrOk)) u fun c hc t => .seqOk (.notOk (.chrFail ?_)) .anyOk
  rintro rfl; exact h hc

theorem string_sq {u : Str} (h : '\'' ∉ u) (r : Str) :
    Ok (.call .String) ('\'' :: (u ++ '\'' :: r)) [.text u, .act 28] r := by
  have := strBody_ok h r
  have h2 := Big.txtOk this
  rw [txt_eq] at h2
  exact .call (.alt1 (.seqOk .chrOk (.seqOk h2 (.seqOk .chrOk .act))))

theorem string_dq {u : Str} (h : '"' ∉ u) (r : Str) :
    Ok (.call .String) ('"' :: (u ++ '"' :: r)) [.text u, .act 29] r := by
  have := strBody_ok h r
  have h2 := Big.txtOk this
  rw [txt_eq] at h2
  exact .call (.alt2 (.seqFail1 (.chrFail (by decide))) (.seqOk .chrOk (.seqOk h2 (.seqOk .chrOk .act))))

end Verif
