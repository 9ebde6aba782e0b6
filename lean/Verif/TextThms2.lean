import Verif.TextThms
import Verif.Spec.Names

/-! # Further lemmas for the text level properties -/

namespace Verif

open PExp

/-- The result of `Parse` for a tree and the errors met while building it. -/
def outcome (m : Node) : List Err → ParseRes
  | [] => .ok m
  | e :: _ => .err e

/-- Reading a last operand that may report an error. -/
theorem parse_operand {u l w1 ob o w2 v m es ev} (hu : Sp .cmp u l) (hw1 : WS w1) (hob : CmpW ob o) (hap : Apart u w1 ob) (hw2 : WS w2)
    (hv : Ok (.call .CompareInExpression) v ev []) (hsv : Start v) (he : Eff ev [m] es) :
    parse (u ++ (w1 ++ (ob ++ (w2 ++ v)))) = outcome (.cmp l (.op o) m) es := by
  have hf : FCmp u l := hu.fwd
  have hsol := hob.reach.solid (w2 ++ v)
  have hne : ob ≠ [] := by
    rintro rfl
    have := hob.reach.solid [' ']
    exact absurd (this ' ' [] rfl) (by decide)
  have sv : Solid v := by have := hsv.solid []; rwa [List.append_nil] at this
  have ev0 : Hd eqF v := by have := hsv.noEq []; rwa [List.append_nil] at this
  obtain ⟨eu, r, hr, efu, oku⟩ := hf.2 w1 (ob ++ (w2 ++ v)) hw1 hsol
    (hap.glue hw1 hne (by have := hob.hd (S := [('.', '.'), ('(', '('), ('0', '9')]) (by decide) []; rwa [List.append_nil] at this))
    (fun w' hw' => (hob.reach.noTails hw').1) (fun w' hw' => (hob.reach.noTails hw').2.1) (fun w' hw' => (hob.reach.noTails hw').2.2)
  have hcmp : ∃ ec, Ok (.call .Compare) r ec v ∧ Eff ec [.op o] [] := by
    rcases hr with rfl | rfl
    · exact compare_ok hw1 hob.reach hw2 sv ev0
    · have := compare_ok (w1 := []) .nil hob.reach hw2 sv ev0
      simpa using this
  obtain ⟨ec, okc, efc⟩ := hcmp
  have hc : No cmpT [] := by have := cmpT_no .nil Solid.nil Hd.nil; simpa using this
  have hl : No logT [] := by have := logT_no .nil Solid.nil Hd.nil; simpa using this
  have h1 := oku _ _ (.starCons (.seqOk okc (.seqOk hv .act)) (.starNil hc))
  have hp := parse_of_big (.call (.seqOk (sp_nil (hf.1.solid _).no) (.seqOk (.call (up_log (up_not h1) hl)) (.seqOk (sp_nil Solid.nil.no) (.call (.notOk .anyFail))))))
  rw [hp, finish]
  have := eff_act2 (ns := []) (by have := (efu.append efc).append he; simpa using this)
  rw [Eff.finish (ns := [.cmp l (.op o) m]) (es := es) (by simpa using this)]
  cases es <;> rfl

/-- A lone primary expression that may report an error. -/
theorem parse_lone {v ev m es} (hv : Ok (.call .PrimaryExpression) v ev []) (hs : Solid v) (he : Eff ev [m] es) :
    parse v = outcome m es := by
  have h : NoB [] ∧ NoP [] ∧ NoI [] := stop_of_hd Solid.nil Hd.nil
  have hc : No cmpT [] := by have := cmpT_no .nil Solid.nil Hd.nil; simpa using this
  have hl : No logT [] := by have := logT_no .nil Solid.nil Hd.nil; simpa using this
  have h1 := up_log (up_not (up_cmp (prim_cin hv (h.1 [] .nil) (h.2.1 [] .nil) (h.2.2 [] .nil)) hc)) hl
  have hp := parse_of_big (.call (.seqOk (sp_nil hs.no) (.seqOk (.call h1) (.seqOk (sp_nil Solid.nil.no) (.call (.notOk .anyFail))))))
  rw [hp, finish, Eff.finish (ns := [m]) (es := es) (by simpa using he)]
  cases es <;> rfl

theorem prim_int (k : Nat) : ∃ ev, Ok (.call .PrimaryExpression) (Nat.toDigits 10 k) ev [] ∧ Start (Nat.toDigits 10 k) ∧
    Eff ev [.int (if k ≤ maxInt then k else maxInt)] (if k ≤ maxInt then [] else [.intRange (Nat.toDigits 10 k)]) := by
  have h0 := Literal_int k (r := []) Hd.nil
  rw [List.append_nil] at h0
  obtain ⟨hd, -, -⟩ := toDigits_digits k
  cases hu : Nat.toDigits 10 k with
  | nil => exact absurd hu (toDigits_ne_nil k)
  | cons c u =>
    rw [hu] at h0 hd
    have hcd := (isDigit_iff c).mp (hd c (by simp))
    have hcp : CSet.has [('0', '9')] c = true := by simp [CSet.has]; exact hcd
    refine ⟨_, .call (.alt2 (paren_alt_no fun t' e => ?_) (.alt1 (.call (.alt1 h0)))), ⟨c, u, rfl, CSet.has_sub (by decide) hcp⟩, ?_⟩
    · simp at e; rw [e.1] at hcp; exact absurd hcp (by decide)
    · have := eff_int (c :: u)
      rw [← hu, atoi_toDigits] at this
      rw [← hu]
      by_cases hk : k ≤ maxInt
      · rw [if_pos hk] at this ⊢; rw [if_pos hk]; exact this
      · rw [if_neg hk] at this ⊢; rw [if_neg hk]; exact this

theorem prim_cin_end {v ev} (h : Ok (.call .PrimaryExpression) v ev []) : Ok (.call .CompareInExpression) v ev [] := by
  have hs : NoB [] ∧ NoP [] ∧ NoI [] := stop_of_hd Solid.nil Hd.nil
  exact prim_cin h (hs.1 [] .nil) (hs.2.1 [] .nil) (hs.2.2 [] .nil)

/-- Lifting spellings. -/
theorem Sp.prim_cin {u n} (h : Sp .prim u n) : Sp .cin u n := .cinUp (.prdUp (.btwUp h))
theorem Sp.cin_logic {u n} (h : Sp .cin u n) : Sp .logic u n := .logicUp (.negUp (.cmpUp h))
theorem Sp.cmp_logic {u n} (h : Sp .cmp u n) : Sp .logic u n := .logicUp (.negUp h)
theorem Sp.parse {u n} (h : Sp .logic u n) : Verif.parse u = .ok n := by
  have := spaced_parse (s := u) (n := n) ⟨[], u, [], by simp, .nil, .inl h, .nil⟩
  exact this

theorem headsL_lit {u ns} (h : LitItems u ns) : headsL ns = [] := by
  induction h with
  | one h => cases h <;> rfl
  | more _ _ _ h ih => rw [headsL_append, ih]; cases h <;> rfl

theorem heads_val {u n} (h : Val u n) : heads n = [] := by
  rcases h with h | h
  · cases h <;> rfl
  · cases h with
    | empty => rfl
    | items _ _ h => simp [heads, headsL_lit h]

theorem kwFree_left {u v : Str} (h : KwFree (u ++ v)) : KwFree u := fun k hk hp => h k hk (hp.trans (List.prefix_append _ _))

/-- A name that can start a column: no literal keyword and no `not` in front. -/
def Usable (x : Str) : Prop := KwFree x ∧ ∀ a t, x = a ++ t → ¬ CI c!"not" a

theorem Rd.heads {l u n} (h : Rd l u n) : ∀ x ∈ heads n, Usable x := by
  induction h with
  | val h => rw [heads_val h]; simp
  | @name u n h hk =>
    cases h with
    | ident hu => intro x hx; simp [Verif.heads] at hx; subst hx; exact ⟨hk, hu.2⟩
    | ref hu =>
      intro x hx
      simp [Verif.heads] at hx
      subst hx
      rw [joinDots_head] at hk
      exact ⟨kwFree_left hk, (hu _ (by simp)).2⟩
  | paren _ _ _ ih => exact ih
  | func hf hk _ ih =>
    intro x hx
    simp only [Verif.heads, List.mem_cons] at hx ih
    rcases hx with rfl | hx
    · exact ⟨hk, hf.2⟩
    · exact ih x hx
  | argOne _ ih => intro x hx; simp [Verif.heads, headsL] at hx ih; exact ih x hx
  | argMore _ _ _ _ ih1 ih2 =>
    intro x hx
    simp only [Verif.heads, headsL_append, List.mem_append] at hx ih1
    rcases hx with hx | hx
    · exact ih1 x hx
    · simp [headsL] at hx; exact ih2 x hx
  | argsNone => simp [Verif.heads, headsL]
  | argsSome _ _ _ _ _ ih => exact ih
  | btwUp _ ih => exact ih
  | btwAnd _ _ _ _ h1 _ _ _ h2 ih => intro x hx; simp [Verif.heads, heads_val h1, heads_val h2] at hx; exact ih x hx
  | btwArr _ _ _ _ _ h1 _ _ h2 _ ih => intro x hx; simp [Verif.heads, heads_val h1, heads_val h2] at hx; exact ih x hx
  | prdUp _ ih => exact ih
  | pred _ _ _ _ _ ih => intro x hx; simp [Verif.heads] at hx; exact ih x hx
  | cinUp _ ih => exact ih
  | isIn _ _ _ _ ha ih =>
    intro x hx
    simp [Verif.heads, heads_val (.inr ha)] at hx
    exact ih x hx
  | cmpUp _ ih => exact ih
  | cmp _ _ _ _ _ ih1 ih2 =>
    intro x hx
    simp [Verif.heads] at hx
    rcases hx with hx | hx
    · exact ih1 x hx
    · exact ih2 x hx
  | negUp _ ih => exact ih
  | neg _ _ _ _ _ ih => exact ih
  | logicUp _ ih => exact ih
  | logic _ _ _ _ _ ih1 ih2 =>
    intro x hx
    simp [Verif.heads] at hx
    rcases hx with hx | hx
    · exact ih1 x hx
    · exact ih2 x hx

theorem not_no {k y : Str} (hk : CI c!"not" k) (hy : Solid y) : No (.call .NotExpression) (k ++ y) := by
  have hsol : Solid (k ++ y) := hk.hd (by decide) (by decide) _
  exact .call (.alt2 (compare_no_not hk) (.seqFail2 (sp_nil hsol.no) (.seqFail2 (ciLit_ok _ hk) (.seqFail1 (.call (.seqFail1 hy.no))))))

end Verif
