import Verif.PlainAll
import Verif.Props.Inert
import Verif.Props.Layout

/-! # Queries without comments

`--` and `//` inside strings are no comments.  The operators of a query do not depend on the contents of its strings (C62), so the strings
can be emptied, and the theorem about texts without these signs applies. -/

namespace Verif

theorem commentless_append {σ : Mode} {a b : Str} (h : commentless σ (a ++ b) = true) :
    commentless σ a = true ∧ commentless (modeFrom σ a) b = true := by
  induction a generalizing σ with
  | nil =>
    refine ⟨?_, h⟩
    cases σ with
    | comment => cases b <;> cases h
    | _ => rfl
  | cons c a ih =>
    cases σ with
    | comment => cases h
    | _ => exact ih h

theorem commentless_ne {σ : Mode} {a : Str} (h : commentless σ a = true) : σ ≠ .comment := by
  rintro rfl
  cases a <;> cases h

/-- Outside strings and comments. -/
def Mode.plain : Mode → Prop
  | .code | .dash | .slash => True
  | _ => False

theorem plain_step {σ : Mode} (h : σ.plain) {c : Char} (h1 : c ≠ '\'') (h2 : c ≠ '"') : modeStep σ c ≠ .comment → (modeStep σ c).plain := by
  cases σ with
  | comment | sq | dq => cases h
  | _ =>
    simp only [modeStep, if_neg h1, if_neg h2]
    intro hc
    split
    · split
      · simp_all
      · trivial
    · split
      · split
        · simp_all
        · trivial
      · trivial

theorem plain_from {σ : Mode} (h : σ.plain) {x : Str} (hx : ∀ c ∈ x, c ≠ '\'' ∧ c ≠ '"') (hc : commentless σ x = true) : (modeFrom σ x).plain := by
  induction x generalizing σ with
  | nil => exact h
  | cons c x ih =>
    have hc' : commentless (modeStep σ c) x = true := by
      cases σ with
      | comment => cases hc
      | _ => exact hc
    exact ih (plain_step h (hx c (by simp)).1 (hx c (by simp)).2 (commentless_ne hc')) (fun d hd => hx d (List.mem_cons_of_mem _ hd)) hc'

theorem commentFree_plain {x : Str} (hx : ∀ c ∈ x, c ≠ '\'' ∧ c ≠ '"') (hc : commentless .code x = true) : CommentFree x := by
  constructor
  · rintro ⟨a, b, rfl⟩
    rw [List.append_assoc] at hc
    obtain ⟨h1, h2⟩ := commentless_append hc
    have hp := plain_from (σ := .code) trivial (fun c h => hx c (by simp [h])) h1
    generalize modeFrom .code a = σ at h2 hp
    cases σ with
    | comment | sq | dq => cases hp
    | _ => cases b <;> cases h2
  · rintro ⟨a, b, rfl⟩
    rw [List.append_assoc] at hc
    obtain ⟨h1, h2⟩ := commentless_append hc
    have hp := plain_from (σ := .code) trivial (fun c h => hx c (by simp [h])) h1
    generalize modeFrom .code a = σ at h2 hp
    cases σ with
    | comment | sq | dq => cases hp
    | _ => cases b <;> cases h2

theorem CommentFree.cons {c : Char} {s : Str} (h : CommentFree s) (h1 : ¬ c!"--" <+: c :: s) (h2 : ¬ c!"//" <+: c :: s) : CommentFree (c :: s) :=
  ⟨fun h' => (List.infix_cons_iff.1 h').elim h1 h.1, fun h' => (List.infix_cons_iff.1 h').elim h2 h.2⟩

theorem CommentFree.quote {q : Char} (hq : q = '\'' ∨ q = '"') {s : Str} (h : CommentFree s) : CommentFree (q :: s) := by
  refine h.cons ?_ ?_ <;>
  · rintro ⟨t, ht⟩
    cases ht
    revert hq
    decide

/-- A quote keeps the two sides apart. -/
theorem CommentFree.glue {q : Char} (hq : q = '\'' ∨ q = '"') {u w : Str} (hu : CommentFree u) (hw : CommentFree w) : CommentFree (u ++ q :: w) := by
  induction u with
  | nil => exact hw.quote hq
  | cons c u ih =>
    have ih := ih hu.tail
    refine CommentFree.cons ih ?_ ?_
    · rintro ⟨t, ht⟩
      cases u with
      | nil => cases ht; revert hq; decide
      | cons d u => cases ht; exact hu.1 ⟨[], u, rfl⟩
    · rintro ⟨t, ht⟩
      cases u with
      | nil => cases ht; revert hq; decide
      | cons d u => cases ht; exact hu.2 ⟨[], u, rfl⟩

theorem quote_first : ∀ w : Str, (∀ c ∈ w, c ≠ '\'' ∧ c ≠ '"') ∨
    ∃ x q r, w = x ++ q :: r ∧ (∀ c ∈ x, c ≠ '\'' ∧ c ≠ '"') ∧ (q = '\'' ∨ q = '"')
  | [] => .inl (by simp)
  | c :: w => by
    by_cases h : c = '\'' ∨ c = '"'
    · exact .inr ⟨[], c, w, rfl, by simp, h⟩
    · rcases quote_first w with h' | ⟨x, q, r, rfl, h1, h2⟩
      · left
        intro d hd
        rcases List.mem_cons.1 hd with rfl | hd
        · exact ⟨fun e => h (.inl e), fun e => h (.inr e)⟩
        · exact h' d hd
      · right
        refine ⟨c :: x, q, r, rfl, ?_, h2⟩
        intro d hd
        rcases List.mem_cons.1 hd with rfl | hd
        · exact ⟨fun e => h (.inl e), fun e => h (.inr e)⟩
        · exact h1 d hd

theorem putStrL_map (m v : Str) : ∀ l, putStrL m v l = l.map (putStr m v)
  | [] => rfl
  | n :: l => by rw [putStrL, putStrL_map m v l]; rfl

theorem kids_put (m v : Str) (n : Node) : kids (putStr m v n) = (kids n).map (putStr m v) := by
  cases n <;> simp [putStr, kids, putStrL_map]

theorem subOp_put {m v o : Str} {n : Node} (h : Sub (.op o) (putStr m v n)) : Sub (.op o) n := by
  generalize hx : putStr m v n = x at h
  generalize hy : Node.op o = y at h
  induction h generalizing n with
  | refl =>
    subst hy
    cases n <;> simp [putStr] at hx
    rw [hx]
    exact .refl
  | step hk _ ih =>
    subst hx hy
    rw [kids_put] at hk
    obtain ⟨k, hk', rfl⟩ := List.mem_map.1 hk
    exact .step hk' (ih rfl)

theorem put_subOp {m v o : Str} {n : Node} (h : Sub (.op o) n) : Sub (.op o) (putStr m v n) := by
  generalize hy : Node.op o = y at h
  induction h with
  | refl => subst hy; exact .refl
  | step hk _ ih => exact .step (by rw [kids_put]; exact List.mem_map_of_mem hk) ih

theorem modeFrom_append (σ : Mode) (a b : Str) : modeFrom σ (a ++ b) = modeFrom (modeFrom σ a) b := by simp [modeFrom]

theorem plain_noComment_aux : ∀ (k : Nat) {u w : Str} {n : Node}, w.length ≤ k → (u = [] ∨ ∃ u' q, (q = '\'' ∨ q = '"') ∧ u = u' ++ [q]) →
    modeAfter u = .code → CommentFree u → commentless .code w = true → parse (u ++ w) = .ok n → ∀ o, Sub (.op o) n → o ∈ opNames := by
  intro k
  induction k with
  | zero =>
    intro u w n hk _ _ hu _ hp
    cases List.eq_nil_of_length_eq_zero (Nat.le_zero.1 hk)
    rw [List.append_nil] at hp
    exact parse_plain_all hp hu
  | succ k ih =>
    intro u w n hk hend hmode hu hw hp
    have glue : ∀ {x : Str}, CommentFree x → CommentFree (u ++ x) := by
      intro x hx
      rcases hend with rfl | ⟨u', q, hq, rfl⟩
      · exact hx
      · rw [List.append_assoc]
        exact (hu.left).glue hq hx
    rcases quote_first w with hno | ⟨x, q, r, rfl, hx, hq⟩
    · exact parse_plain_all hp (glue (commentFree_plain hno hw))
    · obtain ⟨hcx, hcr⟩ := commentless_append hw
      have hmx : modeAfter (u ++ x) = modeFrom .code x := by rw [modeAfter, modeFrom_append, ← modeAfter, hmode]
      obtain ⟨a, hb⟩ := C04_accepted_balanced _ _ hp
      -- the accepted text has a string here
      have hcode : modeFrom .code x = .code := by
        have hpl := plain_from (σ := .code) trivial hx hcx
        unfold Balanced at hb
        rw [← List.append_assoc, scan_append] at hb
        cases hs : scan (u ++ x) (.code, [], false) with
        | none => rw [hs] at hb; cases hb
        | some y =>
          rw [hs] at hb
          have hy := scan_mode hs
          change y.1 = modeAfter (u ++ x) at hy
          rw [hmx] at hy
          rw [← hy] at hpl ⊢
          obtain ⟨σ, st, b⟩ := y
          change scan (q :: r) _ = _ at hb
          rw [scan] at hb
          cases σ with
          | code => rfl
          | comment | sq | dq => cases hpl
          | dash => rcases hq with rfl | rfl <;> simp [scanStep] at hb
          | slash => rcases hq with rfl | rfl <;> simp [scanStep] at hb
      have hend := (scan_mode hb).symm
      change modeFrom .code (u ++ (x ++ q :: r)) = .code at hend
      rw [modeFrom_append, ← modeAfter, hmode, modeFrom_append, hcode] at hend
      rw [hcode] at hcr
      obtain ⟨v, w, rfl, hv, hwm, hcw⟩ : ∃ v w, r = v ++ q :: w ∧ q ∉ v ∧ modeFrom .code w = .code ∧ commentless .code w = true := by
        have hsq : ∀ {q : Char} {m : Mode}, (∀ c, modeStep m c = if c = q then .code else m) → ∀ {v : Str}, q ∉ v → modeFrom m v = m := by
          intro q m hm v
          induction v with
          | nil => exact fun _ => rfl
          | cons d v ih =>
            intro hv
            show modeFrom (modeStep m d) v = m
            rw [hm, if_neg (fun e => hv (by simp [e]))]
            exact ih (fun h => hv (List.mem_cons_of_mem _ h))
        rcases hq with rfl | rfl
        · obtain ⟨v, w, rfl, h1, h2⟩ := quote_split (m := .sq) (fun c => rfl) (by simp) hend
          refine ⟨v, w, rfl, h1, h2, ?_⟩
          have := (commentless_append (σ := .sq) (a := v) hcr).2
          rw [hsq (m := .sq) (fun c => rfl) h1] at this
          exact this
        · obtain ⟨v, w, rfl, h1, h2⟩ := quote_split (m := .dq) (fun c => rfl) (by simp) hend
          refine ⟨v, w, rfl, h1, h2, ?_⟩
          have := (commentless_append (σ := .dq) (a := v) hcr).2
          rw [hsq (m := .dq) (fun c => rfl) h1] at this
          exact this
      rw [← List.append_assoc] at hp
      rcases C62_prepared (w := w) hq (hmx.trans hcode) with ⟨m, n0, _, _, hall⟩ | hall
      · have e := hall v hv
        rw [hp] at e
        cases e
        have hp' := hall [] (by simp)
        have hq2 : modeAfter (u ++ x ++ [q, q]) = .code := by
          rw [modeAfter, modeFrom_append, ← modeAfter, hmx, hcode]
          rcases hq with rfl | rfl <;> rfl
        have e2 : u ++ x ++ q :: ([] ++ q :: w) = (u ++ x ++ [q, q]) ++ w := by simp
        rw [e2] at hp'
        have hcf : CommentFree (u ++ x ++ [q, q]) :=
          (glue (commentFree_plain hx hcx)).glue hq (CommentFree.quote hq ⟨by decide, by decide⟩)
        have hl : w.length ≤ k := by simp at hk; omega
        have := ih hl (.inr ⟨u ++ x ++ [q], q, hq, by simp⟩) hq2 hcf hcw hp'
        exact fun o ho => this o (put_subOp (subOp_put ho))
      · obtain ⟨e, he⟩ := hall v hv
        rw [hp] at he
        cases he

/-- In a query without comments every operator is recorded under a documented name. -/
theorem parse_plain_nc {s n} (h : parse s = .ok n) (hf : NoComment s) : ∀ o, Sub (.op o) n → o ∈ opNames :=
  plain_noComment_aux s.length (u := []) (Nat.le_refl _) (.inl rfl) rfl ⟨by decide, by decide⟩ hf h

theorem mem_opsOfL {o : Str} : ∀ {l : List Node}, o ∈ opsOfL l ↔ ∃ m ∈ l, o ∈ opsOf m
  | [] => by simp [opsOfL]
  | n :: l => by simp [opsOfL, mem_opsOfL (l := l)]

theorem sub_opsOf {o : Str} {n : Node} (h : Sub (.op o) n) : o ∈ opsOf n := by
  generalize e : Node.op o = m at h
  induction h with
  | refl => cases e; simp [opsOf]
  | @step k n hk _ ih =>
    have := ih
    cases n <;> simp only [kids, List.mem_cons, List.not_mem_nil, or_false] at hk <;> simp only [opsOf, List.mem_append, mem_opsOfL] <;>
      first | exact ⟨_, hk, this⟩ | (rcases hk with rfl | rfl | rfl | rfl <;> simp [this]) | (rcases hk with rfl | rfl | rfl <;> simp [this]) |
        (rcases hk with rfl | rfl <;> simp [this]) | (cases hk; exact this)

/-- If no comment stands inside an operator, every operator is recorded under a documented name. -/
theorem parse_plain_out {s n} (h : parse s = .ok n) (hf : CommentsOutside n) : ∀ o, Sub (.op o) n → o ∈ opNames :=
  fun o ho => OpName.plain ((parse_fine h).1.subOp o ho) (hf o (sub_opsOf ho))

theorem Sub.inner {m k n : Node} (h : k ∈ kids n) (hs : Sub m k) : Sub m n := .step h hs

mutual
theorem opsOf_sub {o : Str} : ∀ {n : Node}, o ∈ opsOf n → Sub (.op o) n
  | .op p, h => by simp only [opsOf, List.mem_singleton] at h; rw [h]; exact .refl
  | .arr l, h => by obtain ⟨m, hm, hs⟩ := opsOfL_sub (l := l) (by simpa [opsOf] using h); exact hs.inner hm
  | .func f l, h => by obtain ⟨m, hm, hs⟩ := opsOfL_sub (l := l) (by simpa [opsOf] using h); exact hs.inner hm
  | .paren e, h => (opsOf_sub (n := e) (by simpa [opsOf] using h)).inner (by simp [kids])
  | .not e, h => (opsOf_sub (n := e) (by simpa [opsOf] using h)).inner (by simp [kids])
  | .pred l p, h => by
    simp only [opsOf, List.mem_append] at h
    rcases h with h | h
    · exact (opsOf_sub h).inner (by simp [kids])
    · exact (opsOf_sub h).inner (by simp [kids])
  | .cmp l p r, h => by
    simp only [opsOf, List.mem_append] at h
    rcases h with h | h | h
    · exact (opsOf_sub h).inner (by simp [kids])
    · exact (opsOf_sub h).inner (by simp [kids])
    · exact (opsOf_sub h).inner (by simp [kids])
  | .logic l p r, h => by
    simp only [opsOf, List.mem_append] at h
    rcases h with h | h | h
    · exact (opsOf_sub h).inner (by simp [kids])
    · exact (opsOf_sub h).inner (by simp [kids])
    · exact (opsOf_sub h).inner (by simp [kids])
  | .between l p a b, h => by
    simp only [opsOf, List.mem_append] at h
    rcases h with h | h | h | h
    · exact (opsOf_sub h).inner (by simp [kids])
    · exact (opsOf_sub h).inner (by simp [kids])
    · exact (opsOf_sub h).inner (by simp [kids])
    · exact (opsOf_sub h).inner (by simp [kids])
  | .nil, h => by simp [opsOf] at h
  | .int _, h => by simp [opsOf] at h
  | .bool _, h => by simp [opsOf] at h
  | .str _, h => by simp [opsOf] at h
  | .null, h => by simp [opsOf] at h
  | .ident _, h => by simp [opsOf] at h
  | .ref _, h => by simp [opsOf] at h
theorem opsOfL_sub {o : Str} : ∀ {l : List Node}, o ∈ opsOfL l → ∃ m ∈ l, Sub (.op o) m
  | [], h => by simp [opsOfL] at h
  | n :: l, h => by
    simp only [opsOfL, List.mem_append] at h
    rcases h with h | h
    · exact ⟨n, by simp, opsOf_sub h⟩
    · obtain ⟨m, hm, hs⟩ := opsOfL_sub h
      exact ⟨m, by simp [hm], hs⟩
end

/-- A query without comments has none inside operators. -/
theorem NoComment.outside {s n} (h : parse s = .ok n) (hf : NoComment s) : CommentsOutside n := by
  intro o ho
  have h1 := parse_plain_nc h hf o (opsOf_sub ho)
  have : ∀ o ∈ opNames, ¬ c!"--" <:+: o ∧ ¬ c!"//" <:+: o := by decide
  exact this o h1

end Verif
