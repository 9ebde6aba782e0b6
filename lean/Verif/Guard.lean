import Verif.Template

/-! # Frames around arbitrary text -/

namespace Verif

open PExp

/-- What may stand for the text `q` between parentheses: a parenthesised expression or a list; the query's own tree if it has one. -/
def Within (q : Str) (m : Node) : Prop := ((∃ k, m = .paren k) ∨ ∃ l, m = .arr l) ∧ ∀ k, parse q = .ok k → m = .paren k

/-- Derivations of the parts of a match. -/
theorem Ok.sat {e s ev r} (h : Ok e s ev r) : Sat G (fun q s ev r => Ok (.call q) s ev r) e s ev r :=
  Big.sat (fun _ _ _ _ h _ => h) h _ _ rfl

theorem Ok.body {q s ev r} (h : Ok (.call q) s ev r) : Ok (G q) s ev r := by
  cases h with | call h => exact h

/-- The effect of events: at least one node, and exactly one, of which `P` holds, if there is no error. -/
def Yields (ev : List Ev) (P : Node → Prop) : Prop := ∃ ns es, Eff ev ns es ∧ ns ≠ [] ∧ (es = [] → ∃ n, ns = [n] ∧ P n)

theorem yields_logic {e0 e1 e2 : List Ev} {P Q : Node → Prop} {o : Str} (h0 : Yields e0 P) (h1 : Eff e1 [.op o] []) (h2 : Yields e2 Q) :
    Yields (e0 ++ (e1 ++ (e2 ++ [.act 0]))) (fun n => ∃ l r, n = .logic l (.op o) r ∧ P l ∧ Q r) := by
  obtain ⟨n0, s0, f0, z0, g0⟩ := h0
  obtain ⟨n2, s2, f2, z2, g2⟩ := h2
  have hf : Eff (e0 ++ (e1 ++ e2)) (n0 ++ ([.op o] ++ n2)) (s0 ++ s2) := by simpa using f0.append (h1.append f2)
  have hsp : ∃ p a b c, n0 ++ ([.op o] ++ n2) = p ++ [a, b, c] := by
    have key : ∀ l : List Node, 3 ≤ l.length → ∃ p a b c, l = p ++ [a, b, c] := by
      intro l hl
      refine ⟨l.take (l.length - 3), ?_⟩
      have hd : (l.drop (l.length - 3)).length = 3 := by simp; omega
      match hm : l.drop (l.length - 3), hd with
      | [a, b, c], _ => exact ⟨a, b, c, by rw [← hm, List.take_append_drop]⟩
    apply key
    have h0 := List.length_pos_iff.mpr z0
    have h2 := List.length_pos_iff.mpr z2
    simp only [List.length_append, List.length_cons, List.length_nil]
    omega
  obtain ⟨p, a, b, c, hp⟩ := hsp
  rw [hp] at hf
  refine ⟨p ++ [.logic a b c], s0 ++ s2, by simpa using eff_act0 hf, by simp, fun hs => ?_⟩
  obtain ⟨rfl, rfl⟩ := List.append_eq_nil_iff.mp hs
  obtain ⟨l, rfl, hl⟩ := g0 rfl
  obtain ⟨r, rfl, hr⟩ := g2 rfl
  have : p = [] ∧ a = l ∧ b = .op o ∧ c = r := by
    cases p with
    | nil => simpa [eq_comm] using hp
    | cons x p => have := congrArg List.length hp; simp at this
  obtain ⟨rfl, rfl, rfl, rfl⟩ := this
  exact ⟨_, rfl, _, _, rfl, hl, hr⟩

/-- Two closed texts in front of a closing parenthesis are equal. -/
theorem closed_unique {v q r t : Str} {a : Bool} (hv : Closed v a) (hq : Balanced q false) (h : v ++ ')' :: r = q ++ ')' :: t) :
    v = q ∧ r = t ∧ a = false := by
  have no : ∀ {x y z : Str} {m : Bool} {b : Bool}, scan x (.code, [], false) = some (.code, [], m) → x ++ ')' :: y = z →
      scan z (.code, [], false) ≠ some (.code, [], b) := by
    rintro x y z m b h rfl h'
    rw [scan_append, h] at h'
    simp [scan, scanStep] at h'
  have hv' := hv.balanced
  unfold Balanced at hq hv'
  rcases List.append_eq_append_iff.mp h with ⟨x, rfl, e⟩ | ⟨x, rfl, e⟩
  · cases x with
    | nil =>
      simp at e
      rw [List.append_nil, hv'] at hq
      simp at hq
      exact ⟨by simp, e, hq⟩
    | cons c x =>
      simp at e
      obtain ⟨rfl, -⟩ := e
      exact absurd hq (no hv' rfl)
  · cases x with
    | nil =>
      simp at e
      rw [List.append_nil, hq] at hv'
      simp at hv'
      exact ⟨by simp, e.symm, by simpa [eq_comm] using hv'⟩
    | cons c x =>
      simp at e
      obtain ⟨rfl, -⟩ := e
      exact absurd hv' (no hq rfl)

/-- Whatever stands between parentheses, if it matches at all, all of it does. -/
theorem prim_within {q t ev r} (hb : Balanced q false) (h : Ok (.call .PrimaryExpression) ('(' :: (q ++ ')' :: t)) ev r) :
    r = t ∧ Yields ev (Within q) := by
  have hw : ∀ {m : Node}, Eff ev [m] [] → r = t → ∀ k, parse q = .ok k → m = .paren k := by
    rintro m he rfl k hk
    obtain ⟨ev', ho, he'⟩ := paren_ok hk hb r
    have := Big.det h ho
    simp at this
    subst this
    have h1 := he.finish
    rw [he'.finish] at h1
    simpa [eq_comm] using h1
  rcases h.body.sat with h | ⟨_, h | ⟨_, h | ⟨_, h⟩⟩⟩
  · obtain ⟨e1, r1, e2, ⟨rfl, hs⟩, ⟨e3, r3, e4, h3, ⟨e5, r5, e6, h5, ⟨e7, r7, e8, h7, ⟨e9, r9, e10, ⟨rfl, rfl⟩,
      ⟨rfl, rfl⟩, rfl⟩, rfl⟩, rfl⟩, rfl⟩, rfl⟩ := h
    obtain ⟨rfl, w1, rfl, hw1⟩ : PostWS _ _ _ := post_all h3
    obtain ⟨u, a, ns, es, rfl, hc, he, hne, -, hr⟩ : PostE .logic _ _ _ := post_all h5
    obtain ⟨rfl, w2, rfl, hw2⟩ : PostWS _ _ _ := post_all h7
    simp only [List.cons.injEq, true_and] at hs
    obtain ⟨-, rfl, ha⟩ := closed_unique (v := w1 ++ (u ++ w2)) (hw1.closed.append (hc.append hw2.closed)) hb (by simpa using hs.symm)
    have ha : a = false := by simpa using ha
    obtain ⟨p, n, rfl⟩ := snoc hne.ne_nil
    have he := eff_act8 he
    refine ⟨rfl, p ++ [.paren n], es, by simpa using he, by simp, fun hes => ?_⟩
    obtain ⟨m, hm, -⟩ := hr ha hes
    have hp : p = [] := by cases p <;> simp at hm ⊢
    subst hp hes
    exact ⟨_, rfl, .inl ⟨n, rfl⟩, hw (by simpa using he) rfl⟩
  · have h : Ok (.call .Value) _ _ _ := h
    rcases h.body.sat with h | ⟨_, h⟩
    · exact absurd (Big.det h (big_none_cons (by decide) (by decide) (by decide))) (by simp)
    · have h : Ok (.call .Array) _ _ _ := h
      rcases h.body.sat with h | ⟨_, h⟩
      · obtain ⟨e1, r1, e2, ⟨rfl, hs⟩, -⟩ := h
        simp at hs
      · obtain ⟨e1, r1, e2, ⟨rfl, hs⟩, ⟨e3, r3, e4, ⟨rfl, rfl⟩, ⟨e5, r5, e6, h5, ⟨e7, r7, e8, h7, ⟨e9, r9, e10, h9,
          ⟨e11, r11, e12, ⟨rfl, rfl⟩, ⟨rfl, rfl⟩, rfl⟩, rfl⟩, rfl⟩, rfl⟩, rfl⟩, rfl⟩ := h
        obtain ⟨rfl, w, rfl, hw1⟩ : PostWS _ _ _ := post_all h5
        obtain ⟨v, a, ns, es, rfl, hc, hm, he, hcm, hr⟩ := sat_items (fun _ _ _ => literal_item) (Sat.mono (fun _ _ _ _ h => post_all h) _ _ _ _ h7)
        obtain ⟨rfl, w2, rfl, hw2⟩ : PostWS _ _ _ := post_all h9
        simp only [List.cons.injEq, true_and] at hs
        obtain ⟨-, rfl, -⟩ := closed_unique (v := w ++ (v ++ w2)) (hw1.closed.append (hc.append hw2.closed)) hb (by simpa using hs.symm)
        have he := eff_arr (k := 23) (k' := 24) (by decide) he
        refine ⟨rfl, [.arr ns], es, by simpa using he, by simp, fun hes => ⟨_, rfl, .inr ⟨ns, rfl⟩, ?_⟩⟩
        subst hes
        exact hw (by simpa using he) rfl
  · obtain ⟨e1, r1, e2, h, -⟩ := h
    have h : Ok (.call .Identifier) _ _ _ := h
    exact absurd (Big.det h (big_none_cons (by decide) (by decide) (by decide))) (by simp)
  · have h : Ok (.call .Reference) _ _ _ := h
    exact absurd (Big.det h (big_none_cons (by decide) (by decide) (by decide))) (by simp)

theorem not_no_paren {s : Str} (h : No (.call .PrimaryExpression) ('(' :: s)) : No (.call .NotExpression) ('(' :: s) :=
  .call (.alt2 (.call (.seqFail1 (.call (.seqFail1 (.call (.seqFail1 (.call (.seqFail1 h))))))))
    (.seqFail2 (sp_nil (Solid.cons (by decide)).no) (.seqFail1 (big_none_cons (by decide) (by decide) (by decide)))))

/-- Operands match, leaving blanks, or do not match at all. -/
def OpdFits (v : Str) (Q : Node → Prop) : Prop := Start v ∧ ∀ w x, WS w → Solid x → Glue v w x → NoB x → NoP x → NoI x → NoC x →
  (∃ ev r, (r = w ++ x ∨ r = x) ∧ Ok (.call .NotExpression) (v ++ (w ++ x)) ev r ∧ Yields ev Q) ∨ No (.call .NotExpression) (v ++ (w ++ x))

theorem Operand.fits {v Q} (h : Operand Within v Q) : OpdFits v Q := by
  cases h with
  | clear h =>
    have hf : FNeg _ _ := h.fwd
    refine ⟨hf.1, fun w x a b c d e f g => .inl ?_⟩
    obtain ⟨ev, r, hr, ho, he⟩ := hf.2 w x a b c d e f g
    exact ⟨ev, r, hr, ho, _, _, he, by simp, fun _ => ⟨_, rfl, rfl⟩⟩
  | @any q hb =>
    refine ⟨⟨_, _, rfl, by decide⟩, fun w x hw _ _ h1 h2 h3 h4 => ?_⟩
    have e : ('(' :: (q ++ c!")")) ++ (w ++ x) = '(' :: (q ++ ')' :: (w ++ x)) := by simp
    rw [e]
    obtain ⟨o, ho⟩ := big_total .PrimaryExpression ('(' :: (q ++ ')' :: (w ++ x)))
    cases o with
    | none => exact .inr (not_no_paren ho)
    | some p =>
      obtain ⟨ev, r⟩ := p
      obtain ⟨rfl, hy⟩ := prim_within hb ho
      exact .inl ⟨ev, _, .inl rfl, up_not (up_cmp (prim_cin ho (h1 _ hw) (h2 _ hw) (h3 _ hw)) (h4 _ hw)), hy⟩

/-- A rest that is more than blanks. -/
def Stuck (r : Str) : Prop := ∃ w y, WS w ∧ r = w ++ y ∧ Solid y ∧ y ≠ []

/-- A frame matches as a whole, or gets stuck. -/
def Fits (u : Str) (P : Node → Prop) : Prop := Start u ∧ ∀ w x, WS w → Solid x → Glue u w x → NoB x → NoP x → NoI x → NoC x →
  (∃ ev r, (r = w ++ x ∨ r = x) ∧ Yields ev P ∧ ∀ ev' r', Ok (.star logT) r ev' r' → Ok (.call .LogicExpression) (u ++ (w ++ x)) (ev ++ ev') r') ∨
  (∃ ev r, Stuck r ∧ Ok (.call .LogicExpression) (u ++ (w ++ x)) ev r) ∨ No (.call .LogicExpression) (u ++ (w ++ x))

theorem OpdFits.up {u P} (h : OpdFits u P) : Fits u P := by
  refine ⟨h.1, fun w x a b c d e f g => ?_⟩
  rcases h.2 w x a b c d e f g with ⟨ev, r, hr, ho, hy⟩ | hn
  · exact .inl ⟨ev, r, hr, hy, fun ev' r' hs => .call (.seqOk ho hs)⟩
  · exact .inr (.inr (.call (.seqFail1 hn)))

theorem Fits.more {u P w1 ob o w2 v Q} (h : Fits u P) (hw1 : WS w1) (hob : LogicOp ob o) (hap : Apart u w1 ob) (hw2 : WS w2) (hv : OpdFits v Q) :
    Fits (u ++ (w1 ++ (ob ++ (w2 ++ v)))) (fun n => ∃ l r, n = .logic l (.op o) r ∧ P l ∧ Q r) := by
  refine ⟨h.1.append _, fun w x hw hb hg h1 h2 h3 h4 => ?_⟩
  have hsol : Solid (ob ++ (w2 ++ (v ++ (w ++ x)))) := hob.hd _ (by decide)
  have hne : ob ≠ [] := by
    rintro rfl
    have := hob.hd (S := wsF) [' '] (by decide)
    exact absurd (this ' ' [] rfl) (by decide)
  have hgv : Glue v w x := by
    have : Glue ((u ++ (w1 ++ (ob ++ w2))) ++ v) w x := by simpa using hg
    exact this.right
  have nt := fun w' (hw' : WS w') => After.of (r := ob ++ (w2 ++ (v ++ (w ++ x)))) hw' hsol (hob.hd _ (by decide)) (hob.hd _ (by decide))
  have hu := h.2 w1 (ob ++ (w2 ++ (v ++ (w ++ x)))) hw1 hsol
    (hap.glue hw1 hne (by have := hob.hd (S := [('.', '.'), ('(', '('), ('0', '9')]) [] (by decide); rwa [List.append_nil] at this))
    (fun w' hw' => (nt w' hw').1) (fun w' hw' => (nt w' hw').2.1) (fun w' hw' => (nt w' hw').2.2.1) (fun w' hw' => (nt w' hw').2.2.2)
  have e : (u ++ (w1 ++ (ob ++ (w2 ++ v)))) ++ (w ++ x) = u ++ (w1 ++ (ob ++ (w2 ++ (v ++ (w ++ x))))) := by simp
  rw [e]
  rcases hu with ⟨eu, r, hr, yu, oku⟩ | hu | hu
  · have hlog : ∃ ec, Ok (.call .Logic) r ec (v ++ (w ++ x)) ∧ Eff ec [.op o] [] := by
      rcases hr with rfl | rfl
      · exact logic_ok hw1 hob hw2 (hv.1.solid _)
      · have := logic_ok (w1 := []) .nil hob hw2 (hv.1.solid (w ++ x))
        simpa using this
    obtain ⟨ec, okc, efc⟩ := hlog
    rcases hv.2 w x hw hb hgv h1 h2 h3 h4 with ⟨ev, rv, hrv, okv, yv⟩ | hn
    · refine .inl ⟨eu ++ (ec ++ (ev ++ [.act 0])), rv, hrv, yields_logic yu efc yv, fun ev' r' hs => ?_⟩
      have := oku _ _ (.starCons (.seqOk okc (.seqOk okv .act)) hs)
      simpa using this
    · refine .inr (.inl ⟨_, r, ?_, oku _ _ (.starNil (.seqFail2 okc (.seqFail1 hn)))⟩)
      have hne' : ob ++ (w2 ++ (v ++ (w ++ x))) ≠ [] := by simp [hne]
      rcases hr with rfl | rfl
      · exact ⟨w1, _, hw1, rfl, hsol, hne'⟩
      · exact ⟨[], _, .nil, rfl, hsol, hne'⟩
  · exact .inr (.inl hu)
  · exact .inr (.inr hu)

theorem Frame.fits {u P} (h : Frame Within u P) : Fits u P := by
  induction h with
  | one h => exact h.fits.up
  | more _ a b c d e ih => exact ih.more a b c d e.fits

/-- A frame that is accepted is read as a frame. -/
theorem frame_parse {u P w1 w2 n} (h : Frame Within u P) (hw1 : WS w1) (hw2 : WS w2) (hp : parse (w1 ++ (u ++ w2)) = .ok n) : P n := by
  have hf := h.fits
  have hg : Glue u w2 [] := glue_hd (by rw [List.append_nil]; exact ws_hd hw2 (by decide))
  have haft : ∀ w, WS w → After (w ++ []) := fun w hw => After.of hw Solid.nil Hd.nil Hd.nil
  have hx := hf.2 w2 [] hw2 Solid.nil hg (fun w hw => (haft w hw).1) (fun w hw => (haft w hw).2.1) (fun w hw => (haft w hw).2.2.1) (fun w hw => (haft w hw).2.2.2)
  rw [List.append_nil] at hx
  rcases parse_cases (w1 ++ (u ++ w2)) with ⟨ev, hgr, hpe⟩ | ⟨_, b, e, hpe, _⟩
  · obtain ⟨e1, r1, e2, h1, ⟨e3, r3, e4, h3, ⟨e5, r5, e6, h5, h6, rfl⟩, rfl⟩, rfl⟩ := (Ok.body hgr).sat
    have h1 : Ok (.call .sp) _ _ _ := h1
    have h3 : Ok (.call .Expression) _ _ _ := h3
    have h5 : Ok (.call .sp) _ _ _ := h5
    obtain ⟨rfl, rfl, -⟩ : Post .EndOfFile _ _ _ := post_all h6
    have hs1 := Big.det h1 (sp_ok hw1 (hf.1.solid w2).no)
    simp at hs1
    obtain ⟨rfl, rfl⟩ := hs1
    obtain ⟨rfl, -⟩ : PostWS _ _ _ := post_all h5
    have h3 : Ok (.call .LogicExpression) _ _ _ := h3.body
    rcases hx with ⟨eu, r, hr, yu, oku⟩ | ⟨eu, r, ⟨w, y, hw, rfl, hy, hne⟩, oku⟩ | hn
    · have hr' : WS r := by
        rcases hr with rfl | rfl
        · exact hw2
        · exact .nil
      have hlog : No logT r := by have := logT_no hr' Solid.nil Hd.nil; simpa using this
      have := Big.det h3 (oku _ _ (.starNil hlog))
      simp at this
      obtain ⟨rfl, rfl⟩ := this
      obtain ⟨ns, es, he, -, hP⟩ := yu
      simp only [List.append_nil, List.nil_append] at hpe
      rw [hpe, finish, he.finish] at hp
      cases es with
      | nil =>
        obtain ⟨m, rfl, hm⟩ := hP rfl
        simp [Tree.pop] at hp
        rw [← hp]; exact hm
      | cons x xs => simp at hp
    · have := Big.det h3 oku
      simp at this
      obtain ⟨rfl, rfl⟩ := this
      have := Big.det h5 (sp_ok hw hy.no)
      simp at this
      exact absurd this hne
    · exact absurd (Big.det h3 hn) (by simp)
  · rw [hpe] at hp; cases hp

end Verif
