import Verif.Sound

/-! # Soundness: values, names and expressions -/

namespace Verif

/-! ## Literals -/

theorem digit_plain {c : Char} (h : c.isDigit) : Plain c := by
  rw [isDigit_iff] at h
  have hs : ∀ d : Char, (d.toNat < 48 ∨ 57 < d.toNat) → c ≠ d := fun d hd => char_ne_of_toNat (by omega)
  exact ⟨hs _ (by decide), hs _ (by decide), hs _ (by decide), hs _ (by decide), hs _ (by decide), hs _ (by decide),
    hs _ (by decide), hs _ (by decide)⟩

theorem iter_digits {s ev r} (h : Iter (SatG (.rng '0' '9')) s ev r) : ev = [] ∧ ∃ u, s = u ++ r ∧ ∀ c ∈ u, c.isDigit := by
  induction h with
  | nil => exact ⟨rfl, [], rfl, by simp⟩
  | cons h _ ih =>
    obtain ⟨rfl, c, rfl, h1, h2⟩ := h
    obtain ⟨rfl, u, rfl, hu⟩ := ih
    refine ⟨rfl, c :: u, rfl, ?_⟩
    intro d hd
    rcases List.mem_cons.mp hd with rfl | hd
    · exact (isDigit_iff _).mpr ⟨h1, h2⟩
    · exact hu d hd

theorem lit_int {u : Str} (hd : ∀ c ∈ u, c.isDigit) (hc : Nat.toDigits 10 (decValue 0 u) = u) (h : (atoi u).2 = none) :
    Lit u (.int (atoi u).1) := by
  have hne : u ≠ [] := by intro e; rw [e] at hc; exact toDigits_ne_nil _ hc
  unfold atoi at h ⊢
  have hall : ¬ (u = [] ∨ ¬ (u.all Char.isDigit) = true) := by
    simp only [not_or, Classical.not_not]
    exact ⟨hne, List.all_eq_true.mpr hd⟩
  rw [if_neg hall] at h ⊢
  split
  · rename_i hle
    have := Lit.int hle
    rw [hc] at this
    exact this
  · rename_i hle; rw [if_neg hle] at h; cases h

theorem post_Integer {s ev r} (h : SatG gInteger s ev r) : Post .Integer s ev r := by
  obtain ⟨e1, r1, e2, ⟨e3, h3, rfl⟩, ⟨rfl, rfl⟩, rfl⟩ := h
  have key : e3 = [] ∧ ∃ u, s = u ++ r1 ∧ (∀ c ∈ u, c.isDigit) ∧ Nat.toDigits 10 (decValue 0 u) = u := by
    rcases h3 with ⟨rfl, rfl⟩ | ⟨_, e5, r5, e6, ⟨rfl, c, rfl, h5, h5'⟩, ⟨h6, _⟩, rfl⟩
    · exact ⟨rfl, ['0'], rfl, by decide, by decide⟩
    · obtain ⟨rfl, u, rfl, hu⟩ := iter_digits h6
      have h5 : 49 ≤ c.toNat := h5
      have h5' : c.toNat ≤ 57 := h5'
      have hcd : c.isDigit := (isDigit_iff _).mpr ⟨by omega, h5'⟩
      have hc0 : c ≠ '0' := char_ne_of_toNat (by show c.toNat ≠ 48; omega)
      refine ⟨rfl, c :: u, rfl, ?_, toDigits_decValue_pos hcd hc0 hu⟩
      intro d hd
      rcases List.mem_cons.mp hd with rfl | hd
      · exact hcd
      · exact hu d hd
  obtain ⟨rfl, u, rfl, hd, hc⟩ := key
  rw [txt_eq]
  refine ⟨u, .int (atoi u).1, (atoi u).2.toList, rfl, .plain fun c hc => digit_plain (hd c hc), eff_int u, trivial, ?_⟩
  intro hes
  apply lit_int hd hc
  simpa using hes

theorem post_lit {w : Str} {n : Node} {k : Nat} {r : Str} (hp : ∀ c ∈ w, Plain c) (he : Eff [.text w, .act k] [n] []) (hn : LitNode n) (hl : Lit w n) :
    PostV LitNode Lit (w ++ r) ([] ++ [.text ((w ++ r).take ((w ++ r).length - r.length))] ++ [.act k]) r := by
  refine ⟨w, n, [], rfl, .plain hp, ?_, hn, fun _ => hl⟩
  rw [txt_eq]; exact he

theorem post_Boolean {s ev r} (h : SatG gBoolean s ev r) : Post .Boolean s ev r := by
  obtain ⟨e1, r1, e2, ⟨e3, h3, rfl⟩, ⟨rfl, rfl⟩, rfl⟩ := h
  rcases h3 with ⟨_, h⟩ | ⟨_, ⟨_, h⟩ | ⟨_, ⟨_, h⟩ | ⟨_, h⟩⟩⟩ <;> obtain ⟨rfl, rfl⟩ := sat_lit h
  · exact post_lit (by decide) (eff_bool c!"FALSE") trivial (.fls (.inr rfl))
  · exact post_lit (by decide) (eff_bool c!"TRUE") trivial (.tru (.inr rfl))
  · exact post_lit (by decide) (eff_bool c!"false") trivial (.fls (.inl rfl))
  · exact post_lit (by decide) (eff_bool c!"true") trivial (.tru (.inl rfl))

theorem post_Null {s ev r} (h : SatG gNull s ev r) : Post .Null s ev r := by
  obtain ⟨e1, r1, e2, ⟨e3, h3, rfl⟩, ⟨rfl, rfl⟩, rfl⟩ := h
  rcases h3 with h | ⟨_, h⟩ <;> obtain ⟨rfl, rfl⟩ := sat_lit h
  · exact post_lit (by decide) (eff_null _) trivial (.null (.inl rfl))
  · exact post_lit (by decide) (eff_null _) trivial (.null (.inr rfl))

theorem iter_strBody {q s ev r} (h : Iter (SatG (.seq (.notP (.chr q)) .any)) s ev r) : ev = [] ∧ ∃ u, s = u ++ r ∧ q ∉ u := by
  induction h with
  | nil => exact ⟨rfl, [], rfl, by simp⟩
  | cons h _ ih =>
    obtain ⟨e5, r5, e6, ⟨hn, rfl, rfl⟩, ⟨rfl, c, rfl⟩, rfl⟩ := h
    obtain ⟨rfl, b, rfl, hb⟩ := ih
    refine ⟨rfl, c :: b, rfl, ?_⟩
    have hc : c ≠ q := by cases hn with | chrFail h => exact h
    simp [hb, Ne.symm hc]

theorem post_String {s ev r} (h : SatG gString s ev r) : Post .String s ev r := by
  rcases h with h | ⟨_, h⟩
  · obtain ⟨e1, r1, e2, ⟨rfl, rfl⟩, ⟨e3, r3, e4, ⟨e5, ⟨h5, _⟩, rfl⟩, ⟨e6, r6, e7, ⟨rfl, rfl⟩, ⟨rfl, rfl⟩, rfl⟩, rfl⟩, rfl⟩ := h
    obtain ⟨rfl, u, rfl, hu⟩ := iter_strBody h5
    refine ⟨'\'' :: (u ++ c!"'"), .str u, [], by simp, .squote hu, ?_, trivial, fun _ => .sq hu⟩
    rw [txt_eq]; exact eff_str (.inl rfl)
  · obtain ⟨e1, r1, e2, ⟨rfl, rfl⟩, ⟨e3, r3, e4, ⟨e5, ⟨h5, _⟩, rfl⟩, ⟨e6, r6, e7, ⟨rfl, rfl⟩, ⟨rfl, rfl⟩, rfl⟩, rfl⟩, rfl⟩ := h
    obtain ⟨rfl, u, rfl, hu⟩ := iter_strBody h5
    refine ⟨'"' :: (u ++ c!"\""), .str u, [], by simp, .dquote hu, ?_, trivial, fun _ => .dq hu⟩
    rw [txt_eq]; exact eff_str (.inr rfl)

theorem post_Literal {s ev r} (h : SatG gLiteral s ev r) : Post .Literal s ev r := by
  rcases h with ⟨_, h⟩ | ⟨_, ⟨_, h⟩ | ⟨_, ⟨_, h⟩ | ⟨_, h⟩⟩⟩ <;> exact h

theorem LitNode.val {n} (h : LitNode n) : ValNode n := by cases n <;> first | exact h | exact h.elim
theorem LitNode.notOp {n} (h : LitNode n) : NotOp n := by rintro o rfl; exact h
theorem ValNode.notOp {n} (h : ValNode n) : NotOp n := by rintro o rfl; exact h
theorem Topped.one {n} (h : NotOp n) : Topped [n] := ⟨[], n, rfl, h⟩
theorem Topped.snoc {p n} (h : NotOp n) : Topped (p ++ [n]) := ⟨p, n, rfl, h⟩
theorem Topped.cons {m ns} (h : Topped ns) : Topped (m :: ns) := by obtain ⟨p, n, rfl, h⟩ := h; exact ⟨m :: p, n, rfl, h⟩
theorem Topped.ne_nil {ns} (h : Topped ns) : ns ≠ [] := by obtain ⟨p, n, rfl, _⟩ := h; simp

/-! ## Lists of items -/

/-- One or more items separated by commas. -/
inductive Items (R : Str → Node → Prop) : Str → List Node → Prop where
  | one {u n} : R u n → Items R u [n]
  | more {u ns w1 w2 v n} : Items R u ns → WS w1 → WS w2 → R v n → Items R (u ++ (w1 ++ ',' :: (w2 ++ v))) (ns ++ [n])

/-- A part of an item list: closed text, its nodes, its reading. -/
def PostItem (C : Node → Prop) (m : Bool) (R : Str → Node → Prop) (s : Str) (ev : List Ev) (r : Str) : Prop :=
  ∃ u a ns es, s = u ++ r ∧ Closed u a ∧ (m = false → a = false) ∧ Eff ev ns es ∧ (∀ n ∈ ns, C n) ∧
    (a = false → es = [] → ∃ n, ns = [n] ∧ R u n)

theorem comma_closed {w1 w2 v a} (h1 : WS w1) (h2 : WS w2) (hv : Closed v a) : Closed (w1 ++ ',' :: (w2 ++ v)) a := by
  have h := h1.closed.append ((Closed.plain (u := c!",") (by decide)).append (h2.closed.append hv))
  simpa using h

theorem iter_items {x : Rule} {C m R} (hx : ∀ s ev r, Post x s ev r → PostItem C m R s ev r) {s ev r}
    (h : Iter (SatG (PExp.seqs [.call .sp, .chr ',', .call .sp, .call x])) s ev r) :
    ∃ v a ns es, s = v ++ r ∧ Closed v a ∧ (m = false → a = false) ∧ Eff ev ns es ∧ (∀ n ∈ ns, C n) ∧
      (a = false → es = [] → ∀ u0 ns0, Items R u0 ns0 → Items R (u0 ++ v) (ns0 ++ ns)) := by
  induction h with
  | nil => exact ⟨[], false, [], [], rfl, .nil, fun _ => rfl, .nil, by simp, fun _ _ u0 ns0 h => by simpa using h⟩
  | cons h _ ih =>
    obtain ⟨e1, r1, e2, h1, ⟨e3, r3, e4, ⟨rfl, rfl⟩, ⟨e5, r5, e6, h5, h6, rfl⟩, rfl⟩, rfl⟩ := h
    obtain ⟨rfl, w1, rfl, hw1⟩ : PostWS _ _ _ := h1
    obtain ⟨rfl, w2, rfl, hw2⟩ : PostWS _ _ _ := h5
    obtain ⟨u, a, ns, es, rfl, hc, hm, he, hcm, hr⟩ := hx _ _ _ h6
    obtain ⟨v, b, ns', es', rfl, hc', hm', he', hcm', hr'⟩ := ih
    refine ⟨(w1 ++ ',' :: (w2 ++ u)) ++ v, a || b, ns ++ ns', es ++ es', by simp, ?_, fun h => by simp [hm h, hm' h], he.append he', ?_, ?_⟩
    · exact (comma_closed hw1 hw2 hc).append hc'
    · intro n hn; rcases List.mem_append.mp hn with h | h
      · exact hcm n h
      · exact hcm' n h
    · intro ha hes u0 ns0 h0
      simp at ha hes
      obtain ⟨n, rfl, hn⟩ := hr ha.1 hes.1
      have := hr' ha.2 hes.2 _ _ (Items.more h0 hw1 hw2 hn)
      simpa [List.append_assoc] using this

theorem sat_items {x : Rule} {C m R} (hx : ∀ s ev r, Post x s ev r → PostItem C m R s ev r) {s ev r} (h : SatG (gItems x) s ev r) :
    ∃ v a ns es, s = v ++ r ∧ Closed v a ∧ (m = false → a = false) ∧ Eff ev ns es ∧ (∀ n ∈ ns, C n) ∧
      (a = false → es = [] → (v = [] ∧ ns = []) ∨ ∃ u w t, v = u ++ (w ++ t) ∧ Items R u ns ∧ WS w ∧ (t = [] ∨ t = c!",")) := by
  rcases h with ⟨e1, r1, e2, h1, ⟨e3, r3, e4, ⟨h3, _⟩, ⟨e5, r5, e6, h5, h6, rfl⟩, rfl⟩, rfl⟩ | ⟨_, rfl, rfl⟩
  · obtain ⟨u, a, ns, es, rfl, hc, hm, he, hcm, hr⟩ := hx _ _ _ h1
    obtain ⟨v, b, ns', es', rfl, hc', hm', he', hcm', hr'⟩ := iter_items hx h3
    obtain ⟨rfl, w, rfl, hw⟩ : PostWS _ _ _ := h5
    obtain ⟨t, rfl, ht, htc⟩ : ∃ t, r5 = t ++ r ∧ (t = [] ∨ t = c!",") ∧ e6 = [] := by
      rcases h6 with ⟨rfl, rfl⟩ | ⟨_, rfl, rfl⟩
      · exact ⟨c!",", rfl, .inr rfl, rfl⟩
      · exact ⟨[], rfl, .inl rfl, rfl⟩
    subst htc
    have htcl : Closed t false := by
      rcases ht with rfl | rfl
      · exact .nil
      · exact .plain (by decide)
    refine ⟨u ++ (v ++ (w ++ t)), a || b, ns ++ ns', es ++ es', by simp, ?_, fun h => by simp [hm h, hm' h], ?_, ?_, ?_⟩
    · have := hc.append (hc'.append (hw.closed.append htcl))
      simpa using this
    · have := he.append he'
      simpa using this
    · intro n hn; rcases List.mem_append.mp hn with h | h
      · exact hcm n h
      · exact hcm' n h
    · intro ha hes
      simp at ha hes
      obtain ⟨n, rfl, hn⟩ := hr ha.1 hes.1
      exact .inr ⟨u ++ v, w, t, by simp, hr' ha.2 hes.2 _ _ (.one hn), hw, ht⟩
  · exact ⟨[], false, [], [], rfl, .nil, fun _ => rfl, .nil, by simp, fun _ _ => .inl ⟨rfl, rfl⟩⟩

theorem items_lit {u ns} (h : Items Lit u ns) : LitItems u ns := by
  induction h with
  | one h => exact .one h
  | more _ h1 h2 h3 ih => exact .more ih h1 h2 h3

theorem items_args {u ns} (h : Items (Rd .logic) u ns) : Rd .args1 u (.arr ns) := by
  induction h with
  | one h => exact .argOne h
  | more _ h1 h2 h3 ih => exact .argMore ih h1 h2 h3

theorem literal_item {s ev r} (h : Post .Literal s ev r) : PostItem LitNode false Lit s ev r := by
  obtain ⟨u, n, es, h1, h2, h3, h4, h5⟩ : PostV LitNode Lit s ev r := h
  exact ⟨u, false, [n], es, h1, h2, fun _ => rfl, h3, by simpa using h4, fun _ he => ⟨n, rfl, h5 he⟩⟩

theorem argument_item {s ev r} (h : Post .Argument s ev r) : PostItem Fine true (Rd .logic) s ev r := by
  obtain ⟨u, a, ns, es, h1, h2, h3, _, h5, h6⟩ : PostE .logic s ev r := h
  exact ⟨u, a, ns, es, h1, h2, by simp, h3, h5, h6⟩

/-! ## Arrays and values -/

theorem sat_array {o c : Char} {k k' : Nat} (hoc : (o, c) ∈ [('[', ']'), ('(', ')')]) (hk : (k, k') ∈ [(10, 11), (21, 22), (23, 24)])
    (hcl : ∀ u a, Closed u a → Closed (o :: (u ++ [c])) a) {s ev r}
    (h : SatG (PExp.seqs [.chr o, .act k, .call .sp, gItems .Literal, .call .sp, .chr c, .act k']) s ev r) :
    PostV ValNode (fun u n => LitArr u n) s ev r := by
  obtain ⟨e1, r1, e2, ⟨rfl, rfl⟩, ⟨e3, r3, e4, ⟨rfl, rfl⟩, ⟨e5, r5, e6, h5, ⟨e7, r7, e8, h7, ⟨e9, r9, e10, h9,
    ⟨e11, r11, e12, ⟨rfl, rfl⟩, ⟨rfl, rfl⟩, rfl⟩, rfl⟩, rfl⟩, rfl⟩, rfl⟩, rfl⟩ := h
  obtain ⟨rfl, w, rfl, hw⟩ : PostWS _ _ _ := h5
  obtain ⟨v, a, ns, es, rfl, hc, hm, he, hcm, hr⟩ := sat_items (fun _ _ _ => literal_item) h7
  obtain ⟨rfl, w2, rfl, hw2⟩ : PostWS _ _ _ := h9
  have ha : a = false := hm rfl
  subst ha
  refine ⟨o :: (w ++ (v ++ (w2 ++ [c]))), .arr ns, es, by simp, ?_, ?_, hcm, ?_⟩
  · have := hcl _ _ (hw.closed.append (hc.append hw2.closed))
    simpa using this
  · have := eff_arr hk he
    simpa using this
  · intro hes
    rcases hr rfl hes with ⟨rfl, rfl⟩ | ⟨u, w', t, rfl, hi, hw', ht⟩
    · have := LitArr.empty hoc (hw.append hw2)
      simpa using this
    · have := LitArr.items hoc hw (items_lit hi) hw' ht hw2
      simpa using this

theorem post_Array {s ev r} (h : SatG gArray s ev r) : Post .Array s ev r := by
  rcases h with h | ⟨_, h⟩
  · exact sat_array (by decide) (by decide) (fun _ _ h => h.brack) h
  · exact sat_array (by decide) (by decide) (fun _ _ h => h.paren) h

theorem post_Value {s ev r} (h : SatG gValue s ev r) : Post .Value s ev r := by
  rcases h with h | ⟨_, h⟩
  · obtain ⟨u, n, es, h1, h2, h3, h4, h5⟩ : PostV LitNode Lit s ev r := h
    exact ⟨u, n, es, h1, h2, h3, h4.val, fun h => .inl (h5 h)⟩
  · obtain ⟨u, n, es, h1, h2, h3, h4, h5⟩ : PostV ValNode (fun u n => LitArr u n) s ev r := h
    exact ⟨u, n, es, h1, h2, h3, h4, fun h => .inr (h5 h)⟩

/-! ## Identifiers and references -/

theorem idHead_iff {c : Char} : IdHead c ↔ (97 ≤ c.toNat ∧ c.toNat ≤ 122) ∨ (65 ≤ c.toNat ∧ c.toNat ≤ 90) := Iff.rfl

theorem iter_idTail {s ev r} (h : Iter (SatG gIdTail) s ev r) : ev = [] ∧ ∃ u, s = u ++ r ∧ ∀ c ∈ u, IdTail c := by
  induction h with
  | nil => exact ⟨rfl, [], rfl, by simp⟩
  | @cons _ _ _ _ r' h _ ih =>
    obtain ⟨rfl, u, rfl, hu⟩ := ih
    have mk : ∀ c s0, IdTail c → s0 = c :: (u ++ r') → ([] : List Ev) ++ [] = [] ∧ ∃ v, s0 = v ++ r' ∧ ∀ c ∈ v, IdTail c := by
      intro c s0 hc hs
      refine ⟨rfl, c :: u, hs, ?_⟩
      intro d hd
      rcases List.mem_cons.mp hd with rfl | hd
      · exact hc
      · exact hu d hd
    rcases h with ⟨_, rfl, c, rfl, h1, h2⟩ | ⟨_, ⟨_, rfl, c, rfl, h1, h2⟩ | ⟨_, ⟨_, rfl, rfl⟩ | ⟨_, rfl, c, rfl, h1, h2⟩⟩⟩
    · exact mk c _ (.inr (.inl ⟨h1, h2⟩)) rfl
    · exact mk c _ (.inl (.inr ⟨h1, h2⟩)) rfl
    · exact mk '_' _ (.inr (.inr rfl)) rfl
    · exact mk c _ (.inl (.inl ⟨h1, h2⟩)) rfl

/-- A failed keyword test: the text does not begin with the keyword. -/
theorem ciLit_none : ∀ {w s : Str}, Big G (.ciLit w) s none → ∀ a t, s = a ++ t → ¬ CI w a := by
  intro w
  induction w with
  | nil => intro s h; cases h
  | cons c w ih =>
    intro s h a t hs hci
    obtain ⟨x, a', rfl, hx, ha'⟩ := hci
    have hci1 : Big G (.ci c) (x :: (a' ++ t)) (some ([], a' ++ t)) := by
      by_cases h : x = c
      · subst h; exact .alt1 .chrOk
      · rcases hx with rfl | rfl
        · exact absurd rfl h
        · exact .alt2 (.chrFail h) .chrOk
    cases w with
    | nil =>
      have h : Big G (.ci c) s none := h
      subst hs
      have := Big.det h hci1
      simp at this
    | cons d w =>
      have h : Big G (.seq (.ci c) (.ciLit (d :: w))) s none := h
      subst hs
      cases h with
      | seqFail1 h => have := Big.det h hci1; simp at this
      | seqFail2 h1 h2 =>
        have := Big.det h1 hci1
        simp at this
        obtain ⟨_, rfl⟩ := this
        exact ih h2 a' t rfl ha'

theorem post_Identifier {s ev r} (h : SatG gIdentifier s ev r) : Post .Identifier s ev r := by
  obtain ⟨e1, r1, e2, ⟨hn, rfl, rfl⟩, ⟨e3, r3, e4, ⟨e5, ⟨e6, r6, e7, h6, ⟨h7, _⟩, rfl⟩, rfl⟩, ⟨rfl, rfl⟩, rfl⟩, rfl⟩ := h
  obtain ⟨rfl, u, rfl, hu⟩ := iter_idTail h7
  have h6' : e6 = [] ∧ ∃ c, s = c :: (u ++ r3) ∧ IdHead c := by
    rcases h6 with ⟨rfl, c, rfl, h1, h2⟩ | ⟨_, rfl, c, rfl, h1, h2⟩
    · exact ⟨rfl, c, rfl, .inl ⟨h1, h2⟩⟩
    · exact ⟨rfl, c, rfl, .inr ⟨h1, h2⟩⟩
  obtain ⟨rfl, c, rfl, hc⟩ := h6'
  refine ⟨c :: u, rfl, ⟨⟨c, u, rfl, hc, hu⟩, ?_⟩, ?_⟩
  · intro a t e
    exact ciLit_none hn a (t ++ r3) (by rw [← List.append_assoc, ← e]; rfl)
  · have : (c :: (u ++ r3)).take ((c :: (u ++ r3)).length - r3.length) = c :: u := txt_eq (u := c :: u)
    rw [this]
    exact eff_name _

theorem idTail_plain {c : Char} (h : IdTail c) : Plain c := by
  rcases h with h | h | rfl
  · exact letter_plain h
  · exact digit_plain ((isDigit_iff c).mpr h)
  · decide

theorem IdText.closed {u} (h : IdText u) : Closed u false := by
  obtain ⟨⟨c, t, rfl, hc, ht⟩, _⟩ := h
  apply Closed.plain
  intro d hd
  rcases List.mem_cons.mp hd with rfl | hd
  · exact letter_plain hc
  · exact idTail_plain (ht d hd)

theorem ident_N {s ev r} (h : Post .Identifier s ev r) : PostN s ev r := by
  obtain ⟨u, rfl, hu, he⟩ := h
  exact ⟨u, false, [.ident u], rfl, hu.closed, he, .one nofun, by simpa using Fine.ident hu, fun _ => ⟨_, rfl, .ident hu⟩⟩

theorem iter_dots {s ev r} (h : Iter (SatG (.seq (.chr '.') (.call .Identifier))) s ev r) :
    ∃ names : List Str, (∀ x ∈ names, IdText x) ∧ Eff ev (names.map .ident) [] ∧
      ∀ a, a ++ s = joinDots (a :: names) ++ r := by
  induction h with
  | nil => exact ⟨[], by simp, .nil, by simp [joinDots]⟩
  | cons h _ ih =>
    obtain ⟨e1, r1, e2, ⟨rfl, rfl⟩, h2, rfl⟩ := h
    obtain ⟨u, rfl, hu, he⟩ : Post .Identifier _ _ _ := h2
    obtain ⟨names, hn, he', hj⟩ := ih
    refine ⟨u :: names, ?_, ?_, ?_⟩
    · intro x hx
      rcases List.mem_cons.mp hx with rfl | hx
      · exact hu
      · exact hn x hx
    · have := he.append he'
      simpa using this
    · intro a
      rw [hj u]
      simp [joinDots]

theorem joinDots_closed {l : List Str} (h : ∀ x ∈ l, IdText x) : Closed (joinDots l) false := by
  induction l with
  | nil => exact .nil
  | cons a l ih =>
    cases l with
    | nil => exact (h a (by simp)).closed
    | cons b l =>
      have h1 := (h a (by simp)).closed
      have h2 := ih (fun x hx => h x (List.mem_cons_of_mem _ hx))
      have := h1.append ((Closed.plain (u := c!".") (by decide)).append h2)
      simpa [joinDots] using this

theorem post_IdentifierReference {s ev r} (h : SatG gIdentifierReference s ev r) : Post .IdentifierReference s ev r := by
  obtain ⟨e1, r1, e2, ⟨rfl, rfl⟩, ⟨e3, r3, e4, h3, ⟨e5, r5, e6, ⟨rfl, rfl⟩, ⟨e7, r7, e8, h7, ⟨e9, r9, e10, ⟨h9, _⟩,
    ⟨rfl, rfl⟩, rfl⟩, rfl⟩, rfl⟩, rfl⟩, rfl⟩ := h
  obtain ⟨a, rfl, ha, hea⟩ : Post .Identifier _ _ _ := h3
  obtain ⟨b, rfl, hb, heb⟩ : Post .Identifier _ _ _ := h7
  obtain ⟨names, hn, hen, hj⟩ := iter_dots h9
  have hall : ∀ x ∈ a :: b :: names, IdText x := by
    intro x hx
    simp at hx
    rcases hx with rfl | rfl | hx
    · exact ha
    · exact hb
    · exact hn x hx
  refine ⟨joinDots (a :: b :: names), false, [.ref (a :: b :: names)], ?_, joinDots_closed hall, ?_, .one nofun,
    by simpa using Fine.ref hall, fun _ => ⟨_, rfl, .ref hall⟩⟩
  · rw [hj b]; simp [joinDots]
  · have := eff_ref (names := a :: b :: names) (es := []) (by have := hea.append (heb.append hen); simpa using this)
    simpa using this

theorem post_JsonReference {s ev r} (h : SatG gJsonReference s ev r) : Post .JsonReference s ev r := by
  obtain ⟨e1, r1, e2, h1, ⟨e3, r3, e4, ⟨rfl, rfl⟩, ⟨e5, r5, e6, ⟨rfl, rfl⟩, h6, rfl⟩, rfl⟩, rfl⟩ := h
  obtain ⟨a, rfl, ha, hea⟩ : Post .Identifier _ _ _ := h1
  have : ∃ u b ns, r5 = u ++ r ∧ Closed u b ∧ Eff e2 ns [] ∧ Topped ns ∧ ∀ n ∈ ns, Fine n := by
    rcases h6 with h | ⟨_, h⟩
    · obtain ⟨u, ns, h1, h2, h3⟩ : Post .JsonReference _ _ _ := h
      exact ⟨u, true, ns, h1, h2, h3⟩
    · obtain ⟨u, h1, h2, h3⟩ : Post .Identifier _ _ _ := h
      exact ⟨u, false, [.ident u], h1, h2.closed, h3, .one nofun, by simpa using Fine.ident h2⟩
  obtain ⟨u, b, ns, rfl, hc, he, hne, hcm⟩ := this
  refine ⟨a ++ (c!"->" ++ u), .ident a :: ns, by simp, ?_, ?_, hne.cons, ?_⟩
  · have := ha.closed.append (Closed.arrow.append hc)
    simpa using this
  · have := hea.append he
    simpa using this
  · intro n hn
    rcases List.mem_cons.mp hn with rfl | hn
    · exact .ident ha
    · exact hcm n hn

theorem post_Reference {s ev r} (h : SatG gReference s ev r) : Post .Reference s ev r := by
  rcases h with h | ⟨_, h | ⟨_, h⟩⟩
  · exact h
  · obtain ⟨u, ns, h1, h2, h3, h4, h5⟩ : Post .JsonReference _ _ _ := h
    exact ⟨u, true, ns, h1, h2, h3, h4, h5, by simp⟩
  · exact ident_N h

/-! ## Expressions -/

theorem PostE.up {l l' s ev r} (hl : ∀ u n, Rd l u n → Rd l' u n) (h : PostE l s ev r) : PostE l' s ev r := by
  obtain ⟨u, a, ns, es, h1, h2, h3, h4, h5, h6⟩ := h
  refine ⟨u, a, ns, es, h1, h2, h3, h4, h5, fun ha he => ?_⟩
  obtain ⟨n, hn, hr⟩ := h6 ha he
  exact ⟨n, hn, hl _ _ hr⟩

theorem PostV.toE {L l s ev r} (hl : ∀ u n, L u n → Rd l u n) (h : PostV ValNode L s ev r) : PostE l s ev r := by
  obtain ⟨u, n, es, h1, h2, h3, h4, h5⟩ := h
  exact ⟨u, false, [n], es, h1, h2, h3, .one h4.notOp, by simpa using Fine.val h4, fun _ he => ⟨n, rfl, hl _ _ (h5 he)⟩⟩

theorem snoc {α} {l : List α} (h : l ≠ []) : ∃ p a, l = p ++ [a] := ⟨_, _, (List.dropLast_concat_getLast h).symm⟩

theorem post_ArgumentList {s ev r} (h : SatG gArgumentList s ev r) : Post .ArgumentList s ev r := by
  obtain ⟨e1, r1, e2, ⟨rfl, rfl⟩, ⟨e3, r3, e4, h3, ⟨e5, r5, e6, ⟨rfl, rfl⟩, ⟨e7, r7, e8, h7, ⟨e9, r9, e10, h9,
    ⟨e11, r11, e12, ⟨rfl, rfl⟩, ⟨rfl, rfl⟩, rfl⟩, rfl⟩, rfl⟩, rfl⟩, rfl⟩, rfl⟩ := h
  obtain ⟨rfl, w, rfl, hw⟩ : PostWS _ _ _ := h3
  obtain ⟨v, a, ns, es, rfl, hc, hm, he, hcm, hr⟩ := sat_items (fun _ _ _ => argument_item) h7
  obtain ⟨rfl, w2, rfl, hw2⟩ : PostWS _ _ _ := h9
  refine ⟨w ++ (v ++ w2), a, ns, es, by simp, ?_, ?_, hcm, ?_⟩
  · have := hw.closed.append (hc.append hw2.closed)
    simpa using this
  · have := eff_arr (k := 10) (k' := 11) (by decide) he
    simpa using this
  · intro ha hes
    rcases hr ha hes with ⟨rfl, rfl⟩ | ⟨u, w', t, rfl, hi, hw', ht⟩
    · simpa using Rd.argsNone (hw.append hw2)
    · have := Rd.argsSome hw (items_args hi) hw' ht hw2
      simpa using this

theorem lit_ok : ∀ (w r : Str), Big G (.lit w) (w ++ r) (some ([], r)) := by
  intro w
  induction w with
  | nil => intro r; exact .eps
  | cons c w ih =>
    intro r
    cases w with
    | nil => exact .chrOk
    | cons d w => exact .seqOk .chrOk (ih r)

/-- A failed value: the text does not begin with a literal keyword. -/
theorem value_none {s : Str} (h : Big G (.call .Value) s none) : KwFree s := by
  have key : ∀ ev r, ¬ Big G (.call .Literal) s (some (ev, r)) := by
    intro ev r hl
    have := Big.det h (.call (.alt1 hl))
    simp at this
  rintro k hk ⟨t, rfl⟩
  simp at hk
  rcases hk with rfl | rfl | rfl | rfl | rfl | rfl
  · exact key _ _ (.call (.swOut (by decide) (.swIn (by decide) (.call (.seqOk (.txtOk
      (.swOut (by decide) (.swOut (by decide) (.swOut (by decide) (lit_ok c!"true" t))))) .act)))))
  · exact key _ _ (.call (.swOut (by decide) (.swIn (by decide) (.call (.seqOk (.txtOk
      (.swOut (by decide) (.swOut (by decide) (.swIn (by decide) (lit_ok c!"false" t))))) .act)))))
  · exact key _ _ (.call (.swOut (by decide) (.swIn (by decide) (.call (.seqOk (.txtOk
      (.swOut (by decide) (.swIn (by decide) (lit_ok c!"TRUE" t)))) .act)))))
  · exact key _ _ (.call (.swOut (by decide) (.swIn (by decide) (.call (.seqOk (.txtOk
      (.swIn (by decide) (lit_ok c!"FALSE" t))) .act)))))
  · exact key _ _ (.call (.swIn (by decide) (.call (.seqOk (.txtOk (.alt1 (lit_ok c!"null" t))) .act))))
  · exact key _ _ (.call (.swIn (by decide) (.call (.seqOk (.txtOk (.alt2 (.seqFail1 (.chrFail (by decide))) (lit_ok c!"NULL" t))) .act))))

theorem KwFree.prefix {u r : Str} (h : KwFree (u ++ r)) : KwFree u :=
  fun k hk hp => h k hk (hp.trans (List.prefix_append _ _))

theorem post_Primary {s ev r} (h : SatG gPrimaryExpression s ev r) : Post .PrimaryExpression s ev r := by
  rcases h with h | ⟨_, h | ⟨hv, h | ⟨_, h⟩⟩⟩
  · obtain ⟨e1, r1, e2, ⟨rfl, rfl⟩, ⟨e3, r3, e4, h3, ⟨e5, r5, e6, h5, ⟨e7, r7, e8, h7, ⟨e9, r9, e10, ⟨rfl, rfl⟩,
      ⟨rfl, rfl⟩, rfl⟩, rfl⟩, rfl⟩, rfl⟩, rfl⟩ := h
    obtain ⟨rfl, w1, rfl, hw1⟩ : PostWS _ _ _ := h3
    obtain ⟨u, a, ns, es, rfl, hc, he, hne, hcm, hr⟩ : PostE .logic _ _ _ := h5
    obtain ⟨rfl, w2, rfl, hw2⟩ : PostWS _ _ _ := h7
    obtain ⟨p, n, rfl⟩ := snoc hne.ne_nil
    refine ⟨'(' :: (w1 ++ (u ++ (w2 ++ c!")"))), a, p ++ [.paren n], es, by simp, ?_, ?_, .snoc nofun, ?_, ?_⟩
    · have := (hw1.closed.append (hc.append hw2.closed)).paren
      simpa using this
    · have := eff_act8 he
      simpa using this
    · intro m hm
      rcases List.mem_append.mp hm with h | h
      · exact hcm m (by simp [h])
      · rw [List.mem_singleton.mp h]; exact .paren (hcm n (by simp))
    · intro ha hes
      obtain ⟨n', hn', hrd⟩ := hr ha hes
      have hp : p = [] := by cases p <;> simp at hn' ⊢
      subst hp
      simp at hn'
      subst hn'
      exact ⟨_, rfl, .paren hw1 hrd hw2⟩
  · exact PostV.toE (fun _ _ => .val) h
  · obtain ⟨e1, r1, e2, h1, ⟨e3, r3, e4, h3, ⟨rfl, rfl⟩, rfl⟩, rfl⟩ := h
    obtain ⟨f, rfl, hf, hef⟩ : Post .Identifier _ _ _ := h1
    obtain ⟨u, a, ns, es, rfl, hc, he, hcm, hr⟩ : Post .ArgumentList _ _ _ := h3
    refine ⟨f ++ '(' :: (u ++ c!")"), a, [.func f ns], es, by simp, ?_, ?_, .one nofun, by simpa using Fine.func hf hcm, ?_⟩
    · have := hf.closed.append hc.paren
      simpa using this
    · have := eff_act9 (ns := []) (hef.append he)
      simpa using this
    · intro ha hes
      exact ⟨_, rfl, .func hf (value_none hv).prefix (hr ha hes)⟩
  · obtain ⟨u, a, ns, rfl, hc, he, hne, hcm, hr⟩ : PostN _ _ _ := h
    refine ⟨u, a, ns, [], rfl, hc, he, hne, hcm, fun ha _ => ?_⟩
    obtain ⟨n, hn, hnm⟩ := hr ha
    exact ⟨n, hn, .name hnm (value_none hv).prefix⟩

theorem sat_gBetweenOp {s ev r} (h : SatG gBetweenOp s ev r) :
    ev = [] ∧ ∃ u, s = u ++ r ∧ BetweenOp u (normOp u) ∧ Closed u false := by
  obtain ⟨e1, r1, e2, h1, h2, rfl⟩ := h
  obtain ⟨rfl, rfl⟩ := sat_lit h2
  rcases h1 with ⟨e3, r3, e4, h3, h4, rfl⟩ | ⟨_, rfl, rfl⟩
  · obtain ⟨rfl, a, rfl, ha⟩ := sat_ciLit h3
    obtain ⟨rfl, sep, rfl, hs, hne⟩ : PostWS1 _ _ _ := h4
    refine ⟨rfl, a ++ (sep ++ c!"between"), by simp, ?_, notSep_append _ (.ci (by decide) ha) hs (.plain (by decide))⟩
    rw [normOp_two (w1 := c!"not") (w2 := c!"between") (by decide) (by decide) ha (CI.refl _) (by simp) (by simp) ?_ hne]
    · exact .notBtw ha (.of_ws hs hne)
    · intro m hm
      apply lookup_none_n
      have := @append_ne_of_last m c!"betwee" c!"nul" 'n' 'l' (by decide)
      simpa using this
  · exact ⟨rfl, c!"between", rfl, .btw, .plain (by decide)⟩

theorem post_Between {s ev r} (h : SatG gBetweenExpression s ev r) : Post .BetweenExpression s ev r := by
  obtain ⟨e1, r1, e2, h1, h2, rfl⟩ := h
  have h1 : PostE .prim s e1 r1 := h1
  rcases h2 with ⟨e3, r3, e4, h3, ⟨e5, r5, e6, ⟨e7, h7, rfl⟩, ⟨e8, r8, e9, ⟨rfl, rfl⟩, ⟨e10, r10, e11, h10, ⟨e12, r12, e13, h12,
      ⟨rfl, rfl⟩, rfl⟩, rfl⟩, rfl⟩, rfl⟩, rfl⟩ | ⟨_, rfl, rfl⟩
  · obtain ⟨u, a, ns, es, rfl, hc, he, hne, hcm, hr⟩ := h1
    obtain ⟨rfl, w1, rfl, hw1⟩ : PostWS _ _ _ := h3
    obtain ⟨rfl, ob, rfl, hop, hoc⟩ := sat_gBetweenOp h7
    obtain ⟨rfl, w2, rfl, hw2⟩ : PostWS _ _ _ := h10
    rw [txt_eq]
    obtain ⟨p, n, rfl⟩ := snoc hne.ne_nil
    have hb : ∃ v lo hi es', r10 = v ++ r12 ∧ Closed v false ∧ Eff e12 [lo, hi] es' ∧ ValNode lo ∧ ValNode hi ∧
        (es' = [] → Rd .prim u n → Rd .btw (u ++ (w1 ++ (ob ++ (w2 ++ v)))) (.between n (.op (normOp ob)) lo hi)) := by
      rcases h12 with ⟨e1, r1, e2, h1, ⟨e3, r3, e4, h3, ⟨e5, r5, e6, h5, ⟨e7, r7, e8, h7', h8, rfl⟩, rfl⟩, rfl⟩, rfl⟩ |
        ⟨_, e1, r1, e2, ⟨rfl, rfl⟩, ⟨e3, r3, e4, h3, ⟨e5, r5, e6, h5, ⟨e7, r7, e8, h7', ⟨e9, r9, e10, ⟨rfl, rfl⟩,
          ⟨e11, r11, e12, h11, ⟨e13, r13, e14, h13, ⟨e15, r15, e16, h15, ⟨rfl, rfl⟩, rfl⟩, rfl⟩, rfl⟩, rfl⟩, rfl⟩, rfl⟩, rfl⟩, rfl⟩
      · obtain ⟨x, lo, es1, rfl, hx, hxe, hxc, hxr⟩ : PostV ValNode Val _ _ _ := h1
        obtain ⟨rfl, w3, rfl, hw3⟩ : PostWS _ _ _ := h3
        obtain ⟨rfl, k, rfl, hk⟩ := sat_ciLit h5
        obtain ⟨rfl, w4, rfl, hw4⟩ : PostWS _ _ _ := h7'
        obtain ⟨y, hi, es2, rfl, hy, hye, hyc, hyr⟩ : PostV ValNode Val _ _ _ := h8
        refine ⟨x ++ (w3 ++ (k ++ (w4 ++ y))), lo, hi, es1 ++ es2, by simp, ?_, ?_, hxc, hyc, ?_⟩
        · have := hx.append (hw3.closed.append ((Closed.ci (by decide) hk).append (hw4.closed.append hy)))
          simpa using this
        · have := hxe.append hye
          simpa using this
        · intro hes hrd
          simp at hes
          exact .btwAnd hrd hw1 hop hw2 (hxr hes.1) hw3 hk hw4 (hyr hes.2)
      · obtain ⟨rfl, w3, rfl, hw3⟩ : PostWS _ _ _ := h3
        obtain ⟨x, lo, es1, rfl, hx, hxe, hxc, hxr⟩ : PostV ValNode Val _ _ _ := h5
        obtain ⟨rfl, w4, rfl, hw4⟩ : PostWS _ _ _ := h7'
        obtain ⟨rfl, w5, rfl, hw5⟩ : PostWS _ _ _ := h11
        obtain ⟨y, hi, es2, rfl, hy, hye, hyc, hyr⟩ : PostV ValNode Val _ _ _ := h13
        obtain ⟨rfl, w6, rfl, hw6⟩ : PostWS _ _ _ := h15
        refine ⟨'[' :: (w3 ++ (x ++ (w4 ++ ',' :: (w5 ++ (y ++ (w6 ++ c!"]")))))), lo, hi, es1 ++ es2, by simp, ?_, ?_, hxc, hyc, ?_⟩
        · have := (hw3.closed.append (hx.append (comma_closed hw4 hw5 (hy.append hw6.closed)))).brack
          simpa using this
        · have := hxe.append hye
          simpa using this
        · intro hes hrd
          simp at hes
          exact .btwArr hrd hw1 hop hw2 hw3 (hxr hes.1) hw4 hw5 (hyr hes.2) hw6
    obtain ⟨v, lo, hi, es', rfl, hvc, hve, hlo, hhi, hvr⟩ := hb
    refine ⟨u ++ (w1 ++ (ob ++ (w2 ++ v))), a, p ++ [.between n (.op (normOp ob)) lo hi], es ++ es', by simp, ?_, ?_, .snoc nofun, ?_, ?_⟩
    · have := hc.append (hw1.closed.append (hoc.append (hw2.closed.append hvc)))
      simpa using this
    · have := eff_act7 (ns := p) (l := n) (o := .op (normOp ob)) (a := lo) (b := hi) (es := es ++ es')
        (by have := he.append ((eff_op (u := ob) (k := 6) (by decide) rfl).append hve); simpa using this)
      simpa using this
    · intro m hm
      rcases List.mem_append.mp hm with h | h
      · exact hcm m (by simp [h])
      · rw [List.mem_singleton.mp h]; exact .between (hcm n (by simp)) ⟨_, hop⟩ hlo hhi
    · intro ha hes
      simp at hes
      obtain ⟨n', hn', hrd⟩ := hr ha hes.1
      have hp : p = [] := by cases p <;> simp at hn' ⊢
      subst hp
      simp at hn'
      subst hn'
      exact ⟨_, rfl, hvr hes.2 hrd⟩
  · rw [List.append_nil]
    exact h1.up (fun _ _ => Rd.btwUp)

theorem post_Predicate {s ev r} (h : SatG gPredicateExpression s ev r) : Post .PredicateExpression s ev r := by
  obtain ⟨e1, r1, e2, h1, h2, rfl⟩ := h
  have h1 : PostE .btw s e1 r1 := h1
  rcases h2 with ⟨e3, r3, e4, h3, ⟨rfl, rfl⟩, rfl⟩ | ⟨_, rfl, rfl⟩
  · obtain ⟨u, a, ns, es, rfl, hc, he, hne, hcm, hr⟩ := h1
    obtain ⟨w1, ob, w2, o, rfl, ⟨hw1, hw1n⟩, hop, hw2, hoc, hoe⟩ : PostOp (fun w => WS w ∧ w ≠ []) MatchOp _ _ _ := h3
    obtain ⟨p, n, rfl⟩ := snoc hne.ne_nil
    refine ⟨u ++ (w1 ++ (ob ++ w2)), a, p ++ [.pred n (.op o)], es, by simp, ?_, ?_, .snoc nofun, ?_, ?_⟩
    · have := hc.append (hw1.closed.append (hoc.append hw2.closed))
      simpa using this
    · have := eff_act5 (ns := p) (l := n) (o := .op o) (es := es) (by have := he.append hoe; simpa using this)
      simpa using this
    · intro m hm
      rcases List.mem_append.mp hm with h | h
      · exact hcm m (by simp [h])
      · rw [List.mem_singleton.mp h]; exact .pred (hcm n (by simp)) ⟨_, hop⟩
    · intro ha hes
      obtain ⟨n', hn', hrd⟩ := hr ha hes
      have hp : p = [] := by cases p <;> simp at hn' ⊢
      subst hp
      simp at hn'
      subst hn'
      exact ⟨_, rfl, .pred hrd hw1 hw1n hop hw2⟩
  · rw [List.append_nil]
    exact h1.up (fun _ _ => Rd.prdUp)

theorem sat_gInOp {s ev r} (h : SatG gInOp s ev r) :
    ev = [] ∧ ∃ u, s = u ++ r ∧ InOp u (normOp u) ∧ Closed u false := by
  rcases h with h | ⟨_, h⟩
  · exact sat_word (by decide) (by decide) (fun u hu => .inn hu) h
  · refine sat_notWord (by decide) (by simp) (fun m hm => ?_) (fun a s m b ha hs hb => .notIn ha hs hb) h
    apply lookup_none_n
    have := @append_ne_of_last m c!"i" c!"nul" 'n' 'l' (by decide)
    simpa using this

theorem post_CompareIn {s ev r} (h : SatG gCompareInExpression s ev r) : Post .CompareInExpression s ev r := by
  obtain ⟨e1, r1, e2, h1, h2, rfl⟩ := h
  have h1 : PostE .prd s e1 r1 := h1
  rcases h2 with ⟨e3, r3, e4, h3, ⟨e5, r5, e6, ⟨e7, h7, rfl⟩, ⟨e8, r8, e9, h8, ⟨e10, r10, e11, ⟨rfl, rfl⟩, ⟨e12, r12, e13, h12,
      ⟨rfl, rfl⟩, rfl⟩, rfl⟩, rfl⟩, rfl⟩, rfl⟩ | ⟨_, rfl, rfl⟩
  · obtain ⟨u, a, ns, es, rfl, hc, he, hne, hcm, hr⟩ := h1
    obtain ⟨rfl, w1, rfl, hw1⟩ : PostWS _ _ _ := h3
    obtain ⟨rfl, ob, rfl, hop, hoc⟩ := sat_gInOp h7
    obtain ⟨rfl, w2, rfl, hw2⟩ : PostWS _ _ _ := h8
    obtain ⟨v, x, es', rfl, hvc, hve, hxc, hvr⟩ : PostV ValNode (fun u n => LitArr u n) _ _ _ := h12
    rw [txt_eq]
    obtain ⟨p, n, rfl⟩ := snoc hne.ne_nil
    refine ⟨u ++ (w1 ++ (ob ++ (w2 ++ v))), a, p ++ [.cmp n (.op (normOp ob)) x], es ++ es', by simp, ?_, ?_, .snoc nofun, ?_, ?_⟩
    · have := hc.append (hw1.closed.append (hoc.append (hw2.closed.append hvc)))
      simpa using this
    · have := eff_act4 (ns := p) (l := n) (o := .op (normOp ob)) (r := x) (es := es ++ es')
        (by have := he.append ((eff_op (u := ob) (k := 3) (by decide) rfl).append hve); simpa using this)
      simpa using this
    · intro m hm
      rcases List.mem_append.mp hm with h | h
      · exact hcm m (by simp [h])
      · rw [List.mem_singleton.mp h]; exact .cmp (hcm n (by simp)) (.op ⟨_, .inr (.inr (.inl hop))⟩) (.val hxc)
    · intro ha hes
      simp at hes
      obtain ⟨n', hn', hrd⟩ := hr ha hes.1
      have hp : p = [] := by cases p <;> simp at hn' ⊢
      subst hp
      simp at hn'
      subst hn'
      exact ⟨_, rfl, .isIn hrd hw1 hop hw2 (hvr hes.2)⟩
  · rw [List.append_nil]
    exact h1.up (fun _ _ => Rd.cinUp)

theorem split3 {α} {l m : List α} {o : α} (hl : l ≠ []) (hm : m ≠ []) : ∃ p a b c, l ++ o :: m = p ++ [a, b, c] ∧
    (∀ x ∈ p ++ [a, b, c], x ∈ l ++ o :: m) ∧ (∀ y z, l = [y] → m = [z] → p = [] ∧ a = y ∧ b = o ∧ c = z) := by
  obtain ⟨m', c, rfl⟩ := snoc hm
  obtain ⟨q, b, hq⟩ := snoc (l := o :: m') (by simp)
  have h2 : l ++ q ≠ [] := by simp [hl]
  obtain ⟨p, a, hp⟩ := snoc h2
  have e : l ++ o :: (m' ++ [c]) = p ++ [a, b, c] := by
    have : l ++ o :: (m' ++ [c]) = (l ++ (o :: m')) ++ [c] := by simp
    rw [this, hq, ← List.append_assoc, hp]; simp
  refine ⟨p, a, b, c, e, by rw [e]; simp, ?_⟩
  rintro y z rfl hz
  rw [hz] at e
  have := congrArg List.length e
  simp at this
  have hp0 : p = [] := by cases p with | nil => rfl | cons _ _ => simp at this
  subst hp0
  simp at e
  simp [e]

/-- Chains of binary operators, all reductions to the left. -/
theorem iter_chain {opR x : Rule} {O : Str → Str → Prop} {lx lh : Lvl} {k : Nat} {mk : Node → Node → Node → Node}
    (hop : ∀ s ev r, Post opR s ev r → PostOp WS O s ev r) (hx : ∀ s ev r, Post x s ev r → PostE lx s ev r)
    (hred : ∀ e ns l o r es, Eff e (ns ++ [l, o, r]) es → Eff (e ++ [.act k]) (ns ++ [mk l o r]) es)
    (hcm : ∀ l o r, Fine l → Fine o → Fine r → Fine (mk l o r)) (hmk : ∀ l o r, NotOp (mk l o r)) (hO : ∀ u o, O u o → OpName o)
    (hrd : ∀ u l w1 ob o w2 v r, Rd lh u l → WS w1 → O ob o → WS w2 → Rd lx v r →
      Rd lh (u ++ (w1 ++ (ob ++ (w2 ++ v)))) (mk l (.op o) r)) {s ev r}
    (h : Iter (SatG (PExp.seqs [.call opR, .call x, .act k])) s ev r) :
    ∃ v a, s = v ++ r ∧ Closed v a ∧ ∀ e0 ns0 es0, Eff e0 ns0 es0 → Topped ns0 → (∀ n ∈ ns0, Fine n) →
      ∃ ns es, Eff (e0 ++ ev) ns (es0 ++ es) ∧ Topped ns ∧ (∀ n ∈ ns, Fine n) ∧
        (a = false → es = [] → ∀ n u0, ns0 = [n] → Rd lh u0 n → ∃ n', ns = [n'] ∧ Rd lh (u0 ++ v) n') := by
  induction h with
  | nil =>
    refine ⟨[], false, rfl, .nil, fun e0 ns0 es0 he hne hc => ⟨ns0, [], by simpa using he, hne, hc, ?_⟩⟩
    rintro _ _ n u0 rfl h
    exact ⟨n, rfl, by simpa using h⟩
  | cons h _ ih =>
    obtain ⟨e1, r1, e2, h1, ⟨e3, r3, e4, h3, ⟨rfl, rfl⟩, rfl⟩, rfl⟩ := h
    obtain ⟨w1, ob, w2, o, rfl, hw1, hOo, hw2, hoc, hoe⟩ := hop _ _ _ h1
    obtain ⟨u, a, ns, es, rfl, hc, he, hne, hcmn, hr⟩ := hx _ _ _ h3
    obtain ⟨v, b, rfl, hcv, ih⟩ := ih
    refine ⟨w1 ++ (ob ++ (w2 ++ (u ++ v))), a || b, by simp, ?_, ?_⟩
    · have := hw1.closed.append (hoc.append (hw2.closed.append (hc.append hcv)))
      simpa using this
    · intro e0 ns0 es0 he0 hne0 hc0
      obtain ⟨p, l, o', r, hsplit, hmem, hsing⟩ := split3 (o := Node.op o) hne0.ne_nil hne.ne_nil
      have hall : ∀ n ∈ ns0 ++ .op o :: ns, Fine n := by
        intro n hn
        rcases List.mem_append.mp hn with h | h
        · exact hc0 n h
        · rcases List.mem_cons.mp h with rfl | h
          · exact .op (hO _ _ hOo)
          · exact hcmn n h
      have heff := hred _ _ _ _ _ _ (by have := he0.append (hoe.append he); rw [List.singleton_append, hsplit] at this; exact this)
      obtain ⟨ns', es', heff', hne', hcm', hr'⟩ := ih _ _ _ heff (.snoc (hmk _ _ _)) (by
        intro n hn
        rcases List.mem_append.mp hn with h | h
        · exact hall n (hmem n (by simp [h]))
        · rw [List.mem_singleton.mp h]
          exact hcm _ _ _ (hall _ (hmem _ (by simp))) (hall _ (hmem _ (by simp))) (hall _ (hmem _ (by simp))))
      refine ⟨ns', es ++ es', ?_, hne', hcm', ?_⟩
      · simpa [List.append_assoc] using heff'
      · rintro hab hes n u0 rfl hn
        simp at hab hes
        obtain ⟨m, rfl, hm⟩ := hr hab.1 hes.1
        obtain ⟨rfl, rfl, rfl, rfl⟩ := hsing _ _ rfl rfl
        obtain ⟨n', h1, h2⟩ := hr' hab.2 hes.2 _ _ rfl (hrd _ _ _ _ _ _ _ _ hn hw1 hOo hw2 hm)
        exact ⟨n', h1, by simpa [List.append_assoc] using h2⟩

theorem chain_E {lx lh s e1 r1 e2 r} (hup : ∀ u n, Rd lx u n → Rd lh u n) (h1 : PostE lx s e1 r1)
    (h2 : ∃ v a, r1 = v ++ r ∧ Closed v a ∧ ∀ e0 ns0 es0, Eff e0 ns0 es0 → Topped ns0 → (∀ n ∈ ns0, Fine n) →
      ∃ ns es, Eff (e0 ++ e2) ns (es0 ++ es) ∧ Topped ns ∧ (∀ n ∈ ns, Fine n) ∧
        (a = false → es = [] → ∀ n u0, ns0 = [n] → Rd lh u0 n → ∃ n', ns = [n'] ∧ Rd lh (u0 ++ v) n')) :
    PostE lh s (e1 ++ e2) r := by
  obtain ⟨u, a, ns, es, rfl, hc, he, hne, hcm, hr⟩ := h1
  obtain ⟨v, b, rfl, hcv, h2⟩ := h2
  obtain ⟨ns', es', he', hne', hcm', hr'⟩ := h2 _ _ _ he hne hcm
  refine ⟨u ++ v, a || b, ns', es ++ es', by simp, hc.append hcv, he', hne', hcm', ?_⟩
  intro ha hes
  simp at ha hes
  obtain ⟨n, hn, hrd⟩ := hr ha.1 hes.1
  exact hr' ha.2 hes.2 n u hn (hup _ _ hrd)

theorem post_CompareExpression {s ev r} (h : SatG gCompareExpression s ev r) : Post .CompareExpression s ev r := by
  obtain ⟨e1, r1, e2, h1, ⟨h2, _⟩, rfl⟩ := h
  exact chain_E (fun _ _ => Rd.cmpUp) h1 (iter_chain (opR := .Compare) (x := .CompareInExpression) (O := CmpOp) (lx := .cin) (fun _ _ _ h => h) (fun _ _ _ h => h) (fun _ _ _ _ _ _ => eff_act2)
    (fun _ _ _ => .cmp) (fun _ _ _ => nofun) (fun u _ h => ⟨u, .inl h⟩) (fun _ _ _ _ _ _ _ _ => Rd.cmp) h2)

theorem post_LogicExpression {s ev r} (h : SatG gLogicExpression s ev r) : Post .LogicExpression s ev r := by
  obtain ⟨e1, r1, e2, h1, ⟨h2, _⟩, rfl⟩ := h
  exact chain_E (fun _ _ => Rd.logicUp) h1 (iter_chain (opR := .Logic) (x := .NotExpression) (O := LogicOp) (lx := .neg) (fun _ _ _ h => h) (fun _ _ _ h => h) (fun _ _ _ _ _ _ => eff_act0)
    (fun _ _ _ => .logic) (fun _ _ _ => nofun) (fun u _ h => ⟨u, .inr (.inl h)⟩) (fun _ _ _ _ _ _ _ _ => Rd.logic) h2)

theorem post_Not {s ev r} (h : SatG gNotExpression s ev r) : Post .NotExpression s ev r := by
  rcases h with h | ⟨_, e1, r1, e2, h1, ⟨e3, r3, e4, h3, ⟨e5, r5, e6, h5, ⟨e7, r7, e8, h7, ⟨rfl, rfl⟩, rfl⟩, rfl⟩, rfl⟩, rfl⟩
  · exact PostE.up (fun _ _ => Rd.negUp) h
  · obtain ⟨rfl, w, rfl, hw⟩ : PostWS _ _ _ := h1
    obtain ⟨rfl, k, rfl, hk⟩ := sat_ciLit h3
    obtain ⟨rfl, w1, rfl, hw1, hne1⟩ : PostWS1 _ _ _ := h5
    obtain ⟨u, a, ns, es, rfl, hc, he, hne, hcm, hr⟩ : PostE .cmp _ _ _ := h7
    obtain ⟨p, n, rfl⟩ := snoc hne.ne_nil
    refine ⟨w ++ (k ++ (w1 ++ u)), a, p ++ [.not n], es, by simp, ?_, ?_, .snoc nofun, ?_, ?_⟩
    · have := hw.closed.append ((Closed.ci (by decide) hk).append (hw1.closed.append hc))
      simpa using this
    · have := eff_act1 he
      simpa using this
    · intro m hm
      rcases List.mem_append.mp hm with h | h
      · exact hcm m (by simp [h])
      · rw [List.mem_singleton.mp h]; exact .not (hcm n (by simp))
    · intro ha hes
      obtain ⟨n', hn', hrd⟩ := hr ha hes
      have hp : p = [] := by cases p <;> simp at hn' ⊢
      subst hp
      simp at hn'
      subst hn'
      exact ⟨_, rfl, .neg hw hk hw1 hne1 hrd⟩

theorem post_Grammar {s ev r} (h : SatG gGrammar s ev r) : Post .Grammar s ev r := by
  obtain ⟨e1, r1, e2, h1, ⟨e3, r3, e4, h3, ⟨e5, r5, e6, h5, h6, rfl⟩, rfl⟩, rfl⟩ := h
  obtain ⟨rfl, w, rfl, hw⟩ : PostWS _ _ _ := h1
  obtain ⟨u, a, ns, es, rfl, hc, he, hne, hcm, hr⟩ : PostE .logic _ _ _ := h3
  obtain ⟨rfl, w2, rfl, hw2⟩ : PostWS _ _ _ := h5
  obtain ⟨rfl, rfl, rfl⟩ : Post .EndOfFile _ _ _ := h6
  exact ⟨w, u, w2, by simp, hw, hw2, rfl, u, a, ns, es, by simp, hc, by simpa using he, hne, hcm, hr⟩

/-- Every successful derivation of every rule has the meaning `Post` gives it. -/
theorem post_all {q s ev r} (h : Big G (.call q) s (some (ev, r))) : Post q s ev r := by
  refine Big.rule_induction (P := Post) ?_ h
  intro q s ev r _ h
  cases q with
  | Grammar => exact post_Grammar h
  | Expression => exact h
  | LogicExpression => exact post_LogicExpression h
  | NotExpression => exact post_Not h
  | CompareExpression => exact post_CompareExpression h
  | CompareInExpression => exact post_CompareIn h
  | PredicateExpression => exact post_Predicate h
  | BetweenExpression => exact post_Between h
  | PrimaryExpression => exact post_Primary h
  | ArgumentList => exact post_ArgumentList h
  | Argument => exact h
  | Reference => exact post_Reference h
  | IdentifierReference => exact post_IdentifierReference h
  | JsonReference => exact post_JsonReference h
  | Identifier => exact post_Identifier h
  | Compare => exact post_Compare h
  | Logic => exact post_Logic h
  | Match => exact post_Match h
  | Value => exact post_Value h
  | Array => exact post_Array h
  | Literal => exact post_Literal h
  | Integer => exact post_Integer h
  | Boolean => exact post_Boolean h
  | Null => exact post_Null h
  | String => exact post_String h
  | SpaceComment => exact post_SpaceComment h
  | sp => exact post_sp h
  | sp1 => exact post_sp1 h
  | Comment => exact post_Comment h
  | Space => exact post_Space h
  | EndOfLine => exact post_EndOfLine h
  | EndOfFile => exact post_EndOfFile h

end Verif
