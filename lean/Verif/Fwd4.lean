import Verif.Fwd3

/-! # Forward derivations: arrays, names, calls -/

namespace Verif

open PExp

theorem hd_of_cons {S : CSet} {c : Char} {t : Str} (h : Hd S (c :: t)) : S.has c = false := h c t rfl

theorem closer_hd {w y : Str} (hw : WS w) (hy : Closer y) : Hd idF (w ++ y) := by
  refine hd_append (ws_hd hw (by decide)) ?_
  obtain ⟨c, t, rfl, rfl | rfl | rfl⟩ := hy <;> exact Hd.cons (by decide)

theorem start_solid {S : CSet} {u : Str} (hS : wsF.all (fun p => p.1 == p.2) = true) (hd : ∀ p ∈ wsF, S.has p.1 = false)
    (h : ∃ c t, u = c :: t ∧ S.has c = true) : Solid u ∧ u ≠ [] := by
  obtain ⟨c, t, rfl, hc⟩ := h
  refine ⟨Solid.cons ?_, by simp⟩
  cases hw : wsF.has c with
  | false => rfl
  | true =>
    simp only [CSet.has, List.any_eq_true, Bool.and_eq_true, decide_eq_true_eq] at hw
    obtain ⟨p, hp, h1, h2⟩ := hw
    have he : p.1 = p.2 := by simpa using List.all_eq_true.mp hS p hp
    have : c = p.1 := Char.toNat_inj' (by rw [← he] at h2; omega)
    rw [this, hd p hp] at hc
    cases hc

theorem lit_item {u n} (h : Lit u n) : ItemOk .Literal u n := by
  obtain ⟨h1, h2⟩ := start_solid (by decide) (by decide) h.start
  refine ⟨h1, h2, fun w y hw hy => ?_⟩
  obtain ⟨ev, ho, he⟩ := h.ok (digits_hd (closer_hd hw hy))
  exact ⟨ev, _, ho, .inl rfl, he⟩

theorem litItems_items {u ns} (h : LitItems u ns) : Items Lit u ns := by
  induction h with
  | one h => exact .one h
  | more _ h1 h2 h3 ih => exact .more ih h1 h2 h3

theorem litItems_solid {u ns} (h : LitItems u ns) : Solid u ∧ u ≠ [] := by
  obtain ⟨h1, h2, _⟩ := items_ok (fun _ _ => lit_item) (litItems_items h); exact ⟨h1, h2⟩

/-- A bracketed list of literals. -/
theorem brackets_ok {o c : Char} {k k' : Nat} (hoc : (o, c) ∈ [('[', ']'), ('(', ')')]) (hk : (k, k') ∈ [(10, 11), (21, 22), (23, 24)])
    {u n} (h : LitArr u n) (hu : ∃ t, u = o :: t) (r : Str) :
    ∃ ev, Ok (seqs [.chr o, .act k, .call .sp, gItems .Literal, .call .sp, .chr c, .act k']) (u ++ r) ev r ∧ Eff ev [n] [] := by
  have oc : ∀ {o' c' t t'}, (o', c') ∈ [('[', ']'), ('(', ')')] → o' :: t = o :: t' → o' = o ∧ c' = c := by
    intro o' c' t t' h e
    simp at h hoc e
    obtain ⟨rfl, _⟩ := e
    rcases h with ⟨rfl, rfl⟩ | ⟨rfl, rfl⟩ <;> rcases hoc with ⟨h, rfl⟩ | ⟨h, rfl⟩ <;> simp_all
  have hcc : c = ')' ∨ c = ']' := by simp at hoc; rcases hoc with ⟨_, rfl⟩ | ⟨_, rfl⟩ <;> simp
  have hcs : ∀ t, Solid (c :: t) := fun t => by rcases hcc with rfl | rfl <;> exact Solid.cons (by decide)
  have hnc : ∀ t, No (.call .Literal) (c :: t) := fun t => by
    rcases hcc with rfl | rfl <;> exact big_none_cons (by decide) (by decide) (by decide)
  obtain ⟨t0, hu⟩ := hu
  cases h with
  | empty ho hw =>
    obtain ⟨rfl, rfl⟩ := oc ho hu
    have := eff_arr hk .nil
    refine ⟨[] ++ ([.act k] ++ ([] ++ ([] ++ ([] ++ ([] ++ [.act k']))))), Ok.cast (.seqOk .chrOk (.seqOk .act (.seqOk (sp_ok hw (hcs r).no)
      (.seqOk (.optNone (.seqFail1 (hnc r))) (.seqOk (sp_nil (hcs r).no) (.seqOk .chrOk .act)))))) (by simp) rfl rfl, ?_⟩
    simpa using this
  | @items o' c' w u ns w1 t w2 ho hw hi hw1 ht hw2 =>
    obtain ⟨rfl, rfl⟩ := oc ho hu
    obtain ⟨ev, hl, he⟩ := list_ok (x := .Literal) (fun _ _ => lit_item) (fun t => big_none_cons (by decide) (by decide) (by decide))
      (fun t => big_none_cons (by decide) (by decide) (by decide)) hcc (litItems_items hi) hw1 ht hw2 r
    obtain ⟨s1, s2⟩ := litItems_solid hi
    obtain ⟨e1, r1, e2, i1, i2, rfl⟩ := hl.seq_inv
    obtain ⟨e3, r3, e4, i3, i4, rfl⟩ := i2.seq_inv
    refine ⟨[] ++ ([.act k] ++ ([] ++ (e1 ++ (e3 ++ (e4 ++ [.act k']))))), Ok.cast (.seqOk .chrOk (.seqOk .act (.seqOk (sp_ok hw (solid_append s1 s2).no)
      (.seqOk i1 (.seqOk i3 (.seqOk i4 .act)))))) (by simp) rfl rfl, ?_⟩
    have := eff_arr hk he
    simpa using this

theorem LitArr.start {u n} (h : LitArr u n) : ∃ c t, u = c :: t ∧ (c = '[' ∨ c = '(') := by
  cases h with
  | empty ho _ => simp at ho; rcases ho with ⟨rfl, rfl⟩ | ⟨rfl, rfl⟩ <;> exact ⟨_, _, rfl, by simp⟩
  | items ho => simp at ho; rcases ho with ⟨rfl, rfl⟩ | ⟨rfl, rfl⟩ <;> exact ⟨_, _, rfl, by simp⟩

theorem LitArr.ok {u n} (h : LitArr u n) (r : Str) : ∃ ev, Ok (.call .Array) (u ++ r) ev r ∧ Eff ev [n] [] := by
  obtain ⟨c, t, hu, rfl | rfl⟩ := h.start
  · obtain ⟨ev, ho, he⟩ := brackets_ok (o := '[') (c := ']') (k := 21) (k' := 22) (by decide) (by decide) h ⟨t, hu⟩ r
    exact ⟨ev, .call (.alt1 ho), he⟩
  · obtain ⟨ev, ho, he⟩ := brackets_ok (o := '(') (c := ')') (k := 23) (k' := 24) (by decide) (by decide) h ⟨t, hu⟩ r
    refine ⟨ev, .call (.alt2 ?_ ho), he⟩
    rw [hu]; exact .seqFail1 (.chrFail (by decide))

theorem LitArr.no_literal {u n} (h : LitArr u n) (r : Str) : No (.call .Literal) (u ++ r) := by
  obtain ⟨c, t, rfl, rfl | rfl⟩ := h.start <;> exact big_none_cons (by decide) (by decide) (by decide)

theorem Val.ok {u n} (h : Val u n) {r : Str} (hr : Hd [('0', '9')] r) : ∃ ev, Ok (.call .Value) (u ++ r) ev r ∧ Eff ev [n] [] := by
  rcases h with h | h
  · obtain ⟨ev, ho, he⟩ := h.ok hr; exact ⟨ev, .call (.alt1 ho), he⟩
  · obtain ⟨ev, ho, he⟩ := h.ok r; exact ⟨ev, .call (.alt2 (h.no_literal r) ho), he⟩

theorem Val.solid {u n} (h : Val u n) : Solid u ∧ u ≠ [] := by
  rcases h with h | h
  · exact start_solid (by decide) (by decide) h.start
  · obtain ⟨c, t, rfl, rfl | rfl⟩ := h.start <;> exact ⟨Solid.cons (by decide), by simp⟩

/-! ## Names -/

/-- A word of identifier characters at the start of `u ++ r` lies within `u` when `r` does not continue it. -/
theorem word_prefix {u r a t : Str} (h : u ++ r = a ++ t) (ha : ∀ c ∈ a, idF.has c = true) (hr : Hd idF r) : ∃ t', u = a ++ t' := by
  rcases List.append_eq_append_iff.mp h with ⟨a', h1, h2⟩ | ⟨c', h1, h2⟩
  · cases a' with
    | nil => exact ⟨[], by simpa using h1.symm⟩
    | cons d a' =>
      have h3 := hr d (a' ++ t) (by simpa using h2)
      rw [ha d (by rw [h1]; simp)] at h3
      cases h3
  · exact ⟨c', h1⟩

theorem letter_idF {c : Char} (h : ('a' ≤ c ∧ c ≤ 'z') ∨ ('A' ≤ c ∧ c ≤ 'Z')) : idF.has c = true := idF_iff.mpr (.inl h)

theorem ciLit_no {w s : Str} (hr : ranked nulG rankG 16 16 (ciLit w) = true) (h : ∀ a t, s = a ++ t → ¬ CI w a) : No (.ciLit w) s := by
  obtain ⟨x, hx⟩ := big_exp_total (ciLit w) s 16 (by omega) hr
  cases x with
  | none => exact hx
  | some p =>
    obtain ⟨ev, r⟩ := p
    have := Big.sat (P := Post) (fun _ _ _ _ h _ => post_all h) hx _ _ rfl
    obtain ⟨-, u, rfl, hu⟩ := sat_ciLit this
    exact absurd hu (h u r rfl)

theorem idHead_ok {c : Char} {t : Str} (h : IdHead c) : Ok gIdHead (c :: t) [] t := by
  rcases h with h | h
  · exact .alt1 (.rngOk h.1 h.2)
  · by_cases h' : 'a'.toNat ≤ c.toNat ∧ c.toNat ≤ 'z'.toNat
    · exact .alt1 (.rngOk h'.1 h'.2)
    · exact .alt2 (.rngFail h') (.rngOk h.1 h.2)

theorem mem_digits {c : Char} : c ∈ digits ↔ 48 ≤ c.toNat ∧ c.toNat ≤ 57 := by
  constructor
  · intro h; revert c; decide
  · intro h
    have : c.toNat = 48 ∨ c.toNat = 49 ∨ c.toNat = 50 ∨ c.toNat = 51 ∨ c.toNat = 52 ∨ c.toNat = 53 ∨ c.toNat = 54 ∨ c.toNat = 55 ∨
      c.toNat = 56 ∨ c.toNat = 57 := by omega
    have hc : c = Char.ofNat c.toNat := (Char.ofNat_toNat c).symm
    rw [hc]
    rcases this with h | h | h | h | h | h | h | h | h | h <;> rw [h] <;> decide

theorem mem_uppers {c : Char} : c ∈ uppers ↔ 65 ≤ c.toNat ∧ c.toNat ≤ 90 := by
  constructor
  · intro h; revert c; decide
  · intro h
    have : ∃ k, k < 26 ∧ c.toNat = 65 + k := ⟨c.toNat - 65, by omega, by omega⟩
    obtain ⟨k, hk, hc'⟩ := this
    have hc : c = Char.ofNat c.toNat := (Char.ofNat_toNat c).symm
    rw [hc, hc']
    clear hc hc' h c
    revert k; decide

theorem idTail_ok {c : Char} {t : Str} (h : IdTail c) : Ok gIdTail (c :: t) [] t := by
  by_cases hd : c ∈ digits
  · exact .swIn hd (.rngOk (mem_digits.mp hd).1 (mem_digits.mp hd).2)
  · refine .swOut hd ?_
    by_cases hu : c ∈ uppers
    · exact .swIn hu (.rngOk (mem_uppers.mp hu).1 (mem_uppers.mp hu).2)
    · refine .swOut hu ?_
      rw [mem_digits] at hd
      rw [mem_uppers] at hu
      rcases h with (h | h) | h | rfl
      · refine .swOut ?_ (.rngOk h.1 h.2)
        intro e; rw [List.mem_singleton.mp e] at h; exact absurd h (by decide)
      · exact absurd h hu
      · exact absurd h hd
      · exact .swIn (by decide) .chrOk

theorem idTail_no {r : Str} (h : Hd idF r) : No gIdTail r := h.no (by decide) (by decide) (by decide)

theorem idText_chars {u} (h : IdText u) : ∀ c ∈ u, IdTail c := by
  obtain ⟨⟨c, t, rfl, hc, ht⟩, _⟩ := h
  intro x hx
  rcases List.mem_cons.mp hx with rfl | hx
  · exact .inl hc
  · exact ht x hx

theorem identifier_ok {u r : Str} (h : IdText u) (hr : Hd idF r) : Ok (.call .Identifier) (u ++ r) [.text u, .act 14] r := by
  have hno : No (.ciLit c!"not") (u ++ r) := by
    refine ciLit_no (by decide) fun a t e ha => ?_
    obtain ⟨t', ht'⟩ := word_prefix e (fun c hc => letter_idF (ha.mem (by decide) c hc)) hr
    exact h.2 a t' ht' ha
  obtain ⟨c, t, hu, hc, ht⟩ := h.1
  have hb : Ok (.seq gIdHead (.star gIdTail)) (u ++ r) [] r := by
    rw [hu]
    exact .seqOk (idHead_ok hc) (star_chars (idTail_no hr) t fun d hd t => idTail_ok (ht d hd))
  have := Big.txtOk hb
  rw [txt_eq] at this
  exact .call (.seqOk (.notOk hno) (.seqOk this .act))

theorem identifier_no_of_start {c : Char} {t : Str} (h : alF.has c = false) : No (.call .Identifier) (c :: t) :=
  big_none_cons (by decide) (by decide) h

theorem idText_head {u} (h : IdText u) : ∃ c t, u = c :: t ∧ IdHead c ∧ alF.has c = true := by
  obtain ⟨⟨c, t, rfl, hc, ht⟩, _⟩ := h
  refine ⟨c, t, rfl, hc, ?_⟩
  simp only [alF, CSet.has, List.any_cons, List.any_nil, Bool.or_false, Bool.or_eq_true, Bool.and_eq_true, decide_eq_true_eq]
  exact hc

theorem lit_no_prefix {w s : Str} (hr : ranked nulG rankG 16 16 (lit w) = true) (h : ¬ w <+: s) : No (.lit w) s := by
  obtain ⟨x, hx⟩ := big_exp_total (lit w) s 16 (by omega) hr
  cases x with
  | none => exact hx
  | some p =>
    obtain ⟨ev, r⟩ := p
    have := Big.sat (P := Post) (fun _ _ _ _ h _ => post_all h) hx _ _ rfl
    obtain ⟨-, rfl⟩ := sat_lit this
    exact absurd (List.prefix_append _ _) h

/-- No literal at a text that begins with a letter and with no literal keyword. -/
theorem value_no {c : Char} {t : Str} (hc : alF.has c = true) (h : KwFree (c :: t)) : No (.call .Value) (c :: t) := by
  have hlet : IdHead c := by
    simp only [alF, CSet.has, List.any_cons, List.any_nil, Bool.or_false, Bool.or_eq_true, Bool.and_eq_true, decide_eq_true_eq] at hc
    exact hc
  have hne : ∀ d : Char, (d.toNat < 65 ∨ (90 < d.toNat ∧ d.toNat < 97) ∨ 122 < d.toNat) → c ≠ d := by
    intro d hd e; subst e; have := idHead_iff.mp hlet; omega
  have kw : ∀ k, k ∈ [c!"true", c!"false", c!"TRUE", c!"FALSE", c!"null", c!"NULL"] → ¬ k <+: c :: t := h
  refine .call (.alt2 (.call ?_) ?_)
  · by_cases h1 : c ∈ c!"Nn"
    · exact .swIn h1 (.call (.seqFail1 (.txtFail (.alt2 (lit_no_prefix (by decide) (kw _ (by decide)))
        (lit_no_prefix (by decide) (kw _ (by decide)))))))
    · refine .swOut h1 ?_
      by_cases h2 : c ∈ c!"FTft"
      · refine .swIn h2 (.call (.seqFail1 (.txtFail ?_)))
        by_cases h3 : c ∈ ['F']
        · exact .swIn h3 (lit_no_prefix (by decide) (kw _ (by decide)))
        · refine .swOut h3 ?_
          by_cases h4 : c ∈ ['T']
          · exact .swIn h4 (lit_no_prefix (by decide) (kw _ (by decide)))
          · refine .swOut h4 ?_
            by_cases h5 : c ∈ ['f']
            · exact .swIn h5 (lit_no_prefix (by decide) (kw _ (by decide)))
            · exact .swOut h5 (lit_no_prefix (by decide) (kw _ (by decide)))
      · refine .swOut h2 (.swOut ?_ ?_)
        · intro h3; simp at h3; rcases h3 with rfl | rfl <;> exact absurd hc (by decide)
        · refine big_none_cons (by decide) (by decide) ?_
          have := idHead_iff.mp hlet
          simp [first, CSet.has, firstG]
          omega
  · exact .call (.alt2 (.seqFail1 (.chrFail (hne _ (by decide)))) (.seqFail1 (.chrFail (hne _ (by decide)))))

theorem kwFree_append {u r : Str} (h : KwFree u) (hr : Hd idF r) : KwFree (u ++ r) := by
  rintro k hk ⟨t, ht⟩
  have hl : ∀ c ∈ k, idF.has c = true := by
    simp at hk; rcases hk with rfl | rfl | rfl | rfl | rfl | rfl <;> decide
  obtain ⟨t', ht'⟩ := word_prefix ht.symm hl hr
  exact h k hk ⟨t', ht'.symm⟩

/-- Characters that continue an identifier, or make it a call or a dotted name. -/
def nameF : CSet := idF ++ [('.', '.'), ('(', '(')]

theorem paren_alt_no {s : Str} (h : ∀ t, s ≠ '(' :: t) : No (seqs [.chr '(', .call .sp, .call .Expression, .call .sp, .chr ')', .act 8]) s :=
  .seqFail1 (chr_no h)

theorem dots_ok {b : Str} : ∀ {names : List Str}, (∀ x ∈ b :: names, IdText x) → ∀ {r : Str}, Hd idF r → Hd [('.', '.')] r →
    ∃ e1 r1 e2, Ok (.call .Identifier) (joinDots (b :: names) ++ r) e1 r1 ∧ Ok (.star (.seq (.chr '.') (.call .Identifier))) r1 e2 r ∧
      Eff (e1 ++ e2) ((b :: names).map .ident) [] := by
  intro names
  induction names generalizing b with
  | nil =>
    intro h r hr hd
    refine ⟨_, _, [], identifier_ok (h b (by simp)) hr, .starNil (.seqFail1 (chr_no fun t e => ?_)), ?_⟩
    · have := hd _ _ e; exact absurd this (by decide)
    · have := eff_name b; simpa [joinDots] using this
  | cons c names ih =>
    intro h r hr hd
    obtain ⟨e1, r1, e2, h1, h2, he⟩ := ih (b := c) (fun x hx => h x (List.mem_cons_of_mem _ hx)) hr hd
    refine ⟨[.text b, .act 14], '.' :: (joinDots (c :: names) ++ r), ([] ++ e1) ++ e2, ?_, ?_, ?_⟩
    · have := identifier_ok (h b (by simp)) (r := '.' :: (joinDots (c :: names) ++ r)) (Hd.cons (by decide))
      simpa [joinDots] using this
    · exact .starCons (.seqOk .chrOk h1) h2
    · have := (eff_name b).append he; simpa using this

theorem joinDots_head {a b : Str} {l : List Str} : joinDots (a :: b :: l) = a ++ '.' :: joinDots (b :: l) := rfl

theorem Name.ok {u n} (h : Name u n) (hk : KwFree u) {r : Str} (hr : Hd nameF r) (ha : ∀ t, r ≠ '-' :: '>' :: t) :
    ∃ ev, Ok (.call .PrimaryExpression) (u ++ r) ev r ∧ Eff ev [n] [] := by
  have hid : Hd idF r := hr.mono (by decide)
  have hdot : Hd [('.', '.')] r := hr.mono (by decide)
  have hpar : Hd [('(', '(')] r := hr.mono (by decide)
  have hkw := kwFree_append hk hid
  cases h with
  | ident hu =>
    obtain ⟨c, t, he, hc, hal⟩ := idText_head hu
    have hval : No (.call .Value) (u ++ r) := by
      rw [he] at hkw ⊢; exact value_no hal hkw
    have hp : ∀ t, u ++ r ≠ '(' :: t := by
      intro t' e; rw [he] at e; simp at e; rw [e.1] at hal; exact absurd hal (by decide)
    have hi := identifier_ok hu hid
    refine ⟨_, .call (.alt2 (paren_alt_no hp) (.alt2 hval (.alt2 (.seqFail2 hi (.seqFail1 ?_)) (.call (.alt2 (.call ?_) (.alt2 (.call ?_) hi)))))), eff_name u⟩
    · exact hpar.no (by decide) (by decide) (by decide)
    · refine .seqFail2 .act (.seqFail2 hi (.seqFail1 (chr_no fun t e => ?_)))
      have := hdot _ _ e; exact absurd this (by decide)
    · refine .seqFail2 hi ?_
      cases r with
      | nil => exact .seqFail1 .chrNil
      | cons x r =>
        by_cases hx : x = '-'
        · subst hx
          exact .seqFail2 .chrOk (.seqFail1 (chr_no fun t e => ha t (by rw [e])))
        · exact .seqFail1 (.chrFail hx)
  | @ref a b names hu =>
    obtain ⟨c, t, he, hc, hal⟩ := idText_head (hu a (by simp))
    obtain ⟨e1, r1, e2, h1, h2, heff⟩ := dots_ok (b := b) (names := names) (fun x hx => hu x (List.mem_cons_of_mem _ hx)) hid hdot
    have hi := identifier_ok (hu a (by simp)) (r := '.' :: (joinDots (b :: names) ++ r)) (Hd.cons (by decide))
    have heq : joinDots (a :: b :: names) ++ r = a ++ '.' :: (joinDots (b :: names) ++ r) := by simp [joinDots_head]
    rw [heq] at hkw ⊢
    have hval : No (.call .Value) (a ++ '.' :: (joinDots (b :: names) ++ r)) := by
      rw [he] at hkw ⊢; exact value_no hal hkw
    have hp : ∀ t, a ++ '.' :: (joinDots (b :: names) ++ r) ≠ '(' :: t := by
      intro t' e; rw [he] at e; simp at e; rw [e.1] at hal; exact absurd hal (by decide)
    refine ⟨_, .call (.alt2 (paren_alt_no hp) (.alt2 hval (.alt2 (.seqFail2 hi (.seqFail1 (.call (.seqFail1 (.chrFail (by decide))))))
      (.call (.alt1 (.call (.seqOk .act (.seqOk hi (.seqOk .chrOk (.seqOk h1 (.seqOk h2 .act)))))))))) ), ?_⟩
    have := eff_ref (names := a :: b :: names) ((eff_name a).append heff)
    simpa using this

end Verif
