import Verif.Props.GormText

/-! # What of the query reaches the text of a gorm condition (C18, C24)

`C18_comment_refuted` and `C24_comment_refuted` show that a comment inside an operator of several words is copied into the condition.  Here it is
shown that this is the only way: whatever the query, its condition is made of the fixed vocabulary, one `?` for each bound value, the quoted names
of columns, and such copies. -/

namespace Verif

/-- Words of the condition, apart from the placeholder; the last line are the words of operators interrupted by a comment. -/
def sqlTokens : List Str :=
  [c!" ", c!"(", c!")", c!"not ", c!"date(", c!" and ",
   c!">=", c!">", c!"=", c!"<>", c!"<", c!"<=", c!"and", c!"or", c!"like", c!"not like", c!"in", c!"not in", c!"between", c!"not between",
   c!"is null", c!"is not null", c!"is true", c!"is false", c!"is not true", c!"is not false",
   c!"not", c!"is", c!"null", c!"true", c!"false"]

/-- `m` is a copy of blanks and comments found in the query: in lower case and with single spaces for all white space. -/
def Copied (q m : Str) : Prop := (∃ u, u <:+: q ∧ Condensed u m) ∧ ∃ w, WS w ∧ w ≠ [] ∧ Condensed w m

/-- `Made … q k t`: the text `t` is composed of the words, of `k` placeholders, of quoted names of columns of the schema, and of copies of comments
of the query `q`. -/
inductive Made (s : GSchema) (quote : Str → Str) (fold : Str → Str → Bool) (q : Str) : Nat → Str → Prop where
  | nil : Made s quote fold q 0 []
  | word {w k t} : w ∈ sqlTokens → Made s quote fold q k t → Made s quote fold q k (w ++ t)
  | mark {k t} : Made s quote fold q k t → Made s quote fold q (k + 1) ('?' :: t)
  | column {x d k t} : Resolves fold s.table x d → Made s quote fold q k t → Made s quote fold q k (quote d ++ t)
  | joined {r tb x d k t} : s.rel r = some tb → Resolves fold tb x d → Made s quote fold q k t → Made s quote fold q k (quote (r ++ c!"." ++ d) ++ t)
  | copied {m k t} : Copied q m → Made s quote fold q k t → Made s quote fold q k (m ++ t)

namespace Made
variable {s : GSchema} {quote : Str → Str} {fold : Str → Str → Bool} {q : Str}

theorem append {j k t u} (h : Made s quote fold q j t) (h' : Made s quote fold q k u) : Made s quote fold q (j + k) (t ++ u) := by
  induction h with
  | nil => rw [Nat.zero_add]; exact h'
  | word hw _ ih => rw [List.append_assoc]; exact .word hw ih
  | mark _ ih => rw [Nat.add_right_comm]; exact .mark ih
  | column hx _ ih => rw [List.append_assoc]; exact .column hx ih
  | joined hr hx _ ih => rw [List.append_assoc]; exact .joined hr hx ih
  | copied hm _ ih => rw [List.append_assoc]; exact .copied hm ih

theorem one {w} (h : w ∈ sqlTokens) : Made s quote fold q 0 w := by
  have := Made.word (s := s) (quote := quote) (fold := fold) (q := q) h .nil
  simpa using this

theorem copy {m} (h : Copied q m) : Made s quote fold q 0 m := by
  have := Made.copied (s := s) (quote := quote) (fold := fold) (q := q) h .nil
  simpa using this

theorem cat {j k} {a b : Option Str} (ha : ∀ t, a = some t → Made s quote fold q j t) (hb : ∀ t, b = some t → Made s quote fold q k t) :
    ∀ t, Verif.cat a b = some t → Made s quote fold q (j + k) t := by
  intro t h
  obtain ⟨x, y, rfl, rfl, rfl⟩ := count_cat h
  exact (ha x rfl).append (hb y rfl)

theorem tok {w} (h : w ∈ sqlTokens) : ∀ t, some w = some t → Made s quote fold q 0 t := by
  rintro t ⟨⟩; exact one h

end Made

/-- A condensed text splits along any division of its condensation. -/
theorem Condensed.split {x y : Str} (h : Condensed x y) : ∀ a b, y = a ++ b → ∃ u v, x = u ++ v ∧ Condensed u a ∧ Condensed v b := by
  induction h with
  | nil =>
    intro a b e
    obtain ⟨rfl, rfl⟩ := List.append_eq_nil_iff.mp e.symm
    exact ⟨[], [], rfl, .nil, .nil⟩
  | @run r u m hne hr hu hm ih =>
    intro a b e
    cases a with
    | nil => exact ⟨[], r ++ u, rfl, .nil, by rw [← List.nil_append b, ← e]; exact .run hne hr hu hm⟩
    | cons c a =>
      simp only [List.cons_append, List.cons.injEq] at e
      obtain ⟨rfl, e⟩ := e
      obtain ⟨v, w, rfl, h1, h2⟩ := ih a b e
      refine ⟨r ++ v, w, by rw [List.append_assoc], .run hne hr ?_ h1, h2⟩
      intro c t ec
      exact hu c (t ++ w) (by rw [ec]; rfl)
  | @char c u m hc hm ih =>
    intro a b e
    cases a with
    | nil => exact ⟨[], c :: u, rfl, .nil, by rw [← List.nil_append b, ← e]; exact .char hc hm⟩
    | cons d a =>
      simp only [List.cons_append, List.cons.injEq] at e
      obtain ⟨rfl, e⟩ := e
      obtain ⟨v, w, rfl, h1, h2⟩ := ih a b e
      exact ⟨c :: v, w, rfl, .char hc h1, h2⟩

theorem Condensed.mid {x a m b : Str} (h : Condensed x (a ++ (m ++ b))) : ∃ u, u <:+: x ∧ Condensed u m := by
  obtain ⟨u, v, rfl, _, h2⟩ := h.split _ _ rfl
  obtain ⟨v, w, rfl, h3, _⟩ := h2.split _ _ rfl
  exact ⟨v, ⟨u, w, by rw [List.append_assoc]⟩, h3⟩

/-- A recorded operator that is not a documented one, and the text it was written as. -/
theorem condensed_of_norm {x o : Str} (e : o = normOp x) (ho : o ∉ opNames) : ∃ y, y <:+: x ∧ Condensed y o := by
  unfold normOp at e
  simp only at e
  split at e
  · next v hv =>
    have tab : ∀ v ∈ normTable.map Prod.snd, v ∈ opNames := by decide
    exact absurd (tab v (List.mem_map_of_mem (f := Prod.snd) (lookup_pair hv))) (e ▸ ho)
  · rw [e]
    exact ⟨goTrim x, trim_infix x, condensed_squeeze _ _ (Nat.le_refl _)⟩

theorem normalizeSQL_other {o : Str} (ho : o ∉ opNames) : normalizeSQL o = o := by
  unfold normalizeSQL
  cases hl : sqlNormalize.lookup o with
  | none => rfl
  | some v =>
    have tab : ∀ p ∈ sqlNormalize, p.1 ∈ opNames := by decide
    exact absurd (tab _ (lookup_pair hl)) ho

theorem op_made {s quote fold q o} (hn : OpName o) (hx : ∃ x, x <:+: q ∧ o = normOp x) : Made s quote fold q 0 (normalizeSQL o) := by
  by_cases ho : o ∈ opNames
  · have : ∀ o ∈ opNames, normalizeSQL o ∈ sqlTokens := by decide
    exact .one (this o ho)
  · rw [normalizeSQL_other ho]
    obtain ⟨x, hx, e⟩ := hx
    obtain ⟨y, hy, hc⟩ := condensed_of_norm e ho
    have cp : ∀ {m b : Str} (a : Str), (∃ u, Sep u m) → o = a ++ (m ++ b) → Copied q m := by
      rintro m b a ⟨w, h1, h2, h3⟩ rfl
      obtain ⟨u, hu, hc⟩ := hc.mid
      exact ⟨⟨u, (hu.trans hy).trans hx, hc⟩, w, h1, h2, h3⟩
    have two : ∀ {a m b : Str}, a ∈ sqlTokens → (∃ u, Sep u m) → b ∈ sqlTokens → o = a ++ (m ++ b) → Made s quote fold q 0 o := by
      intro a m b ha hm hb e
      have := cp a hm e
      rw [e]
      exact .word ha (.copied this (.one hb))
    obtain ⟨u, h | h | h | h | h⟩ := hn
    · cases h with
      | sym h =>
        exfalso
        simp only [List.mem_cons, Prod.mk.injEq, List.not_mem_nil, or_false] at h
        rcases h with ⟨_, rfl⟩ | ⟨_, rfl⟩ | ⟨_, rfl⟩ | ⟨_, rfl⟩ | ⟨_, rfl⟩ | ⟨_, rfl⟩ | ⟨_, rfl⟩ | ⟨_, rfl⟩ <;> exact ho (by decide)
      | word h _ =>
        exfalso
        simp only [List.mem_cons, List.not_mem_nil, or_false] at h
        rcases h with rfl | rfl | rfl | rfl | rfl | rfl | rfl <;> exact ho (by decide)
      | notLike _ hs _ => exact two (by decide) ⟨_, hs⟩ (by decide) rfl
    · exact absurd h.plain ho
    · cases h with
      | inn _ => exact absurd (by decide) ho
      | notIn _ hs _ => exact two (by decide) ⟨_, hs⟩ (by decide) rfl
    · cases h with
      | btw => exact absurd (by decide) ho
      | notBtw _ hs => exact two (by decide) ⟨_, hs⟩ (by decide) rfl
    · cases h with
      | isnull => exact absurd (by decide) ho
      | notnull => exact absurd (by decide) ho
      | is hs hw =>
        refine two (by decide) ⟨_, hs⟩ ?_ rfl
        simp only [List.mem_cons, List.not_mem_nil, or_false] at hw
        rcases hw with rfl | rfl | rfl <;> decide
      | @isNot _ m _ m' w hs hs' hw =>
        have hw' : w ∈ sqlTokens := by
          simp only [List.mem_cons, List.not_mem_nil, or_false] at hw
          rcases hw with rfl | rfl | rfl <;> decide
        have h1 := cp (m := m) (b := c!"not" ++ (m' ++ w)) c!"is" ⟨_, hs⟩ rfl
        have h2 := cp (m := m') (b := w) (c!"is" ++ (m ++ c!"not")) ⟨_, hs'⟩ (by simp only [List.append_assoc])
        exact .word (by decide) (.copied h1 (.word (by decide) (.copied h2 (.one hw'))))

theorem gtext_made {s quote fold q} {n : Node} (hc : Complete n) : (∀ o, Occ (.op o) n → OpName o ∧ ∃ x, x <:+: q ∧ o = normOp x) →
    ∀ t, gtext ⟨s, quote, fold⟩ n = some t → Made s quote fold q (lits n).length t := by
  have kid : ∀ {n k : Node}, (∀ o, Occ (.op o) n → OpName o ∧ ∃ x, x <:+: q ∧ o = normOp x) → k ∈ parts n →
      ∀ o, Occ (.op o) k → OpName o ∧ ∃ x, x <:+: q ∧ o = normOp x := fun h hk o ho => h o (.step hk ho)
  have sp : c!" " ∈ sqlTokens := by decide
  have cast : ∀ {j k t}, Made s quote fold q j t → j = k → Made s quote fold q k t := fun h e => e ▸ h
  have bin : ∀ {l o r : Node}, (∀ t, gtext ⟨s, quote, fold⟩ l = some t → Made s quote fold q (lits l).length t) →
      (∀ t, gtext ⟨s, quote, fold⟩ o = some t → Made s quote fold q (lits o).length t) →
      (∀ t, gtext ⟨s, quote, fold⟩ r = some t → Made s quote fold q (lits r).length t) → ∀ t,
      cat (gtext ⟨s, quote, fold⟩ l) (cat (some c!" ") (cat (gtext ⟨s, quote, fold⟩ o) (cat (some c!" ") (gtext ⟨s, quote, fold⟩ r)))) = some t →
      Made s quote fold q ((lits l).length + ((lits o).length + (lits r).length)) t := by
    intro l o r h1 h2 h3 t h
    exact cast (Made.cat h1 (Made.cat (Made.tok sp) (Made.cat h2 (Made.cat (Made.tok sp) h3))) t h) (by omega)
  induction hc with
  | int | bool | str | null => intro _ t h; cases h; exact .mark .nil
  | arr =>
    intro _ t h
    rw [gtext] at h
    split at h
    · cases h
    · cases h; exact .mark .nil
  | op => intro ho t h; cases h; exact op_made (ho _ .refl).1 (ho _ .refl).2
  | ident =>
    intro _ t h
    rw [gtext, Option.map_eq_some_iff] at h
    obtain ⟨d, hd, rfl⟩ := h
    have := Made.column (quote := quote) (q := q) (getDBName_resolves hd) .nil
    simpa [lits] using this
  | ref =>
    intro _ t h
    rw [gtext] at h
    unfold refText at h
    split at h
    · split at h
      · cases h
      · rename_i hr
        obtain ⟨d, hd, rfl⟩ := Option.map_eq_some_iff.1 h
        have := Made.joined (quote := quote) (q := q) hr (getDBName_resolves hd) .nil
        simpa [lits] using this
    · cases h
  | pred _ _ ih1 ih2 =>
    intro ho t h
    exact cast (Made.cat (ih1 (kid ho (by simp [parts]))) (Made.cat (Made.tok sp) (ih2 (kid ho (by simp [parts])))) t h) (by simp [lits])
  | cmp _ _ _ ih1 ih2 ih3 =>
    intro ho t h
    exact cast (bin (ih1 (kid ho (by simp [parts]))) (ih2 (kid ho (by simp [parts]))) (ih3 (kid ho (by simp [parts]))) t h) (by simp [lits])
  | logic _ _ _ ih1 ih2 ih3 =>
    intro ho t h
    exact cast (bin (ih1 (kid ho (by simp [parts]))) (ih2 (kid ho (by simp [parts]))) (ih3 (kid ho (by simp [parts]))) t h) (by simp [lits])
  | paren _ ih =>
    intro ho t h
    exact cast (Made.cat (Made.tok (by decide)) (Made.cat (ih (kid ho (by simp [parts]))) (Made.tok (by decide))) t h) (by simp [lits])
  | not _ ih =>
    intro ho t h
    exact cast (Made.cat (Made.tok (by decide)) (ih (kid ho (by simp [parts]))) t h) (by simp [lits])
  | between _ _ _ _ ih1 ih2 ih3 ih4 =>
    intro ho t h
    exact cast (Made.cat (ih1 (kid ho (by simp [parts]))) (Made.cat (Made.tok sp) (Made.cat (ih2 (kid ho (by simp [parts])))
      (Made.cat (Made.tok sp) (Made.cat (ih3 (kid ho (by simp [parts]))) (Made.cat (Made.tok (by decide)) (ih4 (kid ho (by simp [parts])))))))) t h)
      (by simp [lits])
  | func hh ih =>
    rename_i f l
    clear hh
    intro ho t h
    rw [gtext] at h
    by_cases hf : f = c!"date"
    · rw [if_pos hf] at h
      have hL : ∀ l : List Node, (∀ m ∈ l, ∀ t, gtext ⟨s, quote, fold⟩ m = some t → Made s quote fold q (lits m).length t) →
          ∀ t, gtextL ⟨s, quote, fold⟩ l = some t → Made s quote fold q (litsL l).length t := by
        intro l
        induction l with
        | nil => rintro _ t ⟨⟩; exact .nil
        | cons m l ihl =>
          intro hm t h
          exact cast (Made.cat (hm m (by simp)) (ihl fun n hn => hm n (List.mem_cons_of_mem _ hn)) t h) (by simp [litsL])
      exact cast (Made.cat (Made.tok (by decide)) (Made.cat (hL l fun m hm => ih m hm (kid ho (by simpa [parts] using hm))) (Made.tok (by decide))) t h)
        (by simp [lits])
    · rw [if_neg hf] at h; cases h

/-- C18 and C24 for every query, comments included: the condition is made of the fixed vocabulary, one placeholder for each bound value, quoted names
of columns known to the schema, and copies of blanks and comments of the query.  Nothing else of the query reaches its text. -/
theorem C24_made {schema quote fold db db' q sql vals} (h : wire schema quote fold db q = .ok db') (hw : db'.wheres = db.wheres ++ [(sql, vals)]) :
    ∃ s, schema = some s ∧ Made s quote fold q vals.length sql := by
  obtain ⟨s, n, st, rfl, hp, hc, hg, e, _⟩ := wire_where h hw
  obtain ⟨t, ht, had⟩ := gvisit_ok hc hg
  obtain ⟨vs, hv, e'⟩ := had.vals
  cases e
  refine ⟨s, rfl, ?_⟩
  have hl : (lits n).length = st.vals.length := by
    have := congrArg List.length hv
    rw [e']
    simpa using this
  rw [had.buf, ← hl, List.nil_append]
  exact gtext_made hc (fun o ho => ⟨(parse_fine hp).1.subOp o ho.sub, parse_from hp _ ho.sub⟩) t ht

/-- Placeholders of a made text: at least the counted ones. -/
theorem Made.count {s quote fold q k t} (h : Made s quote fold q k t) : k ≤ t.count '?' := by
  induction h with
  | nil => exact Nat.zero_le _
  | mark _ ih => rw [List.count_cons_self]; omega
  | _ => rw [List.count_append]; omega

/-- C18 for every query: no value is without its placeholder. -/
theorem C18_no_fewer {schema quote fold db db' q sql vals} (h : wire schema quote fold db q = .ok db') (hw : db'.wheres = db.wheres ++ [(sql, vals)]) :
    vals.length ≤ sql.count '?' := by
  obtain ⟨_, _, hm⟩ := C24_made h hw
  exact hm.count

/-- The witness of `C24_comment_refuted` in these terms: the comment is the only copy. -/
example : Copied c!"a not -- 1; DROP TABLE t\nlike 'x'" c!" -- 1; drop table t " := by
  have h1 : c!" -- 1; DROP TABLE t\n" <:+: c!"a not -- 1; DROP TABLE t\nlike 'x'" := ⟨c!"a not", c!"like 'x'", by decide⟩
  have h2 : Condensed c!" -- 1; DROP TABLE t\n" c!" -- 1; drop table t " :=
    condensed_squeeze _ _ (Nat.le_refl _)
  have h3 : WS c!" -- 1; DROP TABLE t\n" :=
    .blank (by decide) (.comment (o := c!"--") (b := c!" 1; DROP TABLE t") (e := '\n') (.inl rfl) (by decide) (.inl rfl) .nil)
  exact ⟨⟨_, h1, h2⟩, _, h3, by decide, h2⟩

/-- Text that is not part of a comment is no copy. -/
example : ¬ Copied c!"a = '; drop table t'" c!"; drop table t" := by
  rintro ⟨_, w, h, hne, hc⟩
  cases h with
  | nil => exact hne rfl
  | @blank c u hb _ =>
    generalize e : c!"; drop table t" = m at hc
    generalize e' : c :: u = x at hc
    cases hc with
    | nil => cases e
    | run => cases e
    | char hw =>
      cases e'
      exact hw (List.mem_cons_of_mem _ hb)
  | @comment o b e u ho =>
    generalize e1 : c!"; drop table t" = m at hc
    generalize e2 : o ++ (b ++ e :: u) = x at hc
    cases hc with
    | nil => cases e1
    | run => cases e1
    | @char c u m hw =>
      have h1 : c = '-' ∨ c = '/' := by
        rcases ho with rfl | rfl
        · exact .inl (List.cons.inj e2).1.symm
        · exact .inr (List.cons.inj e2).1.symm
      have h2 := (List.cons.inj e1).1
      rcases h1 with rfl | rfl <;> exact absurd h2 (by decide)

example : ∃ s, some exampleSchema = some s ∧ Made s exampleQuote exampleFold c!"a is -- ?\nnull" 0 c!"`a` is -- ? null" :=
  C24_made (db := {}) (db' := { wheres := [(c!"`a` is -- ? null", [])] }) C18_comment_refuted rfl

end Verif
