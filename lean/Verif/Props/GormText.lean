import Verif.Props.Gorm
import Verif.NoComment

/-! # The text of gorm conditions (C18, C24, C26) -/

namespace Verif

theorem Occ.sub {m n} (h : Occ m n) : Sub m n := by
  induction h with
  | refl => exact .refl
  | step hk _ ih => exact .step (by cases ‹Node› <;> first | exact hk | simp [parts] at hk) ih

/-! ## C18 -/

/-- C18, placeholders, for query texts: if the query contains no comment, the condition has one `?` per value. -/
theorem C18_query_partial {schema quote fold db db' q sql vals} (hq : ∀ x, '?' ∉ quote x) (h : wire schema quote fold db q = .ok db')
    (hw : db'.wheres = db.wheres ++ [(sql, vals)]) (hf : NoComment q) : sql.count '?' = vals.length := by
  refine C18_placeholders_partial hq h hw fun n o hp ho => ?_
  have h1 := parse_plain_nc hp hf o ho.sub
  have : ∀ o ∈ opNames, '?' ∉ o := by decide
  exact this o h1

example : exampleWire c!"not a like '?' and (b not in [1, '?'] or A between 1 and 2)" = .ok { wheres := [(c!"not `a` like ? and (`b` not in ? or `a` between ? and ?)",
    [.str c!"?", .slice [.int 1, .str c!"?"], .int 1, .int 2])] } ∧ NoComment c!"not a like '?' and (b not in [1, '?'] or A between 1 and 2)" := by
  exact ⟨by decide +kernel, by decide +kernel⟩

/-- `//` and `--` in a string are no comment, and `->` may occur. -/
example : exampleWire c!"a->b != 'http://x--?'" = .ok { wheres := [(c!"`b` <> ?", [.str c!"http://x--?"])] } ∧ NoComment c!"a->b != 'http://x--?'" ∧
    ¬ NoComment c!"a != 'http:' // x" := by decide +kernel

/-! ## C24 -/

/-- The words and symbols a condition may contain besides quoted names. -/
def sqlWords : List Str :=
  [c!"?", c!" ", c!"(", c!")", c!"not ", c!"date(", c!" and ",
   c!">=", c!">", c!"=", c!"<>", c!"<", c!"<=", c!"and", c!"or", c!"like", c!"not like", c!"in", c!"not in", c!"between", c!"not between",
   c!"is null", c!"is not null", c!"is true", c!"is false", c!"is not true", c!"is not false"]

/-- Texts composed of the fixed vocabulary and of quoted names of columns of the schema. -/
inductive Vocab (s : GSchema) (quote : Str → Str) (fold : Str → Str → Bool) : Str → Prop where
  | nil : Vocab s quote fold []
  | word {w t} : w ∈ sqlWords → Vocab s quote fold t → Vocab s quote fold (w ++ t)
  | column {x d t} : Resolves fold s.table x d → Vocab s quote fold t → Vocab s quote fold (quote d ++ t)
  | joined {r tb x d t} : s.rel r = some tb → Resolves fold tb x d → Vocab s quote fold t → Vocab s quote fold (quote (r ++ c!"." ++ d) ++ t)

theorem Vocab.append {s quote fold t u} (h : Vocab s quote fold t) (h' : Vocab s quote fold u) : Vocab s quote fold (t ++ u) := by
  induction h with
  | nil => exact h'
  | word hw _ ih => rw [List.append_assoc]; exact .word hw ih
  | column hx _ ih => rw [List.append_assoc]; exact .column hx ih
  | joined hr hx _ ih => rw [List.append_assoc]; exact .joined hr hx ih

theorem Vocab.one {s quote fold w} (h : w ∈ sqlWords) : Vocab s quote fold w := by have := Vocab.word (s := s) (quote := quote) (fold := fold) h .nil; simpa using this

theorem cat_vocab {s quote fold} {a b : Option Str} (ha : ∀ t, a = some t → Vocab s quote fold t) (hb : ∀ t, b = some t → Vocab s quote fold t) :
    ∀ t, cat a b = some t → Vocab s quote fold t := by
  intro t h
  obtain ⟨x, y, rfl, rfl, rfl⟩ := count_cat h
  exact (ha x rfl).append (hb y rfl)

theorem word_vocab {s quote fold w} (h : w ∈ sqlWords) : ∀ t, some w = some t → Vocab s quote fold t := by
  rintro t ⟨⟩; exact .one h

theorem op_vocab {s quote fold o} (h : o ∈ opNames) : Vocab s quote fold (normalizeSQL o) := by
  have : ∀ o ∈ opNames, normalizeSQL o ∈ sqlWords := by decide
  exact .one (this o h)

theorem gtext_vocab {s quote fold} {n : Node} (hc : Complete n) : (∀ o, Occ (.op o) n → o ∈ opNames) →
    ∀ t, gtext ⟨s, quote, fold⟩ n = some t → Vocab s quote fold t := by
  have kid : ∀ {n k : Node}, (∀ o, Occ (.op o) n → o ∈ opNames) → k ∈ parts n → ∀ o, Occ (.op o) k → o ∈ opNames :=
    fun h hk o ho => h o (.step hk ho)
  have sp : c!" " ∈ sqlWords := by decide
  induction hc with
  | int | bool | str | null => intro _ t h; exact word_vocab (by decide) t h
  | arr =>
    intro _ t h
    rw [gtext] at h
    split at h
    · cases h
    · exact word_vocab (by decide) t h
  | op => intro ho t h; cases h; exact op_vocab (ho _ .refl)
  | ident =>
    intro _ t h
    rw [gtext, Option.map_eq_some_iff] at h
    obtain ⟨d, hd, rfl⟩ := h
    have := Vocab.column (quote := quote) (getDBName_resolves hd) .nil
    simpa using this
  | ref =>
    intro _ t h
    rw [gtext] at h
    unfold refText at h
    split at h
    · split at h
      · cases h
      · rename_i hr
        obtain ⟨d, hd, rfl⟩ := Option.map_eq_some_iff.1 h
        have := Vocab.joined (quote := quote) hr (getDBName_resolves hd) .nil
        simpa using this
    · cases h
  | pred _ _ ih1 ih2 =>
    intro ho
    exact cat_vocab (ih1 (kid ho (by simp [parts]))) (cat_vocab (word_vocab sp) (ih2 (kid ho (by simp [parts]))))
  | cmp _ _ _ ih1 ih2 ih3 =>
    intro ho
    exact cat_vocab (ih1 (kid ho (by simp [parts]))) (cat_vocab (word_vocab sp) (cat_vocab (ih2 (kid ho (by simp [parts])))
      (cat_vocab (word_vocab sp) (ih3 (kid ho (by simp [parts]))))))
  | logic _ _ _ ih1 ih2 ih3 =>
    intro ho
    exact cat_vocab (ih1 (kid ho (by simp [parts]))) (cat_vocab (word_vocab sp) (cat_vocab (ih2 (kid ho (by simp [parts])))
      (cat_vocab (word_vocab sp) (ih3 (kid ho (by simp [parts]))))))
  | paren _ ih => intro ho; exact cat_vocab (word_vocab (by decide)) (cat_vocab (ih (kid ho (by simp [parts]))) (word_vocab (by decide)))
  | not _ ih => intro ho; exact cat_vocab (word_vocab (by decide)) (ih (kid ho (by simp [parts])))
  | between _ _ _ _ ih1 ih2 ih3 ih4 =>
    intro ho
    exact cat_vocab (ih1 (kid ho (by simp [parts]))) (cat_vocab (word_vocab sp) (cat_vocab (ih2 (kid ho (by simp [parts])))
      (cat_vocab (word_vocab sp) (cat_vocab (ih3 (kid ho (by simp [parts]))) (cat_vocab (word_vocab (by decide)) (ih4 (kid ho (by simp [parts]))))))))
  | func hh ih =>
    rename_i f l
    clear hh
    intro ho t h
    rw [gtext] at h
    by_cases hf : f = c!"date"
    · rw [if_pos hf] at h
      have hL : ∀ l : List Node, (∀ m ∈ l, ∀ t, gtext ⟨s, quote, fold⟩ m = some t → Vocab s quote fold t) → ∀ t, gtextL ⟨s, quote, fold⟩ l = some t →
          Vocab s quote fold t := by
        intro l
        induction l with
        | nil => rintro _ t ⟨⟩; exact .nil
        | cons m l ihl => intro hm; exact cat_vocab (hm m (by simp)) (ihl fun n hn => hm n (List.mem_cons_of_mem _ hn))
      exact cat_vocab (word_vocab (by decide)) (cat_vocab (hL l fun m hm => ih m hm (kid ho (by simpa [parts] using hm))) (word_vocab (by decide))) t h
    · rw [if_neg hf] at h; cases h

/-- C24, partial: for queries without comments the condition consists only of the fixed vocabulary and of quoted names of
columns known to the schema.  Comments are a real exception, see `C24_comment_refuted`. -/
theorem C24_vocabulary_partial {schema quote fold db db' q sql vals} (h : wire schema quote fold db q = .ok db')
    (hw : db'.wheres = db.wheres ++ [(sql, vals)]) (hf : NoComment q) :
    ∃ s, schema = some s ∧ Vocab s quote fold sql := by
  obtain ⟨s, n, st, rfl, hp, hc, hg, e, _⟩ := wire_where h hw
  obtain ⟨t, ht, had⟩ := gvisit_ok hc hg
  cases e
  refine ⟨s, rfl, ?_⟩
  rw [had.buf, List.nil_append]
  exact gtext_vocab hc (fun o ho => parse_plain_nc hp hf o ho.sub) t ht

/-- C24 in general (with comments), if all recorded operators are documented ones. -/
theorem C24_vocabulary_ops {schema quote fold db db' q n sql vals} (h : wire schema quote fold db q = .ok db')
    (hw : db'.wheres = db.wheres ++ [(sql, vals)]) (hp : parse q = .ok n) (ho : ∀ o, Occ (.op o) n → o ∈ opNames) :
    ∃ s, schema = some s ∧ Vocab s quote fold sql := by
  obtain ⟨s, n', st, rfl, hp', hc, hg, e, _⟩ := wire_where h hw
  rw [hp] at hp'; cases hp'
  obtain ⟨t, ht, had⟩ := gvisit_ok hc hg
  cases e
  refine ⟨s, rfl, ?_⟩
  rw [had.buf, List.nil_append]
  exact gtext_vocab hc ho t ht

/-- C24 is false: a comment between the words of an operator is copied into the SQL text. -/
theorem C24_comment_refuted : exampleWire c!"a not -- 1; DROP TABLE t\nlike 'x'" =
    .ok { wheres := [(c!"`a` not -- 1; drop table t like ?", [.str c!"x"])] } := by decide +kernel

/-! ## C26 -/

/-- C26 is false: the arguments of a call are written one after the other without separator. -/
theorem C26_arguments_refuted : exampleWire c!"a = date(1, 2)" = .ok { wheres := [(c!"`a` = date(??)", [.int 1, .int 2])] } ∧
    exampleWire c!"date(a, b)" = .ok { wheres := [(c!"date(`a``b`)", [])] } := by decide +kernel

/-- C26, for any two arguments: the text of a call is that of its arguments run together. -/
theorem C26_run_together (E : GEnv) (a b : Node) (sa sb : GSt) (ha : gvisit E a {} = .ok sa) (hb : gvisit E b {} = .ok sb) (hca : Complete a) (hcb : Complete b)
    (st : GSt) : ∃ st', gvisit E (.func c!"date" [a, b]) st = .ok st' ∧ st'.buf = st.buf ++ (c!"date(" ++ (sa.buf ++ sb.buf) ++ c!")") := by
  have hc : Complete (.func c!"date" [a, b]) := .func (by simp; exact ⟨hca, hcb⟩)
  have h := gvisit_agrees E hc st
  obtain ⟨ta, hta, hda⟩ := gvisit_ok hca ha
  obtain ⟨tb, htb, hdb⟩ := gvisit_ok hcb hb
  have : gtext E (.func c!"date" [a, b]) = some (c!"date(" ++ (ta ++ tb) ++ c!")") := by simp [gtext, gtextL, hta, htb, cat]
  rw [this] at h
  obtain ⟨st', hr, had⟩ := h
  exact ⟨st', hr, by rw [had.buf, hda.buf, hdb.buf]; rfl⟩

/-- C26, partial: a call with at most one argument is written as the call of that argument. -/
theorem C26_one_argument_partial (E : GEnv) (a : Node) (ta : Str) (hca : Complete a) (st sta : GSt) (ha : gvisit E a {} = .ok sta) (e : sta.buf = ta) :
    ∃ st', gvisit E (.func c!"date" [a]) st = .ok st' ∧ st'.buf = st.buf ++ (c!"date(" ++ ta ++ c!")") := by
  have hc : Complete (.func c!"date" [a]) := .func (by simpa using hca)
  have h := gvisit_agrees E hc st
  obtain ⟨t, ht, had⟩ := gvisit_ok hca ha
  have hta : t = ta := by rw [← e, had.buf]; simp
  have : gtext E (.func c!"date" [a]) = some (c!"date(" ++ ta ++ c!")") := by simp [gtext, gtextL, ht, hta, cat]
  rw [this] at h
  obtain ⟨st', hr, had⟩ := h
  exact ⟨st', hr, had.buf⟩

example : exampleWire c!"date(a) = date('2020-01-02')" = .ok { wheres := [(c!"date(`a`) = date(?)", [.str c!"2020-01-02"])] } := by decide +kernel

/-! ## C46 -/

/-- A field that has a column: no relation fields. -/
def Columns (t : Table) : Prop := (∀ x, t.byDB x = true → x ≠ []) ∧ (∀ x d, t.byName x = some d → t.byDB d = true) ∧ ∀ f ∈ t.fields, t.byDB f.2 = true

mutual
theorem gvisit_quote {E E' : GEnv} (id : ∀ x st, gIdent E x st = gIdent E' x st) (rf : ∀ l st, gRef E l st = gRef E' l st) :
    ∀ n st, gvisit E n st = gvisit E' n st
  | .nil, _ => rfl
  | .op _, _ => rfl
  | .int _, _ => rfl
  | .bool _, _ => rfl
  | .str _, _ => rfl
  | .null, _ => rfl
  | .arr _, _ => rfl
  | .ident x, st => id x st
  | .ref l, st => rf l st
  | .paren e, st => by simp only [gvisit, gvisit_quote id rf e]
  | .not e, st => by simp only [gvisit, gvisit_quote id rf e]
  | .func f ps, st => by simp only [gvisit, gvisitL_quote id rf ps]
  | .between l o a b, st => by simp only [gvisit, gvisit_quote id rf l, gvisit_quote id rf o, gvisit_quote id rf a, gvisit_quote id rf b]
  | .pred l o, st => by simp only [gvisit, gvisit_quote id rf l, gvisit_quote id rf o]
  | .cmp l o r, st => by
    by_cases hr : r = .nil
    · subst hr
      simp only [gvisit, gvisit_quote id rf l, gvisit_quote id rf o]
    · simp only [gvisit_cmp _ hr, gvisit_quote id rf l, gvisit_quote id rf o, gvisit_quote id rf r]
  | .logic l o r, st => by
    by_cases hr : r = .nil
    · subst hr
      simp only [gvisit, gvisit_quote id rf l, gvisit_quote id rf o]
    · simp only [gvisit_logic _ hr, gvisit_quote id rf l, gvisit_quote id rf o, gvisit_quote id rf r]
theorem gvisitL_quote {E E' : GEnv} (id : ∀ x st, gIdent E x st = gIdent E' x st) (rf : ∀ l st, gRef E l st = gRef E' l st) :
    ∀ l st, gvisitL E l st = gvisitL E' l st
  | [], _ => rfl
  | n :: l, st => by simp only [gvisitL, gvisit_quote id rf n, gvisitL_quote id rf l]
end

/-- C46, partial: if every field of the table has a column, then whatever resolves is a column of the table. -/
theorem C46_columns_partial {fold t x d} (ht : Columns t) (h : Resolves fold t x d) : t.byDB d = true := by
  cases h with
  | column h => exact h
  | field h => exact ht.2.1 _ _ h
  | folded h _ => exact ht.2.2 _ h

/-- C46, partial, end to end: nothing but columns is quoted.  If every field of the table and of the tables of its relations has a column, then the outcome
depends on how columns are quoted only: with two ways of quoting that agree on the columns of the table (and on `relation.column` for the columns of the
relation's table), `WireMiniQuery` does the same. -/
theorem C46_quoted_partial {s : GSchema} {quote quote' : Str → Str} {fold : Str → Str → Bool} (ht : Columns s.table)
    (hr : ∀ r t, s.rel r = some t → Columns t) (h1 : ∀ d, s.table.byDB d = true → quote d = quote' d)
    (h2 : ∀ r t d, s.rel r = some t → t.byDB d = true → quote (r ++ c!"." ++ d) = quote' (r ++ c!"." ++ d)) (db : Db) (q : Str) :
    wire (some s) quote fold db q = wire (some s) quote' fold db q := by
  have res : ∀ {t x d}, Columns t → getDBName fold t x = some d → t.byDB d = true :=
    fun ht h => C46_columns_partial ht (getDBName_resolves h)
  have id : ∀ x st, gIdent ⟨s, quote, fold⟩ x st = gIdent ⟨s, quote', fold⟩ x st := by
    intro x st
    unfold gIdent
    cases h : getDBName fold s.table x with
    | none => rfl
    | some d => simp only [h1 d (res ht h)]
  have rf : ∀ l st, gRef ⟨s, quote, fold⟩ l st = gRef ⟨s, quote', fold⟩ l st := by
    intro l st
    unfold gRef
    split
    · rename_i r f
      unfold gJoin
      cases hs : s.rel r with
      | none => rfl
      | some t =>
        simp only
        cases h : getDBName fold t f with
        | none => rfl
        | some d => simp only [h2 r t d hs (res (hr r t hs) h)]
    · rfl
  have all : ∀ n st, gvisit ⟨s, quote, fold⟩ n st = gvisit ⟨s, quote', fold⟩ n st := gvisit_quote id rf
  unfold wire
  simp only [all]

/-- Two ways of quoting that agree on the columns `a` and `R.c` only. -/
example : let s : GSchema :=
      { table := { byDB := fun x => x = c!"a", byName := fun x => if x = c!"A" then some c!"a" else none, fields := [(c!"A", c!"a")] }
        rel := fun r => if r = c!"R" then some { byDB := fun x => x = c!"c", byName := fun _ => none, fields := [] } else none }
    let other : Str → Str := fun x => if x = c!"a" ∨ x = c!"R.c" then exampleQuote x else c!"?"
    (∀ db q, wire (some s) exampleQuote exampleFold db q = wire (some s) other exampleFold db q) ∧
      wire (some s) other exampleFold {} c!"A = 1 and R.c > 2" = .ok { joins := [c!"R"], wheres := [(c!"`a` = ? and `R`.`c` > ?", [.int 1, .int 2])] } := by
  refine ⟨fun db q => C46_quoted_partial ⟨?_, ?_, ?_⟩ ?_ ?_ ?_ db q, by decide +kernel⟩
  · intro x h e; subst e; revert h; decide
  · intro x d h
    simp only [Option.ite_none_right_eq_some, Option.some.injEq] at h
    rw [← h.2]; decide
  · decide
  · intro r t h
    simp only [Option.ite_none_right_eq_some, Option.some.injEq] at h
    obtain ⟨-, rfl⟩ := h
    refine ⟨?_, by simp, by simp⟩
    intro x h e; subst e; revert h; decide
  · intro d h
    simp only [decide_eq_true_eq] at h
    subst h; decide
  · intro r t d h hd
    simp only [Option.ite_none_right_eq_some, Option.some.injEq] at h
    obtain ⟨rfl, rfl⟩ := h
    simp only [decide_eq_true_eq] at hd
    subst hd; decide

/-- C46 is false: naming a field without a column (a relation) puts an empty quoted name into the condition. -/
theorem C46_relation_field_refuted : exampleWire c!"Other = 1" = .ok { wheres := [(c!"`` = ?", [.int 1])] } := by decide +kernel

example : Columns { byDB := fun x => x = c!"a", byName := fun x => if x = c!"A" then some c!"a" else none, fields := [(c!"A", c!"a")] } := by
  refine ⟨?_, ?_, ?_⟩
  · intro x h e; subst e; revert h; decide
  · intro x d h
    simp only [Option.ite_none_right_eq_some, Option.some.injEq] at h
    rw [← h.2]; decide
  · decide

end Verif
