import Verif.GormSqlThms
import Verif.Props.GormText
import Verif.Props.EntQL

/-! # What gorm conditions mean (C25) -/

namespace Verif

/-- `I` interprets trees as `J` interprets SQL: names mean the columns they resolve to. -/
structure OnColumns {D : Type} (s : GSchema) (quote : Str → Str) (fold : Str → Str → Bool) (I J : Interp D) : Prop where
  const : I.const = J.const
  call : I.call = J.call
  cmp : I.cmp = J.cmp
  pred : I.pred = J.pred
  and : I.and = J.and
  or : I.or = J.or
  not : I.not = J.not
  field : ∀ x, (∃ d, Resolves fold s.table x d) → ∃ d, Resolves fold s.table x d ∧ I.field x = J.field (quote d)
  ref : ∀ r tb x, s.rel r = some tb → (∃ d, Resolves fold tb x d) → ∃ d, Resolves fold tb x d ∧ I.ref [r, x] = J.field (quote (r ++ c!"." ++ d))

/-- Quoting a column, or a column of a relation, gives one quoted SQL name. -/
structure QuotesNames (s : GSchema) (quote : Str → Str) (fold : Str → Str → Bool) : Prop where
  col : ∀ x d, Resolves fold s.table x d → lexSql (quote d) = some [.name (quote d)]
  rel : ∀ r tb x d, s.rel r = some tb → Resolves fold tb x d → lexSql (quote (r ++ c!"." ++ d)) = some [.name (quote (r ++ c!"." ++ d))]

theorem colI_onColumns {D : Type} (s : GSchema) (quote : Str → Str) (fold : Str → Str → Bool) (J : Interp D) : OnColumns s quote fold (colI ⟨s, quote, fold⟩ J) J := by
  refine ⟨rfl, rfl, rfl, rfl, rfl, rfl, rfl, fun x ⟨d, h⟩ => ?_, fun r tb x hr ⟨d, h⟩ => ?_⟩
  · obtain ⟨d', h'⟩ := resolves_getDBName h
    exact ⟨d', getDBName_resolves h', by simp [colI, gname, h']⟩
  · obtain ⟨d', h'⟩ := resolves_getDBName h
    exact ⟨d', getDBName_resolves h', by simp [colI, gref, refText, hr, h']⟩

/-- A tree's text can be read, and is read as the tree with its connectives grouped as in SQL. -/
theorem tree_reads {D : Type} {s : GSchema} {quote fold} (hq : QuotesNames s quote fold) (J : Interp D) {n t vs} (hsh : Shape .logic n) (ht : tame n = true)
    (ho : ∀ o, Sub (.op o) n → o ∈ opNames) (h1 : gtext ⟨s, quote, fold⟩ n = some t) (h2 : (lits n).map value = vs.map some) :
    ∃ e, ReadsQ t vs e ∧ mean (colI ⟨s, quote, fold⟩ J) (regroup n) = some (evalS J e) := by
  have hv := vals_eq (lits_vals hsh) h2
  have hQ : Quotes ⟨s, quote, fold⟩ := ⟨fun x d hd => hq.col x d (getDBName_resolves hd), fun r tb x d hr hd => hq.rel r tb x d hr (getDBName_resolves hd)⟩
  obtain ⟨us, e, ⟨ts, g1, g2⟩, g3, g4⟩ := (gshape (J := J) hQ hsh ht ho t h1).all
  exact ⟨e, ⟨ts, us, g1, by rw [hv]; exact g2, g3.reads⟩, g4⟩

/-- What C25 rests on: the condition can be read, and is read as the tree with its connectives grouped as in SQL. -/
theorem wire_reads {D : Type} {s : GSchema} {quote fold} (hq : QuotesNames s quote fold) (J : Interp D) {db q db' sql vals n}
    (h : wire (some s) quote fold db q = .ok db') (hw : db'.wheres = db.wheres ++ [(sql, vals)]) (hb : Balanced q false) (hf : CommentsOutside n)
    (hp : parse q = .ok n) (ht : tame n = true) :
    ∃ e, ReadsQ sql vals e ∧ mean (colI ⟨s, quote, fold⟩ J) (regroup n) = some (evalS J e) := by
  obtain ⟨s', n', st, hs, hp', hc, hg, hsv, _⟩ := wire_where h hw
  cases hs
  rw [hp] at hp'; cases hp'
  obtain ⟨t, h1, ha⟩ := gvisit_ok hc hg
  obtain ⟨vs, h2, h3⟩ := ha.vals
  obtain ⟨e, h4, h5⟩ := tree_reads hq J (parse_shape hp hb) ht (parse_plain_out hp hf) h1 h2
  have hbuf := ha.buf
  simp at hbuf h3
  cases hsv
  exact ⟨e, by rw [hbuf, h3]; exact h4, h5⟩

/-- The condition made for `q` can be read as SQL in exactly one way, and read so means the given tree. -/
def ConditionMeans {D : Type} (I J : Interp D) (sql : Str) (vals : List GoVal) (n : Node) : Prop :=
  ∃ e, ReadsQ sql vals e ∧ (∀ e', ReadsQ sql vals e' → e' = e) ∧ mean I n = some (evalS J e)

/-- **C25** (part). The condition is read as the tree regrouped so that `and` binds tighter than `or`, for every row and every interpretation of
values and operators. Missing: queries with comments inside operators or with `->`, comparisons of comparisons, calls with several arguments (refuted below). -/
theorem C25_regrouped_partial {D : Type} {s : GSchema} {quote fold} (hq : QuotesNames s quote fold) (J : Interp D) :
    ∃ I, OnColumns s quote fold I J ∧ ∀ db q db' sql vals n, wire (some s) quote fold db q = .ok db' → db'.wheres = db.wheres ++ [(sql, vals)] →
      Balanced q false → CommentsOutside n → parse q = .ok n → tame n = true → ConditionMeans I J sql vals (regroup n) := by
  refine ⟨_, colI_onColumns s quote fold J, fun db q db' sql vals n h hw hb hf hp ht => ?_⟩
  obtain ⟨e, h1, h2⟩ := wire_reads hq J h hw hb hf hp ht
  exact ⟨e, h1, fun e' h' => h'.unique h1, h2⟩

/-- **C25** (part). If moreover no `and` follows an `or` without parentheses, the condition means the tree itself. -/
theorem C25_meaning_partial {D : Type} {s : GSchema} {quote fold} (hq : QuotesNames s quote fold) (J : Interp D) :
    ∃ I, OnColumns s quote fold I J ∧ ∀ db q db' sql vals n, wire (some s) quote fold db q = .ok db' → db'.wheres = db.wheres ++ [(sql, vals)] →
      Balanced q false → CommentsOutside n → parse q = .ok n → tame n = true → safe n = true → ConditionMeans I J sql vals n := by
  obtain ⟨I, h1, h2⟩ := C25_regrouped_partial hq J
  refine ⟨I, h1, fun db q db' sql vals n h hw hb hf hp ht hs => ?_⟩
  have := h2 db q db' sql vals n h hw hb hf hp ht
  rwa [(regroup_safe (parse_shape hp hb) hs).1] at this

theorem resolves_example {x d} (h : Resolves exampleFold exampleSchema.table x d) : d = c!"a" ∨ d = c!"b" ∨ d = [] := by
  cases h with
  | column h => have : x = c!"a" ∨ x = c!"b" := by simpa [exampleSchema] using h
                rcases this with h | h <;> simp [h]
  | field h =>
    simp only [exampleSchema] at h
    split at h
    · cases h; simp
    · split at h
      · cases h; simp
      · cases h
  | folded h _ =>
    simp only [exampleSchema, List.mem_cons, List.not_mem_nil, or_false] at h
    rcases h with rfl | rfl | rfl <;> simp

/-- The hypothesis on quoting is met by the example environment. -/
theorem quotesNames_example : QuotesNames exampleSchema exampleQuote exampleFold := by
  refine ⟨fun x d h => ?_, fun r tb x d hr h => ?_⟩
  · rcases resolves_example h with rfl | rfl | rfl <;> decide +kernel
  · simp only [exampleSchema] at hr
    split at hr
    · rename_i hR
      cases hr
      subst hR
      cases h with
      | column h => have : x = c!"c" := by simpa using h
                    subst this; decide +kernel
      | field h => cases h
      | folded h _ => cases h
    · cases hr

/-- A query with all hypotheses: negation, range, membership, parentheses, a call, a joined column. -/
example : (∃ n, parse c!"not a like 'x' and (b not in [1, 2] or R.c not between 1 and 2 and date(A) = 3)" = .ok n ∧ tame n = true ∧ safe n = false) ∧
    Balanced c!"not a like 'x' and (b not in [1, 2] or R.c not between 1 and 2 and date(A) = 3)" false ∧
    exampleWire c!"not a like 'x' and (b not in [1, 2] or R.c not between 1 and 2 and date(A) = 3)" = .ok { joins := [c!"R"], wheres :=
      [(c!"not `a` like ? and (`b` not in ? or `R`.`c` not between ? and ? and date(`a`) = ?)",
        [.str c!"x", .slice [.int 1, .int 2], .int 1, .int 2, .int 3])] } := by
  refine ⟨⟨.logic (.not (.cmp (.ident c!"a") (.op c!"like") (.str c!"x"))) (.op c!"and") (.paren (.logic (.logic
    (.cmp (.ident c!"b") (.op c!"not in") (.arr [.int 1, .int 2])) (.op c!"or") (.between (.ref [c!"R", c!"c"]) (.op c!"not between") (.int 1) (.int 2)))
    (.op c!"and") (.cmp (.func c!"date" [.ident c!"A"]) (.op c!"eq") (.int 3)))), ?_⟩, ?_, ?_⟩
  · decide +kernel
  · unfold Balanced; decide
  · decide +kernel

/-- … and one without `and` after `or`. -/
example : (∃ n, parse c!"a = 1 and b = 2 or not b is null" = .ok n ∧ tame n = true ∧ safe n = true) ∧
    exampleWire c!"a = 1 and b = 2 or not b is null" = .ok { wheres := [(c!"`a` = ? and `b` = ? or not `b` is null", [.int 1, .int 2])] } := by
  refine ⟨⟨.logic (.logic (.cmp (.ident c!"a") (.op c!"eq") (.int 1)) (.op c!"and") (.cmp (.ident c!"b") (.op c!"eq") (.int 2))) (.op c!"or")
    (.not (.pred (.ident c!"b") (.op c!"is null"))), ?_⟩, ?_⟩ <;> decide +kernel

/-- … and one with comments, none of them inside an operator. -/
example : (∃ n, parse c!"a = 1 -- x?\nand // or 1 = 1\n not b is null --\n" = .ok n ∧ tame n = true ∧ safe n = true ∧ CommentsOutside n) ∧
    exampleWire c!"a = 1 -- x?\nand // or 1 = 1\n not b is null --\n" = .ok { wheres := [(c!"`a` = ? and not `b` is null", [.int 1])] } := by
  refine ⟨⟨.logic (.cmp (.ident c!"a") (.op c!"eq") (.int 1)) (.op c!"and") (.not (.pred (.ident c!"b") (.op c!"is null"))), ?_⟩, ?_⟩ <;> decide +kernel

/-- **C25 fails**: `and` after `or`. The tree of `a = 1 or a = 2 and a = 3` is a conjunction, false in a row with `a` equal to 1; the condition is
read as a disjunction, true in that row. -/
theorem C25_precedence_refuted :
    ∃ n sql vals e, parse c!"a = 1 or a = 2 and a = 3" = .ok n ∧ exampleWire c!"a = 1 or a = 2 and a = 3" = .ok { wheres := [(sql, vals)] } ∧
      ReadsQ sql vals e ∧ evalS (intI 1) e = 1 ∧ ∀ I, OnColumns exampleSchema exampleQuote exampleFold I (intI 1) → mean I n = some 0 := by
  refine ⟨.logic (.logic (.cmp (.ident c!"a") (.op c!"eq") (.int 1)) (.op c!"or") (.cmp (.ident c!"a") (.op c!"eq") (.int 2))) (.op c!"and")
      (.cmp (.ident c!"a") (.op c!"eq") (.int 3)), c!"`a` = ? or `a` = ? and `a` = ?", [.int 1, .int 2, .int 3],
    .or (.cmp c!"eq" (.name c!"`a`") (.val (.int 1))) (.and (.cmp c!"eq" (.name c!"`a`") (.val (.int 2))) (.cmp c!"eq" (.name c!"`a`") (.val (.int 3)))), ?_, ?_,
    ⟨[.name c!"`a`", .sym c!"=", .q, .word c!"or", .name c!"`a`", .sym c!"=", .q, .word c!"and", .name c!"`a`", .sym c!"=", .q], 
     [.name c!"`a`", .sym c!"=", .val (.int 1), .word c!"or", .name c!"`a`", .sym c!"=", .val (.int 2), .word c!"and", .name c!"`a`", .sym c!"=", .val (.int 3)], ?_, ?_, 30, ?_⟩, ?_, ?_⟩
  · decide +kernel
  · decide +kernel
  · decide +kernel
  · decide +kernel
  · rfl
  · decide +kernel
  · intro I hI
    obtain ⟨d, _, hf⟩ := hI.field c!"a" ⟨c!"a", .column (by decide)⟩
    simp only [mean, hI.cmp, hI.const, hI.or, hI.and, hf]
    rfl

/-- **C25 fails**: `is …` after a comparison. The tree of `a = b is null` compares `a` with the truth value of `b is null`; the condition asks
whether `a = b` is unknown. -/
theorem C25_is_refuted :
    parse c!"a = b is null" = .ok (.cmp (.ident c!"a") (.op c!"eq") (.pred (.ident c!"b") (.op c!"is null"))) ∧
    exampleWire c!"a = b is null" = .ok { wheres := [(c!"`a` = `b` is null", [])] } ∧
    ReadsQ c!"`a` = `b` is null" [] (.pred c!"is null" (.cmp c!"eq" (.name c!"`a`") (.name c!"`b`"))) := by
  exact ⟨by decide +kernel, by decide +kernel, [.name c!"`a`", .sym c!"=", .name c!"`b`", .word c!"is", .word c!"null"], _, by decide +kernel, rfl, 30, rfl⟩

theorem not_reads_sym (ts e) : ∀ f, pOr f (.sym c!"=" :: ts) ≠ some e
  | 0, h => by cases h
  | 1, h => by cases h
  | 2, h => by cases h
  | 3, h => by cases h
  | 4, h => by cases h
  | f + 5, h => by simp [pOr, pAnd, pNot, pPred, pPrim, pVal] at h

/-- **C25 fails**: comments inside an operator, and `->`, give conditions that are not SQL; two arguments of a call become one name. -/
theorem C25_unreadable_refuted :
    exampleWire c!"a is -- x\nnull" = .ok { wheres := [(c!"`a` is -- x null", [])] } ∧
    exampleWire c!"1 = a->b" = .ok { wheres := [(c!"= `a` `b`", [])] } ∧
    (∀ e, ¬ ReadsQ c!"`a` is -- x null" [] e) ∧ (∀ e, ¬ ReadsQ c!"= `a` `b`" [] e) ∧
    exampleWire c!"date(a, b)" = .ok { wheres := [(c!"date(`a``b`)", [])] } ∧ ReadsQ c!"date(`a``b`)" [] (.call c!"date" [.name c!"`a``b`"]) := by
  refine ⟨by decide +kernel, by decide +kernel, ?_, ?_, by decide +kernel, [.word c!"date", .lp, .name c!"`a``b`", .rp], _, by decide +kernel, rfl, 30, rfl⟩
  · rintro e ⟨ts, us, h1, h2, f, h3⟩
    have : lexSql c!"`a` is -- x null" = none := by decide +kernel
    rw [this] at h1; cases h1
  · rintro e ⟨ts, us, h1, h2, f, h3⟩
    have : lexSql c!"= `a` `b`" = some [.sym c!"=", .name c!"`a`", .name c!"`b`"] := by decide +kernel
    rw [this] at h1; cases h1; cases h2
    exact not_reads_sym _ _ f h3

end Verif
