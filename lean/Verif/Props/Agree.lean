import Verif.Props.GormSql
import Verif.Props.EntSQLSql

/-! # The backends agree (C43) -/

namespace Verif

/-- **C43** (part). If a query without `not`, without `and` after `or`, without comments inside operators and `->` is accepted by the gorm translator and by the
entql translator, the condition and the predicate have the same value in every row, whatever values and operators mean. Missing: negation and
`and` after `or` (refuted below), comparisons of comparisons. -/
theorem C43_agree_partial {D : Type} {s : GSchema} {quote fold} (hq : QuotesNames s quote fold) (J : Interp D) :
    ∃ I, OnColumns s quote fold I J ∧ ∀ db q db' sql vals n p, wire (some s) quote fold db q = .ok db' → db'.wheres = db.wheres ++ [(sql, vals)] →
      buildEntQL q = .pred p → Balanced q false → CommentsOutside n → parse q = .ok n → tame n = true → safe n = true →
      (∀ e, ¬ Sub (.not e) n) → (∀ l o a b, Sub (.between l (.op o) a b) n → o = c!"between") →
      ∃ e, ReadsQ sql vals e ∧ evalE I p = some (evalS J e) := by
  obtain ⟨I, h1, h2⟩ := C25_meaning_partial hq J
  refine ⟨I, h1, fun db q db' sql vals n p h hw hr hb hf hp ht hs hn hbt => ?_⟩
  obtain ⟨e, h3, _, h4⟩ := h2 db q db' sql vals n h hw hb hf hp ht hs
  obtain ⟨d, h5, h6⟩ := C35_meaning_partial I hp hb hr hbt hn
  rw [h4] at h6; cases h6
  exact ⟨e, h3, h5⟩

example : exampleWire c!"a between 1 and 2 and b in [3] or (a = 4 or b = 5)" = .ok { wheres :=
      [(c!"`a` between ? and ? and `b` in ? or (`a` = ? or `b` = ?)", [.int 1, .int 2, .slice [.int 3], .int 4, .int 5])] } ∧
    (∃ p, buildEntQL c!"a between 1 and 2 and b in [3] or (a = 4 or b = 5)" = .pred p) ∧
    ∃ n, parse c!"a between 1 and 2 and b in [3] or (a = 4 or b = 5)" = .ok n ∧ tame n = true ∧ safe n = true := by
  refine ⟨by decide +kernel, ⟨.bin .or (.bin .and (.bin .and (.bin .gte (.field c!"a") (.val (.int 1))) (.bin .lte (.field c!"a") (.val (.int 2))))
    (.bin .in_ (.field c!"b") (.val (.slice [.int 3])))) (.bin .or (.bin .eq (.field c!"a") (.val (.int 4))) (.bin .eq (.field c!"b") (.val (.int 5)))),
    by decide +kernel⟩, .logic (.logic (.between (.ident c!"a") (.op c!"between") (.int 1) (.int 2)) (.op c!"and")
      (.cmp (.ident c!"b") (.op c!"in") (.arr [.int 3]))) (.op c!"or") (.paren (.logic (.cmp (.ident c!"a") (.op c!"eq") (.int 4)) (.op c!"or")
      (.cmp (.ident c!"b") (.op c!"eq") (.int 5)))), by decide +kernel, by decide +kernel, by decide +kernel⟩

/-- **C43 fails** for `and` after `or`: a row with `a` equal to 1 is selected by the condition and not by the predicate. -/
theorem C43_precedence_refuted :
    ∃ sql vals p, exampleWire c!"a = 1 or a = 2 and a = 3" = .ok { wheres := [(sql, vals)] } ∧ buildEntQL c!"a = 1 or a = 2 and a = 3" = .pred p ∧
      (∃ e, ReadsQ sql vals e ∧ evalS (intI 1) e = 1) ∧ evalE (intI 1) p = some 0 := by
  obtain ⟨n, sql, vals, e, _, h1, h2, h3, _⟩ := C25_precedence_refuted
  exact ⟨sql, vals, .bin .and (.bin .or (.bin .eq (.field c!"a") (.val (.int 1))) (.bin .eq (.field c!"a") (.val (.int 2)))) (.bin .eq (.field c!"a") (.val (.int 3))),
    h1, by decide +kernel, ⟨e, h2, h3⟩, by decide +kernel⟩

/-- **C43 fails** for `not`: a row with `a` equal to 1 is selected by the predicate and not by the condition. -/
theorem C43_not_refuted :
    ∃ sql vals p e, exampleWire c!"not a = 1" = .ok { wheres := [(sql, vals)] } ∧ buildEntQL c!"not a = 1" = .pred p ∧
      ReadsQ sql vals e ∧ evalS (intI 1) e = 0 ∧ evalE (intI 1) p = some 1 :=
  ⟨c!"not `a` = ?", [.int 1], .bin .eq (.field c!"a") (.val (.int 1)), .not (.cmp c!"eq" (.name c!"`a`") (.val (.int 1))), by decide +kernel,
    by decide +kernel, ⟨[.word c!"not", .name c!"`a`", .sym c!"=", .q], _, by decide +kernel, rfl, 30, rfl⟩, by decide +kernel, by decide +kernel⟩

/-- **C43 fails** for `not between`: a row with `a` equal to 7 is selected by the condition and not by the predicate. -/
theorem C43_not_between_refuted :
    ∃ sql vals p e, exampleWire c!"a not between 1 and 5" = .ok { wheres := [(sql, vals)] } ∧ buildEntQL c!"a not between 1 and 5" = .pred p ∧
      ReadsQ sql vals e ∧ evalS (intI 7) e = 1 ∧ evalE (intI 7) p = some 0 :=
  ⟨c!"`a` not between ? and ?", [.int 1, .int 5], .bin .and (.bin .lt (.field c!"a") (.val (.int 1))) (.bin .gt (.field c!"a") (.val (.int 5))),
    .between true (.name c!"`a`") (.val (.int 1)) (.val (.int 5)), by decide +kernel,
    by decide +kernel, ⟨[.name c!"`a`", .word c!"not", .word c!"between", .q, .word c!"and", .q], _, by decide +kernel, rfl, 30, rfl⟩, by decide +kernel, by decide +kernel⟩

/-! ## The two SQL translators, and the two ent translators -/

mutual
theorem tameSql_tame : ∀ {n : Node}, tameSql n = true → tame n = true
  | .paren e, h => by simp only [tameSql, tame] at h ⊢; exact tameSql_tame h
  | .not e, h => by simp only [tameSql, tame, Bool.and_eq_true] at h ⊢; exact tameSql_tame h.1
  | .func f ps, h => by
    simp only [tameSql, tame, Bool.and_eq_true] at h ⊢
    exact ⟨h.1.2, tameSqlL_tameL h.2⟩
  | .pred l o, h => by simp only [tameSql, tame, Bool.and_eq_true] at h ⊢; exact ⟨h.1, tameSql_tame h.2⟩
  | .cmp l o r, h => by
    simp only [tameSql, tame, Bool.and_eq_true, Bool.or_eq_true] at h ⊢
    obtain ⟨⟨h1, h2⟩, h3⟩ := h
    rcases h3 with ⟨_, h3⟩ | ⟨h3, h4⟩
    · cases r <;> simp [someArr] at h3
      exact ⟨⟨⟨h1, rfl⟩, tameSql_tame h2⟩, rfl⟩
    · exact ⟨⟨⟨h1, h3⟩, tameSql_tame h2⟩, tameSql_tame h4⟩
  | .between l o a b, h => by
    simp only [tameSql, tame, Bool.and_eq_true] at h ⊢
    exact ⟨h.1.1.1.1, tameSql_tame h.1.1.1.2⟩
  | .logic l o r, h => by simp only [tameSql, tame, Bool.and_eq_true] at h ⊢; exact ⟨tameSql_tame h.1, tameSql_tame h.2⟩
  | .arr _, h => by cases h
  | .nil, _ => rfl
  | .op _, _ => rfl
  | .int _, _ => rfl
  | .bool _, _ => rfl
  | .str _, _ => rfl
  | .null, _ => rfl
  | .ident _, _ => rfl
  | .ref _, _ => rfl
theorem tameSqlL_tameL : ∀ {l : List Node}, tameSqlL l = true → tameL l = true
  | [], _ => rfl
  | n :: l, h => by simp only [tameSqlL, tameL, Bool.and_eq_true] at h ⊢; exact ⟨tameSql_tame h.1, tameSqlL_tameL h.2⟩
end

mutual
/-- Conditions contain no references, only names. -/
theorem evalS_ref {D : Type} (J : Interp D) (r : List Str → D) : ∀ e, evalS { J with ref := r } e = evalS J e
  | .val _ => rfl
  | .name _ => rfl
  | .call f l => by simp only [evalS]; rw [evalSL_ref J r l]
  | .cmp o x y => by simp only [evalS]; rw [evalS_ref J r x, evalS_ref J r y]
  | .pred o x => by simp only [evalS]; rw [evalS_ref J r x]
  | .between n x a b => by simp only [evalS]; rw [evalS_ref J r x, evalS_ref J r a, evalS_ref J r b]
  | .and x y => by simp only [evalS]; rw [evalS_ref J r x, evalS_ref J r y]
  | .or x y => by simp only [evalS]; rw [evalS_ref J r x, evalS_ref J r y]
  | .not x => by simp only [evalS]; rw [evalS_ref J r x]
theorem evalSL_ref {D : Type} (J : Interp D) (r : List Str → D) : ∀ l, evalSL { J with ref := r } l = evalSL J l
  | [] => rfl
  | x :: l => by simp only [evalSL]; rw [evalS_ref J r x, evalSL_ref J r l]
end

/-- **C43** (part). If a query without comments inside operators and without `->` is accepted by the gorm translator and by the ent SQL translator, the two texts, each read as
SQL, have the same value in every row, whatever values and operators mean (as long as `and` is associative), and whether or not `and` follows `or`.
The names in the ent text mean the columns that the gorm names stand for. Missing: what C32 leaves out (arrays elsewhere than to the right of `in`,
`not between` and `not` before a range, which are refuted below, edge predicates). -/
theorem C43_sql_agree_partial {D : Type} {s : GSchema} {quote fold} (hq : QuotesNames s quote fold) {E : SEnv} {d : Str} (hE : QuotesIdents E d)
    (J : Interp D) (hJ : ∀ x y z, J.and (J.and x y) z = J.and x (J.and y z)) :
    ∃ I, OnColumns s quote fold I J ∧ ∀ J' : Interp D, J' = { J with field := J'.field } → (∀ x, J'.field (E.ident d x) = I.field x) →
      ∀ db q db' sql vals k nd t as b n, wire (some s) quote fold db q = .ok db' → db'.wheres = db.wheres ++ [(sql, vals)] →
        sQuery E (SB.fresh d k nd q) = (.ret t as, b) → b.failed = false → Balanced q false → CommentsOutside n → parse q = .ok n → tameSql n = true →
        ∃ e e', ReadsQ sql vals e ∧ ReadsAs d k t as e' ∧ evalS J e = evalS J' e' := by
  obtain ⟨I, h1, h2⟩ := C25_regrouped_partial hq J
  refine ⟨I, h1, fun J' h3 h4 db q db' sql vals k nd t as b n hw hww hs hok hb hf hp ht => ?_⟩
  obtain ⟨e, g1, _, g2⟩ := h2 db q db' sql vals n hw hww hb hf hp (tameSql_tame ht)
  have hand : J'.and = J.and := by rw [h3]
  obtain ⟨e', g3, _, g4⟩ := C32_regrouped_partial (J := { J' with ref := I.ref }) hE (by simpa [hand] using hJ) hs hok hb hp ht
  refine ⟨e, e', g1, g3, ?_⟩
  rw [evalS_ref] at g4
  have hI : ({ J' with field := fun x => J'.field (E.ident d x), ref := I.ref } : Interp D) = I := by
    have : (fun x => J'.field (E.ident d x)) = I.field := funext h4
    rw [this]
    obtain ⟨f, hf'⟩ : ∃ f, J' = { J with field := f } := ⟨_, h3⟩
    subst hf'
    obtain ⟨a1, a2, a3, a4, a5, a6, a7, _, _⟩ := h1
    cases I
    simp only at a1 a2 a3 a4 a5 a6 a7
    subst a1 a2 a3 a4 a5 a6 a7
    rfl
  have g5 : mean I (regroup n) = some (evalS J' e') := by rw [← hI]; exact g4
  rw [g2] at g5
  exact Option.some.inj g5

open Classical in
/-- There is such a `J'` whenever different names are quoted differently. -/
example {D : Type} {E : SEnv} {d : Str} (hi : ∀ x y, E.ident d x = E.ident d y → x = y) (I J : Interp D) :
    ∃ J' : Interp D, J' = { J with field := J'.field } ∧ ∀ x, J'.field (E.ident d x) = I.field x :=
  ⟨{ J with field := fun s => if h : ∃ x, E.ident d x = s then I.field h.choose else J.field s }, rfl, fun x => by
    have h : ∃ y, E.ident d y = E.ident d x := ⟨x, rfl⟩
    simp only [h, dite_true]
    rw [hi _ _ h.choose_spec]⟩

/-- A query with all hypotheses, with `and` after `or`. -/
example : (∃ n, parse c!"a = 1 or not b like 'x' and (b in [1, 2] or a between 1 and 2)" = .ok n ∧ tameSql n = true ∧ safe n = false) ∧
    exampleWire c!"a = 1 or not b like 'x' and (b in [1, 2] or a between 1 and 2)" = .ok { wheres :=
      [(c!"`a` = ? or not `b` like ? and (`b` in ? or `a` between ? and ?)", [.int 1, .str c!"x", .slice [.int 1, .int 2], .int 1, .int 2])] } ∧
    Gives exE (SB.fresh c!"mysql" 0 none c!"a = 1 or not b like 'x' and (b in [1, 2] or a between 1 and 2)")
      c!"\"a\" = ? OR NOT \"b\" LIKE ? AND (\"b\" IN (?, ?) OR \"a\" >= ? AND \"a\" <= ?)"
      [.cast (.int 1), .cast (.str c!"x"), .plain (.int 1), .plain (.int 2), .cast (.int 1), .cast (.int 2)] false := by
  refine ⟨⟨.logic (.logic (.cmp (.ident c!"a") (.op c!"eq") (.int 1)) (.op c!"or") (.not (.cmp (.ident c!"b") (.op c!"like") (.str c!"x")))) (.op c!"and")
    (.paren (.logic (.cmp (.ident c!"b") (.op c!"in") (.arr [.int 1, .int 2])) (.op c!"or") (.between (.ident c!"a") (.op c!"between") (.int 1) (.int 2)))), ?_⟩,
    ?_, ?_⟩ <;> decide +kernel

/-- **C43** (part). If a query without `not`, without `and` after `or` and without `->` is accepted by both ent translators, the predicate and the text have
the same value in every row. -/
theorem C43_ent_agree_partial {D : Type} {E : SEnv} {d : Str} (hE : QuotesIdents E d) (J : Interp D) (hJ : ∀ x y z, J.and (J.and x y) z = J.and x (J.and y z))
    {q k nd t as b n p} (hs : sQuery E (SB.fresh d k nd q) = (.ret t as, b)) (hok : b.failed = false) (hr : buildEntQL q = .pred p) (hb : Balanced q false)
    (hp : parse q = .ok n) (ht : tameSql n = true) (hsafe : safe n = true) (hn : ∀ e, ¬ Sub (.not e) n)
    (hbt : ∀ l o a b, Sub (.between l (.op o) a b) n → o = c!"between") :
    ∃ e, ReadsAs d k t as e ∧ evalE { J with field := fun x => J.field (E.ident d x) } p = some (evalS J e) := by
  obtain ⟨e, h1, _, h2⟩ := C32_meaning_partial (J := J) hE hJ hs hok hb hp ht hsafe
  obtain ⟨v, h3, h4⟩ := C35_meaning_partial { J with field := fun x => J.field (E.ident d x) } hp hb hr hbt hn
  rw [h2] at h4; cases h4
  exact ⟨e, h1, h3⟩

example : (∃ p, buildEntQL c!"a between 1 and 2 and b in [3]" = .pred p) ∧
    Gives exE (SB.fresh pg 0 none c!"a between 1 and 2 and b in [3]") c!"\"a\" >= $1::int AND \"a\" <= $2::int AND \"b\" IN ($3)"
      [.cast (.int 1), .cast (.int 2), .plain (.int 3)] false :=
  ⟨⟨.bin .and (.bin .and (.bin .gte (.field c!"a") (.val (.int 1))) (.bin .lte (.field c!"a") (.val (.int 2)))) (.bin .in_ (.field c!"b") (.val (.slice [.int 3]))),
    by decide +kernel⟩, by decide +kernel⟩

/-- **C43 fails** between the SQL translators for `not between`: a row with `a` equal to 7 is selected by the gorm condition only. -/
theorem C43_sql_not_between_refuted :
    ∃ sql vals t as e e', exampleWire c!"a not between 1 and 5" = .ok { wheres := [(sql, vals)] } ∧
      Gives exE (SB.fresh c!"mysql" 0 none c!"a not between 1 and 5") t as false ∧
      ReadsQ sql vals e ∧ ReadsAs c!"mysql" 0 t as e' ∧ evalS (intI 7) e = 1 ∧ evalS (intI 7) e' = 0 :=
  ⟨c!"`a` not between ? and ?", [.int 1, .int 5], c!"\"a\" < ? AND \"a\" > ?", [.cast (.int 1), .cast (.int 5)],
    .between true (.name c!"`a`") (.val (.int 1)) (.val (.int 5)),
    .and (.cmp c!"lt" (.name c!"\"a\"") (.val (.int 1))) (.cmp c!"gt" (.name c!"\"a\"") (.val (.int 5))), by decide +kernel, by decide +kernel,
    ⟨[.name c!"`a`", .word c!"not", .word c!"between", .q, .word c!"and", .q], _, by decide +kernel, rfl, 30, rfl⟩,
    ⟨[.name c!"\"a\"", .sym c!"<", .q, .word c!"and", .name c!"\"a\"", .sym c!">", .q], _, by decide +kernel, rfl, 30, rfl⟩,
    by decide +kernel, by decide +kernel⟩

end Verif
