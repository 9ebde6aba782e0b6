import Verif.EntSQLRead
import Verif.Props.EntSQL
import Verif.Props.EntQL

/-! # What the SQL of the ent SQL translator means (C31, C32) -/

namespace Verif

/-- The text with its arguments is read as `e`; on postgres the arguments are those numbered from `k + 1`. -/
def ReadsAs (d : Str) (k : Nat) (s : Str) (as : List SArg) (e : SExpr) : Prop :=
  if d = pg then ReadsN k s (as.map SArg.bound) e else ReadsQ s (as.map SArg.bound) e

/-- Quoted identifiers are SQL names. -/
def QuotesIdents (E : SEnv) (d : Str) : Prop := ∀ x, IdText x → lexSql (E.ident d x) = some [.name (E.ident d x)]

/-- The text can be read as SQL in exactly one way, and read so means the given tree, where names mean the columns they are written as. -/
def SqlMeans {D : Type} (E : SEnv) (J : Interp D) (d : Str) (k : Nat) (s : Str) (as : List SArg) (n : Node) : Prop :=
  ∃ e, ReadsAs d k s as e ∧ (∀ e', ReadsAs d k s as e' → e' = e) ∧ mean { J with field := fun x => J.field (E.ident d x) } n = some (evalS J e)

theorem ReadsAs.unique {d k s as e e'} (h : ReadsAs d k s as e) (h' : ReadsAs d k s as e') : e = e' := by
  unfold ReadsAs at h h'
  split at h
  · rename_i hd; rw [if_pos hd] at h'; exact h.unique h'
  · rename_i hd; rw [if_neg hd] at h'; exact h.unique h'

theorem SR.readsAs {d k l us e} (h : SR d k l us) (hg : SG .or us e) : ReadsAs d k (ptext d k l) (pargs l) e := by
  obtain ⟨ts, h1, h2⟩ := h
  unfold ReadsAs
  unfold Bd at h2
  split
  · rename_i hd
    rw [if_pos hd] at h2
    exact ⟨ts, us, h1, by simpa using h2 k [] [] (by simp), hg.reads⟩
  · rename_i hd
    rw [if_neg hd] at h2
    exact ⟨ts, us, h1, h2, hg.reads⟩

/-- The example environment quotes identifiers. -/
theorem exE_quotes (d : Str) : QuotesIdents exE d := by
  rintro x ⟨⟨c, t, rfl, hc, ht⟩, _⟩
  have hq : ∀ c, IdTail c → c ≠ '"' := by rintro c h rfl; revert h; unfold IdTail IdHead; decide
  have hm : ∀ u : Str, (∀ c ∈ u, IdTail c) → ∀ acc, run (.quote '"' acc) (u ++ c!"\"") = some ([], .name (acc ++ u ++ c!"\"")) := by
    intro u
    induction u with
    | nil => intro _ acc; simp [run, step]
    | cons c u ih =>
      intro h acc
      have := ih (fun c hc => h c (List.mem_cons_of_mem _ hc)) (acc ++ [c])
      simp only [List.cons_append, run, step, if_neg (hq c (h c List.mem_cons_self)), Option.bind_some, this]
      simp
  have := hm (c :: t) (fun c' hc' => by
    rcases List.mem_cons.1 hc' with rfl | h
    · exact .inl hc
    · exact ht c' h) c!"\""
  show lexSql ('"' :: ((c :: t) ++ c!"\"")) = _
  unfold lexSql
  rw [run]
  have h0 : step .idle '"' = some ([], .quote '"' c!"\"") := rfl
  simp only [h0, Option.bind_some, this]
  simp [flush, exE]

/-! ## C32 meaning -/

/-- **C32** (part). The text of an accepted query is read as the tree regrouped so that `and` binds tighter than `or`, for every row and every
interpretation of values and operators with an associative `and`. Missing: `->`, arrays elsewhere than to the right of `in`, `not between` and `not`
before a range, comparisons of comparisons, further arguments of `date` (all refuted below or in C31), edge predicates (their texts are not in /repo). -/
theorem C32_regrouped_partial {D : Type} {E : SEnv} {J : Interp D} {d} (hE : QuotesIdents E d) (hJ : ∀ x y z, J.and (J.and x y) z = J.and x (J.and y z))
    {k nd q s as b n} (h : sQuery E (SB.fresh d k nd q) = (.ret s as, b)) (hok : b.failed = false) (hb : Balanced q false) (hp : parse q = .ok n)
    (ht : tameSql n = true) : SqlMeans E J d k s as (regroup n) := by
  rw [query_fresh E hp] at h
  cases he : (semit E nd n).2 with
  | panic => rw [he] at h; cases h
  | err e => rw [he] at h; cases h; simp [SB.failed, Bld.add] at hok
  | ok =>
    rw [he] at h
    cases h
    obtain ⟨us, e, h1, h2, h3⟩ := (eshape (J := J) hE hJ (parse_shape hp hb) (parse_fine hp).1 ht nd he).all k
    exact ⟨e, h1.readsAs h2, fun e' h' => h'.unique (h1.readsAs h2), h3⟩

/-- **C32** (part). If moreover no `and` follows an `or` without parentheses, the text means the tree itself. -/
theorem C32_meaning_partial {D : Type} {E : SEnv} {J : Interp D} {d} (hE : QuotesIdents E d) (hJ : ∀ x y z, J.and (J.and x y) z = J.and x (J.and y z))
    {k nd q s as b n} (h : sQuery E (SB.fresh d k nd q) = (.ret s as, b)) (hok : b.failed = false) (hb : Balanced q false) (hp : parse q = .ok n)
    (ht : tameSql n = true) (hs : safe n = true) : SqlMeans E J d k s as n := by
  have := C32_regrouped_partial hE hJ h hok hb hp ht
  rwa [(regroup_safe (parse_shape hp hb) hs).1] at this

/-- The example interpretation has an associative `and`. -/
example (a : Int) : ∀ x y z, (intI a).and ((intI a).and x y) z = (intI a).and x ((intI a).and y z) := by
  intro x y z
  simp only [intI]
  split <;> simp_all

/-- A query with all hypotheses: negation, range, membership, parentheses, a call, casts. -/
example : (∃ n, parse c!"not a like 'x' and (b not in [1, null] or c between 1 and 2 and date(d) = true)" = .ok n ∧ tameSql n = true ∧ safe n = false) ∧
    Balanced c!"not a like 'x' and (b not in [1, null] or c between 1 and 2 and date(d) = true)" false ∧
    Gives exE (SB.fresh pg 3 none c!"not a like 'x' and (b not in [1, null] or c between 1 and 2 and date(d) = true)")
      c!"NOT \"a\" LIKE $4 AND (\"b\" NOT IN ($5, NULL) OR \"c\" >= $6::int AND \"c\" <= $7::int AND DATE(\"d\") = $8::bool)"
      [.cast (.str c!"x"), .plain (.int 1), .cast (.int 1), .cast (.int 2), .cast (.bool true)] false := by
  refine ⟨⟨.logic (.not (.cmp (.ident c!"a") (.op c!"like") (.str c!"x"))) (.op c!"and") (.paren (.logic (.logic
    (.cmp (.ident c!"b") (.op c!"not in") (.arr [.int 1, .null])) (.op c!"or") (.between (.ident c!"c") (.op c!"between") (.int 1) (.int 2)))
    (.op c!"and") (.cmp (.func c!"date" [.ident c!"d"]) (.op c!"eq") (.bool true)))), ?_⟩, ?_, ?_⟩
  · decide +kernel
  · unfold Balanced; decide
  · decide +kernel

/-- … and one without `and` after `or`. -/
example : (∃ n, parse c!"a = 1 and b between 2 and 3 or not b is null" = .ok n ∧ tameSql n = true ∧ safe n = true) ∧
    Gives exE (SB.fresh c!"mysql" 3 none c!"a = 1 and b between 2 and 3 or not b is null")
      c!"\"a\" = ? AND \"b\" >= ? AND \"b\" <= ? OR NOT \"b\" IS NULL" [.cast (.int 1), .cast (.int 2), .cast (.int 3)] false := by
  refine ⟨⟨.logic (.logic (.cmp (.ident c!"a") (.op c!"eq") (.int 1)) (.op c!"and") (.between (.ident c!"b") (.op c!"between") (.int 2) (.int 3))) (.op c!"or")
    (.not (.pred (.ident c!"b") (.op c!"is null"))), ?_⟩, ?_⟩ <;> decide +kernel

/-- **C32 fails**: `and` after `or`. The tree of `a = 1 or a = 2 and a = 3` is a conjunction, false in a row with `a` equal to 1; the text is
read as a disjunction, true in that row. -/
theorem C32_precedence_refuted :
    ∃ n s as e, parse c!"a = 1 or a = 2 and a = 3" = .ok n ∧ Gives exE (SB.fresh pg 0 none c!"a = 1 or a = 2 and a = 3") s as false ∧
      ReadsAs pg 0 s as e ∧ evalS (intI 1) e = 1 ∧ mean (intI 1) n = some 0 := by
  refine ⟨.logic (.logic (.cmp (.ident c!"a") (.op c!"eq") (.int 1)) (.op c!"or") (.cmp (.ident c!"a") (.op c!"eq") (.int 2))) (.op c!"and")
      (.cmp (.ident c!"a") (.op c!"eq") (.int 3)), c!"\"a\" = $1::int OR \"a\" = $2::int AND \"a\" = $3::int", [.cast (.int 1), .cast (.int 2), .cast (.int 3)],
    .or (.cmp c!"eq" (.name c!"\"a\"") (.val (.int 1))) (.and (.cmp c!"eq" (.name c!"\"a\"") (.val (.int 2))) (.cmp c!"eq" (.name c!"\"a\"") (.val (.int 3)))), ?_, ?_,
    ⟨[.name c!"\"a\"", .sym c!"=", .num 1, .sym c!"::", .word c!"int", .word c!"or", .name c!"\"a\"", .sym c!"=", .num 2, .sym c!"::", .word c!"int",
      .word c!"and", .name c!"\"a\"", .sym c!"=", .num 3, .sym c!"::", .word c!"int"],
     [.name c!"\"a\"", .sym c!"=", .val (.int 1), .sym c!"::", .word c!"int", .word c!"or", .name c!"\"a\"", .sym c!"=", .val (.int 2), .sym c!"::", .word c!"int",
      .word c!"and", .name c!"\"a\"", .sym c!"=", .val (.int 3), .sym c!"::", .word c!"int"], ?_, ?_, 30, ?_⟩, ?_, ?_⟩
  · decide +kernel
  · decide +kernel
  · decide +kernel
  · decide +kernel
  · rfl
  · decide +kernel
  · decide +kernel

/-- **C32 fails**: a negated range. `NOT` applies to the first half only: with `a` equal to 7 the tree of `not a between 1 and 5` is true, the
text, read as a conjunction, is false. -/
theorem C32_not_between_refuted :
    parse c!"not a between 1 and 5" = .ok (.not (.between (.ident c!"a") (.op c!"between") (.int 1) (.int 5))) ∧
    Gives exE (SB.fresh c!"mysql" 0 none c!"not a between 1 and 5") c!"NOT \"a\" >= ? AND \"a\" <= ?" [.cast (.int 1), .cast (.int 5)] false ∧
    ReadsAs c!"mysql" 0 c!"NOT \"a\" >= ? AND \"a\" <= ?" [.cast (.int 1), .cast (.int 5)]
      (.and (.not (.cmp c!"gte" (.name c!"\"a\"") (.val (.int 1)))) (.cmp c!"lte" (.name c!"\"a\"") (.val (.int 5)))) ∧
    evalS (intI 7) (.and (.not (.cmp c!"gte" (.name c!"\"a\"") (.val (.int 1)))) (.cmp c!"lte" (.name c!"\"a\"") (.val (.int 5)))) = 0 ∧
    mean (intI 7) (.not (.between (.ident c!"a") (.op c!"between") (.int 1) (.int 5))) = some 1 := by
  refine ⟨by decide +kernel, by decide +kernel, ?_, by decide +kernel, by decide +kernel⟩
  exact ⟨[.word c!"not", .name c!"\"a\"", .sym c!">=", .q, .word c!"and", .name c!"\"a\"", .sym c!"<=", .q], _, by decide +kernel, rfl, 30, rfl⟩

/-- **C32 fails**: only the first argument of `date` is written. -/
theorem C32_arguments_refuted : Gives exE (SB.fresh pg 0 none c!"date(a, b) = 1") c!"DATE(\"a\") = $1::int" [.cast (.int 1)] false ∧
    Gives exE (SB.fresh pg 0 none c!"date(a) = 1") c!"DATE(\"a\") = $1::int" [.cast (.int 1)] false := by decide +kernel

/-- **C32 fails**: an array elsewhere than to the right of `in` becomes a value in parentheses, an empty one gives a text that is not SQL. -/
theorem C32_array_refuted :
    Gives exE (SB.fresh c!"mysql" 0 none c!"a = [1]") c!"\"a\" = (?)" [.plain (.int 1)] false ∧
    ReadsAs c!"mysql" 0 c!"\"a\" = (?)" [.plain (.int 1)] (.cmp c!"eq" (.name c!"\"a\"") (.val (.int 1))) ∧
    Gives exE (SB.fresh c!"mysql" 0 none c!"a in []") c!"\"a\" IN ()" [] false ∧ (∀ e, ¬ ReadsAs c!"mysql" 0 c!"\"a\" IN ()" [] e) := by
  refine ⟨by decide +kernel, ⟨[.name c!"\"a\"", .sym c!"=", .lp, .q, .rp], _, by decide +kernel, rfl, 30, rfl⟩, by decide +kernel, ?_⟩
  rintro e ⟨ts, us, h1, h2, f, h3⟩
  have : lexSql c!"\"a\" IN ()" = some [.name c!"\"a\"", .word c!"in", .lp, .rp] := by decide +kernel
  rw [this] at h1; cases h1; cases h2
  revert h3
  match f with
  | 0 | 1 | 2 | 3 | 4 => simp [pOr, pAnd, pNot, pPred, pPrim]
  | f + 5 => cases f <;> simp [pOr, pAnd, pNot, pPred, pPrim, predOp, pSet, pVals, pVal]

/-! ## C31 not between -/

/-- What both ranges are read as: `between` as two inclusive comparisons, `not between` as two strict ones, both joined by `and`. -/
theorem range_reads {E : SEnv} {d} (hE : QuotesIdents E d) {k nd q x o lo hi} (hp : parse q = .ok (.between (.ident x) (.op o) lo hi)) (hl : LitNode lo) (hh : LitNode hi) :
    ∃ s as b, sQuery E (SB.fresh d k nd q) = (.ret s as, b) ∧
      ReadsAs d k s as (.and (.cmp (if o = c!"not between" then c!"lt" else c!"gte") (.name (E.ident d x)) (.val (valOf lo)))
        (.cmp (if o = c!"not between" then c!"gt" else c!"lte") (.name (E.ident d x)) (.val (valOf hi)))) := by
  have hx : IdText x := by
    have := (parse_fine hp).1
    cases this with
    | val h => exact h.elim
    | between h => cases h with
      | val h => exact h.elim
      | ident h => exact h
  obtain ⟨h1, us, h2, h3⟩ := ebetween (hE x hx) hl hh o nd k
  rw [query_fresh E hp, h1]
  exact ⟨_, _, _, rfl, h2.readsAs (.orUp h3)⟩

/-- **C31 fails**: for every column and all integers `lo ≤ hi`, `x not between lo and hi` is accepted and gives a text that is false in every row. -/
theorem C31_refuted {E : SEnv} {d} (hE : QuotesIdents E d) {k nd q x lo hi} (hp : parse q = .ok (.between (.ident x) (.op c!"not between") (.int lo) (.int hi)))
    (hle : lo ≤ hi) : ∃ s as b e, sQuery E (SB.fresh d k nd q) = (.ret s as, b) ∧ ReadsAs d k s as e ∧ ∀ a, evalS (intI a) e = 0 := by
  obtain ⟨s, as, b, h1, h2⟩ := range_reads (k := k) (nd := nd) hE hp (by trivial) (by trivial)
  refine ⟨s, as, b, _, h1, h2, fun a => ?_⟩
  simp only [if_true, evalS, valOf, litVal, intI]
  simp
  intro h
  omega

/-- The hypotheses are met, and in a row with `a` equal to 7 the tree is true. -/
example : parse c!"a not between 1 and 5" = .ok (.between (.ident c!"a") (.op c!"not between") (.int 1) (.int 5)) ∧ QuotesIdents exE pg ∧
    Gives exE (SB.fresh pg 0 none c!"a not between 1 and 5") c!"\"a\" < $1::int AND \"a\" > $2::int" [.cast (.int 1), .cast (.int 5)] false ∧
    mean (intI 7) (.between (.ident c!"a") (.op c!"not between") (.int 1) (.int 5)) = some 1 :=
  ⟨by decide +kernel, exE_quotes pg, by decide +kernel, by decide +kernel⟩

/-- **C31** (part). The texts of `x between lo and hi` and `x not between lo and hi` are never both true, and that of `between` is true exactly in
the rows where `lo ≤ x ≤ hi`. Missing (and refuted): that one of them is always true. -/
theorem C31_exclusive_partial {E : SEnv} {d} (hE : QuotesIdents E d) {k nd q q' x lo hi} (hp : parse q = .ok (.between (.ident x) (.op c!"between") (.int lo) (.int hi)))
    (hp' : parse q' = .ok (.between (.ident x) (.op c!"not between") (.int lo) (.int hi))) :
    ∃ s as b e s' as' b' e', sQuery E (SB.fresh d k nd q) = (.ret s as, b) ∧ ReadsAs d k s as e ∧
      sQuery E (SB.fresh d k nd q') = (.ret s' as', b') ∧ ReadsAs d k s' as' e' ∧
      ∀ a, (evalS (intI a) e = 1 ↔ lo ≤ a ∧ a ≤ hi) ∧ (evalS (intI a) e = 1 → evalS (intI a) e' = 0) := by
  obtain ⟨s, as, b, h1, h2⟩ := range_reads (k := k) (nd := nd) hE hp (by trivial) (by trivial)
  obtain ⟨s', as', b', h1', h2'⟩ := range_reads (k := k) (nd := nd) hE hp' (by trivial) (by trivial)
  refine ⟨s, as, b, _, s', as', b', _, h1, h2, h1', h2', fun a => ?_⟩
  simp only [if_true, if_neg (show ¬ c!"between" = c!"not between" by decide), evalS, valOf, litVal, intI]
  simp
  omega

/-- The hypotheses are met. -/
example : parse c!"a between 1 and 5" = .ok (.between (.ident c!"a") (.op c!"between") (.int 1) (.int 5)) ∧
    parse c!"a not between 1 and 5" = .ok (.between (.ident c!"a") (.op c!"not between") (.int 1) (.int 5)) := by decide +kernel

/-- **C31 fails**: with a comment between the two words, `not between` gives the text of `between`. -/
theorem C31_comment_refuted :
    Gives exE (SB.fresh pg 0 none c!"a not -- x\n between 1 and 5") c!"\"a\" >= $1::int AND \"a\" <= $2::int" [.cast (.int 1), .cast (.int 5)] false ∧
    Gives exE (SB.fresh pg 0 none c!"a between 1 and 5") c!"\"a\" >= $1::int AND \"a\" <= $2::int" [.cast (.int 1), .cast (.int 5)] false := by
  decide +kernel

end Verif
