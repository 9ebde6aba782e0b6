import Verif.GormThms
import Verif.Spec.Print

/-! # Properties of the gorm translator (C18-C24, C26) -/

namespace Verif

/-! ## Example environment -/

/-- A table with columns `a`, `b`, a field `Other` without column, and a relation `R` to a table with column `c`. -/
def exampleSchema : GSchema where
  table := { byDB := fun x => x = c!"a" ∨ x = c!"b"
             byName := fun x => if x = c!"A" then some c!"a" else if x = c!"Other" then some [] else none
             fields := [(c!"A", c!"a"), (c!"B", c!"b"), (c!"Other", [])] }
  rel := fun r => if r = c!"R" then some { byDB := fun x => x = c!"c", byName := fun _ => none, fields := [] } else none

/-- Quoting with backticks; dots separate parts. -/
def exampleQuote (s : Str) : Str := c!"`" ++ (s.flatMap fun c => if c = '.' then c!"`.`" else [c]) ++ c!"`"

/-- Case-insensitive comparison. -/
def exampleFold (a b : Str) : Bool := a.map Char.toLower == b.map Char.toLower

/-- The result of wiring a query in the example environment. -/
def exampleWire (q : Str) : WRes := wire (some exampleSchema) exampleQuote exampleFold {} q

example : exampleWire c!"a = 1 and R.c in ['x', 'y'] or b is null and R.c > date(B)" = .ok
    { joins := [c!"R"]
      wheres := [(c!"`a` = ? and `R`.`c` in ? or `b` is null and `R`.`c` > date(`b`)", [.int 1, .slice [.str c!"x", .str c!"y"]])] } := by decide +kernel

/-! ## C18 -/

theorem count_cat {a b : Option Str} {t : Str} (h : cat a b = some t) : ∃ x y, a = some x ∧ b = some y ∧ t = x ++ y := by
  cases a <;> cases b <;> simp [cat] at h
  exact ⟨_, _, rfl, rfl, h.symm⟩

theorem normalizeSQL_qm {o : Str} (h : '?' ∉ o) : '?' ∉ normalizeSQL o := by
  unfold normalizeSQL
  cases hl : sqlNormalize.lookup o with
  | none => exact h
  | some v =>
    have hm : (o, v) ∈ sqlNormalize := by
      have := List.lookup_eq_some_iff.1 hl
      obtain ⟨l1, l2, e, _⟩ := this
      rw [e]; simp
    have : ∀ p ∈ sqlNormalize, '?' ∉ p.2 := by decide
    exact this _ hm

theorem gtext_qm (E : GEnv) (hq : ∀ x, '?' ∉ E.quote x) {n : Node} (hc : Complete n) : (∀ o, Occ (.op o) n → '?' ∉ o) →
    ∀ t, gtext E n = some t → t.count '?' = (lits n).length := by
  have c0 : ∀ {u : Str}, '?' ∉ u → u.count '?' = 0 := fun h => List.count_eq_zero.2 h
  induction hc with
  | int => intro _ t h; cases h; rfl
  | bool => intro _ t h; cases h; rfl
  | str => intro _ t h; cases h; rfl
  | null => intro _ t h; cases h; rfl
  | arr =>
    intro _ t h
    rw [gtext] at h
    split at h
    · cases h
    · cases h; rfl
  | op => intro ho t h; cases h; exact c0 (normalizeSQL_qm (ho _ .refl))
  | ident =>
    intro _ t h
    rw [gtext, Option.map_eq_some_iff] at h
    obtain ⟨d, _, rfl⟩ := h; exact c0 (hq d)
  | ref =>
    rename_i l
    intro _ t h
    rw [gtext] at h
    unfold refText at h
    split at h
    · split at h
      · cases h
      · obtain ⟨d, _, rfl⟩ := Option.map_eq_some_iff.1 h; exact c0 (hq _)
    · cases h
  | pred _ _ ih1 ih2 =>
    intro ho t h
    obtain ⟨x, _, h1, k0, rfl⟩ := count_cat h
    obtain ⟨_, y, e, h2, rfl⟩ := count_cat k0; cases e
    simp [lits, List.count_append, ih1 (fun o h => ho o (.step (by simp [parts]) h)) _ h1, ih2 (fun o h => ho o (.step (by simp [parts]) h)) _ h2]
  | cmp _ _ _ ih1 ih2 ih3 =>
    intro ho t h
    obtain ⟨x, _, h1, k0, rfl⟩ := count_cat h
    obtain ⟨_, _, e, k1, rfl⟩ := count_cat k0; cases e
    obtain ⟨y, _, h2, k2, rfl⟩ := count_cat k1
    obtain ⟨_, z, e, h3, rfl⟩ := count_cat k2; cases e
    simp [lits, List.count_append, ih1 (fun o h => ho o (.step (by simp [parts]) h)) _ h1, ih2 (fun o h => ho o (.step (by simp [parts]) h)) _ h2,
      ih3 (fun o h => ho o (.step (by simp [parts]) h)) _ h3]
  | logic _ _ _ ih1 ih2 ih3 =>
    intro ho t h
    obtain ⟨x, _, h1, k0, rfl⟩ := count_cat h
    obtain ⟨_, _, e, k1, rfl⟩ := count_cat k0; cases e
    obtain ⟨y, _, h2, k2, rfl⟩ := count_cat k1
    obtain ⟨_, z, e, h3, rfl⟩ := count_cat k2; cases e
    simp [lits, List.count_append, ih1 (fun o h => ho o (.step (by simp [parts]) h)) _ h1, ih2 (fun o h => ho o (.step (by simp [parts]) h)) _ h2,
      ih3 (fun o h => ho o (.step (by simp [parts]) h)) _ h3]
  | paren _ ih =>
    intro ho t h
    obtain ⟨_, _, e, k0, rfl⟩ := count_cat h; cases e
    obtain ⟨x, _, h1, e, rfl⟩ := count_cat k0; cases e
    simp [lits, List.count_append, ih (fun o h => ho o (.step (by simp [parts]) h)) _ h1]
  | not _ ih =>
    intro ho t h
    obtain ⟨_, x, e, h1, rfl⟩ := count_cat h; cases e
    simp [lits, ih (fun o h => ho o (.step (by simp [parts]) h)) _ h1]
  | between _ _ _ _ ih1 ih2 ih3 ih4 =>
    intro ho t h
    obtain ⟨x, _, h1, k0, rfl⟩ := count_cat h
    obtain ⟨_, _, e, k1, rfl⟩ := count_cat k0; cases e
    obtain ⟨y, _, h2, k2, rfl⟩ := count_cat k1
    obtain ⟨_, _, e, k3, rfl⟩ := count_cat k2; cases e
    obtain ⟨z, _, h3, k4, rfl⟩ := count_cat k3
    obtain ⟨_, w, e, h4, rfl⟩ := count_cat k4; cases e
    simp [lits, List.count_append, ih1 (fun o h => ho o (.step (by simp [parts]) h)) _ h1, ih2 (fun o h => ho o (.step (by simp [parts]) h)) _ h2,
      ih3 (fun o h => ho o (.step (by simp [parts]) h)) _ h3, ih4 (fun o h => ho o (.step (by simp [parts]) h)) _ h4]
  | func hh ih =>
    rename_i f l
    clear hh
    intro ho t h
    rw [gtext] at h
    by_cases hf : f = c!"date"
    · rw [if_pos hf] at h
      obtain ⟨_, _, e, k0, rfl⟩ := count_cat h; cases e
      obtain ⟨x, _, h1, e, rfl⟩ := count_cat k0; cases e
      have hL : ∀ l : List Node, (∀ m ∈ l, ∀ t, gtext E m = some t → t.count '?' = (lits m).length) → ∀ t, gtextL E l = some t →
          t.count '?' = (litsL l).length := by
        intro l
        induction l with
        | nil => intro _ t h; cases h; rfl
        | cons m l ihl =>
          intro hm t h
          obtain ⟨x, y, h1, h2, rfl⟩ := count_cat h
          simp [litsL, List.count_append, hm m (by simp) _ h1, ihl (fun n hn => hm n (List.mem_cons_of_mem _ hn)) _ h2]
      simp [lits, List.count_append, hL l (fun m hm => ih m hm fun o h => ho o (.step (by simpa [parts] using hm) h)) _ h1]
    · rw [if_neg hf] at h; cases h

/-- C18, values: the values bound to a condition are exactly the Go values of the literals of the query, in reading order (an array literal is
one value). -/
theorem C18_values {schema quote fold db db' q sql vals} (h : wire schema quote fold db q = .ok db') (hw : db'.wheres = db.wheres ++ [(sql, vals)]) :
    ∃ n, parse q = .ok n ∧ (lits n).map value = vals.map some := by
  obtain ⟨s, n, st, rfl, hp, hc, hg, e, _⟩ := wire_where h hw
  obtain ⟨t, _, ha⟩ := gvisit_ok hc hg
  obtain ⟨vs, hv, e'⟩ := ha.vals
  cases e
  exact ⟨n, hp, by rw [hv, e']; rfl⟩

/-- C18, placeholders: one `?` per value.  Partial: needs that no operator text contains `?`; this can only happen through a comment inside a
multi-word operator (see `C18_comment_refuted`). -/
theorem C18_placeholders_partial {schema quote fold db db' q sql vals} (hq : ∀ x, '?' ∉ quote x)
    (h : wire schema quote fold db q = .ok db') (hw : db'.wheres = db.wheres ++ [(sql, vals)])
    (ho : ∀ n o, parse q = .ok n → Occ (.op o) n → '?' ∉ o) : sql.count '?' = vals.length := by
  obtain ⟨s, n, st, rfl, hp, hc, hg, e, _⟩ := wire_where h hw
  obtain ⟨t, ht, ha⟩ := gvisit_ok hc hg
  obtain ⟨vs, hv, e'⟩ := ha.vals
  cases e
  have := gtext_qm ⟨s, quote, fold⟩ hq hc (fun o => ho n o hp) t ht
  rw [ha.buf, e']
  have hl := congrArg List.length hv
  simp at hl ⊢
  rw [this, hl]

/-- C18 is false: a comment inside a two-word operator brings a `?` into the condition which has no value. -/
theorem C18_comment_refuted : exampleWire c!"a is -- ?\nnull" = .ok { wheres := [(c!"`a` is -- ? null", [])] } := by decide +kernel

/-! ## C19 -/

theorem gtext_anon (E : GEnv) {n : Node} (hc : Complete n) : gtext E (anon n) = gtext E n := by
  induction hc with
  | arr hh _ =>
    obtain ⟨v, hv⟩ := value_exists (Complete.arr hh)
    simp only [anon, gtext, hv]
  | func hh ih =>
    rename_i f l
    clear hh
    have : gtextL E (anonL l) = gtextL E l := by
      induction l with
      | nil => rfl
      | cons m l ihl => simp only [anonL, gtextL]; rw [ih m (by simp), ihl fun n hn => ih n (List.mem_cons_of_mem _ hn)]
    simp only [anon, gtext, this]
  | _ => simp only [anon, gtext, *]

theorem rels_anon (n : Node) : rels (anon n) = rels n := by
  induction n using anon.induct (motive_2 := fun l => relsL (anonL l) = relsL l) with
  | _ => simp only [anon, anonL, rels, relsL, *]

/-- C19: two queries that differ only in their literals (any number, string, boolean, null or array in place of any other) give the same SQL text
and the same joins, and are accepted or rejected alike. -/
theorem C19_same_text {E : GEnv} {n m : Node} (hn : Complete n) (hm : Complete m) (he : anon n = anon m) :
    (∀ st, gvisit E n {} = .ok st → ∃ st', gvisit E m {} = .ok st' ∧ st'.buf = st.buf ∧ st'.joins = st.joins) ∧
    (∀ e st, gvisit E n {} = .err e st → ∃ e' st', gvisit E m {} = .err e' st') := by
  have ht : gtext E n = gtext E m := by rw [← gtext_anon E hn, ← gtext_anon E hm, he]
  have hr : rels n = rels m := by rw [← rels_anon n, ← rels_anon m, he]
  have a1 := gvisit_agrees E hn {}
  have a2 := gvisit_agrees E hm {}
  rw [← ht] at a2
  cases hx : gtext E n with
  | none =>
    rw [hx] at a1 a2
    obtain ⟨e, s1, h1⟩ := a1
    refine ⟨fun st h => ?_, fun _ _ _ => a2⟩
    rw [h1] at h; cases h
  | some t =>
    rw [hx] at a1 a2
    obtain ⟨s1, h1, ad1⟩ := a1
    obtain ⟨s2, h2, ad2⟩ := a2
    refine ⟨fun st h => ?_, fun e st h => ?_⟩
    · rw [h1] at h; cases h
      refine ⟨s2, h2, by rw [ad1.buf, ad2.buf], ?_⟩
      rw [ad1.joins rfl, ad2.joins rfl, ad1.joined, ad2.joined, hr]
    · rw [h1] at h; cases h

/-- C19 on query strings. -/
theorem C19_same_condition {schema quote fold db d1 d2 q1 q2 n1 n2 sql vals} (h1 : wire schema quote fold db q1 = .ok d1)
    (h2 : wire schema quote fold db q2 = .ok d2) (p1 : parse q1 = .ok n1) (p2 : parse q2 = .ok n2) (he : anon n1 = anon n2)
    (hw : d1.wheres = db.wheres ++ [(sql, vals)]) : ∃ vals', d2.wheres = db.wheres ++ [(sql, vals')] := by
  obtain ⟨s, n, st, rfl, hp, hc, hg, e, _⟩ := wire_where h1 hw
  rw [p1] at hp; cases hp
  obtain ⟨st', hg', hb, _⟩ := (C19_same_text hc (C02_complete_tree _ _ p2) he).1 st hg
  cases e
  unfold wire at h2
  by_cases hq : q2 = []
  · subst hq
    have hh : ∀ n, parse [] ≠ .ok n := by
      have : parse [] = .err (.syntax 0 0) := by decide +kernel
      intro n h; rw [this] at h; cases h
    exact absurd p2 (hh _)
  · rw [if_neg hq, p2] at h2
    simp only [hg'] at h2
    cases h2
    exact ⟨st'.vals, by simp [hb]⟩

example : exampleWire c!"a = 'x; drop table t' or b in [1]" = .ok { wheres := [(c!"`a` = ? or `b` in ?", [.str c!"x; drop table t", .slice [.int 1]])] } ∧
    exampleWire c!"a = null or b in []" = .ok { wheres := [(c!"`a` = ? or `b` in ?", [.nil, .slice []])] } := by decide +kernel

/-! ## C20, C23: what is accepted -/

/-- A name of the query is known to a table: it is a column name, the name of a field, or that of a field up to letter case; `d` is the column. -/
inductive Resolves (fold : Str → Str → Bool) (t : Table) (x : Str) : Str → Prop where
  | column : t.byDB x = true → Resolves fold t x x
  | field {d} : t.byName x = some d → Resolves fold t x d
  | folded {f} : f ∈ t.fields → fold f.1 x = true → Resolves fold t x f.2

theorem getDBName_resolves {fold t x d} (h : getDBName fold t x = some d) : Resolves fold t x d := by
  unfold getDBName at h
  by_cases hb : t.byDB x = true
  · rw [if_pos hb] at h; cases h; exact .column hb
  · rw [if_neg hb] at h
    cases hn : t.byName x with
    | some d' => rw [hn] at h; cases h; exact .field hn
    | none =>
      rw [hn] at h
      obtain ⟨f, hf, rfl⟩ := Option.map_eq_some_iff.1 h
      exact .folded (List.mem_of_find?_eq_some hf) (by simpa using List.find?_some hf)

theorem resolves_getDBName {fold t x d} (h : Resolves fold t x d) : ∃ d', getDBName fold t x = some d' := by
  unfold getDBName
  by_cases hb : t.byDB x = true
  · exact ⟨x, by rw [if_pos hb]⟩
  · rw [if_neg hb]
    cases hn : t.byName x with
    | some d' => exact ⟨d', rfl⟩
    | none =>
      cases h with
      | column h => exact absurd h hb
      | field h => rw [hn] at h; cases h
      | folded hf he =>
        rename_i f
        cases hx : t.fields.find? fun f => fold f.1 x with
        | some g => exact ⟨g.2, rfl⟩
        | none => exact absurd he (by simpa using List.find?_eq_none.1 hx f hf)

/-- What is asked of a single node: names are known, functions are `date`. -/
def Known (E : GEnv) : Node → Prop
  | .ident x => ∃ d, Resolves E.fold E.schema.table x d
  | .ref l => ∃ r c t d, l = [r, c] ∧ E.schema.rel r = some t ∧ Resolves E.fold t c d
  | .func f _ => f = c!"date"
  | _ => True

theorem cat_isSome {a b : Option Str} : (cat a b).isSome = true ↔ a.isSome = true ∧ b.isSome = true := by cases a <;> cases b <;> simp [cat]

theorem occ_split {m n : Node} : Occ m n ↔ m = n ∨ ∃ k ∈ parts n, Occ m k :=
  ⟨fun h => by cases h with
    | refl => exact .inl rfl
    | step hk h => exact .inr ⟨_, hk, h⟩,
   fun h => by rcases h with rfl | ⟨k, hk, h⟩; exact .refl; exact .step hk h⟩

theorem all_split {P : Node → Prop} {n : Node} : (∀ m, Occ m n → P m) ↔ P n ∧ ∀ k ∈ parts n, ∀ m, Occ m k → P m :=
  ⟨fun h => ⟨h n .refl, fun k hk m hm => h m (.step hk hm)⟩,
   fun ⟨h1, h2⟩ m hm => by rcases occ_split.1 hm with rfl | ⟨k, hk, hm⟩; exact h1; exact h2 k hk m hm⟩

theorem getDBName_isSome {fold t x} : (getDBName fold t x).isSome = true ↔ ∃ d, Resolves fold t x d := by
  rw [Option.isSome_iff_exists]
  exact ⟨fun ⟨d, h⟩ => ⟨d, getDBName_resolves h⟩, fun ⟨d, h⟩ => resolves_getDBName h⟩

theorem gtext_isSome (E : GEnv) {n : Node} (hc : Complete n) : (gtext E n).isSome = true ↔ ∀ m, Occ m n → Known E m := by
  induction hc with
  | arr hh _ =>
    obtain ⟨v, hv⟩ := value_exists (Complete.arr hh)
    rw [all_split]; simp [gtext, hv, Known, parts]
  | ident => rw [all_split]; simp only [gtext, Option.isSome_map, getDBName_isSome, Known, parts]; simp
  | ref =>
    rename_i l
    rw [all_split]
    simp only [gtext, parts, Known]
    match l with
    | [] => simp [refText]
    | [_] => simp [refText]
    | _ :: _ :: _ :: _ => simp [refText]
    | [s, f] =>
      simp only [refText]
      cases hr : E.schema.rel s with
      | none =>
        simp only [Option.isSome_none, Bool.false_eq_true, false_iff]
        rintro ⟨⟨r, c, t, d, e, h, _⟩, _⟩
        cases e; rw [hr] at h; cases h
      | some t =>
        simp only [Option.isSome_map, getDBName_isSome]
        constructor
        · rintro ⟨d, hd⟩; exact ⟨⟨s, f, t, d, rfl, hr, hd⟩, by simp⟩
        · rintro ⟨⟨r, c, t', d, e, h, hd⟩, _⟩
          cases e; rw [hr] at h; cases h; exact ⟨d, hd⟩
  | pred _ _ ih1 ih2 => rw [all_split]; simp only [gtext, cat_isSome, ih1, ih2, Known, parts]; simp
  | cmp _ _ _ ih1 ih2 ih3 => rw [all_split]; simp only [gtext, cat_isSome, ih1, ih2, ih3, Known, parts]; simp
  | logic _ _ _ ih1 ih2 ih3 => rw [all_split]; simp only [gtext, cat_isSome, ih1, ih2, ih3, Known, parts]; simp
  | paren _ ih => rw [all_split]; simp only [gtext, cat_isSome, ih, Known, parts]; simp
  | not _ ih => rw [all_split]; simp only [gtext, cat_isSome, ih, Known, parts]; simp
  | between _ _ _ _ ih1 ih2 ih3 ih4 => rw [all_split]; simp only [gtext, cat_isSome, ih1, ih2, ih3, ih4, Known, parts]; simp
  | func hh ih =>
    rename_i f l
    clear hh
    rw [all_split]
    simp only [gtext, parts]
    have hL : (gtextL E l).isSome = true ↔ ∀ k ∈ l, ∀ m, Occ m k → Known E m := by
      induction l with
      | nil => simp [gtextL]
      | cons m l ihl =>
        simp only [gtextL, cat_isSome, ih m (by simp), ihl fun n hn => ih n (List.mem_cons_of_mem _ hn)]
        simp
    have hk : Known E (.func f l) ↔ f = c!"date" := Iff.rfl
    rw [hk]
    by_cases hf : f = c!"date"
    · rw [if_pos hf]; simp only [cat_isSome, hL, hf]; simp
    · rw [if_neg hf]; simp [hf]
  | _ => rw [all_split]; simp [gtext, Known, parts]

/-- C20, C23: the translation succeeds exactly when every identifier is known to the table, every dotted name is a relation followed by a name
known to the related table, and every function is `date`; otherwise it reports an error.  It never panics. -/
theorem C20_accepts_iff (E : GEnv) {q : Str} {n : Node} (hp : parse q = .ok n) (st : GSt) :
    ((∃ st', gvisit E n st = .ok st') ↔ ∀ m, Occ m n → Known E m) ∧
    ((∃ e st', gvisit E n st = .err e st') ↔ ¬ ∀ m, Occ m n → Known E m) := by
  have hc := C02_complete_tree q n hp
  rw [← gtext_isSome E hc]
  have ha := gvisit_agrees E hc st
  cases hx : gtext E n with
  | none =>
    rw [hx] at ha
    obtain ⟨e, st', hr⟩ := ha
    rw [hr]; simp
  | some t =>
    rw [hx] at ha
    obtain ⟨st', hr, _⟩ := ha
    rw [hr]; simp

/-- C20: if a condition is added, every name in the query is known to the schema. -/
theorem C20_names_known {schema quote fold db db' q c} (h : wire schema quote fold db q = .ok db') (hw : db'.wheres = db.wheres ++ [c]) :
    ∃ s n, schema = some s ∧ parse q = .ok n ∧
      (∀ x, Occ (.ident x) n → ∃ d, Resolves fold s.table x d) ∧
      (∀ l, Occ (.ref l) n → ∃ r c t d, l = [r, c] ∧ s.rel r = some t ∧ Resolves fold t c d) := by
  obtain ⟨s, n, st, rfl, hp, hc, hg, _⟩ := wire_where h hw
  have := ((C20_accepts_iff ⟨s, quote, fold⟩ hp {}).1.1 ⟨st, hg⟩)
  exact ⟨s, n, rfl, hp, fun x hx => this _ hx, fun l hl => this _ hl⟩

example : exampleWire c!"a = 1 and zz = 2" = .ok { errors := [.build (.fieldNotFound c!"zz")] } := by decide +kernel
example : exampleWire c!"R.c = 1 and R.x = 2" = .ok { joins := [c!"R"], errors := [.build (.relationFieldNotFound c!"R" c!"x")] } := by decide +kernel

/-- C23: if a condition is added, every function called in the query is `date`. -/
theorem C23_only_date {schema quote fold db db' q c} (h : wire schema quote fold db q = .ok db') (hw : db'.wheres = db.wheres ++ [c]) :
    ∃ n, parse q = .ok n ∧ ∀ f ps, Occ (.func f ps) n → f = c!"date" := by
  obtain ⟨s, n, st, rfl, hp, hc, hg, _⟩ := wire_where h hw
  have := ((C20_accepts_iff ⟨s, quote, fold⟩ hp {}).1.1 ⟨st, hg⟩)
  exact ⟨n, hp, fun f ps hx => this _ hx⟩

example : exampleWire c!"a = sleep(10)" = .ok { errors := [.build (.unsupported c!"sleep")] } ∧
    exampleWire c!"a = date(1)" = .ok { wheres := [(c!"`a` = date(?)", [.int 1])] } := by decide +kernel

/-! ## C21 -/

/-- C21: when a condition is added, the relations joined are those referred to, each once, in order of first reference. -/
theorem C21_joins {schema quote fold db db' q c} (h : wire schema quote fold db q = .ok db') (hw : db'.wheres = db.wheres ++ [c]) :
    ∃ n, parse q = .ok n ∧ db'.joins = db.joins ++ firsts (rels n) := by
  obtain ⟨s, n, st, rfl, hp, hc, hg, _, hj, _⟩ := wire_where h hw
  obtain ⟨t, _, ha⟩ := gvisit_ok hc hg
  refine ⟨n, hp, ?_⟩
  rw [hj, ha.joins rfl, ha.joined]; simp

theorem mem_firsts {x : Str} {l : List Str} : x ∈ firsts l ↔ x ∈ l := by
  induction l with
  | nil => simp [firsts]
  | cons y l ih => simp [firsts, ih]; by_cases h : x = y <;> simp [h]

theorem firsts_nodup (l : List Str) : (firsts l).Nodup := by
  induction l with
  | nil => simp [firsts]
  | cons y l ih => rw [firsts, List.nodup_cons]; exact ⟨by simp, ih.filter _⟩

/-- C21: no relation is joined twice by one query, whatever its references. -/
theorem C21_joined_once {schema quote fold q db' c} (h : wire schema quote fold {} q = .ok db') (hw : db'.wheres = [c]) :
    db'.joins.Nodup ∧ ∃ n, parse q = .ok n ∧ ∀ r, r ∈ db'.joins ↔ r ∈ rels n := by
  obtain ⟨n, hp, hj⟩ := C21_joins h (by simpa using hw)
  simp at hj
  rw [hj]
  exact ⟨firsts_nodup _, n, hp, fun r => mem_firsts⟩

/-! ## C22 -/

theorem cat_ne_nil {a b : Option Str} {t : Str} (h : cat a b = some t) (hab : (∀ x, a = some x → x ≠ []) ∨ (∀ x, b = some x → x ≠ [])) : t ≠ [] := by
  obtain ⟨x, y, rfl, rfl, rfl⟩ := count_cat h
  rcases hab with hx | hy
  · simp [hx x rfl]
  · simp [hy y rfl]

theorem gtext_ne_nil {E : GEnv} (hq : ∀ x, E.quote x ≠ []) {n : Node} (hn : NotOp n) {t : Str} (h : gtext E n = some t) : t ≠ [] := by
  have lit : ∀ {c : Char} {u x : Str}, some (c :: u) = some x → x ≠ [] := by rintro c u x h; cases h; simp
  cases n with
  | nil => cases h
  | op o => exact absurd rfl (hn o)
  | ident x => obtain ⟨d, _, rfl⟩ := Option.map_eq_some_iff.1 h; exact hq d
  | ref l =>
    rw [gtext] at h
    unfold refText at h
    split at h
    · split at h
      · cases h
      · obtain ⟨d, _, rfl⟩ := Option.map_eq_some_iff.1 h; exact hq _
    · cases h
  | arr l =>
    rw [gtext] at h
    split at h
    · cases h
    · exact lit h
  | func f l =>
    rw [gtext] at h
    split at h
    · exact cat_ne_nil h (.inl fun _ => lit)
    · cases h
  | paren e => exact cat_ne_nil h (.inl fun _ => lit)
  | not e => exact cat_ne_nil h (.inl fun _ => lit)
  | between | pred | cmp | logic => exact cat_ne_nil h (.inr fun _ h => cat_ne_nil h (.inl fun _ => lit))
  | _ => exact lit h

/-- C22: `WireMiniQuery` never panics; the empty query changes nothing; any other query either adds exactly one condition, which is not empty, and
no error, or adds exactly one error and no condition. -/
theorem C22_fails_closed (schema : Option GSchema) (quote : Str → Str) (fold : Str → Str → Bool) (hq : ∀ x, quote x ≠ []) (db : Db) (q : Str) :
    ∃ db', wire schema quote fold db q = .ok db' ∧
      ((q = [] ∧ db' = db) ∨
       (q ≠ [] ∧ db'.errors = db.errors ∧ ∃ sql vals, sql ≠ [] ∧ db'.wheres = db.wheres ++ [(sql, vals)]) ∨
       (q ≠ [] ∧ db'.wheres = db.wheres ∧ ∃ e, db'.errors = db.errors ++ [e])) := by
  unfold wire
  by_cases hq0 : q = []
  · exact ⟨db, by rw [if_pos hq0], .inl ⟨hq0, rfl⟩⟩
  · rw [if_neg hq0]
    rcases (C01_parse_total q).1 with ⟨n, hp⟩ | ⟨e, hp⟩
    · rw [hp]
      cases schema with
      | none => exact ⟨_, rfl, .inr (.inr ⟨hq0, rfl, _, rfl⟩)⟩
      | some s =>
        have hc := C02_complete_tree q n hp
        have ha := gvisit_agrees ⟨s, quote, fold⟩ hc {}
        cases hx : gtext ⟨s, quote, fold⟩ n with
        | none =>
          rw [hx] at ha
          obtain ⟨e, st', hr⟩ := ha
          simp only [hr]
          exact ⟨_, rfl, .inr (.inr ⟨hq0, rfl, _, rfl⟩)⟩
        | some t =>
          rw [hx] at ha
          obtain ⟨st', hr, had⟩ := ha
          simp only [hr]
          refine ⟨_, rfl, .inr (.inl ⟨hq0, rfl, _, _, ?_, rfl⟩)⟩
          rw [had.buf]
          exact gtext_ne_nil hq (parse_fine hp).2 hx
    · rw [hp]; exact ⟨_, rfl, .inr (.inr ⟨hq0, rfl, _, rfl⟩)⟩

example : exampleWire c!"1 = a->b" = .ok { wheres := [(c!"= `a` `b`", [])] } := by decide +kernel
example : exampleWire c!"a = " = .ok { errors := [.parse (.syntax 3 4)] } := by decide +kernel

end Verif
