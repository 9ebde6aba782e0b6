import Verif.SizeEnt
import Verif.Props.Accept

/-! # The size of what is made of a query (C65, C66) -/

namespace Verif

/-! ## C65: trees and gorm's conditions are not larger than the query -/

/-- C65: the tree of an accepted query, counting its nodes and the texts in them, is at most five times as large as the query. -/
theorem C65_tree {s : Str} {n : Node} (h : parse s = .ok n) : weight n < 5 * s.length := by
  have := parse_weight h
  omega

/-- C65: so is its depth. -/
theorem C65_depth {s : Str} {n : Node} (h : parse s = .ok n) : depth n < 5 * s.length :=
  Nat.lt_of_le_of_lt (depth_le_weight n) (C65_tree h)

/-- C65: the condition that gorm gets for a query is at most proportional to the query, and so are its values and joins: at most `5 * (M + 7)`
characters, values of size 5 and 5 joins for each character of the query, where `M` is the length of the longest quoted column name. -/
theorem C65_gorm {s : GSchema} {quote : Str → Str} {fold : Str → Str → Bool} {M : Nat} (hM : NamesFit s quote fold M) {db db' : Db} {q : Str}
    (h : wire (some s) quote fold db q = .ok db') :
    db'.joins.length ≤ db.joins.length + 5 * q.length ∧
    (db'.wheres = db.wheres ∨ ∃ sql vals, db'.wheres = db.wheres ++ [(sql, vals)] ∧ sql.length ≤ (M + 7) * (5 * q.length) ∧ vsizeL vals ≤ 5 * q.length) := by
  unfold wire at h
  split at h
  · cases h; exact ⟨by omega, .inl rfl⟩
  · split at h
    · cases h
    · cases h
    · cases h; exact ⟨by simp only; omega, .inl rfl⟩
    · rename_i n hn
      have hw := parse_weight hn
      have key := gvisit_size (E := ⟨s, quote, fold⟩) hM n (parse_fine hn).1 {}
      have hc : (M + 7) * weight n ≤ (M + 7) * (5 * q.length) := Nat.mul_le_mul_left _ (by omega)
      simp only at h
      split at h
      · cases h
      · rename_i e st he
        cases h
        rw [he] at key
        obtain ⟨_, _, k3⟩ := key
        simp only [List.length_nil] at k3
        exact ⟨by simp only [List.length_append]; omega, .inl rfl⟩
      · rename_i st he
        cases h
        rw [he] at key
        obtain ⟨k1, k2, k3⟩ := key
        simp only [List.length_nil] at k1 k3
        have h0 : vsizeL ([] : List GoVal) = 0 := rfl
        simp only [h0] at k2
        exact ⟨by simp only [List.length_append]; omega, .inr ⟨_, _, rfl, by omega, by omega⟩⟩

/-- The bound on the tree is met by a query of realistic shape, and a bound of the query's own length would be wrong. -/
example : ∃ n, parse c!"a=1 and b.c not in ('x', 'y')" = .ok n ∧ weight n = 30 ∧ depth n = 4 ∧ c!"a=1 and b.c not in ('x', 'y')".length = 29 :=
  ⟨.logic (.cmp (.ident c!"a") (.op c!"eq") (.int 1)) (.op c!"and") (.cmp (.ref [c!"b", c!"c"]) (.op c!"not in") (.arr [.str c!"x", .str c!"y"])),
    by decide +kernel⟩

/-- A schema whose names fit, and a condition made with it. -/
example :
    let s : GSchema := ⟨⟨fun x => x == c!"a_col", fun x => if x = c!"A" then some c!"a_col" else none, []⟩, fun _ => none⟩
    let quote : Str → Str := fun x => '"' :: (x ++ c!"\"")
    NamesFit s quote (fun a b => a == b) 7 ∧
      wire (some s) quote (fun a b => a == b) {} c!"A in (1, 2)" = .ok { wheres := [(c!"\"a_col\" in ?", [.slice [.int 1, .int 2]])] } := by
  refine ⟨⟨?_, ?_⟩, by decide +kernel⟩
  · intro x d h
    simp only [getDBName] at h
    split at h
    · rename_i e
      cases h
      rw [beq_iff_eq.mp e]
      decide
    · by_cases e : x = c!"A"
      · simp [e] at h
        subst h
        decide
      · simp [e] at h
  · intro r t x d h
    cases h

/-! ## C66: the translations to ent -/

/-- C66, in general: the SQL of a query is at most proportional to its tree with the left operand of every range written out twice. -/
theorem C66_general {E : SEnv} {M : Nat} (hM : EntFit E M) {q : Str} {n : Node} (hn : parse q = .ok n) (node : Option Nat) (d : Str) {sql args}
    (h : (sQuery E { query := q, node := node, mb := { own := { dialect := d } } }).1 = .ret sql args) :
    sql.length ≤ (M + digitCount (wide n) + 30) * wide n ∧ argsSize args ≤ wide n := by
  have key := svisit_size (T := wide n) hM (Nat.le_refl _) n (parse_fine hn).1 node { own := { dialect := d } } rfl (by simp)
  unfold sQuery at h
  simp only [hn] at h
  have h0 : argsSize [] = 0 := rfl
  split at h
  · cases h
  · cases h
    exact ⟨by simp, by rw [h0]; omega⟩
  · rename_i mb he
    cases h
    rw [he] at key
    obtain ⟨_, k1, k2, _⟩ := key
    simp only [List.length_nil, h0] at k1 k2
    exact ⟨by omega, by omega⟩

/-- C66, partial (queries in which no range has a range inside its operands): the SQL that the ent builder makes of a query has at most
`10 * (M + 30)` characters for each character of the query, and the digits of the placeholders' numbers; its arguments have size at most 10 for each
character.  `M` bounds what ent writes for a name (per character of it) and around the condition on an edge.  Missing: nested ranges, see `C66_refuted`. -/
theorem C66_sql_partial {E : SEnv} {M : Nat} (hM : EntFit E M) {q : Str} {n : Node} (hn : parse q = .ok n) (hf : flatRanges n = true) (node : Option Nat)
    (d : Str) {sql args} (h : (sQuery E { query := q, node := node, mb := { own := { dialect := d } } }).1 = .ret sql args) :
    sql.length ≤ (M + digitCount (10 * q.length) + 30) * (10 * q.length) ∧ argsSize args ≤ 10 * q.length := by
  obtain ⟨a, b⟩ := C66_general hM hn node d h
  have h1 := wide_flat _ hf
  have h2 := parse_weight hn
  have h3 : wide n ≤ 10 * q.length := by omega
  have h4 := digitCount_mono h3
  exact ⟨Nat.le_trans a (Nat.mul_le_mul (by omega) h3), by omega⟩

/-- C66, partial (as above): so is the predicate that the entql builder makes of a query. -/
theorem C66_entql_partial {q : Str} {n : Node} (hn : parse q = .ok n) (hf : flatRanges n = true) {p} (h : buildEntQL q = .pred p) :
    esize p ≤ 10 * q.length := by
  have h1 := wide_flat _ hf
  have h2 := parse_weight hn
  unfold buildEntQL eBuild at h
  split at h
  · cases h
  · simp only [hn] at h
    split at h
    · cases h
    · cases h
    · cases h
    · rename_i p' st he
      split at h
      · cases h
        obtain ⟨a, b⟩ := evisit_size (parse_fine hn).1 he
        simp only [List.length_cons, List.length_nil] at a b
        obtain ⟨x, hx, hs⟩ := b (by omega)
        cases hx
        omega
      · cases h

/-- Ranges inside ranges: `a`, `(a between 1 and 2)`, `((a between 1 and 2) between 1 and 2)`, … -/
def rangeTower : Nat → Str
  | 0 => c!"a"
  | k + 1 => '(' :: (rangeTower k ++ c!" between 1 and 2)")

/-- Their trees. -/
def towerTree : Nat → Node
  | 0 => .ident c!"a"
  | k + 1 => .paren (.between (towerTree k) (.op c!"between") (.int 1) (.int 2))

theorem rangeTower_length (k : Nat) : (rangeTower k).length = 18 * k + 1 := by
  induction k with
  | zero => rfl
  | succ k ih =>
    simp only [rangeTower, List.length_cons, List.length_append, ih]
    simp
    omega

theorem tower_sp (k : Nat) : Sp .prim (rangeTower k) (towerTree k) := by
  induction k with
  | zero => exact sp_ident _ idText_a kwFree_a
  | succ k ih =>
    have h := Sp.paren (w1 := []) (w2 := []) .nil (Sp.cin_logic (.cinUp (.prdUp (.btw (w1 := c!" ") (w2 := c!" ") (w3 := c!" ") (w4 := c!" ") (k := c!"and")
      (a := c!"1") (b := c!"2") ih ws_space .btw (apart_space _ _ _ (by decide)) ws_space (.inl (.int (k := 1) (by decide))) ws_space (CI.refl _) ws_space
      (.inl (.int (k := 2) (by decide))))))) .nil
    have e : rangeTower (k + 1) = '(' :: ([] ++ ((rangeTower k ++ (c!" " ++ (c!"between" ++ (c!" " ++ (c!"1" ++ (c!" " ++ (c!"and" ++ (c!" " ++ c!"2")))))))) ++ ([] ++ c!")"))) := by
      simp [rangeTower]
    rw [e]
    exact h

theorem tower_parse (k : Nat) : parse (rangeTower k) = .ok (towerTree k) := Sp.parse (Sp.cin_logic (tower_sp k).prim_cin)

theorem holder_pos (b : Bld) : 1 ≤ b.holder.length := by
  unfold Bld.holder
  split <;> simp

theorem formatParam_pos (t p d) : p.length ≤ (formatParam t p d).length := by
  unfold formatParam
  split
  · cases t <;> simp
  · omega

theorem sVal_int (E : SEnv) (i : Int) (own : Bld) : ∃ own', sVal E (.int i) ⟨own, none⟩ = .ok ⟨own', none⟩ ∧ own'.args.length = own.args.length + 1 ∧
    own.sql.length + 1 ≤ own'.sql.length ∧ own'.errs = own.errs := by
  have hp := holder_pos own
  have hf := formatParam_pos GoType.int own.holder own.dialect
  unfold sVal
  simp only [value, MB.put]
  cases E.cast with
  | true =>
    refine ⟨_, rfl, ?_, ?_, rfl⟩
    · simp [Bld.arg]
    · simp only [if_true, Bld.arg, GoVal.type, List.length_append]; omega
  | false =>
    refine ⟨_, rfl, ?_, ?_, rfl⟩
    · simp [Bld.arg]
    · simp [Bld.arg, List.length_append]; omega

theorem tower_svisit (E : SEnv) (node : Option Nat) : ∀ (k : Nat) (own : Bld), ∃ own', svisit E node (towerTree k) ⟨own, none⟩ = .ok ⟨own', none⟩ ∧
    own'.args.length + 2 = own.args.length + 2 ^ (k + 1) ∧ own.sql.length + 2 ^ (k + 1) ≤ own'.sql.length + 2 ∧ own'.errs = own.errs
  | 0, own => ⟨_, rfl, rfl, by simp [Bld.write], rfl⟩
  | k + 1, own => by
    obtain ⟨o1, e1, a1, s1, r1⟩ := tower_svisit E node k (own.write c!"(")
    obtain ⟨o2, e2, a2, s2, r2⟩ := sVal_int E 1 (o1.write c!" >= ")
    obtain ⟨o3, e3, a3, s3, r3⟩ := tower_svisit E node k (o2.write c!" AND ")
    obtain ⟨o4, e4, a4, s4, r4⟩ := sVal_int E 2 (o3.write c!" <= ")
    refine ⟨o4.write c!")", ?_, ?_, ?_, ?_⟩
    · simp only [towerTree, svisit]
      show (((((svisit E node (towerTree k) ⟨own.write c!"(", none⟩).andThen _).andThen _).andThen _).also _) = _
      rw [e1]
      show ((((sVal E (.int 1) ⟨o1.write c!" >= ", none⟩).andThen _).andThen _).also _) = _
      rw [e2]
      show (((svisit E node (towerTree k) ⟨o2.write c!" AND ", none⟩).andThen _).also _) = _
      rw [e3]
      show ((sVal E (.int 2) ⟨o3.write c!" <= ", none⟩).also _) = _
      rw [e4]
      rfl
    · simp only [Bld.write] at *
      have : 2 ^ (k + 1 + 1) = 2 ^ (k + 1) + 2 ^ (k + 1) := by rw [Nat.pow_succ]; omega
      omega
    · simp only [Bld.write, List.length_append] at *
      simp at *
      have : 2 ^ (k + 1 + 1) = 2 ^ (k + 1) + 2 ^ (k + 1) := by rw [Nat.pow_succ]; omega
      omega
    · simp only [Bld.write] at *
      rw [r4, r3, r2, r1]

/-- C66 does not hold for nested ranges: for every dialect and every schema, a query of `18 k + 1` characters has, without any error, SQL with
`2 ^ (k + 1) - 2` arguments. -/
theorem C66_refuted (E : SEnv) (node : Option Nat) (d : Str) (k : Nat) : ∃ sql args b,
    sQuery E { query := rangeTower k, node := node, mb := { own := { dialect := d } } } = (.ret sql args, b) ∧ b.failed = false ∧
    (rangeTower k).length = 18 * k + 1 ∧ args.length = 2 ^ (k + 1) - 2 ∧ 2 ^ (k + 1) - 2 ≤ sql.length := by
  obtain ⟨own', he, ha, hs, hr⟩ := tower_svisit E node k { dialect := d }
  refine ⟨own'.sql, own'.args, ⟨rangeTower k, node, some (towerTree k), ⟨own', none⟩⟩, ?_, ?_, rangeTower_length k, ?_, ?_⟩
  rotate_left
  · show (own'.errs != []) = false
    rw [hr]; rfl
  · simp only [List.length_nil] at ha; omega
  · simp only [List.length_nil] at hs; omega
  · unfold sQuery
    simp only [tower_parse, he]

theorem tower_evisit : ∀ (k : Nat) (st : List EExpr), ∃ p, evisit (towerTree k) st = .ok (p :: st) ∧ 2 ^ k ≤ esize p ∧ (k ≠ 0 → p.isP = true)
  | 0, st => ⟨_, rfl, by simp [esize], by simp⟩
  | k + 1, st => by
    obtain ⟨p, e, s, _⟩ := tower_evisit k st
    refine ⟨.bin .and (.bin .gte p (.val (.int 1))) (.bin .lte p (.val (.int 2))), ?_, ?_, fun _ => rfl⟩
    · simp only [towerTree, evisit]
      rw [e]
      rfl
    · simp only [esize]
      rw [Nat.pow_succ]
      omega

/-- Nor for entql: a query of `18 k + 1` characters has a predicate of size at least `2 ^ k`. -/
theorem C66_entql_refuted (k : Nat) (hk : 1 ≤ k) : ∃ p, buildEntQL (rangeTower k) = .pred p ∧ (rangeTower k).length = 18 * k + 1 ∧ 2 ^ k ≤ esize p := by
  obtain ⟨p, e, s, hp⟩ := tower_evisit k []
  refine ⟨p, ?_, rangeTower_length k, s⟩
  unfold buildEntQL eBuild
  rw [if_neg (by intro h; have := rangeTower_length k; rw [h] at this; simp at this), tower_parse]
  simp only [e, hp (by omega)]
  rfl

example : rangeTower 2 = c!"((a between 1 and 2) between 1 and 2)" := by decide

/-- The SQL of nested ranges. -/
example : (sQuery ⟨fun _ x => x, fun _ => [], true, true⟩ { query := rangeTower 2, mb := { own := { dialect := c!"mysql" } } }).1 =
    .ret c!"((a >= ? AND a <= ?) >= ? AND (a >= ? AND a <= ?) <= ?)" [.cast (.int 1), .cast (.int 2), .cast (.int 1), .cast (.int 1), .cast (.int 2), .cast (.int 2)] := by
  decide +kernel

/-- Surroundings that fit, and a query with ranges that are not nested. -/
example : EntFit ⟨fun _ x => x, fun _ => [], true, true⟩ 1 ∧
    (∃ n, parse c!"a between 1 and 2 or b not between 'x' and 'y'" = .ok n ∧ flatRanges n = true) ∧ flatRanges (towerTree 2) = false := by
  refine ⟨⟨fun _ x => by simp, fun t x e h => by cases h⟩, ⟨.logic (.between (.ident c!"a") (.op c!"between") (.int 1) (.int 2)) (.op c!"or")
    (.between (.ident c!"b") (.op c!"not between") (.str c!"x") (.str c!"y")), by decide +kernel⟩, by decide⟩

example : buildEntQL c!"a between 1 and 2" = .pred (.bin .and (.bin .gte (.field c!"a") (.val (.int 1))) (.bin .lte (.field c!"a") (.val (.int 2)))) := by
  decide +kernel

end Verif
