import Verif.InertThms
import Verif.Props.Gorm
import Verif.Props.EntSQL

/-! # Quoted values are inert (C62) -/

namespace Verif

/-- Two outcomes of `Parse` with the value replaced. -/
def SameBut (m v : Str) : ParseRes → ParseRes → Prop
  | .ok n, .ok n' => n' = putStr m v n
  | .err (.syntax _ _), .err (.syntax _ _) => True
  | .err e, .err e' => e = e'
  | _, _ => False

theorem finish_inert {m v : Str} {N : Nat} (hN : N < m.length) {ev ev' : List Ev} (h : IEv m v N false ev ev' false)
    (hp : finish ev ≠ .panic) : SameBut m v (finish ev) (finish ev') := by
  have hr := inert_run hN h (x := []) (t := {}) (x' := []) (t' := {}) ⟨rfl, by simp⟩
  revert hr hp
  unfold finish
  rw [runEvs_eq, runEvs_eq]
  cases runX [] ev {} with
  | none => intro h; exact absurd rfl h
  | some y =>
    cases runX [] ev' {} with
    | none => exact fun _ h => h.elim
    | some y' =>
      obtain ⟨x, t⟩ := y
      obtain ⟨x', t'⟩ := y'
      rintro - ⟨rfl, -⟩
      simp only [Option.map_some]
      have hpop := congrArg Prod.fst (put_pop (m := m) (v := v) t)
      have herr : (t.put m v).errors = t.errors := rfl
      rw [herr]
      cases t.errors with
      | nil => exact hpop
      | cons e es => cases e <;> first | rfl | trivial

/-- C62: a text in quotes, where a string can be, is a value and nothing else.  `u` and `w` are the query before and after the
literal, `u` not ending inside a string or comment; `m` is longer than both together, so it cannot occur elsewhere.  Whatever the
other value `v` is (without that quote), `Parse` says the same, and where it accepts, the trees differ in that literal only. -/
theorem C62_value {q : Char} (hq : q = '\'' ∨ q = '"') {u w m v : Str} (hu : modeAfter u = .code) (hm : q ∉ m) (hv : q ∉ v)
    (hl : u.length + w.length < m.length) : SameBut m v (parse (u ++ q :: (m ++ q :: w))) (parse (u ++ q :: (v ++ q :: w))) := by
  have hp : IPos q m v w u.length .code (u ++ q :: (m ++ q :: w)) (u ++ q :: (v ++ q :: w)) := .before hu
  obtain ⟨x, hx⟩ := big_total .Grammar (u ++ q :: (m ++ q :: w))
  obtain ⟨x', hx', hc⟩ := inert_sync (N := u.length + w.length) hq hm hv (by omega) hx (σ := .code) (p := false) rfl hp (by omega)
  rcases parse_cases (u ++ q :: (m ++ q :: w)) with ⟨ev, h1, e1⟩ | ⟨h1, b, e, e1, _⟩
  · have := Big.det hx h1
    subst this
    obtain ⟨ev', r', rfl, he, _⟩ := hc.some
    rcases parse_cases (u ++ q :: (v ++ q :: w)) with ⟨ev1, h2, e2⟩ | ⟨h2, _⟩
    · cases Big.det hx' h2
      rw [e1, e2]
      exact finish_inert hl he (by rw [← e1]; exact (C01_parse_total _).2.1)
    · cases Big.det hx' h2
  · have := Big.det hx h1
    subst this
    have := hc.none
    subst this
    rcases parse_cases (u ++ q :: (v ++ q :: w)) with ⟨ev1, h2, e2⟩ | ⟨h2, b', e', e2, _⟩
    · cases Big.det hx' h2
    · rw [e1, e2]
      trivial

/-- The case of a value full of query syntax. -/
example : modeAfter c!"(name = \"it's\" -- '\n or name = " = .code ∧
    parse c!"(name = \"it's\" -- '\n or name = 'this is the value to be replaced by another one') and age > 1" =
      .ok (.logic (.paren (.logic (.cmp (.ident c!"name") (.op c!"eq") (.str c!"it's")) (.op c!"or")
        (.cmp (.ident c!"name") (.op c!"eq") (.str c!"this is the value to be replaced by another one")))) (.op c!"and")
        (.cmp (.ident c!"age") (.op c!"gt") (.int 1))) ∧
    parse c!"(name = \"it's\" -- '\n or name = '\") or 1 = 1 -- \n') and age > 1" =
      .ok (.logic (.paren (.logic (.cmp (.ident c!"name") (.op c!"eq") (.str c!"it's")) (.op c!"or")
        (.cmp (.ident c!"name") (.op c!"eq") (.str c!"\") or 1 = 1 -- \n")))) (.op c!"and")
        (.cmp (.ident c!"age") (.op c!"gt") (.int 1))) := by decide +kernel

/-- The quote itself must not occur in the value: there is no way to escape it. -/
theorem C62_quote_needed : parse c!"name = 'a' or 'b' = 'b'" =
    .ok (.logic (.cmp (.ident c!"name") (.op c!"eq") (.str c!"a")) (.op c!"or") (.cmp (.str c!"b") (.op c!"eq") (.str c!"b"))) := by
  decide +kernel

/-- **C62** as a prepared query: the query around the literal alone decides whether it is accepted and what its tree is; the value is
put into the tree afterwards. -/
theorem C62_prepared {q : Char} (hq : q = '\'' ∨ q = '"') {u w : Str} (hu : modeAfter u = .code) :
    (∃ m n, q ∉ m ∧ u.length + w.length < m.length ∧ ∀ v, q ∉ v → parse (u ++ q :: (v ++ q :: w)) = .ok (putStr m v n)) ∨
    ∀ v, q ∉ v → ∃ e, parse (u ++ q :: (v ++ q :: w)) = .err e := by
  let m : Str := List.replicate (u.length + w.length + 1) 'x'
  have hm : q ∉ m := by
    intro h
    have := List.eq_of_mem_replicate h
    subst this
    revert hq
    decide
  have hl : u.length + w.length < m.length := by simp [m]
  have key := fun v (hv : q ∉ v) => C62_value (w := w) hq hu hm hv hl
  cases hp : parse (u ++ q :: (m ++ q :: w)) with
  | ok n =>
    left
    refine ⟨m, n, hm, hl, fun v hv => ?_⟩
    have := key v hv
    rw [hp] at this
    cases h2 : parse (u ++ q :: (v ++ q :: w)) with
    | ok n' => rw [h2] at this; exact congrArg _ this
    | _ => rw [h2] at this; exact this.elim
  | err e =>
    right
    intro v hv
    have := key v hv
    rw [hp] at this
    cases h2 : parse (u ++ q :: (v ++ q :: w)) with
    | err e' => exact ⟨e', rfl⟩
    | _ => rw [h2] at this; cases e <;> exact this.elim
  | panic => exact absurd hp (C01_parse_total _).2.1
  | div => exact absurd hp (C01_parse_total _).2.2

mutual
theorem sameUp_put (m v v' : Str) : ∀ n, SameUp (putStr m v n) (putStr m v' n)
  | .nil => .nil
  | .int _ => .int
  | .bool _ => .bool
  | .str _ => .str
  | .null => .null
  | .arr l => .arr (sameUp_putL m v v' l)
  | .op _ => .op
  | .ident _ => .ident
  | .ref _ => .ref
  | .pred l o => .pred (sameUp_put m v v' l) (sameUp_put m v v' o)
  | .cmp l o r => .cmp (sameUp_put m v v' l) (sameUp_put m v v' o) (sameUp_put m v v' r)
  | .logic l o r => .logic (sameUp_put m v v' l) (sameUp_put m v v' o) (sameUp_put m v v' r)
  | .paren e => .paren (sameUp_put m v v' e)
  | .not e => .not (sameUp_put m v v' e)
  | .between l o a b => .between (sameUp_put m v v' l) (sameUp_put m v v' o) (sameUp_put m v v' a) (sameUp_put m v v' b)
  | .func _ l => .func (sameUp_putL m v v' l)
theorem sameUp_putL (m v v' : Str) : ∀ l, SameUpL (putStrL m v l) (putStrL m v' l)
  | [] => .nil
  | n :: l => .cons (sameUp_put m v v' n) (sameUp_putL m v v' l)
end

mutual
theorem anon_put (m v : Str) : ∀ n, anon (putStr m v n) = anon n
  | .nil => rfl
  | .int _ => rfl
  | .bool _ => rfl
  | .str _ => rfl
  | .null => rfl
  | .arr _ => rfl
  | .op _ => rfl
  | .ident _ => rfl
  | .ref _ => rfl
  | .pred l o => by simp only [putStr, anon, anon_put m v l, anon_put m v o]
  | .cmp l o r => by simp only [putStr, anon, anon_put m v l, anon_put m v o, anon_put m v r]
  | .logic l o r => by simp only [putStr, anon, anon_put m v l, anon_put m v o, anon_put m v r]
  | .paren e => by simp only [putStr, anon, anon_put m v e]
  | .not e => by simp only [putStr, anon, anon_put m v e]
  | .between l o a b => by simp only [putStr, anon, anon_put m v l, anon_put m v o, anon_put m v a, anon_put m v b]
  | .func _ l => by simp only [putStr, anon, anonL_put m v l]
theorem anonL_put (m v : Str) : ∀ l, anonL (putStrL m v l) = anonL l
  | [] => rfl
  | n :: l => by simp only [putStrL, anonL, anon_put m v n, anonL_put m v l]
end

/-- **C62** end to end with gorm: two values in the same place of the same query give the same condition text. -/
theorem C62_gorm {q : Char} (hq : q = '\'' ∨ q = '"') {u w v v' : Str} (hu : modeAfter u = .code) (hv : q ∉ v) (hv' : q ∉ v')
    {schema quote fold db d1 d2 sql vals} (h1 : wire schema quote fold db (u ++ q :: (v ++ q :: w)) = .ok d1)
    (h2 : wire schema quote fold db (u ++ q :: (v' ++ q :: w)) = .ok d2) (hs : d1.wheres = db.wheres ++ [(sql, vals)]) :
    ∃ vals', d2.wheres = db.wheres ++ [(sql, vals')] := by
  rcases C62_prepared (w := w) hq hu with ⟨m, n, _, _, h⟩ | h
  · exact C19_same_condition h1 h2 (h v hv) (h v' hv') (by rw [anon_put, anon_put]) hs
  · obtain ⟨e, he⟩ := h v hv
    obtain ⟨s, n, st, rfl, hp, _⟩ := wire_where h1 hs
    rw [he] at hp
    cases hp

example : exampleWire (c!"a = " ++ '\'' :: (c!"x" ++ '\'' :: c!" or b = 2")) = .ok { wheres := [(c!"`a` = ? or `b` = ?", [.str c!"x", .int 2])] } ∧
    exampleWire (c!"a = " ++ '\'' :: (c!"\" or \"\" = \"" ++ '\'' :: c!" or b = 2")) =
      .ok { wheres := [(c!"`a` = ? or `b` = ?", [.str c!"\" or \"\" = \"", .int 2])] } := by decide +kernel

/-- **C62** end to end with entsql: two values in the same place of the same query give the same text, and both fail or neither. -/
theorem C62_entsql {q : Char} (hq : q = '\'' ∨ q = '"') {u w v v' : Str} (hu : modeAfter u = .code) (hv : q ∉ v) (hv' : q ∉ v')
    {E : SEnv} {b : SB} (hb : b.ast = none) :
    (sQuery E { b with query := u ++ q :: (v ++ q :: w) }).1.text = (sQuery E { b with query := u ++ q :: (v' ++ q :: w) }).1.text ∧
    (sQuery E { b with query := u ++ q :: (v ++ q :: w) }).2.failed = (sQuery E { b with query := u ++ q :: (v' ++ q :: w) }).2.failed := by
  rcases C62_prepared (w := w) hq hu with ⟨m, n, _, _, h⟩ | h
  · have := C28_values_apart (E := E) hb (h v hv) (h v' hv') (sameUp_put m v v' n)
    exact ⟨this.1, this.2.2⟩
  · obtain ⟨e, he⟩ := h v hv
    obtain ⟨e', he'⟩ := h v' hv'
    simp only [sQuery, hb, he, he']
    exact ⟨trivial, by simp only [SB.failed, Bld.addErr]; cases b.mb.own.errs <;> rfl⟩

end Verif
