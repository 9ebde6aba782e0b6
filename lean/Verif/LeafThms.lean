import Verif.Props.ParseErrors
import Verif.Spec.Leaves
import Verif.Spec.Names

/-! # The atoms on the stack are the captured texts -/

namespace Verif

theorem atomsL_append (a b : List Node) : atomsL (a ++ b) = atomsL a ++ atomsL b := by
  induction a with
  | nil => simp [atomsL]
  | cons n a ih => simp [atomsL, ih]

theorem ShowsL.append {us ns vs ms} (h : ShowsL us ns) (h' : ShowsL vs ms) : ShowsL (us ++ vs) (ns ++ ms) := by
  induction h with
  | nil => exact h'
  | cons h _ ih => exact .cons h ih

theorem ShowsL.one {u n} (h : Shows u n) : ShowsL [u] [n] := .cons h .nil

theorem captured_append (s : Str) (a b : List Tok) : captured s (a ++ b) = captured s a ++ captured s b := by simp [captured]

/-! ## Spans of tokens -/

theorem Deriv.span {s e p q ts} (h : Deriv s e p q ts) : ∀ t ∈ ts, p ≤ t.b ∧ t.b ≤ t.e ∧ t.e ≤ q := by
  induction h with
  | seq h1 h2 i1 i2 | starCons h1 h2 i1 i2 =>
    intro t ht
    have := h1.le; have := h2.le
    rcases List.mem_append.mp ht with ht | ht
    · have := i1 t ht; omega
    · have := i2 t ht; omega
  | alt1 _ ih | alt2 _ _ ih | optSome _ ih | swIn _ _ _ ih | swOut _ _ ih => exact ih
  | call h ih | txt h ih =>
    intro t ht
    have := h.le
    rcases List.mem_append.mp ht with ht | ht
    · exact ih t ht
    · rw [List.mem_singleton.mp ht]; exact ⟨Nat.le_refl _, this, Nat.le_refl _⟩
  | act => intro t ht; rw [List.mem_singleton.mp ht]; exact ⟨Nat.le_refl _, Nat.le_refl _, Nat.le_refl _⟩
  | _ => intro t ht; cases ht

/-- The text of a derivation. -/
theorem Deriv.slice {s e p q ts} (h : Deriv s e p q ts) {u : Str} (hu : s.drop p = u ++ s.drop q) : (s.drop p).take (q - p) = u := by
  have hle := h.le
  by_cases hq : q ≤ s.length
  · exact slice_eq hu hle hq
  · rw [List.drop_eq_nil_of_le (by omega : s.length ≤ q), List.append_nil] at hu
    rw [List.take_of_length_le (by simp; omega), hu]

/-- The effect of the tokens `ts`, written between `p` and `q`: the nodes `ns` and the errors `es`; `k` arrows stand outside argument lists. -/
structure Writes (s : Str) (p q : Nat) (ts : List Tok) (ns : List Node) (es : List Err) (k : Nat) : Prop where
  le : p ≤ q
  span : ∀ t ∈ ts, p ≤ t.b ∧ t.b ≤ t.e ∧ t.e ≤ q
  json : ∀ t ∈ ts, t.kind = .rule .JsonReference → t.b < t.e
  eff : Eff (ts.filterMap (evOf s)) ns es
  leaf : es = [] → ShowsL (captured s ts) (atomsL ns)
  count : (freeArrows ts).length = k
  ids : identTexts s ts = namesL ns

theorem identTexts_append (s : Str) (a b : List Tok) : identTexts s (a ++ b) = identTexts s a ++ identTexts s b := by simp [identTexts]

theorem Writes.nil (s : Str) (p : Nat) : Writes s p p [] [] [] 0 :=
  ⟨Nat.le_refl _, (by intro t ht; cases ht), (by intro t ht; cases ht), .nil, fun _ => .nil, rfl, rfl⟩

theorem freeArrows_append {ts us : List Tok} {p q r : Nat} (h1 : ∀ t ∈ ts, p ≤ t.b ∧ t.b ≤ t.e ∧ t.e ≤ q) (h2 : ∀ t ∈ us, q ≤ t.b ∧ t.b ≤ t.e ∧ t.e ≤ r)
    (j1 : ∀ t ∈ ts, t.kind = .rule .JsonReference → t.b < t.e) (j2 : ∀ t ∈ us, t.kind = .rule .JsonReference → t.b < t.e) :
    freeArrows (ts ++ us) = freeArrows ts ++ freeArrows us := by
  unfold freeArrows
  rw [List.filter_append]
  congr 1
  · apply List.filter_congr
    intro t ht
    by_cases hk : t.kind = .rule .JsonReference
    · have hb := h1 t ht
      have hj := j1 t ht hk
      have : us.any t.args = false := by
        rw [List.any_eq_false]
        intro a ha
        have := h2 a ha
        simp only [Tok.args, decide_eq_true_eq]
        rintro ⟨_, h, _⟩
        omega
      rw [List.any_append, this, Bool.or_false]
    · simp [hk]
  · apply List.filter_congr
    intro t ht
    by_cases hk : t.kind = .rule .JsonReference
    · have hb := h2 t ht
      have hj := j2 t ht hk
      have : ts.any t.args = false := by
        rw [List.any_eq_false]
        intro a ha
        have := h1 a ha
        simp only [Tok.args, decide_eq_true_eq]
        rintro ⟨_, _, h⟩
        omega
      rw [List.any_append, this, Bool.false_or]
    · simp [hk]

theorem Writes.append {s p q r ts us ns ms es fs k l} (h1 : Writes s p q ts ns es k) (h2 : Writes s q r us ms fs l) :
    Writes s p r (ts ++ us) (ns ++ ms) (es ++ fs) (k + l) where
  le := Nat.le_trans h1.le h2.le
  span := by
    intro t ht
    have := h1.le; have := h2.le
    rcases List.mem_append.mp ht with ht | ht
    · have := h1.span t ht; omega
    · have := h2.span t ht; omega
  json := by
    intro t ht hk
    rcases List.mem_append.mp ht with ht | ht
    · exact h1.json t ht hk
    · exact h2.json t ht hk
  eff := by rw [List.filterMap_append]; exact h1.eff.append h2.eff
  leaf := by
    intro he
    obtain ⟨e1, e2⟩ := List.append_eq_nil_iff.mp he
    rw [captured_append, atomsL_append]
    exact (h1.leaf e1).append (h2.leaf e2)
  count := by rw [freeArrows_append h1.span h2.span h1.json h2.json, List.length_append, h1.count, h2.count]
  ids := by rw [identTexts_append, namesL_append, h1.ids, h2.ids]

/-- A token other than an arrow or an argument list. -/
def Tok.dull (t : Tok) : Prop := t.kind ≠ .rule .JsonReference ∧ t.kind ≠ .rule .ArgumentList

theorem freeArrows_dull {ts : List Tok} {t : Tok} (h : t.dull) : freeArrows (ts ++ [t]) = freeArrows ts := by
  unfold freeArrows
  rw [List.filter_append]
  have h1 : [t].filter (fun x => decide (x.kind = .rule .JsonReference) && !((ts ++ [t]).any x.args)) = [] := by simp [h.1]
  rw [h1, List.append_nil]
  apply List.filter_congr
  intro x _
  have : [t].any x.args = false := by simp [Tok.args, h.2]
  rw [List.any_append, this, Bool.or_false]

/-- Tokens of blanks: the actions do not see them. -/
def Still (ts : List Tok) : Prop := ∀ t ∈ ts, ∃ r, t.kind = .rule r ∧ r ∈ [Rule.sp, .sp1, .SpaceComment, .Space, .Comment, .EndOfLine, .EndOfFile]

theorem Still.nil : Still [] := by intro t ht; cases ht
theorem Still.append {a b} (h : Still a) (h' : Still b) : Still (a ++ b) := by
  intro t ht
  rcases List.mem_append.mp ht with ht | ht
  · exact h t ht
  · exact h' t ht
theorem Still.one {r p q} (h : r ∈ [Rule.sp, .sp1, .SpaceComment, .Space, .Comment, .EndOfLine, .EndOfFile]) : Still [⟨.rule r, p, q⟩] := by
  intro t ht; rw [List.mem_singleton.mp ht]; exact ⟨r, rfl, h⟩

theorem Still.dull {ts} (h : Still ts) : ∀ t ∈ ts, t.dull := by
  intro t ht
  obtain ⟨r, hr, hm⟩ := h t ht
  simp only [List.mem_cons, List.not_mem_nil, or_false] at hm
  unfold Tok.dull
  rw [hr]
  rcases hm with rfl | rfl | rfl | rfl | rfl | rfl | rfl <;> exact ⟨by decide, by decide⟩

theorem Still.ids {ts} (h : Still ts) (s : Str) : identTexts s ts = [] := by
  rw [identTexts, List.filterMap_eq_nil_iff]
  intro t ht
  obtain ⟨r, hr, hm⟩ := h t ht
  simp only [List.mem_cons, List.not_mem_nil, or_false] at hm
  rw [hr]
  rcases hm with rfl | rfl | rfl | rfl | rfl | rfl | rfl <;> rfl

theorem Still.evs {ts} (h : Still ts) (s : Str) : ts.filterMap (evOf s) = [] ∧ captured s ts = [] := by
  constructor
  · rw [List.filterMap_eq_nil_iff]
    intro t ht
    obtain ⟨r, hr, _⟩ := h t ht
    simp [evOf, hr]
  · rw [captured, List.filterMap_eq_nil_iff]
    intro t ht
    obtain ⟨r, hr, _⟩ := h t ht
    simp [hr]

theorem freeArrows_none {ts : List Tok} (h : ∀ t ∈ ts, t.kind ≠ .rule .JsonReference) : freeArrows ts = [] := by
  unfold freeArrows
  rw [List.filter_eq_nil_iff]
  intro t ht
  simp [h t ht]

theorem Still.writes {ts s p q} (h : Still ts) (hle : p ≤ q) (hs : ∀ t ∈ ts, p ≤ t.b ∧ t.b ≤ t.e ∧ t.e ≤ q) : Writes s p q ts [] [] 0 where
  le := hle
  span := hs
  json := fun t ht hk => absurd hk (h.dull t ht).1
  eff := by rw [(h.evs s).1]; exact .nil
  leaf := fun _ => by rw [(h.evs s).2]; exact .nil
  count := by rw [freeArrows_none fun t ht => (h.dull t ht).1]; rfl
  ids := h.ids s

/-- A leaf: a captured text and the action that makes a node of it. -/
theorem Writes.leafNode {s p m q ts us n a es} (hs : Still ts) (hu : Still us) (hpm : p ≤ m) (hmq : m ≤ q) (ht : ∀ t ∈ ts, p ≤ t.b ∧ t.b ≤ t.e ∧ t.e ≤ m)
    (hut : ∀ t ∈ us, m ≤ t.b ∧ t.b ≤ t.e ∧ t.e ≤ q)
    (he : Eff [.text ((s.drop p).take (m - p)), .act a] [n] es) (hn : es = [] → Shows ((s.drop p).take (m - p)) n) (hl : atoms n = [n]) {rs : List Tok}
    (hr : rs = [] ∧ names n = [] ∨ rs = [⟨.rule .Identifier, p, q⟩] ∧ m = q ∧ names n = [(s.drop p).take (m - p)]) :
    Writes s p q (ts ++ [⟨.text, p, m⟩] ++ us ++ [⟨.act a, q, q⟩] ++ rs) [n] es 0 where
  le := Nat.le_trans hpm hmq
  span := by
    intro t h
    simp only [List.mem_append, List.mem_singleton] at h
    rcases h with (((h | rfl) | h) | rfl) | h
    · have := ht t h; omega
    · exact ⟨Nat.le_refl _, hpm, hmq⟩
    · have := hut t h; omega
    · exact ⟨by show p ≤ q; omega, Nat.le_refl _, Nat.le_refl _⟩
    · rcases hr with ⟨rfl, _⟩ | ⟨rfl, _⟩
      · cases h
      · rw [List.mem_singleton.mp h]; exact ⟨Nat.le_refl _, by show p ≤ q; omega, Nat.le_refl _⟩
  json := by
    intro t h hk
    simp only [List.mem_append, List.mem_singleton] at h
    rcases h with (((h | rfl) | h) | rfl) | h
    · exact absurd hk (hs.dull t h).1
    · cases hk
    · exact absurd hk (hu.dull t h).1
    · cases hk
    · rcases hr with ⟨rfl, _⟩ | ⟨rfl, _⟩
      · cases h
      · rw [List.mem_singleton.mp h] at hk; cases hk
  eff := by
    have : rs.filterMap (evOf s) = [] := by rcases hr with ⟨rfl, _⟩ | ⟨rfl, _⟩ <;> rfl
    rw [List.filterMap_append, List.filterMap_append, List.filterMap_append, List.filterMap_append, (hs.evs s).1, (hu.evs s).1, this]
    exact he
  leaf := by
    intro h
    have : captured s rs = [] := by rcases hr with ⟨rfl, _⟩ | ⟨rfl, _⟩ <;> rfl
    rw [captured_append, captured_append, captured_append, captured_append, (hs.evs s).2, (hu.evs s).2, this]
    simp only [atomsL, hl]
    exact .one (hn h)
  count := by
    rw [freeArrows_none]
    · rfl
    · intro t h
      simp only [List.mem_append, List.mem_singleton] at h
      rcases h with (((h | rfl) | h) | rfl) | h
      · exact (hs.dull t h).1
      · nofun
      · exact (hu.dull t h).1
      · nofun
      · rcases hr with ⟨rfl, _⟩ | ⟨rfl, _⟩
        · cases h
        · rw [List.mem_singleton.mp h]; nofun
  ids := by
    rw [identTexts_append, identTexts_append, identTexts_append, identTexts_append, hs.ids, hu.ids]
    rcases hr with ⟨rfl, h⟩ | ⟨rfl, rfl, h⟩
    · simp [identTexts, namesL, h]
    · simp [identTexts, namesL, h]

/-- An action on the nodes. -/
theorem Writes.act {s p q ts ns es k ns'} (h : Writes s p q ts ns es k) (a : Nat)
    (he : ∀ e, Eff e ns es → Eff (e ++ [.act a]) ns' es) (hl : atomsL ns' = atomsL ns) (hi : namesL ns' = namesL ns) :
    Writes s p q (ts ++ [⟨.act a, q, q⟩]) ns' es k where
  le := h.le
  span := by
    intro t ht
    rcases List.mem_append.mp ht with ht | ht
    · exact h.span t ht
    · rw [List.mem_singleton.mp ht]; exact ⟨h.le, Nat.le_refl _, Nat.le_refl _⟩
  json := by
    intro t ht hk
    rcases List.mem_append.mp ht with ht | ht
    · exact h.json t ht hk
    · rw [List.mem_singleton.mp ht] at hk; cases hk
  eff := by rw [List.filterMap_append]; exact he _ h.eff
  leaf := by
    intro e
    rw [captured_append, hl]
    have : captured s [⟨.act a, q, q⟩] = [] := rfl
    rw [this, List.append_nil]
    exact h.leaf e
  count := by rw [freeArrows_dull ⟨by simp, by simp⟩]; exact h.count
  ids := by rw [hi, identTexts_append, ← h.ids]; simp [identTexts]

/-- The token of a rule. -/
theorem Writes.rule {s p q ts ns es k} (h : Writes s p q ts ns es k) {r : Rule} (h1 : r ≠ .JsonReference) (h2 : r ≠ .ArgumentList) (h3 : r ≠ .Identifier) :
    Writes s p q (ts ++ [⟨.rule r, p, q⟩]) ns es k where
  le := h.le
  span := by
    intro t ht
    rcases List.mem_append.mp ht with ht | ht
    · exact h.span t ht
    · rw [List.mem_singleton.mp ht]; exact ⟨Nat.le_refl _, h.le, Nat.le_refl _⟩
  json := by
    intro t ht hk
    rcases List.mem_append.mp ht with ht | ht
    · exact h.json t ht hk
    · rw [List.mem_singleton.mp ht] at hk; cases hk; exact absurd rfl h1
  eff := by rw [List.filterMap_append]; exact (List.append_nil _).symm ▸ h.eff
  leaf := by
    intro e
    rw [captured_append]
    have : captured s [⟨.rule r, p, q⟩] = [] := rfl
    rw [this, List.append_nil]
    exact h.leaf e
  count := by
    rw [freeArrows_dull ⟨fun e => h1 (by cases e; rfl), fun e => h2 (by cases e; rfl)⟩]; exact h.count
  ids := by rw [identTexts_append, ← h.ids]; simp [identTexts, h3]

/-- An argument list hides its arrows. -/
theorem Writes.args {s p q ts ns es k} (h : Writes s p q ts ns es k) : Writes s p q (ts ++ [⟨.rule .ArgumentList, p, q⟩]) ns es 0 where
  le := h.le
  span := by
    intro t ht
    rcases List.mem_append.mp ht with ht | ht
    · exact h.span t ht
    · rw [List.mem_singleton.mp ht]; exact ⟨Nat.le_refl _, h.le, Nat.le_refl _⟩
  json := by
    intro t ht hk
    rcases List.mem_append.mp ht with ht | ht
    · exact h.json t ht hk
    · rw [List.mem_singleton.mp ht] at hk; cases hk
  eff := by rw [List.filterMap_append]; exact (List.append_nil _).symm ▸ h.eff
  leaf := by
    intro e
    rw [captured_append]
    have : captured s [⟨.rule .ArgumentList, p, q⟩] = [] := rfl
    rw [this, List.append_nil]
    exact h.leaf e
  count := by
    have : freeArrows (ts ++ [⟨.rule .ArgumentList, p, q⟩]) = [] := by
      unfold freeArrows
      rw [List.filter_eq_nil_iff]
      intro t ht
      rcases List.mem_append.mp ht with ht | ht
      · have hb := h.span t ht
        have : [(⟨.rule .ArgumentList, p, q⟩ : Tok)].any t.args = true := by simp [Tok.args, hb.1, hb.2.2]
        rw [List.any_append, this]; simp
      · rw [List.mem_singleton.mp ht]; simp
    rw [this]; rfl
  ids := by rw [identTexts_append, ← h.ids]; simp [identTexts]

/-- One more arrow. -/
theorem Writes.arrow {s p q ts ns es k} (h : Writes s p q ts ns es k) (hpq : p < q) (hn : ∀ t ∈ ts, t.kind ≠ .rule .ArgumentList) :
    Writes s p q (ts ++ [⟨.rule .JsonReference, p, q⟩]) ns es (k + 1) where
  le := h.le
  span := by
    intro t ht
    rcases List.mem_append.mp ht with ht | ht
    · exact h.span t ht
    · rw [List.mem_singleton.mp ht]; exact ⟨Nat.le_refl _, h.le, Nat.le_refl _⟩
  json := by
    intro t ht hk
    rcases List.mem_append.mp ht with ht | ht
    · exact h.json t ht hk
    · rw [List.mem_singleton.mp ht]; exact hpq
  eff := by rw [List.filterMap_append]; exact (List.append_nil _).symm ▸ h.eff
  leaf := by
    intro e
    rw [captured_append]
    have : captured s [⟨.rule .JsonReference, p, q⟩] = [] := rfl
    rw [this, List.append_nil]
    exact h.leaf e
  count := by
    have hall : ∀ t : Tok, ∀ us : List Tok, (∀ a ∈ us, a.kind ≠ .rule .ArgumentList) → us.any t.args = false := by
      intro t us hu
      rw [List.any_eq_false]
      intro a ha
      simp [Tok.args, hu a ha]
    have hn' : ∀ a ∈ ts ++ [(⟨.rule .JsonReference, p, q⟩ : Tok)], a.kind ≠ .rule .ArgumentList := by
      intro a ha
      rcases List.mem_append.mp ha with ha | ha
      · exact hn a ha
      · rw [List.mem_singleton.mp ha]; nofun
    have e : freeArrows (ts ++ [⟨.rule .JsonReference, p, q⟩]) = freeArrows ts ++ [⟨.rule .JsonReference, p, q⟩] := by
      unfold freeArrows
      rw [List.filter_append]
      congr 1
      · apply List.filter_congr
        intro t _
        rw [hall t _ hn', hall t _ hn]
      · rw [List.filter_cons, hall _ _ hn']; simp
    rw [e, List.length_append, h.count]; rfl
  ids := by rw [identTexts_append, ← h.ids]; simp [identTexts]

/-! ## The rules -/

/-- The expression consists of characters and blanks. -/
def PExp.calm : PExp → Bool
  | .seq a b | .alt a b | .sw _ a b => a.calm && b.calm
  | .star a | .opt a => a.calm
  | .act _ | .txt _ => false
  | .call r => decide (r ∈ [Rule.sp, .sp1, .SpaceComment, .Space, .Comment, .EndOfLine, .EndOfFile])
  | _ => true

/-- What the tokens of a rule do. -/
def LPost (s : Str) : Rule → Nat → Nat → List Tok → Prop
  | .EndOfLine, _, _, ts | .EndOfFile, _, _, ts | .Comment, _, _, ts | .Space, _, _, ts | .SpaceComment, _, _, ts | .sp, _, _, ts | .sp1, _, _, ts => Still ts
  | .Compare, p, q, ts | .Logic, p, q, ts | .Match, p, q, ts => ∃ o, Writes s p q ts [.op o] [] 0
  | .Integer, p, q, ts | .Boolean, p, q, ts | .Null, p, q, ts | .String, p, q, ts | .Literal, p, q, ts | .Array, p, q, ts | .Value, p, q, ts =>
    ∃ n es, Writes s p q ts [n] es 0
  | .Identifier, p, q, ts => (∃ x, Writes s p q ts [.ident x] [] 0) ∧ ∀ t ∈ ts, t.kind ≠ .rule .ArgumentList
  | .IdentifierReference, p, q, ts => ∃ l, Writes s p q ts [.ref l] [] 0
  | .JsonReference, p, q, ts => (∃ ns k, Writes s p q ts ns [] k ∧ ns.length = k + 1) ∧ ∀ t ∈ ts, t.kind ≠ .rule .ArgumentList
  | .ArgumentList, p, q, ts => ∃ ns es, Writes s p q ts [.arr ns] es 0
  | _, p, q, ts => ∃ ns es k, Writes s p q ts ns es k ∧ ns.length = k + 1

/-- The induction predicate. -/
def LP (s : Str) (x : Rule) (p q : Nat) (ts : List Tok) : Prop := Deriv s (.call x) p q ts ∧ LPost s x p q ts

theorem LP.still {s x p q ts} (h : LP s x p q ts) (hx : x ∈ [Rule.sp, .sp1, .SpaceComment, .Space, .Comment, .EndOfLine, .EndOfFile]) : Still ts := by
  have h := h.2
  simp only [List.mem_cons, List.not_mem_nil, or_false] at hx
  rcases hx with rfl | rfl | rfl | rfl | rfl | rfl | rfl <;> exact h

theorem LP.blank {s x p q ts} (h : LP s x p q ts) (hx : x ∈ [Rule.sp, .sp1, .SpaceComment, .Space, .Comment, .EndOfLine, .EndOfFile]) : Writes s p q ts [] [] 0 :=
  (h.still hx).writes h.1.le h.1.span

theorem LP.sp {s p q ts} (h : LP s .sp p q ts) : Writes s p q ts [] [] 0 := h.blank (by decide)

theorem still_of_calm {s : Str} : ∀ e, e.calm = true → ∀ p q ts, DSat s (LP s) e p q ts → Still ts := by
  intro e
  induction e with
  | seq a b iha ihb =>
    intro hq
    obtain ⟨h1, h2⟩ := Bool.and_eq_true_iff.mp hq
    rintro p q ts ⟨m, us, vs, ha, hb, rfl⟩
    exact (iha h1 _ _ _ ha).append (ihb h2 _ _ _ hb)
  | alt a b iha ihb | sw cs a b iha ihb =>
    intro hq
    obtain ⟨h1, h2⟩ := Bool.and_eq_true_iff.mp hq
    rintro p q ts (h | h)
    · exact iha h1 _ _ _ h
    · exact ihb h2 _ _ _ h
  | star a iha =>
    intro hq p q ts h
    replace h : DIter (DSat s (LP s) a) p q ts := h
    induction h with
    | nil => exact .nil
    | cons h1 _ ih => exact (iha hq _ _ _ h1).append ih
  | opt a iha =>
    rintro hq p q ts (h | ⟨rfl, _⟩)
    · exact iha hq _ _ _ h
    · exact .nil
  | call x => intro hq p q ts h; exact LP.still h (of_decide_eq_true hq)
  | txt a _ => intro hq; cases hq
  | act k => intro hq; cases hq
  | _ => rintro _ p q ts ⟨rfl, _⟩; exact .nil

theorem satG_of {e : PExp} {s ev r} (h : Big G e s (some (ev, r))) : SatG e s ev r :=
  Big.sat (P := Post) (fun _ _ _ _ h _ => post_all h) h _ _ rfl

/-- An operator and the blanks after it. -/
theorem writes_op {s : Str} {e : PExp} {k p m q ts us} (hk : k ∈ [3, 6, 15, 16, 17, 18, 19, 20]) (hc : e.calm = true)
    (he : ∀ s ev r, SatG e s ev r → ∃ u, s = u ++ r ∧ Shows u (.op (normOp u)))
    (h : DSat s (LP s) (.txt e) p m ts) (hu : LP s .sp m q us) : ∃ o, Writes s p q (ts ++ us ++ [⟨.act k, q, q⟩]) [.op o] [] 0 := by
  obtain ⟨ws, hw, rfl, hd⟩ := h
  obtain ⟨u, h1, h2⟩ := he _ _ _ (satG_of hd.big)
  have hsl := hd.slice h1
  have := Writes.leafNode (still_of_calm e hc _ _ _ hw) (hu.still (by decide)) hd.le hu.1.le hd.span hu.1.span (by rw [hsl]; exact eff_op hk rfl)
    (fun _ => by rw [hsl]; exact h2) rfl (.inl ⟨rfl, rfl⟩)
  exact ⟨normOp u, by simpa using this⟩

/-- An operator with the blanks around it. -/
theorem writes_opRule {s : Str} {L : Rule} {e : PExp} {k p q ts} (hL : L ∈ [Rule.sp, .sp1, .SpaceComment, .Space, .Comment, .EndOfLine, .EndOfFile])
    (hk : k ∈ [3, 6, 15, 16, 17, 18, 19, 20]) (hc : e.calm = true)
    (he : ∀ s ev r, SatG e s ev r → ∃ u, s = u ++ r ∧ Shows u (.op (normOp u)))
    (h : DSat s (LP s) (PExp.seqs [.call L, .txt e, .call .sp, .act k]) p q ts) : ∃ o, Writes s p q ts [.op o] [] 0 := by
  obtain ⟨m, us, vs, h1, ⟨m2, us2, vs2, h2, ⟨m3, us3, vs3, h3, ⟨rfl, rfl⟩, rfl⟩, rfl⟩, rfl⟩ := h
  obtain ⟨o, ho⟩ := writes_op hk hc he h2 h3
  exact ⟨o, by have := (LP.blank h1 hL).append ho; simpa using this⟩

theorem shows_cmp {e : PExp} (h : ∀ s ev r, SatG e s ev r → ev = [] ∧ ∃ u, s = u ++ r ∧ CmpOp u (normOp u) ∧ Closed u false) :
    ∀ s ev r, SatG e s ev r → ∃ u, s = u ++ r ∧ Shows u (.op (normOp u)) :=
  fun s ev r hs => have ⟨_, u, h1, h2, _⟩ := h s ev r hs; ⟨u, h1, .op (.inl h2)⟩
theorem shows_logic {e : PExp} (h : ∀ s ev r, SatG e s ev r → ev = [] ∧ ∃ u, s = u ++ r ∧ LogicOp u (normOp u) ∧ Closed u false) :
    ∀ s ev r, SatG e s ev r → ∃ u, s = u ++ r ∧ Shows u (.op (normOp u)) :=
  fun s ev r hs => have ⟨_, u, h1, h2, _⟩ := h s ev r hs; ⟨u, h1, .op (.inr (.inl h2))⟩

theorem lpost_Compare {s p q ts} (h : DSat s (LP s) gCompare p q ts) : ∃ o, Writes s p q ts [.op o] [] 0 := by
  rcases h with h | h | h
  · exact writes_opRule (by decide) (by decide) rfl (shows_cmp fun _ _ _ => sat_gCmpSym) h
  · exact writes_opRule (by decide) (by decide) rfl (shows_cmp fun _ _ _ => sat_gCmpWord) h
  · exact writes_opRule (by decide) (by decide) rfl (shows_cmp fun _ _ _ => sat_gCmpLike) h

theorem lpost_Logic {s p q ts} (h : DSat s (LP s) gLogic p q ts) : ∃ o, Writes s p q ts [.op o] [] 0 := by
  rcases h with h | h
  · exact writes_opRule (by decide) (by decide) rfl (shows_logic fun _ _ _ => sat_gLogicWord) h
  · exact writes_opRule (by decide) (by decide) rfl (shows_logic fun _ _ _ => sat_gLogicSym) h

theorem lpost_Match {s p q ts} (h : DSat s (LP s) gMatch p q ts) : ∃ o, Writes s p q ts [.op o] [] 0 :=
  writes_opRule (by decide) (by decide) rfl
    (fun _ _ _ hs => have ⟨_, u, h1, h2, _⟩ := sat_gMatchOp hs; ⟨u, h1, .op (.inr (.inr (.inl h2)))⟩) h

/-- A literal. -/
theorem writes_lit {s : Str} {e : PExp} {k p q ts} (hc : e.calm = true)
    (he : ∀ s ev r, SatG e s ev r → ∃ u n es, s = u ++ r ∧ Eff [.text u, .act k] [n] es ∧ (es = [] → Shows u n) ∧ atoms n = [n] ∧ names n = [])
    (h : DSat s (LP s) (.txt e) p q ts) : ∃ n es, Writes s p q (ts ++ [⟨.act k, q, q⟩]) [n] es 0 := by
  obtain ⟨ws, hw, rfl, hd⟩ := h
  obtain ⟨u, n, es, h1, h2, h3, h4, h5⟩ := he _ _ _ (satG_of hd.big)
  have hsl := hd.slice h1
  have := Writes.leafNode (us := []) (still_of_calm e hc _ _ _ hw) .nil hd.le (Nat.le_refl q) hd.span (by intro t ht; cases ht) (by rw [hsl]; exact h2)
    (fun h => by rw [hsl]; exact h3 h) h4 (.inl ⟨rfl, h5⟩)
  exact ⟨n, es, by simpa using this⟩

theorem lpost_Integer {s p q ts} (h : DSat s (LP s) gInteger p q ts) : ∃ n es, Writes s p q ts [n] es 0 := by
  obtain ⟨m, us, vs, h1, ⟨rfl, rfl⟩, rfl⟩ := h
  refine writes_lit rfl ?_ h1
  intro s ev r h3
  have key : ∃ u, s = u ++ r ∧ (∀ c ∈ u, c.isDigit) ∧ Nat.toDigits 10 (decValue 0 u) = u := by
    rcases h3 with ⟨rfl, rfl⟩ | ⟨_, e5, r5, e6, ⟨rfl, c, rfl, h5, h5'⟩, ⟨h6, _⟩, rfl⟩
    · exact ⟨['0'], rfl, by decide, by decide⟩
    · obtain ⟨rfl, u, rfl, hu⟩ := iter_digits h6
      have h5 : 49 ≤ c.toNat := h5
      have h5' : c.toNat ≤ 57 := h5'
      have hcd : c.isDigit := (isDigit_iff _).mpr ⟨by omega, h5'⟩
      have hc0 : c ≠ '0' := char_ne_of_toNat (by show c.toNat ≠ 48; omega)
      refine ⟨c :: u, rfl, ?_, toDigits_decValue_pos hcd hc0 hu⟩
      intro d hd
      rcases List.mem_cons.mp hd with rfl | hd
      · exact hcd
      · exact hu d hd
  obtain ⟨u, rfl, hd, hc⟩ := key
  refine ⟨u, _, _, rfl, eff_int u, ?_, rfl, rfl⟩
  intro hes
  generalize hn : (.int (atoi u).1 : Node) = n
  have hl := lit_int hd hc (by simpa using hes)
  rw [hn] at hl
  cases hl with
  | int hk => exact .int hk
  | _ => cases hn

theorem lpost_Boolean {s p q ts} (h : DSat s (LP s) gBoolean p q ts) : ∃ n es, Writes s p q ts [n] es 0 := by
  obtain ⟨m, us, vs, h1, ⟨rfl, rfl⟩, rfl⟩ := h
  refine writes_lit rfl ?_ h1
  intro s ev r h3
  rcases h3 with ⟨_, h⟩ | ⟨_, ⟨_, h⟩ | ⟨_, ⟨_, h⟩ | ⟨_, h⟩⟩⟩ <;> obtain ⟨rfl, rfl⟩ := sat_lit h
  · exact ⟨_, _, _, rfl, eff_bool c!"FALSE", fun _ => .fls (.inr rfl), rfl, rfl⟩
  · exact ⟨_, _, _, rfl, eff_bool c!"TRUE", fun _ => .tru (.inr rfl), rfl, rfl⟩
  · exact ⟨_, _, _, rfl, eff_bool c!"false", fun _ => .fls (.inl rfl), rfl, rfl⟩
  · exact ⟨_, _, _, rfl, eff_bool c!"true", fun _ => .tru (.inl rfl), rfl, rfl⟩

theorem lpost_Null {s p q ts} (h : DSat s (LP s) gNull p q ts) : ∃ n es, Writes s p q ts [n] es 0 := by
  obtain ⟨m, us, vs, h1, ⟨rfl, rfl⟩, rfl⟩ := h
  refine writes_lit rfl ?_ h1
  intro s ev r h3
  rcases h3 with h | ⟨_, h⟩ <;> obtain ⟨rfl, rfl⟩ := sat_lit h
  · exact ⟨_, _, _, rfl, eff_null _, fun _ => .null (.inl rfl), rfl, rfl⟩
  · exact ⟨_, _, _, rfl, eff_null _, fun _ => .null (.inr rfl), rfl, rfl⟩

/-- Between two characters. -/
theorem Writes.widen {s p q p' q' ts ns es k} (h : Writes s p q ts ns es k) (h1 : p' ≤ p) (h2 : q ≤ q') : Writes s p' q' ts ns es k :=
  ⟨by have := h.le; omega, fun t ht => by have := h.span t ht; omega, h.json, h.eff, h.leaf, h.count, h.ids⟩

theorem lpost_String {s p q ts} (h : DSat s (LP s) gString p q ts) : ∃ n es, Writes s p q ts [n] es 0 := by
  have key : ∀ (c : Char) (k : Nat), k = 28 ∨ k = 29 → DSat s (LP s) (PExp.seqs [.chr c, .txt (gStrBody c), .chr c, .act k]) p q ts →
      ∃ n es, Writes s p q ts [n] es 0 := by
    rintro c k hk ⟨m, us, vs, ⟨rfl, _, rfl⟩, ⟨m2, us2, vs2, ⟨ws, hw, rfl, hd⟩, ⟨m3, us3, vs3, ⟨rfl, _, rfl⟩, ⟨rfl, rfl⟩, rfl⟩, rfl⟩, rfl⟩
    have hs : SatG (gStrBody c) _ _ _ := satG_of hd.big
    obtain ⟨_, u, h1, _⟩ := iter_strBody hs.1
    have hsl := hd.slice h1
    have := Writes.leafNode (us := []) (q := m2 + 1) (a := k) (still_of_calm (gStrBody c) rfl _ _ _ hw) .nil hd.le (Nat.le_succ _) hd.span
      (by intro t ht; cases ht) (by rw [hsl]; exact eff_str hk) (fun _ => by rw [hsl]; exact .str) rfl (.inl ⟨rfl, rfl⟩)
    exact ⟨_, _, by simpa using this.widen (Nat.le_succ p) (Nat.le_refl _)⟩
  rcases h with h | h
  · exact key _ _ (.inl rfl) h
  · exact key _ _ (.inr rfl) h

/-! ## Lists -/

theorem leavesL_arr (ns : List Node) : atomsL [.arr ns] = atomsL ns := by simp [atomsL, atoms]

/-- A single character writes nothing. -/
theorem writes_chr (s : Str) (p : Nat) : Writes s p (p + 1) [] [] [] 0 := (Writes.nil s p).widen (Nat.le_refl _) (Nat.le_succ _)

theorem iter_writes {s : Str} {x : Rule} {z : Prop} {p q ts}
    (hx : ∀ p q ts, LP s x p q ts → ∃ ns es k, Writes s p q ts ns es k ∧ (z → k = 0))
    (h : DIter (DSat s (LP s) (PExp.seqs [.call .sp, .chr ',', .call .sp, .call x])) p q ts) : ∃ ns es k, Writes s p q ts ns es k ∧ (z → k = 0) := by
  induction h with
  | nil => exact ⟨_, _, _, .nil s _, fun _ => rfl⟩
  | cons h _ ih =>
    obtain ⟨m, us, vs, h1, ⟨m2, us2, vs2, ⟨rfl, _, rfl⟩, ⟨m3, us3, vs3, h3, h4, rfl⟩, rfl⟩, rfl⟩ := h
    obtain ⟨ns, es, k, hw, hz⟩ := hx _ _ _ h4
    obtain ⟨ns', es', k', hw', hz'⟩ := ih
    have := ((LP.sp h1).append ((writes_chr s m).append ((LP.sp h3).append hw))).append hw'
    exact ⟨_, _, _, this, fun h => by rw [hz h, hz' h]⟩

theorem writes_items {s : Str} {x : Rule} {z : Prop} {p q ts}
    (hx : ∀ p q ts, LP s x p q ts → ∃ ns es k, Writes s p q ts ns es k ∧ (z → k = 0))
    (h : DSat s (LP s) (gItems x) p q ts) : ∃ ns es k, Writes s p q ts ns es k ∧ (z → k = 0) := by
  rcases h with ⟨m, us, vs, h1, ⟨m2, us2, vs2, h2, ⟨m3, us3, vs3, h3, h4, rfl⟩, rfl⟩, rfl⟩ | ⟨rfl, rfl⟩
  · obtain ⟨n1, e1, k1, w1, z1⟩ := hx _ _ _ h1
    obtain ⟨n2, e2, k2, w2, z2⟩ := iter_writes hx h2
    have w4 : Writes s m3 q vs3 [] [] 0 := by
      rcases h4 with ⟨rfl, _, rfl⟩ | ⟨rfl, rfl⟩
      · exact writes_chr _ _
      · exact .nil _ _
    exact ⟨_, _, _, w1.append (w2.append ((LP.sp h3).append w4)), fun h => by rw [z1 h, z2 h]⟩
  · exact ⟨_, _, _, .nil _ _, fun _ => rfl⟩

/-- A mark, items, and the array made of them. -/
theorem writes_arr {s : Str} {p q ts ns es k a b} (hab : (a, b) ∈ [(10, 11), (21, 22), (23, 24)]) (h : Writes s p q ts ns es k) :
    Writes s p q ([⟨.act a, p, p⟩] ++ ts ++ [⟨.act b, q, q⟩]) [.arr ns] es k where
  le := h.le
  span := by
    intro t ht
    have := h.le
    simp only [List.mem_append, List.mem_singleton] at ht
    rcases ht with (rfl | ht) | rfl
    · exact ⟨Nat.le_refl _, Nat.le_refl _, this⟩
    · exact h.span t ht
    · exact ⟨this, Nat.le_refl _, Nat.le_refl _⟩
  json := by
    intro t ht hk
    simp only [List.mem_append, List.mem_singleton] at ht
    rcases ht with (rfl | ht) | rfl
    · cases hk
    · exact h.json t ht hk
    · cases hk
  eff := by
    have := eff_arr hab h.eff
    simpa [evOf] using this
  leaf := by
    intro e
    rw [leavesL_arr, captured_append, captured_append]
    have h1 : captured s [⟨.act a, p, p⟩] = [] := rfl
    have h2 : captured s [⟨.act b, q, q⟩] = [] := rfl
    rw [h1, h2, List.append_nil, List.nil_append]
    exact h.leaf e
  count := by
    rw [freeArrows_dull ⟨by simp, by simp⟩]
    have : freeArrows ([⟨.act a, p, p⟩] ++ ts) = freeArrows ts := by
      have h0 : ∀ t : Tok, [(⟨.act a, p, p⟩ : Tok)].any t.args = false := by intro t; simp [Tok.args]
      unfold freeArrows
      rw [List.filter_append]
      have h1 : [(⟨.act a, p, p⟩ : Tok)].filter (fun t => decide (t.kind = .rule .JsonReference) && !(([(⟨.act a, p, p⟩ : Tok)] ++ ts).any t.args)) = [] := by simp
      rw [h1, List.nil_append]
      apply List.filter_congr
      intro t _
      rw [List.any_append, h0, Bool.false_or]
    rw [this]; exact h.count
  ids := by
    rw [identTexts_append, identTexts_append]
    simp [identTexts, namesL, names]
    exact h.ids

theorem lpost_Array {s p q ts} (h : DSat s (LP s) gArray p q ts) : ∃ n es, Writes s p q ts [n] es 0 := by
  have key : ∀ (c d : Char) (a b : Nat), (a, b) ∈ [(10, 11), (21, 22), (23, 24)] →
      DSat s (LP s) (PExp.seqs [.chr c, .act a, .call .sp, gItems .Literal, .call .sp, .chr d, .act b]) p q ts → ∃ n es, Writes s p q ts [n] es 0 := by
    rintro c d a b hab ⟨m, us, vs, ⟨rfl, _, rfl⟩, ⟨m2, us2, vs2, ⟨rfl, rfl⟩, ⟨m3, us3, vs3, h3, ⟨m4, us4, vs4, h4, ⟨m5, us5, vs5, h5,
      ⟨m6, us6, vs6, ⟨rfl, _, rfl⟩, ⟨rfl, rfl⟩, rfl⟩, rfl⟩, rfl⟩, rfl⟩, rfl⟩, rfl⟩
    obtain ⟨ns, es, k, hw, hz⟩ := writes_items (x := .Literal) (z := True)
      (fun _ _ _ h => let ⟨n, es, hw⟩ : ∃ n es, Writes s _ _ _ [n] es 0 := h.2; ⟨[n], es, 0, hw, fun _ => rfl⟩) h4
    obtain rfl := hz trivial
    have := writes_arr hab ((LP.sp h3).append (hw.append ((LP.sp h5).append (writes_chr s m5))))
    exact ⟨_, _, by simpa using this.widen (Nat.le_succ p) (Nat.le_refl _)⟩
  rcases h with h | h
  · exact key _ _ _ _ (by decide) h
  · exact key _ _ _ _ (by decide) h

theorem lpost_ArgumentList {s p q ts} (h : DSat s (LP s) gArgumentList p q ts) : ∃ ns es k, Writes s p q ts [.arr ns] es k := by
  obtain ⟨m, us, vs, ⟨rfl, _, rfl⟩, ⟨m2, us2, vs2, h2, ⟨m3, us3, vs3, ⟨rfl, rfl⟩, ⟨m4, us4, vs4, h4, ⟨m5, us5, vs5, h5,
      ⟨m6, us6, vs6, ⟨rfl, _, rfl⟩, ⟨rfl, rfl⟩, rfl⟩, rfl⟩, rfl⟩, rfl⟩, rfl⟩, rfl⟩ := h
  obtain ⟨ns, es, k, hw, _⟩ := writes_items (x := .Argument) (z := False)
      (fun _ _ _ h => have ⟨ns, es, k, hw, _⟩ : ∃ ns es k, Writes s _ _ _ ns es k ∧ ns.length = k + 1 := h.2; ⟨ns, es, k, hw, False.elim⟩) h4
  have := (LP.sp h2).append (writes_arr (a := 10) (b := 11) (by decide) (hw.append ((LP.sp h5).append (writes_chr s m5))))
  exact ⟨_, _, _, by simpa using this.widen (Nat.le_succ p) (Nat.le_refl _)⟩

/-! ## Names -/

theorem lpost_Identifier {s p q ts} (hd : Deriv s (.call .Identifier) p q (ts ++ [⟨.rule .Identifier, p, q⟩])) (h : DSat s (LP s) gIdentifier p q ts) :
    (∃ x, Writes s p q (ts ++ [⟨.rule .Identifier, p, q⟩]) [.ident x] [] 0) ∧ ∀ t ∈ ts, t.kind ≠ .rule .ArgumentList := by
  obtain ⟨m, us, vs, ⟨rfl, rfl⟩, ⟨m2, us2, vs2, ⟨ws, hw, rfl, hd'⟩, ⟨rfl, rfl⟩, rfl⟩, rfl⟩ := h
  obtain ⟨u, hu, hi, _⟩ : Post .Identifier _ _ _ := post_all hd.big
  have hsl := hd'.slice hu
  have hst := still_of_calm (.seq gIdHead (.star gIdTail)) rfl _ _ _ hw
  have := Writes.leafNode (us := []) (q := m2) (a := 14) hst .nil hd'.le (Nat.le_refl _) hd'.span
      (by intro t ht; cases ht) (by rw [hsl]; exact eff_name u) (fun _ => by rw [hsl]; exact .name hi) rfl
      (.inr ⟨rfl, rfl, by rw [hsl]; rfl⟩)
  refine ⟨⟨u, by simpa using this⟩, ?_⟩
  intro t ht
  simp only [List.nil_append, List.mem_append, List.mem_singleton] at ht
  rcases ht with (ht | rfl) | rfl
  · exact (hst.dull t ht).2
  · nofun
  · nofun

theorem iter_names {s : Str} {p q ts} (h : DIter (DSat s (LP s) (.seq (.chr '.') (.call .Identifier))) p q ts) :
    ∃ l : List Str, Writes s p q ts (l.map .ident) [] 0 := by
  induction h with
  | nil => exact ⟨[], .nil s _⟩
  | cons h _ ih =>
    obtain ⟨m, us, vs, ⟨rfl, _, rfl⟩, h2, rfl⟩ := h
    obtain ⟨⟨x, hx⟩, _⟩ : LPost s .Identifier _ _ _ := h2.2
    obtain ⟨l, hl⟩ := ih
    exact ⟨x :: l, by have := (hx.widen (Nat.le_succ _) (Nat.le_refl _)).append hl; simpa using this⟩

theorem leavesL_idents (l : List Str) : atomsL (l.map .ident) = l.map .ident := by
  induction l with
  | nil => rfl
  | cons x l ih => simp [atomsL, atoms, ih]

theorem namesL_idents (l : List Str) : namesL (l.map .ident) = l := by
  induction l with
  | nil => rfl
  | cons x l ih => simp [namesL, names, ih]

theorem lpost_IdentifierReference {s p q ts} (h : DSat s (LP s) gIdentifierReference p q ts) : ∃ l, Writes s p q ts [.ref l] [] 0 := by
  obtain ⟨m, us, vs, ⟨rfl, rfl⟩, ⟨m2, us2, vs2, h2, ⟨m3, us3, vs3, ⟨rfl, _, rfl⟩, ⟨m4, us4, vs4, h4, ⟨m5, us5, vs5, h5, ⟨rfl, rfl⟩, rfl⟩, rfl⟩, rfl⟩,
    rfl⟩, rfl⟩ := h
  obtain ⟨⟨a, ha⟩, _⟩ : LPost s .Identifier _ _ _ := h2.2
  obtain ⟨⟨b, hb⟩, _⟩ : LPost s .Identifier _ _ _ := h4.2
  obtain ⟨l, hl⟩ := iter_names h5
  have hw := ha.append ((writes_chr s m2).append (hb.append hl))
  refine ⟨a :: b :: l, ?_⟩
  have hw' : Writes s p m5 (us2 ++ ([] ++ (us4 ++ us5))) ((a :: b :: l).map .ident) [] 0 := by simpa using hw
  have : Writes s p m5 ([⟨.act 12, p, p⟩] ++ (us2 ++ ([] ++ (us4 ++ us5))) ++ [⟨.act 13, m5, m5⟩]) [.ref (a :: b :: l)] [] 0 := by
    have ha := writes_arr (a := 10) (b := 11) (by decide) hw'
    refine ⟨ha.le, ?_, ?_, ?_, ?_, ?_, ?_⟩
    · intro t ht
      have := hw'.le
      simp only [List.mem_append, List.mem_singleton] at ht
      rcases ht with (rfl | ht) | rfl
      · exact ⟨Nat.le_refl _, Nat.le_refl _, this⟩
      · exact hw'.span t (by simpa using ht)
      · exact ⟨this, Nat.le_refl _, Nat.le_refl _⟩
    · intro t ht hk
      simp only [List.mem_append, List.mem_singleton] at ht
      rcases ht with (rfl | ht) | rfl
      · cases hk
      · exact hw'.json t (by simpa using ht) hk
      · cases hk
    · have := eff_ref hw'.eff
      simpa [evOf] using this
    · intro _
      have e : captured s ([⟨.act 12, p, p⟩] ++ (us2 ++ ([] ++ (us4 ++ us5))) ++ [⟨.act 13, m5, m5⟩]) = captured s (us2 ++ ([] ++ (us4 ++ us5))) := by
        simp [captured]
      have hl := hw'.leaf rfl
      rw [leavesL_idents] at hl
      rw [e]
      simpa [atomsL, atoms] using hl
    · have e : ∀ c d : Nat, ∀ ts : List Tok, (freeArrows ([⟨.act c, p, p⟩] ++ ts ++ [⟨.act d, m5, m5⟩])).length = (freeArrows ts).length := by
        intro c d ts
        simp [freeArrows, Tok.args]
      rw [e]; exact hw'.count
    · have e : identTexts s ([⟨.act 12, p, p⟩] ++ (us2 ++ ([] ++ (us4 ++ us5))) ++ [⟨.act 13, m5, m5⟩]) = identTexts s (us2 ++ ([] ++ (us4 ++ us5))) := by
        simp [identTexts]
      rw [e, hw'.ids, namesL_idents]
      simp [namesL, names]
  simpa using this

theorem lpost_JsonReference {s p q ts} (h : DSat s (LP s) gJsonReference p q ts) :
    (∃ ns k, Writes s p q ts ns [] k ∧ ns.length = k + 2) ∧ p < q ∧ ∀ t ∈ ts, t.kind ≠ .rule .ArgumentList := by
  obtain ⟨m, us, vs, h1, ⟨m2, us2, vs2, ⟨rfl, _, rfl⟩, ⟨m3, us3, vs3, ⟨rfl, _, rfl⟩, h4, rfl⟩, rfl⟩, rfl⟩ := h
  obtain ⟨⟨a, ha⟩, na⟩ : LPost s .Identifier _ _ _ := h1.2
  have : (∃ ns k, Writes s (m + 1 + 1) q vs ns [] k ∧ ns.length = k + 1) ∧ ∀ t ∈ vs, t.kind ≠ .rule .ArgumentList := by
    rcases h4 with h | h
    · exact h.2
    · obtain ⟨⟨b, hb⟩, nb⟩ : LPost s .Identifier _ _ _ := h.2
      exact ⟨⟨_, _, hb, rfl⟩, nb⟩
  obtain ⟨⟨ns, k, hw, hl⟩, hn⟩ := this
  refine ⟨⟨_, _, ha.append ((writes_chr s m).append ((writes_chr s (m + 1)).append hw)), ?_⟩, ?_, ?_⟩
  · simp [hl]
  · have := ha.le; have := hw.le; omega
  · intro t ht
    simp only [List.mem_append] at ht
    rcases ht with ht | ht
    · exact na t ht
    · exact hn t ht

theorem dsat_le {s : Str} : ∀ e p q ts, DSat s (LP s) e p q ts → p ≤ q := by
  intro e
  induction e with
  | eps | notP _ _ => rintro p q ts ⟨_, rfl⟩; exact Nat.le_refl _
  | any => rintro p q ts ⟨_, rfl⟩; exact Nat.le_succ _
  | chr c => rintro p q ts ⟨_, _, rfl⟩; exact Nat.le_succ _
  | rng lo hi => rintro p q ts ⟨_, rfl, _⟩; exact Nat.le_succ _
  | seq a b iha ihb => rintro p q ts ⟨m, us, vs, ha, hb, _⟩; exact Nat.le_trans (iha _ _ _ ha) (ihb _ _ _ hb)
  | alt a b iha ihb | sw cs a b iha ihb =>
    rintro p q ts (h | h)
    · exact iha _ _ _ h
    · exact ihb _ _ _ h
  | star a iha =>
    intro p q ts h
    replace h : DIter (DSat s (LP s) a) p q ts := h
    induction h with
    | nil => exact Nat.le_refl _
    | cons h1 _ ih => exact Nat.le_trans (iha _ _ _ h1) ih
  | opt a iha =>
    rintro p q ts (h | ⟨_, rfl⟩)
    · exact iha _ _ _ h
    · exact Nat.le_refl _
  | call x => intro p q ts h; exact h.1.le
  | txt a _ => rintro p q ts ⟨_, _, _, h⟩; exact h.le
  | act k => rintro p q ts ⟨_, rfl⟩; exact Nat.le_refl _

/-! ## Expressions -/

/-- The tokens of an expression: one node more than there are arrows. -/
def Stacks (s : Str) (p q : Nat) (ts : List Tok) : Prop := ∃ ns es k, Writes s p q ts ns es k ∧ ns.length = k + 1

theorem lpost_Reference {s p q ts} (h : DSat s (LP s) gReference p q ts) : Stacks s p q ts := by
  rcases h with h | h | h
  · obtain ⟨l, hl⟩ := h.2; exact ⟨_, _, _, hl, rfl⟩
  · obtain ⟨⟨ns, k, hw, hl⟩, _⟩ := h.2; exact ⟨_, _, _, hw, hl⟩
  · obtain ⟨⟨x, hx⟩, _⟩ := h.2; exact ⟨_, _, _, hx, rfl⟩

theorem lpost_Primary {s p q ts} (h : DSat s (LP s) gPrimaryExpression p q ts) : Stacks s p q ts := by
  rcases h with h | h | h | h
  · obtain ⟨m, us, vs, ⟨rfl, _, rfl⟩, ⟨m2, us2, vs2, h2, ⟨m3, us3, vs3, h3, ⟨m4, us4, vs4, h4, ⟨m5, us5, vs5, ⟨rfl, _, rfl⟩, ⟨rfl, rfl⟩, rfl⟩, rfl⟩, rfl⟩, rfl⟩,
      rfl⟩ := h
    obtain ⟨ns, es, k, hw, hl⟩ : Stacks s _ _ _ := h3.2
    obtain ⟨ps, n, rfl⟩ := snoc (l := ns) (by intro e; rw [e] at hl; cases hl)
    have hw' : Writes s (p + 1) (m4 + 1) (us2 ++ (us3 ++ (us4 ++ []))) (ps ++ [n]) es k := by
      have := (LP.sp h2).append (hw.append ((LP.sp h4).append (writes_chr s m4))); simpa using this
    have := hw'.act 8 (fun e he => eff_act8 he) (by simp [atomsL_append, atomsL, atoms]) (by simp [namesL_append, namesL, names])
    exact ⟨_, _, _, by simpa using this.widen (Nat.le_succ p) (Nat.le_refl _), by simpa using hl⟩
  · obtain ⟨n, es, hw⟩ := h.2; exact ⟨_, _, _, hw, rfl⟩
  · obtain ⟨m, us, vs, h1, ⟨m2, us2, vs2, h2, ⟨rfl, rfl⟩, rfl⟩, rfl⟩ := h
    obtain ⟨⟨x, hx⟩, _⟩ : LPost s .Identifier _ _ _ := h1.2
    obtain ⟨ns, es, hw⟩ : LPost s .ArgumentList _ _ _ := h2.2
    have hw' : Writes s p m2 (us ++ us2) ([] ++ [.ident x, .arr ns]) es 0 := by have := hx.append hw; simpa using this
    have := hw'.act 9 (fun e he => eff_act9 he) (by simp [atomsL, atoms]) (by simp [namesL, names])
    exact ⟨_, _, _, by simpa using this, rfl⟩
  · exact h.2

theorem lpost_Between {s p q ts} (h : DSat s (LP s) gBetweenExpression p q ts) : Stacks s p q ts := by
  obtain ⟨m, us, vs, h1, h2, rfl⟩ := h
  obtain ⟨ns, es, k, hw, hl⟩ : Stacks s _ _ _ := h1.2
  rcases h2 with ⟨m2, us2, vs2, h2, ⟨m3, us3, vs3, ⟨ws, hws, rfl, hd⟩, ⟨m4, us4, vs4, ⟨rfl, rfl⟩, ⟨m5, us5, vs5, h5, ⟨m6, us6, vs6, h6, ⟨rfl, rfl⟩, rfl⟩, rfl⟩, rfl⟩,
    rfl⟩, rfl⟩ | ⟨rfl, rfl⟩
  · obtain ⟨ps, n, rfl⟩ := snoc (l := ns) (by intro e; rw [e] at hl; cases hl)
    obtain ⟨_, u, hu, hop, _⟩ := sat_gBetweenOp (satG_of hd.big)
    have hsl := hd.slice hu
    have wop := Writes.leafNode (us := []) (q := m3) (a := 6) (still_of_calm gBetweenOp rfl _ _ _ hws) .nil hd.le (Nat.le_refl _) hd.span
      (by intro t ht; cases ht) (by rw [hsl]; exact eff_op (u := u) (by decide) rfl) (fun _ => by rw [hsl]; exact .op (.inr (.inr (.inr (.inr hop))))) rfl
      (.inl ⟨rfl, rfl⟩)
    have hb : ∃ lo hi es', Writes s m5 m6 us6 [lo, hi] es' 0 := by
      rcases h6 with ⟨a1, b1, c1, g1, ⟨a2, b2, c2, g2, ⟨a3, b3, c3, g3, ⟨a4, b4, c4, g4, g5, rfl⟩, rfl⟩, rfl⟩, rfl⟩ |
        ⟨a1, b1, c1, ⟨rfl, _, rfl⟩, ⟨a2, b2, c2, g2, ⟨a3, b3, c3, g3, ⟨a4, b4, c4, g4, ⟨a5, b5, c5, ⟨rfl, _, rfl⟩, ⟨a6, b6, c6, g6, ⟨a7, b7, c7, g7,
          ⟨a8, b8, c8, g8, ⟨rfl, _, rfl⟩, rfl⟩, rfl⟩, rfl⟩, rfl⟩, rfl⟩, rfl⟩, rfl⟩, rfl⟩
      · obtain ⟨lo, e1, w1⟩ : LPost s .Value _ _ _ := g1.2
        obtain ⟨hi, e2, w2⟩ : LPost s .Value _ _ _ := g5.2
        have ha : Writes s a2 a3 b3 [] [] 0 := by
          have e := mute_nil (PExp.ciLit c!"and") rfl _ _ _ g3
          have hle := dsat_le (PExp.ciLit c!"and") _ _ _ g3
          rw [e]
          exact (Writes.nil s a2).widen (Nat.le_refl _) hle
        have := w1.append ((LP.sp g2).append (ha.append ((LP.sp g4).append w2)))
        exact ⟨lo, hi, _, by simpa using this⟩
      · obtain ⟨lo, e1, w1⟩ : LPost s .Value _ _ _ := g3.2
        obtain ⟨hi, e2, w2⟩ : LPost s .Value _ _ _ := g7.2
        have := (LP.sp g2).append (w1.append ((LP.sp g4).append ((writes_chr s a4).append ((LP.sp g6).append (w2.append ((LP.sp g8).append (writes_chr s a8)))))))
        exact ⟨lo, hi, _, by simpa using this.widen (Nat.le_succ _) (Nat.le_refl _)⟩
    obtain ⟨lo, hi, es', wb⟩ := hb
    have hall := hw.append ((LP.sp h2).append (wop.append ((LP.sp h5).append wb)))
    have hw' : Writes s p m6 (us ++ (us2 ++ ((ws ++ [⟨.text, m2, m3⟩] ++ [] ++ [⟨.act 6, m3, m3⟩]) ++ (us5 ++ us6)))) (ps ++ [n, .op (normOp u), lo, hi]) (es ++ es') k := by
      simpa using hall
    have := hw'.act 7 (fun e he => eff_act7 he) (by simp [atomsL_append, atomsL, atoms]) (by simp [namesL_append, namesL, names])
    exact ⟨_, _, _, by simpa using this, by simpa using hl⟩
  · exact ⟨ns, es, k, by simpa using hw, hl⟩

theorem lpost_Predicate {s p q ts} (h : DSat s (LP s) gPredicateExpression p q ts) : Stacks s p q ts := by
  obtain ⟨m, us, vs, h1, h2, rfl⟩ := h
  obtain ⟨ns, es, k, hw, hl⟩ : Stacks s _ _ _ := h1.2
  rcases h2 with ⟨m2, us2, vs2, h2, ⟨rfl, rfl⟩, rfl⟩ | ⟨rfl, rfl⟩
  · obtain ⟨ps, n, rfl⟩ := snoc (l := ns) (by intro e; rw [e] at hl; cases hl)
    obtain ⟨o, ho⟩ : LPost s .Match _ _ _ := h2.2
    have hw' : Writes s p m2 (us ++ us2) (ps ++ [n, .op o]) es k := by have := hw.append ho; simpa using this
    have := hw'.act 5 (fun e he => eff_act5 he) (by simp [atomsL_append, atomsL, atoms]) (by simp [namesL_append, namesL, names])
    exact ⟨_, _, _, by simpa using this, by simpa using hl⟩
  · exact ⟨ns, es, k, by simpa using hw, hl⟩

theorem lpost_CompareIn {s p q ts} (h : DSat s (LP s) gCompareInExpression p q ts) : Stacks s p q ts := by
  obtain ⟨m, us, vs, h1, h2, rfl⟩ := h
  obtain ⟨ns, es, k, hw, hl⟩ : Stacks s _ _ _ := h1.2
  rcases h2 with ⟨m2, us2, vs2, h2, ⟨m3, us3, vs3, h3, ⟨m4, us4, vs4, h4, ⟨m5, us5, vs5, ⟨rfl, rfl⟩, ⟨m6, us6, vs6, h6, ⟨rfl, rfl⟩, rfl⟩, rfl⟩, rfl⟩,
    rfl⟩, rfl⟩ | ⟨rfl, rfl⟩
  · obtain ⟨ps, n, rfl⟩ := snoc (l := ns) (by intro e; rw [e] at hl; cases hl)
    obtain ⟨o, ho⟩ := writes_op (k := 3) (by decide) rfl
      (fun _ _ _ hs => let ⟨_, u, h1, h2, _⟩ := sat_gInOp hs; ⟨u, h1, .op (.inr (.inr (.inr (.inl h2))))⟩) h3 h4
    obtain ⟨a, es', ha⟩ : LPost s .Array _ _ _ := h6.2
    have hall := hw.append ((LP.sp h2).append (ho.append ha))
    have hw' : Writes s p m6 (us ++ (us2 ++ ((us3 ++ us4 ++ [⟨.act 3, m4, m4⟩]) ++ us6))) (ps ++ [n, .op o, a]) (es ++ es') k := by
      simpa using hall
    have := hw'.act 4 (fun e he => eff_act4 he) (by simp [atomsL_append, atomsL, atoms]) (by simp [namesL_append, namesL, names])
    exact ⟨_, _, _, by simpa using this, by simpa using hl⟩
  · exact ⟨ns, es, k, by simpa using hw, hl⟩

/-- A chain of operators and operands. -/
theorem iter_chainW {s : Str} {opR x : Rule} {a p q ts} (mk : Node → Node → Node → Node)
    (hop : ∀ p q ts, LP s opR p q ts → ∃ o, Writes s p q ts [.op o] [] 0) (hx : ∀ p q ts, LP s x p q ts → Stacks s p q ts)
    (hred : ∀ e ns l o r es, Eff e (ns ++ [l, o, r]) es → Eff (e ++ [.act a]) (ns ++ [mk l o r]) es)
    (hlv : ∀ l o r, atoms (mk l o r) = atoms l ++ atoms o ++ atoms r) (hnm : ∀ l o r, names (mk l o r) = names l ++ names o ++ names r)
    (h : DIter (DSat s (LP s) (PExp.seqs [.call opR, .call x, .act a])) p q ts) :
    ∀ p0 ts0, Stacks s p0 p ts0 → Stacks s p0 q (ts0 ++ ts) := by
  induction h with
  | nil => intro p0 ts0 h; simpa using h
  | @cons p q r ts us h _ ih =>
    rintro p0 ts0 ⟨ns0, es0, k0, w0, l0⟩
    obtain ⟨m, us1, vs1, h1, ⟨m2, us2, vs2, h2, ⟨rfl, rfl⟩, rfl⟩, rfl⟩ := h
    obtain ⟨o, ho⟩ := hop _ _ _ h1
    obtain ⟨ns1, es1, k1, w1, l1⟩ := hx _ _ _ h2
    obtain ⟨ps, l, o', r, hsp, _⟩ := split3 (l := ns0) (m := ns1) (o := .op o) (by intro e; rw [e] at l0; cases l0) (by intro e; rw [e] at l1; cases l1)
    have hw : Writes s p0 m2 (ts0 ++ (us1 ++ us2)) (ps ++ [l, o', r]) (es0 ++ es1) (k0 + k1) := by
      have := w0.append (ho.append w1)
      rw [List.singleton_append, hsp] at this
      simpa using this
    have hlen := congrArg List.length hsp
    simp only [List.length_append, List.length_cons, List.length_nil, l0, l1] at hlen
    have := hw.act a (fun e he => hred _ _ _ _ _ _ he) (by simp [atomsL_append, atomsL, hlv]) (by simp [namesL_append, namesL, hnm])
    have := ih _ _ ⟨_, _, _, this, by simp; omega⟩
    simpa using this

theorem lpost_Compare' {s p q ts} (h : DSat s (LP s) gCompareExpression p q ts) : Stacks s p q ts := by
  obtain ⟨m, us, vs, h1, h2, rfl⟩ := h
  exact iter_chainW (opR := .Compare) (x := .CompareInExpression) .cmp (fun _ _ _ h => h.2) (fun _ _ _ h => h.2) (fun _ _ _ _ _ _ => eff_act2)
    (fun _ _ _ => by simp [atoms]) (fun _ _ _ => by simp [names]) h2 _ _ h1.2

theorem lpost_Logic' {s p q ts} (h : DSat s (LP s) gLogicExpression p q ts) : Stacks s p q ts := by
  obtain ⟨m, us, vs, h1, h2, rfl⟩ := h
  exact iter_chainW (opR := .Logic) (x := .NotExpression) .logic (fun _ _ _ h => h.2) (fun _ _ _ h => h.2) (fun _ _ _ _ _ _ => eff_act0)
    (fun _ _ _ => by simp [atoms]) (fun _ _ _ => by simp [names]) h2 _ _ h1.2

theorem lpost_Not {s p q ts} (h : DSat s (LP s) gNotExpression p q ts) : Stacks s p q ts := by
  rcases h with h | ⟨m, us, vs, h1, ⟨m2, us2, vs2, h2, ⟨m3, us3, vs3, h3, ⟨m4, us4, vs4, h4, ⟨rfl, rfl⟩, rfl⟩, rfl⟩, rfl⟩, rfl⟩
  · exact h.2
  · have e := mute_nil (PExp.ciLit c!"not") rfl _ _ _ h2
    subst e
    have hle := dsat_le (PExp.ciLit c!"not") _ _ _ h2
    obtain ⟨ns, es, k, hw, hl⟩ : Stacks s _ _ _ := h4.2
    obtain ⟨ps, n, rfl⟩ := snoc (l := ns) (by intro e; rw [e] at hl; cases hl)
    have hw' : Writes s p m4 (us ++ (us3 ++ us4)) (ps ++ [n]) es k := by
      have := ((LP.sp h1).widen (Nat.le_refl _) hle).append ((LP.blank h3 (by decide)).append hw); simpa using this
    have := hw'.act 1 (fun e he => eff_act1 he) (by simp [atomsL_append, atomsL, atoms]) (by simp [namesL_append, namesL, names])
    exact ⟨_, _, _, by simpa using this, by simpa using hl⟩

theorem lpost_Grammar {s p q ts} (h : DSat s (LP s) gGrammar p q ts) : Stacks s p q ts := by
  obtain ⟨m, us, vs, h1, ⟨m2, us2, vs2, h2, ⟨m3, us3, vs3, h3, h4, rfl⟩, rfl⟩, rfl⟩ := h
  obtain ⟨ns, es, k, hw, hl⟩ : Stacks s _ _ _ := h2.2
  have := (LP.sp h1).append (hw.append ((LP.sp h3).append (LP.blank h4 (by decide))))
  exact ⟨ns, es, k, by simpa using this, hl⟩

theorem Stacks.rule {s p q ts} (h : Stacks s p q ts) {r : Rule} (h1 : r ≠ .JsonReference) (h2 : r ≠ .ArgumentList) (h3 : r ≠ .Identifier) :
    Stacks s p q (ts ++ [⟨.rule r, p, q⟩]) := by
  obtain ⟨ns, es, k, hw, hl⟩ := h
  exact ⟨ns, es, k, hw.rule h1 h2 h3, hl⟩

/-- Every rule. -/
theorem lpost_all {s x p q ts} (h : Deriv s (.call x) p q ts) : LP s x p q ts := by
  refine h.sat (P := LP s) ?_
  intro x p q ts hd hs
  refine ⟨hd, ?_⟩
  have blank : ∀ e, e.calm = true → x ∈ [Rule.sp, .sp1, .SpaceComment, .Space, .Comment, .EndOfLine, .EndOfFile] → DSat s (LP s) e p q ts →
      Still (ts ++ [⟨.rule x, p, q⟩]) := fun e he hx h => (still_of_calm e he _ _ _ h).append (.one hx)
  have val : x ≠ .JsonReference → x ≠ .ArgumentList → x ≠ .Identifier → (∃ n es, Writes s p q ts [n] es 0) → ∃ n es, Writes s p q (ts ++ [⟨.rule x, p, q⟩]) [n] es 0 :=
    fun h1 h2 h3 ⟨n, es, h⟩ => ⟨n, es, h.rule h1 h2 h3⟩
  have opr : x ≠ .JsonReference → x ≠ .ArgumentList → x ≠ .Identifier → (∃ o, Writes s p q ts [.op o] [] 0) → ∃ o, Writes s p q (ts ++ [⟨.rule x, p, q⟩]) [.op o] [] 0 :=
    fun h1 h2 h3 ⟨o, h⟩ => ⟨o, h.rule h1 h2 h3⟩
  cases x with
  | Grammar => exact (lpost_Grammar hs).rule (by decide) (by decide) (by decide)
  | Expression => exact Stacks.rule hs.2 (by decide) (by decide) (by decide)
  | LogicExpression => exact (lpost_Logic' hs).rule (by decide) (by decide) (by decide)
  | NotExpression => exact (lpost_Not hs).rule (by decide) (by decide) (by decide)
  | CompareExpression => exact (lpost_Compare' hs).rule (by decide) (by decide) (by decide)
  | CompareInExpression => exact (lpost_CompareIn hs).rule (by decide) (by decide) (by decide)
  | PredicateExpression => exact (lpost_Predicate hs).rule (by decide) (by decide) (by decide)
  | BetweenExpression => exact (lpost_Between hs).rule (by decide) (by decide) (by decide)
  | PrimaryExpression => exact (lpost_Primary hs).rule (by decide) (by decide) (by decide)
  | ArgumentList => obtain ⟨ns, es, k, h⟩ := lpost_ArgumentList hs; exact ⟨ns, es, h.args⟩
  | Argument => exact Stacks.rule hs.2 (by decide) (by decide) (by decide)
  | Reference => exact (lpost_Reference hs).rule (by decide) (by decide) (by decide)
  | IdentifierReference => obtain ⟨l, h⟩ := lpost_IdentifierReference hs; exact ⟨l, h.rule (by decide) (by decide) (by decide)⟩
  | JsonReference =>
    obtain ⟨⟨ns, k, hw, hl⟩, hpq, hn⟩ := lpost_JsonReference hs
    refine ⟨⟨ns, k + 1, hw.arrow hpq hn, hl⟩, ?_⟩
    intro t ht
    rcases List.mem_append.mp ht with ht | ht
    · exact hn t ht
    · rw [List.mem_singleton.mp ht]; nofun
  | Identifier =>
    obtain ⟨⟨a, hw⟩, hn⟩ := lpost_Identifier hd hs
    refine ⟨⟨a, hw⟩, ?_⟩
    intro t ht
    rcases List.mem_append.mp ht with ht | ht
    · exact hn t ht
    · rw [List.mem_singleton.mp ht]; nofun
  | Compare => exact opr (by decide) (by decide) (by decide) (lpost_Compare hs)
  | Logic => exact opr (by decide) (by decide) (by decide) (lpost_Logic hs)
  | Match => exact opr (by decide) (by decide) (by decide) (lpost_Match hs)
  | Value => refine val (by decide) (by decide) (by decide) ?_; rcases hs with h | h <;> exact h.2
  | Array => exact val (by decide) (by decide) (by decide) (lpost_Array hs)
  | Literal => refine val (by decide) (by decide) (by decide) ?_; rcases hs with h | h | h | h <;> exact h.2
  | Integer => exact val (by decide) (by decide) (by decide) (lpost_Integer hs)
  | Boolean => exact val (by decide) (by decide) (by decide) (lpost_Boolean hs)
  | Null => exact val (by decide) (by decide) (by decide) (lpost_Null hs)
  | String => exact val (by decide) (by decide) (by decide) (lpost_String hs)
  | SpaceComment => exact blank gSpaceComment rfl (by decide) hs
  | sp => exact blank gSp rfl (by decide) hs
  | sp1 => exact blank gSp1 rfl (by decide) hs
  | Comment => exact blank gComment rfl (by decide) hs
  | Space => exact blank gSpace rfl (by decide) hs
  | EndOfLine => exact blank gEndOfLine rfl (by decide) hs
  | EndOfFile => exact blank gEndOfFile rfl (by decide) hs

end Verif
