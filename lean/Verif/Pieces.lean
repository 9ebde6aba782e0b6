import Verif.Digits
import Verif.ParseThms
import Verif.Spec.Shape

/-! # Where the texts of a tree come from -/

namespace Verif

/-- The contents of one node (children apart) come from texts of which `T` holds: names and strings are such a text, operators, integers and
booleans are what the text is read as.  (`ref` may have empty names in front of or behind such texts; see `nodeName`.) -/
def TextOk (T : Str → Prop) : Node → Prop
  | .str x => T x
  | .ident x => T x
  | .func x _ => T x
  | .ref xs => ∀ x ∈ xs, T x
  | .op o => ∃ x, T x ∧ o = normOp x
  | .int i => ∃ x, T x ∧ atoi x = (i, none)
  | .bool b => ∃ x, T x ∧ parseBool x = (b, none)
  | _ => True

/-- The contents of a whole tree. -/
def From (T : Str → Prop) (n : Node) : Prop := ∀ m, Sub m n → TextOk T m

theorem From.node {T : Str → Prop} {n : Node} (h0 : TextOk T n) (hk : ∀ k ∈ kids n, From T k) : From T n := by
  intro m hm
  cases hm with
  | refl => exact h0
  | step hk' h => exact hk _ hk' m h

theorem From.self {T : Str → Prop} {n : Node} (h : From T n) : TextOk T n := h n .refl
theorem From.kid {T : Str → Prop} {n k : Node} (h : From T n) (hk : k ∈ kids n) : From T k := fun m hm => h m (.step hk hm)
theorem From.nil {T : Str → Prop} : From T .nil := .node trivial (by intro k hk; cases hk)

/-- All operands on the stack. -/
def Stocked (T : Str → Prop) (t : Tree) : Prop := ∀ n ∈ t.stack, From T n

theorem Stocked.pop {T : Str → Prop} {t : Tree} (h : Stocked T t) : From T t.pop.1 ∧ Stocked T t.pop.2 := by
  unfold Tree.pop
  cases hs : t.stack with
  | nil => exact ⟨.nil, h⟩
  | cons n s => exact ⟨h n (by simp [hs]), fun x hx => h x (by simp [hs]; exact .inr hx)⟩

theorem Stocked.push {T : Str → Prop} {t : Tree} {n : Node} (h : Stocked T t) (hn : From T n) : Stocked T (t.push n) := by
  intro x hx
  rcases List.mem_cons.mp hx with rfl | hx
  · exact hn
  · exact h x hx

theorem Stocked.addError {T : Str → Prop} {t : Tree} {e : Option Err} (h : Stocked T t) : Stocked T (t.addError e) := by
  cases e <;> exact h

theorem Stocked.popMarked {T : Str → Prop} {t t' : Tree} {l : List Node} (h : Stocked T t) (hm : t.popMarked = some (l, t')) :
    (∀ n ∈ l, From T n) ∧ Stocked T t' := by
  unfold Tree.popMarked at hm
  cases hk : t.marks with
  | nil => rw [hk] at hm; cases hm
  | cons m ms =>
    rw [hk] at hm
    simp only at hm
    split at hm
    · cases hm
    · cases hm
      exact ⟨fun n hn => h n (List.mem_of_mem_take (List.mem_reverse.mp hn)), fun n hn => h n (List.mem_of_mem_drop hn)⟩

theorem mapM_names {T : Str → Prop} (he : T []) : ∀ {l : List Node} {xs : List Str}, (∀ n ∈ l, From T n) → l.mapM Tree.nodeName = some xs → ∀ x ∈ xs, T x
  | [], xs, _, h, x, hx => by
    simp only [List.mapM_nil] at h
    cases h; cases hx
  | n :: l, xs, hl, h, x, hx => by
    simp only [List.mapM_cons] at h
    cases hn : Tree.nodeName n with
    | none => rw [hn] at h; cases h
    | some y =>
      cases hr : l.mapM Tree.nodeName with
      | none => rw [hn, hr] at h; cases h
      | some ys =>
        rw [hn, hr] at h
        cases h
        rcases List.mem_cons.mp hx with rfl | hx
        · have hs := (hl n (by simp)).self
          cases n <;> simp only [Tree.nodeName, Option.some.injEq] at hn <;> first | (rw [← hn]; exact he) | (rw [← hn]; exact hs) | cases hn
        · exact mapM_names he (fun n hn => hl n (by simp [hn])) hr x hx

theorem addError_clean {t : Tree} {e : Option Err} (h : (t.addError e).errors = []) : e = none ∧ t.errors = [] := by
  cases e with
  | none => exact ⟨rfl, h⟩
  | some e => simp [Tree.addError] at h

theorem pop_errs (t : Tree) : t.pop.2.errors = t.errors := by
  unfold Tree.pop; cases t.stack <;> rfl

theorem popMarked_errs {t t' : Tree} {l : List Node} (hm : t.popMarked = some (l, t')) : t'.errors = t.errors := by
  unfold Tree.popMarked at hm
  split at hm
  · cases hm
  · simp only at hm
    split at hm
    · cases hm
    · cases hm; rfl

/-- An error, once recorded, stays. -/
theorem runAct_clean {n : Nat} {x : Str} {t t' : Tree} (hr : runAct n x t = some t') (h : t'.errors = []) : t.errors = [] := by
  have it : (t.addInteger x).errors = [] → t.errors = [] := fun h => (addError_clean h).2
  have bo : (t.addBoolean x).errors = [] → t.errors = [] := fun h => (addError_clean h).2
  have fn : t.popFunction.errors = [] → t.errors = [] := by
    unfold Tree.popFunction
    simp only
    split
    · intro h; simpa [Tree.push, pop_errs] using h
    · intro h; simpa [pop_errs] using (addError_clean h).2
  have ar : ∀ t', t.popArray = some t' → t'.errors = t.errors := by
    intro t' ht
    unfold Tree.popArray at ht
    cases hp : t.popMarked with
    | none => rw [hp] at ht; cases ht
    | some q =>
      rw [hp] at ht
      cases ht
      exact popMarked_errs (t' := q.2) hp
  have ir : ∀ t', t.popIdentifierReference = some t' → t'.errors = t.errors := by
    intro t' ht
    unfold Tree.popIdentifierReference at ht
    cases hp : t.popMarked with
    | none => rw [hp] at ht; cases ht
    | some q =>
      rw [hp] at ht
      simp only at ht
      cases hn : q.1.mapM Tree.nodeName with
      | none => rw [hn] at ht; cases ht
      | some xs =>
        rw [hn] at ht
        cases ht
        exact popMarked_errs (t' := q.2) hp
  unfold runAct at hr
  split at hr
  all_goals first
    | (cases hr; first
        | exact it h
        | exact bo h
        | exact fn h
        | exact h
        | simpa [Tree.popLogic, Tree.popCompare, Tree.popNot, Tree.popParentheses, Tree.popPredicate, Tree.popBetween, Tree.push, pop_errs] using h)
    | (rw [ar _ hr] at h; exact h)
    | (rw [ir _ hr] at h; exact h)

theorem runEvs_clean : ∀ {evs : List Ev} {x : Str} {t t' : Tree}, runEvs x evs t = some t' → t'.errors = [] → t.errors = []
  | [], x, t, t', hr, h => by cases hr; exact h
  | .text y :: evs, x, t, t', hr, h => runEvs_clean (evs := evs) hr h
  | .act n :: evs, x, t, t', hr, h => by
    rw [runEvs] at hr
    cases ha : runAct n x t with
    | none => rw [ha] at hr; cases hr
    | some u =>
      rw [ha] at hr
      exact runAct_clean ha (runEvs_clean hr h)

theorem runAct_from {T : Str → Prop} (he : T []) {n : Nat} {x : Str} (hx : T x) {t t' : Tree} (h : Stocked T t) (hr : runAct n x t = some t')
    (hc : t'.errors = []) : Stocked T t' := by
  have op : Stocked T (t.addOperation x) := h.push (.node ⟨x, hx, rfl⟩ (by intro k hk; cases hk))
  have nm : Stocked T (t.addName x) := h.push (.node hx (by intro k hk; cases hk))
  have st : Stocked T (t.addString x) := h.push (.node hx (by intro k hk; cases hk))
  have nl : Stocked T t.addNull := h.push (.node trivial (by intro k hk; cases hk))
  have bo : (t.addBoolean x).errors = [] → Stocked T (t.addBoolean x) := fun hc =>
    h.addError.push (.node ⟨x, hx, Prod.ext rfl (addError_clean hc).1⟩ (by intro k hk; cases hk))
  have it : (t.addInteger x).errors = [] → Stocked T (t.addInteger x) := fun hc =>
    h.addError.push (.node ⟨x, hx, Prod.ext rfl (addError_clean hc).1⟩ (by intro k hk; cases hk))
  obtain ⟨h1, g1⟩ := h.pop
  obtain ⟨h2, g2⟩ := g1.pop
  obtain ⟨h3, g3⟩ := g2.pop
  obtain ⟨h4, g4⟩ := g3.pop
  have mem3 : ∀ {a b c : Node}, From T a → From T b → From T c → ∀ k ∈ [a, b, c], From T k := by
    intro a b c ha hb hc k hk
    simp only [List.mem_cons, List.not_mem_nil, or_false] at hk
    rcases hk with rfl | rfl | rfl <;> assumption
  have lg : Stocked T t.popLogic := g3.push (.node trivial (mem3 h3 h2 h1))
  have cm : Stocked T t.popCompare := g3.push (.node trivial (mem3 h3 h2 h1))
  have nt : Stocked T t.popNot := g1.push (.node trivial (by intro k hk; rw [List.mem_singleton.mp hk]; exact h1))
  have pa : Stocked T t.popParentheses := g1.push (.node trivial (by intro k hk; rw [List.mem_singleton.mp hk]; exact h1))
  have pr : Stocked T t.popPredicate := g2.push (.node trivial (by
    intro k hk
    simp only [kids, List.mem_cons, List.not_mem_nil, or_false] at hk
    rcases hk with rfl | rfl
    · exact h2
    · exact h1))
  have bt : Stocked T t.popBetween := g4.push (.node trivial (by
    intro k hk
    simp only [kids, List.mem_cons, List.not_mem_nil, or_false] at hk
    rcases hk with rfl | rfl | rfl | rfl
    · exact h4
    · exact h3
    · exact h2
    · exact h1))
  have fn : Stocked T t.popFunction := by
    unfold Tree.popFunction
    simp only
    split
    · next name elems e1 e2 =>
      rw [e1] at h2; rw [e2] at h1
      exact g2.push (.node h2.self (fun k hk => h1.kid hk))
    · exact g2.addError
  have mk : Stocked T t.addMark := h
  have ar : ∀ t', t.popArray = some t' → Stocked T t' := by
    intro t' ht
    unfold Tree.popArray at ht
    cases hp : t.popMarked with
    | none => rw [hp] at ht; cases ht
    | some q =>
      obtain ⟨l, u⟩ := q
      rw [hp] at ht
      cases ht
      obtain ⟨a, b⟩ := h.popMarked hp
      exact b.push (.node trivial a)
  have ir : ∀ t', t.popIdentifierReference = some t' → Stocked T t' := by
    intro t' ht
    unfold Tree.popIdentifierReference at ht
    cases hp : t.popMarked with
    | none => rw [hp] at ht; cases ht
    | some q =>
      obtain ⟨l, u⟩ := q
      rw [hp] at ht
      simp only at ht
      obtain ⟨a, b⟩ := h.popMarked hp
      cases hn : l.mapM Tree.nodeName with
      | none => rw [hn] at ht; cases ht
      | some xs =>
        rw [hn] at ht
        cases ht
        exact b.push (.node (mapM_names he a hn) (by intro k hk; cases hk))
  unfold runAct at hr
  split at hr
  all_goals first | (cases hr; first | assumption | exact it hc | exact bo hc) | exact ar _ hr | exact ir _ hr

theorem runEvs_from {T : Str → Prop} (he : T []) : ∀ {evs : List Ev} {x : Str} {t t' : Tree}, T x → (∀ y, .text y ∈ evs → T y) → Stocked T t →
    runEvs x evs t = some t' → t'.errors = [] → Stocked T t'
  | [], x, t, t', _, _, h, hr, _ => by cases hr; exact h
  | .text y :: evs, x, t, t', _, hev, h, hr, hc => runEvs_from he (hev y (by simp)) (fun z hz => hev z (by simp [hz])) h hr hc
  | .act n :: evs, x, t, t', hx, hev, h, hr, hc => by
    rw [runEvs] at hr
    cases ha : runAct n x t with
    | none => rw [ha] at hr; cases hr
    | some u =>
      rw [ha] at hr
      exact runEvs_from he hx (fun z hz => hev z (by simp [hz])) (runAct_from he hx h ha (runEvs_clean hr hc)) hr hc

/-- A derivation consumes a prefix, and its captures are pieces of that prefix. -/
theorem big_pieces {e : PExp} {s : Str} {o : Option (List Ev × Str)} (h : Big G e s o) :
    ∀ ev r, o = some (ev, r) → ∃ u, s = u ++ r ∧ ∀ y, .text y ∈ ev → y <:+: u := by
  have triv : ∀ {s : Str} {ev r} (u : Str), s = u ++ r → ev = ([] : List Ev) → ∃ u, s = u ++ r ∧ ∀ y, .text y ∈ ev → y <:+: u := by
    intro s ev r u h1 h2
    exact ⟨u, h1, by rw [h2]; intro y hy; cases hy⟩
  have cat : ∀ {s r1 r2 : Str} {e1 e2 : List Ev}, (∃ u, s = u ++ r1 ∧ ∀ y, .text y ∈ e1 → y <:+: u) → (∃ u, r1 = u ++ r2 ∧ ∀ y, .text y ∈ e2 → y <:+: u) →
      ∃ u, s = u ++ r2 ∧ ∀ y, .text y ∈ e1 ++ e2 → y <:+: u := by
    intro s r1 r2 e1 e2 h1 h2
    obtain ⟨u, h1, g1⟩ := h1
    obtain ⟨v, h2, g2⟩ := h2
    refine ⟨u ++ v, by rw [h1, h2, List.append_assoc], ?_⟩
    intro y hy
    rcases List.mem_append.mp hy with hy | hy
    · exact (g1 y hy).trans (List.prefix_append _ _).isInfix
    · exact (g2 y hy).trans (List.suffix_append _ _).isInfix
  induction h with
  | eps => intro ev r hx; cases hx; exact triv [] rfl rfl
  | anyOk => intro ev r hx; cases hx; exact triv [_] rfl rfl
  | chrOk => intro ev r hx; cases hx; exact triv [_] rfl rfl
  | rngOk => intro ev r hx; cases hx; exact triv [_] rfl rfl
  | seqOk _ _ ih1 ih2 => intro ev r hx; cases hx; exact cat (ih1 _ _ rfl) (ih2 _ _ rfl)
  | alt1 _ ih => intro ev r hx; cases hx; exact ih _ _ rfl
  | alt2 _ _ _ ih => intro ev r hx; exact ih _ _ hx
  | starNil _ _ => intro ev r hx; cases hx; exact triv [] rfl rfl
  | starCons _ _ ih1 ih2 => intro ev r hx; cases hx; exact cat (ih1 _ _ rfl) (ih2 _ _ rfl)
  | optSome _ ih => intro ev r hx; cases hx; exact ih _ _ rfl
  | optNone _ _ => intro ev r hx; cases hx; exact triv [] rfl rfl
  | notOk _ _ => intro ev r hx; cases hx; exact triv [] rfl rfl
  | call _ ih => intro ev r hx; exact ih _ _ hx
  | @txtOk a s e r _ ih =>
    intro ev r' hx
    cases hx
    obtain ⟨u, h1, g1⟩ := ih _ _ rfl
    refine ⟨u, h1, ?_⟩
    intro y hy
    rcases List.mem_append.mp hy with hy | hy
    · exact g1 y hy
    · have := List.mem_singleton.mp hy
      injection this with this
      rw [this, h1]
      have : (u ++ r).length - r.length = u.length := by simp
      rw [this, List.take_left]
      exact List.infix_rfl
  | act => intro ev r hx; cases hx; exact ⟨[], rfl, by intro y hy; simp at hy⟩
  | swIn _ _ ih => intro ev r hx; exact ih _ _ hx
  | swOut _ _ ih => intro ev r hx; exact ih _ _ hx
  | swNil _ ih => intro ev r hx; exact ih _ _ hx
  | _ => intro ev r hx; cases hx

/-- Every text of a returned tree is a piece of the query. -/
theorem parse_from {s : Str} {n : Node} (h : parse s = .ok n) : From (fun x => x <:+: s) n := by
  rcases parse_cases s with ⟨ev, hb, hp⟩ | ⟨_, b, e, hp, _⟩
  · rw [hp, finish] at h
    cases hr : runEvs [] ev {} with
    | none => rw [hr] at h; cases h
    | some t =>
      rw [hr] at h
      simp only at h
      cases he : t.errors with
      | cons x xs => rw [he] at h; cases h
      | nil =>
        rw [he] at h
        cases h
        obtain ⟨u, hu, g⟩ := big_pieces hb _ _ rfl
        have hn : ([] : Str) <:+: s := List.nil_infix
        rw [List.append_nil] at hu
        exact (runEvs_from (T := fun x => x <:+: s) hn hn (fun y hy => hu ▸ g y hy) (by intro n hn; cases hn) hr he).pop.1
  · rw [hp] at h; cases h

/-- A digit string ends in the plain decimal numeral of its value. -/
theorem decimal_suffix : ∀ (x : Str), x ≠ [] → (∀ c ∈ x, c.isDigit) → Nat.toDigits 10 (decValue 0 x) <:+ x
  | [], h, _ => absurd rfl h
  | c :: x, _, hd => by
    by_cases h0 : c = '0'
    · subst h0
      cases x with
      | nil => exact ⟨[], by decide⟩
      | cons d x =>
        have : decValue 0 ('0' :: d :: x) = decValue 0 (d :: x) := by simp [decValue, digitVal]
        rw [this]
        exact List.IsSuffix.trans (decimal_suffix (d :: x) (by simp) fun c hc => hd c (by simp [hc])) (List.suffix_cons _ _)
    · rw [toDigits_decValue_pos (hd c (by simp)) h0 fun x hx => hd x (by simp [hx])]
      exact List.suffix_rfl

theorem atoi_written {x : Str} {i : Int} (h : atoi x = (i, none)) : ∃ k : Nat, i = k ∧ k ≤ maxInt ∧ Nat.toDigits 10 k <:+: x := by
  unfold atoi at h
  split at h
  · cases h
  · next hx =>
    split at h
    · next hk =>
      cases h
      refine ⟨_, rfl, hk, (decimal_suffix x (fun e => hx (.inl e)) ?_).isInfix⟩
      intro c hc
      exact List.all_eq_true.mp (Decidable.byContradiction fun h => hx (.inr h)) c hc
    · cases h

end Verif
