import Verif.Parse

/-! # Stack effects of action sequences -/

namespace Verif

/-- `runEvs`, also returning the last captured text. -/
def runX : Str → List Ev → Tree → Option (Str × Tree)
  | x, [], t => some (x, t)
  | _, .text s :: evs, t => runX s evs t
  | x, .act n :: evs, t =>
    match runAct n x t with
    | none => none
    | some t' => runX x evs t'

theorem runEvs_eq (x : Str) (evs : List Ev) (t : Tree) : runEvs x evs t = (runX x evs t).map Prod.snd := by
  induction evs generalizing x t with
  | nil => rfl
  | cons e evs ih =>
    cases e with
    | text s => exact ih s t
    | act n =>
      simp only [runEvs, runX]
      cases runAct n x t with
      | none => rfl
      | some t' => exact ih x t'

theorem runX_append (x : Str) (e1 e2 : List Ev) (t : Tree) :
    runX x (e1 ++ e2) t = (runX x e1 t).bind fun p => runX p.1 e2 p.2 := by
  induction e1 generalizing x t with
  | nil => rfl
  | cons e evs ih =>
    cases e with
    | text s => exact ih s t
    | act n =>
      simp only [List.cons_append, runX]
      cases runAct n x t with
      | none => rfl
      | some t' => exact ih x t'

/-- Add nodes (bottom first) and errors to a tree. -/
def Tree.grow (t : Tree) (ns : List Node) (es : List Err) : Tree :=
  { stack := ns.reverse ++ t.stack, errors := t.errors ++ es, marks := t.marks }

/-- In every context the actions push exactly `ns` (bottom first) and record exactly `es`; they never look below, and leave the
marks alone. -/
def Eff (evs : List Ev) (ns : List Node) (es : List Err) : Prop :=
  ∀ x t, ∃ x', runX x evs t = some (x', t.grow ns es)

theorem Tree.grow_grow (t : Tree) (a b c d) : (t.grow a c).grow b d = t.grow (a ++ b) (c ++ d) := by
  simp [Tree.grow]

theorem Eff.nil : Eff [] [] [] := fun x t => ⟨x, by simp [runX, Tree.grow]⟩

theorem Eff.append {e1 n1 s1 e2 n2 s2} (h1 : Eff e1 n1 s1) (h2 : Eff e2 n2 s2) : Eff (e1 ++ e2) (n1 ++ n2) (s1 ++ s2) := by
  intro x t
  obtain ⟨x1, r1⟩ := h1 x t
  obtain ⟨x2, r2⟩ := h2 x1 (t.grow n1 s1)
  exact ⟨x2, by rw [runX_append, r1, Option.bind_some, r2, Tree.grow_grow]⟩

/-- An action following a known effect. -/
theorem Eff.step {e ns es ns'} (h : Eff e ns es) (k : Nat)
    (hk : ∀ x t, runAct k x (Tree.grow t ns []) = some (t.grow ns' [])) : Eff (e ++ [.act k]) ns' es := by
  intro x t
  obtain ⟨x1, r1⟩ := h x t
  refine ⟨x1, ?_⟩
  rw [runX_append, r1, Option.bind_some]
  have := hk x1 { t with errors := t.errors ++ es }
  simp only [Tree.grow, List.append_nil] at this
  simp only [runX, Tree.grow, this]

theorem Eff.text {u k n es} (h : ∀ t, runAct k u t = some (Tree.grow t [n] es)) : Eff [.text u, .act k] [n] es := by
  intro x t
  exact ⟨u, by simp [runX, h]⟩

theorem eff_act0 {e ns l o r es} (h : Eff e (ns ++ [l, o, r]) es) : Eff (e ++ [.act 0]) (ns ++ [.logic l o r]) es :=
  h.step 0 fun x t => by simp [runAct, Tree.popLogic, Tree.pop, Tree.push, Tree.grow]

theorem eff_act1 {e ns n es} (h : Eff e (ns ++ [n]) es) : Eff (e ++ [.act 1]) (ns ++ [.not n]) es :=
  h.step 1 fun x t => by simp [runAct, Tree.popNot, Tree.pop, Tree.push, Tree.grow]

theorem eff_act2 {e ns l o r es} (h : Eff e (ns ++ [l, o, r]) es) : Eff (e ++ [.act 2]) (ns ++ [.cmp l o r]) es :=
  h.step 2 fun x t => by simp [runAct, Tree.popCompare, Tree.pop, Tree.push, Tree.grow]

theorem eff_act4 {e ns l o r es} (h : Eff e (ns ++ [l, o, r]) es) : Eff (e ++ [.act 4]) (ns ++ [.cmp l o r]) es :=
  h.step 4 fun x t => by simp [runAct, Tree.popCompare, Tree.pop, Tree.push, Tree.grow]

theorem eff_act5 {e ns l o es} (h : Eff e (ns ++ [l, o]) es) : Eff (e ++ [.act 5]) (ns ++ [.pred l o]) es :=
  h.step 5 fun x t => by simp [runAct, Tree.popPredicate, Tree.pop, Tree.push, Tree.grow]

theorem eff_act7 {e ns l o a b es} (h : Eff e (ns ++ [l, o, a, b]) es) : Eff (e ++ [.act 7]) (ns ++ [.between l o a b]) es :=
  h.step 7 fun x t => by simp [runAct, Tree.popBetween, Tree.pop, Tree.push, Tree.grow]

theorem eff_act8 {e ns n es} (h : Eff e (ns ++ [n]) es) : Eff (e ++ [.act 8]) (ns ++ [.paren n]) es :=
  h.step 8 fun x t => by simp [runAct, Tree.popParentheses, Tree.pop, Tree.push, Tree.grow]

theorem eff_act9 {e ns f ps es} (h : Eff e (ns ++ [.ident f, .arr ps]) es) : Eff (e ++ [.act 9]) (ns ++ [.func f ps]) es :=
  h.step 9 fun x t => by simp [runAct, Tree.popFunction, Tree.pop, Tree.push, Tree.grow]

theorem eff_op {u k o} (hk : k ∈ [3, 6, 15, 16, 17, 18, 19, 20]) (h : normOp u = o) : Eff [.text u, .act k] [.op o] [] := by
  subst h
  apply Eff.text
  intro t
  simp at hk
  rcases hk with rfl | rfl | rfl | rfl | rfl | rfl | rfl | rfl <;> simp [runAct, Tree.addOperation, Tree.push, Tree.grow]

theorem eff_name (u : Str) : Eff [.text u, .act 14] [.ident u] [] :=
  Eff.text fun t => by simp [runAct, Tree.addName, Tree.push, Tree.grow]

theorem eff_str {u k} (hk : k = 28 ∨ k = 29) : Eff [.text u, .act k] [.str u] [] :=
  Eff.text fun t => by rcases hk with rfl | rfl <;> simp [runAct, Tree.addString, Tree.push, Tree.grow]

theorem eff_null (u : Str) : Eff [.text u, .act 27] [.null] [] :=
  Eff.text fun t => by simp [runAct, Tree.addNull, Tree.push, Tree.grow]

theorem eff_bool (u : Str) : Eff [.text u, .act 26] [.bool (parseBool u).1] (parseBool u).2.toList :=
  Eff.text fun t => by
    cases h : (parseBool u).2 <;> simp [runAct, Tree.addBoolean, Tree.push, Tree.grow, Tree.addError, h]

theorem eff_int (u : Str) : Eff [.text u, .act 25] [.int (atoi u).1] (atoi u).2.toList :=
  Eff.text fun t => by
    cases h : (atoi u).2 <;> simp [runAct, Tree.addInteger, Tree.push, Tree.grow, Tree.addError, h]

theorem popMarked_grow (t : Tree) (m : Nat) (hm : m = t.stack.length) (ns : List Node) (es : List Err) :
    ({ t with marks := m :: t.marks }.grow ns es).popMarked = some (ns, t.grow [] es) := by
  subst hm
  simp [Tree.popMarked, Tree.grow]

/-- Mark, actions, collect into an array. -/
theorem eff_arr {k k' e ns es} (hk : (k, k') ∈ [(10, 11), (21, 22), (23, 24)]) (h : Eff e ns es) :
    Eff (.act k :: (e ++ [.act k'])) [.arr ns] es := by
  intro x t
  obtain ⟨x1, r1⟩ := h x t.addMark
  refine ⟨x1, ?_⟩
  have hpm := popMarked_grow t t.stack.length rfl ns es
  have hrun : runX x (.act k :: (e ++ [.act k'])) t = runX x (e ++ [.act k']) t.addMark := by
    simp at hk
    rcases hk with ⟨rfl, rfl⟩ | ⟨rfl, rfl⟩ | ⟨rfl, rfl⟩ <;> rfl
  rw [hrun, runX_append, r1, Option.bind_some]
  have hact : ∀ x t, runAct k' x t = Tree.popArray t := by
    intro x t
    simp at hk
    rcases hk with ⟨rfl, rfl⟩ | ⟨rfl, rfl⟩ | ⟨rfl, rfl⟩ <;> rfl
  show (match runAct k' x1 (t.addMark.grow ns es) with | none => none | some t' => some (x1, t')) = _
  rw [hact]
  have : t.addMark = { t with marks := t.stack.length :: t.marks } := rfl
  unfold Tree.popArray
  rw [this, hpm]
  simp [Tree.push, Tree.grow]

theorem mapM_nodeName (l : List Str) : (l.map Node.ident).mapM Tree.nodeName = some l := by
  induction l with
  | nil => rfl
  | cons a l ih => rw [List.map_cons, List.mapM_cons, ih]; rfl

/-- Mark, names, collect into a reference. -/
theorem eff_ref {e names es} (h : Eff e (names.map .ident) es) : Eff (.act 12 :: (e ++ [.act 13])) [.ref names] es := by
  intro x t
  obtain ⟨x1, r1⟩ := h x t.addMark
  refine ⟨x1, ?_⟩
  have hpm := popMarked_grow t t.stack.length rfl (names.map .ident) es
  have hrun : runX x (.act 12 :: (e ++ [.act 13])) t = runX x (e ++ [.act 13]) t.addMark := rfl
  rw [hrun, runX_append, r1, Option.bind_some]
  show (match Tree.popIdentifierReference (t.addMark.grow _ es) with | none => none | some t' => some (x1, t')) = _
  have : t.addMark = { t with marks := t.stack.length :: t.marks } := rfl
  unfold Tree.popIdentifierReference
  rw [this, hpm]
  simp only [mapM_nodeName]
  simp [Tree.push, Tree.grow]

/-- Running from the empty tree. -/
theorem Eff.finish {evs ns es} (h : Eff evs ns es) : runEvs [] evs {} = some ⟨ns.reverse, es, []⟩ := by
  obtain ⟨x', h⟩ := h [] {}
  rw [runEvs_eq, h]; simp [Tree.grow]

end Verif
