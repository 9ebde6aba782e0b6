import Verif.Spec.Memory
import Verif.SizeThms
import Verif.Props.Tokens

/-! # Lemmas for C71 -/

namespace Verif

/-- The nodes and their texts. -/
def Mem.own (m : Mem) : Nat := m.cells.length + m.letters

def Mem.heads (m : Mem) : Nat := (m.cells.map fun c => c.names.length).sum
def Mem.places (m : Mem) : Nat := (m.arrays.map List.length).sum
def HTree.cap (h : HTree) : Nat := ((h.mem.arrays[h.stack.arr]?).getD []).length

/-- The captured text after some events. -/
def textAfter : Str → List Ev → Str
  | x, [] => x
  | _, .text s :: l => textAfter s l
  | x, .act _ :: l => textAfter x l

/-- The places of arrays are paid for by the nodes that were made: an array that was left is a fixed part of the one that took its place, and what is
copied from the stack leaves the stack.  `k` is what has been saved up and `d` what is owed. -/
structure Paid (k d : Nat) (h : HTree) : Prop where
  arr : h.stack.arr < h.mem.arrays.length
  len : h.stack.len ≤ h.cap
  few : h.stack.len ≤ h.mem.cells.length
  cap : h.cap ≤ 3 * h.mem.cells.length + 9
  paid : h.mem.places + h.mem.heads + 2 * h.stack.len + k ≤ 5 * h.cap + 4 * h.mem.cells.length + d

theorem sum_set (l : List (List Ptr)) (i : Nat) (xs : List Ptr) (h : i < l.length) (hx : xs.length = l[i].length) :
    ((l.set i xs).map List.length).sum = (l.map List.length).sum := by
  induction l generalizing i with
  | nil => cases h
  | cons a l ih =>
    cases i with
    | zero => simp at hx; simp [hx]
    | succ i =>
      simp only [List.getElem_cons_succ, List.length_cons] at hx h
      have := ih i (by omega) hx
      simp only [List.set_cons_succ, List.map_cons, List.sum_cons, this]

theorem Paid.init : Paid 0 0 {} := ⟨by decide, by decide, by decide, by decide, by decide⟩

theorem Paid.push {grow h c k d} (hg : Growth grow) (p : Paid k d h) (hc : c.names.length + d ≤ k + 2) : Paid 0 0 (h.push grow c) := by
  obtain ⟨h1, h2, h3, h4, h5⟩ := p
  unfold HTree.push Mem.append Mem.node Mem.list
  simp only [HTree.cap, Mem.places, Mem.heads] at *
  obtain ⟨xs, hxs⟩ : ∃ xs, h.mem.arrays[h.stack.arr]? = some xs := ⟨_, List.getElem?_eq_getElem h1⟩
  have hxs' := (List.getElem?_eq_some_iff.mp hxs).2
  rw [hxs] at h2 h4 h5
  simp only [Option.getD_some, hxs] at *
  split
  · rename_i hlt
    refine ⟨?_, ?_, ?_, ?_, ?_⟩ <;> simp only [HTree.cap, Mem.places, Mem.heads, List.length_set, List.length_append, List.length_cons, List.length_nil,
      List.getElem?_set_self h1, Option.getD_some, List.map_append, List.map_cons, List.map_nil, List.sum_append, List.sum_cons, List.sum_nil]
    · exact h1
    · omega
    · omega
    · omega
    · rw [sum_set _ _ _ h1 (by simp [hxs'])]
      omega
  · rename_i hlt
    have hg1 := (hg h.stack.len).1
    have hg2 := (hg h.stack.len).2
    refine ⟨?_, ?_, ?_, ?_, ?_⟩ <;> simp only [HTree.cap, Mem.places, Mem.heads, List.length_append, List.length_cons, List.length_nil, List.length_take,
      List.length_replicate, List.getElem?_concat_length, Option.getD_some, List.map_append, List.map_cons, List.map_nil, List.sum_append, List.sum_cons, List.sum_nil] <;> omega

theorem push_own (grow : Nat → Nat) (h : HTree) (c : Cell) : (h.push grow c).mem.own = h.mem.own + 1 + c.letters := by
  unfold HTree.push Mem.append Mem.node Mem.list
  simp only
  split <;> simp [Mem.own, Mem.letters] <;> omega

/-- Errors and marks. -/
def HTree.notes (h : HTree) : Nat := h.errors.length + h.marks.length

theorem push_notes (grow : Nat → Nat) (h : HTree) (c : Cell) : (h.push grow c).notes = h.notes := rfl

theorem Paid.pop {h} (p : Paid 0 0 h) : Paid 0 0 h.pop.2 := by
  obtain ⟨h1, h2, h3, h4, h5⟩ := p
  unfold HTree.pop
  split
  · exact ⟨h1, h2, h3, h4, h5⟩
  · rename_i hl
    refine ⟨h1, ?_, ?_, h4, ?_⟩
    · show _ ≤ h.cap; simp only; omega
    · simp only; omega
    · show _ ≤ 5 * h.cap + _ + 0; simp only; omega

theorem pop_own (h : HTree) : h.pop.2.mem.own = h.mem.own := by unfold HTree.pop; split <;> rfl
theorem pop_notes (h : HTree) : h.pop.2.notes = h.notes := by unfold HTree.pop; split <;> rfl

/-- A new list. -/
theorem Paid.list {h} (p : Paid 0 0 h) (xs : List Ptr) : Paid 0 xs.length { h with mem := (h.mem.list xs).1 } := by
  obtain ⟨h1, h2, h3, h4, h5⟩ := p
  have e : ({ h with mem := (h.mem.list xs).1 } : HTree).cap = h.cap := by
    simp only [HTree.cap, Mem.list]
    rw [List.getElem?_append_left h1]
  refine ⟨?_, ?_, h3, ?_, ?_⟩
  · simp only [Mem.list, List.length_append]; omega
  · rw [e]; exact h2
  · rw [e]; exact h4
  · rw [e]; simp only [Mem.list, Mem.places, Mem.heads, List.map_append, List.map_cons, List.map_nil, List.sum_append, List.sum_cons, List.sum_nil] at *; omega

theorem Paid.marked {h l t} (p : Paid 0 0 h) (e : h.popMarked = some (l, t)) :
    Paid (t.mem.read l).length 0 t ∧ t.mem.own = h.mem.own ∧ t.notes ≤ h.notes := by
  unfold HTree.popMarked at e
  split at e
  · cases e
  · rename_i mark ms hm
    split at e
    · cases e
    · rename_i hlt
      cases e
      have hx : ((h.mem.read h.stack).drop mark).length = h.stack.len - mark := by
        have := p.len
        simp only [HTree.cap] at this
        simp only [Mem.read, List.length_drop, List.length_take]
        omega
      have hr : ((h.mem.list ((h.mem.read h.stack).drop mark)).1.read (h.mem.list ((h.mem.read h.stack).drop mark)).2).length = h.stack.len - mark := by
        rw [← hx]
        simp [Mem.read, Mem.list]
      obtain ⟨h1, h2, h3, h4, h5⟩ := p.list ((h.mem.read h.stack).drop mark)
      rw [hx] at h5
      refine ⟨⟨h1, ?_, ?_, h4, ?_⟩, rfl, ?_⟩
      · refine Nat.le_trans ?_ h2; simp only; omega
      · refine Nat.le_trans ?_ h3; simp only; omega
      · generalize hX : (h.mem.read h.stack).drop mark = xs at *
        change (h.mem.list xs).1.places + (h.mem.list xs).1.heads + 2 * mark + ((h.mem.list xs).1.read (h.mem.list xs).2).length ≤
          5 * ({ h with mem := (h.mem.list xs).1 } : HTree).cap + 4 * (h.mem.list xs).1.cells.length + 0
        change (h.mem.list xs).1.places + (h.mem.list xs).1.heads + 2 * h.stack.len + 0 ≤
          5 * ({ h with mem := (h.mem.list xs).1 } : HTree).cap + 4 * (h.mem.list xs).1.cells.length + (h.stack.len - mark) at h5
        rw [hr]
        omega
      · simp only [HTree.notes, hm, List.length_cons]; omega

theorem mapM_length {f : Ptr → Option Str} {l : List Ptr} : ∀ {ns}, l.mapM f = some ns → ns.length = l.length := by
  induction l with
  | nil => intro ns h; cases h; rfl
  | cons p l ih =>
    intro ns h
    rw [List.mapM_cons] at h
    cases hn : f p with
    | none => rw [hn] at h; cases h
    | some x =>
      rw [hn] at h
      cases hl : l.mapM f with
      | none => rw [hl] at h; cases h
      | some xs => rw [hl] at h; cases h; simp [ih hl]

theorem Paid.error {h} (p : Paid 0 0 h) (e : Option Err) : Paid 0 0 (h.addError e) := by
  cases e <;> exact ⟨p.arr, p.len, p.few, p.cap, p.paid⟩

/-- An action makes one node, with the captured text if it reads it. -/
theorem act_own {grow k x h h'} (hg : Growth grow) (p : Paid 0 0 h) (e : h.act grow k x = some h') :
    Paid 0 0 h' ∧ h'.mem.own ≤ h.mem.own + 1 + (if k ∈ textActs then 3 * x.length else 0) ∧ h'.notes ≤ h.notes + 1 := by
  have leaf : ∀ {h0 : HTree} {c : Cell}, Paid 0 0 h0 → c.names = [] →
      Paid 0 0 (h0.push grow c) ∧ (h0.push grow c).mem.own = h0.mem.own + 1 + c.letters ∧ (h0.push grow c).notes = h0.notes :=
    fun {h0 c} p hc => ⟨p.push hg (by simp [hc]), push_own _ _ _, rfl⟩
  have opc : Paid 0 0 (h.addOperation grow x) ∧ (h.addOperation grow x).mem.own ≤ h.mem.own + 1 + 3 * x.length ∧ (h.addOperation grow x).notes ≤ h.notes + 1 := by
    obtain ⟨a, b, c⟩ := leaf (c := { type := .operation, operation := normOp x }) p rfl
    have := normOp_length x
    simp only [Cell.letters, List.length_nil] at b
    exact ⟨a, by show (h.push _ _).mem.own ≤ _; omega, by show (h.push _ _).notes ≤ _; omega⟩
  have o1 := pop_own h
  have o2 := pop_own h.pop.2
  have o3 := pop_own h.pop.2.pop.2
  have o4 := pop_own h.pop.2.pop.2.pop.2
  have n1 := pop_notes h
  have n2 := pop_notes h.pop.2
  have n3 := pop_notes h.pop.2.pop.2
  have n4 := pop_notes h.pop.2.pop.2.pop.2
  have arrc : ∀ {h'}, h.popArray grow = some h' → Paid 0 0 h' ∧ h'.mem.own ≤ h.mem.own + 1 ∧ h'.notes ≤ h.notes + 1 := by
    intro h' e
    unfold HTree.popArray at e
    split at e
    · cases e
    · rename_i hm
      cases e
      obtain ⟨a, b, c⟩ := p.marked hm
      refine ⟨a.push hg (by simp), ?_, ?_⟩
      · rw [push_own, b]; simp [Cell.letters]
      · rw [push_notes]; omega
  have str : ∀ {c : Cell}, c.names = [] → c.letters ≤ 3 * x.length → 
      Paid 0 0 (h.push grow c) ∧ (h.push grow c).mem.own ≤ h.mem.own + 1 + 3 * x.length ∧ (h.push grow c).notes ≤ h.notes + 1 := by
    intro c h1 h2
    obtain ⟨a, b, c⟩ := leaf p h1
    exact ⟨a, by omega, by omega⟩
  have errc : ∀ {e : Option Err} {c : Cell}, c.names = [] → c.letters = 0 →
      Paid 0 0 ((h.addError e).push grow c) ∧ ((h.addError e).push grow c).mem.own ≤ h.mem.own + 1 + 3 * x.length ∧ ((h.addError e).push grow c).notes ≤ h.notes + 1 := by
    intro e c h1 h2
    obtain ⟨a, b, c⟩ := leaf (p.error e) h1
    have e1 : (h.addError e).mem.own = h.mem.own := by cases e <;> rfl
    have e2 : (h.addError e).notes ≤ h.notes + 1 := by cases e <;> simp [HTree.addError, HTree.notes] <;> omega
    exact ⟨a, by omega, by omega⟩
  have node : ∀ {h0 : HTree} {c : Cell} {z : Nat}, Paid 0 0 h0 → h0.mem.own = h.mem.own → h0.notes = h.notes → c.names = [] → c.letters = 0 →
      Paid 0 0 (h0.push grow c) ∧ (h0.push grow c).mem.own ≤ h.mem.own + 1 + z ∧ (h0.push grow c).notes ≤ h.notes + 1 := by
    intro h0 c z h1 h2 h3 h4 h5
    obtain ⟨a, b, c⟩ := leaf h1 h4
    exact ⟨a, by omega, by omega⟩
  unfold HTree.act at e
  split at e
  all_goals first
    | (cases e; exact opc)
    | exact arrc e
    | (cases e; exact ⟨p, by omega, by omega⟩)
    | (cases e; exact ⟨⟨p.arr, p.len, p.few, p.cap, p.paid⟩, Nat.le_add_right _ _, by simp only [HTree.notes, HTree.addMark, List.length_cons]; omega⟩)
    | (cases e; exact str rfl (by simp [Cell.letters] <;> omega))
    | (cases e; exact errc rfl (by simp [Cell.letters]))
    | skip
  · cases e; exact node (h0 := h.pop.2.pop.2.pop.2) p.pop.pop.pop (by omega) (by omega) rfl rfl
  · cases e; exact node (h0 := h.pop.2) p.pop (by omega) (by omega) rfl rfl
  · cases e; exact node (h0 := h.pop.2.pop.2.pop.2) p.pop.pop.pop (by omega) (by omega) rfl rfl
  · cases e; exact node (h0 := h.pop.2.pop.2.pop.2) p.pop.pop.pop (by omega) (by omega) rfl rfl
  · cases e; exact node (h0 := h.pop.2.pop.2) p.pop.pop (by omega) (by omega) rfl rfl
  · cases e
    have q := p.pop.pop.pop.pop.list [h.pop.2.pop.1, h.pop.1]
    refine ⟨q.push hg (by simp), ?_, ?_⟩
    · refine Nat.le_trans (Nat.le_of_eq (push_own grow _ _)) ?_
      show h.pop.2.pop.2.pop.2.pop.2.mem.own + 1 + 0 ≤ _
      omega
    · show h.pop.2.pop.2.pop.2.pop.2.notes ≤ _
      omega
  · cases e; exact node (h0 := h.pop.2) p.pop (by omega) (by omega) rfl rfl
  · cases e
    have bad : Paid 0 0 (h.pop.2.pop.2.addError (some .badFunction)) ∧ (h.pop.2.pop.2.addError (some .badFunction)).mem.own ≤ h.mem.own + 1 ∧
        (h.pop.2.pop.2.addError (some .badFunction)).notes ≤ h.notes + 1 := by
      refine ⟨p.pop.pop.error _, ?_, ?_⟩
      · show h.pop.2.pop.2.mem.own ≤ _; omega
      · simp only [HTree.notes, HTree.addError, List.length_append, List.length_cons, List.length_nil] at *; omega
    unfold HTree.popFunction
    simp only
    split
    · split
      · exact node (h0 := h.pop.2.pop.2) p.pop.pop (by omega) (by omega) rfl rfl
      · exact bad
    · exact bad
  · unfold HTree.popIdentifierReference at e
    split at e
    · cases e
    · rename_i hm
      obtain ⟨a, b, c⟩ := p.marked hm
      split at e
      · cases e
      · rename_i hn
        cases e
        refine ⟨a.push hg (by simp [mapM_length hn]), ?_, ?_⟩
        · rw [push_own, b]; simp [Cell.letters]
        · rw [push_notes]; omega

theorem hrun_append (grow : Nat → Nat) (x : Str) (e1 e2 : List Ev) (h : HTree) :
    HTree.run grow x (e1 ++ e2) h = (HTree.run grow x e1 h).bind fun h' => HTree.run grow (textAfter x e1) e2 h' := by
  induction e1 generalizing x h with
  | nil => rfl
  | cons e evs ih =>
    cases e with
    | text s => exact ih s h
    | act n =>
      simp only [List.cons_append, HTree.run, textAfter]
      cases h.act grow n x with
      | none => rfl
      | some t' => exact ih x t'

theorem textAfter_append (x : Str) (e1 e2 : List Ev) : textAfter x (e1 ++ e2) = textAfter (textAfter x e1) e2 := by
  induction e1 generalizing x with
  | nil => rfl
  | cons e evs ih => cases e <;> exact ih _

theorem run_own {grow : Nat → Nat} (hg : Growth grow) {B p ev ev' p'} (hl : LEv B p ev ev' p') : ∀ {x h h'}, Paid 0 0 h → HTree.run grow x ev h = some h' →
    Paid 0 0 h' ∧ h'.mem.own + p'.pending (textAfter x ev) ≤ h.mem.own + p.pending x + wEv ev ∧ h'.notes ≤ h.notes + wEv ev := by
  induction hl with
  | nil => intro x h h' q e; cases e; exact ⟨q, by simp [wEv, textAfter], by simp [wEv]⟩
  | same => intro x h h' q e; cases e; exact ⟨q, by simp [wEv, Cap.pending, textAfter], by simp [wEv]⟩
  | loose => intro x h h' q e; cases e; exact ⟨q, by simp [wEv, Cap.pending, textAfter], by simp [wEv]⟩
  | @op p k _ hp =>
    intro x h h' q e
    simp only [HTree.run] at e
    split at e
    · cases e
    · rename_i h1
      cases e
      obtain ⟨a, b, c⟩ := act_own hg q h1
      have e : p.pending x = 3 * x.length := by cases p <;> first | exact absurd rfl hp | rfl
      refine ⟨a, ?_, ?_⟩ <;> simp only [wEv, e]
      · simp only [Cap.pending]
        split at b <;> omega
      · omega
  | use _ | str _ _ =>
    intro x h h' q e
    simp only [HTree.run] at e
    split at e
    · cases e
    · rename_i h1
      cases e
      obtain ⟨a, b, c⟩ := act_own hg q h1
      refine ⟨a, ?_, ?_⟩ <;> simp only [wEv]
      · simp only [Cap.pending]
        split at b <;> omega
      · omega
  | act hk =>
    intro x h h' q e
    simp only [HTree.run] at e
    split at e
    · cases e
    · rename_i h1
      cases e
      obtain ⟨a, b, c⟩ := act_own hg q h1
      rw [if_neg hk] at b
      refine ⟨a, ?_, ?_⟩ <;> simp only [wEv]
      · simp only [Cap.pending]
        omega
      · omega
  | app _ _ ih1 ih2 =>
    intro x h h' q e
    rw [hrun_append] at e
    cases h1 : HTree.run grow x _ h with
    | none => rw [h1] at e; cases e
    | some y =>
      rw [h1, Option.bind_some] at e
      obtain ⟨a, b, c⟩ := ih1 q h1
      obtain ⟨a', b', c'⟩ := ih2 a e
      refine ⟨a', ?_, ?_⟩
      · rw [textAfter_append, wEv_append]; omega
      · rw [wEv_append]; omega

/-- The events of a query. -/
theorem grammar_own {grow : Nat → Nat} (hg : Growth grow) {s ev h h'} (hb : Big G (.call .Grammar) s (some (ev, []))) (q : Paid 0 0 h)
    (e : HTree.run grow [] ev h = some h') :
    Paid 0 0 h' ∧ h'.mem.own ≤ h.mem.own + 5 * s.length ∧ h'.notes ≤ h.notes + 5 * s.length := by
  obtain ⟨_, _, _, _, ha, _⟩ := grammar_sound hb
  have hl : Layout Seps s s := by
    have := Layout.prepend (B := Seps) (fun w h => ⟨h, h⟩) .nil s.length (Nat.le_refl _) rfl ha rfl
    simpa using this
  obtain ⟨x', hx', hc⟩ := layout_sync (fun _ _ h => h) hb (p := .no) rfl hl
  obtain ⟨ev', r', rfl, he, _⟩ := hc.some
  have hcost := (big_cost hb rfl (k := 5) (c := -1) rfl).2
  obtain ⟨a, b, c⟩ := run_own hg he q e
  simp only [Cap.pending] at b
  simp at hcost
  exact ⟨a, by omega, by omega⟩

theorem query_own {grow : Nat → Nat} (hg : Growth grow) (p : HPeg) (q : Paid 0 0 p.tree) (s : Str) :
    Paid 0 0 (p.query grow s).2.tree ∧ (p.query grow s).2.tree.mem.own ≤ p.tree.mem.own + 5 * s.length ∧
      (p.query grow s).2.tree.notes ≤ p.tree.notes + 5 * s.length := by
  unfold HPeg.query
  rcases pegParse_cases s p.toks with ⟨st, ts, ev, _, _, h3, h4, h5, h6⟩ | ⟨st, _, h2, _⟩
  · rw [h3]
    simp only
    rw [if_pos h6, h5]
    cases hr : HTree.run grow [] ev p.tree with
    | none => exact ⟨q, Nat.le_add_right _ _, Nat.le_add_right _ _⟩
    | some t =>
      obtain ⟨a, b, c⟩ := grammar_own hg h4 q hr
      simp only
      split
      · exact ⟨a, b, c⟩
      · exact ⟨a.pop, by rw [pop_own]; exact b, by rw [pop_notes]; exact c⟩
  · rw [h2]; exact ⟨q, by simp, by simp⟩

theorem queries_own {grow : Nat → Nat} (hg : Growth grow) (l : List Str) : ∀ (p : HPeg), Paid 0 0 p.tree →
    Paid 0 0 (p.queries grow l).2.tree ∧ (p.queries grow l).2.tree.mem.own ≤ p.tree.mem.own + 5 * (l.map List.length).sum ∧
      (p.queries grow l).2.tree.notes ≤ p.tree.notes + 5 * (l.map List.length).sum := by
  induction l with
  | nil => intro p q; exact ⟨q, by simp [HPeg.queries], by simp [HPeg.queries]⟩
  | cons s l ih =>
    intro p q
    obtain ⟨a, b, c⟩ := query_own hg p q s
    obtain ⟨a', b', c'⟩ := ih _ a
    simp only [List.map_cons, List.sum_cons]
    exact ⟨a', Nat.le_trans b' (by omega), Nat.le_trans c' (by omega)⟩

end Verif
