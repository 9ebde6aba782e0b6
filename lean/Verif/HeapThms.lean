import Verif.Spec.Heap

/-! # The tree in memory: helper lemmas -/

namespace Verif

theorem Mem.Same.has {m m' : Mem} {r : Block} (h : m.Same m' r) (hh : m.Has r) : m'.Has r := by
  cases r with
  | cell i =>
    have h : m'.cells[i]? = m.cells[i]? := h
    have hh : i < m.cells.length := hh
    show i < m'.cells.length
    rw [List.getElem?_eq_getElem hh] at h
    exact (List.getElem?_eq_some_iff.mp h).1
  | arr i =>
    have h : m'.arrays[i]? = m.arrays[i]? := h
    have hh : i < m.arrays.length := hh
    show i < m'.arrays.length
    rw [List.getElem?_eq_getElem hh] at h
    exact (List.getElem?_eq_some_iff.mp h).1

theorem Mem.At.frame {m m' : Mem} {p i c} (h : m.At p i c) (hs : m.Same m' (.cell i)) : m'.At p i c :=
  ⟨h.1, (show m'.cells[i]? = m.cells[i]? from hs).trans h.2⟩

theorem Mem.At.has {m : Mem} {p i c} (h : m.At p i c) : m.Has (.cell i) := (List.getElem?_eq_some_iff.mp h.2).1

theorem Mem.read_frame {m m' : Mem} {s : Slice} (hs : m.Same m' (.arr s.arr)) : m'.read s = m.read s := by
  have hs : m'.arrays[s.arr]? = m.arrays[s.arr]? := hs
  rw [Mem.read, Mem.read, hs]

mutual
/-- What a pointer stands for depends only on the blocks read. -/
theorem Den.frame {m m' : Mem} : ∀ {n p F}, Den m n p F → (∀ r ∈ F, m.Same m' r) → Den m' n p F
  | .nil, _, _, h, _ => by simpa [Den] using h
  | .int _, _, _, h, hs | .bool _, _, _, h, hs | .str _, _, _, h, hs | .null, _, _, h, hs | .op _, _, _, h, hs | .ident _, _, _, h, hs
  | .ref _, _, _, h, hs => by
    simp only [Den] at h ⊢
    obtain ⟨i, ha, rfl⟩ := h
    exact ⟨i, ha.frame (hs _ (by simp)), rfl⟩
  | .arr l, _, _, h, hs => by
    simp only [Den] at h ⊢
    obtain ⟨i, s, G, ha, hb, hl, rfl⟩ := h
    refine ⟨i, s, G, ha.frame (hs _ (by simp)), (hs (.arr s.arr) (by simp)).has hb, ?_, rfl⟩
    rw [Mem.read_frame (hs (.arr s.arr) (by simp))]
    exact DenL.frame hl fun r hr => hs r (by simp [hr])
  | .func f l, _, _, h, hs => by
    simp only [Den] at h ⊢
    obtain ⟨i, s, G, ha, hb, hl, rfl⟩ := h
    refine ⟨i, s, G, ha.frame (hs _ (by simp)), (hs (.arr s.arr) (by simp)).has hb, ?_, rfl⟩
    rw [Mem.read_frame (hs (.arr s.arr) (by simp))]
    exact DenL.frame hl fun r hr => hs r (by simp [hr])
  | .pred l o, _, _, h, hs => by
    simp only [Den] at h ⊢
    obtain ⟨i, pl, po, G, H, ha, h1, h2, rfl⟩ := h
    exact ⟨i, pl, po, G, H, ha.frame (hs _ (by simp)), Den.frame h1 fun r hr => hs r (by simp [hr]), Den.frame h2 fun r hr => hs r (by simp [hr]), rfl⟩
  | .cmp l o r, _, _, h, hs | .logic l o r, _, _, h, hs => by
    simp only [Den] at h ⊢
    obtain ⟨i, pl, po, pr, G, H, K, ha, h1, h2, h3, rfl⟩ := h
    exact ⟨i, pl, po, pr, G, H, K, ha.frame (hs _ (by simp)), Den.frame h1 fun r hr => hs r (by simp [hr]), Den.frame h2 fun r hr => hs r (by simp [hr]),
      Den.frame h3 fun r hr => hs r (by simp [hr]), rfl⟩
  | .paren e, _, _, h, hs | .not e, _, _, h, hs => by
    simp only [Den] at h ⊢
    obtain ⟨i, pe, G, ha, h1, rfl⟩ := h
    exact ⟨i, pe, G, ha.frame (hs _ (by simp)), Den.frame h1 fun r hr => hs r (by simp [hr]), rfl⟩
  | .between l o a b, _, _, h, hs => by
    simp only [Den] at h ⊢
    obtain ⟨i, pl, po, s, x, y, G, H, K, L, ha, h1, h2, hb, hr, h3, h4, rfl⟩ := h
    refine ⟨i, pl, po, s, x, y, G, H, K, L, ha.frame (hs _ (by simp)), Den.frame h1 fun r hr => hs r (by simp [hr]),
      Den.frame h2 fun r hr => hs r (by simp [hr]), (hs (.arr s.arr) (by simp)).has hb, ?_,
      Den.frame h3 fun r hr => hs r (by simp [hr]), Den.frame h4 fun r hr => hs r (by simp [hr]), rfl⟩
    rw [Mem.read_frame (hs (.arr s.arr) (by simp)), hr]
theorem DenL.frame {m m' : Mem} : ∀ {ns ps F}, DenL m ns ps F → (∀ r ∈ F, m.Same m' r) → DenL m' ns ps F
  | [], _, _, h, _ => by simpa [DenL] using h
  | n :: ns, _, _, h, hs => by
    simp only [DenL] at h ⊢
    obtain ⟨p, qs, G, H, rfl, h1, h2, rfl⟩ := h
    exact ⟨p, qs, G, H, rfl, Den.frame h1 fun r hr => hs r (by simp [hr]), DenL.frame h2 fun r hr => hs r (by simp [hr]), rfl⟩
end

mutual
theorem Den.has {m : Mem} : ∀ {n p F}, Den m n p F → ∀ r ∈ F, m.Has r
  | .nil, _, _, h, r, hr => by simp only [Den] at h; rw [h.2] at hr; cases hr
  | .int _, _, _, h, r, hr | .bool _, _, _, h, r, hr | .str _, _, _, h, r, hr | .null, _, _, h, r, hr | .op _, _, _, h, r, hr
  | .ident _, _, _, h, r, hr | .ref _, _, _, h, r, hr => by
    simp only [Den] at h
    obtain ⟨i, ha, rfl⟩ := h
    rw [List.mem_singleton.mp hr]; exact ha.has
  | .arr l, _, _, h, r, hr | .func _ l, _, _, h, r, hr => by
    simp only [Den] at h
    obtain ⟨i, s, G, ha, hb, hl, rfl⟩ := h
    simp only [List.mem_cons] at hr
    rcases hr with rfl | rfl | hr
    · exact ha.has
    · exact hb
    · exact DenL.has hl r hr
  | .pred l o, _, _, h, r, hr => by
    simp only [Den] at h
    obtain ⟨i, pl, po, G, H, ha, h1, h2, rfl⟩ := h
    simp only [List.mem_cons, List.mem_append] at hr
    rcases hr with rfl | hr | hr
    · exact ha.has
    · exact Den.has h1 r hr
    · exact Den.has h2 r hr
  | .cmp l o r', _, _, h, r, hr | .logic l o r', _, _, h, r, hr => by
    simp only [Den] at h
    obtain ⟨i, pl, po, pr, G, H, K, ha, h1, h2, h3, rfl⟩ := h
    simp only [List.mem_cons, List.mem_append] at hr
    rcases hr with rfl | (hr | hr) | hr
    · exact ha.has
    · exact Den.has h1 r hr
    · exact Den.has h2 r hr
    · exact Den.has h3 r hr
  | .paren e, _, _, h, r, hr | .not e, _, _, h, r, hr => by
    simp only [Den] at h
    obtain ⟨i, pe, G, ha, h1, rfl⟩ := h
    simp only [List.mem_cons] at hr
    rcases hr with rfl | hr
    · exact ha.has
    · exact Den.has h1 r hr
  | .between l o a b, _, _, h, r, hr => by
    simp only [Den] at h
    obtain ⟨i, pl, po, s, x, y, G, H, K, L, ha, h1, h2, hb, _, h3, h4, rfl⟩ := h
    simp only [List.mem_cons, List.mem_append] at hr
    rcases hr with rfl | rfl | ((hr | hr) | hr) | hr
    · exact ha.has
    · exact hb
    · exact Den.has h1 r hr
    · exact Den.has h2 r hr
    · exact Den.has h3 r hr
    · exact Den.has h4 r hr
theorem DenL.has {m : Mem} : ∀ {ns ps F}, DenL m ns ps F → ∀ r ∈ F, m.Has r
  | [], _, _, h, r, hr => by simp only [DenL] at h; rw [h.2] at hr; cases hr
  | n :: ns, _, _, h, r, hr => by
    simp only [DenL] at h
    obtain ⟨p, qs, G, H, rfl, h1, h2, rfl⟩ := h
    rcases List.mem_append.mp hr with hr | hr
    · exact Den.has h1 r hr
    · exact DenL.has h2 r hr
end

theorem DenL.length {m : Mem} {ns ps F} (h : DenL m ns ps F) : ps.length = ns.length := by
  induction ns generalizing ps F with
  | nil => rw [h.1]; rfl
  | cons n ns ih =>
    obtain ⟨p, qs, G, H, rfl, _, h2, _⟩ := h
    simp [ih h2]

theorem DenL.append {m : Mem} {as bs ps qs F G} (h1 : DenL m as ps F) (h2 : DenL m bs qs G) : DenL m (as ++ bs) (ps ++ qs) (F ++ G) := by
  induction as generalizing ps F with
  | nil => obtain ⟨rfl, rfl⟩ := h1; exact h2
  | cons n as ih =>
    obtain ⟨p, rs, A, B, rfl, h, h', rfl⟩ := h1
    exact ⟨p, rs ++ qs, A, B ++ G, rfl, h, ih h', by simp⟩

theorem DenL.split {m : Mem} {as bs ps F} (h : DenL m (as ++ bs) ps F) :
    ∃ F1 F2, F = F1 ++ F2 ∧ DenL m as (ps.take as.length) F1 ∧ DenL m bs (ps.drop as.length) F2 := by
  induction as generalizing ps F with
  | nil => exact ⟨[], F, rfl, ⟨rfl, rfl⟩, h⟩
  | cons n as ih =>
    obtain ⟨p, rs, A, B, rfl, h, h', rfl⟩ := h
    obtain ⟨F1, F2, rfl, h1, h2⟩ := ih h'
    exact ⟨A ++ F1, F2, by simp, ⟨p, rs.take as.length, A, F1, rfl, h, h1, rfl⟩, h2⟩

theorem DenL.one {m : Mem} {n ps F} (h : DenL m [n] ps F) : ∃ p, ps = [p] ∧ Den m n p F := by
  obtain ⟨p, qs, G, H, rfl, h1, ⟨rfl, rfl⟩, rfl⟩ := h
  exact ⟨p, rfl, by simpa using h1⟩

theorem DenL.single {m : Mem} {n p F} (h : Den m n p F) : DenL m [n] [p] F := ⟨p, [], F, [], rfl, h, ⟨rfl, rfl⟩, by simp⟩

/-! ## The state -/

/-- The parser's tree in memory stands for the model's tree; `F` are the blocks of the nodes on the stack. -/
structure Rep (h : HTree) (t : Tree) (F : List Block) : Prop where
  bound : h.stack.arr < h.mem.arrays.length
  len : h.stack.len ≤ ((h.mem.arrays[h.stack.arr]?).getD []).length
  den : DenL h.mem t.stack.reverse (h.mem.read h.stack) F
  nodup : (Block.arr h.stack.arr :: F).Nodup
  errors : h.errors = t.errors
  marks : h.marks = t.marks

theorem Rep.init : Rep {} {} [] := ⟨by decide, by decide, ⟨rfl, rfl⟩, by simp, rfl, rfl⟩

/-- What the state does not own stays, and stays not owned. -/
def Keeps (h h' : HTree) (F F' : List Block) : Prop :=
  ∀ r, h.mem.Has r → r ∉ Block.arr h.stack.arr :: F → h.mem.Same h'.mem r ∧ r ∉ Block.arr h'.stack.arr :: F'

theorem Mem.Same.refl (m : Mem) (r : Block) : m.Same m r := by cases r <;> rfl

theorem Mem.Same.trans {m m' m'' : Mem} {r : Block} (h : m.Same m' r) (h' : m'.Same m'' r) : m.Same m'' r := by
  cases r <;> exact Eq.trans h' h

theorem Keeps.refl (h : HTree) (F : List Block) : Keeps h h F F := fun r _ hn => ⟨.refl _ r, hn⟩

theorem Keeps.trans {h h' h'' F F' F''} (k : Keeps h h' F F') (k' : Keeps h' h'' F' F'') : Keeps h h'' F F'' := by
  intro r hr hn
  obtain ⟨h1, h2⟩ := k r hr hn
  obtain ⟨h3, h4⟩ := k' r (h1.has hr) h2
  exact ⟨h1.trans h3, h4⟩

theorem Rep.length {h t F} (r : Rep h t F) : t.stack.length = h.stack.len := by
  have := r.den.length
  have hl := r.len
  rw [Mem.read, List.length_take, List.length_reverse] at this
  omega

theorem Mem.node_same (m : Mem) (c : Cell) {r : Block} (hr : m.Has r) : m.Same (m.node c).1 r := by
  cases r with
  | cell i => exact List.getElem?_append_left hr
  | arr i => rfl

theorem Mem.list_same (m : Mem) (xs : List Ptr) {r : Block} (hr : m.Has r) : m.Same (m.list xs).1 r := by
  cases r with
  | cell i => rfl
  | arr i => exact List.getElem?_append_left hr

theorem Mem.list_read (m : Mem) (xs : List Ptr) : (m.list xs).1.read (m.list xs).2 = xs := by
  simp [Mem.list, Mem.read]

/-- Appending to a slice. -/
theorem Mem.append_spec (grow : Nat → Nat) (m : Mem) (s : Slice) (p : Ptr) (hb : s.arr < m.arrays.length) (hl : s.len ≤ ((m.arrays[s.arr]?).getD []).length) :
    let (m', s') := m.append grow s p
    m'.read s' = m.read s ++ [p] ∧ s'.arr < m'.arrays.length ∧ s'.len ≤ ((m'.arrays[s'.arr]?).getD []).length ∧
    (∀ r, m.Has r → r ≠ .arr s.arr → m.Same m' r) ∧ (s'.arr = s.arr ∨ s'.arr = m.arrays.length) := by
  rw [Mem.append]
  simp only []
  split
  · rename_i h
    refine ⟨?_, by simpa using hb, ?_, ?_, .inl rfl⟩
    · simp only [Mem.read, List.getElem?_set_self hb, Option.getD_some]
      rw [List.take_add_one, List.getElem?_set_self h, List.take_set_of_le (by omega)]
      rfl
    · simp only [List.getElem?_set_self hb, Option.getD_some, List.length_set]
      omega
    · intro r hr hn
      cases r with
      | cell i => rfl
      | arr i => exact List.getElem?_set_ne (fun e => hn (by rw [e]))
  · rename_i h
    have e : s.len = ((m.arrays[s.arr]?).getD []).length := by omega
    simp only [Mem.list]
    refine ⟨?_, by simp, ?_, ?_, by simp⟩
    · simp only [Mem.read, List.getElem?_concat_length, Option.getD_some]
      rw [List.take_append, List.length_take, Nat.min_eq_left (by omega), List.take_take, Nat.min_eq_right (by omega)]
      simp
    · simp [Nat.min_eq_left (Nat.le_of_eq e)]
    · intro r hr _
      cases r with
      | cell i => rfl
      | arr i => exact List.getElem?_append_left hr

/-- Pushing a new node whose parts `E` are loose. -/
theorem Rep.push {grow h t F E c n} (r : Rep h t F)
    (hn : Den (h.mem.node c).1 n (some h.mem.cells.length) (.cell h.mem.cells.length :: E))
    (hE : ∀ x ∈ E, h.mem.Has x) (hnd : (Block.arr h.stack.arr :: (F ++ E)).Nodup) :
    ∃ F', Rep (h.push grow c) (t.push n) F' ∧ Keeps h (h.push grow c) (F ++ E) F' := by
  have hs := Mem.append_spec grow (h.mem.node c).1 h.stack (some h.mem.cells.length) r.bound r.len
  have hpush : h.push grow c = { h with
      mem := ((h.mem.node c).1.append grow h.stack (some h.mem.cells.length)).1,
      stack := ((h.mem.node c).1.append grow h.stack (some h.mem.cells.length)).2 } := rfl
  generalize ((h.mem.node c).1.append grow h.stack (some h.mem.cells.length)) = ms at hs hpush
  obtain ⟨m', s'⟩ := ms
  obtain ⟨h1, h2, h3, h4, h5⟩ := hs
  rw [hpush]
  simp only [List.nodup_cons, List.mem_append, not_or] at hnd
  have hF := r.den.has
  have key : ∀ x ∈ F, h.mem.Same m' x := by
    intro x hx
    refine ((h.mem.node_same c (hF x hx)).trans (h4 x ((h.mem.node_same c (hF x hx)).has (hF x hx)) ?_))
    rintro rfl; exact hnd.1.1 hx
  have hk : Block.cell h.mem.cells.length ∉ F ∧ Block.cell h.mem.cells.length ∉ E :=
    ⟨fun hx => Nat.lt_irrefl _ (hF _ hx), fun hx => Nat.lt_irrefl _ (hE _ hx)⟩
  refine ⟨F ++ .cell h.mem.cells.length :: E, ⟨h2, h3, ?_, ?_, r.errors, r.marks⟩, ?_⟩
  · show DenL m' (n :: t.stack).reverse (m'.read s') _
    rw [h1, List.reverse_cons]
    refine (r.den.frame key).append (DenL.single (hn.frame ?_))
    intro x hx
    refine h4 x (hn.has x hx) ?_
    rintro rfl
    rcases List.mem_cons.mp hx with hx | hx
    · cases hx
    · exact hnd.1.2 hx
  · have hp : (F ++ .cell h.mem.cells.length :: E).Nodup := by
      rw [List.nodup_append] at hnd ⊢
      refine ⟨hnd.2.1, List.nodup_cons.mpr ⟨hk.2, hnd.2.2.1⟩, ?_⟩
      intro a ha b hb
      rcases List.mem_cons.mp hb with rfl | hb
      · rintro rfl; exact hk.1 ha
      · exact hnd.2.2.2 a ha b hb
    refine List.nodup_cons.mpr ⟨?_, hp⟩
    intro hx
    simp only [List.mem_append, List.mem_cons, reduceCtorEq, false_or] at hx
    rcases h5 with h5 | h5
    · rw [h5] at hx; exact hx.elim hnd.1.1 hnd.1.2
    · have : h.mem.Has (.arr s'.arr) := hx.elim (hF _) (hE _)
      rw [h5] at this
      exact Nat.lt_irrefl _ this
  · intro x hx hn
    simp only [List.mem_cons, List.mem_append, not_or] at hn
    refine ⟨(h.mem.node_same c hx).trans (h4 x ((h.mem.node_same c hx).has hx) hn.1), ?_⟩
    simp only [List.mem_cons, List.mem_append, not_or]
    refine ⟨?_, hn.2.1, ?_, hn.2.2⟩
    · rintro rfl
      rcases h5 with h5 | h5
      · rw [h5] at hn; exact hn.1 rfl
      · rw [h5] at hx; exact Nat.lt_irrefl _ hx
    · rintro rfl; exact Nat.lt_irrefl _ hx

/-- Popping. -/
theorem Rep.pop {h t F} (r : Rep h t F) :
    ∃ F1 E, F = F1 ++ E ∧ Den h.mem t.pop.1 h.pop.1 E ∧ Rep h.pop.2 t.pop.2 F1 ∧ h.pop.2.mem = h.mem ∧ h.pop.2.stack.arr = h.stack.arr := by
  have hl := r.length
  obtain ⟨m, ⟨a, len⟩, es, ms⟩ := h
  obtain ⟨st, es', ms'⟩ := t
  cases st with
  | nil =>
    simp only [List.length_nil] at hl
    subst hl
    exact ⟨F, [], by simp, ⟨rfl, rfl⟩, r, rfl, rfl⟩
  | cons n st =>
    simp only [List.length_cons] at hl
    subst hl
    have hd := r.den
    simp only [List.reverse_cons] at hd
    obtain ⟨F1, E, rfl, h1, h2⟩ := hd.split
    simp only [List.length_reverse] at h1 h2
    obtain ⟨p, hp, h2⟩ := h2.one
    have hln := r.len
    have hrd : (m.read ⟨a, st.length + 1⟩).take st.length = m.read ⟨a, st.length⟩ := by
      simp only [Mem.read, List.take_take]; congr 1; omega
    have hg : (m.read ⟨a, st.length + 1⟩)[st.length]? = some p := by
      have := congrArg (fun l => l[0]?) hp
      simpa [List.getElem?_drop] using this
    refine ⟨F1, E, rfl, ?_, ⟨r.bound, Nat.le_trans (Nat.le_succ _) r.len, ?_, ?_, r.errors, r.marks⟩, rfl, rfl⟩
    · simp only [Tree.pop, HTree.pop, hg, Option.getD_some]; exact h2
    · simp only [Tree.pop, HTree.pop]; rw [← hrd]; exact h1
    · have := r.nodup
      rw [← List.cons_append, List.nodup_append] at this
      exact this.1

theorem Rep.pop' {h t F} (r : Rep h t F) :
    ∃ p h' n t' F1 E, h.pop = (p, h') ∧ t.pop = (n, t') ∧ F = F1 ++ E ∧ Den h.mem n p E ∧ Rep h' t' F1 ∧ h'.mem = h.mem ∧
      h'.stack.arr = h.stack.arr := by
  obtain ⟨F1, E, h1, h2, h3, h4, h5⟩ := r.pop
  exact ⟨_, _, _, _, F1, E, rfl, rfl, h1, h2, h3, h4, h5⟩

/-- One action keeps both. -/
def Moves (h : HTree) (F : List Block) (h' : HTree) (t' : Tree) : Prop := ∃ F', Rep h' t' F' ∧ Keeps h h' F F'

theorem Mem.node_at (m : Mem) (c : Cell) : (m.node c).1.At (some m.cells.length) m.cells.length c := ⟨rfl, by simp [Mem.node]⟩

/-- Pushing on a state whose popped nodes are loose. -/
theorem Rep.push' {grow h h0 t F E c n} (r : Rep h t F) (hm : h.mem = h0.mem) (ha : h.stack.arr = h0.stack.arr)
    (hn : ∀ m i, m.At (some i) i c → (∀ x ∈ E, h0.mem.Same m x) → Den m n (some i) (.cell i :: E))
    (hE : ∀ x ∈ E, h0.mem.Has x) (hnd : (Block.arr h0.stack.arr :: (F ++ E)).Nodup) : Moves h0 (F ++ E) (h.push grow c) (t.push n) := by
  obtain ⟨F', h1, h2⟩ := r.push (grow := grow) (c := c) (n := n) (E := E)
    (hn _ _ (h.mem.node_at c) fun x hx => hm ▸ h.mem.node_same c (by rw [hm]; exact hE x hx)) (by rw [hm]; exact hE) (by rw [ha]; exact hnd)
  refine ⟨F', h1, ?_⟩
  intro x hx hn
  rw [← hm] at hx ⊢
  rw [← ha] at hn
  exact h2 x hx hn

theorem Rep.leaf {grow h t F c n} (r : Rep h t F) (hn : ∀ m i, m.At (some i) i c → Den m n (some i) [.cell i]) :
    Moves h F (h.push grow c) (t.push n) := by
  have := r.push' (grow := grow) (E := []) rfl rfl (fun m i ha _ => hn m i ha) (by intro x hx; cases hx) (by simpa using r.nodup)
  simpa using this

theorem moves_logic {grow h t F} (r : Rep h t F) : Moves h F (h.popLogic grow) t.popLogic := by
  obtain ⟨p1, h1, n1, t1, F1, E1, e1, e1', rfl, d1, r1, m1, a1⟩ := r.pop'
  obtain ⟨p2, h2, n2, t2, F2, E2, e2, e2', rfl, d2, r2, m2, a2⟩ := r1.pop'
  obtain ⟨p3, h3, n3, t3, F3, E3, e3, e3', rfl, d3, r3, m3, a3⟩ := r2.pop'
  rw [m1] at d2
  rw [m2, m1] at d3
  simp only [HTree.popLogic, Tree.popLogic, e1, e1', e2, e2', e3, e3']
  have := r3.push' (grow := grow) (h0 := h) (E := E3 ++ E2 ++ E1) (c := { type := .logic, left := p3, op := p2, right := p1 })
    (n := .logic n3 n2 n1) (by rw [m3, m2, m1]) (by rw [a3, a2, a1]) (fun m i ha hs => by
      simp only [Den]
      exact ⟨i, p3, p2, p1, E3, E2, E1, ha, d3.frame fun x hx => hs x (by simp [hx]), d2.frame fun x hx => hs x (by simp [hx]),
        d1.frame fun x hx => hs x (by simp [hx]), rfl⟩) (fun x hx => by
      simp only [List.mem_append] at hx
      rcases hx with (hx | hx) | hx
      · exact d3.has x hx
      · exact d2.has x hx
      · exact d1.has x hx) (by simpa using r.nodup)
  simpa using this

theorem moves_compare {grow h t F} (r : Rep h t F) : Moves h F (h.popCompare grow) t.popCompare := by
  obtain ⟨p1, h1, n1, t1, F1, E1, e1, e1', rfl, d1, r1, m1, a1⟩ := r.pop'
  obtain ⟨p2, h2, n2, t2, F2, E2, e2, e2', rfl, d2, r2, m2, a2⟩ := r1.pop'
  obtain ⟨p3, h3, n3, t3, F3, E3, e3, e3', rfl, d3, r3, m3, a3⟩ := r2.pop'
  rw [m1] at d2
  rw [m2, m1] at d3
  simp only [HTree.popCompare, Tree.popCompare, e1, e1', e2, e2', e3, e3']
  have := r3.push' (grow := grow) (h0 := h) (E := E3 ++ E2 ++ E1) (c := { type := .compare, left := p3, op := p2, right := p1 })
    (n := .cmp n3 n2 n1) (by rw [m3, m2, m1]) (by rw [a3, a2, a1]) (fun m i ha hs => by
      simp only [Den]
      exact ⟨i, p3, p2, p1, E3, E2, E1, ha, d3.frame fun x hx => hs x (by simp [hx]), d2.frame fun x hx => hs x (by simp [hx]),
        d1.frame fun x hx => hs x (by simp [hx]), rfl⟩) (fun x hx => by
      simp only [List.mem_append] at hx
      rcases hx with (hx | hx) | hx
      · exact d3.has x hx
      · exact d2.has x hx
      · exact d1.has x hx) (by simpa using r.nodup)
  simpa using this

theorem moves_predicate {grow h t F} (r : Rep h t F) : Moves h F (h.popPredicate grow) t.popPredicate := by
  obtain ⟨p1, h1, n1, t1, F1, E1, e1, e1', rfl, d1, r1, m1, a1⟩ := r.pop'
  obtain ⟨p2, h2, n2, t2, F2, E2, e2, e2', rfl, d2, r2, m2, a2⟩ := r1.pop'
  rw [m1] at d2
  simp only [HTree.popPredicate, Tree.popPredicate, e1, e1', e2, e2']
  have := r2.push' (grow := grow) (h0 := h) (E := E2 ++ E1) (c := { type := .predicates, left := p2, op := p1 })
    (n := .pred n2 n1) (by rw [m2, m1]) (by rw [a2, a1]) (fun m i ha hs => by
      simp only [Den]
      exact ⟨i, p2, p1, E2, E1, ha, d2.frame fun x hx => hs x (by simp [hx]), d1.frame fun x hx => hs x (by simp [hx]), rfl⟩) (fun x hx => by
      simp only [List.mem_append] at hx
      rcases hx with hx | hx
      · exact d2.has x hx
      · exact d1.has x hx) (by simpa using r.nodup)
  simpa using this

theorem moves_parentheses {grow h t F} (r : Rep h t F) : Moves h F (h.popParentheses grow) t.popParentheses := by
  obtain ⟨p1, h1, n1, t1, F1, E1, e1, e1', rfl, d1, r1, m1, a1⟩ := r.pop'
  simp only [HTree.popParentheses, Tree.popParentheses, e1, e1']
  exact r1.push' m1 a1 (fun m i ha hs => by simp only [Den]; exact ⟨i, p1, E1, ha, d1.frame hs, rfl⟩) d1.has r.nodup

theorem moves_not {grow h t F} (r : Rep h t F) : Moves h F (h.popNot grow) t.popNot := by
  obtain ⟨p1, h1, n1, t1, F1, E1, e1, e1', rfl, d1, r1, m1, a1⟩ := r.pop'
  simp only [HTree.popNot, Tree.popNot, e1, e1']
  exact r1.push' m1 a1 (fun m i ha hs => by simp only [Den]; exact ⟨i, p1, E1, ha, d1.frame hs, rfl⟩) d1.has r.nodup

/-- A new array beside the state. -/
theorem Rep.list {h t F} (r : Rep h t F) (xs : List Ptr) : Rep { h with mem := (h.mem.list xs).1 } t F where
  bound := by simp [Mem.list]; exact Nat.lt_succ_of_lt r.bound
  len := by
    have := h.mem.list_same xs (r := .arr h.stack.arr) r.bound
    have this : (h.mem.list xs).1.arrays[h.stack.arr]? = h.mem.arrays[h.stack.arr]? := this
    rw [this]; exact r.len
  den := by
    have := Mem.read_frame (s := h.stack) (h.mem.list_same xs (r := .arr h.stack.arr) r.bound)
    show DenL _ _ ((h.mem.list xs).1.read h.stack) _
    rw [this]
    exact r.den.frame fun x hx => h.mem.list_same xs (r.den.has x hx)
  nodup := r.nodup
  errors := r.errors
  marks := r.marks

theorem moves_between {grow h t F} (r : Rep h t F) : Moves h F (h.popBetween grow) t.popBetween := by
  obtain ⟨p1, h1, n1, t1, F1, E1, e1, e1', rfl, d1, r1, m1, a1⟩ := r.pop'
  obtain ⟨p2, h2, n2, t2, F2, E2, e2, e2', rfl, d2, r2, m2, a2⟩ := r1.pop'
  obtain ⟨p3, h3, n3, t3, F3, E3, e3, e3', rfl, d3, r3, m3, a3⟩ := r2.pop'
  obtain ⟨p4, h4, n4, t4, F4, E4, e4, e4', rfl, d4, r4, m4, a4⟩ := r3.pop'
  rw [m1] at d2
  rw [m2, m1] at d3
  rw [m3, m2, m1] at d4
  have hm : h4.mem = h.mem := by rw [m4, m3, m2, m1]
  have hA : h4.stack.arr = h.stack.arr := by rw [a4, a3, a2, a1]
  simp only [HTree.popBetween, Tree.popBetween, e1, e1', e2, e2', e3, e3', e4, e4', hm]
  have hr := r4.list [p2, p1]
  rw [hm] at hr
  have hsm : ∀ x, h.mem.Has x → h.mem.Same (h.mem.list [p2, p1]).1 x := fun x hx => h.mem.list_same _ hx
  have hnd := r.nodup
  have hHas : ∀ x ∈ F4 ++ (E4 ++ E3 ++ E2 ++ E1), h.mem.Has x := fun x hx => r.den.has x (by simpa using hx)
  have key := hr.push' (grow := grow) (h0 := { h4 with mem := (h.mem.list [p2, p1]).1 }) (E := .arr h.mem.arrays.length :: (E4 ++ E3 ++ E2 ++ E1))
    (c := { type := .between, left := p4, op := p3, params := (h.mem.list [p2, p1]).2 })
    (n := .between n4 n3 n2 n1) rfl rfl (fun m i ha hs => by
      simp only [Den]
      have hs' : ∀ x ∈ E4 ++ E3 ++ E2 ++ E1, h.mem.Same m x := fun x hx =>
        (hsm x (hHas x (List.mem_append_right _ hx))).trans (hs x (List.mem_cons_of_mem _ hx))
      have hsa := hs (.arr h.mem.arrays.length) List.mem_cons_self
      refine ⟨i, p4, p3, _, p2, p1, E4, E3, E2, E1, ha, d4.frame fun x hx => hs' x (by simp [hx]), d3.frame fun x hx => hs' x (by simp [hx]),
        hsa.has (by simp [Mem.list, Mem.Has]), ?_, d2.frame fun x hx => hs' x (by simp [hx]), d1.frame fun x hx => hs' x (by simp [hx]), rfl⟩
      rw [Mem.read_frame (s := (h.mem.list [p2, p1]).2) hsa]
      exact h.mem.list_read _) (fun x hx => by
      rcases List.mem_cons.mp hx with rfl | hx
      · simp [Mem.list, Mem.Has]
      · exact (hsm x (hHas x (List.mem_append_right _ hx))).has (hHas x (List.mem_append_right _ hx))) (by
      rw [← hA] at hnd
      simp only [List.append_assoc] at hnd hHas ⊢
      have hp : (Block.arr h4.stack.arr :: (F4 ++ Block.arr h.mem.arrays.length :: (E4 ++ (E3 ++ (E2 ++ E1))))).Perm
          (Block.arr h.mem.arrays.length :: Block.arr h4.stack.arr :: (F4 ++ (E4 ++ (E3 ++ (E2 ++ E1))))) :=
        (List.Perm.cons _ List.perm_middle).trans (List.Perm.swap _ _ _)
      refine hp.nodup_iff.mpr (List.nodup_cons.mpr ⟨?_, hnd⟩)
      intro hx
      rcases List.mem_cons.mp hx with hx | hx
      · have := r4.bound
        rw [hm] at this
        injection hx with hx
        omega
      · exact Nat.lt_irrefl _ (hHas _ hx))
  obtain ⟨F', k1, k2⟩ := key
  refine ⟨F', k1, ?_⟩
  intro x hx hn
  have h1 := hsm x hx
  obtain ⟨h3, h4'⟩ := k2 x (h1.has hx) (by
    simp only [List.mem_cons, List.mem_append, not_or] at hn ⊢
    rw [hA]
    refine ⟨hn.1, hn.2.1.1.1.1, ?_, ⟨⟨hn.2.1.1.1.2, hn.2.1.1.2⟩, hn.2.1.2⟩, hn.2.2⟩
    rintro rfl; exact Nat.lt_irrefl _ hx)
  exact ⟨h1.trans h3, h4'⟩

theorem Rep.marked {h t F} (r : Rep h t F) :
    (h.popMarked = none ∧ t.popMarked = none) ∨
    ∃ xs h' ns t' F1 E, h.popMarked = some ((h.mem.list xs).2, h') ∧ t.popMarked = some (ns, t') ∧ F = F1 ++ E ∧ h'.mem = (h.mem.list xs).1 ∧
      DenL h.mem ns xs E ∧ Rep h' t' F1 ∧ h'.stack.arr = h.stack.arr := by
  have hl := r.length
  have hm := r.marks
  unfold HTree.popMarked Tree.popMarked
  rw [hm]
  cases hms : t.marks with
  | nil => exact .inl ⟨rfl, rfl⟩
  | cons mk ms =>
    simp only [hl]
    by_cases hlt : h.stack.len < mk
    · rw [if_pos hlt, if_pos hlt]; exact .inl ⟨rfl, rfl⟩
    · rw [if_neg hlt, if_neg hlt]
      right
      have hd := r.den
      have hrev : t.stack.reverse = (t.stack.drop (h.stack.len - mk)).reverse ++ (t.stack.take (h.stack.len - mk)).reverse := by
        rw [← List.reverse_append, List.take_append_drop]
      rw [hrev] at hd
      obtain ⟨F1, E, rfl, h1, h2⟩ := hd.split
      have hlen : (t.stack.drop (h.stack.len - mk)).reverse.length = mk := by simp; omega
      rw [hlen] at h1 h2
      refine ⟨_, _, _, _, F1, E, rfl, rfl, rfl, rfl, h2, ?_, rfl⟩
      have hnd := r.nodup
      rw [← List.cons_append, List.nodup_append] at hnd
      refine ⟨?_, ?_, ?_, hnd.1, r.errors, rfl⟩
      · simp [Mem.list]; exact Nat.lt_succ_of_lt r.bound
      · have := (r.list ((h.mem.read h.stack).drop mk)).len
        exact Nat.le_trans (Nat.le_of_not_lt hlt) this
      · have := Mem.read_frame (s := { h.stack with len := mk }) (h.mem.list_same ((h.mem.read h.stack).drop mk) (r := .arr h.stack.arr) r.bound)
        show DenL (h.mem.list _).1 _ ((h.mem.list _).1.read { h.stack with len := mk }) _
        rw [this]
        have hrd : (h.mem.read h.stack).take mk = h.mem.read { h.stack with len := mk } := by
          simp only [Mem.read, List.take_take]; congr 1; omega
        rw [← hrd]
        exact h1.frame fun x hx => h.mem.list_same _ (h1.has x hx)

/-- Pushing a node that refers to a list made from loose nodes. -/
theorem Rep.pushList {grow h h0 t F E xs c n} (r : Rep h t F) (hm : h.mem = (h0.mem.list xs).1) (ha : h.stack.arr = h0.stack.arr)
    (hb : h0.stack.arr < h0.mem.arrays.length)
    (hn : ∀ m i, m.At (some i) i c → m.read (h0.mem.list xs).2 = xs → (h0.mem.list xs).2.arr < m.arrays.length → (∀ x ∈ E, h0.mem.Same m x) →
      Den m n (some i) (.cell i :: .arr h0.mem.arrays.length :: E))
    (hE : ∀ x ∈ F ++ E, h0.mem.Has x) (hnd : (Block.arr h0.stack.arr :: (F ++ E)).Nodup) : Moves h0 (F ++ E) (h.push grow c) (t.push n) := by
  have hsm : ∀ x, h0.mem.Has x → h0.mem.Same h.mem x := fun x hx => hm ▸ h0.mem.list_same _ hx
  have key := r.push' (grow := grow) (h0 := h) (E := .arr h0.mem.arrays.length :: E) (c := c) (n := n) rfl rfl (fun m i hat hs => by
      have hsa := hs (.arr h0.mem.arrays.length) List.mem_cons_self
      refine hn m i hat ?_ (hsa.has (by rw [hm]; simp [Mem.list, Mem.Has])) fun x hx =>
        (hsm x (hE x (List.mem_append_right _ hx))).trans (hs x (List.mem_cons_of_mem _ hx))
      rw [Mem.read_frame (s := (h0.mem.list xs).2) hsa, hm]
      exact h0.mem.list_read _) (fun x hx => by
      rcases List.mem_cons.mp hx with rfl | hx
      · rw [hm]; simp [Mem.list, Mem.Has]
      · exact (hsm x (hE x (List.mem_append_right _ hx))).has (hE x (List.mem_append_right _ hx))) (by
      rw [← ha] at hnd
      have hp : (Block.arr h.stack.arr :: (F ++ Block.arr h0.mem.arrays.length :: E)).Perm
          (Block.arr h0.mem.arrays.length :: Block.arr h.stack.arr :: (F ++ E)) :=
        (List.Perm.cons _ List.perm_middle).trans (List.Perm.swap _ _ _)
      refine hp.nodup_iff.mpr (List.nodup_cons.mpr ⟨?_, hnd⟩)
      intro hx
      rcases List.mem_cons.mp hx with hx | hx
      · injection hx with hx
        omega
      · exact Nat.lt_irrefl _ (hE _ hx))
  obtain ⟨F', k1, k2⟩ := key
  refine ⟨F', k1, ?_⟩
  intro x hx hn
  have h1 := hsm x hx
  obtain ⟨h3, h4'⟩ := k2 x (h1.has hx) (by
    simp only [List.mem_cons, List.mem_append, not_or] at hn ⊢
    rw [ha]
    refine ⟨hn.1, hn.2.1, ?_, hn.2.2⟩
    rintro rfl; exact Nat.lt_irrefl _ hx)
  exact ⟨h1.trans h3, h4'⟩

/-- Actions that may panic: both do, or neither. -/
def Moves? (h : HTree) (F : List Block) (h' : Option HTree) (t' : Option Tree) : Prop :=
  (h' = none ∧ t' = none) ∨ ∃ h1 t1, h' = some h1 ∧ t' = some t1 ∧ Moves h F h1 t1

theorem moves_array {grow h t F} (r : Rep h t F) : Moves? h F (h.popArray grow) t.popArray := by
  rcases r.marked with ⟨e1, e2⟩ | ⟨xs, h', ns, t', F1, E, e1, e2, rfl, hm, hd, r', ha⟩
  · exact .inl ⟨by simp [HTree.popArray, e1], by simp [Tree.popArray, e2]⟩
  · simp only [HTree.popArray, Tree.popArray, e1, e2]
    refine .inr ⟨_, _, rfl, rfl, ?_⟩
    refine r'.pushList hm ha r.bound (fun m i hat hr hb hs => ?_) r.den.has r.nodup
    simp only [Den]
    exact ⟨i, _, E, hat, hb, by rw [hr]; exact hd.frame hs, rfl⟩

theorem Den.nodeName {m : Mem} {n p F} (h : Den m n p F) : HTree.nodeName m p = Tree.nodeName n := by
  cases n <;> simp only [Den] at h
  case nil => rw [h.1]; rfl
  case int | bool | str | null | op | ident | ref => obtain ⟨i, ⟨rfl, ha⟩, _⟩ := h; simp [HTree.nodeName, Tree.nodeName, ha]
  case arr | func | paren | not => obtain ⟨i, _, _, ⟨rfl, ha⟩, _⟩ := h; simp [HTree.nodeName, Tree.nodeName, ha]
  case pred => obtain ⟨i, _, _, _, _, ⟨rfl, ha⟩, _⟩ := h; simp [HTree.nodeName, Tree.nodeName, ha]
  case cmp | logic => obtain ⟨i, _, _, _, _, _, _, ⟨rfl, ha⟩, _⟩ := h; simp [HTree.nodeName, Tree.nodeName, ha]
  case between => obtain ⟨i, _, _, _, _, _, _, _, _, _, ⟨rfl, ha⟩, _⟩ := h; simp [HTree.nodeName, Tree.nodeName, ha]

theorem DenL.names {m : Mem} {ns ps F} (h : DenL m ns ps F) : ps.mapM (HTree.nodeName m) = ns.mapM Tree.nodeName := by
  induction ns generalizing ps F with
  | nil => rw [h.1]; rfl
  | cons n ns ih =>
    obtain ⟨p, qs, G, H, rfl, h1, h2, rfl⟩ := h
    simp only [List.mapM_cons, h1.nodeName, ih h2]

/-- Blocks that are given up. -/
theorem Keeps.less {h0 h F E} (hm : ∀ x, h0.mem.Has x → h0.mem.Same h.mem x) (ha : h.stack.arr = h0.stack.arr) : Keeps h0 h (F ++ E) F := by
  intro x hx hn
  simp only [List.mem_cons, List.mem_append, not_or] at hn
  exact ⟨hm x hx, by simp only [List.mem_cons, not_or, ha]; exact ⟨hn.1, hn.2.1⟩⟩

theorem Moves.after {h0 h F F1 h' t'} (k : Keeps h0 h F F1) (m : Moves h F1 h' t') : Moves h0 F h' t' := by
  obtain ⟨F', h1, h2⟩ := m
  exact ⟨F', h1, k.trans h2⟩

theorem moves_reference {grow h t F} (r : Rep h t F) : Moves? h F (h.popIdentifierReference grow) t.popIdentifierReference := by
  rcases r.marked with ⟨e1, e2⟩ | ⟨xs, h', ns, t', F1, E, e1, e2, rfl, hm, hd, r', ha⟩
  · exact .inl ⟨by simp [HTree.popIdentifierReference, e1], by simp [Tree.popIdentifierReference, e2]⟩
  · have hsm : ∀ x, h.mem.Has x → h.mem.Same h'.mem x := fun x hx => hm ▸ h.mem.list_same _ hx
    have hn : (h'.mem.read (h.mem.list xs).2).mapM (HTree.nodeName h'.mem) = ns.mapM Tree.nodeName := by
      rw [hm, h.mem.list_read, ← hm]
      exact (hd.frame fun x hx => hsm x (hd.has x hx)).names
    simp only [HTree.popIdentifierReference, Tree.popIdentifierReference, e1, e2, hn]
    cases ns.mapM Tree.nodeName with
    | none => exact .inl ⟨rfl, rfl⟩
    | some l =>
      refine .inr ⟨_, _, rfl, rfl, .after (.less hsm ha) (r'.leaf fun m i hat => ?_)⟩
      simp only [Den]
      exact ⟨i, hat, rfl⟩

theorem Rep.addError {h t F} (r : Rep h t F) (e : Option Err) : Rep (h.addError e) (t.addError e) F := by
  cases e with
  | none => exact r
  | some e => exact ⟨r.bound, r.len, r.den, r.nodup, by simp [HTree.addError, Tree.addError, r.errors], r.marks⟩

theorem Keeps.addError {h F} (e : Option Err) : Keeps h (h.addError e) F F := by
  cases e with
  | none => exact .refl h F
  | some e => exact fun r _ hn => ⟨.refl _ r, hn⟩

theorem moves_function {grow h t F} (r : Rep h t F) : Moves h F (h.popFunction grow) t.popFunction := by
  obtain ⟨p1, h1, n1, t1, F1, E1, e1, e1', rfl, d1, r1, m1, a1⟩ := r.pop'
  obtain ⟨p2, h2, n2, t2, F2, E2, e2, e2', rfl, d2, r2, m2, a2⟩ := r1.pop'
  rw [m1] at d2
  have hm : h2.mem = h.mem := by rw [m2, m1]
  have ha : h2.stack.arr = h.stack.arr := by rw [a2, a1]
  have hfail : Moves h (F2 ++ E2 ++ E1) (h2.addError (some .badFunction)) (t2.addError (some .badFunction)) := by
    refine ⟨F2, r2.addError _, ?_⟩
    rw [List.append_assoc]
    exact (Keeps.less (fun x _ => by rw [hm]; exact .refl _ x) ha).trans (.addError _)
  simp only [HTree.popFunction, Tree.popFunction, e1, e1', e2, e2']
  by_cases hx : ∃ x l, n2 = .ident x ∧ n1 = .arr l
  · obtain ⟨x, l, rfl, rfl⟩ := hx
    simp only [Den] at d1 d2
    obtain ⟨i, s, G, ⟨rfl, hi⟩, hb, hl, rfl⟩ := d1
    obtain ⟨j, ⟨rfl, hj⟩, rfl⟩ := d2
    simp only [HTree.deref, hm, hi, hj, and_self, if_true]
    have hnd := r.nodup
    have hsub : (Block.arr h.stack.arr :: (F2 ++ (.arr s.arr :: G))).Nodup := by
      refine hnd.sublist (List.Sublist.cons_cons _ ?_)
      rw [List.append_assoc]
      exact List.Sublist.append (List.Sublist.refl _) ((List.Sublist.refl _).cons _ |>.cons _)
    have hE : ∀ x ∈ Block.arr s.arr :: G, h.mem.Has x := by
      intro x hx
      rcases List.mem_cons.mp hx with rfl | hx
      · exact hb
      · exact hl.has x hx
    have key := r2.push' (grow := grow) (h0 := h) (E := .arr s.arr :: G) (c := { type := .function, name := x, params := s }) (n := .func x l)
      hm ha (fun m k hat hs => by
        simp only [Den]
        have hsa := hs (.arr s.arr) List.mem_cons_self
        refine ⟨k, s, G, hat, hsa.has hb, ?_, rfl⟩
        rw [Mem.read_frame (s := s) hsa]
        exact hl.frame fun y hy => hs y (List.mem_cons_of_mem _ hy)) hE hsub
    obtain ⟨F', k1, k2⟩ := key
    refine ⟨F', k1, fun y hy hn => k2 y hy ?_⟩
    simp only [List.mem_cons, List.mem_append, not_or] at hn ⊢
    exact ⟨hn.1, hn.2.1.1, hn.2.2.2.1, hn.2.2.2.2⟩
  · have hno : ¬ (∃ a n, h2.deref p1 = some a ∧ h2.deref p2 = some n ∧ (n.type = .identifier ∧ a.type = .value ∧ a.valueType = .array)) := by
      rintro ⟨a, n, ea, en, h5, h6, h7⟩
      refine hx ?_
      have hn2 : ∃ x, n2 = .ident x := by
        cases n2 <;> simp only [Den] at d2
        case ident x => exact ⟨x, rfl⟩
        case nil => rw [d2.1] at en; cases en
        case int | bool | str | null | op | ref => obtain ⟨i, ⟨rfl, hi⟩, _⟩ := d2; simp only [HTree.deref, hm, hi, Option.some.injEq] at en; subst en; cases h5
        case arr | func | paren | not => obtain ⟨i, _, _, ⟨rfl, hi⟩, _⟩ := d2; simp only [HTree.deref, hm, hi, Option.some.injEq] at en; subst en; cases h5
        case pred => obtain ⟨i, _, _, _, _, ⟨rfl, hi⟩, _⟩ := d2; simp only [HTree.deref, hm, hi, Option.some.injEq] at en; subst en; cases h5
        case cmp | logic => obtain ⟨i, _, _, _, _, _, _, ⟨rfl, hi⟩, _⟩ := d2; simp only [HTree.deref, hm, hi, Option.some.injEq] at en; subst en; cases h5
        case between => obtain ⟨i, _, _, _, _, _, _, _, _, _, ⟨rfl, hi⟩, _⟩ := d2; simp only [HTree.deref, hm, hi, Option.some.injEq] at en; subst en; cases h5
      have hn1 : ∃ l, n1 = .arr l := by
        cases n1 <;> simp only [Den] at d1
        case arr l => exact ⟨l, rfl⟩
        case nil => rw [d1.1] at ea; cases ea
        case int | bool | str | null => obtain ⟨i, ⟨rfl, hi⟩, _⟩ := d1; simp only [HTree.deref, hm, hi, Option.some.injEq] at ea; subst ea; cases h7
        case op | ref | ident => obtain ⟨i, ⟨rfl, hi⟩, _⟩ := d1; simp only [HTree.deref, hm, hi, Option.some.injEq] at ea; subst ea; cases h6
        case func | paren | not => obtain ⟨i, _, _, ⟨rfl, hi⟩, _⟩ := d1; simp only [HTree.deref, hm, hi, Option.some.injEq] at ea; subst ea; cases h6
        case pred => obtain ⟨i, _, _, _, _, ⟨rfl, hi⟩, _⟩ := d1; simp only [HTree.deref, hm, hi, Option.some.injEq] at ea; subst ea; cases h6
        case cmp | logic => obtain ⟨i, _, _, _, _, _, _, ⟨rfl, hi⟩, _⟩ := d1; simp only [HTree.deref, hm, hi, Option.some.injEq] at ea; subst ea; cases h6
        case between => obtain ⟨i, _, _, _, _, _, _, _, _, _, ⟨rfl, hi⟩, _⟩ := d1; simp only [HTree.deref, hm, hi, Option.some.injEq] at ea; subst ea; cases h6
      obtain ⟨x, hx⟩ := hn2
      obtain ⟨l, hl⟩ := hn1
      exact ⟨x, l, hx, hl⟩
    split
    · rename_i a n ea en
      rw [if_neg fun h => hno ⟨a, n, ea, en, h⟩]
      split
      · exact absurd ⟨_, _, rfl, rfl⟩ hx
      · exact hfail
    · split
      · exact absurd ⟨_, _, rfl, rfl⟩ hx
      · exact hfail

theorem Moves.some {h F h' t'} (m : Moves h F h' t') : Moves? h F (some h') (some t') := .inr ⟨_, _, rfl, rfl, m⟩

theorem moves_mark {h t F} (r : Rep h t F) : Moves h F h.addMark t.addMark :=
  ⟨F, ⟨r.bound, r.len, r.den, r.nodup, r.errors, by simp [HTree.addMark, Tree.addMark, r.marks, r.length]⟩, fun x _ hn => ⟨.refl _ x, hn⟩⟩

/-- Every action. -/
theorem moves_act {grow h t F} (r : Rep h t F) (n : Nat) (x : Str) : Moves? h F (h.act grow n x) (runAct n x t) := by
  have hop : Moves? h F (some (h.addOperation grow x)) (some (t.addOperation x)) :=
    (r.leaf fun m i hat => by simp only [Den]; exact ⟨i, hat, rfl⟩).some
  have hst : Moves? h F (some (h.addString grow x)) (some (t.addString x)) :=
    (r.leaf fun m i hat => by simp only [Den]; exact ⟨i, hat, rfl⟩).some
  unfold HTree.act runAct
  split <;> first
    | exact (moves_logic r).some
    | exact (moves_not r).some
    | exact (moves_compare r).some
    | exact hop
    | exact (moves_predicate r).some
    | exact (moves_between r).some
    | exact (moves_parentheses r).some
    | exact (moves_function r).some
    | exact (moves_mark r).some
    | exact moves_array r
    | exact moves_reference r
    | exact hst
    | exact (r.leaf fun m i hat => by simp only [Den]; exact ⟨i, hat, rfl⟩).some
    | exact (Moves.after (.addError _) ((r.addError _).leaf fun m i hat => by simp only [Den]; exact ⟨i, hat, rfl⟩)).some
    | (split <;> first | exact Moves.some ⟨F, r, .refl h F⟩ | (exfalso; simp_all))

/-- Every run. -/
theorem moves_run {grow} (evs : List Ev) : ∀ {h t F} (x : Str), Rep h t F → Moves? h F (HTree.run grow x evs h) (runEvs x evs t) := by
  induction evs with
  | nil => intro h t F x r; exact Moves.some ⟨F, r, .refl h F⟩
  | cons e evs ih =>
    intro h t F x r
    cases e with
    | text s => exact ih s r
    | act n =>
      simp only [HTree.run, runEvs]
      rcases moves_act (grow := grow) r n x with ⟨e1, e2⟩ | ⟨h1, t1, e1, e2, F1, r1, k1⟩
      · rw [e1, e2]; exact .inl ⟨rfl, rfl⟩
      · rw [e1, e2]
        rcases ih (h := h1) x r1 with h2 | ⟨h2, t2, e3, e4, m2⟩
        · exact .inl h2
        · exact .inr ⟨h2, t2, e3, e4, m2.after k1⟩

end Verif
