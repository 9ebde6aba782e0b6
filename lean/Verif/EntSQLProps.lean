import Verif.EntSQLThms
import Verif.Spec.EntSQL
import Verif.Digits
import Verif.Soundness
import Verif.EntQLThms

/-! # Helper lemmas for the properties of the ent SQL translator -/

namespace Verif

/-! ## Query -/

/-- What `Query` on a fresh builder does, in terms of the pieces. -/
theorem query_fresh (E : SEnv) {d k node q n} (h : parse q = .ok n) :
    sQuery E (SB.fresh d k node q) = match (semit E node n).2 with
      | .panic => (.panic, { SB.fresh d k node q with ast := some n })
      | .err e => (.ret [] [], { SB.fresh d k node q with ast := some n, mb := { own := ({ dialect := d, total := k } : Bld).add (ptext d k ((semit E node n).1.map Prod.snd)) (pargs ((semit E node n).1.map Prod.snd)) (perrs ((semit E node n).1.map Prod.snd) ++ [e]) } })
      | .ok => (.ret (ptext d k ((semit E node n).1.map Prod.snd)) (pargs ((semit E node n).1.map Prod.snd)), { SB.fresh d k node q with ast := some n, mb := { own := ({ dialect := d, total := k } : Bld).add (ptext d k ((semit E node n).1.map Prod.snd)) (pargs ((semit E node n).1.map Prod.snd)) (perrs ((semit E node n).1.map Prod.snd)) } }) := by
  unfold sQuery SB.fresh
  simp only [h, svisit_emit]
  obtain ⟨l, e⟩ := semit E node n
  cases e with
  | panic => rfl
  | err e => simp [sOut, runAll_own, runP_eq, Bld.add, Bld.addErr]
  | ok => simp [sOut, runAll_own, runP_eq, Bld.add]

/-! ## Placeholders -/

/-- No placeholders, and no digit at the start. -/
def NoMark (s : Str) : Prop := '$' ∉ s ∧ ∀ c t, s = c :: t → c.isDigit = false

def CleanP (d : Str) : Piece → Prop
  | .txt f => NoMark (f d)
  | _ => True

theorem marks_clean {s t : Str} (h : '$' ∉ s) : marks (s ++ t) = marks t := by
  induction s with
  | nil => rfl
  | cons c s ih =>
    simp only [List.mem_cons, not_or] at h
    simp [marks, Ne.symm h.1, ih h.2]

theorem decNat_eq (s : Str) : decNat s = decValue 0 s := by
  unfold decNat decValue
  congr

theorem decNat_toDigits (k : Nat) : decNat (Nat.toDigits 10 k) = k := by
  rw [decNat_eq, (toDigits_digits k).2.1]

def headOk (t : Str) : Prop := ∀ c t', t = c :: t' → c.isDigit = false

theorem takeWhile_digits {u t : Str} (hu : ∀ c ∈ u, c.isDigit) (ht : headOk t) : (u ++ t).takeWhile Char.isDigit = u := by
  induction u with
  | nil =>
    cases t with
    | nil => rfl
    | cons c t => simp [ht c t rfl]
  | cons c u ih => simp [hu c (by simp), ih (fun x hx => hu x (List.mem_cons_of_mem _ hx))]

theorem digit_not_dollar {u : Str} (hu : ∀ c ∈ u, c.isDigit) : '$' ∉ u := fun h => by have := hu _ h; revert this; decide

theorem marks_holder {k : Nat} {t : Str} (ht : headOk t) : marks ('$' :: Nat.toDigits 10 k ++ t) = k :: marks t := by
  have hd := (toDigits_digits k).1
  simp only [List.cons_append, marks, if_true, takeWhile_digits hd ht, decNat_toDigits, marks_clean (digit_not_dollar hd)]

theorem headOk_append {s t : Str} (hs : headOk s) (ht : headOk t) : headOk (s ++ t) := by
  intro c t' h
  cases s with
  | nil => exact ht c t' h
  | cons x s => cases h; exact hs _ _ rfl

theorem marks_pieces {l : List Piece} (h : ∀ p ∈ l, CleanP c!"postgres" p) :
    ∀ k, marks (ptext c!"postgres" k l) = List.range' (k + 1) (pargs l).length ∧ headOk (ptext c!"postgres" k l) := by
  induction l with
  | nil => intro k; exact ⟨rfl, nofun⟩
  | cons p l ih =>
    intro k
    have ih := ih fun p hp => h p (List.mem_cons_of_mem _ hp)
    cases p with
    | txt f =>
      have hc : NoMark (f c!"postgres") := h _ (List.mem_cons_self)
      have e : pargs (.txt f :: l) = pargs l := rfl
      rw [ptext, e, marks_clean hc.1]
      exact ⟨(ih k).1, headOk_append hc.2 (ih k).2⟩
    | fail e => exact ih k
    | par a =>
      have hm : ∀ c : Str, '$' ∉ c → headOk c →
          marks ('$' :: Nat.toDigits 10 (k + 1) ++ c ++ ptext c!"postgres" (k + 1) l) = List.range' (k + 1) ((pargs l).length + 1) ∧
          headOk ('$' :: Nat.toDigits 10 (k + 1) ++ c ++ ptext c!"postgres" (k + 1) l) := by
        intro c h1 h2
        refine ⟨?_, fun x t' e => by cases e; decide⟩
        rw [List.append_assoc, marks_holder (headOk_append h2 (ih (k + 1)).2), marks_clean h1, (ih (k + 1)).1]
        rfl
      have hn : headOk [] := nofun
      cases a with
      | plain v =>
        cases v with
        | nil =>
          rw [ptext, pargs]
          exact ⟨by rw [show argText c!"postgres" k (.plain .nil) = c!"NULL" from rfl, marks_clean (by decide)]; exact (ih k).1, headOk_append (fun c t e => by cases e; decide) (ih k).2⟩
        | _ => simpa [ptext, pargs, argText, argBinds, holder, Nat.add_comm] using hm [] (by simp) hn
      | cast v =>
        cases v with
        | int i =>
          simpa [ptext, pargs, argText, argBinds, holder, formatParam, GoVal.type, Nat.add_comm] using
            hm (c!"::int") (by decide) (fun c t e => by cases e; decide)
        | bool i =>
          simpa [ptext, pargs, argText, argBinds, holder, formatParam, GoVal.type, Nat.add_comm] using
            hm (c!"::bool") (by decide) (fun c t e => by cases e; decide)
        | _ => simpa [ptext, pargs, argText, argBinds, holder, formatParam, GoVal.type, Nat.add_comm] using hm [] (by simp) hn

/-! ## What pieces there are -/

/-- The fixed texts. -/
def entWords : List Str :=
  [c!"(", c!")", c!", ", c!"NOT ", c!"DATE(", c!" AND ", c!" OR ", c!" NOT LIKE ", c!" = ", c!" <> ", c!" > ", c!" >= ", c!" < ", c!" <= ", c!" IN ",
   c!" NOT IN ", c!" LIKE ", c!" IS NULL", c!" IS NOT NULL"]

def AllP (P : Piece → Prop) (r : List Item × SEnd) : Prop := ∀ i ∈ r.1, P i.2

section
variable {P : Piece → Prop} {E : SEnv}

theorem AllP.seq {a b} (ha : AllP P a) (hb : AllP P b) : AllP P (seqE a b) := by
  obtain ⟨l, e⟩ := a
  cases e with
  | ok =>
    intro i hi
    rcases List.mem_append.1 hi with h | h
    · exact ha i h
    · exact hb i h
  | err e => exact ha
  | panic => exact ha

theorem AllP.after {a s} (ha : AllP P a) (hs : P (.txt fun _ => s)) : AllP P (afterE a [wr s]) := by
  intro i hi
  rcases List.mem_append.1 hi with h | h
  · exact ha i h
  · rw [List.mem_singleton.1 h]; exact hs

theorem AllP.before {a s} (ha : AllP P a) (hs : P (.txt fun _ => s)) : AllP P (beforeE [wr s] a) := by
  intro i hi
  rcases List.mem_append.1 hi with h | h
  · rw [List.mem_singleton.1 h]; exact hs
  · exact ha i h

theorem lookup_mem {α β : Type} [BEq α] [LawfulBEq α] {l : List (α × β)} {k v} (h : l.lookup k = some v) : (k, v) ∈ l := by
  induction l with
  | nil => cases h
  | cons p l ih =>
    obtain ⟨a, b⟩ := p
    rw [List.lookup] at h
    split at h
    · cases h; rename_i hk; rw [eq_of_beq hk]; exact List.mem_cons_self
    · exact List.mem_cons_of_mem _ (ih h)

theorem entsqlOps_words {o t} (h : entsqlOps.lookup o = some t) : t ∈ entWords := by
  have := lookup_mem h
  simp only [entsqlOps, List.mem_cons, Prod.mk.injEq, List.not_mem_nil, or_false] at this
  rcases this with h | h | h | h | h | h | h | h | h | h | h <;> rw [h.2] <;> decide

theorem binText_words {o t} (h : binText o = some t) : t ∈ entWords := by
  unfold binText at h
  split at h
  · rename_i h'; cases h; exact entsqlOps_words h'
  · split at h
    · cases h; decide
    · split at h
      · cases h; decide
      · split at h
        · cases h; decide
        · cases h

/-- Every piece written for a tree of the parser satisfies `P`, if the fixed texts, the names, the texts of edges, parameters and errors do. -/
theorem allP (hw : ∀ s ∈ entWords, P (.txt fun _ => s)) (hp : ∀ a, P (.par a)) (hx : ∀ e, P (.fail e)) (hid : ∀ x, IdText x → P (.txt fun d => E.ident d x))
    (he : ∀ t x e, (x, e) ∈ E.edges t → P (.txt e.has) ∧ P (.txt e.pre) ∧ P (.txt e.post)) {n} (hf : Fine n) : ∀ nd, AllP P (semit E nd n) := by
  have hnil : ∀ en, AllP P ([], en) := fun en i hi => by cases hi
  have hlist : ∀ l : List GoVal, ∀ i ∈ parList l, P i.2 := by
    intro l
    induction l with
    | nil => intro i hi; cases hi
    | cons v l ih =>
      cases l with
      | nil => intro i hi; rw [List.mem_singleton.1 hi]; exact hp _
      | cons w l =>
        intro i hi
        have : parList (v :: w :: l) = (false, .par (.plain v)) :: wr c!", " :: parList (w :: l) := rfl
        rw [this] at hi
        rcases List.mem_cons.1 hi with rfl | hi
        · exact hp _
        · rcases List.mem_cons.1 hi with rfl | hi
          · exact hw _ (by decide)
          · exact ih i hi
  have hval : ∀ n, AllP P (emitVal E n) := by
    intro n
    unfold emitVal
    split
    · exact hnil _
    · intro i hi
      rcases List.mem_cons.1 hi with rfl | hi
      · exact hw _ (by decide)
      · rcases List.mem_append.1 hi with hi | hi
        · exact hlist _ i hi
        · rw [List.mem_singleton.1 hi]; exact hw _ (by decide)
    · intro i hi; rw [List.mem_singleton.1 hi]; exact hp _
  have hvn : ∀ {n}, ValNode n → ∀ nd, AllP P (semit E nd n) := by
    intro n h nd
    cases n <;> first | exact h.elim | exact hval _
  have hbin : ∀ {l o r}, AllP P l → AllP P r → AllP P (emitBin l o r) := by
    intro l o r hl hr
    obtain ⟨l, le⟩ := l
    unfold emitBin
    cases le with
    | panic => exact hnil _
    | ok =>
      cases operation o with
      | none => exact hnil _
      | some op =>
        simp only []
        cases hb : binText op with
        | none => exact hl
        | some t => exact AllP.seq (hl.after (hw _ (binText_words hb))) hr
    | err e =>
      cases operation o with
      | none => exact hnil _
      | some op =>
        simp only []
        cases hb : binText op with
        | none => exact hl
        | some t => exact AllP.seq (a := (l ++ [wr t], .err e)) (hl.after (hw _ (binText_words hb))) hr
  have hkeep : ∀ l : List Item, (∀ i ∈ l, P i.2) → (∀ p ∈ keep E.surf l, P p) ∧ ∀ p ∈ failsOf l, P p := by
    intro l
    induction l with
    | nil => intro _; exact ⟨nofun, nofun⟩
    | cons i l ih =>
      intro h
      obtain ⟨h1, h2⟩ := ih fun i hi => h i (List.mem_cons_of_mem _ hi)
      have h0 := h i List.mem_cons_self
      obtain ⟨f, p⟩ := i
      have cons : ∀ {l : List Piece} {p}, P p → (∀ q ∈ l, P q) → ∀ q ∈ p :: l, P q := by
        intro l p hp hl q hq
        rcases List.mem_cons.1 hq with rfl | hq
        · exact hp
        · exact hl q hq
      cases p with
      | txt f => exact ⟨cons h0 h1, h2⟩
      | par a => exact ⟨cons h0 h1, h2⟩
      | fail e =>
        refine ⟨?_, cons h0 h2⟩
        rw [keep]; split
        · exact cons h0 h1
        · exact h1
  have hown : ∀ {l : List Piece} {en}, (∀ p ∈ l, P p) → AllP P (toOwn l, en) := by
    intro l en h i hi
    obtain ⟨p, hp, rfl⟩ := List.mem_map.1 hi
    exact h p hp
  induction hf with
  | val h => exact hvn h
  | op => intro nd; exact hnil _
  | ident h => intro nd i hi; rw [List.mem_singleton.1 hi]; exact hid _ h
  | ref => intro nd; exact hnil _
  | pred _ _ ih =>
    intro nd
    rw [semit]
    simp only [operation]
    split
    · exact hnil _
    · rename_i h; exact (ih nd).after (hw _ (entsqlOps_words h))
  | cmp _ _ _ ih1 _ ih2 => intro nd; exact hbin (ih1 nd) (ih2 nd)
  | logic _ _ _ ih1 _ ih2 => intro nd; exact hbin (ih1 nd) (ih2 nd)
  | paren _ ih => intro nd; exact ((ih nd).before (hw _ (by decide))).after (hw _ (by decide))
  | not _ ih => intro nd; exact (ih nd).before (hw _ (by decide))
  | between _ _ ha hb ih =>
    intro nd
    rw [semit]
    simp only [operation]
    refine ((((ih nd).seq ((hvn ha nd).before (hw _ ?_))).seq ((ih nd).before (hw _ (by decide)))).seq ((hvn hb nd).before (hw _ ?_))) <;> split <;> decide
  | @func f ps _ _ ih =>
    intro nd
    rw [semit]
    have h1 : ∀ (l : List Node), (∀ n ∈ l, ∀ nd, AllP P (semit E nd n)) → ∀ nd, AllP P (semit1 E nd l) := by
      intro l h nd
      cases l with
      | nil => exact hnil _
      | cons n l => exact h n List.mem_cons_self nd
    split
    · exact ((h1 ps ih nd).before (hw _ (by decide))).after (hw _ (by decide))
    · split
      · unfold emitEdge
        cases ps with
        | nil => exact hnil _
        | cons p rest =>
          simp only []
          split
          · exact hnil _
          · cases nd with
            | none => exact hnil _
            | some t =>
              simp only []
              cases hl : (E.edges t).lookup (nodeName p) with
              | none => exact hnil _
              | some e =>
                obtain ⟨e1, e2, e3⟩ := he _ _ _ (lookup_mem hl)
                simp only []
                cases rest with
                | nil => intro i hi; rw [List.mem_singleton.1 hi]; exact e1
                | cons c rest =>
                  cases rest with
                  | cons => exact hnil _
                  | nil =>
                    simp only []
                    split
                    · have hi : AllP P (semit2 E (some e.to) [p, c]) := ih c (by simp) _
                      unfold emitJoin
                      obtain ⟨h3, h4⟩ := hkeep _ hi
                      split
                      · exact hnil _
                      · refine hown fun q hq => ?_
                        rcases List.mem_cons.1 hq with rfl | hq
                        · exact e2
                        · rcases List.mem_append.1 hq with hq | hq
                          · exact h3 q hq
                          · rw [List.mem_singleton.1 hq]; exact e3
                      · refine hown fun q hq => ?_
                        rcases List.mem_cons.1 hq with rfl | hq
                        · exact e2
                        · rcases List.mem_cons.1 hq with rfl | hq
                          · exact e3
                          · split at hq
                            · rcases List.mem_append.1 hq with hq | hq
                              · exact h4 q hq
                              · rw [List.mem_singleton.1 hq]; exact hx _
                            · cases hq
                    · exact hnil _
      · exact hnil _

end

/-! ## Which trees are accepted, and the values bound -/

/-- Pieces of a visit. -/
def pcs (r : List Item × SEnd) : List Piece := r.1.map Prod.snd

theorem pcs_seq {a b : List Item × SEnd} (h : a.2 = .ok) : pcs (seqE a b) = pcs a ++ pcs b ∧ (seqE a b).2 = b.2 := by
  obtain ⟨l, e⟩ := a; cases h; exact ⟨List.map_append, rfl⟩

theorem seq_ok {a b : List Item × SEnd} (h : (seqE a b).2 = .ok) : a.2 = .ok ∧ b.2 = .ok := by
  obtain ⟨l, e⟩ := a; cases e <;> first | exact ⟨rfl, h⟩ | cases h

theorem pcs_after (a : List Item × SEnd) (s : Str) : pcs (afterE a [wr s]) = pcs a ++ [.txt fun _ => s] := List.map_append
theorem pcs_before (a : List Item × SEnd) (s : Str) : pcs (beforeE [wr s] a) = (.txt fun _ => s) :: pcs a := rfl

theorem pcs_own (l : List Piece) (e : SEnd) : pcs (toOwn l, e) = l := by
  induction l with
  | nil => rfl
  | cons p l ih => exact congrArg _ ih

theorem own_snd (l : List Piece) : (toOwn l).map Prod.snd = l := pcs_own l .ok

theorem parList_args (l : List GoVal) : (pargs ((parList l).map Prod.snd)).map SArg.bound = l.filter (fun v => v ≠ .nil) ∧ perrs ((parList l).map Prod.snd) = [] := by
  have one : ∀ v : GoVal, (argBinds (.plain v)).map SArg.bound = [v].filter (fun v => v ≠ .nil) := by
    intro v; cases v <;> simp [argBinds, SArg.bound]
  induction l with
  | nil => exact ⟨rfl, rfl⟩
  | cons v l ih =>
    cases l with
    | nil => exact ⟨by simp [parList, pargs, one], rfl⟩
    | cons w l =>
      have : parList (v :: w :: l) = (false, .par (.plain v)) :: wr c!", " :: parList (w :: l) := rfl
      rw [this]
      refine ⟨?_, by simpa [perrs, wr] using ih.2⟩
      simp only [List.map_cons, wr, pargs, List.map_append, one, ih.1]
      rw [← List.filter_append]; rfl

theorem val_emit {E : SEnv} {n} (h : ValNode n) (nd) : semit E nd n = emitVal E n := by cases n <;> first | exact h.elim | rfl

theorem ValNode.emit {E : SEnv} {n} (h : ValNode n) (nd) :
    (semit E nd n).2 = .ok ∧ perrs (pcs (semit E nd n)) = [] ∧ (pargs (pcs (semit E nd n))).map SArg.bound = binds E.cast n := by
  rw [val_emit h]
  unfold emitVal
  rw [h.value]
  cases n with
  | arr l =>
    obtain ⟨h1, h2⟩ := parList_args (l.map litVal)
    refine ⟨rfl, ?_, ?_⟩
    · simp [pcs, valOf, perrs, perrs_append, wr, h2]
    · simp only [pcs, valOf, List.cons_append, List.map_cons, List.map_append, wr, pargs, pargs_append, h1, binds]; simp [pargs]
  | null => refine ⟨rfl, rfl, ?_⟩; cases hc : E.cast <;> simp [pcs, valOf, litVal, pargs, argBinds, SArg.bound, binds]
  | int i => refine ⟨rfl, rfl, ?_⟩; cases hc : E.cast <;> simp [pcs, valOf, litVal, pargs, argBinds, SArg.bound, binds]
  | bool i => refine ⟨rfl, rfl, ?_⟩; cases hc : E.cast <;> simp [pcs, valOf, litVal, pargs, argBinds, SArg.bound, binds]
  | str i => refine ⟨rfl, rfl, ?_⟩; cases hc : E.cast <;> simp [pcs, valOf, litVal, pargs, argBinds, SArg.bound, binds]
  | _ => exact h.elim

theorem sqlOps_lookup {o} : o ∈ sqlOps ↔ ∃ t, entsqlOps.lookup o = some t := by
  constructor
  · intro h
    simp only [sqlOps, List.mem_cons, List.not_mem_nil, or_false] at h
    rcases h with rfl | rfl | rfl | rfl | rfl | rfl | rfl | rfl | rfl | rfl | rfl <;> exact ⟨_, rfl⟩
  · rintro ⟨t, h⟩
    have := lookup_mem h
    simp only [entsqlOps, List.mem_cons, Prod.mk.injEq, List.not_mem_nil, or_false] at this
    rcases this with h | h | h | h | h | h | h | h | h | h | h <;> rw [h.1] <;> decide

theorem binOps {o} : o ∈ sqlOps ++ [c!"not like", c!"and", c!"or"] ↔ ∃ t, binText o = some t := by
  rw [List.mem_append, sqlOps_lookup]
  unfold binText
  cases entsqlOps.lookup o with
  | some t => simp
  | none =>
    simp only [List.mem_cons, List.not_mem_nil, or_false]
    by_cases h1 : o = c!"not like"
    · simp [h1]
    · by_cases h2 : o = c!"and"
      · simp [h2]
      · by_cases h3 : o = c!"or"
        · simp [h3]
        · simp [h1, h2, h3]

theorem emitBin_eq {l r : List Item × SEnd} {o t} (hl : l.2 = .ok) (ht : binText o = some t) :
    pcs (emitBin l (.op o) r) = pcs l ++ (.txt fun _ => t) :: pcs r ∧ (emitBin l (.op o) r).2 = r.2 := by
  obtain ⟨l, e⟩ := l
  cases hl
  simp only [emitBin, operation, ht]
  refine ⟨?_, rfl⟩
  simp [pcs, seqE, wr]

theorem emitBin_ok {l r : List Item × SEnd} {o : Node} (h : (emitBin l o r).2 = .ok) : ∃ op t, o = .op op ∧ binText op = some t ∧ l.2 = .ok ∧ r.2 = .ok := by
  obtain ⟨l, e⟩ := l
  have key : ∀ e, (match operation o with
      | none => (([], SEnd.panic) : List Item × SEnd)
      | some op =>
        match binText op with
        | none => (l, .err (.unexpectedOp op))
        | some t => seqE (l ++ [wr t], e) r).2 = .ok → ∃ op t, o = .op op ∧ binText op = some t ∧ e = .ok ∧ r.2 = .ok := by
    intro e h
    cases ho : operation o with
    | none => rw [ho] at h; cases h
    | some op =>
      rw [ho] at h
      simp only [] at h
      cases ht : binText op with
      | none => rw [ht] at h; cases h
      | some t =>
        rw [ht] at h
        have := seq_ok h
        refine ⟨op, t, operation_op ho ?_, ht, this.1, this.2⟩
        rintro rfl; exact absurd ht (by simp [show binText [] = none from rfl])
  unfold emitBin at h
  cases e with
  | panic => cases h
  | ok => exact key .ok h
  | err e => exact key (.err e) h

theorem Called.name {p x} (h : Called p x) : nodeName p ≠ [] ∧ nodeName p = x := by cases h <;> exact ⟨by assumption, rfl⟩

theorem called_name {p} (h : nodeName p ≠ []) : Called p (nodeName p) := by
  cases p <;> first | exact .ident h | exact .call h | exact absurd rfl h

theorem Condition.expr {c} (h : Condition c) : isExpression c = true := by cases h <;> rfl

theorem condition_expr {c} (h : isExpression c = true) (hn : c ≠ .nil) : Condition c := by
  cases c <;> first | exact absurd rfl hn | (simp [isExpression] at h; done) | constructor

theorem Good.emit {E : SEnv} {nd n} (h : Good E.edges nd n) :
    (semit E nd n).2 = .ok ∧ perrs (pcs (semit E nd n)) = [] ∧ (pargs (pcs (semit E nd n))).map SArg.bound = binds E.cast n := by
  induction h with
  | @val nd n h => exact h.emit nd
  | ident => exact ⟨rfl, rfl, rfl⟩
  | paren _ ih =>
    refine ⟨ih.1, ?_, ?_⟩
    · rw [semit, pcs_after, pcs_before]; simp [perrs, perrs_append, ih.2.1]
    · rw [semit, pcs_after, pcs_before]; simp [pargs, pargs_append, ih.2.2, binds]
  | not _ ih =>
    refine ⟨ih.1, ?_, ?_⟩
    · rw [semit, pcs_before]; simp [perrs, ih.2.1]
    · rw [semit, pcs_before]; simp [pargs, ih.2.2, binds]
  | @date nd p ps _ ih =>
    have e : semit E nd (.func c!"date" (p :: ps)) = afterE (beforeE [wr c!"DATE("] (semit E nd p)) [wr c!")"] := by rw [semit, if_pos rfl, semit1]
    refine ⟨by rw [e]; exact ih.1, ?_, ?_⟩
    · rw [e, pcs_after, pcs_before]; simp [perrs, perrs_append, ih.2.1]
    · rw [e, pcs_after, pcs_before]; simp [pargs, pargs_append, ih.2.2, binds, binds1]
  | @has t p x e h0 h2 =>
    obtain ⟨h1, rfl⟩ := h0.name
    have : semit E (some t) (.func c!"has_edge" [p]) = ([(true, .txt e.has)], .ok) := by
      rw [semit, if_neg (by decide), if_pos rfl]; simp only [emitEdge, if_neg h1, h2]
    rw [this]
    exact ⟨rfl, rfl, by simp [pcs, pargs, binds, binds2, binds1]⟩
  | @hasWith t p x e c h0 h2 h3 _ ih =>
    obtain ⟨h1, rfl⟩ := h0.name
    have h3 := h3.expr
    have : semit E (some t) (.func c!"has_edge" [p, c]) = emitJoin E e (semit E (some e.to) c) := by
      rw [semit, if_neg (by decide), if_pos rfl]; simp only [emitEdge, if_neg h1, h2, h3, if_pos, semit2, semit1]
    rw [this]
    unfold emitJoin
    rw [ih.1]
    simp only [pcs_own]
    refine ⟨trivial, ?_, ?_⟩
    · have := ih.2.1
      simp only [pcs] at this
      simp [perrs, perrs_append, keep_errs, this]
    · have := ih.2.2
      simp only [pcs] at this
      simp [pargs, pargs_append, keep_args, this, binds, binds2, binds1]
  | @between nd l o a b _ ha hb ih =>
    have ha := ha.emit (E := E) nd
    have hb := hb.emit (E := E) nd
    rw [semit]
    simp only [operation]
    obtain ⟨e1, f1⟩ := pcs_seq (b := beforeE [wr (if o = c!"not between" then c!" < " else c!" >= ")] (semit E nd a)) ih.1
    obtain ⟨e2, f2⟩ := pcs_seq (b := beforeE [wr c!" AND "] (semit E nd l)) (f1.trans ha.1)
    obtain ⟨e3, f3⟩ := pcs_seq (b := beforeE [wr (if o = c!"not between" then c!" > " else c!" <= ")] (semit E nd b)) (f2.trans ih.1)
    refine ⟨f3.trans hb.1, ?_, ?_⟩
    · rw [e3, e2, e1, pcs_before, pcs_before, pcs_before]; simp [perrs, perrs_append, ih.2.1, ha.2.1, hb.2.1]
    · rw [e3, e2, e1, pcs_before, pcs_before, pcs_before]; simp [pargs, pargs_append, ih.2.2, ha.2.2, hb.2.2, binds]
  | pred _ ho ih =>
    obtain ⟨t, ht⟩ := sqlOps_lookup.1 ho
    rw [semit]
    simp only [operation, ht]
    refine ⟨ih.1, ?_, ?_⟩
    · rw [pcs_after]; simp [perrs, perrs_append, ih.2.1]
    · rw [pcs_after]; simp [pargs, pargs_append, ih.2.2, binds]
  | cmp _ ho _ ih1 ih2 | logic _ ho _ ih1 ih2 =>
    obtain ⟨t, ht⟩ := binOps.1 ho
    obtain ⟨e, f⟩ := emitBin_eq (r := semit E _ _) ih1.1 ht
    rw [semit]
    refine ⟨f.trans ih2.1, ?_, ?_⟩
    · rw [e]; simp [perrs, perrs_append, ih1.2.1, ih2.2.1]
    · rw [e]; simp [pargs, pargs_append, ih1.2.2, ih2.2.2, binds]

/-- If the errors of edge conditions are kept, only good trees are accepted without error. -/
theorem emit_good {E : SEnv} (hs : E.surf = true) {n} (hf : Fine n) : ∀ nd, (semit E nd n).2 = .ok → perrs (pcs (semit E nd n)) = [] → Good E.edges nd n := by
  induction hf with
  | val h => intro nd _ _; exact .val h
  | op => intro nd h; cases h
  | ident => intro nd _ _; exact .ident
  | ref => intro nd h; cases h
  | @pred l o _ _ ih =>
    intro nd h1 h2
    rw [semit] at h1 h2
    simp only [operation] at h1 h2
    cases ht : entsqlOps.lookup o with
    | none => rw [ht] at h1; cases h1
    | some t =>
      rw [ht] at h1 h2
      rw [pcs_after, perrs_append] at h2
      exact .pred (ih nd h1 (List.append_eq_nil_iff.1 h2).1) (sqlOps_lookup.2 ⟨t, ht⟩)
  | cmp _ _ _ ih1 _ ih2 =>
    intro nd h1 h2
    rw [semit] at h1 h2
    obtain ⟨op, t, rfl, ht, hl, hr⟩ := emitBin_ok h1
    rw [(emitBin_eq hl ht).1, perrs_append] at h2
    have := List.append_eq_nil_iff.1 h2
    exact .cmp (ih1 nd hl this.1) (binOps.2 ⟨t, ht⟩) (ih2 nd hr this.2)
  | logic _ _ _ ih1 _ ih2 =>
    intro nd h1 h2
    rw [semit] at h1 h2
    obtain ⟨op, t, rfl, ht, hl, hr⟩ := emitBin_ok h1
    rw [(emitBin_eq hl ht).1, perrs_append] at h2
    have := List.append_eq_nil_iff.1 h2
    exact .logic (ih1 nd hl this.1) (binOps.2 ⟨t, ht⟩) (ih2 nd hr this.2)
  | paren _ ih =>
    intro nd h1 h2
    rw [semit, pcs_after, pcs_before, perrs_append] at h2
    exact .paren (ih nd h1 (List.append_eq_nil_iff.1 h2).1)
  | not _ ih => intro nd h1 h2; exact .not (ih nd h1 h2)
  | @between l o a b _ _ ha hb ih =>
    intro nd h1 h2
    rw [semit] at h1 h2
    simp only [operation] at h1 h2
    obtain ⟨h3, _⟩ := seq_ok h1
    obtain ⟨h4, _⟩ := seq_ok h3
    obtain ⟨h5, _⟩ := seq_ok h4
    rw [(pcs_seq h3).1, (pcs_seq h4).1, (pcs_seq h5).1] at h2
    simp only [perrs_append, List.append_eq_nil_iff] at h2
    exact .between (ih nd h5 h2.1.1.1) ha hb
  | @func f ps _ _ ih =>
    intro nd h1 h2
    rw [semit] at h1 h2
    split at h1
    · rename_i hfd
      subst hfd
      rw [if_pos rfl] at h2
      cases ps with
      | nil => cases h1
      | cons p ps =>
        rw [pcs_after, pcs_before, perrs_append] at h2
        exact .date (ih p List.mem_cons_self nd h1 (List.append_eq_nil_iff.1 h2).1)
    · rename_i hnd
      rw [if_neg hnd] at h2
      split at h1
      · rename_i hfe
        subst hfe
        rw [if_pos rfl] at h2
        unfold emitEdge at h1 h2
        cases ps with
        | nil => cases h1
        | cons p rest =>
          simp only [] at h1 h2
          by_cases hn : nodeName p = []
          · rw [if_pos hn] at h1; cases h1
          · rw [if_neg hn] at h1 h2
            cases nd with
            | none => cases h1
            | some t =>
              simp only [] at h1 h2
              cases hl : (E.edges t).lookup (nodeName p) with
              | none => rw [hl] at h1; cases h1
              | some e =>
                rw [hl] at h1 h2
                simp only [] at h1 h2
                cases rest with
                | nil => exact .has (called_name hn) hl
                | cons c rest =>
                  cases rest with
                  | cons => cases h1
                  | nil =>
                    simp only [] at h1 h2
                    by_cases hc : isExpression c = true
                    · rw [if_pos hc] at h1 h2
                      have e2 : semit2 E (some e.to) [p, c] = semit E (some e.to) c := rfl
                      rw [e2] at h1 h2
                      unfold emitJoin at h1 h2
                      split at h1
                      · cases h1
                      · rename_i hk
                        simp only [hk, pcs_own, hs] at h2
                        simp only [perrs, List.cons_append, perrs_append, keep_errs, List.append_eq_nil_iff, if_true] at h2
                        exact .hasWith (called_name hn) hl (condition_expr hc (by rintro rfl; cases hk)) (ih c (by simp) _ hk h2.1)
                      · rename_i hk
                        simp only [hk, pcs_own, hs] at h2
                        simp [perrs, perrs_append] at h2
                    · rw [if_neg hc] at h1; cases h1
      · cases h1

/-! ## Trees equal up to literals -/

/-- Pieces that are equal up to the values of parameters and the texts of errors. -/
inductive AlikeI : Item → Item → Prop where
  | refl {i} : AlikeI i i
  | par {o a b} : (∀ d k, argText d k a = argText d k b) → (argBinds a).length = (argBinds b).length → AlikeI (o, .par a) (o, .par b)
  | fail {o e e'} : AlikeI (o, .fail e) (o, .fail e')

/-- How it ends, whatever the error. -/
def SEnd.kind : SEnd → Nat
  | .ok => 0
  | .err _ => 1
  | .panic => 2

inductive AlikeL : List Item → List Item → Prop where
  | nil : AlikeL [] []
  | cons {i j l l'} : AlikeI i j → AlikeL l l' → AlikeL (i :: l) (j :: l')

def Alike (r s : List Item × SEnd) : Prop := AlikeL r.1 s.1 ∧ r.2.kind = s.2.kind

theorem AlikeL.refl : ∀ l, AlikeL l l
  | [] => .nil
  | _ :: l => .cons .refl (AlikeL.refl l)

theorem AlikeL.append {a b c d} (h : AlikeL a b) (k : AlikeL c d) : AlikeL (a ++ c) (b ++ d) := by
  induction h with
  | nil => exact k
  | cons i _ ih => exact .cons i ih

theorem Alike.refl (r) : Alike r r := ⟨.refl _, rfl⟩

theorem Alike.seq {a b c d} (h : Alike a b) (k : Alike c d) : Alike (seqE a c) (seqE b d) := by
  obtain ⟨a, e⟩ := a
  obtain ⟨b, f⟩ := b
  obtain ⟨h, he⟩ := h
  cases e <;> cases f <;> first | cases he; done | exact ⟨h.append k.1, k.2⟩ | exact ⟨h, rfl⟩

theorem Alike.after {a b l} (h : Alike a b) : Alike (afterE a l) (afterE b l) := ⟨h.1.append (.refl _), h.2⟩
theorem Alike.before {a b l} (h : Alike a b) : Alike (beforeE l a) (beforeE l b) := ⟨(AlikeL.refl _).append h.1, h.2⟩

/-- Values that are written alike. -/
def VSame (v w : GoVal) : Prop := v.type = w.type ∧ (v = .nil ↔ w = .nil)

inductive VSameL : List GoVal → List GoVal → Prop where
  | nil : VSameL [] []
  | cons {v w l l'} : VSame v w → VSameL l l' → VSameL (v :: l) (w :: l')

theorem VSame.plain {v w} (h : VSame v w) : (∀ d k, argText d k (.plain v) = argText d k (.plain w)) ∧ (argBinds (.plain v)).length = (argBinds (.plain w)).length := by
  by_cases hv : v = .nil
  · have := h.2.1 hv; subst hv; subst this; exact ⟨fun _ _ => rfl, rfl⟩
  · have hw : w ≠ .nil := fun h' => hv (h.2.2 h')
    cases v <;> cases w <;> first | contradiction | exact ⟨fun _ _ => rfl, rfl⟩

theorem VSame.cast {v w} (h : VSame v w) : (∀ d k, argText d k (.cast v) = argText d k (.cast w)) ∧ (argBinds (.cast v)).length = (argBinds (.cast w)).length :=
  ⟨fun d k => by simp only [argText, h.1], rfl⟩

theorem VSameL.emit {l l'} (h : VSameL l l') : AlikeL (parList l) (parList l') := by
  induction h with
  | nil => exact .nil
  | @cons v w l l' h1 h2 ih =>
    cases h2 with
    | nil => exact .cons (.par h1.plain.1 h1.plain.2) .nil
    | cons a b => exact .cons (.par h1.plain.1 h1.plain.2) (.cons .refl ih)

/-- What is known of the values of two trees. -/
def OSame : Option GoVal → Option GoVal → Prop
  | none, none => True
  | some (.slice l), some (.slice l') => VSameL l l'
  | some (.slice _), _ => False
  | _, some (.slice _) => False
  | some v, some w => VSame v w
  | _, _ => False

theorem OSame.emit {E n m} (h : OSame (value n) (value m)) : Alike (emitVal E n) (emitVal E m) := by
  have key : ∀ v w, VSame v w → Alike ([(false, .par (if E.cast then .cast v else .plain v))], .ok) ([(false, .par (if E.cast then .cast w else .plain w))], .ok) := by
    intro v w h
    refine ⟨?_, rfl⟩
    cases E.cast
    · exact .cons (.par h.plain.1 h.plain.2) .nil
    · exact .cons (.par h.cast.1 h.cast.2) .nil
  unfold emitVal
  cases hn : value n with
  | none =>
    cases hm : value m with
    | none => exact .refl _
    | some w => rw [hn, hm] at h; cases w <;> exact h.elim
  | some v =>
    cases hm : value m with
    | none => rw [hn, hm] at h; cases v <;> exact h.elim
    | some w =>
      rw [hn, hm] at h
      cases v <;> cases w <;> first
        | exact h.elim
        | exact key _ _ h
        | exact ⟨.cons .refl ((VSameL.emit h).append (.refl _)), rfl⟩

theorem OSame.val {v w} (h : OSame (some v) (some w)) : VSame v w := by
  cases v <;> cases w <;> first | exact h.elim | exact h | exact ⟨rfl, by simp⟩

mutual
theorem SameUp.value : ∀ {n m}, SameUp n m → OSame (value n) (value m)
  | _, _, .nil => trivial
  | _, _, .op => ⟨rfl, Iff.rfl⟩
  | _, _, .int => ⟨rfl, by simp⟩
  | _, _, .bool => ⟨rfl, by simp⟩
  | _, _, .str => ⟨rfl, by simp⟩
  | _, _, .null => ⟨rfl, Iff.rfl⟩
  | .arr l, .arr l', .arr h => by
    have := h.values
    unfold Verif.value
    cases h1 : valueL l <;> cases h2 : valueL l' <;> rw [h1, h2] at this <;> exact this
  | _, _, .ident => ⟨rfl, Iff.rfl⟩
  | _, _, .ref => ⟨rfl, Iff.rfl⟩
  | _, _, .paren _ => ⟨rfl, Iff.rfl⟩
  | _, _, .not _ => ⟨rfl, Iff.rfl⟩
  | _, _, .func _ => ⟨rfl, Iff.rfl⟩
  | _, _, .between _ _ _ _ => ⟨rfl, Iff.rfl⟩
  | _, _, .pred _ _ => ⟨rfl, Iff.rfl⟩
  | _, _, .cmp _ _ _ => ⟨rfl, Iff.rfl⟩
  | _, _, .logic _ _ _ => ⟨rfl, Iff.rfl⟩
theorem SameUpL.values : ∀ {l l'}, SameUpL l l' → match valueL l, valueL l' with
    | none, none => True
    | some a, some b => VSameL a b
    | _, _ => False
  | _, _, .nil => .nil
  | n :: l, m :: l', .cons h hl => by
    have h1 := h.value
    have h2 := hl.values
    unfold valueL
    cases ha : Verif.value n with
    | none =>
      cases hb : Verif.value m with
      | none => trivial
      | some w => rw [ha, hb] at h1; cases w <;> exact h1.elim
    | some v =>
      cases hb : Verif.value m with
      | none => rw [ha, hb] at h1; cases v <;> exact h1.elim
      | some w =>
        rw [ha, hb] at h1
        cases hc : valueL l <;> cases hd : valueL l' <;> rw [hc, hd] at h2 <;> first | exact h2 | exact .cons (OSame.val h1) h2
end

theorem SameUp.oper {n m} (h : SameUp n m) : operation n = operation m := by cases h <;> rfl
theorem SameUp.name {n m} (h : SameUp n m) : nodeName n = nodeName m := by cases h <;> rfl
theorem SameUp.expr {n m} (h : SameUp n m) : isExpression n = isExpression m := by cases h <;> rfl

theorem Alike.bin {l l' r r' o o'} (hl : Alike l l') (ho : operation o = operation o') (hr : Alike r r') : Alike (emitBin l o r) (emitBin l' o' r') := by
  obtain ⟨l, e⟩ := l
  obtain ⟨l', e'⟩ := l'
  obtain ⟨hl, he⟩ := hl
  unfold emitBin
  rw [ho]
  cases e <;> cases e' <;> first
    | cases he; done
    | exact .refl _
    | (cases operation o' with
       | none => exact .refl _
       | some op =>
         simp only []
         cases binText op with
         | none => exact ⟨hl, rfl⟩
         | some t => exact Alike.seq ⟨hl.append (.refl _), rfl⟩ hr)

theorem AlikeL.keep {surf l l'} (h : AlikeL l l') : AlikeL (toOwn (keep surf l)) (toOwn (keep surf l')) := by
  induction h with
  | nil => exact .nil
  | @cons i j l l' hi _ ih =>
    cases hi with
    | refl =>
      obtain ⟨o, p⟩ := i
      cases p with
      | fail e => unfold Verif.keep; cases surf
                  · exact ih
                  · exact .cons .refl ih
      | txt => exact .cons .refl ih
      | par => exact .cons .refl ih
    | par h1 h2 => exact .cons (.par h1 h2) ih
    | fail => unfold Verif.keep; cases surf
              · exact ih
              · exact .cons .fail ih

theorem AlikeL.fails {l l'} (h : AlikeL l l') : AlikeL (toOwn (failsOf l)) (toOwn (failsOf l')) := by
  induction h with
  | nil => exact .nil
  | @cons i j l l' hi _ ih =>
    cases hi with
    | refl =>
      obtain ⟨o, p⟩ := i
      cases p with
      | fail e => exact .cons .refl ih
      | txt => exact ih
      | par => exact ih
    | par => exact ih
    | fail => exact .cons .fail ih

theorem Alike.join {E e r s} (h : Alike r s) : Alike (emitJoin E e r) (emitJoin E e s) := by
  obtain ⟨l, x⟩ := r
  obtain ⟨l', y⟩ := s
  obtain ⟨h, he⟩ := h
  cases x with
  | panic => cases y <;> first | cases he; done | exact .refl _
  | ok =>
    cases y <;> first | cases he; done | skip
    refine ⟨?_, rfl⟩
    simp only [emitJoin, toOwn, List.cons_append, List.map_cons, List.map_append]
    exact .cons .refl (h.keep.append (.refl _))
  | err er =>
    cases y <;> first | cases he; done | skip
    refine ⟨?_, rfl⟩
    simp only [emitJoin, toOwn, List.map_cons]
    refine .cons .refl (.cons .refl ?_)
    split
    · rw [List.map_append, List.map_append]
      exact h.fails.append (.cons .fail .nil)
    · exact .nil

mutual
theorem SameUp.emit (E : SEnv) : ∀ {n m}, SameUp n m → ∀ nd, Alike (semit E nd n) (semit E nd m)
  | _, _, .nil, _ => .refl _
  | _, _, .op, _ => .refl _
  | .int i, .int j, .int, _ => (SameUp.value (.int (i := i) (j := j))).emit
  | .bool i, .bool j, .bool, _ => (SameUp.value (.bool (a := i) (b := j))).emit
  | .str i, .str j, .str, _ => (SameUp.value (.str (s := i) (t := j))).emit
  | _, _, .null, _ => .refl _
  | _, _, .arr h, _ => (SameUp.value (.arr h)).emit
  | _, _, .ident, _ => .refl _
  | _, _, .ref, _ => .refl _
  | _, _, .paren h, nd => (h.emit E nd).before.after
  | _, _, .not h, nd => (h.emit E nd).before
  | .func f ps, .func _ ps', .func h, nd => by
    rw [semit, semit]
    split
    · exact (h.emit1 E nd).before.after
    · split
      · unfold emitEdge
        cases h with
        | nil => exact .refl _
        | @cons p p' rest rest' hp hr =>
          simp only [← hp.name]
          split
          · exact .refl _
          · cases nd with
            | none => exact .refl _
            | some t =>
              simp only []
              cases (E.edges t).lookup (nodeName p) with
              | none => exact .refl _
              | some e =>
                simp only []
                cases hr with
                | nil => exact .refl _
                | @cons c c' r r' hc hr =>
                  cases hr with
                  | cons => exact .refl _
                  | nil =>
                    simp only [← hc.expr]
                    split
                    · exact (hc.emit E (some e.to)).join
                    · exact ⟨.nil, rfl⟩
      · exact .refl _
  | .between l o a b, .between l' o' a' b', .between h1 h2 h3 h4, nd => by
    rw [semit, semit, ← h2.oper]
    cases operation o with
    | none => exact .refl _
    | some op => exact (((h1.emit E nd).seq (h3.emit E nd).before).seq (h1.emit E nd).before).seq (h4.emit E nd).before
  | .pred l o, .pred l' o', .pred h1 h2, nd => by
    rw [semit, semit, ← h2.oper]
    cases operation o with
    | none => exact .refl _
    | some op =>
      simp only []
      cases entsqlOps.lookup op with
      | none => exact .refl _
      | some t => exact (h1.emit E nd).after
  | _, _, .cmp h1 h2 h3, nd => (h1.emit E nd).bin h2.oper (h3.emit E nd)
  | _, _, .logic h1 h2 h3, nd => (h1.emit E nd).bin h2.oper (h3.emit E nd)
theorem SameUpL.emit1 (E : SEnv) : ∀ {l l'}, SameUpL l l' → ∀ nd, Alike (semit1 E nd l) (semit1 E nd l')
  | _, _, .nil, _ => .refl _
  | _, _, .cons h _, nd => h.emit E nd
end

theorem AlikeL.text {l l'} (h : AlikeL l l') : (∀ d k, ptext d k (l.map Prod.snd) = ptext d k (l'.map Prod.snd)) ∧
    (pargs (l.map Prod.snd)).length = (pargs (l'.map Prod.snd)).length := by
  induction h with
  | nil => exact ⟨fun _ _ => rfl, rfl⟩
  | @cons i j l l' hi _ ih =>
    obtain ⟨ih1, ih2⟩ := ih
    cases hi with
    | refl =>
      obtain ⟨o, p⟩ := i
      cases p <;> simp only [List.map_cons, ptext, pargs, List.length_append, ih1, ih2] <;> exact ⟨fun _ _ => trivial, trivial⟩
    | par h1 h2 =>
      simp only [List.map_cons, ptext, pargs, List.length_append, ih1, ih2, h1, h2]
      exact ⟨fun _ _ => trivial, trivial⟩
    | fail => exact ⟨ih1, ih2⟩

/-! ## Builders equal up to argument values -/

/-- Equal up to the values of arguments and the texts of errors. -/
def Bld.Same (a b : Bld) : Prop := a.dialect = b.dialect ∧ a.total = b.total ∧ a.sql = b.sql ∧ a.args.length = b.args.length ∧ a.errs.length = b.errs.length

def MB.Same (a b : MB) : Prop := a.own.Same b.own ∧ match a.ext, b.ext with
  | none, none => True
  | some x, some y => x.Same y
  | _, _ => False

theorem Bld.Same.refl (b : Bld) : b.Same b := ⟨rfl, rfl, rfl, rfl, rfl⟩

theorem MB.Same.refl (b : MB) : b.Same b := by
  obtain ⟨o, e⟩ := b
  cases e <;> exact ⟨.refl _, by first | trivial | exact .refl _⟩

theorem Piece.run_same {o i j} (h : AlikeI (o, i) (o, j)) {a b : Bld} (hs : a.Same b) : (i.run a).Same (j.run b) := by
  obtain ⟨h1, h2, h3, h4, h5⟩ := hs
  rw [Piece.run_eq, Piece.run_eq]
  have ht := (AlikeL.cons h .nil).text
  simp only [List.map_cons, List.map_nil] at ht
  refine ⟨h1, ?_, ?_, ?_, ?_⟩
  · simp only [Bld.add, h2, ht.2]
  · simp only [Bld.add, h3, h1, h2, ht.1]
  · simp only [Bld.add, List.length_append, h4, ht.2]
  · simp only [Bld.add, List.length_append, h5]
    cases h <;> rfl

theorem runAll_same {l l'} (h : AlikeL l l') : ∀ {a b : MB}, a.Same b → (runAll l a).Same (runAll l' b) := by
  induction h with
  | nil => intro a b h; exact h
  | @cons i j l l' hi _ ih =>
    intro a b hs
    refine ih ?_
    obtain ⟨o, p⟩ := i
    obtain ⟨o', p'⟩ := j
    have : o = o' := by cases hi <;> rfl
    subst this
    obtain ⟨ao, ae⟩ := a
    obtain ⟨bo, be⟩ := b
    cases o with
    | true => exact ⟨Piece.run_same hi hs.1, hs.2⟩
    | false =>
      cases ae <;> cases be <;> first
        | exact hs.2.elim
        | exact ⟨Piece.run_same hi hs.1, trivial⟩
        | exact ⟨hs.1, Piece.run_same hi hs.2⟩

/-! ## Text is empty independently of the numbering -/

theorem argText_ne (d k a) : argText d k a ≠ [] := by
  have hh : holder d k ≠ [] := by unfold holder; split <;> simp
  cases a with
  | plain v => cases v <;> simp [argText, hh]
  | cast v => simp only [argText, formatParam]; split <;> cases v.type <;> simp [hh]

theorem ptext_nil {d l} : ∀ k k', ptext d k l = [] → ptext d k' l = [] := by
  induction l with
  | nil => intros; rfl
  | cons p l ih =>
    intro k k' h
    cases p with
    | txt f =>
      have := List.append_eq_nil_iff.1 h
      exact List.append_eq_nil_iff.2 ⟨this.1, ih _ _ this.2⟩
    | par a => exact absurd (List.append_eq_nil_iff.1 h).1 (argText_ne _ _ _)
    | fail e => exact ih _ _ h

/-! ## Panics -/

theorem no_panic {E : SEnv} {n} (hf : Fine n) : (¬ Sub (.func c!"date" []) n) → ∀ nd, (nd ≠ none ∨ ∀ ps, ¬ Sub (.func c!"has_edge" ps) n) → (semit E nd n).2 ≠ .panic := by
  have seqP : ∀ {a b : List Item × SEnd}, a.2 ≠ .panic → b.2 ≠ .panic → (seqE a b).2 ≠ .panic := by
    intro a b ha hb
    obtain ⟨l, e⟩ := a
    cases e <;> first | exact hb | exact ha
  have opP : ∀ {o}, Fine o → operation o ≠ none := by
    intro o ho h
    cases o <;> simp [operation] at h
    cases ho with | val h => exact h
  have binP : ∀ {l r : List Item × SEnd} {o}, l.2 ≠ .panic → Fine o → r.2 ≠ .panic → (emitBin l o r).2 ≠ .panic := by
    intro l r o hl ho hr
    obtain ⟨l, e⟩ := l
    have : ∀ e, e ≠ SEnd.panic → (match operation o with
      | none => (([], SEnd.panic) : List Item × SEnd)
      | some op =>
        match binText op with
        | none => (l, .err (.unexpectedOp op))
        | some t => seqE (l ++ [wr t], e) r).2 ≠ .panic := by
      intro e he
      cases h : operation o with
      | none => exact absurd h (opP ho)
      | some op =>
        simp only []
        cases binText op with
        | none => simp
        | some t => exact seqP he hr
    unfold emitBin
    cases e with
    | panic => exact absurd rfl hl
    | ok => exact this .ok (by simp)
    | err x => exact this (.err x) (by simp)
  induction hf with
  | val h => intro _ nd _; rw [(h.emit nd).1]; simp
  | op | ident | ref => intro _ nd _; simp [semit]
  | @pred l o _ _ ih =>
    intro hd nd hn
    have := ih (fun h => hd (.step List.mem_cons_self h)) nd (hn.imp id fun h ps hp => h ps (.step List.mem_cons_self hp))
    rw [semit]
    simp only [operation]
    cases entsqlOps.lookup o with
    | none => simp
    | some t => exact this
  | cmp _ ho _ ih1 _ ih2 | logic _ ho _ ih1 _ ih2 =>
    intro hd nd hn
    exact binP (ih1 (fun h => hd (.step (by simp [kids]) h)) nd (hn.imp id fun h ps hp => h ps (.step (by simp [kids]) hp))) ho
      (ih2 (fun h => hd (.step (by simp [kids]) h)) nd (hn.imp id fun h ps hp => h ps (.step (by simp [kids]) hp)))
  | paren _ ih | not _ ih =>
    intro hd nd hn
    exact ih (fun h => hd (.step List.mem_cons_self h)) nd (hn.imp id fun h ps hp => h ps (.step List.mem_cons_self hp))
  | @between l o a b _ _ ha hb ih =>
    intro hd nd hn
    have hl := ih (fun h => hd (.step (by simp [kids]) h)) nd (hn.imp id fun h ps hp => h ps (.step (by simp [kids]) hp))
    have ha : (semit E nd a).2 ≠ .panic := by rw [(ha.emit nd).1]; simp
    have hb : (semit E nd b).2 ≠ .panic := by rw [(hb.emit nd).1]; simp
    rw [semit]
    simp only [operation]
    exact seqP (seqP (seqP hl ha) hl) hb
  | @func f ps _ _ ih =>
    intro hd nd hn
    rw [semit]
    split
    · rename_i hfd
      subst hfd
      cases ps with
      | nil => exact absurd .refl hd
      | cons p ps => exact ih p List.mem_cons_self (fun h => hd (.step List.mem_cons_self h)) nd (hn.imp id fun h ps' hp => h ps' (.step List.mem_cons_self hp))
    · split
      · rename_i hfe
        subst hfe
        have hnd : nd ≠ none := hn.elim id fun h => absurd .refl (h ps)
        unfold emitEdge
        cases ps with
        | nil => simp
        | cons p rest =>
          simp only []
          split
          · simp
          · cases nd with
            | none => exact absurd rfl hnd
            | some t =>
              simp only []
              cases (E.edges t).lookup (nodeName p) with
              | none => simp
              | some e =>
                simp only []
                cases rest with
                | nil => simp
                | cons c rest =>
                  cases rest with
                  | cons => simp
                  | nil =>
                    simp only []
                    split
                    · have hc := ih c (by simp) (fun h => hd (.step (by simp [kids]) h)) (some e.to) (.inl (by simp))
                      have e2 : semit2 E (some e.to) [p, c] = semit E (some e.to) c := rfl
                      rw [e2]
                      unfold emitJoin
                      cases h : (semit E (some e.to) c).2 with
                      | panic => exact absurd h hc
                      | ok => simp
                      | err => simp
                    · simp
      · simp

/-! ## Recorded errors -/

theorem perrs_none {E : SEnv} {n} (hf : Fine n) : NoEdgeCondition n → ∀ nd, perrs (pcs (semit E nd n)) = [] := by
  have seqP : ∀ {a b : List Item × SEnd}, perrs (pcs a) = [] → perrs (pcs b) = [] → perrs (pcs (seqE a b)) = [] := by
    intro a b ha hb
    obtain ⟨l, e⟩ := a
    cases e
    · simp only [pcs, seqE, List.map_append, perrs_append] at *; simp [ha, hb]
    · exact ha
    · exact ha
  have befP : ∀ {a : List Item × SEnd} {s}, perrs (pcs a) = [] → perrs (pcs (beforeE [wr s] a)) = [] := fun h => h
  have aftP : ∀ {a : List Item × SEnd} {s}, perrs (pcs a) = [] → perrs (pcs (afterE a [wr s])) = [] := by
    intro a s h; rw [pcs_after, perrs_append, h]; rfl
  have binP : ∀ {l r : List Item × SEnd} {o}, perrs (pcs l) = [] → perrs (pcs r) = [] → perrs (pcs (emitBin l o r)) = [] := by
    intro l r o hl hr
    obtain ⟨l, e⟩ := l
    have : ∀ e, perrs (pcs (match operation o with
      | none => (([], SEnd.panic) : List Item × SEnd)
      | some op =>
        match binText op with
        | none => (l, .err (.unexpectedOp op))
        | some t => seqE (l ++ [wr t], e) r)) = [] := by
      intro e
      cases operation o with
      | none => rfl
      | some op =>
        simp only []
        cases binText op with
        | none => exact hl
        | some t => exact seqP (aftP (a := (l, e)) hl) hr
    unfold emitBin
    cases e with
    | panic => rfl
    | ok => exact this .ok
    | err x => exact this (.err x)
  induction hf with
  | val h => intro _ nd; exact (h.emit nd).2.1
  | op | ident | ref => intro _ nd; rfl
  | @pred l o _ _ ih =>
    intro hd nd
    rw [semit]
    simp only [operation]
    cases entsqlOps.lookup o with
    | none => rfl
    | some t => exact aftP (ih (fun p c h => hd p c (.step List.mem_cons_self h)) nd)
  | cmp _ ho _ ih1 _ ih2 | logic _ ho _ ih1 _ ih2 =>
    intro hd nd
    exact binP (ih1 (fun p c h => hd p c (.step (by simp [kids]) h)) nd) (ih2 (fun p c h => hd p c (.step (by simp [kids]) h)) nd)
  | paren _ ih => intro hd nd; exact aftP (befP (ih (fun p c h => hd p c (.step List.mem_cons_self h)) nd))
  | not _ ih => intro hd nd; exact befP (ih (fun p c h => hd p c (.step List.mem_cons_self h)) nd)
  | @between l o a b _ _ ha hb ih =>
    intro hd nd
    have hl := ih (fun p c h => hd p c (.step (by simp [kids]) h)) nd
    have ha := (ha.emit (E := E) nd).2.1
    have hb := (hb.emit (E := E) nd).2.1
    rw [semit]
    simp only [operation]
    exact seqP (seqP (seqP hl ha) hl) hb
  | @func f ps _ _ ih =>
    intro hd nd
    rw [semit]
    split
    · cases ps with
      | nil => rfl
      | cons p ps => exact aftP (befP (ih p List.mem_cons_self (fun p c h => hd p c (.step (by simp [kids]) h)) nd))
    · split
      · rename_i hfe
        subst hfe
        unfold emitEdge
        cases ps with
        | nil => rfl
        | cons p rest =>
          simp only []
          split
          · rfl
          · cases nd with
            | none => rfl
            | some t =>
              simp only []
              cases (E.edges t).lookup (nodeName p) with
              | none => rfl
              | some e =>
                simp only []
                cases rest with
                | nil => rfl
                | cons c rest =>
                  cases rest with
                  | cons => rfl
                  | nil => exact absurd .refl (hd p c)
      · rfl

/-! ## A second call -/

theorem query_again (E : SEnv) {d k nd q n} (h : parse q = .ok n) (he : (semit E nd n).2 = .ok) :
    (sQuery E (sQuery E (SB.fresh d k nd q)).2).1 =
      .ret (ptext d k (pcs (semit E nd n)) ++ ptext d (k + (pargs (pcs (semit E nd n))).length) (pcs (semit E nd n)))
        (pargs (pcs (semit E nd n)) ++ pargs (pcs (semit E nd n))) := by
  rw [query_fresh E h, he]
  simp only [sQuery, SB.fresh, svisit_emit, sOut, he, runAll_own, runP_eq, pcs]
  simp [Bld.add]

end Verif
