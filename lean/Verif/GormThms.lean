import Verif.Gorm
import Verif.Spec.Emit
import Verif.ShapeThms
import Verif.Props.Parse

/-! # Helper lemmas about the gorm translator -/

namespace Verif

/-- A good outcome extends the state by this text, values and relations. -/
structure Adds (st st' : GSt) (n : List Node) (r : List Str) (t : Str) : Prop where
  buf : st'.buf = st.buf ++ t
  vals : ∃ vs, n.map value = vs.map some ∧ st'.vals = st.vals ++ vs
  joined : st'.joined.map Prod.fst = st.joined.map Prod.fst ++ r
  joins : st.joins = firsts (st.joined.map Prod.fst) → st'.joins = firsts (st'.joined.map Prod.fst)

theorem Adds.trans {a b c n r t n' r' t'} (h : Adds a b n r t) (h' : Adds b c n' r' t') : Adds a c (n ++ n') (r ++ r') (t ++ t') := by
  obtain ⟨v, hv, e⟩ := h.vals
  obtain ⟨v', hv', e'⟩ := h'.vals
  exact ⟨by rw [h'.buf, h.buf, List.append_assoc], ⟨v ++ v', by simp [hv, hv'], by rw [e', e, List.append_assoc]⟩,
    by rw [h'.joined, h.joined, List.append_assoc], fun hj => h'.joins (h.joins hj)⟩

theorem Adds.write (st : GSt) (t : Str) : Adds st (st.write t) [] [] t := ⟨rfl, ⟨[], rfl, by simp [GSt.write]⟩, by simp [GSt.write], fun h => h⟩

/-- The quoted name of a dotted reference. -/
def refText (E : GEnv) : List Str → Option Str
  | [s, f] => match E.schema.rel s with
    | none => none
    | some t => (getDBName E.fold t f).map fun d => E.quote (s ++ c!"." ++ d)
  | _ => none

mutual
/-- The text written for a tree; `none` if the translation does not succeed. -/
def gtext (E : GEnv) : Node → Option Str
  | .nil => none
  | .op o => some (normalizeSQL o)
  | .int _ => some c!"?"
  | .bool _ => some c!"?"
  | .str _ => some c!"?"
  | .null => some c!"?"
  | .arr l => match value (.arr l) with | none => none | some _ => some c!"?"
  | .ident x => (getDBName E.fold E.schema.table x).map E.quote
  | .ref l => refText E l
  | .paren e => cat (some c!"(") (cat (gtext E e) (some c!")"))
  | .not e => cat (some c!"not ") (gtext E e)
  | .func f ps => if f = c!"date" then cat (some c!"date(") (cat (gtextL E ps) (some c!")")) else none
  | .between l o a b => cat (gtext E l) (cat (some c!" ") (cat (gtext E o) (cat (some c!" ") (cat (gtext E a) (cat (some c!" and ") (gtext E b))))))
  | .pred l o => cat (gtext E l) (cat (some c!" ") (gtext E o))
  | .cmp l o r => cat (gtext E l) (cat (some c!" ") (cat (gtext E o) (cat (some c!" ") (gtext E r))))
  | .logic l o r => cat (gtext E l) (cat (some c!" ") (cat (gtext E o) (cat (some c!" ") (gtext E r))))
/-- The same for argument lists. -/
def gtextL (E : GEnv) : List Node → Option Str
  | [] => some []
  | n :: l => cat (gtext E n) (gtextL E l)
end

/-- The outcome agrees with the text: success with exactly these additions, or an error. -/
def Agrees (st : GSt) (n : List Node) (r : List Str) (x : Option Str) (res : GRes) : Prop :=
  match x with
  | some t => ∃ st', res = .ok st' ∧ Adds st st' n r t
  | none => ∃ e st', res = .err e st'

theorem Agrees.andThen {st n r x res n' r' x'} {f : GSt → GRes} (h : Agrees st n r x res)
    (h' : ∀ st', Adds st st' n r (x.getD []) → Agrees st' n' r' x' (f st')) : Agrees st (n ++ n') (r ++ r') (cat x x') (res.andThen f) := by
  cases x with
  | none => obtain ⟨e, st', rfl⟩ := h; exact ⟨e, st', rfl⟩
  | some t =>
    obtain ⟨st', rfl, ha⟩ := h
    have := h' st' ha
    cases x' with
    | none => obtain ⟨e, st2, hr⟩ := this; exact ⟨e, st2, hr⟩
    | some t' => obtain ⟨st2, hr, ha2⟩ := this; exact ⟨st2, hr, ha.trans ha2⟩

theorem Agrees.pre {st n r x} {t : Str} {res : GRes} (h : Agrees (st.write t) n r x res) : Agrees st n r (cat (some t) x) res := by
  cases x with
  | none => exact h
  | some u => obtain ⟨st', hr, ha⟩ := h; exact ⟨st', hr, by simpa using (Adds.write st t).trans ha⟩

theorem Agrees.post {st n r x t} {res : GRes} (h : Agrees st n r x res) : Agrees st n r (cat x (some t)) (res.andThen fun st => .ok (st.write t)) := by
  have := h.andThen (f := fun st => GRes.ok (st.write t)) (n' := []) (r' := []) (x' := some t) (fun st' _ => ⟨_, rfl, Adds.write st' t⟩)
  simpa using this

theorem Agrees.also {st n r x t} {res : GRes} (h : Agrees st n r x res) : Agrees st n r (cat x (some t)) (res.alsoWrite t) := by
  cases x with
  | none => obtain ⟨e, st', rfl⟩ := h; exact ⟨e, st'.write t, rfl⟩
  | some u => obtain ⟨st', rfl, ha⟩ := h; exact ⟨st'.write t, rfl, by simpa using ha.trans (Adds.write st' t)⟩

theorem firsts_snoc (l : List Str) (s : Str) : firsts (l ++ [s]) = if s ∈ l then firsts l else firsts l ++ [s] := by
  induction l with
  | nil => simp [firsts]
  | cons x l ih =>
    rw [List.cons_append, firsts, firsts, ih]
    by_cases hs : s ∈ l
    · simp [hs]
    · by_cases hx : s = x
      · subst hx; simp [hs]
      · simp [hs, hx]

theorem gIdent_agrees (E : GEnv) (x : Str) (st : GSt) : Agrees st [] [] ((getDBName E.fold E.schema.table x).map E.quote) (gIdent E x st) := by
  unfold gIdent
  cases getDBName E.fold E.schema.table x with
  | none => exact ⟨_, _, rfl⟩
  | some d => exact ⟨_, rfl, Adds.write _ _⟩

theorem gRef_agrees (E : GEnv) (l : List Str) (st : GSt) : Agrees st [] (l.take 1) (refText E l) (gRef E l st) := by
  match l with
  | [] => exact ⟨_, _, rfl⟩
  | [_] => exact ⟨_, _, rfl⟩
  | _ :: _ :: _ :: _ => exact ⟨_, _, rfl⟩
  | [s, f] =>
    simp only [gRef, gJoin, refText]
    cases E.schema.rel s with
    | none => exact ⟨_, _, rfl⟩
    | some t =>
      simp only
      cases getDBName E.fold t f with
      | none => exact ⟨_, _, rfl⟩
      | some d =>
        have hany : st.joined.any (fun p => p.1 == s) = true ↔ s ∈ st.joined.map Prod.fst := by simp
        refine ⟨_, rfl, ?_⟩
        by_cases h : s ∈ st.joined.map Prod.fst
        · rw [if_pos (hany.2 h)]
          refine ⟨rfl, ⟨[], rfl, by simp [GSt.write]⟩, by simp [GSt.write], fun hj => ?_⟩
          simp only [GSt.write, List.map_append, List.map_cons, List.map_nil]
          rw [firsts_snoc, if_pos h]; exact hj
        · rw [if_neg (fun hc => h (hany.1 hc))]
          refine ⟨rfl, ⟨[], rfl, by simp [GSt.write]⟩, by simp [GSt.write], fun hj => ?_⟩
          simp only [GSt.write, List.map_append, List.map_cons, List.map_nil]
          rw [firsts_snoc, if_neg h, hj]

theorem value_exists {n : Node} (h : Complete n) : ∃ v, value n = some v := by
  induction h with
  | arr hh ih =>
    rename_i l
    have : ∃ vs, valueL l = some vs := by
      clear hh
      induction l with
      | nil => exact ⟨[], rfl⟩
      | cons m l ihl =>
        obtain ⟨v, hv⟩ := ih m (by simp)
        obtain ⟨vs, hvs⟩ := ihl fun n hn => ih n (List.mem_cons_of_mem _ hn)
        exact ⟨v :: vs, by simp [valueL, hv, hvs]⟩
    obtain ⟨vs, hvs⟩ := this
    exact ⟨.slice vs, by simp [value, hvs]⟩
  | _ => exact ⟨_, rfl⟩

theorem gVal_agrees {n : Node} (h : Complete n) (st : GSt) : Agrees st [n] [] (some c!"?") (gVal n st) := by
  obtain ⟨v, hv⟩ := value_exists h
  unfold gVal
  rw [hv]
  exact ⟨_, rfl, rfl, ⟨[v], by simp [hv], rfl⟩, by simp [GSt.write], fun h => h⟩

theorem gvisit_cmp (E : GEnv) {l o r : Node} (h : r ≠ .nil) (st : GSt) :
    gvisit E (.cmp l o r) st = ((gvisit E l st).andThen fun st => gvisit E o (st.write c!" ")).andThen fun st => gvisit E r (st.write c!" ") := by
  cases r <;> first | exact absurd rfl h | rfl

theorem gvisit_logic (E : GEnv) {l o r : Node} (h : r ≠ .nil) (st : GSt) :
    gvisit E (.logic l o r) st = ((gvisit E l st).andThen fun st => gvisit E o (st.write c!" ")).andThen fun st => gvisit E r (st.write c!" ") := by
  cases r <;> first | exact absurd rfl h | rfl

theorem cat_assoc (a b c : Option Str) : cat (cat a b) c = cat a (cat b c) := by cases a <;> cases b <;> cases c <;> simp [cat]

theorem Complete.ne_nil {n} (h : Complete n) : n ≠ .nil := by cases h <;> exact nofun

/-- The visit does what `gtext`, `lits` and `rels` say. -/
theorem gvisit_agrees (E : GEnv) {n : Node} (h : Complete n) : ∀ st, Agrees st (lits n) (rels n) (gtext E n) (gvisit E n st) := by
  induction h with
  | int => intro st; exact gVal_agrees .int st
  | bool => intro st; exact gVal_agrees .bool st
  | str => intro st; exact gVal_agrees .str st
  | null => intro st; exact gVal_agrees .null st
  | arr h _ =>
    intro st
    have hc := Complete.arr h
    obtain ⟨v, hv⟩ := value_exists hc
    rw [gtext, hv]
    exact gVal_agrees hc st
  | op => intro st; exact ⟨_, rfl, Adds.write _ _⟩
  | ident => intro st; exact gIdent_agrees E _ st
  | ref => intro st; exact gRef_agrees E _ st
  | pred _ _ ih1 ih2 => intro st; rw [gvisit, gtext, lits, rels]; exact (ih1 st).andThen fun st' _ => (ih2 _).pre
  | cmp _ _ h3 ih1 ih2 ih3 =>
    intro st
    rw [gvisit_cmp E h3.ne_nil, gtext, lits, rels]
    have := ((ih1 st).andThen fun st' _ => (ih2 (st'.write c!" ")).pre).andThen fun st' _ => (ih3 (st'.write c!" ")).pre
    simpa only [cat_assoc] using this
  | logic _ _ h3 ih1 ih2 ih3 =>
    intro st
    rw [gvisit_logic E h3.ne_nil, gtext, lits, rels]
    have := ((ih1 st).andThen fun st' _ => (ih2 (st'.write c!" ")).pre).andThen fun st' _ => (ih3 (st'.write c!" ")).pre
    simpa only [cat_assoc] using this
  | paren _ ih => intro st; rw [gvisit, gtext, lits, rels, ← cat_assoc]; exact (ih _).pre.also
  | not _ ih => intro st; rw [gvisit, gtext, lits, rels]; exact (ih _).pre
  | between _ _ _ _ ih1 ih2 ih3 ih4 =>
    intro st
    rw [gvisit, gtext, lits, rels]
    have := (((ih1 st).andThen fun st' _ => (ih2 (st'.write c!" ")).pre).andThen fun st' _ => (ih3 (st'.write c!" ")).pre).andThen
      fun st' _ => (ih4 (st'.write c!" and ")).pre
    simpa only [cat_assoc] using this
  | func hh ih =>
    rename_i f l
    intro st
    rw [gvisit, gtext, lits, rels]
    by_cases hf : f = c!"date"
    · rw [if_pos hf, if_pos hf]
      have hL : ∀ st, Agrees st (litsL l) (relsL l) (gtextL E l) (gvisitL E l st) := by
        clear hh
        induction l with
        | nil => intro st; exact ⟨st, rfl, by simp, ⟨[], rfl, by simp⟩, by simp [relsL], fun h => h⟩
        | cons m l ihl => intro st; exact (ih m (by simp) st).andThen fun st' _ => ihl (fun n hn => ih n (List.mem_cons_of_mem _ hn)) st'
      have e : (st.write f).write c!"(" = st.write c!"date(" := by subst hf; simp [GSt.write]
      rw [e, ← cat_assoc]
      have := (hL (st.write c!"date(")).pre.post (t := c!")")
      exact this
    · rw [if_neg hf, if_neg hf]; exact ⟨_, _, rfl⟩

theorem gvisit_ok {E : GEnv} {n st st'} (hc : Complete n) (h : gvisit E n st = .ok st') : ∃ t, gtext E n = some t ∧ Adds st st' (lits n) (rels n) t := by
  have := gvisit_agrees E hc st
  cases ht : gtext E n with
  | none => rw [ht] at this; obtain ⟨e, s', hr⟩ := this; rw [hr] at h; cases h
  | some t => rw [ht] at this; obtain ⟨s', hr, ha⟩ := this; rw [hr] at h; cases h; exact ⟨t, rfl, ha⟩

/-- What it takes for a condition to be added. -/
theorem wire_where {schema quote fold db db' q c} (h : wire schema quote fold db q = .ok db') (hw : db'.wheres = db.wheres ++ [c]) :
    ∃ s n st, schema = some s ∧ parse q = .ok n ∧ Complete n ∧ gvisit ⟨s, quote, fold⟩ n {} = .ok st ∧ c = (st.buf, st.vals) ∧
      db'.joins = db.joins ++ st.joins ∧ db'.errors = db.errors := by
  have no : ∀ {l : List (Str × List GoVal)} {c}, l ≠ l ++ [c] := by
    intro l c e; have := congrArg List.length e; simp at this
  unfold wire at h
  by_cases hq : q = []
  · rw [if_pos hq] at h; cases h; exact absurd hw no
  · rw [if_neg hq] at h
    cases hp : parse q with
    | panic => rw [hp] at h; cases h
    | div => rw [hp] at h; cases h
    | err e => rw [hp] at h; cases h; exact absurd hw no
    | ok n =>
      have hc := C02_complete_tree q n hp
      rw [hp] at h
      cases schema with
      | none => cases h; exact absurd hw no
      | some s =>
        simp only at h
        cases hg : gvisit ⟨s, quote, fold⟩ n {} with
        | panic => rw [hg] at h; cases h
        | err e st => rw [hg] at h; cases h; exact absurd hw no
        | ok st =>
          rw [hg] at h; cases h
          have : c = (st.buf, st.vals) := by
            have := List.append_cancel_left hw
            cases this; rfl
          exact ⟨s, n, st, rfl, rfl, hc, hg, this, rfl, rfl⟩

end Verif
