import Verif.Props.GormSql
import Verif.Props.Structure

/-! # Several queries in one statement (C51, C52, C53) -/

namespace Verif

/-! ## C51: a list of queries as one condition -/

/-- The conjunction of conditions as it should be written: each in parentheses, `and` between them. -/
def sqlAnd (cs : List Str) : Str := c!" and ".intercalate (cs.map fun c => '(' :: (c ++ c!")"))

/-- What a query does on its own to a fresh statement: exactly this condition, these values, these relations joined, no error. -/
def Alone (schema : Option GSchema) (quote : Str → Str) (fold : Str → Str → Bool) (q sql : Str) (vals : List GoVal) (joins : List Str) : Prop :=
  wire schema quote fold {} q = .ok { errors := [], joins := joins, wheres := [(sql, vals)] }

theorem firsts_append (a b : List Str) : firsts (a ++ b) = firsts a ++ (firsts b).filter fun x => decide (x ∉ a) := by
  induction a with
  | nil => simp [firsts]; exact (List.filter_eq_self.mpr (by simp)).symm
  | cons x a ih =>
    rw [List.cons_append, firsts, ih, List.filter_append, firsts, List.cons_append, List.filter_filter]
    congr 2
    refine List.filter_congr fun y _ => ?_
    by_cases h1 : y = x <;> simp [h1]

theorem filter_firsts_nil (a : List Str) : ∀ b : List Str, (∀ x ∈ b, x ∈ a) → b.filter (fun x => decide (x ∉ a)) = [] := by
  intro b h
  rw [List.filter_eq_nil_iff]
  intro x hx
  simp [h x hx]

theorem firsts_idem (l : List Str) : firsts (firsts l) = firsts l := by
  have : ∀ l : List Str, l.Nodup → firsts l = l := by
    intro l
    induction l with
    | nil => intro _; rfl
    | cons x l ih =>
      intro h
      rw [List.nodup_cons] at h
      rw [firsts, ih h.2, List.filter_eq_self.mpr]
      intro y hy
      have : y ≠ x := by rintro rfl; exact h.1 hy
      simp [this]
  exact this _ (firsts_nodup l)

theorem firsts_flat {α : Type} (g : α → List Str) (l : List α) : firsts (l.flatMap fun x => firsts (g x)) = firsts (l.flatMap g) := by
  induction l with
  | nil => rfl
  | cons x l ih =>
    rw [List.flatMap_cons, List.flatMap_cons, firsts_append, firsts_append, firsts_idem, ih]
    congr 1
    exact List.filter_congr fun y _ => by simp [mem_firsts]

theorem sqlAnd_cons (c : Str) (cs : List Str) : sqlAnd (c :: cs) = ('(' :: (c ++ c!")")) ++ cs.flatMap fun c => c!" and " ++ ('(' :: (c ++ c!")")) := by
  unfold sqlAnd
  rw [List.map_cons]
  generalize ('(' :: (c ++ c!")")) = a
  induction cs generalizing a with
  | nil => simp
  | cons d cs ih =>
    rw [List.map_cons, List.flatMap_cons]
    have := ih ('(' :: (d ++ c!")"))
    rw [List.intercalate_cons_cons, this, List.append_assoc, List.append_assoc]

theorem chain_text (E : GEnv) (f : Str → Node) (sql : Str → Str) : ∀ (rest : List Str) (n0 : Node) (t0 : Str), gtext E n0 = some t0 →
    (∀ q ∈ rest, gtext E (f q) = some (sql q)) →
    gtext E (rest.foldl (fun n q => .logic n (.op c!"and") (.paren (f q))) n0) =
      some (t0 ++ (rest.map sql).flatMap fun c => c!" and " ++ ('(' :: (c ++ c!")"))) := by
  intro rest
  induction rest with
  | nil => intro n0 t0 h _; simpa using h
  | cons q rest ih =>
    intro n0 t0 h hr
    rw [List.foldl_cons, ih _ (t0 ++ (c!" and " ++ ('(' :: (sql q ++ c!")")))) ?_ fun x hx => hr x (by simp [hx])]
    · simp
    · have hn : normalizeSQL c!"and" = c!"and" := by decide
      rw [gtext, gtext, gtext, h, hr q (by simp), hn]
      simp [cat]

theorem chain_lits (f : Str → Node) : ∀ (rest : List Str) (n0 : Node),
    lits (rest.foldl (fun n q => .logic n (.op c!"and") (.paren (f q))) n0) = lits n0 ++ rest.flatMap fun q => lits (f q) := by
  intro rest
  induction rest with
  | nil => intro n0; simp
  | cons q rest ih => intro n0; rw [List.foldl_cons, ih]; simp [lits]

theorem chain_rels (f : Str → Node) : ∀ (rest : List Str) (n0 : Node),
    rels (rest.foldl (fun n q => .logic n (.op c!"and") (.paren (f q))) n0) = rels n0 ++ rest.flatMap fun q => rels (f q) := by
  intro rest
  induction rest with
  | nil => intro n0; simp
  | cons q rest ih => intro n0; rw [List.foldl_cons, ih]; simp [rels]

/-- What lies behind a query's effect. -/
theorem Alone.tree {s quote fold q sql vals js} (h : Alone (some s) quote fold q sql vals js) :
    ∃ n, parse q = .ok n ∧ Complete n ∧ gtext ⟨s, quote, fold⟩ n = some sql ∧ (lits n).map value = vals.map some ∧ js = firsts (rels n) := by
  obtain ⟨s', n, st, e1, hp, hc, hg, e2, e3, _⟩ := wire_where h (c := (sql, vals)) rfl
  cases e1; cases e2
  obtain ⟨t, ht, ha⟩ := gvisit_ok hc hg
  obtain ⟨vs, hv, e⟩ := ha.vals
  refine ⟨n, hp, hc, ?_, ?_, ?_⟩
  · rw [ht, ha.buf]; simp
  · rw [hv, e]; simp
  · have := ha.joins rfl
    rw [ha.joined] at this
    simp only [List.nil_append] at e3
    rw [e3, this]; simp

theorem map_value_unique {ns : List Node} {a b : List GoVal} (h : ns.map value = a.map some) (h' : ns.map value = b.map some) : a = b := by
  rw [h] at h'
  exact List.map_inj_right (fun _ _ => Option.some.inj) |>.mp h'

theorem flat_values {f : Str → Node} {vals : Str → List GoVal} (a b : List Str) (h : ∀ x ∈ a, (lits (f x)).map value = (vals x).map some) (e : a = b := by rfl) :
    (a.flatMap fun q => lits (f q)).map value = (b.flatMap vals).map some := by
  subst e
  induction a with
  | nil => rfl
  | cons x a ih =>
    rw [List.flatMap_cons, List.flatMap_cons, List.map_append, List.map_append, h x (by simp), ih fun y hy => h y (by simp [hy])]

/-- C51, partial: for queries without `->`.  If every query of the list that is not blank is accepted on its own, with the condition `sql q`, the values
`vals q` and the relations `js q`, then `Scope` of the list adds exactly one condition: the conjunction of the separate conditions in order, each
in parentheses, with the values of all of them in order, and it joins each relation once. -/
theorem C51_scope_partial (s : GSchema) (quote : Str → Str) (fold : Str → Str → Bool) (sql : Str → Str) (vals : Str → List GoVal) (js : Str → List Str)
    (db : Db) (qs : List Str) (h2 : 2 ≤ qs.length)
    (h : ∀ q ∈ qs, goTrim q ≠ [] → Alone (some s) quote fold q (sql q) (vals q) (js q) ∧ Balanced q false) (hne : ∃ q ∈ qs, goTrim q ≠ []) :
    scope (some s) quote fold db qs = .ok
      { errors := db.errors
        joins := db.joins ++ firsts ((qs.filter fun q => goTrim q ≠ []).flatMap js)
        wheres := db.wheres ++ [(sqlAnd ((qs.filter fun q => goTrim q ≠ []).map sql), (qs.filter fun q => goTrim q ≠ []).flatMap vals)] } := by
  have hw : (fun q => decide (goTrim q ≠ [])) = written := by funext q; simp [written]
  rw [hw]
  let f : Str → Node := fun q => match parse q with | .ok n => n | _ => .nil
  have hf : ∀ q ∈ qs, goTrim q ≠ [] → parse q = .ok (f q) ∧ Balanced q false := by
    intro q hq hn
    obtain ⟨ha, hb⟩ := h q hq hn
    obtain ⟨n, hp, _⟩ := ha.tree
    refine ⟨?_, hb⟩
    show _ = ParseRes.ok (match parse q with | .ok n => n | _ => .nil)
    rw [hp]
  cases hfl : qs.filter written with
  | nil =>
    obtain ⟨q, hq, hn⟩ := hne
    have := List.filter_eq_nil_iff.mp hfl q hq
    simp [written, hn] at this
  | cons q rest =>
    have hp := C15_join_partial f qs h2 hf q rest hfl
    have hall : ∀ x ∈ q :: rest, Complete (f x) ∧ gtext ⟨s, quote, fold⟩ (f x) = some (sql x) ∧ (lits (f x)).map value = (vals x).map some ∧
        js x = firsts (rels (f x)) := by
      intro x hx
      rw [← hfl, List.mem_filter] at hx
      have hn : goTrim x ≠ [] := by simpa [written] using hx.2
      obtain ⟨n, hp, h1, h2, h3, h4⟩ := (h x hx.1 hn).1.tree
      have : f x = n := by show (match parse x with | .ok n => n | _ => .nil) = n; rw [hp]
      rw [this]
      exact ⟨h1, h2, h3, h4⟩
    have hq := hall q (by simp)
    have ht := chain_text ⟨s, quote, fold⟩ f sql rest (.paren (f q)) ('(' :: (sql q ++ c!")"))
      (by rw [gtext, hq.2.1]; simp [cat]) (fun x hx => (hall x (by simp [hx])).2.1)
    have hl := chain_lits f rest (.paren (f q))
    have hr := chain_rels f rest (.paren (f q))
    have hc := C02_complete_tree _ _ hp
    generalize rest.foldl (fun n q => Node.logic n (.op c!"and") (.paren (f q))) (.paren (f q)) = n at *
    have hg := gvisit_agrees ⟨s, quote, fold⟩ hc {}
    rw [ht] at hg
    obtain ⟨st, hst, ha⟩ := hg
    obtain ⟨vs, hv, e⟩ := ha.vals
    have hvs : vs = (q :: rest).flatMap vals := by
      refine map_value_unique hv ?_
      rw [hl, List.map_append, lits, hq.2.2.1, List.flatMap_cons, List.map_append]
      congr 1
      exact flat_values _ _ fun x hx => (hall x (by simp [hx])).2.2.1
    have hjs : firsts (rels n) = firsts ((q :: rest).flatMap js) := by
      have h1 : rels n = (q :: rest).flatMap fun q => rels (f q) := by rw [hr, rels, List.flatMap_cons]
      have h2 : (q :: rest).flatMap js = (q :: rest).flatMap fun q => firsts (rels (f q)) := by
        rw [List.flatMap_def, List.flatMap_def, List.map_congr_left fun x hx => (hall x hx).2.2.2]
      rw [h1, h2, firsts_flat]
    have hne' : join qs ≠ [] := by
      intro h0; rw [h0] at hp
      have : parse [] = .err (.syntax 0 0) := by decide +kernel
      rw [this] at hp; cases hp
    rw [scope, wire, if_neg hne', hp]
    simp only [hst]
    have e1 : st.buf = sqlAnd ((q :: rest).map sql) := by rw [ha.buf, List.map_cons, sqlAnd_cons]; simp
    have e2 : st.vals = (q :: rest).flatMap vals := by rw [e, hvs]; simp
    have e3 : st.joins = firsts ((q :: rest).flatMap js) := by
      have := ha.joins rfl
      rw [ha.joined] at this
      rw [this, ← hjs]; simp
    rw [e1, e2, e3]

/-- The list of the statement, with its relation used by two queries. -/
example : scope (some exampleSchema) exampleQuote exampleFold {} [c!"a = 1 or R.c = 2", c!"  ", c!"R.c in [3]", c!"b is null"] = .ok
    { joins := [c!"R"], wheres := [(c!"(`a` = ? or `R`.`c` = ?) and (`R`.`c` in ?) and (`b` is null)", [.int 1, .int 2, .slice [.int 3]])] } := by decide +kernel
example : Alone (some exampleSchema) exampleQuote exampleFold c!"a = 1 or R.c = 2" c!"`a` = ? or `R`.`c` = ?" [.int 1, .int 2] [c!"R"] ∧
    Balanced c!"a = 1 or R.c = 2" false ∧ Alone (some exampleSchema) exampleQuote exampleFold c!"R.c in [3]" c!"`R`.`c` in ?" [.slice [.int 3]] [c!"R"] := by
  unfold Alone Balanced; decide +kernel

theorem chain_none (E : GEnv) (f : Str → Node) : ∀ (rest : List Str) (n0 : Node) (t : Str),
    gtext E (rest.foldl (fun n q => .logic n (.op c!"and") (.paren (f q))) n0) = some t →
    (∃ t, gtext E n0 = some t) ∧ ∀ q ∈ rest, ∃ t, gtext E (f q) = some t := by
  intro rest
  induction rest with
  | nil => intro n0 t h; exact ⟨⟨t, h⟩, by intro q hq; cases hq⟩
  | cons q rest ih =>
    intro n0 t h
    rw [List.foldl_cons] at h
    obtain ⟨⟨u, hu⟩, hr⟩ := ih _ _ h
    rw [gtext] at hu
    cases h0 : gtext E n0 with
    | none => rw [h0] at hu; simp [cat] at hu
    | some a =>
      refine ⟨⟨a, rfl⟩, ?_⟩
      intro x hx
      rcases List.mem_cons.mp hx with rfl | hx
      · rw [gtext, gtext] at hu
        cases hx : gtext E (f x) with
        | none => rw [hx] at hu; simp [cat] at hu
        | some b => exact ⟨b, rfl⟩
      · exact hr x hx

/-- C51, partial: for queries without `->` that parse.  If some query of the list is rejected on its own, the whole list is: an error is recorded and no
condition is added. -/
theorem C51_rejected_partial (schema : Option GSchema) (quote : Str → Str) (fold : Str → Str → Bool) (db d : Db) (qs : List Str) (h2 : 2 ≤ qs.length)
    (h : ∀ q ∈ qs, goTrim q ≠ [] → (∃ n, parse q = .ok n) ∧ Balanced q false)
    (q : Str) (hq : q ∈ qs) (hn : goTrim q ≠ []) (hd : wire schema quote fold {} q = .ok d) (he : d.wheres = []) :
    ∃ db' e, scope schema quote fold db qs = .ok db' ∧ db'.wheres = db.wheres ∧ db'.errors = db.errors ++ [e] := by
  let f : Str → Node := fun q => match parse q with | .ok n => n | _ => .nil
  have hf : ∀ q ∈ qs, goTrim q ≠ [] → parse q = .ok (f q) ∧ Balanced q false := by
    intro q hq hn
    obtain ⟨⟨n, hp⟩, hb⟩ := h q hq hn
    refine ⟨?_, hb⟩
    show _ = ParseRes.ok (match parse q with | .ok n => n | _ => .nil)
    rw [hp]
  have hmem : q ∈ qs.filter written := List.mem_filter.mpr ⟨hq, by simp [written, hn]⟩
  cases hfl : qs.filter written with
  | nil => rw [hfl] at hmem; cases hmem
  | cons x rest =>
    have hp := C15_join_partial f qs h2 hf x rest hfl
    have hc := C02_complete_tree _ _ hp
    have hcq := C02_complete_tree _ _ (hf q hq hn).1
    have hne' : join qs ≠ [] := by
      intro h0; rw [h0] at hp
      have : parse [] = .err (.syntax 0 0) := by decide +kernel
      rw [this] at hp; cases hp
    have hq0 : q ≠ [] := by rintro rfl; exact hn (by decide)
    rw [scope, wire, if_neg hne', hp]
    cases schema with
    | none => exact ⟨_, _, rfl, rfl, rfl⟩
    | some s =>
      rw [wire, if_neg hq0, (hf q hq hn).1] at hd
      have ha := gvisit_agrees ⟨s, quote, fold⟩ hcq {}
      cases ht : gtext ⟨s, quote, fold⟩ (f q) with
      | some t =>
        rw [ht] at ha
        obtain ⟨st, hst, _⟩ := ha
        simp only [hst] at hd
        cases hd; cases he
      | none =>
        have hcn := chain_none ⟨s, quote, fold⟩ f rest (.paren (f x))
        have hv := gvisit_agrees ⟨s, quote, fold⟩ hc {}
        cases hg : gtext ⟨s, quote, fold⟩ (rest.foldl (fun n q => .logic n (.op c!"and") (.paren (f q))) (.paren (f x))) with
        | none =>
          rw [hg] at hv
          obtain ⟨e, st, hst⟩ := hv
          simp only [hst]
          exact ⟨_, _, rfl, rfl, rfl⟩
        | some t =>
          exfalso
          obtain ⟨⟨u, hu⟩, hr⟩ := hcn t hg
          rw [hfl] at hmem
          rcases List.mem_cons.mp hmem with rfl | hm
          · rw [gtext, ht] at hu; simp [cat] at hu
          · obtain ⟨u, hu⟩ := hr q hm
            rw [ht] at hu; cases hu

example : (wire (some exampleSchema) exampleQuote exampleFold {} c!"zz = 2") = .ok { errors := [.build (.fieldNotFound c!"zz")] } ∧
    scope (some exampleSchema) exampleQuote exampleFold {} [c!"a = 1", c!"zz = 2"] = .ok { errors := [.build (.fieldNotFound c!"zz")] } := by decide +kernel

/-- C51 in full is false: a query that is rejected on its own is accepted in a list and turns the conjunction into a disjunction. -/
theorem C51_injection_refuted :
    wire (some exampleSchema) exampleQuote exampleFold {} c!"b = 1) or (1 = 1" = .ok { errors := [.parse (.syntax 4 5)] } ∧
    scope (some exampleSchema) exampleQuote exampleFold {} [c!"a = 1", c!"b = 1) or (1 = 1"] =
      .ok { wheres := [(c!"(`a` = ?) and (`b` = ?) or (? = ?)", [.int 1, .int 1, .int 1, .int 1])] } := by decide +kernel

/-- C51 in full is false: a blank entry is ignored in a longer list, but an error if it is the only one. -/
theorem C51_blank_refuted :
    scope (some exampleSchema) exampleQuote exampleFold {} [c!" "] = .ok { errors := [.parse (.syntax 0 1)] } ∧
    scope (some exampleSchema) exampleQuote exampleFold {} [c!" ", c!" "] = .ok {} := by decide +kernel

/-- The tree of a joined list. -/
def chainN (f : Str → Node) (rest : List Str) (n0 : Node) : Node := rest.foldl (fun n q => .logic n (.op c!"and") (.paren (f q))) n0

theorem chain_shape {f : Str → Node} : ∀ {rest : List Str} {n0 : Node}, Shape .logic n0 → (∀ x ∈ rest, Shape .logic (f x)) → Shape .logic (chainN f rest n0)
  | [], _, h, _ => h
  | q :: rest, n0, h, hr => chain_shape (rest := rest) (n0 := .logic n0 (.op c!"and") (.paren (f q)))
      (.logic h (.inl rfl) (.negUp (.cmpUp (.cinUp (.prdUp (.btwUp (.paren (hr q (by simp))))))))) fun x hx => hr x (by simp [hx])

theorem chain_tame {f : Str → Node} : ∀ {rest : List Str} {n0 : Node}, tame n0 = true → (∀ x ∈ rest, tame (f x) = true) → tame (chainN f rest n0) = true
  | [], _, h, _ => h
  | q :: rest, n0, h, hr => chain_tame (rest := rest) (n0 := .logic n0 (.op c!"and") (.paren (f q)))
      (by simp [tame, h, hr q (by simp)]) fun x hx => hr x (by simp [hx])

theorem chain_ops {f : Str → Node} : ∀ {rest : List Str} {n0 : Node}, (∀ o, Sub (.op o) n0 → o ∈ opNames) →
    (∀ x ∈ rest, ∀ o, Sub (.op o) (f x) → o ∈ opNames) → ∀ o, Sub (.op o) (chainN f rest n0) → o ∈ opNames
  | [], _, h, _ => h
  | q :: rest, n0, h, hr => by
    refine chain_ops (rest := rest) (n0 := .logic n0 (.op c!"and") (.paren (f q))) ?_ fun x hx => hr x (by simp [hx])
    intro o ho
    cases ho with
    | step hk hs =>
      simp only [kids, List.mem_cons, List.not_mem_nil, or_false] at hk
      rcases hk with rfl | rfl | rfl
      · exact h o hs
      · cases hs with
        | refl => decide
        | step hk _ => cases hk
      · cases hs with
        | step hk hs => cases List.mem_singleton.mp hk; exact hr q (by simp) o hs

theorem chain_split {f : Str → Node} : ∀ {rest : List Str} {n0 : Node}, (split n0).1 = none →
    split (chainN f rest n0) = (none, chainN (fun x => regroup (f x)) rest (split n0).2)
  | [], n0, h => by show split n0 = (none, (split n0).2); rw [← h]
  | q :: rest, n0, h => by
    have e : split (.logic n0 (.op c!"and") (.paren (f q))) = ((split n0).1, .logic (split n0).2 (.op c!"and") (.paren (regroup (f q)))) := by
      rw [split, if_pos rfl, split]; rfl
    have := chain_split (f := f) (rest := rest) (n0 := .logic n0 (.op c!"and") (.paren (f q))) (by rw [e]; exact h)
    rw [e] at this
    exact this

theorem chain_mean {D : Type} (I : Interp D) {g : Str → Node} {v : Str → D} : ∀ {rest : List Str} {n0 : Node} {d : D}, mean I n0 = some d →
    (∀ x ∈ rest, mean I (g x) = some (v x)) → mean I (chainN g rest n0) = some (rest.foldl (fun d x => I.and d (v x)) d)
  | [], _, _, h, _ => h
  | q :: rest, n0, d, h, hr => by
    refine chain_mean I (rest := rest) (n0 := .logic n0 (.op c!"and") (.paren (g q))) (d := I.and d (v q)) ?_ fun x hx => hr x (by simp [hx])
    simp [mean, h, hr q (by simp)]

/-- C51, partial: read as SQL, the condition that `Scope` adds means the conjunction, in order, of what the conditions of the separate queries mean.
It does so for every query without comments inside operators and `->` whose own condition can be read as its tree; also for those with `and` after `or`. -/
theorem C51_meaning_partial {D : Type} {s : GSchema} {quote fold} (hQ : QuotesNames s quote fold) (J : Interp D) (sql : Str → Str) (vals : Str → List GoVal)
    (js : Str → List Str) (db : Db) (qs : List Str) (h2 : 2 ≤ qs.length)
    (h : ∀ q ∈ qs, goTrim q ≠ [] → Alone (some s) quote fold q (sql q) (vals q) (js q) ∧ Balanced q false ∧
      ∀ n, parse q = .ok n → CommentsOutside n ∧ tame n = true)
    (q : Str) (rest : List Str) (hfl : (qs.filter fun q => goTrim q ≠ []) = q :: rest) (e : Str → SExpr)
    (he : ∀ x ∈ q :: rest, ReadsQ (sql x) (vals x) (e x)) :
    ∃ db' c vs E, scope (some s) quote fold db qs = .ok db' ∧ db'.wheres = db.wheres ++ [(c, vs)] ∧ ReadsQ c vs E ∧ (∀ E', ReadsQ c vs E' → E' = E) ∧
      evalS J E = rest.foldl (fun d x => J.and d (evalS J (e x))) (evalS J (e q)) := by
  have hmem : ∀ x ∈ q :: rest, x ∈ qs ∧ goTrim x ≠ [] := by
    intro x hx; rw [← hfl, List.mem_filter] at hx; simpa using hx
  have hsc := C51_scope_partial s quote fold sql vals js db qs h2 (fun x hx hn => ⟨(h x hx hn).1, (h x hx hn).2.1⟩) ⟨q, hmem q (by simp)⟩
  rw [hfl] at hsc
  let f : Str → Node := fun q => match parse q with | .ok n => n | _ => .nil
  have hall : ∀ x ∈ q :: rest, Shape .logic (f x) ∧ tame (f x) = true ∧ (∀ o, Sub (.op o) (f x) → o ∈ opNames) ∧
      gtext ⟨s, quote, fold⟩ (f x) = some (sql x) ∧ (lits (f x)).map value = (vals x).map some := by
    intro x hx
    obtain ⟨hx, hn⟩ := hmem x hx
    obtain ⟨ha, hb, ht⟩ := h x hx hn
    obtain ⟨n, hp, _, h1, h2, _⟩ := ha.tree
    have : f x = n := by show (match parse x with | .ok n => n | _ => .nil) = n; rw [hp]
    rw [this]
    exact ⟨parse_shape hp hb, (ht n hp).2, parse_plain_out hp (ht n hp).1, h1, h2⟩
  have hq := hall q (by simp)
  have hr : ∀ x ∈ rest, _ := fun x hx => hall x (List.mem_cons_of_mem _ hx)
  have t1 := chain_text ⟨s, quote, fold⟩ f sql rest (.paren (f q)) ('(' :: (sql q ++ c!")")) (by rw [gtext, hq.2.2.2.1]; simp [cat]) (fun x hx => (hr x hx).2.2.2.1)
  have t2 : (lits (chainN f rest (.paren (f q)))).map value = ((q :: rest).flatMap vals).map some := by
    rw [chainN, chain_lits, List.map_append, lits, hq.2.2.2.2, List.flatMap_cons, List.map_append]
    congr 1
    exact flat_values _ _ fun x hx => (hr x hx).2.2.2.2
  have e1 : ('(' :: (sql q ++ c!")")) ++ ((rest.map sql).flatMap fun c => c!" and " ++ ('(' :: (c ++ c!")"))) = sqlAnd ((q :: rest).map sql) := by
    rw [List.map_cons, sqlAnd_cons]
  rw [e1] at t1
  obtain ⟨E, g1, g2⟩ := tree_reads hQ J (n := chainN f rest (.paren (f q)))
    (chain_shape (.logicUp (.negUp (.cmpUp (.cinUp (.prdUp (.btwUp (.paren hq.1))))))) fun x hx => (hr x hx).1)
    (chain_tame (by simpa [tame] using hq.2.1) fun x hx => (hr x hx).2.1)
    (chain_ops (by
      intro o ho
      cases ho with
      | step hk hs => cases List.mem_singleton.mp hk; exact hq.2.2.1 o hs) fun x hx => (hr x hx).2.2.1) t1 t2
  refine ⟨_, _, _, E, hsc, rfl, g1, fun E' h' => h'.unique g1, ?_⟩
  have hm : ∀ x ∈ q :: rest, mean (colI ⟨s, quote, fold⟩ J) (regroup (f x)) = some (evalS J (e x)) := by
    intro x hx
    obtain ⟨a1, a2, a3, a4, a5⟩ := hall x hx
    obtain ⟨e', b1, b2⟩ := tree_reads hQ J a1 a2 a3 a4 a5
    rw [b2, (he x hx).unique b1]
  have hs := chain_split (f := f) (rest := rest) (n0 := .paren (f q)) rfl
  have h0 : mean (colI ⟨s, quote, fold⟩ J) (split (.paren (f q))).2 = some (evalS J (e q)) := by
    have : (split (.paren (f q))).2 = .paren (regroup (f q)) := rfl
    rw [this, mean]; exact hm q (by simp)
  have := chain_mean (colI ⟨s, quote, fold⟩ J) (g := fun x => regroup (f x)) (v := fun x => evalS J (e x)) h0 (rest := rest) fun x hx => hm x (by simp [hx])
  rw [regroup, hs] at g2
  have g3 : mean (colI ⟨s, quote, fold⟩ J) (chainN (fun x => regroup (f x)) rest (split (.paren (f q))).2) = some (evalS J E) := g2
  rw [this] at g3
  exact (Option.some.inj g3).symm

/-- Two queries of which one has `and` after `or`; each condition is read in its own way, and the list's as the conjunction of the two. -/
example : ReadsQ c!"`a` = ? or `b` = ? and `b` = ?" [.int 1, .int 2, .int 3]
      (.or (.cmp c!"eq" (.name c!"`a`") (.val (.int 1))) (.and (.cmp c!"eq" (.name c!"`b`") (.val (.int 2))) (.cmp c!"eq" (.name c!"`b`") (.val (.int 3))))) ∧
    scope (some exampleSchema) exampleQuote exampleFold {} [c!"a = 1 or b = 2 and b = 3", c!"b is null"] =
      .ok { wheres := [(c!"(`a` = ? or `b` = ? and `b` = ?) and (`b` is null)", [.int 1, .int 2, .int 3])] } :=
  ⟨⟨_, _, rfl, rfl, 30, rfl⟩, by decide +kernel⟩

/-! ## C52, C53: queries applied one after another -/

/-- What is added to the statement. -/
def Db.plus (a b : Db) : Db := { errors := a.errors ++ b.errors, joins := a.joins ++ b.joins, wheres := a.wheres ++ b.wheres }

theorem wire_plus (schema : Option GSchema) (quote : Str → Str) (fold : Str → Str → Bool) (db : Db) (q : Str) :
    ∃ d, wire schema quote fold {} q = .ok d ∧ wire schema quote fold db q = .ok (db.plus d) := by
  unfold wire
  by_cases hq : q = []
  · rw [if_pos hq, if_pos hq]; exact ⟨{}, rfl, by simp [Db.plus]⟩
  · rw [if_neg hq, if_neg hq]
    rcases (C01_parse_total q).1 with ⟨n, hp⟩ | ⟨e, hp⟩
    · rw [hp]
      cases schema with
      | none => exact ⟨_, rfl, by simp [Db.plus]⟩
      | some s =>
        have hc := C02_complete_tree q n hp
        have ha := gvisit_agrees ⟨s, quote, fold⟩ hc {}
        cases ht : gtext ⟨s, quote, fold⟩ n with
        | none =>
          rw [ht] at ha
          obtain ⟨e, st, hst⟩ := ha
          simp only [hst]
          exact ⟨_, rfl, by simp [Db.plus]⟩
        | some t =>
          rw [ht] at ha
          obtain ⟨st, hst, _⟩ := ha
          simp only [hst]
          exact ⟨_, rfl, by simp [Db.plus]⟩
    · rw [hp]; exact ⟨_, rfl, by simp [Db.plus]⟩

/-- The schema that the names of a statement's queries should refer to: the statement's own, else that of its model. -/
def resolved (st : Stmt) : Option GSchema :=
  match st.schema, st.model with
  | some s, _ => some s
  | none, some m => m
  | none, none => none

theorem wireStmt_resolved (quote : Str → Str) (fold : Str → Str → Bool) (st : Stmt) (db : Db) (q : Str) :
    (wireStmt quote fold st db q).1 = wire (resolved st) quote fold db q ∧ resolved (wireStmt quote fold st db q).2 = resolved st := by
  obtain ⟨sc, md⟩ := st
  unfold wireStmt
  by_cases hq : q = []
  · rw [if_pos hq]; exact ⟨by rw [wire, if_pos hq], rfl⟩
  · rw [if_neg hq]
    rcases (C01_parse_total q).1 with ⟨n, hp⟩ | ⟨e, hp⟩
    · rw [hp]
      cases sc with
      | some s => exact ⟨rfl, rfl⟩
      | none => cases md with
        | none => exact ⟨rfl, rfl⟩
        | some m => cases m <;> exact ⟨rfl, rfl⟩
    · rw [hp]
      refine ⟨?_, rfl⟩
      simp only [wire, if_neg hq, hp]

/-- C52, C53: queries applied one after another never influence each other.  Each adds to the statement exactly what it adds to a fresh one, and all of
them refer to the same schema: the statement's own, else that of its model. -/
theorem C52_sequence (quote : Str → Str) (fold : Str → Str → Bool) (qs : List Str) : ∀ (st : Stmt) (db : Db),
    ∃ ds : List Db, qs.map (fun q => wire (resolved st) quote fold {} q) = ds.map WRes.ok ∧ (wireAll quote fold st db qs).1 = .ok (ds.foldl Db.plus db) := by
  induction qs with
  | nil => intro st db; exact ⟨[], rfl, rfl⟩
  | cons q qs ih =>
    intro st db
    obtain ⟨d, h1, h2⟩ := wire_plus (resolved st) quote fold db q
    obtain ⟨w1, w2⟩ := wireStmt_resolved quote fold st db q
    rw [wireAll]
    cases hw : wireStmt quote fold st db q with
    | mk r st' =>
      rw [hw] at w1 w2
      simp only at w1 w2
      obtain ⟨ds, e1, e2⟩ := ih st' (db.plus d)
      rw [w2] at e1
      rw [w1, h2]
      exact ⟨d :: ds, by rw [List.map_cons, List.map_cons, h1, e1], e2⟩

example : (wireAll exampleQuote exampleFold { model := some (some exampleSchema) } {} [c!"a = 1", c!"(", c!"", c!"R.c = 2 or b = 3"]).1 = .ok
    { errors := [.parse (.syntax 0 0)], joins := [c!"R"], wheres := [(c!"`a` = ?", [.int 1]), (c!"`R`.`c` = ? or `b` = ?", [.int 2, .int 3])] } := by decide +kernel

/-- C52 in full is false: two queries that refer to the same relation join it twice when applied one after another, but once when applied as a list. -/
theorem C52_joined_twice_refuted :
    (wireAll exampleQuote exampleFold { model := some (some exampleSchema) } {} [c!"R.c > 1", c!"R.c < 5"]).1 = .ok
      { joins := [c!"R", c!"R"], wheres := [(c!"`R`.`c` > ?", [.int 1]), (c!"`R`.`c` < ?", [.int 5])] } ∧
    scope (some exampleSchema) exampleQuote exampleFold {} [c!"R.c > 1", c!"R.c < 5"] = .ok
      { joins := [c!"R"], wheres := [(c!"(`R`.`c` > ?) and (`R`.`c` < ?)", [.int 1, .int 5])] } := by decide +kernel

/-- C53: on a statement that has neither schema nor model, or a model that cannot be read, no query ever adds a condition, and every query that is not
empty adds an error. -/
theorem C53_no_schema (quote : Str → Str) (fold : Str → Str → Bool) (st : Stmt) (hs : st.schema = none) (hm : st.model = none ∨ st.model = some none)
    (qs : List Str) (db : Db) : ∃ db' es, (wireAll quote fold st db qs).1 = .ok db' ∧ db'.wheres = db.wheres ∧ db'.joins = db.joins ∧
      db'.errors = db.errors ++ es ∧ es.length = (qs.filter fun q => q ≠ []).length := by
  have hr : resolved st = none := by unfold resolved; rw [hs]; rcases hm with h | h <;> rw [h]
  obtain ⟨ds, h1, h2⟩ := C52_sequence quote fold qs st db
  rw [hr] at h1
  have one : ∀ q, ∃ es : List DbErr, wire none quote fold {} q = .ok { errors := es } ∧ es.length = if q ≠ [] then 1 else 0 := by
    intro q
    unfold wire
    by_cases hq : q = []
    · rw [if_pos hq]; exact ⟨[], rfl, by simp [hq]⟩
    · rw [if_neg hq]
      rcases (C01_parse_total q).1 with ⟨n, hp⟩ | ⟨e, hp⟩ <;> rw [hp] <;> exact ⟨_, rfl, by simp [hq]⟩
  have all : ∀ (qs : List Str) (ds : List Db) (db : Db), qs.map (fun q => wire none quote fold {} q) = ds.map WRes.ok →
      ∃ es, ds.foldl Db.plus db = { db with errors := db.errors ++ es } ∧ es.length = (qs.filter fun q => q ≠ []).length := by
    intro qs
    induction qs with
    | nil => intro ds db h; cases ds with
      | nil => exact ⟨[], by simp, rfl⟩
      | cons => cases h
    | cons q qs ih =>
      intro ds db h
      cases ds with
      | nil => cases h
      | cons d ds =>
        rw [List.map_cons, List.map_cons] at h
        injection h with h0 h
        obtain ⟨es, he, hl⟩ := one q
        rw [he] at h0
        cases h0
        obtain ⟨es', h3, h4⟩ := ih ds (db.plus { errors := es }) h
        refine ⟨es ++ es', ?_, ?_⟩
        · rw [List.foldl_cons, h3]; simp [Db.plus]
        · rw [List.length_append, hl, h4]
          by_cases hq : q = [] <;> simp [hq]; omega
  obtain ⟨es, h3, h4⟩ := all qs ds db h1
  exact ⟨_, es, h2, by rw [h3], by rw [h3], by rw [h3], h4⟩

/-- C53: the schema is looked for only when it is needed, and once: later queries, whatever came before, see the schema of the first. -/
theorem C53_resolved_kept (quote : Str → Str) (fold : Str → Str → Bool) (qs : List Str) : ∀ (st : Stmt) (db : Db), resolved (wireAll quote fold st db qs).2 = resolved st := by
  induction qs with
  | nil => intro st db; rfl
  | cons q qs ih =>
    intro st db
    obtain ⟨w1, w2⟩ := wireStmt_resolved quote fold st db q
    rw [wireAll]
    cases hw : wireStmt quote fold st db q with
    | mk r st' =>
      rw [hw] at w2
      cases r with
      | ok db' => exact (ih st' db').trans w2
      | panic => exact w2

example : (wireAll exampleQuote exampleFold {} {} [c!"a = 1", c!"", c!"("]).1 = .ok { errors := [.schema, .parse (.syntax 0 0)] } := by decide +kernel

end Verif
