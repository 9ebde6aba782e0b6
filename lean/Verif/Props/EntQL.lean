import Verif.EntQLThms

/-! # Properties of the entql translator -/

namespace Verif

/-- An interpretation used for examples: every field holds the number `a`, truth values are 0 and 1. -/
def intI (a : Int) : Interp Int where
  field _ := a
  ref _ := a
  const v := match v with
    | .int i => i
    | _ => 0
  call _ _ := 0
  cmp o x y := if (o = c!"eq" ∧ x = y) ∨ (o = c!"neq" ∧ x ≠ y) ∨ (o = c!"gt" ∧ x > y) ∨ (o = c!"gte" ∧ x ≥ y) ∨ (o = c!"lt" ∧ x < y) ∨
    (o = c!"lte" ∧ x ≤ y) then 1 else 0
  pred _ _ := 0
  and x y := if x = 0 then 0 else y
  or x y := if x = 0 then y else 1
  not x := if x = 0 then 1 else 0

/-! ## C35 meaning -/

/-- **C35** (part). A returned predicate means what the tree means, except that every `not` is ignored.  Missing: negation and `not between`
(refuted below), arrow queries. -/
theorem C35_ignoring_not_partial {D : Type} (I : Interp D) {q n p} (h : parse q = .ok n) (hb : Balanced q false) (hr : buildEntQL q = .pred p)
    (hbt : ∀ l o a b, Sub (.between l (.op o) a b) n → o = c!"between") :
    ∃ d, evalE I p = some d ∧ mean { I with not := id } n = some d := by
  obtain ⟨n', h', hs, _, hv⟩ := build_pred hr
  rw [h] at h'; cases h'
  exact hs.mean I hbt (parse_logic h hb) (parse_cmp h hb) hv

/-- **C35** (part). Without negation and `not between`, a returned predicate means what the tree means. -/
theorem C35_meaning_partial {D : Type} (I : Interp D) {q n p} (h : parse q = .ok n) (hb : Balanced q false) (hr : buildEntQL q = .pred p)
    (hbt : ∀ l o a b, Sub (.between l (.op o) a b) n → o = c!"between") (hn : ∀ e, ¬ Sub (.not e) n) :
    ∃ d, evalE I p = some d ∧ mean I n = some d := by
  obtain ⟨d, h1, h2⟩ := C35_ignoring_not_partial I h hb hr hbt
  obtain ⟨n', h', hs, _, _⟩ := build_pred hr
  rw [h] at h'; cases h'
  rw [hs.mean_not I id hbt hn] at h2
  exact ⟨d, h1, h2⟩

/-- A query covered by both: mixed connectives, a range, a membership. -/
example : ∃ n p, parse c!"a = 1 or b between 2 and 3 and c in [4]" = .ok n ∧
    buildEntQL c!"a = 1 or b between 2 and 3 and c in [4]" = .pred p ∧ evalE (intI 2) p = some 0 ∧ mean (intI 2) n = some 0 :=
  ⟨.logic (.logic (.cmp (.ident c!"a") (.op c!"eq") (.int 1)) (.op c!"or") (.between (.ident c!"b") (.op c!"between") (.int 2) (.int 3)))
      (.op c!"and") (.cmp (.ident c!"c") (.op c!"in") (.arr [.int 4])),
    .bin .and (.bin .or (.bin .eq (.field c!"a") (.val (.int 1)))
      (.bin .and (.bin .gte (.field c!"b") (.val (.int 2))) (.bin .lte (.field c!"b") (.val (.int 3)))))
      (.bin .in_ (.field c!"c") (.val (.slice [.int 4]))), by decide +kernel, by decide +kernel, by decide +kernel, by decide +kernel⟩

/-- **C35** refuted: a negation is lost. -/
theorem C35_not_refuted : ∃ n p, parse c!"not a = 1" = .ok n ∧ buildEntQL c!"not a = 1" = .pred p ∧
    evalE (intI 1) p = some 1 ∧ mean (intI 1) n = some 0 :=
  ⟨.not (.cmp (.ident c!"a") (.op c!"eq") (.int 1)), .bin .eq (.field c!"a") (.val (.int 1)), by decide +kernel, by decide +kernel,
    by decide +kernel, by decide +kernel⟩

/-- **C35** refuted: whatever the row, the predicate of `x not between lo and hi` is false if `lo ≤ hi`. -/
theorem C35_not_between_refuted {q x lo hi p} (h : parse q = .ok (.between (.ident x) (.op c!"not between") (.int lo) (.int hi)))
    (hl : lo ≤ hi) (hr : buildEntQL q = .pred p) (a : Int) : evalE (intI a) p = some 0 := by
  obtain ⟨n', h', hs, _, hv⟩ := build_pred hr
  rw [h] at h'; cases h'
  have : p = .bin .and (.bin .lt (.field x) (.val (.int lo))) (.bin .gt (.field x) (.val (.int hi))) := by
    simp [evisit, eVal, value, ERes.andThen, eBetween, operation] at hv
    exact hv.symm
  subst this
  simp only [evalE, Option.bind_some, intI]
  simp
  intro h1
  omega

/-- It is met, and the tree means something else. -/
example : ∃ p, parse c!"a not between 1 and 5" = .ok (.between (.ident c!"a") (.op c!"not between") (.int 1) (.int 5)) ∧
    buildEntQL c!"a not between 1 and 5" = .pred p ∧
    mean (intI 7) (.between (.ident c!"a") (.op c!"not between") (.int 1) (.int 5)) = some 1 :=
  ⟨.bin .and (.bin .lt (.field c!"a") (.val (.int 1))) (.bin .gt (.field c!"a") (.val (.int 5))), by decide +kernel, by decide +kernel,
    by decide +kernel⟩

/-- **C35** refuted: with a comment between `not` and `between`, the predicate is that of `between`. -/
theorem C35_comment_refuted :
    buildEntQL c!"a not --x\nbetween 1 and 5" = buildEntQL c!"a between 1 and 5" ∧
    ∃ p, buildEntQL c!"a between 1 and 5" = .pred p ∧ evalE (intI 3) p = some 1 :=
  ⟨by decide +kernel, .bin .and (.bin .gte (.field c!"a") (.val (.int 1))) (.bin .lte (.field c!"a") (.val (.int 5))), by decide +kernel,
    by decide +kernel⟩

/-! ## C36 negation -/

/-- **C36** refuted, for every query: the predicate built for `not q` is the one built for `q`. -/
theorem C36_not_refuted {q q' e p} (h' : parse q' = .ok e) (h : parse q = .ok (.not e)) (hr : buildEntQL q' = .pred p) :
    buildEntQL q = .pred p ∧ buildEntQL q ≠ .pred (.un .not p) := by
  obtain ⟨n, hn, hs, hc, hv⟩ := build_pred hr
  rw [h'] at hn; cases hn
  obtain ⟨p', hp⟩ := build_sup h (.not hs) hc
  have h2 : evisit (.not e) [] = .ok [p] := by rw [evisit, hv]; rfl
  obtain ⟨p1, hp1, _, hp3⟩ := hs.visit
  have := hp3 []
  rw [hv] at this; cases this
  have hb : buildEntQL q = .pred p := by
    unfold buildEntQL
    rw [build_ok h, h2]
    simp only []
    rw [if_pos]
    rw [‹p.isP = isCond e›]; exact hc
  refine ⟨hb, ?_⟩
  rw [hb]
  intro h
  have h3 : p = .un .not p := by injection h
  have := congrArg sizeOf h3
  simp at this

example : ∃ e p, parse c!"a = 1" = .ok e ∧ parse c!"not a = 1" = .ok (.not e) ∧ buildEntQL c!"a = 1" = .pred p :=
  ⟨.cmp (.ident c!"a") (.op c!"eq") (.int 1), .bin .eq (.field c!"a") (.val (.int 1)), by decide +kernel, by decide +kernel, by decide +kernel⟩

/-- No predicate ever contains a negation. -/
theorem C36_negFree {q p} (hr : buildEntQL q = .pred p) : negFree p = true := by
  obtain ⟨n, _, hs, _, hv⟩ := build_pred hr
  obtain ⟨e, h1, _, h3⟩ := hs.visit
  have := h3 []
  rw [hv] at this; cases this
  exact h1

example : ∃ p, buildEntQL c!"not (not a = 1 and b > 2)" = .pred p :=
  ⟨.bin .and (.bin .eq (.field c!"a") (.val (.int 1))) (.bin .gt (.field c!"b") (.val (.int 2))), by decide +kernel⟩

/-! ## C37 no panic, no dropped filter -/

/-- **C37** (part). `Build` returns a predicate exactly for the queries that are conditions made of supported parts.  Missing: for the others it
should return an error; it may panic or return nil (refuted below). -/
theorem C37_predicate_partial (q : Str) : (∃ p, buildEntQL q = .pred p) ↔ ∃ n, parse q = .ok n ∧ Sup n ∧ isCond n = true := by
  constructor
  · rintro ⟨p, h⟩
    obtain ⟨n, h1, h2, h3, _⟩ := build_pred h
    exact ⟨n, h1, h2, h3⟩
  · rintro ⟨n, h1, h2, h3⟩
    obtain ⟨p, hp⟩ := build_sup h1 h2 h3
    exact ⟨p, by rw [buildEntQL, hp]⟩

example : ∃ p, buildEntQL c!"(a = 1) and not (b in ['x', null] or c > d)" = .pred p :=
  ⟨.bin .and (.bin .eq (.field c!"a") (.val (.int 1)))
    (.bin .or (.bin .in_ (.field c!"b") (.val (.slice [.str c!"x", .nil]))) (.bin .gt (.field c!"c") (.field c!"d"))), by decide +kernel⟩

/-- The nil predicate, without an error: the empty query, and calls. -/
theorem C37_nil (q : Str) : buildEntQL q = .nil ↔ q = [] ∨ ∃ n, parse q = .ok n ∧ isCall n = true := by
  constructor
  · intro h
    by_cases hq : q = []
    · exact .inl hq
    · unfold buildEntQL eBuild at h
      rw [if_neg hq] at h
      split at h
      · cases h
      · cases h
      · cases h
      · rename_i n hp
        split at h
        · cases h
        · cases h
        · exact .inr ⟨n, hp, evisit_nil n (by assumption)⟩
        · split at h <;> cases h
  · rintro (rfl | ⟨n, hp, hc⟩)
    · rfl
    · rw [buildEntQL, build_ok hp, isCall_visit n hc]

/-- **C37** refuted: a filter that is a call is dropped silently. -/
theorem C37_dropped_refuted : buildEntQL c!"has_edge(owner)" = .nil ∧ buildEntQL c!"not (date(a))" = .nil := by decide +kernel

/-- **C37** refuted: panics, for `is` predicates, for a bare name or value, for a negation of something unsupported. -/
theorem C37_panic_refuted : buildEntQL c!"a is null" = .panic ∧ buildEntQL c!"a" = .panic ∧ buildEntQL c!"1" = .panic ∧
    buildEntQL c!"not a like 'x'" = .panic ∧ buildEntQL c!"f(1) = 2" = .panic := by decide +kernel

/-- What is not a query is an error, never a panic. -/
theorem C37_syntax (q : Str) (e : Err) (hq : q ≠ []) (h : parse q = .err e) : buildEntQL q = .err (.parse e) := by
  unfold buildEntQL eBuild
  rw [if_neg hq, h]

example : buildEntQL c!"a =" = .err (.parse (.syntax 2 3)) := by decide +kernel

/-- Unsupported parts do not yield a predicate, wherever they are: relation names, `like`, `is`. -/
theorem C37_unsupported {q n} (h : parse q = .ok n) (hs : ¬ Sup n) (p : EExpr) : buildEntQL q ≠ .pred p := by
  intro hp
  obtain ⟨n', h', hs', _⟩ := build_pred hp
  rw [h] at h'; cases h'
  exact hs hs'

example : buildEntQL c!"a = 1 and b.c = 2" = .err .invalidType ∧ buildEntQL c!"a like 'x'" = .err (.unexpectedOp c!"like") := by decide +kernel

/-- A visit without `is` predicates, calls, and negations of unsupported parts pushes one expression, or reports an error. -/
theorem Fine.visit_total {n : Node} (h : Fine n) : (∀ l o, ¬ Sub (.pred l o) n) → (∀ f ps, ¬ Sub (.func f ps) n) → (∀ e, Sub (.not e) n → Sup e) →
    ∀ st, (∃ x, x.isP = isCond n ∧ evisit n st = .ok (x :: st)) ∨ ∃ e st', evisit n st = .err e st' := by
  have opq : ∀ {o : Node}, Fine o → ∃ w, operation o = some w := by
    intro o ho
    cases o <;> first | exact ⟨_, rfl⟩ | exact nomatch ho.complete
  have bin : ∀ {l o r : Node}, Fine o → (∀ st, (∃ x, x.isP = isCond l ∧ evisit l st = .ok (x :: st)) ∨ ∃ e st', evisit l st = .err e st') →
      (∀ st, (∃ x, x.isP = isCond r ∧ evisit r st = .ok (x :: st)) ∨ ∃ e st', evisit r st = .err e st') → ∀ st,
      (∃ x : EExpr, x.isP = true ∧ ((evisit l st).andThen fun st => evisit r st).andThen (eBin o) = .ok (x :: st)) ∨
        ∃ e st', ((evisit l st).andThen fun st => evisit r st).andThen (eBin o) = .err e st' := by
    intro l o r ho h1 h2 st
    rcases h1 st with ⟨x, _, e1⟩ | ⟨e, st', e1⟩
    · rw [e1]
      simp only [ERes.andThen]
      rcases h2 (x :: st) with ⟨y, _, e2⟩ | ⟨e, st', e2⟩
      · rw [e2]
        obtain ⟨w, hw⟩ := opq ho
        simp only [eBin, hw]
        cases hl : entqlOps.lookup w with
        | none => exact .inr ⟨_, _, rfl⟩
        | some q => exact .inl ⟨_, rfl, rfl⟩
      · rw [e2]; exact .inr ⟨_, _, rfl⟩
    · rw [e1]; exact .inr ⟨_, _, rfl⟩
  induction h with
  | val h =>
    intro _ _ _ st
    obtain ⟨x, _, hx, hv⟩ := (Sup.val h).visit
    exact .inl ⟨x, hx, hv st⟩
  | op _ => intro _ _ _ st; exact .inr ⟨_, _, rfl⟩
  | ident _ => intro _ _ _ st; exact .inl ⟨_, rfl, rfl⟩
  | ref _ => intro _ _ _ st; exact .inr ⟨_, _, rfl⟩
  | pred _ _ _ => intro h; exact absurd .refl (h _ _)
  | cmp _ _ _ ih1 ih2 ih3 =>
    rename_i ho _
    intro h1 h2 h3 st
    rw [evisit]
    exact bin ho (ih1 (fun l o h => h1 l o (.step (by simp [kids]) h)) (fun l o h => h2 l o (.step (by simp [kids]) h)) (fun e h => h3 e (.step (by simp [kids]) h)))
      (ih3 (fun l o h => h1 l o (.step (by simp [kids]) h)) (fun l o h => h2 l o (.step (by simp [kids]) h)) (fun e h => h3 e (.step (by simp [kids]) h))) st
  | logic _ _ _ ih1 ih2 ih3 =>
    rename_i ho _
    intro h1 h2 h3 st
    rw [evisit]
    exact bin ho (ih1 (fun l o h => h1 l o (.step (by simp [kids]) h)) (fun l o h => h2 l o (.step (by simp [kids]) h)) (fun e h => h3 e (.step (by simp [kids]) h)))
      (ih3 (fun l o h => h1 l o (.step (by simp [kids]) h)) (fun l o h => h2 l o (.step (by simp [kids]) h)) (fun e h => h3 e (.step (by simp [kids]) h))) st
  | paren _ ih =>
    intro h1 h2 h3 st
    exact ih (fun l o h => h1 l o (.step (by simp [kids]) h)) (fun l o h => h2 l o (.step (by simp [kids]) h)) (fun e h => h3 e (.step (by simp [kids]) h)) st
  | not _ _ =>
    intro _ _ h3 st
    obtain ⟨x, _, hx, hv⟩ := (h3 _ .refl).visit
    exact .inl ⟨x, hx, by rw [evisit, hv]; rfl⟩
  | between _ _ ha hb ih =>
    intro h1 h2 h3 st
    rw [evisit]
    rcases ih (fun l o h => h1 l o (.step (by simp [kids]) h)) (fun l o h => h2 l o (.step (by simp [kids]) h)) (fun e h => h3 e (.step (by simp [kids]) h)) st with
      ⟨x, _, e⟩ | ⟨e, st', e⟩
    · rw [e]
      simp only [ERes.andThen, ha.visit, hb.visit, eBetween, operation]
      split <;> exact .inl ⟨_, rfl, rfl⟩
    · rw [e]; exact .inr ⟨_, _, rfl⟩
  | func _ _ _ => intro _ h; exact absurd .refl (h _ _)

/-- **C37** (part). A condition without `is` predicates and calls, in which `not` stands before supported parts only, gives a predicate or an error: a
predicate if all of it is supported, otherwise an error.  Missing: the other queries (refuted below). -/
theorem C37_no_panic_partial {q n} (h : parse q = .ok n) (hc : isCond n = true) (h1 : ∀ l o, ¬ Sub (.pred l o) n) (h2 : ∀ f ps, ¬ Sub (.func f ps) n)
    (h3 : ∀ e, Sub (.not e) n → Sup e) : (Sup n ∧ ∃ p, buildEntQL q = .pred p) ∨ (¬ Sup n ∧ ∃ e, buildEntQL q = .err e) := by
  by_cases hs : Sup n
  · exact .inl ⟨hs, (C37_predicate_partial q).mpr ⟨n, h, hs, hc⟩⟩
  refine .inr ⟨hs, ?_⟩
  rcases (parse_fine h).1.visit_total h1 h2 h3 [] with ⟨x, hx, hv⟩ | ⟨e, st, hv⟩
  · exact absurd (by rw [buildEntQL, build_ok h, hv]; simp only []; rw [if_pos (hx.trans hc)]) (C37_unsupported h hs x)
  · exact ⟨e, by rw [buildEntQL, build_ok h, hv]⟩

/-- A query with an error behind a negation, and one with `->`. -/
example : parse c!"not a = 1 and b.c = 2" = .ok (.logic (.not (.cmp (.ident c!"a") (.op c!"eq") (.int 1))) (.op c!"and") (.cmp (.ref [c!"b", c!"c"]) (.op c!"eq") (.int 2))) ∧
    buildEntQL c!"not a = 1 and b.c = 2" = .err .invalidType ∧
    parse c!"x = a->b" = .ok (.cmp (.op c!"eq") (.ident c!"a") (.ident c!"b")) ∧ buildEntQL c!"x = a->b" = .err (.opNode c!"eq") := by decide +kernel

/-! ## C38 no memory -/

/-- What is left on the stack by a sequence of calls of `Build`. -/
def after : List Str → List EExpr
  | [] => []
  | q :: qs => (eBuild q (after qs)).2

/-- Calls that leave no trace: empty queries, syntax errors, supported conditions, calls. -/
def Traceless (q : Str) : Prop :=
  q = [] ∨ (∃ e, parse q = .err e) ∨ ∃ n, parse q = .ok n ∧ (isCall n = true ∨ Sup n ∧ isCond n = true)

/-- **C38** (part). After any number of traceless calls, `Build` returns what a fresh builder returns.  Missing: calls that fail otherwise (refuted
below). -/
theorem C38_history_partial (qs : List Str) (h : ∀ q ∈ qs, Traceless q) (q : Str) : (eBuild q (after qs)).1 = buildEntQL q := by
  have : after qs = [] := by
    induction qs with
    | nil => rfl
    | cons q' qs ih =>
      have ih := ih fun x hx => h x (List.mem_cons_of_mem _ hx)
      rw [after, ih]
      rcases h q' (by simp) with rfl | ⟨e, he⟩ | ⟨n, hn, hc | ⟨hs, hc⟩⟩
      · rfl
      · rw [eBuild]; split
        · rfl
        · rw [he]
      · rw [build_ok hn, isCall_visit n hc]
      · obtain ⟨p, hp⟩ := build_sup hn hs hc
        rw [hp]
  rw [this]
  rfl

example : ∀ q ∈ [c!"", c!"a =", c!"a = 1 and b > 2"], Traceless q := by
  intro q hq
  simp only [List.mem_cons, List.not_mem_nil, or_false] at hq
  rcases hq with rfl | rfl | rfl
  · exact .inl rfl
  · exact .inr (.inl ⟨.syntax 2 3, by decide +kernel⟩)
  · exact .inr (.inr ⟨.logic (.cmp (.ident c!"a") (.op c!"eq") (.int 1)) (.op c!"and") (.cmp (.ident c!"b") (.op c!"gt") (.int 2)),
      by decide +kernel, .inr ⟨.logic (.cmp .ident (by decide) (.val trivial)) (by decide) (.cmp .ident (by decide) (.val trivial)), rfl⟩⟩)

/-- **C38** (part). The result for a supported condition does not depend on the history at all. -/
theorem C38_supported_partial {q n} (h : parse q = .ok n) (hs : Sup n) (hc : isCond n = true) (st : List EExpr) :
    (eBuild q st).1 = buildEntQL q := by
  obtain ⟨p, hp⟩ := build_sup h hs hc
  rw [buildEntQL, hp, hp]

/-- **C38** refuted: after a failed `Build`, the filter of another query comes out of a query that has none. -/
theorem C38_refuted : ∃ p, buildEntQL c!"f(1)" = .nil ∧ (eBuild c!"f(1)" (after [c!"(a = 1) and b.c"])).1 = .pred p ∧
    p = .bin .eq (.field c!"a") (.val (.int 1)) := ⟨.bin .eq (.field c!"a") (.val (.int 1)), by decide +kernel, by decide +kernel, rfl⟩

/-! ## C39 ApplyEntQL -/

/-- What `Build` returned, for a predicate that was applied. -/
def applied : Option EExpr → BRes
  | none => .nil
  | some p => .pred p

/-- **C39** `ApplyEntQL` applies, in order, the predicates of the queries before the first that fails; it ends well iff none fails, and
otherwise reports the failing one. -/
theorem C39_prefix (qs : List Str) : ∃ pre rest, qs = pre ++ rest ∧ (applyEntQL qs).1.map applied = pre.map buildEntQL ∧
    ((rest = [] ∧ (applyEntQL qs).2 = .done) ∨
     ∃ q t, rest = q :: t ∧ ((∃ e, buildEntQL q = .err e ∧ (applyEntQL qs).2 = .failed q e) ∨ (buildEntQL q = .panic ∧ (applyEntQL qs).2 = .panic))) := by
  induction qs with
  | nil => exact ⟨[], [], rfl, rfl, .inl ⟨rfl, rfl⟩⟩
  | cons q qs ih =>
    obtain ⟨pre, rest, h1, h2, h3⟩ := ih
    have hb : (eBuild q []).1 = buildEntQL q := rfl
    rw [applyEntQL, hb]
    cases hq : buildEntQL q with
    | panic => exact ⟨[], q :: qs, rfl, rfl, .inr ⟨q, qs, rfl, .inr ⟨hq, rfl⟩⟩⟩
    | err e => exact ⟨[], q :: qs, rfl, rfl, .inr ⟨q, qs, rfl, .inl ⟨e, hq, rfl⟩⟩⟩
    | nil => exact ⟨q :: pre, rest, by rw [h1]; rfl, by simp [h2, hq, applied], h3⟩
    | pred p => exact ⟨q :: pre, rest, by rw [h1]; rfl, by simp [h2, hq, applied], h3⟩

/-- **C39** It ends without error or panic iff every query has a predicate (or nil). -/
theorem C39_done (qs : List Str) : (applyEntQL qs).2 = .done ↔ ∀ q ∈ qs, buildEntQL q = .nil ∨ ∃ p, buildEntQL q = .pred p := by
  induction qs with
  | nil => simp [applyEntQL]
  | cons q qs ih =>
    have hb : (eBuild q []).1 = buildEntQL q := rfl
    rw [applyEntQL, hb]
    cases hq : buildEntQL q <;> simp [hq, ih]

example : applyEntQL [c!"a = 1", c!"", c!"a =", c!"b = 2"] =
    ([some (.bin .eq (.field c!"a") (.val (.int 1))), none], .failed c!"a =" (.parse (.syntax 2 3))) := by decide +kernel

end Verif
