import Verif.ErrText
import Verif.Props.Messages
import Verif.Props.ParseErrors
import Verif.Props.Faults
import Verif.Props.Build
import Verif.Props.Parse

/-! # The texts of the errors that callers see (C73) -/

namespace Verif

/-- What is assumed of `strconv.IsPrint`: it holds of the ASCII characters from the space to the tilde and of the Chinese characters in the messages, and
does not hold of the newline. -/
structure PrintLike (P : Char → Bool) : Prop where
  newline : P '\n' = false
  ascii : ∀ c, ascii c = true → P c = true
  han : ∀ c ∈ c!"关联参数错误不存在条件支持的函", P c = true

/-- Fit for a log: one line, or the three line ends of a syntax error of `q`; every other character is printable. -/
def Tidy (P : Char → Bool) (q t : Str) : Prop :=
  (∀ c ∈ t, c = '\n' ∨ P c = true) ∧ (t.count '\n' = 0 ∨ t.count '\n' = 3 ∧ ∃ b e, parse q = .err (.syntax b e))

/-- A test of printable characters, for the examples. -/
def exPrint (c : Char) : Bool := ascii c || c!"关联参数错误不存在条件支持的函".contains c

example : PrintLike exPrint :=
  ⟨by decide, fun c h => by simp [exPrint, h], fun c h => by simp only [exPrint, Bool.or_eq_true]; exact .inr (List.contains_iff_mem.mpr h)⟩

/-! ## Quoting -/

theorem alnum_ascii {c : Char} (hc : c.isAlphanum = true) : ascii c = true := by
  simp only [ascii, Char.isAlphanum, Char.isAlpha, Char.isUpper, Char.isLower, Char.isDigit, Bool.or_eq_true, Bool.and_eq_true, decide_eq_true_eq] at hc ⊢
  have e : c.toNat = c.val.toNat := rfl
  simp only [ge_iff_le, UInt32.le_iff_toNat_le] at hc
  rcases hc with (⟨h1, h2⟩ | ⟨h1, h2⟩) | ⟨h1, h2⟩ <;> rw [e] <;> constructor <;> simp at h1 h2 <;> omega

theorem PrintLike.quoted {P : Char → Bool} (hP : PrintLike P) {s : Str} : ∀ c ∈ quote P s, P c = true := by
  intro c hc
  simp only [quote, List.mem_cons, List.mem_append, List.mem_flatMap, List.not_mem_nil, or_false] at hc
  rcases hc with rfl | ⟨x, _, hx⟩ | rfl
  · exact hP.ascii _ (by decide)
  · rcases quoteRune_mem hx with ⟨rfl, h | rfl | rfl⟩ | rfl | h
    · exact h
    · exact hP.ascii _ (by decide)
    · exact hP.ascii _ (by decide)
    · exact hP.ascii _ (by decide)
    · exact hP.ascii _ (alnum_ascii h)
  · exact hP.ascii _ (by decide)

/-- A fixed text of a message. -/
def fixedText (w : Str) : Bool := w.all fun c => ascii c || c!"关联参数错误不存在条件支持的函".contains c

theorem PrintLike.fixed {P : Char → Bool} (hP : PrintLike P) {w : Str} (hw : fixedText w = true) : ∀ c ∈ w, P c = true := by
  intro c hc
  have := List.all_eq_true.mp hw c hc
  rw [Bool.or_eq_true] at this
  rcases this with h | h
  · exact hP.ascii c h
  · exact hP.han c (List.contains_iff_mem.mp h)

theorem PrintLike.append {P : Char → Bool} {a b : Str} (ha : ∀ c ∈ a, P c = true) (hb : ∀ c ∈ b, P c = true) : ∀ c ∈ a ++ b, P c = true := by
  intro c hc
  rcases List.mem_append.mp hc with h | h
  · exact ha c h
  · exact hb c h

theorem PrintLike.noLine {P : Char → Bool} (hP : PrintLike P) {t : Str} (h : ∀ c ∈ t, P c = true) : t.count '\n' = 0 := by
  rw [List.count_eq_zero]
  intro hm
  have := h _ hm
  rw [hP.newline] at this
  cases this

theorem Tidy.plain {P : Char → Bool} (hP : PrintLike P) {q t : Str} (h : ∀ c ∈ t, P c = true) : Tidy P q t :=
  ⟨fun c hc => .inr (h c hc), .inl (hP.noLine h)⟩

/-- A printable text before it does no harm. -/
theorem Tidy.before {P : Char → Bool} (hP : PrintLike P) {q a t : Str} (ha : ∀ c ∈ a, P c = true) (h : Tidy P q t) : Tidy P q (a ++ t) := by
  refine ⟨fun c hc => ?_, ?_⟩
  · rcases List.mem_append.mp hc with hc | hc
    · exact .inr (ha c hc)
    · exact h.1 c hc
  · rw [List.count_append, hP.noLine ha, Nat.zero_add]
    exact h.2

/-! ## Parse -/

/-- C73: every error of Parse has a text, fit for a log. -/
theorem C73_parse {P : Char → Bool} (hP : PrintLike P) {q : Str} {e : Err} (h : parse q = .err e) : ∃ t, e.text P q = some t ∧ Tidy P q t := by
  rcases C60_errors q e h with ⟨b, x, rfl, hn⟩ | ⟨k, rfl, _, _⟩
  · rcases pegParse_cases q [] with ⟨st, ts, ev, _, _, hp, _⟩ | ⟨st, _, hp, _⟩
    · exact absurd hp (hn _ _)
    · have hm := C44_message P false q [] _ _ hp
      refine ⟨_, by simp only [Err.text, hp]; exact hm, ?_⟩
      obtain ⟨h1, h2⟩ := C44_message_lines P hP.newline hP.ascii q [] _ _ hp false _ hm
      exact ⟨h2 rfl, .inr ⟨h1, b, x, h⟩⟩
  · refine ⟨_, rfl, Tidy.plain hP ?_⟩
    exact PrintLike.append (PrintLike.append (hP.fixed (by decide)) hP.quoted) (hP.fixed (by decide))

/-- C73: the error of an integer that does not fit quotes its digits, as they are written in the query. -/
theorem C73_range (P : Char → Bool) {q x : Str} (h : parse q = .err (.intRange x)) :
    (Err.intRange x).text P q = some (c!"strconv.Atoi: parsing " ++ quote P x ++ c!": value out of range") ∧ x <:+: q := by
  refine ⟨rfl, ?_⟩
  rcases C60_errors q _ h with ⟨_, _, h, _⟩ | ⟨k, h, _, hk⟩
  · cases h
  · cases h; exact hk

/-- The text of the error of Parse, if there is one. -/
def exParseText (q : Str) : Option Str := match parse q with | .err e => e.text exPrint q | _ => none

example : exParseText c!"a = 1 $\n\u0007" = some c!"\nparse error near Space (line 1 symbol 6 - line 1 symbol 7):\n\" \"\n" ∧
    exParseText c!"a = 99999999999999999999" = some c!"strconv.Atoi: parsing \"99999999999999999999\": value out of range" := by decide +kernel

/-! ## gorm -/

/-- C73: every error that WireMiniQuery records has a text, fit for a log if that of the error about the model is. -/
theorem C73_gorm {P : Char → Bool} (hP : PrintLike P) {model : Str} (hm : ∀ c ∈ model, P c = true) {schema : Option GSchema} {quote : Str → Str}
    {fold : Str → Str → Bool} {db db' : Db} {q : Str} (h : wire schema quote fold db q = .ok db') :
    db'.errors = db.errors ∨ ∃ e t, db'.errors = db.errors ++ [e] ∧ e.text P model q = some t ∧ Tidy P q t := by
  unfold wire at h
  split at h
  · cases h; exact .inl rfl
  · split at h
    · cases h
    · cases h
    · rename_i e hp
      cases h
      obtain ⟨t, ht, htt⟩ := C73_parse hP hp
      exact .inr ⟨_, _, rfl, by simp only [DbErr.text, ht]; rfl, htt.before hP (hP.fixed (by decide))⟩
    · split at h
      · cases h
        exact .inr ⟨_, _, rfl, rfl, .plain hP hm⟩
      · split at h
        · cases h
        · rename_i e st _
          cases h
          refine .inr ⟨_, _, rfl, rfl, .plain hP ?_⟩
          cases e with
          | fieldNotFound x => exact PrintLike.append (hP.fixed (by decide)) hP.quoted
          | relationNotFound x => exact PrintLike.append (hP.fixed (by decide)) hP.quoted
          | relationFieldNotFound x y =>
            exact PrintLike.append (PrintLike.append (PrintLike.append (hP.fixed (by decide)) hP.quoted) (hP.fixed (by decide))) hP.quoted
          | oneLevel => exact hP.fixed (w := c!"only support join one level") (by decide)
          | unsupported f => exact PrintLike.append (hP.fixed (by decide)) hP.quoted
        · cases h; exact .inl rfl

example : (DbErr.parse (.intRange c!"99999999999999999999")).text exPrint [] c!"a = 99999999999999999999" =
    some c!"invalid query syntax: strconv.Atoi: parsing \"99999999999999999999\": value out of range" ∧
    (DbErr.build (.fieldNotFound c!"zz")).text exPrint [] c!"zz = 1" = some c!"field not found: \"zz\"" := by decide +kernel
example : exampleWire c!"a = 99999999999999999999" = .ok { errors := [.parse (.intRange c!"99999999999999999999")] } := by decide +kernel

/-! ## entql -/

theorem EErr.tidy {P : Char → Bool} (hP : PrintLike P) {q : Str} {st : List EExpr} {e : EErr} (h : (eBuild q st).1 = .err e) :
    ∃ t, e.text P q = some t ∧ Tidy P q t := by
  rcases C70_entql h with ⟨e', hp, rfl⟩ | ⟨n, m, hp, ho, hf⟩
  · exact C73_parse hP hp
  · cases hf with
    | op => exact ⟨_, rfl, .plain hP (PrintLike.append (hP.fixed (by decide)) hP.quoted)⟩
    | path => exact ⟨_, rfl, .plain hP (PrintLike.append (hP.fixed (by decide)) hP.quoted)⟩
    | cmp => exact ⟨_, rfl, .plain hP (PrintLike.append (hP.fixed (by decide)) hP.quoted)⟩
    | logic => exact ⟨_, rfl, .plain hP (PrintLike.append (hP.fixed (by decide)) hP.quoted)⟩

theorem wrapped_tidy {P : Char → Bool} (hP : PrintLike P) {msg q q' t : Str} (hm : fixedText msg = true) (h : Tidy P q t) : Tidy P q (wrapped P msg q' t) :=
  Tidy.before hP (PrintLike.append (PrintLike.append (hP.fixed hm) hP.quoted) (hP.fixed (by decide))) h

/-- C73: every error of BuildEntQL has a text, fit for a log. -/
theorem C73_build {P : Char → Bool} (hP : PrintLike P) {q : Str} {e : EErr} (h : buildEntQL q = .err e) : ∃ t, buildText P q e = some t ∧ Tidy P q t := by
  obtain ⟨t, ht, htt⟩ := EErr.tidy hP h
  exact ⟨_, by simp only [buildText, ht]; rfl, wrapped_tidy hP (by decide) htt⟩

/-- C73: a failing ApplyEntQL is stopped by one of the queries, all before it having been passed on, and its error has a text, fit for a log. -/
theorem C73_apply {P : Char → Bool} (hP : PrintLike P) : ∀ {qs : List Str} {ps : List (Option EExpr)} {q : Str} {e : EErr}, applyEntQL qs = (ps, .failed q e) →
    qs[ps.length]? = some q ∧ buildEntQL q = .err e ∧ ∃ t, applyText P (.failed q e) = some t ∧ Tidy P q t
  | [], _, _, _, h => by cases h
  | q' :: qs, ps, q, e, h => by
    unfold applyEntQL at h
    split at h
    · cases h
    · rename_i e' he
      cases h
      obtain ⟨t, ht, htt⟩ := EErr.tidy hP he
      exact ⟨rfl, he, _, by simp only [applyText, ht]; rfl, wrapped_tidy hP (by decide) htt⟩
    all_goals
      injection h with h1 h2
      obtain ⟨a, b, c⟩ := C73_apply hP (qs := qs) (ps := (applyEntQL qs).1) (q := q) (e := e) (by rw [← h2])
      subst h1
      exact ⟨by rw [List.length_cons, List.getElem?_cons_succ]; exact a, b, c⟩

theorem wrapped_inj (P : Char → Bool) {msg q q' t t' : Str} (h : wrapped P msg q t = wrapped P msg q' t') : q = q' ∧ t = t' := by
  unfold wrapped at h
  rw [List.append_assoc, List.append_assoc, List.append_assoc, List.append_assoc] at h
  obtain ⟨h1, h2⟩ := quote_inj P _ _ _ _ (List.append_cancel_left h)
  exact ⟨h1, List.append_cancel_left h2⟩

/-- C73: the text of an error of BuildEntQL or ApplyEntQL determines the query that failed, and the text of the cause. -/
theorem C73_which (P : Char → Bool) {q q' : Str} {e e' : EErr} {t : Str} :
    (buildText P q e = some t → buildText P q' e' = some t → q = q' ∧ e.text P q = e'.text P q) ∧
    (applyText P (.failed q e) = some t → applyText P (.failed q' e') = some t → q = q' ∧ e.text P q = e'.text P q) := by
  have key : ∀ msg, (e.text P q).map (wrapped P msg q) = some t → (e'.text P q').map (wrapped P msg q') = some t → q = q' ∧ e.text P q = e'.text P q := by
    intro msg h h'
    rw [Option.map_eq_some_iff] at h h'
    obtain ⟨x, h1, h2⟩ := h
    obtain ⟨x', h1', h2'⟩ := h'
    obtain ⟨rfl, rfl⟩ := wrapped_inj P (h2.trans h2'.symm)
    exact ⟨rfl, h1.trans h1'.symm⟩
  exact ⟨key _, key _⟩

example : buildEntQL c!"a like 'x\n'" = .err (.unexpectedOp c!"like") ∧
    buildText exPrint c!"a like 'x\n'" (.unexpectedOp c!"like") = some c!"failed to build query: \"a like 'x\\n'\": unexpected op \"like\"" := by decide +kernel
example : applyEntQL [c!"a = 1", [], c!"a like 'x'", c!"b = 2"] =
    ([some (.bin .eq (.field c!"a") (.val (.int 1))), none], .failed c!"a like 'x'" (.unexpectedOp c!"like")) ∧
    applyText exPrint (.failed c!"a like 'x'" (.unexpectedOp c!"like")) = some c!"failed to apply query: \"a like 'x'\": unexpected op \"like\"" := by decide +kernel

/-! ## ent SQL -/

theorem subTrans {a b : Node} (h : Sub a b) : ∀ {c : Node}, Sub b c → Sub a c := by
  intro c h'
  induction h' with
  | refl => exact h
  | step hk _ ih => exact .step hk ih

theorem PartOf.sub {edges : Nat → List (Str × SEdge)} {nd nd' : Option Nat} {n m : Node} (h : PartOf edges nd n nd' m) : Sub m n := by
  induction h with
  | refl => exact .refl
  | _ => rename_i ih; exact .step (by simp [kids]) ih

/-- C73: every error that the ent SQL builder records has a text, fit for a log. -/
theorem C73_sql {P : Char → Bool} (hP : PrintLike P) {E : SEnv} {d : Str} {k : Nat} {nd : Option Nat} {q : Str} {e : SErr}
    (h : e ∈ (sQuery E (SB.fresh d k nd q)).2.mb.own.errs) : ∃ t, e.text P q = some t ∧ Tidy P q t := by
  have pl : ∀ {w s : Str}, fixedText w = true → Tidy P q (w ++ quote P s) := fun hw => .plain hP (PrintLike.append (hP.fixed hw) hP.quoted)
  rcases C70_sql h with ⟨e', hp, rfl⟩ | ⟨n, nd', m, hp, hm, hf⟩
  · exact C73_parse hP hp
  · have hc : Complete m := (C02_complete_tree q n hp).sub hm.sub
    cases hf with
    | op => exact ⟨_, rfl, pl (by decide)⟩
    | path => exact ⟨_, rfl, pl (by decide)⟩
    | call => exact ⟨_, rfl, pl (by decide)⟩
    | pred => exact ⟨_, rfl, pl (by decide)⟩
    | cmp => exact ⟨_, rfl, pl (by decide)⟩
    | logic => exact ⟨_, rfl, pl (by decide)⟩
    | edgeNone => exact ⟨_, rfl, .plain hP (hP.fixed (by decide))⟩
    | edgeUnnamed => exact ⟨_, rfl, .plain hP (hP.fixed (by decide))⟩
    | edgeMany => exact ⟨_, rfl, .plain hP (hP.fixed (by decide))⟩
    | edgeUnknown => exact ⟨_, rfl, pl (by decide)⟩
    | @edgeCondition _ p c _ =>
      cases hc with
      | func hc =>
        obtain ⟨t, ht⟩ := nodeStr_complete (hc c (by simp))
        exact ⟨_, by simp only [SErr.text, ht]; rfl, pl (by decide)⟩

/-- The texts of the errors of a query on the example schema. -/
def exTexts (q : Str) : List (Option Str) := (exErrs q).map fun e => e.text exPrint q

example : exTexts c!"has_edge(owner, 'x\ny')" = [some c!"关联条件错误: \"value(x\\ny)\""] ∧ exTexts c!"has_edge(nobody)" = [some c!"不存在关联: \"nobody\""] ∧
    exTexts c!"a not --x\n in (1)" = [some c!"unexpected op \"not --x in\""] := by decide +kernel

/-- The names that an error quotes as they are written. -/
def SErr.names : SErr → List Str
  | .noEdge x => [x]
  | .unsupported f => [f]
  | .parse (.intRange x) => [x]
  | _ => []

/-- C73: the function or edge that an error of the ent SQL builder quotes is written in the query. -/
theorem C73_written {E : SEnv} {d : Str} {k : Nat} {nd : Option Nat} {q : Str} {e : SErr}
    (h : e ∈ (sQuery E (SB.fresh d k nd q)).2.mb.own.errs) : ∀ x ∈ e.names, x <:+: q := by
  rcases C70_sql h with ⟨e', hp, rfl⟩ | ⟨n, nd', m, hp, hm, hf⟩
  · intro x hx
    cases e' <;> simp only [SErr.names, List.mem_singleton, List.not_mem_nil] at hx
    subst hx
    exact (C73_range (fun _ => true) hp).2
  · have hf' : ∀ {m' : Node}, Sub m' m → From (fun x => x <:+: q) m' := fun hs x hx => parse_from hp x (subTrans hx (subTrans hs hm.sub))
    intro x hx
    cases hf <;> simp only [SErr.names, List.mem_singleton, List.not_mem_nil] at hx
    · subst hx
      exact (hf' .refl).self
    · subst hx
      rename_i t p ps hcall _
      have := hf' (m' := p) (.step (by simp [kids]) .refl)
      cases hcall with
      | ident => exact this.self
      | call => exact this.self

/-- What the text of an error is made of: a fixed text, a quoted text and a fixed text. -/
def SErr.form : SErr → Option (Str × Str × Str)
  | .parse (.syntax _ _) => none
  | .parse (.intRange x) => some (c!"strconv.Atoi: parsing ", x, c!": value out of range")
  | .parse (.badInt x) => some (c!"strconv.Atoi: parsing ", x, c!": invalid syntax")
  | .parse (.badBool x) => some (c!"strconv.ParseBool: parsing ", x, c!": invalid syntax")
  | .parse .badFunction => none
  | .opNode o => some (c!"unexpected op node: ", c!"operation(" ++ (o ++ c!")"), [])
  | .edgeParams => none
  | .noEdge x => some (c!"不存在关联: ", x, [])
  | .edgeCond c => (nodeStr c).map fun t => (c!"关联条件错误: ", t, [])
  | .unsupported f => some (c!"不支持的函数: ", f, [])
  | .predOp o => some (c!"unexpected predicate op ", o, [])
  | .unexpectedOp o => some (c!"unexpected op ", o, [])
  | .invalidType => some (c!"invalid type ", c!"reference", [])

theorem syntax_head {P : Char → Bool} {q : Str} {a b : Nat} {t : Str} (h : (Err.syntax a b).text P q = some t) : ∃ u, t = '\n' :: u := by
  simp only [Err.text] at h
  split at h
  · simp only [errorText, Option.map_eq_some_iff] at h
    obtain ⟨r, _, rfl⟩ := h
    exact ⟨_, rfl⟩
  · cases h

theorem SErr.shape {P : Char → Bool} {q : Str} {e : SErr} {t : Str} (h : e.text P q = some t) :
    (∃ w s v, e.form = some (w, s, v) ∧ t = w ++ '"' :: (s.flatMap (quoteRune P) ++ '"' :: v) ∧ '"' ∉ w ∧ w.head? ≠ some '\n') ∨
    (∃ a b u, e = .parse (.syntax a b) ∧ t = '\n' :: u) ∨ (e = .edgeParams ∧ t = c!"关联参数错误") := by
  cases e with
  | parse e =>
    cases e with
    | «syntax» a b => obtain ⟨u, hu⟩ := syntax_head (a := a) (b := b) h; exact .inr (.inl ⟨a, b, u, rfl, hu⟩)
    | badFunction => cases h
    | _ => cases h; exact .inl ⟨_, _, _, rfl, by simp [quote], by decide, by decide⟩
  | edgeParams => cases h; exact .inr (.inr ⟨rfl, rfl⟩)
  | edgeCond c =>
    simp only [SErr.text, Option.map_eq_some_iff] at h
    obtain ⟨u, hu, rfl⟩ := h
    exact .inl ⟨_, _, _, by simp only [SErr.form, hu]; rfl, by simp [quote], by decide, by decide⟩
  | _ => cases h; exact .inl ⟨_, _, _, rfl, by simp [quote], by decide, by decide⟩

/-- C73: the text of an error tells which error it is: equal texts come from equal errors, except that a condition that is no condition is given by
its `String`, and a syntax error by its message (C44). -/
theorem C73_sql_text (P : Char → Bool) {q q' : Str} {e e' : SErr} {t : Str} (h : e.text P q = some t) (h' : e'.text P q' = some t) :
    e = e' ∨ (∃ c c', e = .edgeCond c ∧ e' = .edgeCond c' ∧ nodeStr c = nodeStr c') ∨
      ∃ a b a' b', e = .parse (.syntax a b) ∧ e' = .parse (.syntax a' b') := by
  have noq : '"' ∉ c!"关联参数错误" := by decide
  rcases SErr.shape h with ⟨w, s, v, hf, ht, hq, hn⟩ | ⟨a, b, u, he, ht⟩ | ⟨he, ht⟩ <;>
    rcases SErr.shape h' with ⟨w', s', v', hf', ht', hq', hn'⟩ | ⟨a', b', u', he', ht'⟩ | ⟨he', ht'⟩
  · rw [ht] at ht'
    obtain ⟨h1, h2⟩ := mark_inj hq hq' ht'
    obtain ⟨h3, h4⟩ := quoted_inj P _ _ _ _ h2
    subst h1 h3 h4
    clear hn hn' hq hq' h2 ht ht' h h'
    cases e with
    | parse x =>
      cases x <;> cases hf <;> cases e' with
        | parse y => cases y <;> simp_all [SErr.form]
        | _ => simp_all [SErr.form]
    | edgeCond c =>
      simp only [SErr.form, Option.map_eq_some_iff, Prod.mk.injEq] at hf
      obtain ⟨u, hu, rfl, rfl, rfl⟩ := hf
      cases e' with
      | parse y => cases y <;> simp_all [SErr.form]
      | _ => simp_all [SErr.form]
    | _ =>
      cases hf <;> cases e' with
      | parse y => cases y <;> simp_all [SErr.form]
      | _ => simp_all [SErr.form]
  · rw [ht] at ht'
    cases w with
    | nil => cases ht'
    | cons c w => simp only [List.cons_append, List.cons.injEq] at ht'; rw [ht'.1] at hn; exact absurd rfl hn
  · rw [← ht', ht] at noq; simp at noq
  · rw [ht'] at ht
    cases w' with
    | nil => cases ht
    | cons c w => simp only [List.cons_append, List.cons.injEq] at ht; rw [ht.1] at hn'; exact absurd rfl hn'
  · exact .inr (.inr ⟨a, b, a', b', he, he'⟩)
  · rw [ht] at ht'; simp at ht'
  · rw [← ht, ht'] at noq; simp at noq
  · rw [ht] at ht'; simp at ht'
  · exact .inl (by rw [he, he'])

end Verif
