import Verif.Spec.Faults
import Verif.Props.EntSQL
import Verif.Pieces
import Verif.MsgThms
import Verif.GormMsg

/-! # Errors name what is at fault (C69, C70) -/

namespace Verif

/-! ## gorm -/

/-- How a visit ends, given what the tree asks for. -/
def Ends (E : GEnv) (us : List Use) : GRes → Prop
  | .ok _ => ∀ u ∈ us, ∀ e, ¬ Fault E.schema E.fold u e
  | .err e _ => FirstFault E.schema E.fold us e
  | .panic => False

theorem Ends.andThen {E us us' res} {f : GSt → GRes} (h : Ends E us res) (h' : ∀ st, Ends E us' (f st)) : Ends E (us ++ us') (res.andThen f) := by
  match res, h with
  | .err e st, ⟨a, u, b, h1, h2, h3⟩ => exact ⟨a, u, b ++ us', by simp [h1], h2, h3⟩
  | .ok st, h =>
    have := h' st
    simp only [GRes.andThen]
    revert this
    match f st with
    | .panic => exact id
    | .ok _ => exact fun h2 u hu => (List.mem_append.mp hu).elim (h u) (h2 u)
    | .err e _ =>
      exact fun ⟨a, u, b, h1, h2, h3⟩ => ⟨us ++ a, u, b, by simp [h1], fun v hv => (List.mem_append.mp hv).elim (h v) (h2 v), h3⟩

theorem Ends.also {E us t} {res : GRes} (h : Ends E us res) : Ends E us (res.alsoWrite t) := by
  match res, h with
  | .err e st, h => exact h
  | .ok st, h => exact h

theorem Ends.none {E st} : Ends E [] (.ok st) := by intro u hu; cases hu

theorem getDBName_none {fold t x} : getDBName fold t x = none ↔ ∀ d, ¬ Resolves fold t x d := by
  rw [← Option.not_isSome_iff_eq_none, getDBName_isSome]
  exact ⟨fun h d hd => h ⟨d, hd⟩, fun h ⟨d, hd⟩ => h d hd⟩

theorem gVal_ends {E : GEnv} {n : Node} {st} (h : value n ≠ none) : Ends E [] (gVal n st) := by
  unfold gVal
  cases hv : value n with
  | none => exact absurd hv h
  | some v => exact .none

theorem gRef_ends (E : GEnv) (l : List Str) (st : GSt) : Ends E [.path l] (gRef E l st) := by
  have hno (hl : l.length ≠ 2) : Ends E [.path l] (.err .oneLevel st) := ⟨[], _, [], rfl, nofun, .deep hl⟩
  match l with
  | [] => exact hno (by simp)
  | [_] => exact hno (by simp)
  | _ :: _ :: _ :: _ => exact hno (by simp)
  | [s, f] =>
    simp only [gRef, gJoin]
    cases hr : E.schema.rel s with
    | none => exact ⟨[], _, [], rfl, nofun, .relation hr⟩
    | some t =>
      simp only
      cases hd : getDBName E.fold t f with
      | none => exact ⟨[], _, [], rfl, nofun, .relationColumn hr (getDBName_none.mp hd)⟩
      | some d =>
        intro u hu e he
        simp only [List.mem_singleton] at hu
        subst hu
        cases he with
        | relation h => rw [hr] at h; cases h
        | relationColumn h1 h2 => rw [hr] at h1; cases h1; rw [getDBName_none.mpr h2] at hd; cases hd
        | deep h => simp at h

theorem gvisit_ends (E : GEnv) {n : Node} (h : Complete n) : ∀ st, Ends E (uses n) (gvisit E n st) := by
  induction h with
  | int => intro st; exact gVal_ends (by simp [value])
  | bool => intro st; exact gVal_ends (by simp [value])
  | str => intro st; exact gVal_ends (by simp [value])
  | null => intro st; exact gVal_ends (by simp [value])
  | arr h _ => intro st; obtain ⟨v, hv⟩ := value_exists (.arr h); exact gVal_ends (by rw [hv]; simp)
  | op => intro st; exact .none
  | ident =>
    intro st
    rename_i x
    rw [gvisit, gIdent]
    cases hd : getDBName E.fold E.schema.table x with
    | none => exact ⟨[], _, [], rfl, nofun, .column (getDBName_none.mp hd)⟩
    | some d =>
      intro u hu e he
      simp only [uses, List.mem_singleton] at hu
      subst hu
      cases he with
      | column h => rw [getDBName_none.mpr h] at hd; cases hd
  | ref => intro st; exact gRef_ends E _ st
  | pred _ _ ih1 ih2 => intro st; rw [gvisit, uses]; exact (ih1 st).andThen fun st' => ih2 _
  | cmp _ _ h3 ih1 ih2 ih3 =>
    intro st
    rw [gvisit_cmp E h3.ne_nil, uses]
    exact ((ih1 st).andThen fun st' => ih2 _).andThen fun st' => ih3 _
  | logic _ _ h3 ih1 ih2 ih3 =>
    intro st
    rw [gvisit_logic E h3.ne_nil, uses]
    exact ((ih1 st).andThen fun st' => ih2 _).andThen fun st' => ih3 _
  | paren _ ih => intro st; rw [gvisit, uses]; exact (ih _).also
  | not _ ih => intro st; rw [gvisit, uses]; exact ih _
  | between _ _ _ _ ih1 ih2 ih3 ih4 =>
    intro st
    rw [gvisit, uses]
    exact (((ih1 st).andThen fun st' => ih2 _).andThen fun st' => ih3 _).andThen fun st' => ih4 _
  | func hh ih =>
    rename_i f l
    intro st
    rw [gvisit, uses]
    by_cases hf : f = c!"date"
    · rw [if_pos hf]
      have hL : ∀ st, Ends E (usesL l) (gvisitL E l st) := by
        clear hh
        induction l with
        | nil => intro st; exact .none
        | cons m l ihl => intro st; exact (ih m (by simp) st).andThen fun st' => ihl (fun n hn => ih n (List.mem_cons_of_mem _ hn)) st'
      have h1 : Ends E [.call f] (.ok st) := by
        intro u hu e he
        simp only [List.mem_singleton] at hu
        subst hu
        cases he with
        | call h => exact h hf
      have := h1.andThen fun _ => (hL ((st.write f).write c!"(")).andThen (us' := []) (f := fun st => .ok (st.write c!")")) fun _ => .none
      simp only [List.append_nil, GRes.andThen, List.singleton_append] at this ⊢
      exact this
    · rw [if_neg hf]
      exact ⟨[], _, usesL l, rfl, nofun, .call hf⟩

theorem Fault.unique {s fold u e e'} (h : Fault s fold u e) (h' : Fault s fold u e') : e = e' := by
  cases h <;> cases h' <;> first | rfl | (exfalso; simp_all)

/-- There is at most one first fault. -/
theorem FirstFault.unique {s fold us e e'} (h : FirstFault s fold us e) (h' : FirstFault s fold us e') : e = e' := by
  obtain ⟨a, u, b, rfl, h1, h2⟩ := h
  obtain ⟨a', u', b', h3, h4, h5⟩ := h'
  revert a' h1
  induction a with
  | nil =>
    intro h1 a' h3 h4
    cases a' with
    | nil => cases h3; exact h2.unique h5
    | cons v a' => cases h3; exact absurd h2 (h4 _ (by simp) _)
  | cons w a ih =>
    intro h1 a' h3 h4
    cases a' with
    | nil => cases h3; exact absurd h5 (h1 _ (by simp) _)
    | cons v a' =>
      rw [List.cons_append, List.cons_append, List.cons.injEq] at h3
      exact ih (fun v hv => h1 v (List.mem_cons_of_mem _ hv)) a' h3.2 (fun v hv => h4 v (List.mem_cons_of_mem _ hv))

/-- C69: the error that is recorded for a parsed query is about the first part, in reading order, that the schema cannot answer; and it is recorded
if there is such a part. -/
theorem C69_first (s : GSchema) (quote : Str → Str) (fold : Str → Str → Bool) (db : Db) {q : Str} {n : Node} (hp : parse q = .ok n) (e : GErr) :
    (∃ db', wire (some s) quote fold db q = .ok db' ∧ db'.errors = db.errors ++ [.build e]) ↔ FirstFault s fold (uses n) e := by
  have hq : q ≠ [] := by
    rintro rfl
    have : ∀ n, parse [] ≠ .ok n := by
      have h : (match parse [] with | .ok _ => false | _ => true) = true := by decide +kernel
      intro n hn
      rw [hn] at h
      cases h
    exact this n hp
  have hE := gvisit_ends ⟨s, quote, fold⟩ (C02_complete_tree q n hp) {}
  simp only [wire, if_neg hq, hp]
  cases hg : gvisit ⟨s, quote, fold⟩ n {} with
  | panic => rw [hg] at hE; exact hE.elim
  | ok st =>
    rw [hg] at hE
    constructor
    · rintro ⟨db', h1, h2⟩
      cases h1
      simp at h2
    · rintro ⟨a, u, b, h1, _, h3⟩
      exact absurd h3 (hE u (by simp [h1]) e)
  | err e' st =>
    rw [hg] at hE
    constructor
    · rintro ⟨db', h1, h2⟩
      cases h1
      simp only [List.append_cancel_left_eq, List.cons.injEq, DbErr.build.injEq, and_true] at h2
      rw [← h2]
      exact hE
    · intro h
      rw [FirstFault.unique hE h]
      exact ⟨_, rfl, rfl⟩

/-- In the chain `a = 1 and zz = 2 and foo(b) = 3` with only the columns `a` and `b`, the column `zz` is reported, not the function. -/
example : FirstFault exampleSchema exampleFold [.column c!"a", .column c!"zz", .call c!"foo", .column c!"b"] (.fieldNotFound c!"zz") := by
  refine ⟨[.column c!"a"], _, _, rfl, ?_, .column ?_⟩
  · intro v hv e he
    simp only [List.mem_singleton] at hv
    subst hv
    cases he with
    | column h => exact h _ (.column (by decide))
  · intro d h
    cases h with
    | column h => revert h; decide
    | field h => revert h; simp [exampleSchema]
    | folded h h' =>
      simp only [exampleSchema, List.mem_cons, List.not_mem_nil, or_false] at h
      rcases h with rfl | rfl | rfl <;> revert h' <;> decide
example : exampleWire c!"a = 1 and zz = 2 and foo(b) = 3" = .ok { errors := [.build (.fieldNotFound c!"zz")] } := by decide +kernel

mutual
theorem uses_from {T : Str → Prop} : ∀ {n : Node}, From T n → ∀ u ∈ uses n, match u with | .column x => T x | .path l => ∀ x ∈ l, T x | .call f => T f
  | .ident x, h, u, hu => by simp only [uses, List.mem_singleton] at hu; subst hu; exact h.self
  | .ref l, h, u, hu => by simp only [uses, List.mem_singleton] at hu; subst hu; exact h.self
  | .func f ps, h, u, hu => by
    simp only [uses, List.mem_cons] at hu
    rcases hu with rfl | hu
    · exact h.self
    · exact usesL_from (fun k hk => h.kid hk) u hu
  | .pred l o, h, u, hu => by
    simp only [uses, List.mem_append] at hu
    rcases hu with hu | hu
    · exact uses_from (n := l) (h.kid (by simp [kids])) u hu
    · exact uses_from (n := o) (h.kid (by simp [kids])) u hu
  | .cmp l o r, h, u, hu | .logic l o r, h, u, hu => by
    simp only [uses, List.mem_append] at hu
    rcases hu with (hu | hu) | hu
    · exact uses_from (n := l) (h.kid (by simp [kids])) u hu
    · exact uses_from (n := o) (h.kid (by simp [kids])) u hu
    · exact uses_from (n := r) (h.kid (by simp [kids])) u hu
  | .paren e, h, u, hu | .not e, h, u, hu => by
    simp only [uses] at hu
    exact uses_from (n := e) (h.kid (by simp [kids])) u hu
  | .between l o a b, h, u, hu => by
    simp only [uses, List.mem_append] at hu
    rcases hu with ((hu | hu) | hu) | hu
    · exact uses_from (n := l) (h.kid (by simp [kids])) u hu
    · exact uses_from (n := o) (h.kid (by simp [kids])) u hu
    · exact uses_from (n := a) (h.kid (by simp [kids])) u hu
    · exact uses_from (n := b) (h.kid (by simp [kids])) u hu
  | .nil, _, u, hu | .int _, _, u, hu | .bool _, _, u, hu | .str _, _, u, hu | .null, _, u, hu | .arr _, _, u, hu | .op _, _, u, hu => by simp [uses] at hu
theorem usesL_from {T : Str → Prop} : ∀ {l : List Node}, (∀ n ∈ l, From T n) → ∀ u ∈ usesL l, match u with | .column x => T x | .path l => ∀ x ∈ l, T x | .call f => T f
  | [], _, u, hu => by simp [usesL] at hu
  | n :: l, h, u, hu => by
    simp only [usesL, List.mem_append] at hu
    rcases hu with hu | hu
    · exact uses_from (h n (by simp)) u hu
    · exact usesL_from (fun k hk => h k (by simp [hk])) u hu
end

/-- C69: what the error quotes is written in the query. -/
theorem C69_written {s : GSchema} {fold : Str → Str → Bool} {q : Str} {n : Node} (hp : parse q = .ok n) {e : GErr} (h : FirstFault s fold (uses n) e) :
    ∀ x ∈ e.names, x <:+: q := by
  obtain ⟨a, u, b, h1, _, h3⟩ := h
  have := uses_from (parse_from hp) u (by rw [h1]; simp)
  cases h3 <;> simp_all [GErr.names]

/-- C69: the text says which error it is: equal texts come from equal errors. -/
theorem C69_text (P : Char → Bool) (e e' : GErr) (h : e.text P = e'.text P) : e = e' := by
  cases e <;> cases e' <;> simp only [GErr.text, List.append_assoc, List.cons_append, List.nil_append, List.cons.injEq, Char.reduceEq, false_and, true_and, and_false] at h <;>
    first
    | rfl
    | (obtain ⟨h1, h2⟩ := quote_inj P _ _ [] [] (by simpa using h); rw [h1])
    | (obtain ⟨h1, h2⟩ := quote_inj P _ _ _ _ h
       simp only [List.cons.injEq, true_and] at h2
       obtain ⟨h3, _⟩ := quote_inj P _ _ [] [] (by simpa using h2)
       rw [h1, h3])

example : (GErr.relationFieldNotFound c!"R" c!"a\"b").text (fun c => 32 ≤ c.toNat && c.toNat < 127) = c!"relation field not found: \"R\".\"a\\\"b\"" := by decide +kernel

/-! ## ent SQL -/

/-- The error is about a part of the tree. -/
def Blames (edges : Nat → List (Str × SEdge)) (nd : Option Nat) (n : Node) (e : SErr) : Prop :=
  ∃ nd' m, PartOf edges nd n nd' m ∧ SFault edges nd' m e

/-- All errors, returned or recorded, are of this kind. -/
def SOk (P : SErr → Prop) : SRes → Prop
  | .ok mb => ∀ e ∈ mb.own.errs, P e
  | .err e mb => P e ∧ ∀ e ∈ mb.own.errs, P e
  | .panic => True

theorem MB.put_errs {f : Bld → Bld} (hf : ∀ b, (f b).errs = b.errs) (mb : MB) : (mb.put f).own.errs = mb.own.errs := by
  unfold MB.put
  split
  · rfl
  · exact hf _

theorem MB.write_errs (t : Str) (mb : MB) : (mb.write t).own.errs = mb.own.errs := MB.put_errs (f := Bld.write t) (fun _ => rfl) mb

theorem Bld.arg_errs (a : SArg) (b : Bld) : (b.arg a).errs = b.errs := by
  unfold Bld.arg
  split <;> rfl

theorem Bld.argList_errs : ∀ (l : List GoVal) (b : Bld), (Bld.argList l b).errs = b.errs
  | [], b => rfl
  | [v], b => Bld.arg_errs _ b
  | v :: w :: l, b => by
    show (Bld.argList (w :: l) _).errs = _
    rw [Bld.argList_errs (w :: l)]
    exact Bld.arg_errs _ b

theorem SOk.also {P : SErr → Prop} {r : SRes} {t : Str} (h : SOk P r) : SOk P (r.also (MB.write t)) := by
  match r, h with
  | .panic, _ => trivial
  | .ok mb, h => show ∀ e ∈ (mb.write t).own.errs, P e; rw [MB.write_errs]; exact h
  | .err e mb, h => exact ⟨h.1, by rw [MB.write_errs]; exact h.2⟩

theorem SOk.andThen {P : SErr → Prop} {r : SRes} {f : MB → SRes} (h : SOk P r) (h' : ∀ mb, (∀ e ∈ mb.own.errs, P e) → SOk P (f mb)) : SOk P (r.andThen f) := by
  match r, h with
  | .panic, _ => trivial
  | .ok mb, h => exact h' mb h
  | .err e mb, h => exact h

theorem sVal_ok {P : SErr → Prop} {E : SEnv} {n : Node} {mb : MB} (h : ∀ e ∈ mb.own.errs, P e) : SOk P (sVal E n mb) := by
  unfold sVal
  split
  · trivial
  · show ∀ e ∈ ((((mb.write c!"(").put _).write c!")") : MB).own.errs, P e
    rw [MB.write_errs, MB.put_errs (Bld.argList_errs _), MB.write_errs]
    exact h
  · show ∀ e ∈ (mb.put _).own.errs, P e
    rw [MB.put_errs (Bld.arg_errs _)]
    exact h

theorem operation_text {o : Node} {op : Str} (h : operation o = some op) : op = opText o := by
  cases o <;> simp_all [operation, opText]

theorem sBin_ok {P : SErr → Prop} {left : SRes} {o : Node} {right : MB → SRes} (h : SOk P left)
    (hb : opText o ∉ sqlOps ++ [c!"not like", c!"and", c!"or"] → P (.unexpectedOp (opText o)))
    (hr : ∀ mb, (∀ e ∈ mb.own.errs, P e) → SOk P (right mb)) : SOk P (sBin left o right) := by
  unfold sBin
  split
  · trivial
  · split
    · trivial
    · rename_i op ho
      have ho := operation_text ho
      split
      · rename_i hn
        have hbad : P (.unexpectedOp op) := by
          rw [ho]
          refine hb fun hm => ?_
          obtain ⟨t, ht⟩ := binOps.mp hm
          rw [← ho, hn] at ht; cases ht
        split
        · exact ⟨hbad, h⟩
        · exact ⟨hbad, h.2⟩
        · trivial
      · exact h.also.andThen hr

theorem svisit_blames (E : SEnv) : ∀ (n : Node) (nd : Option Nat) (P : SErr → Prop), (∀ e, Blames E.edges nd n e → P e) →
    ∀ mb : MB, (∀ e ∈ mb.own.errs, P e) → SOk P (svisit E nd n mb)
  | .nil, nd, P, hP, mb, hm => trivial
  | .op o, nd, P, hP, mb, hm => by rw [svisit]; exact ⟨hP _ ⟨nd, _, .refl, .op⟩, hm⟩
  | .int _, nd, P, hP, mb, hm | .bool _, nd, P, hP, mb, hm | .str _, nd, P, hP, mb, hm | .null, nd, P, hP, mb, hm | .arr _, nd, P, hP, mb, hm => by
    rw [svisit]; exact sVal_ok hm
  | .ident x, nd, P, hP, mb, hm => by
    rw [svisit]
    show ∀ e ∈ (mb.put _).own.errs, P e
    rw [MB.put_errs (f := fun b => b.write (E.ident b.dialect x)) fun _ => rfl]
    exact hm
  | .ref l, nd, P, hP, mb, hm => by rw [svisit]; exact ⟨hP _ ⟨nd, _, .refl, .path⟩, hm⟩
  | .paren x, nd, P, hP, mb, hm => by
    rw [svisit]
    exact (svisit_blames E x nd P (fun e ⟨nd', m, h1, h2⟩ => hP e ⟨nd', m, .paren h1, h2⟩) _ (by rw [MB.write_errs]; exact hm)).also
  | .not x, nd, P, hP, mb, hm => by
    rw [svisit]
    exact svisit_blames E x nd P (fun e ⟨nd', m, h1, h2⟩ => hP e ⟨nd', m, .not h1, h2⟩) _ (by rw [MB.write_errs]; exact hm)
  | .pred l o, nd, P, hP, mb, hm => by
    rw [svisit]
    split
    · trivial
    · rename_i op ho
      have ho := operation_text ho
      split
      · rename_i hn
        refine ⟨hP _ ⟨nd, _, .refl, ?_⟩, hm⟩
        rw [ho]
        refine .pred fun hmem => ?_
        obtain ⟨t, ht⟩ := sqlOps_lookup.mp hmem
        rw [← ho, hn] at ht; cases ht
      · exact (svisit_blames E l nd P (fun e ⟨nd', m, h1, h2⟩ => hP e ⟨nd', m, .pred h1, h2⟩) _ hm).also
  | .cmp l o r, nd, P, hP, mb, hm => by
    rw [svisit]
    exact sBin_ok (svisit_blames E l nd P (fun e ⟨nd', m, h1, h2⟩ => hP e ⟨nd', m, .cmpLeft h1, h2⟩) _ hm)
      (fun h => hP _ ⟨nd, _, .refl, .cmp h⟩)
      (fun mb hm => svisit_blames E r nd P (fun e ⟨nd', m, h1, h2⟩ => hP e ⟨nd', m, .cmpRight h1, h2⟩) mb hm)
  | .logic l o r, nd, P, hP, mb, hm => by
    rw [svisit]
    exact sBin_ok (svisit_blames E l nd P (fun e ⟨nd', m, h1, h2⟩ => hP e ⟨nd', m, .logicLeft h1, h2⟩) _ hm)
      (fun h => hP _ ⟨nd, _, .refl, .logic h⟩)
      (fun mb hm => svisit_blames E r nd P (fun e ⟨nd', m, h1, h2⟩ => hP e ⟨nd', m, .logicRight h1, h2⟩) mb hm)
  | .between l o a b, nd, P, hP, mb, hm => by
    rw [svisit]
    split
    · trivial
    · have hl := svisit_blames E l nd P (fun e ⟨nd', m, h1, h2⟩ => hP e ⟨nd', m, .rangeOf h1, h2⟩)
      have ha := svisit_blames E a nd P (fun e ⟨nd', m, h1, h2⟩ => hP e ⟨nd', m, .rangeLow h1, h2⟩)
      have hb := svisit_blames E b nd P (fun e ⟨nd', m, h1, h2⟩ => hP e ⟨nd', m, .rangeHigh h1, h2⟩)
      refine (((hl mb hm).andThen fun mb hm => ha _ ?_).andThen fun mb hm => hl _ ?_).andThen fun mb hm => hb _ ?_ <;>
        (rw [MB.write_errs]; exact hm)
  | .func f ps, nd, P, hP, mb, hm => by
    rw [svisit]
    by_cases hd : f = c!"date"
    · subst hd
      rw [if_pos rfl]
      match hps : ps with
      | [] => trivial
      | p :: ps =>
        rw [svisit1]
        exact (svisit_blames E p nd P (fun e ⟨nd', m, h1, h2⟩ => hP e ⟨nd', m, .date h1, h2⟩) _ (by rw [MB.write_errs]; exact hm)).also
    · rw [if_neg hd]
      by_cases he : f = c!"has_edge"
      · subst he
        rw [if_pos rfl]
        match hps : ps with
        | [] => exact ⟨hP _ ⟨nd, _, .refl, .edgeNone⟩, hm⟩
        | p :: rest =>
          simp only [sEdge]
          by_cases hn : nodeName p = []
          · rw [if_pos hn]
            exact ⟨hP _ ⟨nd, _, .refl, .edgeUnnamed fun x hx => hx.name.1 hn⟩, hm⟩
          · rw [if_neg hn]
            match nd with
            | none => trivial
            | some t =>
              simp only
              cases hl : (E.edges t).lookup (nodeName p) with
              | none => exact ⟨hP _ ⟨some t, _, .refl, .edgeUnknown (called_name hn) hl⟩, hm⟩
              | some ed =>
                match hr : rest with
                | [] =>
                  show ∀ e ∈ mb.own.errs ++ [], P e
                  rw [List.append_nil]
                  exact hm
                | [c] =>
                  simp only
                  by_cases hc : isExpression c = true
                  · rw [if_pos hc]
                    simp only [svisit2, svisit1]
                    have hi := svisit_blames E c (some ed.to) P (fun e ⟨nd', m, h1, h2⟩ => hP e ⟨nd', m, .edge (called_name hn) hl h1, h2⟩)
                      { own := { dialect := mb.own.dialect, total := mb.own.total } } (by simp)
                    revert hi
                    generalize svisit E (some ed.to) c { own := { dialect := mb.own.dialect, total := mb.own.total } } = res
                    intro hi
                    match res, hi with
                    | .panic, _ => trivial
                    | .ok r, hi =>
                      show ∀ e ∈ mb.own.errs ++ (if E.surf then r.own.errs else []), P e
                      intro e he
                      rcases List.mem_append.mp he with he | he
                      · exact hm e he
                      · split at he
                        · exact hi e he
                        · cases he
                    | .err er r, hi =>
                      show ∀ e ∈ mb.own.errs ++ (if E.surf then r.own.errs ++ [er] else []), P e
                      intro e he
                      rcases List.mem_append.mp he with he | he
                      · exact hm e he
                      · split at he
                        · rcases List.mem_append.mp he with he | he
                          · exact hi.2 e he
                          · simp only [List.mem_singleton] at he; subst he; exact hi.1
                        · cases he
                  · rw [if_neg hc]
                    exact ⟨hP _ ⟨some t, _, .refl, .edgeCondition fun h => hc h.expr⟩, hm⟩
                | _ :: _ :: _ => exact ⟨hP _ ⟨some t, _, .refl, .edgeMany⟩, hm⟩
      · rw [if_neg he]
        exact ⟨hP _ ⟨nd, _, .refl, .call (by simp [hd, he])⟩, hm⟩
termination_by n => sizeOf n
decreasing_by all_goals (simp_wf; try first | omega | (subst_vars; simp only [List.cons.sizeOf_spec]; omega))

/-- C70: an error of the ent SQL builder is the syntax error of the query, or about a part of the query that has no translation: the part is the reason,
and the function, operator or edge that the error names is that part's. -/
theorem C70_sql {E : SEnv} {d : Str} {k : Nat} {nd : Option Nat} {q : Str} {e : SErr} (h : e ∈ (sQuery E (SB.fresh d k nd q)).2.mb.own.errs) :
    (∃ e', parse q = .err e' ∧ e = .parse e') ∨ ∃ n nd' m, parse q = .ok n ∧ PartOf E.edges nd n nd' m ∧ SFault E.edges nd' m e := by
  cases hp : parse q with
  | panic => simp [sQuery, SB.fresh, hp] at h
  | div => simp [sQuery, SB.fresh, hp] at h
  | err e' =>
    left
    simp [sQuery, SB.fresh, hp, Bld.addErr] at h
    exact ⟨e', rfl, h⟩
  | ok n =>
    right
    have hb := svisit_blames E n nd (Blames E.edges nd n) (fun _ h => h) { own := { dialect := d, total := k } } (by simp)
    simp only [sQuery, SB.fresh, hp] at h
    suffices Blames E.edges nd n e by
      obtain ⟨nd', m, h1, h2⟩ := this
      exact ⟨n, nd', m, rfl, h1, h2⟩
    revert h hb
    generalize svisit E nd n { own := { dialect := d, total := k } } = res
    intro hb h
    match res with
    | .panic => cases h
    | .ok mb => exact hb e h
    | .err er mb =>
      rcases List.mem_append.mp h with h | h
      · exact hb.2 e h
      · simp only [List.mem_singleton] at h
        subst h
        exact hb.1

/-- The errors of a query on the example schema. -/
def exErrs (q : Str) : List SErr := (sQuery exE (SB.fresh c!"postgres" 0 (some 0) q)).2.mb.own.errs

example : exErrs c!"a = 1 and foo(b) = 2" = [.unsupported c!"foo"] ∧ exErrs c!"has_edge(owner, x.y = 1)" = [.invalidType] ∧
    exErrs c!"has_edge(nobody)" = [.noEdge c!"nobody"] ∧ exErrs c!"has_edge(owner, 1, 2)" = [.edgeParams] ∧ exErrs c!"has_edge(owner, 1)" = [.edgeCond (.int 1)] ∧
    exErrs c!"a is true" = [.predOp c!"is true"] ∧ exErrs c!"a not --x\n in (1)" = [.unexpectedOp c!"not --x in"] := by decide +kernel
example : PartOf exE.edges (some 0) (.func c!"has_edge" [.ident c!"owner", .cmp (.ref [c!"x", c!"y"]) (.op c!"eq") (.int 1)]) (some 1) (.ref [c!"x", c!"y"]) :=
  .edge (e := { to := 1, has := fun _ => c!"HAS", pre := fun _ => c!"PRE(", post := fun _ => c!")" }) (.ident (by decide)) (by rfl) (.cmpLeft .refl)

/-! ## entql -/

/-- All errors are of this kind. -/
def EOk (P : EErr → Prop) : ERes → Prop
  | .err e _ => P e
  | _ => True

theorem EOk.andThen {P : EErr → Prop} {r : ERes} {f : List EExpr → ERes} (h : EOk P r) (h' : ∀ st, EOk P (f st)) : EOk P (r.andThen f) := by
  match r, h with
  | .panic, _ => trivial
  | .ok st, _ => exact h' st
  | .err e st, h => exact h

theorem entqlOps_lookup {o} (h : entqlOps.lookup o = none) : o ∉ entqlNames := by
  intro hm
  simp only [entqlNames, List.mem_cons, List.not_mem_nil, or_false] at hm
  rcases hm with rfl | rfl | rfl | rfl | rfl | rfl | rfl | rfl | rfl | rfl | rfl <;> simp [entqlOps] at h

theorem eBin_fault {P : EErr → Prop} {o : Node} (h : opText o ∉ entqlNames → P (.unexpectedOp (opText o))) (st : List EExpr) : EOk P (eBin o st) := by
  unfold eBin
  split
  · split
    · trivial
    · rename_i op ho
      rw [operation_text ho]
      split
      · rename_i hn; exact h (entqlOps_lookup hn)
      · trivial
  · trivial

theorem eBetween_fault {P : EErr → Prop} {o : Node} (st : List EExpr) : EOk P (eBetween o st) := by
  unfold eBetween
  split
  · split
    · trivial
    · split <;> trivial
  · trivial

theorem eVal_fault {P : EErr → Prop} {n : Node} (st : List EExpr) : EOk P (eVal n st) := by
  unfold eVal
  split <;> trivial

theorem evisit_blames : ∀ (n : Node) (P : EErr → Prop), (∀ e m, Occ m n → EFault m e → P e) → ∀ st, EOk P (evisit n st)
  | .nil, P, hP, st => trivial
  | .op o, P, hP, st => by rw [evisit]; exact hP _ _ .refl .op
  | .int _, P, hP, st | .bool _, P, hP, st | .str _, P, hP, st | .null, P, hP, st | .arr _, P, hP, st => by rw [evisit]; exact eVal_fault st
  | .ident x, P, hP, st => by rw [evisit]; trivial
  | .ref l, P, hP, st => by rw [evisit]; exact hP _ _ .refl .path
  | .paren x, P, hP, st => by rw [evisit]; exact evisit_blames x P (fun e m h => hP e m (.step (by simp [parts]) h)) st
  | .not x, P, hP, st => by
    rw [evisit]
    have := evisit_blames x P (fun e m h => hP e m (.step (by simp [parts]) h)) st
    revert this
    generalize evisit x st = res
    intro h
    unfold eNot
    split
    · trivial
    · split
      · exact h
      · trivial
    · exact h
  | .func f ps, P, hP, st => by rw [evisit]; trivial
  | .pred l o, P, hP, st => by rw [evisit]; trivial
  | .between l o a b, P, hP, st => by
    rw [evisit]
    exact (((evisit_blames l P (fun e m h => hP e m (.step (by simp [parts]) h)) st).andThen
      fun st => evisit_blames a P (fun e m h => hP e m (.step (by simp [parts]) h)) st).andThen
      fun st => evisit_blames b P (fun e m h => hP e m (.step (by simp [parts]) h)) st).andThen eBetween_fault
  | .cmp l o r, P, hP, st => by
    rw [evisit]
    exact ((evisit_blames l P (fun e m h => hP e m (.step (by simp [parts]) h)) st).andThen
      fun st => evisit_blames r P (fun e m h => hP e m (.step (by simp [parts]) h)) st).andThen (eBin_fault fun h => hP _ _ .refl (.cmp h))
  | .logic l o r, P, hP, st => by
    rw [evisit]
    exact ((evisit_blames l P (fun e m h => hP e m (.step (by simp [parts]) h)) st).andThen
      fun st => evisit_blames r P (fun e m h => hP e m (.step (by simp [parts]) h)) st).andThen (eBin_fault fun h => hP _ _ .refl (.logic h))

/-- C70: an error of the entql builder, whatever is left on its stack, is the syntax error of the query, or about a part of the query that entql has nothing
for. -/
theorem C70_entql {q : Str} {st : List EExpr} {e : EErr} (h : (eBuild q st).1 = .err e) :
    (∃ e', parse q = .err e' ∧ e = .parse e') ∨ ∃ n m, parse q = .ok n ∧ Occ m n ∧ EFault m e := by
  unfold eBuild at h
  split at h
  · cases h
  · cases hp : parse q with
    | panic => rw [hp] at h; cases h
    | div => rw [hp] at h; cases h
    | err e' => rw [hp] at h; cases h; exact .inl ⟨e', rfl, rfl⟩
    | ok n =>
      right
      rw [hp] at h
      have hb := evisit_blames n (fun e => ∃ m, Occ m n ∧ EFault m e) (fun e m h1 h2 => ⟨m, h1, h2⟩) st
      simp only at h
      revert h hb
      generalize evisit n st = res
      intro h hb
      match res with
      | .panic => cases h
      | .err e' st' => cases h; obtain ⟨m, h1, h2⟩ := hb; exact ⟨n, m, rfl, h1, h2⟩
      | .ok [] => cases h
      | .ok (p :: st') =>
        simp only at h
        split at h <;> cases h

example : buildEntQL c!"a = 1 and b like 'x'" = .err (.unexpectedOp c!"like") ∧ buildEntQL c!"a.b = 1" = .err .invalidType := by decide +kernel

end Verif
