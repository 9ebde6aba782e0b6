import Verif.Props.Scope

/-! # What a rejected query leaves behind (C55) -/

namespace Verif

/-- The references `l` were added, none of them unknown. -/
structure Joined (E : GEnv) (st st' : GSt) (l : List Str) : Prop where
  joined : st'.joined.map Prod.fst = st.joined.map Prod.fst ++ l
  joins : st.joins = firsts (st.joined.map Prod.fst) → st'.joins = firsts (st'.joined.map Prod.fst)
  known : ∀ r ∈ l, ∃ t, E.schema.rel r = some t

/-- A visit that meets the references `rs` gets through all of them, or fails after some of them. -/
def Trail (E : GEnv) (st : GSt) (rs : List Str) : GRes → Prop
  | .ok st' => Joined E st st' rs
  | .err _ st' => ∃ l, l <+: rs ∧ Joined E st st' l
  | .panic => True

theorem Joined.trans {E st st1 st2 l l'} (h : Joined E st st1 l) (h' : Joined E st1 st2 l') : Joined E st st2 (l ++ l') :=
  ⟨by rw [h'.joined, h.joined, List.append_assoc], fun e => h'.joins (h.joins e), fun r hr => (List.mem_append.mp hr).elim (h.known r) (h'.known r)⟩

theorem Joined.same {E st st'} (h1 : st'.joined = st.joined) (h2 : st'.joins = st.joins) : Joined E st st' [] :=
  ⟨by rw [h1, List.append_nil], fun e => by rw [h1, h2, e], nofun⟩

theorem Trail.andThen {E st rs rs' res} {f : GSt → GRes} (h : Trail E st rs res) (h' : ∀ st', Trail E st' rs' (f st')) :
    Trail E st (rs ++ rs') (res.andThen f) := by
  match res, h with
  | .panic, _ => trivial
  | .err _ st', ⟨l, h1, h2⟩ => exact ⟨l, h1.trans (List.prefix_append ..), h2⟩
  | .ok st', h =>
    have := h' st'
    simp only [GRes.andThen]
    revert this
    match f st' with
    | .panic => exact fun _ => trivial
    | .ok st2 => exact fun h2 => Joined.trans h h2
    | .err _ st2 => exact fun ⟨l, h1, h2⟩ => ⟨rs ++ l, (List.prefix_append_right_inj _).mpr h1, Joined.trans h h2⟩

theorem Trail.pre {E st rs t} {res : GRes} (h : Trail E (st.write t) rs res) : Trail E st rs res := by
  match res, h with
  | .panic, _ => trivial
  | .err _ st', ⟨l, h1, h2⟩ => exact ⟨l, h1, ⟨h2.joined, h2.joins, h2.known⟩⟩
  | .ok st', h2 => exact ⟨h2.joined, h2.joins, h2.known⟩

theorem Trail.also {E st rs t} {res : GRes} (h : Trail E st rs res) : Trail E st rs (res.alsoWrite t) := by
  match res, h with
  | .panic, _ => trivial
  | .err _ st', ⟨l, h1, h2⟩ => exact ⟨l, h1, ⟨h2.joined, h2.joins, h2.known⟩⟩
  | .ok st', h2 => exact ⟨h2.joined, h2.joins, h2.known⟩

theorem gVal_trail (E : GEnv) (n : Node) (st : GSt) : Trail E st [] (gVal n st) := by
  unfold gVal
  cases value n with
  | none => trivial
  | some v => exact .same rfl rfl

theorem gRef_trail (E : GEnv) (l : List Str) (st : GSt) : Trail E st (l.take 1) (gRef E l st) := by
  have hno : Trail E st (l.take 1) (.err .oneLevel st) := ⟨[], List.nil_prefix, .same rfl rfl⟩
  match l with
  | [] => exact hno
  | [_] => exact hno
  | _ :: _ :: _ :: _ => exact hno
  | [s, f] =>
    have ha := gRef_agrees E [s, f] st
    simp only [gRef, gJoin, refText] at ha ⊢
    cases hr : E.schema.rel s with
    | none => exact ⟨[], List.nil_prefix, .same rfl rfl⟩
    | some t =>
      rw [hr] at ha
      simp only at ha ⊢
      cases hd : getDBName E.fold t f with
      | none => exact ⟨[], List.nil_prefix, .same rfl rfl⟩
      | some d =>
        rw [hd] at ha
        simp only at ha ⊢
        obtain ⟨st', h1, h2⟩ := ha
        cases h1
        exact ⟨h2.joined, h2.joins, fun r hx => ⟨t, by simp at hx; rw [hx, hr]⟩⟩

theorem gvisit_trail (E : GEnv) {n : Node} (h : Complete n) : ∀ st, Trail E st (rels n) (gvisit E n st) := by
  induction h with
  | int => intro st; exact gVal_trail E _ st
  | bool => intro st; exact gVal_trail E _ st
  | str => intro st; exact gVal_trail E _ st
  | null => intro st; exact gVal_trail E _ st
  | arr h _ => intro st; exact gVal_trail E _ st
  | op => intro st; exact .same rfl rfl
  | ident =>
    intro st
    rw [gvisit, gIdent]
    split
    · exact ⟨[], List.nil_prefix, .same rfl rfl⟩
    · exact .same rfl rfl
  | ref => intro st; exact gRef_trail E _ st
  | pred _ _ ih1 ih2 => intro st; rw [gvisit, rels]; exact (ih1 st).andThen fun st' => (ih2 _).pre
  | cmp _ _ h3 ih1 ih2 ih3 =>
    intro st
    rw [gvisit_cmp E h3.ne_nil, rels]
    exact ((ih1 st).andThen fun st' => (ih2 _).pre).andThen fun st' => (ih3 _).pre
  | logic _ _ h3 ih1 ih2 ih3 =>
    intro st
    rw [gvisit_logic E h3.ne_nil, rels]
    exact ((ih1 st).andThen fun st' => (ih2 _).pre).andThen fun st' => (ih3 _).pre
  | paren _ ih => intro st; rw [gvisit, rels]; exact (ih _).pre.also
  | not _ ih => intro st; rw [gvisit, rels]; exact (ih _).pre
  | between _ _ _ _ ih1 ih2 ih3 ih4 =>
    intro st
    rw [gvisit, rels]
    exact (((ih1 st).andThen fun st' => (ih2 _).pre).andThen fun st' => (ih3 _).pre).andThen fun st' => (ih4 _).pre
  | func hh ih =>
    rename_i f l
    intro st
    rw [gvisit, rels]
    by_cases hf : f = c!"date"
    · rw [if_pos hf]
      have hL : ∀ st, Trail E st (relsL l) (gvisitL E l st) := by
        clear hh
        induction l with
        | nil => intro st; exact .same rfl rfl
        | cons m l ihl => intro st; exact (ih m (by simp) st).andThen fun st' => ihl (fun n hn => ih n (List.mem_cons_of_mem _ hn)) st'
      have := (hL ((st.write f).write c!"(")).pre.pre.andThen (f := fun st => .ok (st.write c!")")) (rs' := []) fun st' => .same rfl rfl
      simpa using this
    · rw [if_neg hf]; exact ⟨[], List.nil_prefix, .same rfl rfl⟩

/-- **C55** (part). A rejected query adds one error and no condition. It may leave joins: of relations that it refers to, known to the schema, each
once, in order of first reference, up to the place where it failed. Missing: that it leaves none. -/
theorem C55_rejected_partial {schema quote fold db db' q} (h : wire schema quote fold db q = .ok db') (he : db'.errors ≠ db.errors) :
    db'.wheres = db.wheres ∧ (∃ e, db'.errors = db.errors ++ [e]) ∧
    (db'.joins = db.joins ∨ ∃ s n l, schema = some s ∧ parse q = .ok n ∧ l <+: rels n ∧ (∀ r ∈ l, ∃ t, s.rel r = some t) ∧
      db'.joins = db.joins ++ firsts l) := by
  unfold wire at h
  by_cases hq : q = []
  · rw [if_pos hq] at h; cases h; exact absurd rfl he
  · rw [if_neg hq] at h
    cases hp : parse q with
    | panic => rw [hp] at h; cases h
    | div => rw [hp] at h; cases h
    | err e => rw [hp] at h; cases h; exact ⟨rfl, ⟨_, rfl⟩, .inl rfl⟩
    | ok n =>
      rw [hp] at h
      cases schema with
      | none => cases h; exact ⟨rfl, ⟨_, rfl⟩, .inl rfl⟩
      | some s =>
        have ht := gvisit_trail ⟨s, quote, fold⟩ (C02_complete_tree q n hp) {}
        simp only at h
        cases hg : gvisit ⟨s, quote, fold⟩ n {} with
        | panic => rw [hg] at h; cases h
        | ok st => rw [hg] at h; cases h; exact absurd rfl he
        | err e st =>
          rw [hg] at h ht
          cases h
          obtain ⟨l, h1, h2⟩ := ht
          have hj := h2.joined
          simp only [List.map_nil, List.nil_append] at hj
          exact ⟨rfl, ⟨_, rfl⟩, .inr ⟨s, n, l, rfl, rfl, h1, h2.known, by rw [h2.joins rfl, hj]⟩⟩

mutual
theorem rels_nil : ∀ n : Node, (∀ l, ¬ Occ (.ref l) n) → rels n = []
  | .ref l, h => absurd .refl (h l)
  | .pred a o, h => by
    rw [rels, rels_nil a fun l hl => h l (.step (by simp [parts]) hl), rels_nil o fun l hl => h l (.step (by simp [parts]) hl)]; rfl
  | .cmp a o b, h => by
    rw [rels, rels_nil a fun l hl => h l (.step (by simp [parts]) hl), rels_nil o fun l hl => h l (.step (by simp [parts]) hl),
      rels_nil b fun l hl => h l (.step (by simp [parts]) hl)]; rfl
  | .logic a o b, h => by
    rw [rels, rels_nil a fun l hl => h l (.step (by simp [parts]) hl), rels_nil o fun l hl => h l (.step (by simp [parts]) hl),
      rels_nil b fun l hl => h l (.step (by simp [parts]) hl)]; rfl
  | .paren e, h => by rw [rels, rels_nil e fun l hl => h l (.step (by simp [parts]) hl)]
  | .not e, h => by rw [rels, rels_nil e fun l hl => h l (.step (by simp [parts]) hl)]
  | .between x o a b, h => by
    rw [rels, rels_nil x fun l hl => h l (.step (by simp [parts]) hl), rels_nil o fun l hl => h l (.step (by simp [parts]) hl),
      rels_nil a fun l hl => h l (.step (by simp [parts]) hl), rels_nil b fun l hl => h l (.step (by simp [parts]) hl)]; rfl
  | .func f ps, h => by rw [rels, relsL_nil ps fun n hn l hl => h l (.step hn hl)]
  | .nil, _ | .op _, _ | .int _, _ | .bool _, _ | .str _, _ | .null, _ | .arr _, _ | .ident _, _ => by simp [rels]
theorem relsL_nil : ∀ ps : List Node, (∀ n ∈ ps, ∀ l, ¬ Occ (.ref l) n) → relsL ps = []
  | [], _ => rfl
  | n :: ps, h => by rw [relsL, rels_nil n (h n (by simp)), relsL_nil ps fun m hm => h m (List.mem_cons_of_mem _ hm)]; rfl
end

/-- **C55** (part). A rejected query without `Relation.field` changes nothing but the list of errors. -/
theorem C55_no_reference_partial {schema quote fold db db' q} (h : wire schema quote fold db q = .ok db') (he : db'.errors ≠ db.errors)
    (hr : ∀ n l, parse q = .ok n → ¬ Occ (.ref l) n) : ∃ e, db' = { db with errors := db.errors ++ [e] } := by
  obtain ⟨h1, ⟨e, h2⟩, h3⟩ := C55_rejected_partial h he
  refine ⟨e, ?_⟩
  have h4 : db'.joins = db.joins := by
    rcases h3 with h3 | ⟨s, n, l, _, hp, hl, _, h4⟩
    · exact h3
    · have : rels n = [] := rels_nil n fun l => hr n l hp
      rw [this, List.prefix_nil] at hl
      rw [h4, hl]; simp [firsts]
  cases db'; cases db; simp_all

/-- **C55 fails**: the query is rejected for its second name, but the relation of its first name stays joined. -/
theorem C55_joins_refuted : exampleWire c!"R.c = 1 and zz = 2" = .ok { joins := [c!"R"], errors := [.build (.fieldNotFound c!"zz")] } := by decide +kernel

example : exampleWire c!"a = 1 and zz = 2" = .ok { errors := [.build (.fieldNotFound c!"zz")] } := by decide +kernel

end Verif
