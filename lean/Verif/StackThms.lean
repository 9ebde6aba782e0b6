import Verif.Stack
import Verif.Spec.Stack
import Verif.Spec.Size
import Verif.Soundness

/-! # Lemmas on the stack that printing and translating take -/

namespace Verif

/-- A function run with limited room, compared with the result `b` of the same function: room `k` is enough; it returns `b` or overflows; if `b` is a success,
room below `m` is not enough. -/
structure Lim {R : Type} (good : R → Prop) (a : Option R) (b : R) (k m d : Nat) : Prop where
  enough : k ≤ d → a = some b
  same : a = none ∨ a = some b
  needed : good b → d < m → a = none

namespace Lim

variable {R : Type} {good : R → Prop}

theorem pure {b : R} {k d : Nat} : Lim good (some b) b k 1 (d + 1) := ⟨fun _ => rfl, .inr rfl, fun _ h => by omega⟩

theorem pure0 {b : R} {k d : Nat} : Lim good (some b) b k 0 d := ⟨fun _ => rfl, .inr rfl, fun _ h => by omega⟩

theorem over {b : R} {k m : Nat} (hk : 0 < k) : Lim good none b k m 0 := ⟨fun _ => by omega, .inl rfl, fun _ _ => rfl⟩

theorem step {a : Option R} {b : R} {k m d : Nat} (h : Lim good a b k m d) : Lim good a b (1 + k) (1 + m) (d + 1) :=
  ⟨fun x => h.enough (by omega), h.same, fun g x => h.needed g (by omega)⟩

theorem weaken {a : Option R} {b : R} {k m k' m' d : Nat} (h : Lim good a b k m d) (hk : k ≤ k') (hm : m' ≤ m) : Lim good a b k' m' d :=
  ⟨fun x => h.enough (by omega), h.same, fun g x => h.needed g (by omega)⟩

theorem map {S : Type} {good' : S → Prop} {a : Option R} {b : R} {k m d : Nat} (f : R → S) (h : Lim good a b k m d) (hf : good' (f b) → good b) :
    Lim good' (a.map f) (f b) k m d := by
  refine ⟨fun x => by rw [h.enough x]; rfl, ?_, fun g x => by rw [h.needed (hf g) x]; rfl⟩
  rcases h.same with e | e
  · exact .inl (by rw [e]; rfl)
  · exact .inr (by rw [e]; rfl)

/-- Sequencing in general. -/
theorem seq {T S : Type} {good' : S → Prop} {a : Option R} {b : R} {k m k' m' d : Nat} {bind : Option R → (T → Option S) → Option S} {bind' : R → (T → S) → S}
    {f : T → Option S} {g : T → S}
    (h0 : bind none f = none) (h1 : (∃ t, bind (some b) f = f t ∧ bind' b g = g t ∧ good b) ∨ (bind (some b) f = some (bind' b g) ∧ ¬ good' (bind' b g)))
    (h : Lim good a b k m d) (hf : ∀ t, Lim good' (f t) (g t) k' m' d) : Lim good' (bind a f) (bind' b g) (max k k') (max m m') d := by
  rcases h1 with ⟨t, h1, h2, h3⟩ | ⟨h1, h2⟩
  · refine ⟨fun x => ?_, ?_, fun gd x => ?_⟩
    · rw [h.enough (by omega), h1, h2, (hf t).enough (by omega)]
    · rcases h.same with e | e
      · exact .inl (by rw [e, h0])
      · rw [e, h1, h2]; exact (hf t).same
    · rw [h2] at gd
      by_cases e : d < m
      · rw [h.needed h3 e, h0]
      · rcases h.same with e' | e'
        · rw [e', h0]
        · rw [e', h1]; exact (hf t).needed gd (by omega)
  · refine ⟨fun x => by rw [h.enough (by omega), h1], ?_, fun gd => absurd gd h2⟩
    rcases h.same with e | e
    · exact .inl (by rw [e, h0])
    · exact .inr (by rw [e, h1])

end Lim

/-! ## Value -/

/-- Success of printing. -/
def Printed {α : Type} (r : Option α) : Prop := r.isSome = true

theorem depth_pos_of_fine {n : Node} (h : Fine n) : 0 < depth n := by
  cases h with
  | val h => cases n <;> first | exact h.elim | (simp only [depth]; omega)
  | _ => simp only [depth]; omega

theorem spine_le_depth (n : Node) (h : Fine n) : spine n ≤ depth n := by
  induction h with
  | @val n h => cases n <;> first | exact h.elim | (simp only [depth, spine]; omega)
  | cmp _ _ _ h1 h2 h3 => simp only [depth, spine]; omega
  | logic _ _ _ h1 h2 h3 => simp only [depth, spine]; omega
  | paren _ h1 => simp only [depth, spine]; omega
  | not _ h1 => simp only [depth, spine]; omega
  | _ => simp only [depth, spine]; omega

theorem valueDeep_lit {n : Node} (h : LitNode n) (d : Nat) : Lim Printed (valueDeep d n) (value n) (depth n) (depth n) d := by
  cases d with
  | zero => exact .over (depth_pos_of_fine (.val (by cases n <;> first | exact h.elim | trivial)))
  | succ d => cases n <;> first | exact h.elim | exact .pure

theorem valueList_lim {l : List Node} (h : ∀ n ∈ l, LitNode n) (d : Nat) :
    Lim Printed (valueDeep.valueList (valueDeep d) l) (valueL l) (depthL l) (depthL l) d := by
  induction l with
  | nil => exact .pure0
  | cons n l ih =>
    have h1 := valueDeep_lit (h n List.mem_cons_self) d
    have h2 := ih fun m hm => h m (List.mem_cons_of_mem _ hm)
    have hv : ∃ v, value n = some v := by
      have := h n List.mem_cons_self
      cases n <;> first | exact this.elim | exact ⟨_, rfl⟩
    obtain ⟨v, hv⟩ := hv
    have h3 : Lim Printed ((valueDeep.valueList (valueDeep d) l).map fun r => r.map (v :: ·)) ((valueL l).map (v :: ·)) (depthL l) (depthL l) d :=
      h2.map _ (by intro g; unfold Printed at *; simpa using g)
    have e : valueL (n :: l) = (valueL l).map (v :: ·) := by simp [valueL, hv]
    rw [e]
    simp only [depthL]
    have e2 : valueDeep.valueList (valueDeep d) (n :: l) = (match valueDeep d n with
      | none => none
      | some none => some none
      | some (some v) => (valueDeep.valueList (valueDeep d) l).map fun r => r.map (v :: ·)) := rfl
    rw [e2]
    rw [hv] at h1
    refine ⟨fun x => ?_, ?_, fun g x => ?_⟩
    · rw [h1.enough (by omega)]; exact h3.enough (by omega)
    · rcases h1.same with e | e
      · exact .inl (by rw [e])
      · rw [e]; exact h3.same
    · rcases h1.same with e | e
      · rw [e]
      · rw [e]
        by_cases y : d < depth n
        · rw [h1.needed rfl y] at e; cases e
        · exact h3.needed g (by omega)

theorem valueDeep_lim {n : Node} (h : ValNode n) (d : Nat) : Lim Printed (valueDeep d n) (value n) (depth n) (depth n) d := by
  by_cases hl : LitNode n
  · exact valueDeep_lit hl d
  · cases n with
    | arr l =>
      cases d with
      | zero => exact .over (by simp only [depth]; omega)
      | succ d =>
        have h2 := (valueList_lim h d).step
        exact h2.map (good' := Printed) (fun r => r.map GoVal.slice) (by intro g; unfold Printed at *; simpa using g)
    | _ => exact absurd h hl

/-! ## Build and String -/

theorem catDeep_lim {a b : Option (Option Str)} {x y : Option Str} {k m k' m' d : Nat} (ha : Lim Printed a x k m d) (hb : Lim Printed b y k' m' d) :
    Lim Printed (catDeep a b) (cat x y) (max k k') (max m m') d := by
  refine Lim.seq (T := Str) (bind := fun a f => match a with | none => none | some none => some none | some (some x) => f x)
    (bind' := fun x g => x.bind g) (f := fun x => b.map fun r => r.map (x ++ ·)) (g := fun x => y.map (x ++ ·)) rfl ?_ ha ?_
  · cases x with
    | none => exact .inr ⟨rfl, by simp [Printed]⟩
    | some x => exact .inl ⟨x, rfl, rfl, rfl⟩
  · intro t
    exact hb.map _ (by intro g; unfold Printed at *; simpa using g)

theorem catDeep_left {s : Str} {b : Option (Option Str)} {y : Option Str} {k m d : Nat} (hb : Lim Printed b y k m d) :
    Lim Printed (catDeep (some (some s)) b) (cat (some s) y) k m d := (catDeep_lim .pure0 hb).weaken (k := max 0 k) (m := max 0 m) (by omega) (by omega)

theorem catDeep_right {s : Str} {a : Option (Option Str)} {x : Option Str} {k m d : Nat} (ha : Lim Printed a x k m d) :
    Lim Printed (catDeep a (some (some s))) (cat x (some s)) k m d := (catDeep_lim ha .pure0).weaken (k := max k 0) (m := max m 0) (by omega) (by omega)

theorem buildList_lim {P : Char → Bool} {root : Str} {d : Nat} {l : List Node}
    (h : ∀ n ∈ l, Lim Printed (buildDeepN P root d n) (buildN P root n) (depth n) (depth n) d) :
    Lim Printed (buildList (buildDeepN P root d) l) (buildL P root l) (depthL l) (depthL l) d := by
  induction l with
  | nil => exact .pure0
  | cons n l ih =>
    have h1 := h n List.mem_cons_self
    have h2 := ih fun m hm => h m (List.mem_cons_of_mem _ hm)
    cases l with
    | nil => exact h1.weaken (by simp [depthL]) (by simp [depthL])
    | cons m l => exact catDeep_lim h1 (catDeep_left h2)

theorem Fine.ne_nil {r : Node} (h : Fine r) : r ≠ .nil := by
  rintro rfl
  cases h with
  | val h => exact h.elim

theorem buildDeepN_lim {P : Char → Bool} {root : Str} (d : Nat) : ∀ {n : Node}, Fine n →
    Lim Printed (buildDeepN P root d n) (buildN P root n) (depth n) (depth n) d := by
  induction d with
  | zero => intro n h; exact .over (depth_pos_of_fine h)
  | succ d ih =>
    intro n h
    cases h with
    | val h =>
      cases n with
      | arr l =>
        refine (catDeep_left (catDeep_right (buildList_lim (d := d) (l := l) ?_))).step
        intro m hm
        exact ih (.val (by have := h m hm; cases m <;> first | exact this.elim | trivial))
      | _ => first | exact h.elim | exact .pure
    | op _ => exact .pure
    | ident _ => exact .pure
    | ref _ => exact .pure
    | pred h1 h2 => exact (catDeep_lim (ih h1) (catDeep_left (ih (.op (by obtain ⟨u, h2⟩ := h2; exact ⟨u, by simp [h2]⟩))))).step
    | @cmp l o r h1 h2 h3 =>
      have e : buildDeepN P root (d + 1) (.cmp l o r) = catDeep (buildDeepN P root d l) (catDeep (some (some c!" ")) (catDeep (buildDeepN P root d o)
          (catDeep (some (some c!" ")) (buildDeepN P root d r)))) := by
        cases r <;> first | exact absurd rfl h3.ne_nil | rfl
      have e2 : buildN P root (.cmp l o r) = cat (buildN P root l) (cat (some c!" ") (cat (buildN P root o) (cat (some c!" ") (buildN P root r)))) := by
        cases r <;> first | exact absurd rfl h3.ne_nil | simp only [buildN]
      rw [e, e2]
      exact (catDeep_lim (ih h1) (catDeep_left (catDeep_lim (ih h2) (catDeep_left (ih h3))))).step
    | @logic l o r h1 h2 h3 =>
      have e : buildDeepN P root (d + 1) (.logic l o r) = catDeep (buildDeepN P root d l) (catDeep (some (some c!" ")) (catDeep (buildDeepN P root d o)
          (catDeep (some (some c!" ")) (buildDeepN P root d r)))) := by
        cases r <;> first | exact absurd rfl h3.ne_nil | rfl
      have e2 : buildN P root (.logic l o r) = cat (buildN P root l) (cat (some c!" ") (cat (buildN P root o) (cat (some c!" ") (buildN P root r)))) := by
        cases r <;> first | exact absurd rfl h3.ne_nil | simp only [buildN]
      rw [e, e2]
      exact (catDeep_lim (ih h1) (catDeep_left (catDeep_lim (ih h2) (catDeep_left (ih h3))))).step
    | paren h1 => exact (catDeep_left (catDeep_right (ih h1))).step
    | not h1 => exact (catDeep_left (ih h1)).step
    | between h1 h2 h3 h4 =>
      exact (catDeep_lim (ih h1) (catDeep_left (catDeep_lim (ih (.op (by obtain ⟨u, h2⟩ := h2; exact ⟨u, by simp [h2]⟩)))
        (catDeep_left (catDeep_lim (ih (.val h3)) (catDeep_left (ih (.val h4)))))))).step
    | func h1 h2 => exact (catDeep_left (catDeep_right (buildList_lim fun m hm => ih (h2 m hm)))).step

theorem strList_lim {d : Nat} {l : List Node} (h : ∀ n ∈ l, Lim Printed (strDeep d n) (nodeStr n) (depth n) (spine n) d) :
    Lim Printed (strList (strDeep d) l) (nodeStrs l) (depthL l) 0 d := by
  induction l with
  | nil => exact .pure0
  | cons n l ih =>
    have h1 := h n List.mem_cons_self
    have h2 := ih fun m hm => h m (List.mem_cons_of_mem _ hm)
    exact (catDeep_left (catDeep_lim h1 h2)).weaken (by simp [depthL]) (by omega)

theorem strDeep_val {n : Node} (h : ValNode n) (d : Nat) :
    strDeep (d + 1) n = (valueDeep (d + 1) n).map (fun r => r.map fun v => c!"value(" ++ fmtVal v ++ c!")") ∧
    nodeStr n = (value n).map fun v => c!"value(" ++ fmtVal v ++ c!")" := by
  cases n with
  | arr l => exact ⟨rfl, by simp [nodeStr, value, Option.map_map, Function.comp_def]⟩
  | _ => first | exact h.elim | exact ⟨rfl, rfl⟩

theorem strDeep_lim (d : Nat) : ∀ {n : Node}, Fine n → Lim Printed (strDeep d n) (nodeStr n) (depth n) (spine n) d := by
  induction d with
  | zero => intro n h; exact .over (depth_pos_of_fine h)
  | succ d ih =>
    intro n h
    cases h with
    | val h =>
      have hs := spine_le_depth n (.val h)
      rw [(strDeep_val h d).1, (strDeep_val h d).2]
      exact ((valueDeep_lim h (d + 1)).map _ (by intro g; unfold Printed at *; simpa using g)).weaken (Nat.le_refl _) hs
    | op _ => exact .pure
    | ident _ => exact .pure
    | ref _ => exact .pure
    | pred h1 h2 => exact .pure
    | cmp h1 h2 h3 =>
      exact (catDeep_left (catDeep_lim (ih h1) (catDeep_left (catDeep_lim (ih h2) (catDeep_left (catDeep_right (ih h3))))))).step.weaken
        (by simp only [depth]; omega) (by simp only [spine]; omega)
    | logic h1 h2 h3 =>
      exact (catDeep_left (catDeep_lim (ih h2) (catDeep_left (catDeep_lim (ih h1) (catDeep_left (catDeep_right (ih h3))))))).step.weaken
        (by simp only [depth]; omega) (by simp only [spine]; omega)
    | paren h1 => exact (catDeep_left (catDeep_right (ih h1))).step
    | not h1 => exact (catDeep_left (catDeep_right (ih h1))).step
    | between h1 h2 h3 h4 =>
      exact (catDeep_left (catDeep_lim (ih (.val h3)) (catDeep_left (catDeep_right (ih (.val h4)))))).step.weaken
        (by simp only [depth]; omega) (by simp only [spine]; omega)
    | func h1 h2 =>
      exact (catDeep_left (catDeep_right (strList_lim fun m hm => ih (h2 m hm)))).step.weaken (by simp only [depth]; omega) (by simp only [spine]; omega)

/-! ## gorm -/

/-- Success of the gorm translator. -/
def GDone (r : GRes) : Prop := ∃ st, r = .ok st

theorem gThen_lim {a : Option GRes} {b : GRes} {f : GSt → Option GRes} {g : GSt → GRes} {k m k' m' d : Nat} (ha : Lim GDone a b k m d)
    (hf : ∀ st, Lim GDone (f st) (g st) k' m' d) : Lim GDone (gThen a f) (b.andThen g) (max k k') (max m m') d := by
  refine Lim.seq (bind := gThen) (bind' := GRes.andThen) rfl ?_ ha hf
  cases b with
  | ok st => exact .inl ⟨st, rfl, rfl, st, rfl⟩
  | err e st => exact .inr ⟨rfl, by rintro ⟨st, h⟩; cases h⟩
  | panic => exact .inr ⟨rfl, by rintro ⟨st, h⟩; cases h⟩

theorem gList_lim {E : GEnv} {d : Nat} {l : List Node} (h : ∀ n ∈ l, ∀ st, Lim GDone (gormDeep E d n st) (gvisit E n st) (depth n) (depth n) d) (st : GSt) :
    Lim GDone (gList (gormDeep E d) l st) (gvisitL E l st) (depthL l) (depthL l) d := by
  induction l generalizing st with
  | nil => exact .pure0
  | cons n l ih => exact gThen_lim (h n List.mem_cons_self st) fun st => ih (fun m hm => h m (List.mem_cons_of_mem _ hm)) st

theorem gormDeep_val {E : GEnv} {n : Node} (h : ValNode n) (d : Nat) (st : GSt) :
    gormDeep E (d + 1) n st = (valueDeep (d + 1) n).map (fun v => match v with
      | none => .panic
      | some v => .ok { st.write c!"?" with vals := st.vals ++ [v] }) ∧ gvisit E n st = gVal n st := by
  cases n <;> first | exact h.elim | exact ⟨rfl, by simp [gvisit]⟩

theorem gormDeep_lim {E : GEnv} (d : Nat) : ∀ {n : Node}, Fine n → ∀ st, Lim GDone (gormDeep E d n st) (gvisit E n st) (depth n) (depth n) d := by
  induction d with
  | zero => intro n h st; exact .over (depth_pos_of_fine h)
  | succ d ih =>
    intro n h st
    cases h with
    | val h =>
      rw [(gormDeep_val h d st).1, (gormDeep_val h d st).2]
      refine (valueDeep_lim h (d + 1)).map _ ?_
      intro g
      cases hv : value n with
      | none => rw [hv] at g; obtain ⟨_, g⟩ := g; cases g
      | some v => rfl
    | op _ => simp only [gvisit, gormDeep]; exact .pure
    | ident _ => simp only [gvisit, gormDeep]; exact .pure
    | ref _ => simp only [gvisit, gormDeep]; exact .pure
    | pred h1 h2 =>
      simp only [gvisit, gormDeep]
      exact (gThen_lim (ih h1 st) fun st => ih (.op (by obtain ⟨u, h2⟩ := h2; exact ⟨u, by simp [h2]⟩)) _).step
    | @cmp l o r h1 h2 h3 =>
      have e : gormDeep E (d + 1) (.cmp l o r) st = gThen (gThen (gormDeep E d l st) fun st => gormDeep E d o (st.write c!" "))
          fun st => gormDeep E d r (st.write c!" ") := by
        cases r <;> first | exact absurd rfl h3.ne_nil | rfl
      have e2 : gvisit E (.cmp l o r) st = ((gvisit E l st).andThen fun st => gvisit E o (st.write c!" ")).andThen fun st => gvisit E r (st.write c!" ") := by
        cases r <;> first | exact absurd rfl h3.ne_nil | simp only [gvisit]
      rw [e, e2]
      exact (gThen_lim (gThen_lim (ih h1 st) fun st => ih h2 _) fun st => ih h3 _).step.weaken (by simp only [depth]; omega) (by simp only [depth]; omega)
    | @logic l o r h1 h2 h3 =>
      have e : gormDeep E (d + 1) (.logic l o r) st = gThen (gThen (gormDeep E d l st) fun st => gormDeep E d o (st.write c!" "))
          fun st => gormDeep E d r (st.write c!" ") := by
        cases r <;> first | exact absurd rfl h3.ne_nil | rfl
      have e2 : gvisit E (.logic l o r) st = ((gvisit E l st).andThen fun st => gvisit E o (st.write c!" ")).andThen fun st => gvisit E r (st.write c!" ") := by
        cases r <;> first | exact absurd rfl h3.ne_nil | simp only [gvisit]
      rw [e, e2]
      exact (gThen_lim (gThen_lim (ih h1 st) fun st => ih h2 _) fun st => ih h3 _).step.weaken (by simp only [depth]; omega) (by simp only [depth]; omega)
    | paren h1 =>
      simp only [gvisit, gormDeep]
      refine ((ih h1 _).step).map _ ?_
      rintro ⟨st, g⟩
      revert g
      cases gvisit E _ _ with
      | ok st => intro _; exact ⟨st, rfl⟩
      | err e st => intro g; cases g
      | panic => intro g; cases g
    | not h1 => simp only [gvisit, gormDeep]; exact (ih h1 _).step
    | between h1 h2 h3 h4 =>
      simp only [gvisit, gormDeep]
      exact (gThen_lim (gThen_lim (gThen_lim (ih h1 st) fun st => ih (.op (by obtain ⟨u, h2⟩ := h2; exact ⟨u, by simp [h2]⟩)) _)
        fun st => ih (.val h3) _) fun st => ih (.val h4) _).step.weaken (by simp only [depth]; omega) (by simp only [depth]; omega)
    | @func f l h1 h2 =>
      simp only [gvisit, gormDeep]
      split
      · exact ((gThen_lim (k' := 0) (m' := 0) (gList_lim (fun m hm => ih (h2 m hm)) _) fun st => .pure0).weaken (k := max (depthL l) 0) (m := max (depthL l) 0)
          (k' := depthL l) (m' := depthL l) (by omega) (by omega)).step
      · exact ⟨fun _ => rfl, .inr rfl, fun g => by obtain ⟨_, g⟩ := g; cases g⟩

/-! ## entql -/

/-- Success of the entql translator. -/
def EDone (r : ERes) : Prop := ∃ st, r = .ok st

theorem eThen_lim {a : Option ERes} {b : ERes} {f : List EExpr → Option ERes} {g : List EExpr → ERes} {k m k' m' d : Nat} (ha : Lim EDone a b k m d)
    (hf : ∀ st, Lim EDone (f st) (g st) k' m' d) : Lim EDone (eThen a f) (b.andThen g) (max k k') (max m m') d := by
  refine Lim.seq (bind := eThen) (bind' := ERes.andThen) rfl ?_ ha hf
  cases b with
  | ok st => exact .inl ⟨st, rfl, rfl, st, rfl⟩
  | err e st => exact .inr ⟨rfl, by rintro ⟨st, h⟩; cases h⟩
  | panic => exact .inr ⟨rfl, by rintro ⟨st, h⟩; cases h⟩

theorem entqlDeep_val {n : Node} (h : ValNode n) (d : Nat) (st : List EExpr) :
    entqlDeep (d + 1) n st = (valueDeep (d + 1) n).map (fun v => match v with
      | none => .panic
      | some v => .ok (.val v :: st)) ∧ evisit n st = eVal n st := by
  cases n <;> first | exact h.elim | exact ⟨rfl, by simp [evisit]⟩

theorem entqlDeep_lim (d : Nat) : ∀ {n : Node}, Fine n → ∀ st, Lim EDone (entqlDeep d n st) (evisit n st) (depth n) (spine n) d := by
  induction d with
  | zero => intro n h st; exact .over (depth_pos_of_fine h)
  | succ d ih =>
    intro n h st
    cases h with
    | val h =>
      have hs := spine_le_depth n (.val h)
      rw [(entqlDeep_val h d st).1, (entqlDeep_val h d st).2]
      refine ((valueDeep_lim h (d + 1)).map _ ?_).weaken (Nat.le_refl _) hs
      intro g
      cases hv : value n with
      | none => rw [hv] at g; obtain ⟨_, g⟩ := g; cases g
      | some v => rfl
    | op _ => simp only [evisit, entqlDeep]; exact .pure
    | ident _ => simp only [evisit, entqlDeep]; exact .pure
    | ref _ => simp only [evisit, entqlDeep]; exact .pure
    | pred h1 h2 => simp only [evisit, entqlDeep]; exact .pure
    | cmp h1 h2 h3 =>
      simp only [evisit, entqlDeep]
      exact (eThen_lim (k' := 0) (m' := 0) (eThen_lim (ih h1 st) fun st => ih h3 st) fun st => .pure0).step.weaken
        (by simp only [depth]; omega) (by simp only [spine]; omega)
    | logic h1 h2 h3 =>
      simp only [evisit, entqlDeep]
      exact (eThen_lim (k' := 0) (m' := 0) (eThen_lim (ih h1 st) fun st => ih h3 st) fun st => .pure0).step.weaken
        (by simp only [depth]; omega) (by simp only [spine]; omega)
    | paren h1 => simp only [evisit, entqlDeep]; exact (ih h1 _).step
    | not h1 =>
      simp only [evisit, entqlDeep]
      refine ((ih h1 _).step).map _ ?_
      rintro ⟨st, g⟩
      revert g
      cases evisit _ _ with
      | ok st => intro _; exact ⟨st, rfl⟩
      | err e st =>
        intro g
        cases st with
        | nil => cases g
        | cons x st => simp only [eNot] at g; split at g <;> cases g
      | panic => intro g; cases g
    | between h1 h2 h3 h4 =>
      simp only [evisit, entqlDeep]
      exact (eThen_lim (k' := 0) (m' := 0) (eThen_lim (eThen_lim (ih h1 st) fun st => ih (.val h3) st) fun st => ih (.val h4) st) fun st => .pure0).step.weaken
        (by simp only [depth]; omega) (by simp only [spine]; omega)
    | func h1 h2 => simp only [evisit, entqlDeep]; exact .pure

/-! ## entsql -/

/-- Success of the ent SQL translator. -/
def SDone (r : SRes) : Prop := ∃ mb, r = .ok mb

theorem sThen_lim {a : Option SRes} {b : SRes} {f : MB → Option SRes} {g : MB → SRes} {k m k' m' d : Nat} (ha : Lim SDone a b k m d)
    (hf : ∀ mb, Lim SDone (f mb) (g mb) k' m' d) : Lim SDone (sThen a f) (b.andThen g) (max k k') (max m m') d := by
  refine Lim.seq (bind := sThen) (bind' := SRes.andThen) rfl ?_ ha hf
  cases b with
  | ok mb => exact .inl ⟨mb, rfl, rfl, mb, rfl⟩
  | err e mb => exact .inr ⟨rfl, by rintro ⟨mb, h⟩; cases h⟩
  | panic => exact .inr ⟨rfl, by rintro ⟨mb, h⟩; cases h⟩

theorem also_lim {a : Option SRes} {b : SRes} {f : MB → MB} {k m d : Nat} (ha : Lim SDone a b k m d) :
    Lim SDone (a.map fun r => r.also f) (b.also f) k m d := by
  refine ha.map (fun r => r.also f) ?_
  rintro ⟨mb, g⟩
  cases b with
  | ok mb => exact ⟨mb, rfl⟩
  | err e mb => cases g
  | panic => cases g

theorem binDeep_lim {a : Option SRes} {b : SRes} {o : Node} {f : MB → Option SRes} {g : MB → SRes} {k m k' m' d : Nat} (ha : Lim SDone a b k m d)
    (hf : ∀ mb, Lim SDone (f mb) (g mb) k' m' d) : Lim SDone (binDeep a o f) (sBin b o g) (max k k') (max m m') d := by
  refine Lim.seq (bind := fun a f => binDeep a o f) (bind' := fun b g => sBin b o g) rfl ?_ ha hf
  cases b with
  | panic => exact .inr ⟨rfl, by rintro ⟨mb, h⟩; cases h⟩
  | ok mb =>
    simp only [binDeep, sBin]
    cases operation o with
    | none => exact .inr ⟨rfl, by rintro ⟨mb, h⟩; cases h⟩
    | some op =>
      simp only
      cases binText op with
      | none => exact .inr ⟨rfl, by rintro ⟨mb, h⟩; cases h⟩
      | some t => exact .inl ⟨_, rfl, rfl, mb, rfl⟩
  | err e mb =>
    simp only [binDeep, sBin]
    cases operation o with
    | none => exact .inr ⟨rfl, by rintro ⟨mb, h⟩; cases h⟩
    | some op =>
      simp only
      cases binText op with
      | none => exact .inr ⟨rfl, by rintro ⟨mb, h⟩; cases h⟩
      | some t => exact .inr ⟨rfl, by rintro ⟨mb, h⟩; cases h⟩

theorem edgeDeep_lim {E : SEnv} {node : Option Nat} {ps : List Node} {a : Nat → MB → Option SRes} {b : Nat → MB → SRes} {k d : Nat}
    (h : ∀ t mb, 2 ≤ ps.length → Lim SDone (a t mb) (b t mb) k 0 d) (mb : MB) : Lim SDone (edgeDeep E node ps a mb) (sEdge E node ps b mb) k 0 d := by
  cases ps with
  | nil => exact .pure0
  | cons p rest =>
    simp only [edgeDeep, sEdge]
    by_cases hp : nodeName p = []
    · rw [if_pos hp, if_pos hp]; exact .pure0
    · rw [if_neg hp, if_neg hp]
      cases node with
      | none => exact .pure0
      | some t =>
        simp only
        cases (E.edges t).lookup (nodeName p) with
        | none => exact .pure0
        | some e =>
          match rest with
          | [] => exact .pure0
          | _ :: _ :: _ => exact .pure0
          | [c] =>
            simp only
            by_cases hc : isExpression c = true
            · rw [if_pos hc, if_pos hc]
              have := h e.to { own := { dialect := mb.own.dialect, total := mb.own.total } } (by simp)
              refine ⟨fun x => by rw [this.enough x]; rfl, ?_, fun _ x => by omega⟩
              rcases this.same with e | e
              · exact .inl (by rw [e]; rfl)
              · exact .inr (by rw [e]; rfl)
            · rw [if_neg hc, if_neg hc]; exact .pure0

theorem entsqlDeep_val {E : SEnv} {node : Option Nat} {n : Node} (h : ValNode n) (d : Nat) (mb : MB) :
    entsqlDeep E (d + 1) node n mb = (valueDeep (d + 1) n).map (fun v => match v with
      | none => .panic
      | some (.slice l) => .ok (((mb.write c!"(").put (Bld.argList l)).write c!")")
      | some v => .ok (mb.put (Bld.arg (if E.cast then .cast v else .plain v)))) ∧ svisit E node n mb = sVal E n mb := by
  cases n <;> first | exact h.elim | exact ⟨rfl, by simp [svisit]⟩

theorem entsqlDeep_lim {E : SEnv} (d : Nat) : ∀ {n : Node}, Fine n → ∀ node mb,
    Lim SDone (entsqlDeep E d node n mb) (svisit E node n mb) (depth n) (spine n) d := by
  induction d with
  | zero => intro n h node mb; exact .over (depth_pos_of_fine h)
  | succ d ih =>
    intro n h node mb
    cases h with
    | val h =>
      have hs := spine_le_depth n (.val h)
      rw [(entsqlDeep_val h d mb).1, (entsqlDeep_val h d mb).2]
      have hv : ∃ v, value n = some v := by
        cases hv : value n with
        | some v => exact ⟨v, rfl⟩
        | none =>
          cases n with
          | arr l =>
            simp only [value, Option.map_eq_none_iff] at hv
            have : ∀ l : List Node, (∀ n ∈ l, LitNode n) → valueL l ≠ none := by
              intro l
              induction l with
              | nil => intro _ h; cases h
              | cons n l ih =>
                intro hl
                have h1 := hl n List.mem_cons_self
                have h2 := ih fun m hm => hl m (List.mem_cons_of_mem _ hm)
                cases hvl : valueL l with
                | none => exact absurd hvl h2
                | some vs => cases n <;> first | exact h1.elim | simp [valueL, value, hvl]
            exact absurd hv (this l h)
          | _ => first | exact h.elim | cases hv
      have := (valueDeep_lim h (d + 1)).map (good' := SDone) (fun v => match v with
        | none => SRes.panic
        | some (.slice l) => .ok (((mb.write c!"(").put (Bld.argList l)).write c!")")
        | some v => .ok (mb.put (Bld.arg (if E.cast then .cast v else .plain v)))) (by obtain ⟨v, hv⟩ := hv; rw [hv]; intro _; rfl)
      refine (show Lim SDone _ (sVal E n mb) _ _ _ from ?_).weaken (Nat.le_refl _) hs
      have e : sVal E n mb = (match value n with
        | none => SRes.panic
        | some (.slice l) => .ok (((mb.write c!"(").put (Bld.argList l)).write c!")")
        | some v => .ok (mb.put (Bld.arg (if E.cast then .cast v else .plain v)))) := rfl
      rw [e]
      exact this
    | op _ => simp only [svisit, entsqlDeep]; exact .pure
    | ident _ => simp only [svisit, entsqlDeep]; exact .pure
    | ref _ => simp only [svisit, entsqlDeep]; exact .pure
    | @pred l o h1 h2 =>
      simp only [svisit, entsqlDeep, operation]
      cases entsqlOps.lookup o with
      | none => exact .pure
      | some t => exact (also_lim (ih h1 node mb)).step.weaken (by simp only [depth]; omega) (by simp only [spine]; omega)
    | cmp h1 h2 h3 =>
      simp only [svisit, entsqlDeep]
      exact (binDeep_lim (ih h1 node mb) fun mb => ih h3 node mb).step.weaken (by simp only [depth]; omega) (by simp only [spine]; omega)
    | logic h1 h2 h3 =>
      simp only [svisit, entsqlDeep]
      exact (binDeep_lim (ih h1 node mb) fun mb => ih h3 node mb).step.weaken (by simp only [depth]; omega) (by simp only [spine]; omega)
    | paren h1 => simp only [svisit, entsqlDeep]; exact (also_lim (ih h1 _ _)).step
    | not h1 => simp only [svisit, entsqlDeep]; exact (ih h1 _ _).step
    | between h1 h2 h3 h4 =>
      simp only [svisit, entsqlDeep, operation]
      exact (sThen_lim (sThen_lim (sThen_lim (ih h1 node mb) fun mb => ih (.val h3) node _) fun mb => ih h1 node _) fun mb => ih (.val h4) node _).step.weaken
        (by simp only [depth]; omega) (by simp only [spine]; omega)
    | @func f l h1 h2 =>
      simp only [svisit, entsqlDeep]
      split
      · refine (also_lim (k := depthL l) (m := 0) ?_).step.weaken (by simp only [depth]; omega) (by simp only [spine]; omega)
        cases l with
        | nil => exact .pure0
        | cons n l => simp only [svisit1]; exact (ih (h2 n List.mem_cons_self) _ _).weaken (by simp only [depthL]; omega) (by omega)
      · split
        · refine (edgeDeep_lim (k := depthL l) ?_ mb).step.weaken (by simp only [depth]; omega) (by simp only [spine]; omega)
          intro t mb hl
          match l, hl with
          | a :: b :: l, _ =>
            simp only [svisit2, svisit1, List.tail_cons]
            exact (ih (h2 b (by simp)) _ _).weaken (by simp only [depthL]; omega) (by omega)
        · exact ⟨fun _ => rfl, .inr rfl, fun g => by obtain ⟨_, g⟩ := g; cases g⟩

end Verif
