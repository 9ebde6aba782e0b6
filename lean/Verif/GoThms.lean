import Verif.GoRun
import Verif.Grammar

/-!
# The text of the generated recogniser against the expressions of `Grammar`

`Shape` says which instructions the compiler of the `peg` tool makes of an expression, `Shape.sound` that they do what `exec` does, and `chk` looks for
them in a function.
-/

namespace Verif.Go

/-- Instruction `k` assigns to the variables with number `n`. -/
def writes (n : Nat) : Ins → Bool
  | .op (.save m) => m == n
  | .op (.mark m) => m == n
  | _ => false

/-- No instruction from `lo` up to `hi` assigns to the variables with number `n`. -/
def NoWrite (P : List Ins) (n lo hi : Nat) : Prop := ∀ k, lo ≤ k → k < hi → ∀ i, P[k]? = some i → writes n i = false

theorem NoWrite.mono {P n lo hi lo' hi'} (h : NoWrite P n lo hi) (a : lo ≤ lo') (b : hi' ≤ hi) : NoWrite P n lo' hi' :=
  fun k h1 h2 => h k (Nat.le_trans a h1) (Nat.lt_of_lt_of_le h2 b)

/-- The variables that no instruction from `lo` up to `hi` assigns to are the same. -/
def Agree (P : List Ins) (lo hi : Nat) (v v' : Vars) : Prop := ∀ n, NoWrite P n lo hi → v' n = v n

theorem Agree.rfl {P lo hi v} : Agree P lo hi v v := fun _ _ => Eq.refl _

theorem Agree.trans {P lo hi lo1 hi1 lo2 hi2 v v' v''} (h : Agree P lo1 hi1 v v') (h' : Agree P lo2 hi2 v' v'')
    (a : lo ≤ lo1) (b : hi1 ≤ hi) (c : lo ≤ lo2) (d : hi2 ≤ hi) : Agree P lo hi v v'' :=
  fun n hn => (h' n (hn.mono c d)).trans (h n (hn.mono a b))

theorem Agree.wide {P lo hi lo1 hi1 v v'} (h : Agree P lo1 hi1 v v') (a : lo ≤ lo1) (b : hi1 ≤ hi) : Agree P lo hi v v' :=
  fun n hn => h n (hn.mono a b)

theorem Agree.put {P : List Ins} {pc n v x i} (h : P[pc]? = some i) (hw : writes n i = true) : Agree P pc (pc + 1) v (Vars.put v n x) := by
  intro m hm
  have := hm pc (Nat.le_refl _) (Nat.lt_succ_self _) i h
  have e : m ≠ n := by rintro rfl; rw [hw] at this; cases this
  simp [Vars.put, e]

/-- How an expression is met: on its own, as the rest of a choice whose start is saved under `n` and whose end is marked by `e`, or as the rest of a
`switch` that ends at `e`. -/
inductive Mode where
  | plain
  | alts (n e : Nat)
  | sws (t : List (List Char × Nat)) (d e : Nat)

/-- `Shape P e m f pc p`: the instructions of `P` from `pc` up to `p` are those of the expression `e`, with the failure label `f`. -/
inductive Shape (P : List Ins) : PExp → Mode → Nat → Nat → Nat → Prop where
  | eps {f pc} : Shape P .eps .plain f pc pc
  | any {f pc} : P[pc]? = some (.op (.dot f)) → Shape P .any .plain f pc (pc + 1)
  | chr {c f pc} : P[pc]? = some (.op (.chr c f)) → P[pc + 1]? = some (.op .inc) → Shape P (.chr c) .plain f pc (pc + 2)
  | rng {a b f pc} : P[pc]? = some (.op (.rng a b f)) → P[pc + 1]? = some (.op .inc) → Shape P (.rng a b) .plain f pc (pc + 2)
  | seq {a b f pc q p} : Shape P a .plain f pc q → Shape P b .plain f q p → Shape P (.seq a b) .plain f pc p
  | call {r f pc} : P[pc]? = some (.op (.call (.rule r) f)) → Shape P (.call r) .plain f pc (pc + 1)
  | act {n f pc} : P[pc]? = some (.op (.call (.act n) f)) → Shape P (.act n) .plain f pc (pc + 1)
  | txt {a n f pc q} : P[pc]? = some (.op (.mark n)) → Shape P a .plain f (pc + 1) q → NoWrite P n (pc + 1) q →
      P[q]? = some (.op (.add .text n)) → Shape P (.txt a) .plain f pc (q + 1)
  | star {a n l e f pc q} : P[pc]? = some (.op (.label e)) → find P e = some pc → P[pc + 1]? = some (.op (.save n)) →
      Shape P a .plain l (pc + 2) q → NoWrite P n (pc + 2) q → P[q]? = some (.op (.goto e)) → P[q + 1]? = some (.op (.label l)) →
      find P l = some (q + 1) → P[q + 2]? = some (.op (.restore n)) → Shape P (.star a) .plain f pc (q + 3)
  | opt {a n l e f pc q} : P[pc]? = some (.op (.save n)) → Shape P a .plain l (pc + 1) q → NoWrite P n (pc + 1) q →
      P[q]? = some (.op (.goto e)) → P[q + 1]? = some (.op (.label l)) → find P l = some (q + 1) → P[q + 2]? = some (.op (.restore n)) →
      P[q + 3]? = some (.op (.label e)) → find P e = some (q + 3) → Shape P (.opt a) .plain f pc (q + 4)
  | notP {a n l f pc q} : P[pc]? = some (.op (.save n)) → Shape P a .plain l (pc + 1) q → NoWrite P n (pc + 1) q →
      P[q]? = some (.op (.goto f)) → P[q + 1]? = some (.op (.label l)) → find P l = some (q + 1) → P[q + 2]? = some (.op (.restore n)) →
      Shape P (.notP a) .plain f pc (q + 3)
  | altTail {a b n l e f pc q p} : Shape P a .plain l pc q → NoWrite P n pc q → P[q]? = some (.op (.goto e)) →
      P[q + 1]? = some (.op (.label l)) → find P l = some (q + 1) → P[q + 2]? = some (.op (.restore n)) →
      Shape P b (.alts n e) f (q + 3) p → Shape P (.alt a b) (.alts n e) f pc p
  | alt {a b n e f pc p} : P[pc]? = some (.op (.save n)) → Shape P (.alt a b) (.alts n e) f (pc + 1) p → P[p]? = some (.op (.label e)) →
      find P e = some p → Shape P (.alt a b) .plain f pc (p + 1)
  | lastAlt {a n e f pc p} : Shape P a .plain f pc p → Shape P a (.alts n e) f pc p
  | swTail {cs a b t d e f pc q p} : Shape P a .plain f pc q → P[q]? = some (.jump e) → Shape P b (.sws t d e) f (q + 1) p →
      Shape P (.sw cs a b) (.sws ((cs, pc) :: t) d e) f pc p
  | sw {cs a b t d f pc p} : P[pc]? = some (.table t d) → Shape P (.sw cs a b) (.sws t d p) f (pc + 1) p → Shape P (.sw cs a b) .plain f pc p
  | lastSw {a e f pc q} : Shape P a .plain f pc q → P[q]? = some (.jump e) → Shape P a (.sws [] pc e) f pc (q + 1)

theorem Shape.le {P e m f pc p} (h : Shape P e m f pc p) : pc ≤ p := by
  induction h <;> omega

/-- Whatever the function returns from the second point it returns from the first one. -/
def Goes (buf : List Nat) (P : List Ins) (pc : Nat) (v : Vars) (st : St) (pc' : Nat) (v' : Vars) (st' : St) : Prop :=
  ∀ o, Runs buf P pc' v' st' o → Runs buf P pc v st o

/-- What is known where the instructions of an expression begin. -/
def Pre (buf : List Nat) (P : List Ins) (p : Nat) (st : St) (v : Vars) : Mode → Prop
  | .plain => True
  | .alts n e => v n = (st.pos, st.ti) ∧ find P e = some p
  | .sws _ _ e => e = p ∧ ∃ x, buf[st.pos]? = some x

/-- Where the instructions of an expression begin. -/
def entry (buf : List Nat) (pc : Nat) (st : St) : Mode → Nat
  | .sws t d _ => pick t d (buf[st.pos]?.getD 0)
  | _ => pc

/-- The instructions do what `exec` says. -/
def Does (buf : List Nat) (P : List Ins) (f lo p start : Nat) (v : Vars) (st : St) : Out → Prop
  | .ok st' => ∃ v', Agree P lo p v v' ∧ Goes buf P start v st p v' st'
  | .fail st' => ∃ v', Agree P lo p v v' ∧ ∀ k, find P f = some k → Goes buf P start v st k v' st'
  | .panic => Runs buf P start v st .panic
  | .div => True

/-- Some steps before, and perhaps some assignments. -/
theorem Does.before {buf P f lo p start v st out lo' start' v0 st0} (h : Does buf P f lo p start v st out) (ha : Agree P lo' p v0 v) (hl : lo' ≤ lo)
    (hg : Goes buf P start' v0 st0 start v st) : Does buf P f lo' p start' v0 st0 out := by
  cases out with
  | ok st' =>
    obtain ⟨v', a, g⟩ := h
    exact ⟨v', ha.trans a (Nat.le_refl _) (Nat.le_refl _) hl (Nat.le_refl _), fun o r => hg o (g o r)⟩
  | fail st' =>
    obtain ⟨v', a, g⟩ := h
    exact ⟨v', ha.trans a (Nat.le_refl _) (Nat.le_refl _) hl (Nat.le_refl _), fun k hk o r => hg o (g k hk o r)⟩
  | panic => exact hg _ h
  | div => trivial

/-- A wider range. -/
theorem Does.wide {buf P f lo p start v st st'} {p' : Nat} (h : Does buf P f lo p start v st (.fail st')) (hp : p ≤ p') :
    Does buf P f lo p' start v st (.fail st') := by
  obtain ⟨v', a, g⟩ := h
  exact ⟨v', a.wide (Nat.le_refl _) hp, g⟩

theorem put_same (v : Vars) (n x) : (v.put n x) n = x := by simp [Vars.put]

/-- What a rule function does is what its table entry says. -/
def EnvOk (buf : List Nat) (env : Rule → St → Out) : Prop := ∀ r st, env r st ≠ .div → Calls buf (.rule r) st (env r st)

/-- The functions of the actions. -/
def ActOk (buf : List Nat) : Prop := ∀ n < 30, ∀ st, Calls buf (.act n) st (.ok (addTok (.act n) st.pos st))

/-- The actions of an expression are among the 30 that exist. -/
def actsBelow : PExp → Bool
  | .act n => n < 30
  | .seq a b | .alt a b | .sw _ a b => actsBelow a && actsBelow b
  | .star a | .opt a | .notP a | .txt a => actsBelow a
  | _ => true

theorem star_sound {buf P n l e pc q f} {p : St → Out} (hstart : P[pc]? = some (.op (.label e))) (hfe : find P e = some pc)
    (hsave : P[pc + 1]? = some (.op (.save n))) (hle : pc + 2 ≤ q) (hnw : NoWrite P n (pc + 2) q) (hgoto : P[q]? = some (.op (.goto e)))
    (hlab : P[q + 1]? = some (.op (.label l))) (hfl : find P l = some (q + 1)) (hres : P[q + 2]? = some (.op (.restore n)))
    (ih : ∀ st v, Does buf P l (pc + 2) q (pc + 2) v st (p st)) :
    ∀ k st v, Does buf P f pc (q + 3) pc v st (execStar p k st) := by
  intro k
  induction k with
  | zero => intro st v; trivial
  | succ k ihk =>
    intro st v
    have h := ih st (v.put n (st.pos, st.ti))
    have a0 : Agree P pc (q + 3) v (v.put n (st.pos, st.ti)) := (Agree.put hsave (by simp [writes])).wide (by omega) (by omega)
    have g0 : Goes buf P pc v st (pc + 2) (v.put n (st.pos, st.ti)) st := fun o r => .label hstart (.save hsave r)
    simp only [execStar]
    cases hp : p st with
    | div => trivial
    | panic => rw [hp] at h; exact g0 _ h
    | ok st' =>
      rw [hp] at h
      obtain ⟨v', a, g⟩ := h
      exact (ihk st' v').before (a0.trans a (Nat.le_refl _) (Nat.le_refl _) (by omega) (by omega)) (Nat.le_refl _)
        fun o r => g0 o (g o (.goto hgoto hfe r))
    | fail st' =>
      rw [hp] at h
      obtain ⟨v', a, g⟩ := h
      have e : v' n = (st.pos, st.ti) := (a n hnw).trans (put_same _ _ _)
      refine ⟨v', a0.trans a (Nat.le_refl _) (Nat.le_refl _) (by omega) (by omega), fun o r => g0 o (g _ hfl o (.label hlab (.restore hres ?_)))⟩
      rw [e]; exact r

theorem Shape.sound {buf P env} (henv : EnvOk buf env) (hact : ActOk buf) {e m f pc p} (h : Shape P e m f pc p) (hb : actsBelow e = true) :
    ∀ st v, Pre buf P p st v m → Does buf P f pc p (entry buf pc st m) v st (exec buf env e st) := by
  induction h with
  | eps => intro st v _; exact ⟨v, .rfl, fun o r => r⟩
  | any h =>
    intro st v _
    simp only [exec]
    cases hx : buf[st.pos]? with
    | none => exact .dotPanic h hx
    | some x =>
      by_cases e : x = endSymbol
      · subst e; simp only [ne_eq, not_true, if_false]
        exact ⟨v, .rfl, fun k hk o r => .dotFail h hx hk r⟩
      · simp only [ne_eq, e, not_false_eq_true, if_true]
        exact ⟨v, .rfl, fun o r => .dotOk h hx e r⟩
  | @chr c f pc h h' =>
    intro st v _
    simp only [exec]
    cases hx : buf[st.pos]? with
    | none => exact .chrPanic h hx
    | some x =>
      by_cases e : x = c.toNat
      · subst e; simp only [ne_eq, not_true, if_false]
        exact ⟨v, .rfl, fun o r => .chrOk h hx (.inc h' r)⟩
      · simp only [ne_eq, e, not_false_eq_true, if_true]
        exact ⟨v, .rfl, fun k hk o r => .chrFail h hx e hk r⟩
  | @rng a b f pc h h' =>
    intro st v _
    simp only [exec]
    cases hx : buf[st.pos]? with
    | none => exact .rngPanic h hx
    | some x =>
      by_cases e : x < a.toNat ∨ x > b.toNat
      · simp only [e, if_true]
        exact ⟨v, .rfl, fun k hk o r => .rngFail h hx e hk r⟩
      · simp only [e, if_false]
        exact ⟨v, .rfl, fun o r => .rngOk h hx e (.inc h' r)⟩
  | @seq a b f pc q p ha hb' iha ihb =>
    intro st v _
    simp only [actsBelow, Bool.and_eq_true] at hb
    have l1 := ha.le
    have l2 := hb'.le
    have h := iha hb.1 st v trivial
    simp only [exec, entry] at h ⊢
    cases hp : exec buf env a st with
    | div => trivial
    | panic => rw [hp] at h; exact h
    | fail st' => rw [hp] at h; exact h.wide l2
    | ok st' =>
      rw [hp] at h
      obtain ⟨v', a', g⟩ := h
      exact (ihb hb.2 st' v' trivial).before (a'.wide (Nat.le_refl _) l2) l1 g
  | @call r f pc h =>
    intro st v _
    simp only [exec]
    cases hp : env r st with
    | div => trivial
    | panic =>
      obtain ⟨Q, hQ, hr⟩ := henv r st (by rw [hp]; simp)
      exact .callPanic h hQ (hp ▸ hr)
    | ok st' =>
      obtain ⟨Q, hQ, hr⟩ := henv r st (by rw [hp]; simp)
      exact ⟨v, .rfl, fun o k => .callOk h hQ (hp ▸ hr) k⟩
    | fail st' =>
      obtain ⟨Q, hQ, hr⟩ := henv r st (by rw [hp]; simp)
      exact ⟨v, .rfl, fun k hk o kk => .callFail h hQ (hp ▸ hr) hk kk⟩
  | @act n f pc h =>
    intro st v _
    obtain ⟨Q, hQ, hr⟩ := hact n (by simpa [actsBelow] using hb) st
    exact ⟨v, .rfl, fun o k => .callOk h hQ hr k⟩
  | @txt a n f pc q h ha hnw hadd ih =>
    intro st v _
    have l1 := ha.le
    have h' := ih hb st (v.put n (st.pos, (v n).2)) trivial
    have a0 : Agree P pc (q + 1) v (v.put n (st.pos, (v n).2)) := (Agree.put h (by simp [writes])).wide (Nat.le_refl _) (by omega)
    have g0 : Goes buf P pc v st (pc + 1) (v.put n (st.pos, (v n).2)) st := fun o r => .mark h r
    simp only [exec, entry] at h' ⊢
    cases hp : exec buf env a st with
    | div => trivial
    | panic => rw [hp] at h'; exact g0 _ h'
    | fail st' => rw [hp] at h'; exact (h'.wide (Nat.le_succ _)).before a0 (Nat.le_succ _) g0
    | ok st' =>
      rw [hp] at h'
      obtain ⟨v', a', g⟩ := h'
      have e : v' n = (st.pos, (v n).2) := (a' n hnw).trans (put_same _ _ _)
      refine ⟨v', a0.trans a' (Nat.le_refl _) (Nat.le_refl _) (by omega) (by omega), fun o r => g0 o (g o (.add hadd ?_))⟩
      rw [e]; exact r
  | @star a n l e f pc q hstart hfe hsave ha hnw hgoto hlab hfl hres ih =>
    intro st v _
    simp only [exec, entry]
    exact star_sound hstart hfe hsave ha.le hnw hgoto hlab hfl hres (fun st v => ih hb st v trivial) _ st v
  | @opt a n l e f pc q hsave ha hnw hgoto hlab hfl hres hend hfe ih =>
    intro st v _
    have l1 := ha.le
    have h := ih hb st (v.put n (st.pos, st.ti)) trivial
    have a0 : Agree P pc (q + 4) v (v.put n (st.pos, st.ti)) := (Agree.put hsave (by simp [writes])).wide (Nat.le_refl _) (by omega)
    have g0 : Goes buf P pc v st (pc + 1) (v.put n (st.pos, st.ti)) st := fun o r => .save hsave r
    simp only [exec, entry] at h ⊢
    cases hp : exec buf env a st with
    | div => trivial
    | panic => rw [hp] at h; exact g0 _ h
    | ok st' =>
      rw [hp] at h
      obtain ⟨v', a', g⟩ := h
      exact ⟨v', a0.trans a' (Nat.le_refl _) (Nat.le_refl _) (by omega) (by omega), fun o r => g0 o (g o (.goto hgoto hfe (.label hend r)))⟩
    | fail st' =>
      rw [hp] at h
      obtain ⟨v', a', g⟩ := h
      have e : v' n = (st.pos, st.ti) := (a' n hnw).trans (put_same _ _ _)
      refine ⟨v', a0.trans a' (Nat.le_refl _) (Nat.le_refl _) (by omega) (by omega),
        fun o r => g0 o (g _ hfl o (.label hlab (.restore hres (.label hend ?_))))⟩
      rw [e]; exact r
  | @notP a n l f pc q hsave ha hnw hgoto hlab hfl hres ih =>
    intro st v _
    have l1 := ha.le
    have h := ih hb st (v.put n (st.pos, st.ti)) trivial
    have a0 : Agree P pc (q + 3) v (v.put n (st.pos, st.ti)) := (Agree.put hsave (by simp [writes])).wide (Nat.le_refl _) (by omega)
    have g0 : Goes buf P pc v st (pc + 1) (v.put n (st.pos, st.ti)) st := fun o r => .save hsave r
    simp only [exec, entry] at h ⊢
    cases hp : exec buf env a st with
    | div => trivial
    | panic => rw [hp] at h; exact g0 _ h
    | ok st' =>
      rw [hp] at h
      obtain ⟨v', a', g⟩ := h
      exact ⟨v', a0.trans a' (Nat.le_refl _) (Nat.le_refl _) (by omega) (by omega), fun k hk o r => g0 o (g o (.goto hgoto hk r))⟩
    | fail st' =>
      rw [hp] at h
      obtain ⟨v', a', g⟩ := h
      have e : v' n = (st.pos, st.ti) := (a' n hnw).trans (put_same _ _ _)
      refine ⟨v', a0.trans a' (Nat.le_refl _) (Nat.le_refl _) (by omega) (by omega), fun o r => g0 o (g _ hfl o (.label hlab (.restore hres ?_)))⟩
      rw [e]; exact r
  | @altTail a b n l e f pc q p ha hnw hgoto hlab hfl hres hb' iha ihb =>
    intro st v hpre
    simp only [actsBelow, Bool.and_eq_true] at hb
    have l1 := ha.le
    have l2 := hb'.le
    have h := iha hb.1 st v trivial
    simp only [exec, entry] at h ⊢
    cases hp : exec buf env a st with
    | div => trivial
    | panic => rw [hp] at h; exact h
    | ok st' =>
      rw [hp] at h
      obtain ⟨v', a', g⟩ := h
      exact ⟨v', a'.wide (Nat.le_refl _) (by omega), fun o r => g o (.goto hgoto hpre.2 r)⟩
    | fail st' =>
      rw [hp] at h
      obtain ⟨v', a', g⟩ := h
      have e' : v' n = (st.pos, st.ti) := (a' n hnw).trans hpre.1
      refine (ihb hb.2 { st' with pos := st.pos, ti := st.ti } v' ⟨e', hpre.2⟩).before (a'.wide (Nat.le_refl _) (by omega)) (by omega)
        fun o r => g _ hfl o (.label hlab (.restore hres ?_))
      rw [e']; exact r
  | @alt a b n e f pc p hsave ha hend hfe ih =>
    intro st v _
    have l1 := ha.le
    have h := ih hb st (v.put n (st.pos, st.ti)) ⟨put_same _ _ _, hfe⟩
    have a0 : Agree P pc (p + 1) v (v.put n (st.pos, st.ti)) := (Agree.put hsave (by simp [writes])).wide (Nat.le_refl _) (by omega)
    have g0 : Goes buf P pc v st (pc + 1) (v.put n (st.pos, st.ti)) st := fun o r => .save hsave r
    simp only [entry] at h ⊢
    cases hp : exec buf env (.alt a b) st with
    | div => trivial
    | panic => rw [hp] at h; exact g0 _ h
    | fail st' => rw [hp] at h; exact (h.wide (Nat.le_succ _)).before a0 (Nat.le_succ _) g0
    | ok st' =>
      rw [hp] at h
      obtain ⟨v', a', g⟩ := h
      exact ⟨v', a0.trans a' (Nat.le_refl _) (Nat.le_refl _) (by omega) (by omega), fun o r => g0 o (g o (.label hend r))⟩
  | lastAlt ha ih => intro st v _; exact ih hb st v trivial
  | @swTail cs a b t d e f pc q p ha hj hb' iha ihb =>
    intro st v hpre
    simp only [actsBelow, Bool.and_eq_true] at hb
    have l1 := ha.le
    have l2 := hb'.le
    obtain ⟨he, x, hx⟩ := hpre
    simp only [exec, entry, hx, pick, Option.getD_some]
    by_cases hm : x ∈ cs.map Char.toNat
    · simp only [hm, if_true]
      have h := iha hb.1 st v trivial
      simp only [entry] at h
      cases hp : exec buf env a st with
      | div => trivial
      | panic => rw [hp] at h; exact h
      | fail st' => rw [hp] at h; exact h.wide (by omega)
      | ok st' =>
        rw [hp] at h
        obtain ⟨v', a', g⟩ := h
        exact ⟨v', a'.wide (Nat.le_refl _) (by omega), fun o r => g o (.jump hj (he ▸ r))⟩
    · simp only [hm, if_false]
      have h := ihb hb.2 st v ⟨he, x, hx⟩
      simp only [entry, hx, Option.getD_some] at h
      exact h.before .rfl (by omega) fun o r => r
  | @sw cs a b t d f pc p htab ha ih =>
    intro st v _
    cases hx : buf[st.pos]? with
    | none => simp only [exec, hx]; exact .tablePanic htab hx
    | some x =>
      have h := ih hb st v ⟨rfl, x, hx⟩
      simp only [entry, hx, Option.getD_some] at h ⊢
      exact h.before .rfl (Nat.le_succ _) fun o r => .table htab hx r
  | @lastSw a e f pc q ha hj ih =>
    intro st v hpre
    have h := ih hb st v trivial
    simp only [entry, pick] at h ⊢
    cases hp : exec buf env a st with
    | div => trivial
    | panic => rw [hp] at h; exact h
    | fail st' => rw [hp] at h; exact h.wide (Nat.le_succ _)
    | ok st' =>
      rw [hp] at h
      obtain ⟨v', a', g⟩ := h
      exact ⟨v', a'.wide (Nat.le_refl _) (Nat.le_succ _), fun o r => g o (.jump hj (hpre.1 ▸ r))⟩

/-! ## Looking for the instructions of an expression -/

/-- The number of instructions of an expression; the flags say whether it is the rest of a choice or of a `switch`. -/
def len : PExp → Bool → Bool → Nat
  | .eps, _, _ => 0
  | .any, _, _ | .call _, _, _ | .act _, _, _ => 1
  | .chr _, _, _ | .rng _ _, _, _ => 2
  | .seq a b, _, _ => len a false false + len b false false
  | .txt a, _, _ => len a false false + 2
  | .star a, _, _ | .opt a, _, _ => len a false false + 5
  | .notP a, _, _ => len a false false + 4
  | .alt a b, t, _ => len a false false + 3 + len b true false + if t then 0 else 2
  | .sw _ a b, _, t => len a false false + 1 + len b false true + if t then 0 else 2

/-- Decides `NoWrite`. -/
def noWrite (P : List Ins) (n lo hi : Nat) : Bool := ((P.drop lo).take (hi - lo)).all fun i => !writes n i

theorem noWrite_sound {P n lo hi} (h : noWrite P n lo hi = true) : NoWrite P n lo hi := by
  intro k h1 h2 i hi'
  simp only [noWrite, List.all_eq_true] at h
  have : ((P.drop lo).take (hi - lo))[k - lo]? = some i := by
    rw [List.getElem?_take_of_lt (by omega), List.getElem?_drop, ← hi']; congr 1; omega
  have := h i (List.mem_of_getElem? this)
  simpa using this

/-- The result of a check made on an expression on its own, for the last part of a choice or a `switch`. -/
def last (P : List Ins) (m : Mode) (pc : Nat) (x : Option Nat) : Option Nat :=
  match m with
  | .sws t d e => if t = [] ∧ d = pc then x.bind fun q => if P[q]? = some (.jump e) then some (q + 1) else none else none
  | _ => x

/-- Looks for the instructions of an expression at `pc`; the result is the point behind them. -/
def chk (P : List Ins) : PExp → Mode → Nat → Nat → Option Nat
  | .eps, m, _, pc => last P m pc (some pc)
  | .any, m, f, pc => last P m pc (if P[pc]? = some (.op (.dot f)) then some (pc + 1) else none)
  | .chr c, m, f, pc => last P m pc (if P[pc]? = some (.op (.chr c f)) ∧ P[pc + 1]? = some (.op .inc) then some (pc + 2) else none)
  | .rng a b, m, f, pc => last P m pc (if P[pc]? = some (.op (.rng a b f)) ∧ P[pc + 1]? = some (.op .inc) then some (pc + 2) else none)
  | .seq a b, m, f, pc => last P m pc ((chk P a .plain f pc).bind fun q => chk P b .plain f q)
  | .call r, m, f, pc => last P m pc (if P[pc]? = some (.op (.call (.rule r) f)) then some (pc + 1) else none)
  | .act n, m, f, pc => last P m pc (if P[pc]? = some (.op (.call (.act n) f)) then some (pc + 1) else none)
  | .txt a, m, f, pc => last P m pc
      (match P[pc]? with
      | some (.op (.mark n)) =>
        let q := pc + 1 + len a false false
        if chk P a .plain f (pc + 1) = some q ∧ noWrite P n (pc + 1) q ∧ P[q]? = some (.op (.add .text n)) then some (q + 1) else none
      | _ => none)
  | .star a, m, _, pc => last P m pc
      (let q := pc + 2 + len a false false
      match P[pc]?, P[pc + 1]?, P[q + 1]? with
      | some (.op (.label e)), some (.op (.save n)), some (.op (.label l)) =>
        if find P e = some pc ∧ chk P a .plain l (pc + 2) = some q ∧ noWrite P n (pc + 2) q ∧ P[q]? = some (.op (.goto e)) ∧
          find P l = some (q + 1) ∧ P[q + 2]? = some (.op (.restore n)) then some (q + 3) else none
      | _, _, _ => none)
  | .opt a, m, _, pc => last P m pc
      (let q := pc + 1 + len a false false
      match P[pc]?, P[q]?, P[q + 1]? with
      | some (.op (.save n)), some (.op (.goto e)), some (.op (.label l)) =>
        if chk P a .plain l (pc + 1) = some q ∧ noWrite P n (pc + 1) q ∧ find P l = some (q + 1) ∧ P[q + 2]? = some (.op (.restore n)) ∧
          P[q + 3]? = some (.op (.label e)) ∧ find P e = some (q + 3) then some (q + 4) else none
      | _, _, _ => none)
  | .notP a, m, f, pc => last P m pc
      (let q := pc + 1 + len a false false
      match P[pc]?, P[q + 1]? with
      | some (.op (.save n)), some (.op (.label l)) =>
        if chk P a .plain l (pc + 1) = some q ∧ noWrite P n (pc + 1) q ∧ P[q]? = some (.op (.goto f)) ∧ find P l = some (q + 1) ∧
          P[q + 2]? = some (.op (.restore n)) then some (q + 3) else none
      | _, _ => none)
  | .alt a b, .alts n e, f, pc =>
      let q := pc + len a false false
      match P[q + 1]? with
      | some (.op (.label l)) =>
        if chk P a .plain l pc = some q ∧ noWrite P n pc q ∧ P[q]? = some (.op (.goto e)) ∧ find P l = some (q + 1) ∧
          P[q + 2]? = some (.op (.restore n)) then chk P b (.alts n e) f (q + 3) else none
      | _ => none
  | .alt a b, m, f, pc => last P m pc
      (let q := pc + 1 + len a false false
      match P[pc]?, P[q]?, P[q + 1]? with
      | some (.op (.save n)), some (.op (.goto e)), some (.op (.label l)) =>
        if chk P a .plain l (pc + 1) = some q ∧ noWrite P n (pc + 1) q ∧ find P l = some (q + 1) ∧ P[q + 2]? = some (.op (.restore n)) then
          (chk P b (.alts n e) f (q + 3)).bind fun p => if P[p]? = some (.op (.label e)) ∧ find P e = some p then some (p + 1) else none
        else none
      | _, _, _ => none)
  | .sw cs a b, .sws t d e, f, pc =>
      match t with
      | (cs', pc') :: t' =>
        if cs' = cs ∧ pc' = pc then
          (chk P a .plain f pc).bind fun q => if P[q]? = some (.jump e) then chk P b (.sws t' d e) f (q + 1) else none
        else none
      | [] => none
  | .sw cs a b, m, f, pc => last P m pc
      (match P[pc]? with
      | some (.table ((cs', pc') :: t') d) =>
        if cs' = cs ∧ pc' = pc + 1 then
          (chk P a .plain f (pc + 1)).bind fun q =>
            match P[q]? with
            | some (.jump e) => (chk P b (.sws t' d e) f (q + 1)).bind fun p => if p = e then some p else none
            | _ => none
        else none
      | _ => none)

theorem last_shape {P e m f pc p x} (h : last P m pc x = some p) (hx : ∀ q, x = some q → Shape P e .plain f pc q) : Shape P e m f pc p := by
  cases m with
  | plain => exact hx _ h
  | alts n e => exact .lastAlt (hx _ h)
  | sws t d e =>
    simp only [last] at h
    split at h
    · rename_i c; obtain ⟨rfl, rfl⟩ := c
      obtain ⟨q, h1, h2⟩ := Option.bind_eq_some_iff.1 h
      split at h2
      · cases h2; exact .lastSw (hx _ h1) ‹_›
      · cases h2
    · cases h

theorem chk_shape {P} : ∀ {e m f pc p}, chk P e m f pc = some p → Shape P e m f pc p := by
  intro e
  induction e with
  | eps => intro m f pc p h; exact last_shape h fun p h => by cases h; exact .eps
  | any =>
    intro m f pc p h; refine last_shape h fun p h => ?_
    split at h
    · cases h; exact .any ‹_›
    · cases h
  | chr c =>
    intro m f pc p h; refine last_shape h fun p h => ?_
    split at h
    · rename_i c; cases h; exact .chr c.1 c.2
    · cases h
  | rng a b =>
    intro m f pc p h; refine last_shape h fun p h => ?_
    split at h
    · rename_i c; cases h; exact .rng c.1 c.2
    · cases h
  | seq a b iha ihb =>
    intro m f pc p h; refine last_shape h fun p h => ?_
    obtain ⟨q, h1, h2⟩ := Option.bind_eq_some_iff.1 h
    exact .seq (iha h1) (ihb h2)
  | call r =>
    intro m f pc p h; refine last_shape h fun p h => ?_
    split at h
    · cases h; exact .call ‹_›
    · cases h
  | act n =>
    intro m f pc p h; refine last_shape h fun p h => ?_
    split at h
    · cases h; exact .act ‹_›
    · cases h
  | txt a ih =>
    intro m f pc p h; refine last_shape h fun p h => ?_
    dsimp only at h
    split at h
    · split at h
      · rename_i h0 c; cases h; exact .txt h0 (ih c.1) (noWrite_sound c.2.1) c.2.2
      · cases h
    · cases h
  | star a ih =>
    intro m f pc p h; refine last_shape h fun p h => ?_
    dsimp only at h
    split at h
    · split at h
      · rename_i h0 h1 h2 c; obtain ⟨c1, c2, c3, c4, c5, c6⟩ := c; cases h
        exact .star h0 c1 h1 (ih c2) (noWrite_sound c3) c4 h2 c5 c6
      · cases h
    · cases h
  | opt a ih =>
    intro m f pc p h; refine last_shape h fun p h => ?_
    dsimp only at h
    split at h
    · split at h
      · rename_i h0 h1 h2 c; obtain ⟨c1, c2, c3, c4, c5, c6⟩ := c; cases h
        exact .opt h0 (ih c1) (noWrite_sound c2) h1 h2 c3 c4 c5 c6
      · cases h
    · cases h
  | notP a ih =>
    intro m f pc p h; refine last_shape h fun p h => ?_
    dsimp only at h
    split at h
    · split at h
      · rename_i h0 h1 c; obtain ⟨c1, c2, c3, c4, c5⟩ := c; cases h
        exact .notP h0 (ih c1) (noWrite_sound c2) c3 h1 c4 c5
      · cases h
    · cases h
  | alt a b iha ihb =>
    have plain : ∀ {f pc p}, chk P (.alt a b) .plain f pc = some p → Shape P (.alt a b) .plain f pc p := by
      intro f pc p h
      simp only [chk, last] at h
      split at h
      · split at h
        · rename_i h0 h1 h2 c; obtain ⟨c1, c2, c3, c4⟩ := c
          obtain ⟨q, d1, d2⟩ := Option.bind_eq_some_iff.1 h
          split at d2
          · rename_i e; cases d2; exact .alt h0 (.altTail (iha c1) (noWrite_sound c2) h1 h2 c3 c4 (ihb d1)) e.1 e.2
          · cases d2
        · cases h
      · cases h
    intro m f pc p h
    cases m with
    | plain => exact plain h
    | alts n e =>
      simp only [chk] at h
      split at h
      · split at h
        · rename_i h0 c; obtain ⟨c1, c2, c3, c4, c5⟩ := c
          exact .altTail (iha c1) (noWrite_sound c2) c3 h0 c4 c5 (ihb h)
        · cases h
      · cases h
    | sws t d e => exact last_shape h fun p h => plain (by simp only [chk, last]; exact h)
  | sw cs a b iha ihb =>
    have plain : ∀ {f pc p}, chk P (.sw cs a b) .plain f pc = some p → Shape P (.sw cs a b) .plain f pc p := by
      intro f pc p h
      simp only [chk, last] at h
      split at h
      · split at h
        · rename_i h0 c; obtain ⟨rfl, rfl⟩ := c
          obtain ⟨q, d1, d2⟩ := Option.bind_eq_some_iff.1 h
          split at d2
          · rename_i hj
            obtain ⟨q', d3, d4⟩ := Option.bind_eq_some_iff.1 d2
            split at d4
            · rename_i e; cases d4; cases e; exact .sw h0 (.swTail (iha d1) hj (ihb d3))
            · cases d4
          · cases d2
        · cases h
      · cases h
    intro m f pc p h
    cases m with
    | plain => exact plain h
    | alts n e => exact last_shape h fun p h => plain (by simp only [chk, last]; exact h)
    | sws t d e =>
      simp only [chk] at h
      split at h
      · split at h
        · rename_i c; obtain ⟨rfl, rfl⟩ := c
          obtain ⟨q, d1, d2⟩ := Option.bind_eq_some_iff.1 h
          split at d2
          · exact .swTail (iha d1) ‹_› (ihb d2)
          · cases d2
        · cases h
      · cases h

/-! ## Functions -/

/-- Looks for the frame of a rule function and its body: /repo/miniquery/miniquery.peg.go:524-546, and without the failure part 2960-2976. -/
def chkFunc (r : Rule) (e : PExp) (P : List Ins) : Bool :=
  match P[(0 : Nat)]?, P[(1 : Nat)]? with
  | some (.op (.save n)), some (.op (.mark m)) =>
    let q := 2 + len e false false
    match P[q + 2]? with
    | some (.op (.label l)) =>
      chk P e .plain l 2 = some q && noWrite P n 1 q && noWrite P m 2 q && P[q]? = some (.op (.add (.rule r) m)) &&
      P[q + 1]? = some (.op (.ret true)) && find P l = some (q + 2) && P[q + 3]? = some (.op (.restore n)) && P[q + 4]? = some (.op (.ret false))
    | _ => false
  | some (.op (.mark m)), _ =>
    let q := 1 + len e false false
    (match e with | .star _ => true | _ => false) &&
    chk P e .plain 0 1 = some q && noWrite P m 1 q && P[q]? = some (.op (.add (.rule r) m)) && P[q + 1]? = some (.op (.ret true))
  | _, _ => false

/-- The same for an entry of `_rules`. -/
def chkRule (r : Rule) (e : PExp) : Bool := ((func (.rule r)).map (chkFunc r e)).getD false

theorem execStar_no_fail (p : St → Out) : ∀ n st st', execStar p n st ≠ .fail st' := by
  intro n
  induction n with
  | zero => intro st st' h; cases h
  | succ n ih =>
    intro st st'
    simp only [execStar]
    cases p st <;> simp [ih]

theorem chkRule_sound {buf env r e} (henv : EnvOk buf env) (hact : ActOk buf) (hb : actsBelow e = true) (h : chkRule r e = true) (st : St) :
    match exec buf env e st with
    | .ok st' => Calls buf (.rule r) st (.ok (addTok (.rule r) st.pos st'))
    | .fail st' => Calls buf (.rule r) st (.fail { st' with pos := st.pos, ti := st.ti })
    | .panic => Calls buf (.rule r) st .panic
    | .div => True := by
  unfold chkRule at h
  cases hP : func (.rule r) with
  | none => rw [hP] at h; cases h
  | some P =>
  rw [hP] at h
  simp only [Option.map_some, Option.getD_some, chkFunc] at h
  split at h
  · rename_i n m h0 h1
    split at h
    · rename_i l h2
      simp only [Bool.and_eq_true, decide_eq_true_eq] at h
      obtain ⟨⟨⟨⟨⟨⟨⟨c1, c2⟩, c3⟩, c4⟩, c5⟩, c6⟩, c7⟩, c8⟩ := h
      have hs := chk_shape c1
      let v0 : Vars := fun _ => (0, 0)
      let v1 := v0.put n (st.pos, st.ti)
      let v2 := v1.put m (st.pos, (v1 m).2)
      have d := hs.sound henv hact hb st v2 trivial
      have g0 : Goes buf P 0 v0 st 2 v2 st := fun o r => .save h0 (.mark h1 r)
      have n2 : v2 n = (st.pos, st.ti) := by
        have := noWrite_sound c2 1 (Nat.le_refl _) (by omega) _ h1
        have e : n ≠ m := by rintro rfl; simp [writes] at this
        simp [v2, v1, Vars.put, e]
      cases hp : exec buf env e st with
      | div => trivial
      | panic => rw [hp] at d; exact ⟨P, hP, g0 _ d⟩
      | ok st' =>
        rw [hp] at d
        obtain ⟨v', a, g⟩ := d
        have e : v' m = (st.pos, (v1 m).2) := (a m (noWrite_sound c3)).trans (put_same _ _ _)
        refine ⟨P, hP, g0 _ (g _ (.add c4 ?_))⟩
        rw [e]; exact .retTrue c5
      | fail st' =>
        rw [hp] at d
        obtain ⟨v', a, g⟩ := d
        have e : v' n = (st.pos, st.ti) := (a n ((noWrite_sound c2).mono (by omega) (Nat.le_refl _))).trans n2
        refine ⟨P, hP, g0 _ (g _ c6 _ (.label h2 (.restore c7 ?_)))⟩
        rw [e]; exact .retFalse c8
    · cases h
  · rename_i m h0
    simp only [Bool.and_eq_true, decide_eq_true_eq] at h
    obtain ⟨⟨⟨⟨c0, c1⟩, c2⟩, c3⟩, c4⟩ := h
    have hs := chk_shape c1
    let v0 : Vars := fun _ => (0, 0)
    let v1 := v0.put m (st.pos, (v0 m).2)
    have d := hs.sound henv hact hb st v1 trivial
    have g0 : Goes buf P 0 v0 st 1 v1 st := fun o r => .mark h0 r
    cases hp : exec buf env e st with
    | div => trivial
    | panic => rw [hp] at d; exact ⟨P, hP, g0 _ d⟩
    | ok st' =>
      rw [hp] at d
      obtain ⟨v', a, g⟩ := d
      have e : v' m = (st.pos, (v0 m).2) := (a m (noWrite_sound c2)).trans (put_same _ _ _)
      refine ⟨P, hP, g0 _ (g _ (.add c3 ?_))⟩
      rw [e]; exact .retTrue c4
    | fail st' =>
      split at c0
      · exact absurd hp (execStar_no_fail _ _ _ _)
      · cases c0
  · cases h

/-- The function of an action: /repo/miniquery/miniquery.peg.go:3150-3155. -/
def chkAct (n : Nat) : Bool := func (.act n) = some [.op (.addHere (.act n)), .op (.ret true)]

theorem chkAct_all : ∀ n < 30, chkAct n = true := by decide +kernel

theorem actOk (buf : List Nat) : ActOk buf := by
  intro n hn st
  have h := chkAct_all n hn
  simp only [chkAct, decide_eq_true_eq] at h
  exact ⟨_, h, .addHere rfl (.retTrue rfl)⟩

theorem chkRule_all (r : Rule) : chkRule r (G r) = true ∧ actsBelow (G r) = true := by cases r <;> decide +kernel

theorem execN_runs (buf : List Nat) : ∀ d, EnvOk buf (execN buf G d) := by
  intro d
  induction d with
  | zero => intro r st h; exact absurd rfl h
  | succ d ih =>
    intro r st h
    have := chkRule_sound ih (actOk buf) (chkRule_all r).2 (chkRule_all r).1 st
    simp only [execN] at h ⊢
    cases hp : exec buf (execN buf G d) (G r) st with
    | div => rw [hp] at h; exact absurd rfl h
    | panic => rw [hp] at this; exact this
    | ok st' => rw [hp] at this; exact this
    | fail st' => rw [hp] at this; exact this

/-! ## The outcome is unique -/

theorem Runs.det {buf P pc v st o} (h : Runs buf P pc v st o) : ∀ {o'}, Runs buf P pc v st o' → o = o' := by
  induction h with
  | save h _ ih =>
    intro o' h'
    cases h' with
    | save h2 r => rw [h] at h2; cases h2; exact ih r
    | _ => simp_all
  | mark h _ ih =>
    intro o' h'
    cases h' with
    | mark h2 r => rw [h] at h2; cases h2; exact ih r
    | _ => simp_all
  | restore h _ ih =>
    intro o' h'
    cases h' with
    | restore h2 r => rw [h] at h2; cases h2; exact ih r
    | _ => simp_all
  | callOk h hQ _ _ ihc ih =>
    intro o' h'
    cases h' with
    | callOk h2 q2 c r => rw [h] at h2; cases h2; rw [hQ] at q2; cases q2; cases ihc c; exact ih r
    | callFail h2 q2 c k r => rw [h] at h2; cases h2; rw [hQ] at q2; cases q2; cases ihc c
    | callPanic h2 q2 c => rw [h] at h2; cases h2; rw [hQ] at q2; cases q2; cases ihc c
    | _ => simp_all
  | callFail h hQ _ hk _ ihc ih =>
    intro o' h'
    cases h' with
    | callOk h2 q2 c r => rw [h] at h2; cases h2; rw [hQ] at q2; cases q2; cases ihc c
    | callFail h2 q2 c k r => rw [h] at h2; cases h2; rw [hQ] at q2; cases q2; cases ihc c; rw [hk] at k; cases k; exact ih r
    | callPanic h2 q2 c => rw [h] at h2; cases h2; rw [hQ] at q2; cases q2; cases ihc c
    | _ => simp_all
  | callPanic h hQ _ ihc =>
    intro o' h'
    cases h' with
    | callOk h2 q2 c r => rw [h] at h2; cases h2; rw [hQ] at q2; cases q2; cases ihc c
    | callFail h2 q2 c k r => rw [h] at h2; cases h2; rw [hQ] at q2; cases q2; cases ihc c
    | callPanic h2 q2 c => rfl
    | _ => simp_all
  | chrOk h hx _ ih =>
    intro o' h'
    cases h' with
    | chrOk h2 x2 r => rw [h] at h2; cases h2; rw [hx] at x2; exact ih r
    | chrFail h2 x2 n k r => rw [h] at h2; cases h2; rw [hx] at x2; cases x2; exact absurd rfl n
    | chrPanic h2 x2 => rw [h] at h2; cases h2; rw [hx] at x2; cases x2
    | _ => simp_all
  | chrFail h hx hn hk _ ih =>
    intro o' h'
    cases h' with
    | chrOk h2 x2 r => rw [h] at h2; cases h2; rw [hx] at x2; cases x2; exact absurd rfl hn
    | chrFail h2 x2 n k r => rw [h] at h2; cases h2; rw [hx] at x2; rw [hk] at k; cases k; exact ih r
    | chrPanic h2 x2 => rw [h] at h2; cases h2; rw [hx] at x2; cases x2
    | _ => simp_all
  | chrPanic h hx =>
    intro o' h'
    cases h' with
    | chrOk h2 x2 r => rw [h] at h2; cases h2; rw [hx] at x2; cases x2
    | chrFail h2 x2 n k r => rw [h] at h2; cases h2; rw [hx] at x2; cases x2
    | chrPanic h2 x2 => rfl
    | _ => simp_all
  | rngOk h hx hn _ ih =>
    intro o' h'
    cases h' with
    | rngOk h2 x2 n r => rw [h] at h2; cases h2; rw [hx] at x2; exact ih r
    | rngFail h2 x2 n k r => rw [h] at h2; cases h2; rw [hx] at x2; cases x2; exact absurd n hn
    | rngPanic h2 x2 => rw [h] at h2; cases h2; rw [hx] at x2; cases x2
    | _ => simp_all
  | rngFail h hx hn hk _ ih =>
    intro o' h'
    cases h' with
    | rngOk h2 x2 n r => rw [h] at h2; cases h2; rw [hx] at x2; cases x2; exact absurd hn n
    | rngFail h2 x2 n k r => rw [h] at h2; cases h2; rw [hx] at x2; rw [hk] at k; cases k; exact ih r
    | rngPanic h2 x2 => rw [h] at h2; cases h2; rw [hx] at x2; cases x2
    | _ => simp_all
  | rngPanic h hx =>
    intro o' h'
    cases h' with
    | rngOk h2 x2 n r => rw [h] at h2; cases h2; rw [hx] at x2; cases x2
    | rngFail h2 x2 n k r => rw [h] at h2; cases h2; rw [hx] at x2; cases x2
    | rngPanic h2 x2 => rfl
    | _ => simp_all
  | dotOk h hx hn _ ih =>
    intro o' h'
    cases h' with
    | dotOk h2 x2 n r => exact ih r
    | dotFail h2 x2 k r => rw [h] at h2; cases h2; rw [hx] at x2; cases x2; exact absurd rfl hn
    | dotPanic h2 x2 => rw [h] at h2; cases h2; rw [hx] at x2; cases x2
    | _ => simp_all
  | dotFail h hx hk _ ih =>
    intro o' h'
    cases h' with
    | dotOk h2 x2 n r => rw [h] at h2; cases h2; rw [hx] at x2; cases x2; exact absurd rfl n
    | dotFail h2 x2 k r => rw [h] at h2; cases h2; rw [hx] at x2; rw [hk] at k; cases k; exact ih r
    | dotPanic h2 x2 => rw [h] at h2; cases h2; rw [hx] at x2; cases x2
    | _ => simp_all
  | dotPanic h hx =>
    intro o' h'
    cases h' with
    | dotOk h2 x2 n r => rw [h] at h2; cases h2; rw [hx] at x2; cases x2
    | dotFail h2 x2 k r => rw [h] at h2; cases h2; rw [hx] at x2; cases x2
    | dotPanic h2 x2 => rfl
    | _ => simp_all
  | inc h _ ih =>
    intro o' h'
    cases h' with
    | inc h2 r => exact ih r
    | _ => simp_all
  | goto h hk _ ih =>
    intro o' h'
    cases h' with
    | goto h2 k r => rw [h] at h2; cases h2; rw [hk] at k; cases k; exact ih r
    | _ => simp_all
  | label h _ ih =>
    intro o' h'
    cases h' with
    | label h2 r => exact ih r
    | _ => simp_all
  | add h _ ih =>
    intro o' h'
    cases h' with
    | add h2 r => rw [h] at h2; cases h2; exact ih r
    | _ => simp_all
  | addHere h _ ih =>
    intro o' h'
    cases h' with
    | addHere h2 r => rw [h] at h2; cases h2; exact ih r
    | _ => simp_all
  | retTrue h =>
    intro o' h'
    cases h' with
    | retTrue h2 => rfl
    | _ => simp_all
  | retFalse h =>
    intro o' h'
    cases h' with
    | retFalse h2 => rfl
    | _ => simp_all
  | table h hx _ ih =>
    intro o' h'
    cases h' with
    | table h2 x2 r => rw [h] at h2; cases h2; rw [hx] at x2; cases x2; exact ih r
    | tablePanic h2 x2 => rw [h] at h2; cases h2; rw [hx] at x2; cases x2
    | _ => simp_all
  | tablePanic h hx =>
    intro o' h'
    cases h' with
    | table h2 x2 r => rw [h] at h2; cases h2; rw [hx] at x2; cases x2
    | tablePanic h2 x2 => rfl
    | _ => simp_all
  | jump h _ ih =>
    intro o' h'
    cases h' with
    | jump h2 r => rw [h] at h2; cases h2; exact ih r
    | _ => simp_all

theorem Calls.det {buf r st o o'} (h : Calls buf r st o) (h' : Calls buf r st o') : o = o' := by
  obtain ⟨P, hP, h⟩ := h
  obtain ⟨Q, hQ, h'⟩ := h'
  rw [hP] at hQ; cases hQ
  exact h.det h'

end Verif.Go
