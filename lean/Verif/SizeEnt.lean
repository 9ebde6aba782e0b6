import Verif.SizeGorm
import Verif.EntSQL

/-! # Lemmas for C66: the translators to ent -/

namespace Verif

theorem argsSize_append (a b : List SArg) : argsSize (a ++ b) = argsSize a + argsSize b := by
  simp only [argsSize, List.map_append, vsizeL_append]

theorem digitCount_pos (n : Nat) : 0 < digitCount n := by
  unfold digitCount
  cases h : (Nat.toDigits 10 n).length with
  | zero =>
    have := (Nat.length_toDigits_le_iff (b := 10) (k := 1) (n := n) (by omega) (by omega)).mp (by omega)
    rw [Nat.toDigits_of_lt_base (by omega)] at h
    simp at h
  | succ k => omega

theorem digitCount_mono {m n : Nat} (h : m ≤ n) : digitCount m ≤ digitCount n := by
  have h1 := (Nat.length_toDigits_le_iff (b := 10) (n := n) (k := digitCount n) (by omega) (digitCount_pos n)).mp (Nat.le_refl _)
  exact (Nat.length_toDigits_le_iff (b := 10) (n := m) (k := digitCount n) (by omega) (digitCount_pos n)).mpr (by omega)

/-- Between builders: at most `c` characters, and values and placeholders of size `v`, are new. -/
def BB (c v : Nat) (b b' : Bld) : Prop :=
  b'.sql.length ≤ b.sql.length + c ∧ argsSize b'.args ≤ argsSize b.args + v ∧ b'.total ≤ b.total + v

theorem BB.trans {c v c' v' b b1 b2} (h : BB c v b b1) (h' : BB c' v' b1 b2) : BB (c + c') (v + v') b b2 := by
  simp only [BB] at *; omega

theorem BB.mono {c v c' v' b b'} (h : BB c v b b') (hc : c ≤ c') (hv : v ≤ v') : BB c' v' b b' := by
  simp only [BB] at *; omega

theorem BB.write {v b} (s : Str) : BB s.length v b (b.write s) := by
  simp only [BB, Bld.write, List.length_append]; omega

theorem vsize_pos (v : GoVal) : 1 ≤ vsize v := by cases v <;> simp [vsize]

theorem holder_length (b : Bld) (T : Nat) (h : b.total + 1 ≤ T) : b.holder.length ≤ 1 + digitCount T := by
  unfold Bld.holder
  split
  · have := digitCount_mono h
    simp only [digitCount] at this
    simp [digitCount]
    omega
  · simp

theorem formatParam_length (t p d) : (formatParam t p d).length ≤ p.length + 18 := by
  unfold formatParam
  split
  · cases t <;> simp
  · omega

theorem BB.arg (a : SArg) (b : Bld) (T : Nat) (h : b.total + vsize a.bound ≤ T) : BB (digitCount T + 19) (vsize a.bound) b (b.arg a) := by
  have hp := vsize_pos a.bound
  have hh := holder_length b T (by omega)
  unfold Bld.arg
  split
  · exact (BB.write _).mono (by simp) (Nat.le_refl _)
  · simp only [BB, List.length_append, argsSize_append]
    simp only [argsSize, List.map, vsizeL, SArg.bound] at *
    omega
  · rename_i v
    have := formatParam_length v.type b.holder b.dialect
    simp only [BB, List.length_append, argsSize_append]
    simp only [argsSize, List.map, vsizeL, SArg.bound] at *
    omega

theorem BB.argList : ∀ (l : List GoVal) (b : Bld) (T : Nat), b.total + vsizeL l ≤ T → BB ((digitCount T + 21) * vsizeL l) (vsizeL l) b (Bld.argList l b)
  | [], b, T, _ => by simp only [Bld.argList, BB]; omega
  | [v], b, T, h => by
    simp only [vsizeL, Nat.add_zero] at *
    have h1 := BB.arg (.plain v) b T h
    have := vsize_pos v
    refine h1.mono ?_ (Nat.le_refl _)
    have : (digitCount T + 21) * 1 ≤ (digitCount T + 21) * vsize v := Nat.mul_le_mul_left _ this
    omega
  | v :: w :: l, b, T, h => by
    rw [vsizeL] at *
    have h1 := BB.arg (.plain v) b T (by simp only [SArg.bound]; omega)
    have h2 : BB (digitCount T + 19 + 2) (vsize v + 0) b ((b.arg (.plain v)).write c!", ") := h1.trans (BB.write (v := 0) c!", ")
    have h3 := BB.argList (w :: l) ((b.arg (.plain v)).write c!", ") T (by
      have := h2.2.2
      omega)
    refine (h2.trans h3).mono ?_ ?_
    · have : (digitCount T + 21) * 1 ≤ (digitCount T + 21) * vsize v := Nat.mul_le_mul_left _ (vsize_pos v)
      rw [Nat.mul_add]
      omega
    · omega

/-- The same for the result of a visit that writes to the embedded builder. -/
def SBd (c v : Nat) (mb : MB) : SRes → Prop
  | .ok mb' | .err _ mb' => mb'.ext = none ∧ BB c v mb.own mb'.own
  | .panic => True

theorem SBd.bind {c v c2 v2 mb r f} (h : SBd c v mb r) (hf : ∀ mb1, mb1.ext = none → mb1.own.total ≤ mb.own.total + v → SBd c2 v2 mb1 (f mb1)) :
    SBd (c + c2) (v + v2) mb (r.andThen f) := by
  cases r with
  | ok mb1 =>
    have h2 := hf mb1 h.1 h.2.2.2
    show SBd _ _ _ (f mb1)
    cases h3 : f mb1 with
    | panic => trivial
    | ok mb' => rw [h3] at h2; exact ⟨h2.1, h.2.trans h2.2⟩
    | err e mb' => rw [h3] at h2; exact ⟨h2.1, h.2.trans h2.2⟩
  | err e mb1 => exact ⟨h.1, h.2.mono (by omega) (by omega)⟩
  | panic => trivial

theorem MB.write_own {mb : MB} (h : mb.ext = none) (s : Str) : mb.write s = { mb with own := mb.own.write s } := by
  unfold MB.write MB.put
  rw [h]

theorem MB.put_own {mb : MB} (h : mb.ext = none) (f : Bld → Bld) : mb.put f = { mb with own := f mb.own } := by
  unfold MB.put
  rw [h]

theorem SBd.pre {c v mb s r} (hx : mb.ext = none) (h : SBd c v (mb.write s) r) : SBd (s.length + c) v mb r := by
  rw [MB.write_own hx] at h
  have hw := BB.write (v := 0) (b := mb.own) s
  cases r with
  | panic => trivial
  | ok _ => exact ⟨h.1, (hw.trans h.2).mono (Nat.le_refl _) (by omega)⟩
  | err _ _ => exact ⟨h.1, (hw.trans h.2).mono (Nat.le_refl _) (by omega)⟩

theorem SBd.post {c v mb s r} (h : SBd c v mb r) : SBd (c + s.length) v mb (r.also (MB.write s)) := by
  cases r with
  | panic => trivial
  | ok mb' =>
    show SBd _ _ _ (.ok (mb'.write s))
    rw [MB.write_own h.1]
    exact ⟨h.1, (h.2.trans (BB.write (v := 0) _)).mono (Nat.le_refl _) (by omega)⟩
  | err e mb' =>
    show SBd _ _ _ (.err e (mb'.write s))
    rw [MB.write_own h.1]
    exact ⟨h.1, (h.2.trans (BB.write (v := 0) _)).mono (Nat.le_refl _) (by omega)⟩

theorem SBd.mono {c v c' v' mb r} (h : SBd c v mb r) (hc : c ≤ c') (hv : v ≤ v') : SBd c' v' mb r := by
  cases r with
  | panic => trivial
  | ok _ => exact ⟨h.1, h.2.mono hc hv⟩
  | err _ _ => exact ⟨h.1, h.2.mono hc hv⟩

theorem SBd.err0 {c v mb e} (h : mb.ext = none) : SBd c v mb (.err e mb) := ⟨h, by simp only [BB]; omega⟩

theorem lookup_key_mem {β} {l : List (Str × β)} {k w} (hl : l.lookup k = some w) : (k, w) ∈ l := by
  induction l with
  | nil => cases hl
  | cons a l ih =>
    rw [List.lookup_cons] at hl
    split at hl
    · rename_i he
      cases hl
      rw [beq_iff_eq.mp he]
      simp
    · exact List.mem_cons_of_mem _ (ih hl)

theorem entsqlOps_length {o t} (h : entsqlOps.lookup o = some t) : t.length ≤ 13 := by
  have : ∀ x ∈ entsqlOps, x.2.length ≤ 13 := by decide
  exact this _ (lookup_key_mem h)

theorem binText_length {o t} (h : binText o = some t) : t.length ≤ 13 := by
  unfold binText at h
  split at h
  · rename_i u hu
    cases h
    exact entsqlOps_length hu
  · repeat' split at h
    all_goals cases h
    all_goals decide

theorem sBin_size {c v c2 v2 mb left o right} (h : SBd c v mb left)
    (hr : ∀ mb1, mb1.ext = none → mb1.own.total ≤ mb.own.total + v → SBd c2 v2 mb1 (right mb1)) : SBd (c + 13 + c2) (v + v2) mb (sBin left o right) := by
  unfold sBin
  split
  · trivial
  · split
    · trivial
    · split
      · split
        · exact h.mono (by omega) (by omega)
        · exact h.mono (by omega) (by omega)
        · trivial
      · rename_i t ht
        have := binText_length ht
        exact ((h.post (s := t)).bind hr).mono (by omega) (Nat.le_refl _)

theorem sVal_size {E : SEnv} {K T : Nat} (hK : digitCount T + 30 ≤ K) {n} (h : ValNode n) (hw : 1 ≤ weight n) {mb : MB} (hx : mb.ext = none) (ht : mb.own.total + weight n ≤ T) :
    SBd (K * weight n) (weight n) mb (sVal E n mb) := by
  have hKw : K * 1 ≤ K * weight n := Nat.mul_le_mul_left _ hw
  unfold sVal
  split
  · trivial
  · rename_i l hv
    have e := val_value h hv
    simp only [vsize] at e
    refine SBd.mono (c := 1 + ((digitCount T + 21) * vsizeL l + 1)) (v := vsizeL l) ?_ ?_ (by omega)
    · obtain ⟨own, ext⟩ := mb
      cases hx
      refine ⟨rfl, ?_⟩
      show BB _ _ own (Bld.write c!")" (Bld.argList l (Bld.write c!"(" own)))
      refine ((BB.write (v := 0) c!"(").trans ((BB.argList l _ T ?_).trans (BB.write (v := 0) c!")"))).mono (Nat.le_refl _) (by omega)
      simp only [Bld.write]
      simp only at ht
      omega
    · rw [← e, Nat.mul_add]
      have : (digitCount T + 21) * vsizeL l ≤ K * vsizeL l := Nat.mul_le_mul_right _ (by omega)
      omega
  · rename_i v _ hv
    have e := val_value h hv
    rw [MB.put_own hx]
    refine ⟨hx, ?_⟩
    have key : ∀ a : SArg, a.bound = v → BB (K * weight n) (weight n) mb.own (mb.own.arg a) := by
      intro a ha
      have := BB.arg a mb.own T (by rw [ha, e]; exact ht)
      rw [ha, e] at this
      exact this.mono (by omega) (Nat.le_refl _)
    split <;> exact key _ rfl

theorem sEdge_size {E : SEnv} {M : Nat} (hE : EntFit E M) {node ps inner c v} {mb : MB} (hx : mb.ext = none)
    (hi : ∀ p x t mb1, ps = [p, x] → mb1.ext = none → mb1.own = { dialect := mb.own.dialect, total := mb.own.total } → SBd c v mb1 (inner t mb1)) :
    SBd (M + c) v mb (sEdge E node ps inner mb) := by
  unfold sEdge
  split
  · exact .err0 hx
  · rename_i p rest
    split
    · exact .err0 hx
    · split
      · trivial
      · rename_i t
        split
        · exact .err0 hx
        · rename_i e he
          obtain ⟨b1, b2⟩ := hE.edge _ _ _ he mb.own.dialect
          split
          · refine ⟨hx, ?_⟩
            simp only [BB, MB.join, List.length_append, List.append_nil, List.length_nil]
            omega
          · rename_i x
            split
            · have := hi p x e.to { own := { dialect := mb.own.dialect, total := mb.own.total } } rfl rfl rfl
              unfold joinEdge
              split
              · trivial
              · rename_i r hr
                rw [hr] at this
                obtain ⟨_, h1, h2, h3⟩ := this
                refine ⟨hx, ?_⟩
                have hlen : ∀ l : List SArg, l.length ≤ argsSize l := by
                  intro l
                  induction l with
                  | nil => simp
                  | cons a l ih =>
                    have := vsize_pos a.bound
                    simp only [argsSize, List.map, vsizeL, List.length_cons] at *
                    omega
                have := hlen r.own.args
                simp only [BB, MB.join, List.length_append, argsSize_append]
                simp only [List.length_nil] at h1
                have h0 : argsSize [] = 0 := rfl
                simp only at h2
                omega
              · refine ⟨hx, ?_⟩
                simp only [BB, MB.join, List.length_append, List.append_nil, List.length_nil]
                omega
            · exact .err0 hx
          · exact .err0 hx

theorem wide_val {n} (h : ValNode n) : wide n = weight n := by
  cases n <;> first | rfl | exact h.elim

mutual
theorem svisit_size {E : SEnv} {M K T : Nat} (hE : EntFit E M) (hK : M + digitCount T + 30 ≤ K) : ∀ (n : Node), Fine n → ∀ (node : Option Nat) (mb : MB),
    mb.ext = none → mb.own.total + wide n ≤ T → SBd (K * wide n) (wide n) mb (svisit E node n mb)
  | .nil, _, _, _, _, _ => by simp only [svisit]; trivial
  | .op o, _, _, mb, hx, _ => by simp only [svisit]; exact .err0 hx
  | .int i, h, _, st, hx, ht => by
    simp only [svisit]; cases h with | val h => exact sVal_size (by omega) h (by simp [weight]) hx ht
  | .bool b, h, _, st, hx, ht => by
    simp only [svisit]; cases h with | val h => exact sVal_size (by omega) h (by simp [weight]) hx ht
  | .str s, h, _, st, hx, ht => by
    simp only [svisit]; cases h with | val h => exact sVal_size (by omega) h (by simp [weight]) hx ht
  | .null, h, _, st, hx, ht => by
    simp only [svisit]; cases h with | val h => exact sVal_size (by omega) h (by simp [weight]) hx ht
  | .arr l, h, _, st, hx, ht => by
    simp only [svisit]; cases h with | val h => rw [wide_val h] at *; exact sVal_size (by omega) h (by simp [weight]) hx ht
  | .ident x, _, _, mb, hx, _ => by
    simp only [svisit]
    rw [MB.put_own hx]
    refine ⟨hx, (BB.write _).mono (Nat.le_trans (hE.ident _ _) ?_) (Nat.le_refl _)⟩
    exact Nat.mul_le_mul_right _ (by omega)
  | .ref l, _, _, mb, hx, _ => by simp only [svisit]; exact .err0 hx
  | .paren e, h, node, mb, hx, ht => by
    simp only [svisit]
    cases h with
    | val h => exact h.elim
    | paren h =>
      simp only [wide] at ht
      refine (((svisit_size hE hK e h node _ ?_ ?_).pre hx).post).mono ?_ ?_
      · rw [MB.write_own hx]; exact hx
      · rw [MB.write_own hx]; simp only [Bld.write]; omega
      · simp only [wide, Nat.mul_add]; simp; omega
      · simp only [wide]; omega
  | .not e, h, node, mb, hx, ht => by
    simp only [svisit]
    cases h with
    | val h => exact h.elim
    | not h =>
      simp only [wide] at ht
      refine ((svisit_size hE hK e h node _ ?_ ?_).pre hx).mono ?_ ?_
      · rw [MB.write_own hx]; exact hx
      · rw [MB.write_own hx]; simp only [Bld.write]; omega
      · simp only [wide, Nat.mul_add]; simp; omega
      · simp only [wide]; omega
  | .func f ps, h, node, mb, hx, ht => by
    simp only [svisit]
    cases h with
    | val h => exact h.elim
    | func _ h =>
      simp only [wide] at ht
      split
      · refine (((svisit1_size hE hK ps h node _ ?_ ?_).pre hx).post).mono ?_ ?_
        · rw [MB.write_own hx]; exact hx
        · rw [MB.write_own hx]; simp only [Bld.write]; omega
        · simp only [wide, Nat.mul_add]; simp; omega
        · simp only [wide]; omega
      · split
        · refine (sEdge_size hE (c := K * wideL ps) (v := wideL ps) hx ?_).mono ?_ ?_
          · intro p x t mb1 hps hx1 hown
            exact svisit2_size hE hK ps h (some t) mb1 hx1 (by rw [hown]; simp only; omega)
          · simp only [wide, Nat.mul_add]; simp; omega
          · simp only [wide]; omega
        · exact .err0 hx
  | .between l o a b, h, node, mb, hx, ht => by
    simp only [svisit]
    cases h with
    | val h => exact h.elim
    | @between l o a b hl ho ha hb =>
      simp only [wide] at ht
      split
      · trivial
      · rename_i op _
        have hlo : (if op = c!"not between" then c!" < " else c!" >= ").length ≤ 4 := by split <;> decide
        have hro : (if op = c!"not between" then c!" > " else c!" <= ").length ≤ 4 := by split <;> decide
        refine ((((svisit_size hE hK l hl node mb hx (by omega)).bind fun mb1 h1 t1 =>
          (svisit_size hE hK a (.val ha) node _ (by rw [MB.write_own h1]; exact h1) (by rw [MB.write_own h1]; simp only [Bld.write]; omega)).pre h1).bind
          fun mb1 h1 t1 => (svisit_size hE hK l hl node _ (by rw [MB.write_own h1]; exact h1) (by rw [MB.write_own h1]; simp only [Bld.write]; omega)).pre h1).bind
          fun mb1 h1 t1 => (svisit_size hE hK b (.val hb) node _ (by rw [MB.write_own h1]; exact h1) (by rw [MB.write_own h1]; simp only [Bld.write]; omega)).pre h1).mono ?_ ?_
        · have : K * (2 * wide l) = 2 * (K * wide l) := by rw [Nat.mul_left_comm]
          simp only [wide, Nat.mul_add, this]
          have : c!" AND ".length = 5 := rfl
          omega
        · simp only [wide]; omega
  | .pred l o, h, node, mb, hx, ht => by
    simp only [svisit]
    cases h with
    | val h => exact h.elim
    | @pred l o hl ho =>
      simp only [wide] at ht
      split
      · trivial
      · split
        · exact .err0 hx
        · rename_i t hl'
          have := entsqlOps_length hl'
          refine ((svisit_size hE hK l hl node mb hx (by omega)).post).mono ?_ ?_
          · simp only [wide, Nat.mul_add]; omega
          · simp only [wide]; omega
  | .cmp l o r, h, node, mb, hx, ht => by
    simp only [svisit]
    cases h with
    | val h => exact h.elim
    | cmp hl ho hr =>
      simp only [wide] at ht
      refine (sBin_size (svisit_size hE hK l hl node mb hx (by omega)) fun mb1 h1 t1 => svisit_size hE hK r hr node mb1 h1 (by omega)).mono ?_ ?_
      · simp only [wide, Nat.mul_add]; omega
      · simp only [wide]; omega
  | .logic l o r, h, node, mb, hx, ht => by
    simp only [svisit]
    cases h with
    | val h => exact h.elim
    | logic hl ho hr =>
      simp only [wide] at ht
      refine (sBin_size (svisit_size hE hK l hl node mb hx (by omega)) fun mb1 h1 t1 => svisit_size hE hK r hr node mb1 h1 (by omega)).mono ?_ ?_
      · simp only [wide, Nat.mul_add]; omega
      · simp only [wide]; omega
theorem svisit1_size {E : SEnv} {M K T : Nat} (hE : EntFit E M) (hK : M + digitCount T + 30 ≤ K) : ∀ (l : List Node), (∀ n ∈ l, Fine n) → ∀ (node : Option Nat) (mb : MB),
    mb.ext = none → mb.own.total + wideL l ≤ T → SBd (K * wideL l) (wideL l) mb (svisit1 E node l mb)
  | [], _, _, _, _, _ => by simp only [svisit1]; trivial
  | n :: l, h, node, mb, hx, ht => by
    simp only [svisit1]
    simp only [wideL] at ht
    refine (svisit_size hE hK n (h n (by simp)) node mb hx (by omega)).mono ?_ ?_
    · simp only [wideL, Nat.mul_add]; omega
    · simp only [wideL]; omega
theorem svisit2_size {E : SEnv} {M K T : Nat} (hE : EntFit E M) (hK : M + digitCount T + 30 ≤ K) : ∀ (l : List Node), (∀ n ∈ l, Fine n) → ∀ (node : Option Nat) (mb : MB),
    mb.ext = none → mb.own.total + wideL l ≤ T → SBd (K * wideL l) (wideL l) mb (svisit2 E node l mb)
  | [], _, _, _, _, _ => by simp only [svisit2]; trivial
  | n :: l, h, node, mb, hx, ht => by
    simp only [svisit2]
    simp only [wideL] at ht
    refine (svisit1_size hE hK l (fun m hm => h m (by simp [hm])) node mb hx (by omega)).mono ?_ ?_
    · simp only [wideL, Nat.mul_add]; omega
    · simp only [wideL]; omega
end

/-! ## entql -/

theorem eval_push {n st st'} (h : ValNode n) (he : eVal n st = .ok st') : ∃ p, st' = p :: st ∧ esize p ≤ wide n := by
  unfold eVal at he
  split at he
  · cases he
  · rename_i v hv
    cases he
    refine ⟨_, rfl, ?_⟩
    rw [wide_val h, ← val_value h hv]
    exact Nat.le_refl _

theorem evisit_val {n st} (h : ValNode n) : evisit n st = eVal n st := by
  cases n <;> first | rfl | exact h.elim

theorem eandThen_ok {r : ERes} {f st'} (h : r.andThen f = .ok st') : ∃ st, r = .ok st ∧ f st = .ok st' := by
  cases r with
  | ok st => exact ⟨st, rfl, h⟩
  | err _ _ => cases h
  | panic => cases h

/-- The stack has grown by at most one element; if so, only on top, by an expression that is not larger than the tree. -/
def EB (w : Nat) (st st' : List EExpr) : Prop := st'.length ≤ st.length + 1 ∧ (st'.length = st.length + 1 → ∃ p, st' = p :: st ∧ esize p ≤ w)

theorem EB.val {n st st'} (h : ValNode n) (he : eVal n st = .ok st') : EB (wide n) st st' := by
  obtain ⟨p, rfl, hp⟩ := eval_push h he
  exact ⟨by simp, fun _ => ⟨p, rfl, hp⟩⟩

theorem eBin_size {w w2 o st st1 st2 st'} (h1 : EB w st st1) (h2 : EB w2 st1 st2) (h : eBin o st2 = .ok st') : EB (1 + (w + w2)) st st' := by
  unfold eBin at h
  split at h
  · rename_i right left s
    split at h
    · cases h
    · split at h
      · cases h
      · cases h
        have a := h1.1
        have b := h2.1
        simp only [List.length_cons] at b
        refine ⟨by simp only [List.length_cons]; omega, fun he => ?_⟩
        simp only [List.length_cons] at he
        obtain ⟨p, rfl, hp⟩ := h1.2 (by omega)
        simp only [List.length_cons] at b
        obtain ⟨p2, hc, hp2⟩ := h2.2 (by simp only [List.length_cons]; omega)
        cases hc
        exact ⟨_, rfl, by simp only [esize]; omega⟩
  · cases h

theorem evisit_size : ∀ {n : Node}, Fine n → ∀ {st st'}, evisit n st = .ok st' → EB (wide n) st st' := by
  intro n hn
  induction hn with
  | val h =>
    intro st st' he
    rw [evisit_val h] at he
    exact .val h he
  | op _ => intro st st' he; cases he
  | ident _ =>
    intro st st' he
    cases he
    exact ⟨by simp, fun _ => ⟨_, rfl, Nat.le_refl _⟩⟩
  | ref _ => intro st st' he; cases he
  | pred _ _ _ => intro st st' he; cases he
  | cmp hl ho hr il io ir =>
    intro st st' he
    simp only [evisit] at he
    obtain ⟨st2, h2, h3⟩ := eandThen_ok he
    obtain ⟨st1, h1, h2⟩ := eandThen_ok h2
    have := eBin_size (il h1) (ir h2) h3
    exact ⟨this.1, fun e => by obtain ⟨p, a, b⟩ := this.2 e; exact ⟨p, a, by simp only [wide]; omega⟩⟩
  | logic hl ho hr il io ir =>
    intro st st' he
    simp only [evisit] at he
    obtain ⟨st2, h2, h3⟩ := eandThen_ok he
    obtain ⟨st1, h1, h2⟩ := eandThen_ok h2
    have := eBin_size (il h1) (ir h2) h3
    exact ⟨this.1, fun e => by obtain ⟨p, a, b⟩ := this.2 e; exact ⟨p, a, by simp only [wide]; omega⟩⟩
  | paren _ ih =>
    intro st st' he
    have := ih he
    exact ⟨this.1, fun e => by obtain ⟨p, a, b⟩ := this.2 e; exact ⟨p, a, by simp only [wide]; omega⟩⟩
  | @not e' _ ih =>
    intro st st' he
    simp only [evisit] at he
    unfold eNot at he
    split at he
    · cases he
    · split at he <;> cases he
    · have := ih he
      exact ⟨this.1, fun e => by obtain ⟨p, a, b⟩ := this.2 e; exact ⟨p, a, by simp only [wide]; omega⟩⟩
  | @between l o a b hl ho ha hb il =>
    intro st st' he
    simp only [evisit] at he
    obtain ⟨st3, h3, h4⟩ := eandThen_ok he
    obtain ⟨st2, h2, h3⟩ := eandThen_ok h3
    obtain ⟨st1, h1, h2⟩ := eandThen_ok h2
    rw [evisit_val ha] at h2
    rw [evisit_val hb] at h3
    obtain ⟨pa, rfl, sa⟩ := eval_push ha h2
    obtain ⟨pb, rfl, sb⟩ := eval_push hb h3
    have key := il h1
    cases st1 with
    | nil => cases h4
    | cons left rest =>
      have hsz : ∃ p, st' = p :: rest ∧ esize p ≤ 3 + (2 * esize left + (esize pa + esize pb)) := by
        simp only [eBetween, operation] at h4
        split at h4 <;> cases h4 <;> exact ⟨_, rfl, by simp only [esize]; omega⟩
      obtain ⟨p, rfl, hp⟩ := hsz
      refine ⟨key.1, fun e => ?_⟩
      obtain ⟨p', hc, hp'⟩ := key.2 e
      cases hc
      refine ⟨p, rfl, ?_⟩
      have hop : 1 ≤ o.length := by
        obtain ⟨u, hu⟩ := ho
        cases o with
        | nil => exact absurd hu (by rintro ⟨⟩)
        | cons _ _ => simp
      simp only [wide, weight]
      omega
  | func _ _ _ =>
    intro st st' he
    cases he
    exact ⟨by omega, fun e => by omega⟩

end Verif
