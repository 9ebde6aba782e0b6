import Verif.BuildThms
import Verif.MsgThms
import Verif.Spec.Key

/-! # The printed text determines the tree

Strings are recoded such that they need no escaping.  The recoding can be done on the text as well as on the tree; the recoded text is a faithful
spelling of the recoded tree. -/

namespace Verif

/-- One character of an escaped string. -/
def kcode (c : Char) : Str := if c = '"' then c!"~a" else if c = '\\' then c!"~b" else if c = '~' then c!"~c" else [c]

/-- A string recoded. -/
def kstr (P : Char → Bool) (s : Str) : Str := (s.flatMap (quoteRune P)).flatMap kcode

mutual
/-- The strings of a tree recoded. -/
def knode (P : Char → Bool) : Node → Node
  | .str s => .str (kstr P s)
  | .arr l => .arr (knodes P l)
  | .pred l o => .pred (knode P l) (knode P o)
  | .cmp l o r => .cmp (knode P l) (knode P o) (knode P r)
  | .logic l o r => .logic (knode P l) (knode P o) (knode P r)
  | .paren e => .paren (knode P e)
  | .not e => .not (knode P e)
  | .between l o a b => .between (knode P l) (knode P o) (knode P a) (knode P b)
  | .func f l => .func f (knodes P l)
  | .nil => .nil
  | .int i => .int i
  | .bool b => .bool b
  | .null => .null
  | .op o => .op o
  | .ident x => .ident x
  | .ref l => .ref l
/-- The same for a list of trees. -/
def knodes (P : Char → Bool) : List Node → List Node
  | [] => []
  | n :: l => knode P n :: knodes P l
end

/-! ## Recoding is injective -/

theorem kcode_inj : ∀ {s t : Str}, s.flatMap kcode = t.flatMap kcode → s = t := by
  have ne : ∀ c, kcode c ≠ [] := by intro c; unfold kcode; split <;> (try split) <;> (try split) <;> simp
  have one : ∀ (c d : Char) (u v : Str), kcode c ++ u = kcode d ++ v → c = d ∧ u = v := by
    intro c d u v h
    unfold kcode at h
    by_cases c1 : c = '"'
    · by_cases d1 : d = '"'
      · simp [c1, d1] at h; exact ⟨c1.trans d1.symm, h⟩
      · by_cases d2 : d = '\\'
        · simp [c1, d2] at h
        · by_cases d3 : d = '~'
          · simp [c1, d3] at h
          · simp [c1, d1, d2, d3] at h; exact absurd h.1.symm d3
    · by_cases c2 : c = '\\'
      · by_cases d1 : d = '"'
        · simp [c2, d1] at h
        · by_cases d2 : d = '\\'
          · simp [c2, d2] at h; exact ⟨c2.trans d2.symm, h⟩
          · by_cases d3 : d = '~'
            · simp [c2, d3] at h
            · simp [c2, d1, d2, d3] at h; exact absurd h.1.symm d3
      · by_cases c3 : c = '~'
        · by_cases d1 : d = '"'
          · simp [c3, d1] at h
          · by_cases d2 : d = '\\'
            · simp [c3, d2] at h
            · by_cases d3 : d = '~'
              · simp [c3, d3] at h; exact ⟨c3.trans d3.symm, h⟩
              · simp [c3, d1, d2, d3] at h; exact absurd h.1.symm d3
        · by_cases d1 : d = '"'
          · simp [c1, c2, c3, d1] at h
          · by_cases d2 : d = '\\'
            · simp [c1, c2, c3, d2] at h
            · by_cases d3 : d = '~'
              · simp [c1, c2, c3, d3] at h
              · simpa [c1, c2, c3, d1, d2, d3] using h
  intro s
  induction s with
  | nil =>
    intro t h
    cases t with
    | nil => rfl
    | cons d t => rw [List.flatMap_cons] at h; exact absurd (List.append_eq_nil_iff.mp h.symm).1 (ne d)
  | cons c s ih =>
    intro t h
    cases t with
    | nil => rw [List.flatMap_cons] at h; exact absurd (List.append_eq_nil_iff.mp h).1 (ne c)
    | cons d t =>
      rw [List.flatMap_cons, List.flatMap_cons] at h
      obtain ⟨e, h⟩ := one c d _ _ h
      rw [e, ih h]

theorem kstr_inj {P : Char → Bool} {s t : Str} (h : kstr P s = kstr P t) : s = t := by
  have h := kcode_inj h
  exact (quote_inj P s t [] [] (by simp [quote, h])).1

mutual
theorem knode_inj (P : Char → Bool) : ∀ a b : Node, knode P a = knode P b → a = b
  | .str s, b => by
    cases b <;> intro h <;> simp only [knode, Node.str.injEq, reduceCtorEq] at h
    rw [kstr_inj h]
  | .arr l, b => by
    cases b <;> intro h <;> simp only [knode, Node.arr.injEq, reduceCtorEq] at h
    rw [knodes_inj P _ _ h]
  | .pred l o, b => by
    cases b <;> intro h <;> simp only [knode, Node.pred.injEq, reduceCtorEq] at h
    rw [knode_inj P _ _ h.1, knode_inj P _ _ h.2]
  | .cmp l o r, b => by
    cases b <;> intro h <;> simp only [knode, Node.cmp.injEq, reduceCtorEq] at h
    rw [knode_inj P _ _ h.1, knode_inj P _ _ h.2.1, knode_inj P _ _ h.2.2]
  | .logic l o r, b => by
    cases b <;> intro h <;> simp only [knode, Node.logic.injEq, reduceCtorEq] at h
    rw [knode_inj P _ _ h.1, knode_inj P _ _ h.2.1, knode_inj P _ _ h.2.2]
  | .paren e, b => by
    cases b <;> intro h <;> simp only [knode, Node.paren.injEq, reduceCtorEq] at h
    rw [knode_inj P _ _ h]
  | .not e, b => by
    cases b <;> intro h <;> simp only [knode, Node.not.injEq, reduceCtorEq] at h
    rw [knode_inj P _ _ h]
  | .between l o x y, b => by
    cases b <;> intro h <;> simp only [knode, Node.between.injEq, reduceCtorEq] at h
    rw [knode_inj P _ _ h.1, knode_inj P _ _ h.2.1, knode_inj P _ _ h.2.2.1, knode_inj P _ _ h.2.2.2]
  | .func f l, b => by
    cases b <;> intro h <;> simp only [knode, Node.func.injEq, reduceCtorEq] at h
    rw [h.1, knodes_inj P _ _ h.2]
  | .nil, b => by cases b <;> intro h <;> simp only [knode, reduceCtorEq] at h ⊢
  | .int i, b => by cases b <;> intro h <;> simp only [knode, reduceCtorEq] at h ⊢; exact h
  | .bool i, b => by cases b <;> intro h <;> simp only [knode, reduceCtorEq] at h ⊢; exact h
  | .null, b => by cases b <;> intro h <;> simp only [knode, reduceCtorEq] at h ⊢
  | .op o, b => by cases b <;> intro h <;> simp only [knode, reduceCtorEq] at h ⊢; exact h
  | .ident x, b => by cases b <;> intro h <;> simp only [knode, reduceCtorEq] at h ⊢; exact h
  | .ref l, b => by cases b <;> intro h <;> simp only [knode, reduceCtorEq] at h ⊢; exact h
theorem knodes_inj (P : Char → Bool) : ∀ a b : List Node, knodes P a = knodes P b → a = b
  | [], b => by cases b <;> intro h <;> simp [knodes] at h ⊢
  | n :: a, b => by
    cases b with
    | nil => intro h; simp [knodes] at h
    | cons m b =>
      intro h
      simp only [knodes, List.cons.injEq] at h
      rw [knode_inj P _ _ h.1, knodes_inj P _ _ h.2]
end

/-! ## Recoding the text -/

/-- Where a scanner of printed text stands. -/
inductive KSt where
  | code
  | str
  | esc

/-- One step of the scanner. -/
def kstep : KSt → Char → Str × KSt
  | .code, c => ([c], if c = '"' then .str else .code)
  | .str, c => if c = '"' then (c!"\"", .code) else (kcode c, if c = '\\' then .esc else .str)
  | .esc, c => (kcode c, .str)

/-- Recodes the strings of a printed text. -/
def kscan : KSt → Str → Str × KSt
  | st, [] => ([], st)
  | st, c :: t => ((kstep st c).1 ++ (kscan (kstep st c).2 t).1, (kscan (kstep st c).2 t).2)

theorem kscan_append (a b : Str) : ∀ st, kscan st (a ++ b) = ((kscan st a).1 ++ (kscan (kscan st a).2 b).1, (kscan (kscan st a).2 b).2) := by
  induction a with
  | nil => intro st; rfl
  | cons c a ih => intro st; simp [kscan, ih]

/-- Text without quotes stays. -/
theorem kscan_code : ∀ {t : Str}, '"' ∉ t → kscan .code t = (t, .code)
  | [], _ => rfl
  | c :: t, h => by
    have hc : c ≠ '"' := fun e => h (by simp [e])
    rw [kscan]
    simp only [kstep, if_neg hc]
    rw [kscan_code fun hm => h (List.mem_cons_of_mem _ hm)]
    rfl

/-- Text without quotes and backslashes within a string. -/
theorem kscan_str : ∀ {t : Str}, '"' ∉ t → '\\' ∉ t → kscan .str t = (t.flatMap kcode, .str)
  | [], _, _ => rfl
  | c :: t, h, h' => by
    have hc : c ≠ '"' := fun e => h (by simp [e])
    have hb : c ≠ '\\' := fun e => h' (by simp [e])
    rw [kscan]
    simp only [kstep, if_neg hc, if_neg hb]
    rw [kscan_str (fun hm => h (List.mem_cons_of_mem _ hm)) (fun hm => h' (List.mem_cons_of_mem _ hm))]
    rfl

theorem quoteRune_form (P : Char → Bool) (c : Char) : quoteRune P c = [c] ∧ c ≠ '"' ∧ c ≠ '\\' ∨
    ∃ d u, quoteRune P c = '\\' :: d :: u ∧ '"' ∉ u ∧ '\\' ∉ u := by
  have hd : ∀ k n x, x ∈ hexPad k n → x.isAlphanum = true := by
    intro k n x hx
    unfold hexPad at hx
    rcases List.mem_append.mp hx with h | h
    · rw [(List.mem_replicate.mp h).2]; decide
    · have dig : ∀ d : Nat, d < 16 → (Nat.digitChar d).isAlphanum = true := by decide
      have : ∀ n, ∀ x ∈ Nat.toDigits 16 n, x.isAlphanum = true := by
        intro n
        induction n using Nat.strongRecOn with
        | _ n ih =>
          rw [Nat.toDigits_eq_if (by decide)]
          by_cases h : n < 16
          · rw [if_pos h]; intro x hx; rw [List.mem_singleton.mp hx]; exact dig n h
          · rw [if_neg h]
            intro x hx
            rcases List.mem_append.mp hx with hx | hx
            · exact ih _ (by omega) x hx
            · rw [List.mem_singleton.mp hx]; exact dig _ (Nat.mod_lt _ (by decide))
      exact this n x h
  have hex : ∀ k n, '"' ∉ hexPad k n ∧ '\\' ∉ hexPad k n :=
    fun k n => ⟨fun h => absurd (hd k n _ h) (by decide), fun h => absurd (hd k n _ h) (by decide)⟩
  unfold quoteRune
  by_cases h0 : c = '"' ∨ c = '\\'
  · rw [if_pos h0]; exact .inr ⟨c, [], rfl, by simp, by simp⟩
  rw [if_neg h0]
  by_cases h1 : P c = true
  · rw [if_pos h1]; exact .inl ⟨rfl, fun e => h0 (.inl e), fun e => h0 (.inr e)⟩
  rw [if_neg h1]
  refine .inr ?_
  repeat' split
  all_goals first
    | exact ⟨_, [], rfl, by simp, by simp⟩
    | exact ⟨_, _, rfl, (hex _ _).1, (hex _ _).2⟩

theorem kscan_body (P : Char → Bool) : ∀ s : Str, kscan .str (s.flatMap (quoteRune P)) = (kstr P s, .str)
  | [] => rfl
  | c :: s => by
    rw [List.flatMap_cons, kscan_append]
    have h1 : kscan .str (quoteRune P c) = ((quoteRune P c).flatMap kcode, .str) := by
      rcases quoteRune_form P c with ⟨e, h, h'⟩ | ⟨d, u, e, h, h'⟩
      · rw [e]; exact kscan_str (by simpa using Ne.symm h) (by simpa using Ne.symm h')
      · rw [e, kscan]
        simp only [kstep, if_neg (by decide : ¬ '\\' = '"'), if_pos]
        rw [kscan]
        simp only [kstep]
        rw [kscan_str h h']
        simp
    rw [h1, kscan_body P s]
    simp [kstr]

theorem kscan_quote (P : Char → Bool) (s : Str) : kscan .code (quote P s) = ('"' :: (kstr P s ++ c!"\""), .code) := by
  rw [quote, kscan]
  simp only [kstep, if_pos]
  rw [kscan_append, kscan_body]
  rfl

theorem kstr_clean (P : Char → Bool) (s : Str) : Clean (fun _ => true) (kstr P s) := by
  intro c hc
  obtain ⟨d, _, hc⟩ := List.mem_flatMap.mp hc
  refine ⟨rfl, ?_⟩
  unfold kcode at hc
  by_cases d1 : d = '"'
  · rw [if_pos d1] at hc; exact (by decide : ∀ c ∈ c!"~a", c ≠ '"' ∧ c ≠ '\\') c hc
  · by_cases d2 : d = '\\'
    · rw [if_neg d1, if_pos d2] at hc; exact (by decide : ∀ c ∈ c!"~b", c ≠ '"' ∧ c ≠ '\\') c hc
    · by_cases d3 : d = '~'
      · rw [if_neg d1, if_neg d2, if_pos d3] at hc; exact (by decide : ∀ c ∈ c!"~c", c ≠ '"' ∧ c ≠ '\\') c hc
      · rw [if_neg d1, if_neg d2, if_neg d3] at hc
        rw [List.mem_singleton.mp hc]
        exact ⟨d1, d2⟩

/-! ## Recoding the text of a tree -/

/-- The second text is the first one recoded. -/
def KP (a b : Option Str) : Prop := ∃ t t', a = some t ∧ b = some t' ∧ kscan .code t = (t', .code)

theorem KP.cat {a b a' b' : Option Str} (h1 : KP a a') (h2 : KP b b') : KP (cat a b) (cat a' b') := by
  obtain ⟨t, t', rfl, rfl, e⟩ := h1
  obtain ⟨u, u', rfl, rfl, e'⟩ := h2
  exact ⟨_, _, rfl, rfl, by rw [kscan_append, e, e']⟩

theorem KP.same {t : Str} (h : '"' ∉ t) : KP (some t) (some t) := ⟨t, t, rfl, rfl, kscan_code h⟩

theorem idText_noQuote {u : Str} (h : IdText u) : '"' ∉ u := by
  obtain ⟨⟨c, t, rfl, hc, ht⟩, _⟩ := h
  intro hm
  have key : ¬ IdTail '"' := by unfold IdTail IdHead; decide
  rcases List.mem_cons.mp hm with e | hm
  · exact key (e ▸ .inl hc)
  · exact key (ht _ hm)

theorem joinDots_noQuote : ∀ {l : List Str}, (∀ x ∈ l, IdText x) → '"' ∉ goJoinDots l
  | [], _ => by simp [goJoinDots]
  | [a], h => idText_noQuote (h a (by simp))
  | a :: b :: l, h => by
    rw [goJoinDots]
    intro hm
    rcases List.mem_append.mp hm with hm | hm
    · exact idText_noQuote (h a (by simp)) hm
    · rcases List.mem_cons.mp hm with e | hm
      · exact absurd e (by decide)
      · exact joinDots_noQuote (fun x hx => h x (List.mem_cons_of_mem _ hx)) hm

theorem buildN_knode_list {P : Char → Bool} {root : Str} : ∀ {l : List Node},
    (∀ n ∈ l, KP (buildN P root n) (buildN (fun _ => true) root (knode P n))) → KP (buildL P root l) (buildL (fun _ => true) root (knodes P l))
  | [], _ => KP.same (by simp)
  | [n], h => h n (by simp)
  | n :: m :: l, h =>
    (h n (by simp)).cat ((KP.same (by decide)).cat (buildN_knode_list (l := m :: l) fun k hk => h k (List.mem_cons_of_mem _ hk)))

theorem LitShape.kp {P root n} (h : LitShape n) : KP (buildN P root n) (buildN (fun _ => true) root (knode P n)) := by
  cases h with
  | @int k _ =>
    refine KP.same ?_
    have : fmtInt (k : Int) = Nat.toDigits 10 k := by
      have : ¬ ((k : Int) < 0) := by omega
      simp [fmtInt, this]
    rw [this]
    exact fun hm => absurd (Nat.isDigit_of_mem_toDigits (by decide) (by decide) hm) (by decide)
  | @bool b => cases b <;> exact KP.same (by decide)
  | null => exact KP.same (by decide)
  | @str s =>
    refine ⟨_, _, rfl, rfl, ?_⟩
    rw [kscan_quote, quote_clean (kstr_clean P s)]

theorem arr_kp {P root l} (h : ∀ n ∈ l, LitShape n) : KP (buildN P root (.arr l)) (buildN (fun _ => true) root (knode P (.arr l))) := by
  simp only [buildN, knode]
  exact (KP.same (by decide)).cat ((buildN_knode_list fun n hn => (h n hn).kp).cat (KP.same (by decide)))

theorem ValShape.kp {P root n} (h : ValShape n) : KP (buildN P root n) (buildN (fun _ => true) root (knode P n)) := by
  cases h with
  | lit h => exact h.kp
  | arr h => exact arr_kp h

theorem Shape.ne_nil' {lv n} (h : Shape lv n) : n ≠ .nil := by
  induction h with
  | val h => cases h with | lit h => cases h <;> exact nofun | arr => exact nofun
  | btwUp _ ih => exact ih
  | prdUp _ ih => exact ih
  | cinUp _ ih => exact ih
  | cmpUp _ ih => exact ih
  | negUp _ ih => exact ih
  | logicUp _ ih => exact ih
  | _ => exact nofun

theorem knode_ne_nil {P : Char → Bool} {n : Node} (h : n ≠ .nil) : knode P n ≠ .nil := by
  cases n <;> simp [knode] at h ⊢

theorem Keyed.kid {root n k} (h : Keyed root n) (hk : k ∈ kids n) : Keyed root k := fun m hm => h m (.step hk hm)
theorem Keyed.here {root n} (h : Keyed root n) : KeyedHere root n := h n .refl

theorem op_kp {P : Char → Bool} {root o : Str} (h : o ∈ opNames) : KP (buildN P root (.op o)) (buildN (fun _ => true) root (knode P (.op o))) := by
  simp only [buildN, knode]
  exact KP.same ((by decide : ∀ o ∈ opNames, '"' ∉ printPretty o) o h)

theorem Shape.kp {P root lv n} (h : Shape lv n) (hk : Keyed root n) : KP (buildN P root n) (buildN (fun _ => true) root (knode P n)) := by
  induction h with
  | val h => exact h.kp
  | ident h _ => exact KP.same (idText_noQuote h)
  | ref h _ => exact KP.same (joinDots_noQuote h)
  | paren _ ih =>
    simp only [buildN, knode]
    exact (KP.same (by decide)).cat ((ih (hk.kid (by simp [Verif.kids]))).cat (KP.same (by decide)))
  | @func f ns hf _ _ ih =>
    have e : f = root := hk.here
    simp only [buildN, knode]
    refine (KP.same ?_).cat ((buildN_knode_list fun n hn => ih n hn (hk.kid hn)).cat (KP.same (by decide)))
    rw [← e]
    intro hm
    rcases List.mem_append.mp hm with hm | hm
    · exact idText_noQuote hf hm
    · exact absurd hm (by decide)
  | btw _ _ ha hb ih =>
    have ho := (hk.kid (k := .op _) (.tail _ (.head _))).here
    simp only [buildN, knode]
    exact (ih (hk.kid (by simp [Verif.kids]))).cat ((KP.same (by decide)).cat ((op_kp (P := P) (root := root) ho).cat ((KP.same (by decide)).cat
      (ha.kp.cat ((KP.same (by decide)).cat hb.kp)))))
  | pred _ _ ih =>
    have ho := (hk.kid (k := .op _) (.tail _ (.head _))).here
    simp only [buildN, knode]
    exact (ih (hk.kid (by simp [Verif.kids]))).cat ((KP.same (by decide)).cat (op_kp (P := P) (root := root) ho))
  | isIn _ _ hl ih =>
    have ho := (hk.kid (k := .op _) (.tail _ (.head _))).here
    rw [knode, buildN_cmp (r := .arr _) nofun, buildN_cmp (knode_ne_nil (n := .arr _) nofun)]
    exact (ih (hk.kid (by simp [Verif.kids]))).cat ((KP.same (by decide)).cat ((op_kp (P := P) (root := root) ho).cat ((KP.same (by decide)).cat (arr_kp hl))))
  | cmp _ _ hr ih1 ih2 =>
    have ho := (hk.kid (k := .op _) (.tail _ (.head _))).here
    rw [knode, buildN_cmp hr.ne_nil', buildN_cmp (knode_ne_nil hr.ne_nil')]
    exact (ih1 (hk.kid (by simp [Verif.kids]))).cat ((KP.same (by decide)).cat ((op_kp (P := P) (root := root) ho).cat ((KP.same (by decide)).cat
      (ih2 (hk.kid (by simp [Verif.kids]))))))
  | neg _ ih =>
    simp only [buildN, knode]
    exact (KP.same (by decide)).cat (ih (hk.kid (by simp [Verif.kids])))
  | logic _ _ hr ih1 ih2 =>
    have ho := (hk.kid (k := .op _) (.tail _ (.head _))).here
    rw [knode, buildN_logic hr.ne_nil', buildN_logic (knode_ne_nil hr.ne_nil')]
    exact (ih1 (hk.kid (by simp [Verif.kids]))).cat ((KP.same (by decide)).cat ((op_kp (P := P) (root := root) ho).cat ((KP.same (by decide)).cat
      (ih2 (hk.kid (by simp [Verif.kids]))))))
  | btwUp _ ih => exact ih hk
  | prdUp _ ih => exact ih hk
  | cinUp _ ih => exact ih hk
  | cmpUp _ ih => exact ih hk
  | negUp _ ih => exact ih hk
  | logicUp _ ih => exact ih hk

/-! ## The recoded tree is grammatical and fit for printing -/

theorem mem_knodes {P : Char → Bool} : ∀ {l : List Node} {m}, m ∈ knodes P l → ∃ n ∈ l, m = knode P n
  | [], m, h => by simp [knodes] at h
  | n :: l, m, h => by
    rcases List.mem_cons.mp h with rfl | h
    · exact ⟨n, by simp, rfl⟩
    · obtain ⟨k, hk, e⟩ := mem_knodes h
      exact ⟨k, List.mem_cons_of_mem _ hk, e⟩

theorem LitShape.knode {P n} (h : LitShape n) : LitShape (knode P n) := by
  cases h with
  | int h => exact .int h
  | bool => exact .bool
  | null => exact .null
  | str => exact .str

theorem litShapes_knodes {P : Char → Bool} {l : List Node} (h : ∀ n ∈ l, LitShape n) : ∀ n ∈ knodes P l, LitShape n := by
  intro m hm
  obtain ⟨n, hn, rfl⟩ := mem_knodes hm
  exact (h n hn).knode

theorem ValShape.knode {P n} (h : ValShape n) : ValShape (knode P n) := by
  cases h with
  | lit h => exact .lit h.knode
  | arr h => exact .arr (litShapes_knodes h)

theorem Shape.knode {P lv n} (h : Shape lv n) : Shape lv (knode P n) := by
  induction h with
  | val h => exact .val h.knode
  | ident h h' => exact .ident h h'
  | ref h h' => exact .ref h h'
  | paren _ ih => exact .paren ih
  | func h h' _ ih =>
    refine .func h h' fun m hm => ?_
    obtain ⟨n, hn, rfl⟩ := mem_knodes hm
    exact ih n hn
  | btw _ ho ha hb ih => exact .btw ih ho ha.knode hb.knode
  | pred _ ho ih => exact .pred ih ho
  | isIn _ ho hl ih => exact .isIn ih ho (litShapes_knodes hl)
  | cmp _ ho _ ih1 ih2 => exact .cmp ih1 ho ih2
  | neg _ ih => exact .neg ih
  | logic _ ho _ ih1 ih2 => exact .logic ih1 ho ih2
  | btwUp _ ih => exact .btwUp ih
  | prdUp _ ih => exact .prdUp ih
  | cinUp _ ih => exact .cinUp ih
  | cmpUp _ ih => exact .cmpUp ih
  | negUp _ ih => exact .negUp ih
  | logicUp _ ih => exact .logicUp ih

theorem sub_knode {P : Char → Bool} {m k : Node} (h : Sub m k) : ∀ {n}, k = knode P n → ∃ n', Sub n' n ∧ m = knode P n' := by
  induction h with
  | refl => intro n e; exact ⟨n, .refl, e⟩
  | @step j k hk hm ih =>
    intro n e
    subst e
    have key : ∃ i ∈ kids n, j = knode P i := by
      cases n <;> simp only [knode, kids, List.mem_cons, List.not_mem_nil, or_false] at hk ⊢
      case arr l => exact mem_knodes hk
      case func f l => exact mem_knodes hk
      case pred => rcases hk with rfl | rfl <;> simp
      case cmp => rcases hk with rfl | rfl | rfl <;> simp
      case logic => rcases hk with rfl | rfl | rfl <;> simp
      case paren => subst hk; simp
      case not => subst hk; simp
      case between => rcases hk with rfl | rfl | rfl | rfl <;> simp
    obtain ⟨i, hi, rfl⟩ := key
    obtain ⟨n', hn', e⟩ := ih rfl
    exact ⟨n', .step hi hn', e⟩

theorem Keyed.fit {P : Char → Bool} {root : Str} {n : Node} (h : Keyed root n) : Fit (fun _ => true) root (knode P n) := by
  intro m hm
  obtain ⟨n', hn', rfl⟩ := sub_knode hm rfl
  have h := h n' hn'
  cases n' with
  | str s => exact kstr_clean P s
  | func f l => exact h
  | op o => exact h
  | _ => trivial

theorem rootName_knode (P : Char → Bool) (n : Node) : rootName (knode P n) = rootName n := by cases n <;> rfl

end Verif
