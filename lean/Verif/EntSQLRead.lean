import Verif.GormSqlThms
import Verif.EntSQLProps

/-! # Helper lemmas: reading the conditions written by the ent SQL translator -/

namespace Verif

/-! ## Scanning and binding -/

/-- The words, bound to the values numbered from `k + 1`, become these. -/
def Bd (d : Str) (k : Nat) (as : List GoVal) (ts us : List SqlTok) : Prop :=
  if d = c!"postgres" then ∀ base pre suf, k = base + pre.length → bindN base (pre ++ as ++ suf) ts = some us else bindQ ts as = some us

theorem bindN_append {b vs ts us ts' us'} (h : bindN b vs ts = some us) (h' : bindN b vs ts' = some us') : bindN b vs (ts ++ ts') = some (us ++ us') := by
  induction ts generalizing us with
  | nil => cases h; exact h'
  | cons t ts ih =>
    cases t with
    | num k =>
      simp only [bindN, List.cons_append] at h ⊢
      split at h
      · cases h
      · rename_i hk
        rw [if_neg hk]
        rw [Option.bind_eq_some_iff] at h ⊢
        obtain ⟨v, h1, h2⟩ := h
        rw [Option.map_eq_some_iff] at h2
        obtain ⟨u, h3, rfl⟩ := h2
        exact ⟨v, h1, by rw [ih h3]; rfl⟩
    | _ =>
      simp only [bindN, Option.map_eq_some_iff] at h
      obtain ⟨u, h1, rfl⟩ := h
      simp [bindN, ih h1]

theorem Bd.append {d k as ts us as' ts' us'} (h : Bd d k as ts us) (h' : Bd d (k + as.length) as' ts' us') : Bd d k (as ++ as') (ts ++ ts') (us ++ us') := by
  unfold Bd at *
  split
  · rename_i hd
    rw [if_pos hd] at h h'
    intro base pre suf hk
    refine bindN_append ?_ ?_
    · have := h base pre (as' ++ suf) hk
      simpa using this
    · have := h' base (pre ++ as) suf (by simp; omega)
      simpa using this
  · rename_i hd
    rw [if_neg hd] at h h'
    exact bindQ_append h h'

/-- Not a parameter. -/
def fixedTok : SqlTok → Bool
  | .q => false
  | .num _ => false
  | _ => true

theorem Bd.fixed {d k ts} (h : ts.all fixedTok = true) : Bd d k [] ts ts := by
  unfold Bd
  split
  · intro base pre suf _
    induction ts with
    | nil => rfl
    | cons t ts ih =>
      simp only [List.all_cons, Bool.and_eq_true] at h
      cases t <;> first | (exact absurd h.1 Bool.false_ne_true) | (simp only [bindN, ih h.2]; rfl)
  · induction ts with
    | nil => rfl
    | cons t ts ih =>
      simp only [List.all_cons, Bool.and_eq_true] at h
      cases t <;> first | (exact absurd h.1 Bool.false_ne_true) | (simp only [bindQ, ih h.2]; rfl)

/-- The pieces consist, with their values for the parameters, of these words. -/
def SR (d : Str) (k : Nat) (l : List Piece) (us : List SqlTok) : Prop := ∃ ts, Lx (ptext d k l) ts ∧ Bd d k ((pargs l).map SArg.bound) ts us

theorem SR.pre {d k l us p ps} (hp : Lx0 p ps) (hb : ps.all fixedTok = true) (h : SR d k l us) : SR d k (.txt (fun _ => p) :: l) (ps ++ us) := by
  obtain ⟨ts, h1, h2⟩ := h
  exact ⟨ps ++ ts, hp.app1 h1, (Bd.fixed hb).append h2⟩

theorem SR.post {d k l us c p ps} (h : SR d k l us) (hc : c ∈ c!" ),") (hp : Lx (c :: p) ps) (hb : ps.all fixedTok = true) :
    SR d k (l ++ [.txt fun _ => c :: p]) (us ++ ps) := by
  obtain ⟨ts, h1, h2⟩ := h
  refine ⟨ts ++ ps, ?_, ?_⟩
  · rw [ptext_append]; simpa [ptext] using h1.then hc hp
  · rw [pargs_append, List.map_append]; exact h2.append (Bd.fixed hb)

theorem SR.mid {d k l us c p ps l' us'} (h : SR d k l us) (hc : c ∈ c!" ),") (hp : Lx0 (c :: p) ps) (hb : ps.all fixedTok = true)
    (h' : SR d (k + (pargs l).length) l' us') : SR d k (l ++ .txt (fun _ => c :: p) :: l') (us ++ (ps ++ us')) := by
  obtain ⟨ts, h1, h2⟩ := h
  obtain ⟨ts', h1', h2'⟩ := h'
  refine ⟨ts ++ (ps ++ ts'), ?_, ?_⟩
  · rw [ptext_append]; exact h1.then hc (b := p ++ _) (hp.app1 h1')
  · rw [pargs_append, List.map_append]
    refine h2.append ?_
    simpa [pargs] using (Bd.fixed (k := k + (pargs l).length) hb).append (k := k + (pargs l).length) (by simpa using h2')

/-! ## Values -/

theorem run_num {u : Str} (hu : ∀ c ∈ u, c.isDigit = true) : ∀ acc, run (.num acc) u = some ([], .num (acc ++ u)) := by
  induction u with
  | nil => intro acc; simp [run]
  | cons c u ih =>
    intro acc
    have hc := hu c List.mem_cons_self
    simp only [run, step, hc, if_true, Option.bind_some, ih (fun c h => hu c (List.mem_cons_of_mem _ h))]
    simp

theorem lx_num (k : Nat) : Lx ('$' :: Nat.toDigits 10 k) [.num k] := by
  have h1 : run .idle ('$' :: Nat.toDigits 10 k) = some ([], .num (Nat.toDigits 10 k)) := by
    rw [run]
    have : step .idle '$' = some ([], .num []) := rfl
    simp [this, run_num (toDigits_digits k).1]
  unfold Lx lexSql
  rw [h1]
  simp [flush, decNat_toDigits]

theorem lx_num_cast (k : Nat) {w : Str} (hw : w = c!"int" ∨ w = c!"bool") : Lx ('$' :: Nat.toDigits 10 k ++ c!"::" ++ w) [.num k, .sym c!"::", .word w] := by
  have h1 : run .idle ('$' :: Nat.toDigits 10 k) = some ([], .num (Nat.toDigits 10 k)) := by
    rw [run]
    have : step .idle '$' = some ([], .num []) := rfl
    simp [this, run_num (toDigits_digits k).1]
  have h2 : ∀ acc : Str, decNat acc = k → run (.num acc) (c!"::" ++ w) = some ([.num k, .sym c!"::"], .word w) := by
    intro acc ha
    have e1 : step (.num acc) ':' = some ([.num k], .sym c!":") := by
      simp only [step, show ':'.isDigit = false from rfl, stepNew, flush, ha]
      rfl
    rcases hw with rfl | rfl <;> (simp only [List.cons_append, List.nil_append, run, e1]; rfl)
  unfold Lx lexSql
  rw [List.append_assoc, run_append, h1]
  simp only [Option.bind_some, h2 _ (decNat_toDigits k)]
  rcases hw with rfl | rfl <;> rfl

theorem Bd.arg {d k v} : Bd d k [v] (if d = c!"postgres" then [.num (k + 1)] else [.q]) [.val v] := by
  unfold Bd
  split
  · intro base pre suf hk
    have : k + 1 - base - 1 = pre.length := by omega
    simp only [bindN, if_neg (show ¬ k + 1 ≤ base by omega), this]
    simp
  · rfl

/-- A parameter that is not cast, or NULL. -/
theorem SR.plain (d k) (v : GoVal) : SR d k [.par (.plain v)] [if v = .nil then .word c!"null" else .val v] := by
  by_cases hv : v = .nil
  · subst hv
    exact ⟨[.word c!"null"], by rfl, by simpa [pargs, argBinds] using Bd.fixed (by rfl)⟩
  · rw [if_neg hv]
    have h1 : ptext d k [.par (.plain v)] = holder d k := by cases v <;> first | exact absurd rfl hv | simp [ptext, argText]
    have h2 : (pargs [.par (.plain v)]).map SArg.bound = [v] := by cases v <;> first | exact absurd rfl hv | rfl
    refine ⟨_, ?_, by rw [h2]; exact Bd.arg⟩
    rw [h1, holder]
    split
    · exact lx_num _
    · rfl

/-- A literal as an operand. -/
theorem SR.lit {E : SEnv} {n} (h : LitNode n) (d k nd) : ∃ us, SR d k (pcs (semit E nd n)) us ∧ SG .prim us (.val (valOf n)) := by
  have hv : ValNode n := by cases n <;> first | exact h.elim | trivial
  have he : pcs (semit E nd n) = [.par (if E.cast then .cast (litVal n) else .plain (litVal n))] := by
    rw [val_emit hv, emitVal, hv.value]
    cases n <;> first | exact h.elim | rfl
  have hvo : valOf n = litVal n := by cases n <;> first | exact h.elim | rfl
  rw [he, hvo]
  cases E.cast with
  | false =>
    refine ⟨_, SR.plain d k _, ?_⟩
    split
    · rename_i hn; rw [hn]; exact .null
    · exact .val
  | true =>
    by_cases hd : d = c!"postgres"
    · have plain : ∀ v : GoVal, v.type = .other → SR d k [.par (.cast v)] [.val v] := by
        intro v hv
        refine ⟨[.num (k + 1)], ?_, ?_⟩
        · simpa [ptext, argText, formatParam, holder, hd, hv] using lx_num (k + 1)
        · have := Bd.arg (d := d) (k := k) (v := v)
          rw [if_pos hd] at this
          exact this
      cases n with
      | int i =>
        refine ⟨[.val (.int i), .sym c!"::", .word c!"int"], ⟨[.num (k + 1), .sym c!"::", .word c!"int"], ?_, ?_⟩, .cast rfl⟩
        · simpa [ptext, argText, formatParam, holder, hd, litVal, GoVal.type] using lx_num_cast (k + 1) (.inl rfl)
        · have := (Bd.arg (d := d) (k := k) (v := .int i)).append (Bd.fixed (k := k + 1) (ts := [.sym c!"::", .word c!"int"]) rfl)
          rw [if_pos hd] at this
          exact this
      | bool i =>
        refine ⟨[.val (.bool i), .sym c!"::", .word c!"bool"], ⟨[.num (k + 1), .sym c!"::", .word c!"bool"], ?_, ?_⟩, .cast rfl⟩
        · simpa [ptext, argText, formatParam, holder, hd, litVal, GoVal.type] using lx_num_cast (k + 1) (.inr rfl)
        · have := (Bd.arg (d := d) (k := k) (v := .bool i)).append (Bd.fixed (k := k + 1) (ts := [.sym c!"::", .word c!"bool"]) rfl)
          rw [if_pos hd] at this
          exact this
      | str s => exact ⟨_, plain _ rfl, .val⟩
      | null => exact ⟨_, plain _ rfl, .val⟩
      | _ => exact h.elim
    · refine ⟨[.val _], ⟨[.q], ?_, ?_⟩, .val⟩
      · simp only [ptext, argText, formatParam, holder, if_neg hd]; rfl
      · have := Bd.arg (d := d) (k := k) (v := litVal n)
        rw [if_neg hd] at this
        exact this

/-- The values of a list. -/
theorem SR.list {d} : ∀ (l : List GoVal) k, l ≠ [] → ∃ us, SR d k ((parList l).map Prod.snd ++ [.txt fun _ => c!")"]) us ∧ ∀ r, ∃ f, pVals f (us ++ r) = some (l, r)
  | [], _, h => absurd rfl h
  | [v], k, _ => by
    refine ⟨_, (SR.plain d k v).post (c := ')') (p := []) (by decide) (ps := [.rp]) rfl rfl, fun r => ⟨1, ?_⟩⟩
    by_cases hv : v = .nil
    · subst hv; rfl
    · simp only [if_neg hv]
      cases r with
      | nil => rfl
      | cons t r => cases t <;> rfl
  | v :: w :: l, k, _ => by
    obtain ⟨us, h1, h2⟩ := SR.list (d := d) (w :: l) (k + (pargs [.par (.plain v)]).length) (by simp)
    have := (SR.plain d k v).mid (c := ',') (p := c!" ") (by decide) (ps := [.comma]) rfl rfl h1
    refine ⟨_, this, fun r => ?_⟩
    obtain ⟨f, hf⟩ := h2 r
    refine ⟨f + 1, ?_⟩
    by_cases hv : v = .nil
    · subst hv
      simp [pVals, pVal, hf]
    · simp only [if_neg hv]
      simp [pVals, pVal, hf]

theorem SR.arr {E : SEnv} {ns : List Node} (h : ∀ n ∈ ns, LitNode n) (hne : ns ≠ []) (d k nd) :
    ∃ us, SR d k (pcs (semit E nd (.arr ns))) us ∧ ∀ r, ∃ f, pSet f (us ++ r) = some (valOf (.arr ns), r) := by
  have hv : ValNode (.arr ns) := h
  obtain ⟨us, h1, h2⟩ := SR.list (d := d) (ns.map litVal) k (by simpa using hne)
  refine ⟨[.lp] ++ us, ?_, fun r => ?_⟩
  · have : pcs (semit E nd (.arr ns)) = .txt (fun _ => c!"(") :: ((parList (ns.map litVal)).map Prod.snd ++ [.txt fun _ => c!")"]) := by
      rw [val_emit hv, emitVal, hv.value]
      simp [valOf, pcs, wr]
    rw [this]
    exact h1.pre (ps := [.lp]) rfl rfl
  · obtain ⟨f, hf⟩ := h2 r
    exact ⟨f, by simp [pSet, hf, valOf]⟩


/-! ## Trees -/

/-- What names mean, if columns mean what `J` says. -/
def entI {D : Type} (E : SEnv) (d : Str) (J : Interp D) : Interp D := { J with field := fun x => J.field (E.ident d x) }

section
variable {D : Type} (E : SEnv) (d : Str) (J : Interp D)

/-- The pieces are, wherever they are written, a condition of this level that means the tree. -/
def EMeans (l : SLvl) (ps : List Piece) (n : Node) : Prop := ∀ k, ∃ us e, SR d k ps us ∧ SG l us e ∧ mean (entI E d J) n = some (evalS J e)

/-- A conjunction that may be written after another one. -/
def EItem (ps : List Piece) (n : Node) : Prop :=
  ∀ k, ∃ us e, SR d k ps us ∧ SG .and us e ∧ mean (entI E d J) n = some (evalS J e) ∧
    ∀ vs x, SG .and vs x → ∃ e', SG .and (vs ++ .word c!"and" :: us) e' ∧ evalS J e' = J.and (evalS J x) (evalS J e)

/-- A disjunction in two parts. -/
def EChain (ps : List Piece) (n : Node) : Prop :=
  ∀ k, ∃ us, SR d k ps us ∧ (((split n).1 = none ∧ ∃ e, SG .and us e ∧ mean (entI E d J) (split n).2 = some (evalS J e)) ∨
    ∃ p us1 us2 e1 e2, (split n).1 = some p ∧ us = us1 ++ .word c!"or" :: us2 ∧ SG .or us1 e1 ∧ SG .and us2 e2 ∧
      mean (entI E d J) p = some (evalS J e1) ∧ mean (entI E d J) (split n).2 = some (evalS J e2))

/-- What is shown for each subtree. -/
structure EHolds (n : Node) (ps : List Piece) : Prop where
  prim : isPrim n = true → EMeans E d J .prim ps (regroup n)
  item : isLogic n = false → isBetween n = false → EMeans E d J .not ps (split n).2
  one : isLogic n = false → (split n).1 = none ∧ EItem E d J ps (split n).2
  chain : EChain E d J ps n

variable {E d J}

theorem EMeans.toItem {ps n} (h : EMeans E d J .not ps n) : EItem E d J ps n := by
  intro k
  obtain ⟨us, e, h1, h2, h3⟩ := h k
  exact ⟨us, e, h1, .andUp h2, h3, fun vs x hx => ⟨_, .and hx h2, rfl⟩⟩

theorem EHolds.ofItem {n ps} (h1 : isPrim n = false) (h2 : (split n).1 = none) (hb : isBetween n = false → EMeans E d J .not ps (split n).2)
    (h : EItem E d J ps (split n).2) : EHolds E d J n ps := by
  refine ⟨fun h => (Bool.noConfusion (h1.symm.trans h)), fun _ => hb, fun _ => ⟨h2, h⟩, fun k => ?_⟩
  obtain ⟨us, e, h3, h4, h5, _⟩ := h k
  exact ⟨us, h3, .inl ⟨h2, e, h4, h5⟩⟩

theorem EHolds.ofNot {n ps} (h1 : isPrim n = false) (h2 : (split n).1 = none) (h : EMeans E d J .not ps (split n).2) : EHolds E d J n ps :=
  .ofItem h1 h2 (fun _ => h) h.toItem

theorem EMeans.ofPred {ps n} (h : EMeans E d J .pred ps n) : EMeans E d J .not ps n := fun k => by
  obtain ⟨us, e, h1, h2, h3⟩ := h k; exact ⟨us, e, h1, .notUp h2, h3⟩

theorem EHolds.ofPrim {n ps} (h2 : (split n).1 = none) (h : EMeans E d J .prim ps (regroup n)) : EHolds E d J n ps := by
  have hr : regroup n = (split n).2 := by
    have : split n = (none, (split n).2) := by rw [← h2]
    rw [regroup, this]; rfl
  have hn : EMeans E d J .not ps (split n).2 := fun k => by
    obtain ⟨us, e, h3, h4, h5⟩ := h k; exact ⟨us, e, h3, .notUp (.predUp h4), hr ▸ h5⟩
  refine ⟨fun _ => h, fun _ _ => hn, fun _ => ⟨h2, hn.toItem⟩, fun k => ?_⟩
  obtain ⟨us, e, h3, h4, h5⟩ := hn k
  exact ⟨us, h3, .inl ⟨h2, e, .andUp h4, h5⟩⟩

theorem EHolds.all {n ps} (h : EHolds E d J n ps) : EMeans E d J .or ps (regroup n) := by
  intro k
  obtain ⟨us, h1, ⟨h2, e, h3, h4⟩ | ⟨p, us1, us2, e1, e2, h2, rfl, h3, h4, h5, h6⟩⟩ := h.chain k
  · have : split n = (none, (split n).2) := by rw [← h2]
    exact ⟨us, e, h1, .orUp h3, by rw [regroup, this]; exact h4⟩
  · have : split n = (some p, (split n).2) := by rw [← h2]
    refine ⟨_, _, h1, .or h3 h4, ?_⟩
    rw [regroup, this]
    simp only [glue, mean, h5, h6]
    rfl

/-- Operators of comparisons and their words. -/
theorem ecmp_words {o t} (h : o ∈ [c!"gt", c!"gte", c!"eq", c!"neq", c!"lt", c!"lte", c!"like", c!"not like"]) (ht : binText o = some t) :
    ∃ c p os, t = c :: p ∧ c ∈ c!" )," ∧ Lx0 (c :: p) os ∧ os.all fixedTok = true ∧ ∀ r, Fol (os ++ r) ∧ predOp (os ++ r) = some (.cmp o, r) := by
  simp only [List.mem_cons, List.not_mem_nil, or_false] at h
  rcases h with rfl | rfl | rfl | rfl | rfl | rfl | rfl | rfl <;> cases ht
  · exact ⟨_, _, [.sym c!">"], rfl, by decide, rfl, rfl, fun r => ⟨by simp [Fol], rfl⟩⟩
  · exact ⟨_, _, [.sym c!">="], rfl, by decide, rfl, rfl, fun r => ⟨by simp [Fol], rfl⟩⟩
  · exact ⟨_, _, [.sym c!"="], rfl, by decide, rfl, rfl, fun r => ⟨by simp [Fol], rfl⟩⟩
  · exact ⟨_, _, [.sym c!"<>"], rfl, by decide, rfl, rfl, fun r => ⟨by simp [Fol], rfl⟩⟩
  · exact ⟨_, _, [.sym c!"<"], rfl, by decide, rfl, rfl, fun r => ⟨by simp [Fol], rfl⟩⟩
  · exact ⟨_, _, [.sym c!"<="], rfl, by decide, rfl, rfl, fun r => ⟨by simp [Fol], rfl⟩⟩
  · exact ⟨_, _, [.word c!"like"], rfl, by decide, rfl, rfl, fun r => ⟨trivial, rfl⟩⟩
  · exact ⟨_, _, [.word c!"not", .word c!"like"], rfl, by decide, rfl, rfl, fun r => ⟨trivial, rfl⟩⟩

theorem ein_words {o t} (h : o ∈ [c!"in", c!"not in"]) (ht : binText o = some t) :
    ∃ c p os, t = c :: p ∧ c ∈ c!" )," ∧ Lx0 (c :: p) os ∧ os.all fixedTok = true ∧ ∀ r, Fol (os ++ r) ∧ predOp (os ++ r) = some (.set o, r) := by
  simp only [List.mem_cons, List.not_mem_nil, or_false] at h
  rcases h with rfl | rfl <;> cases ht
  · exact ⟨_, _, [.word c!"in"], rfl, by decide, rfl, rfl, fun r => ⟨trivial, rfl⟩⟩
  · exact ⟨_, _, [.word c!"not", .word c!"in"], rfl, by decide, rfl, rfl, fun r => ⟨trivial, rfl⟩⟩

theorem eis_words {o t} (h : o ∈ [c!"is null", c!"is not null", c!"is true", c!"is false", c!"is not true", c!"is not false"])
    (ht : entsqlOps.lookup o = some t) :
    ∃ c p os, t = c :: p ∧ c ∈ c!" )," ∧ Lx (c :: p) os ∧ os.all fixedTok = true ∧ ∀ r, Fol (os ++ r) ∧ predOp (os ++ r) = some (.is o, r) := by
  simp only [List.mem_cons, List.not_mem_nil, or_false] at h
  rcases h with rfl | rfl | rfl | rfl | rfl | rfl <;> cases ht
  · exact ⟨_, _, [.word c!"is", .word c!"null"], rfl, by decide, rfl, rfl, fun r => ⟨trivial, rfl⟩⟩
  · exact ⟨_, _, [.word c!"is", .word c!"not", .word c!"null"], rfl, by decide, rfl, rfl, fun r => ⟨trivial, rfl⟩⟩

theorem binOps_names {o t} (h : binText o = some t) : o ∈ opNames :=
  (by decide : ∀ o ∈ sqlOps ++ [c!"not like", c!"and", c!"or"], o ∈ opNames) o (binOps.2 ⟨t, h⟩)

theorem lookup_names {o t} (h : entsqlOps.lookup o = some t) : o ∈ opNames :=
  (by decide : ∀ o ∈ sqlOps, o ∈ opNames) o (sqlOps_lookup.2 ⟨t, h⟩)

theorem elit {n : Node} (hl : LitNode n) (nd) : EHolds E d J n (pcs (semit E nd n)) := by
  have hv : ValNode n := by cases n <;> first | exact hl.elim | trivial
  have hs : split n = (none, n) := by cases n <;> first | exact hl.elim | rfl
  refine .ofPrim (by rw [hs]) fun k => ?_
  obtain ⟨us, h1, h2⟩ := SR.lit (E := E) hl d k nd
  exact ⟨us, _, h1, h2, by rw [regroup, hs]; exact hv.mean _⟩

/-- The condition written for a tree, read as SQL. -/
theorem eshape (hid : ∀ x, IdText x → lexSql (E.ident d x) = some [.name (E.ident d x)]) (hassoc : ∀ x y z, J.and (J.and x y) z = J.and x (J.and y z))
    {lv n} (h : Shape lv n) : Fine n → tameSql n = true → ∀ nd, (semit E nd n).2 = .ok → EHolds E d J n (pcs (semit E nd n)) := by
  have lit : ∀ {n}, ValNode n → tameSql n = true → LitNode n := by
    intro n h1 h2
    cases n <;> first | exact h1.elim | trivial | (simp [tameSql] at h2)
  induction h with
  | @val n h => intro _ ht nd _; exact elit (lit h.node ht) nd
  | @ident x =>
    intro hf _ nd _
    have hx : IdText x := by cases hf with | val h => exact h.elim | ident h => exact h
    refine .ofPrim rfl fun k => ⟨[.name (E.ident d x)], .name (E.ident d x), ⟨[.name (E.ident d x)], ?_, ?_⟩, .name, rfl⟩
    · have := hid x hx
      simpa [semit, pcs, ptext, Lx] using this
    · exact Bd.fixed rfl
  | ref => intro _ _ nd h; cases h
  | @paren n _ ih =>
    intro hf ht nd hok
    have hf' : Fine n := by cases hf with | val h => exact h.elim | paren h => exact h
    have r := (ih hf' (by simpa [tameSql] using ht) nd hok).all
    refine .ofPrim rfl fun k => ?_
    obtain ⟨us, e, g1, g2, g3⟩ := r k
    refine ⟨[.lp] ++ (us ++ [.rp]), e, ?_, .paren g2, ?_⟩
    · rw [semit, pcs_after, pcs_before]
      exact (g1.post (c := ')') (p := []) (by decide) (ps := [.rp]) rfl rfl).pre (ps := [.lp]) rfl rfl
    · have : regroup (.paren n) = .paren (regroup n) := rfl
      rw [this, mean]; exact g3
  | @func f ns _ _ _ ih =>
    intro hf ht nd hok
    simp only [tameSql, Bool.and_eq_true, beq_iff_eq] at ht
    obtain ⟨⟨rfl, hl⟩, ht⟩ := ht
    match ns, hl with
    | [n], _ =>
      simp only [tameSqlL, Bool.and_eq_true, and_true] at ht
      have hf' : Fine n := by cases hf with | val h => exact h.elim | func _ h => exact h n (by simp)
      rw [semit, if_pos rfl] at hok ⊢
      have r := (ih n (by simp) hf' ht nd hok).all
      refine .ofPrim rfl fun k => ?_
      obtain ⟨us, e, g1, g2, g3⟩ := r k
      refine ⟨[.word c!"date", .lp] ++ (us ++ [.rp]), .call c!"date" [e], ?_, .call (by decide) g2, ?_⟩
      · rw [pcs_after, pcs_before]
        exact (g1.post (c := ')') (p := []) (by decide) (ps := [.rp]) rfl rfl).pre (ps := [.word c!"date", .lp]) rfl rfl
      · have : regroup (.func c!"date" [n]) = .func c!"date" [regroup n] := rfl
        rw [this, mean, meanL, meanL, g3]
        rfl
  | btwUp _ ih | prdUp _ ih | cinUp _ ih | cmpUp _ ih | negUp _ ih | logicUp _ ih => exact ih
  | @btw l o lo hi _ ho hlo hhi ih =>
    intro hf ht nd hok
    simp only [tameSql, Bool.and_eq_true, isOp, beq_iff_eq] at ht
    obtain ⟨⟨⟨⟨hp, htl⟩, rfl⟩, hta⟩, htb⟩ := ht
    have hf' : Fine l := by cases hf with | val h => exact h.elim | between h => exact h
    have ha := elit (E := E) (d := d) (J := J) (lit hlo.node hta) nd
    have hb := elit (E := E) (d := d) (J := J) (lit hhi.node htb) nd
    have pa : isPrim lo = true := by have := lit hlo.node hta; cases lo <;> first | exact this.elim | rfl
    have pb : isPrim hi = true := by have := lit hhi.node htb; cases hi <;> first | exact this.elim | rfl
    have ra : regroup lo = lo := by have := lit hlo.node hta; cases lo <;> first | exact this.elim | rfl
    have rb : regroup hi = hi := by have := lit hhi.node htb; cases hi <;> first | exact this.elim | rfl
    rw [semit] at hok ⊢
    simp only [operation, if_neg (show ¬ c!"between" = c!"not between" by decide)] at hok ⊢
    obtain ⟨h1, h2⟩ := seq_ok hok
    obtain ⟨h3, h4⟩ := seq_ok h1
    obtain ⟨h5, h6⟩ := seq_ok h3
    have r := (ih hf' htl nd h5).prim hp
    refine .ofItem rfl rfl nofun fun k => ?_
    rw [(pcs_seq h1).1, (pcs_seq h3).1, (pcs_seq h5).1, pcs_before, pcs_before, pcs_before]
    generalize hpl : pcs (semit E nd l) = pl at r
    have pl' : (semit E nd l).1.map Prod.snd = pl := hpl
    generalize hpa : pcs (semit E nd lo) = pla at ha
    generalize hpb : pcs (semit E nd hi) = plb at hb
    obtain ⟨u1, e1, a1, a2, a3⟩ := r k
    obtain ⟨u2, e2, b1, b2, b3⟩ := ha.prim pa (k + (pargs pl).length)
    have g1 := a1.mid (c := ' ') (p := c!">= ") (by decide) (ps := [.sym c!">="]) rfl rfl b1
    obtain ⟨u3, e3, c1, c2, c3⟩ := r (k + (pargs (pl ++ .txt (fun _ => c!" >= ") :: pla)).length)
    obtain ⟨u4, e4, d1, d2, d3⟩ := hb.prim pb (k + (pargs (pl ++ .txt (fun _ => c!" >= ") :: pla)).length + (pargs pl).length)
    have g2 := c1.mid (c := ' ') (p := c!"<= ") (by decide) (ps := [.sym c!"<="]) rfl rfl d1
    have g := g1.mid (c := ' ') (p := c!"AND ") (by decide) (ps := [.word c!"and"]) rfl rfl g2
    have e13 : evalS J e1 = evalS J e3 := by rw [a3] at c3; exact Option.some.inj c3
    have s1 : SG .not (u1 ++ ([.sym c!">="] ++ u2)) (.cmp c!"gte" e1 e2) := .notUp (.cmp a2 (fun r => ⟨by simp [Fol], rfl⟩) b2)
    have s2 : SG .not (u3 ++ ([.sym c!"<="] ++ u4)) (.cmp c!"lte" e3 e4) := .notUp (.cmp c2 (fun r => ⟨by simp [Fol], rfl⟩) d2)
    refine ⟨_, .and (.cmp c!"gte" e1 e2) (.cmp c!"lte" e3 e4), ?_, .and (.andUp s1) s2, ?_, ?_⟩
    · simpa [List.append_assoc] using g
    · have : (split (.between l (.op c!"between") lo hi)).2 = .between (regroup l) (.op c!"between") lo hi := rfl
      rw [ra] at b3; rw [rb] at d3
      rw [this, mean, a3, b3, d3]
      simp only [Option.bind_some, evalS, e13]
      rfl
    · intro vs x hx
      refine ⟨.and (.and x (.cmp c!"gte" e1 e2)) (.cmp c!"lte" e3 e4), ?_, ?_⟩
      · have := SG.and (SG.and hx s1) s2
        simpa [List.append_assoc] using this
      · simp only [evalS]; exact hassoc _ _ _
  | @pred l o _ ho ih =>
    intro hf ht nd hok
    simp only [tameSql, Bool.and_eq_true] at ht
    have hf' : Fine l := by cases hf with | val h => exact h.elim | pred h => exact h
    rw [semit] at hok ⊢
    simp only [operation] at hok ⊢
    split at hok
    · cases hok
    · rename_i t hlk
      obtain ⟨c, p, os, rfl, o1, o2, o3, o4⟩ := eis_words (matchOp_plain ho.choose_spec (lookup_names hlk)) hlk
      have r := (ih hf' ht.2 nd hok).prim ht.1
      refine .ofNot rfl rfl (.ofPred fun k => ?_)
      obtain ⟨us, e, g1, g2, g3⟩ := r k
      refine ⟨us ++ os, .pred o e, ?_, .is g2 o4, ?_⟩
      · rw [pcs_after]; exact g1.post o1 o2 o3
      · have : (split (.pred l (.op o))).2 = .pred (regroup l) (.op o) := rfl
        rw [this, mean, g3]
        rfl
  | @isIn l o ns _ ho hns ih =>
    intro hf ht nd hok
    simp only [tameSql, Bool.and_eq_true, Bool.or_eq_true] at ht
    obtain ⟨ht1, ht2⟩ := ht
    have hne : ns ≠ [] := by
      rcases ht2 with h | h
      · intro hn; subst hn; simp [someArr] at h
      · simp at h
    have hf' : Fine l := by cases hf with | val h => exact h.elim | cmp h => exact h
    rw [semit] at hok ⊢
    obtain ⟨op, t, hop, htx, hl, hr⟩ := emitBin_ok hok
    cases hop
    rw [(emitBin_eq hl htx).1]
    obtain ⟨c, p, os, rfl, o1, o2, o3, o4⟩ := ein_words (inOp_plain ho.choose_spec (binOps_names htx)) htx
    have r := (ih hf' ht1.2 nd hl).prim ht1.1
    have hv : ValNode (.arr ns) := fun n hn => (hns n hn).node
    refine .ofNot rfl rfl (.ofPred fun k => ?_)
    obtain ⟨us, e, g1, g2, g3⟩ := r k
    obtain ⟨vs, f1, f2⟩ := SR.arr (E := E) (fun n hn => (hns n hn).node) hne d (k + (pargs (pcs (semit E nd l))).length) nd
    refine ⟨us ++ (os ++ vs), .cmp o e (.val (valOf (.arr ns))), g1.mid o1 o2 o3 f1, .set g2 o4 f2, ?_⟩
    have : (split (.cmp l (.op o) (.arr ns))).2 = .cmp (regroup l) (.op o) (.arr ns) := rfl
    rw [this, mean, g3, hv.mean]
    rfl
  | @cmp l o r _ ho _ ih1 ih2 =>
    intro hf ht nd hok
    simp only [tameSql, Bool.and_eq_true, Bool.or_eq_true] at ht
    obtain ⟨ht1, ht2⟩ := ht
    obtain ⟨hfl, hfr⟩ : Fine l ∧ Fine r := by cases hf with | val h => exact h.elim | cmp h _ h' => exact ⟨h, h'⟩
    rw [semit] at hok ⊢
    obtain ⟨op, t, hop, htx, hl, hr⟩ := emitBin_ok hok
    cases hop
    rw [(emitBin_eq hl htx).1]
    have hpl := cmpOp_plain ho.choose_spec (binOps_names htx)
    obtain ⟨c, p, os, rfl, o1, o2, o3, o4⟩ := ecmp_words hpl htx
    have ht3 : isPrim r = true ∧ tameSql r = true := by
      rcases ht2 with h | h
      · exfalso
        obtain ⟨h, _⟩ := h
        simp only [isOp, beq_iff_eq] at h
        rcases h with rfl | rfl <;> revert hpl <;> decide
      · exact h
    have r1 := (ih1 hfl ht1.2 nd hl).prim ht1.1
    have r2 := (ih2 hfr ht3.2 nd hr).prim ht3.1
    refine .ofNot rfl rfl (.ofPred fun k => ?_)
    obtain ⟨us, e, g1, g2, g3⟩ := r1 k
    obtain ⟨us', e', g1', g2', g3'⟩ := r2 (k + (pargs (pcs (semit E nd l))).length)
    refine ⟨us ++ (os ++ us'), .cmp o e e', g1.mid o1 o2 o3 g1', .cmp g2 o4 g2', ?_⟩
    have : (split (.cmp l (.op o) r)).2 = .cmp (regroup l) (.op o) (regroup r) := rfl
    rw [this, mean, g3, g3']
    rfl
  | @neg n hsh ih =>
    intro hf ht nd hok
    simp only [tameSql, Bool.and_eq_true, Bool.not_eq_true'] at ht
    have hf' : Fine n := by cases hf with | val h => exact h.elim | not h => exact h
    have hl : isLogic n = false := by
      have := hsh.not_logic (by simp)
      cases n <;> first | rfl | exact absurd rfl (this _ _ _)
    have r := ih hf' ht.1 nd hok
    have hs1 := (r.one hl).1
    have r := r.item hl ht.2
    refine .ofNot rfl rfl fun k => ?_
    obtain ⟨us, e, g1, g2, g3⟩ := r k
    refine ⟨[.word c!"not"] ++ us, .not e, ?_, .not g2, ?_⟩
    · rw [semit, pcs_before]; exact g1.pre (ps := [.word c!"not"]) rfl rfl
    · have h3 : split n = (none, (split n).2) := by rw [← hs1]
      have : (split (.not n)).2 = .not (split n).2 := by
        show Node.not (glue (split n)) = _
        rw [h3]; rfl
      rw [this, mean, g3]
      rfl
  | @logic l o r _ ho hsh ih1 ih2 =>
    intro hf ht nd hok
    simp only [tameSql, Bool.and_eq_true] at ht
    obtain ⟨hfl, hfr⟩ : Fine l ∧ Fine r := by cases hf with | val h => exact h.elim | logic h _ h' => exact ⟨h, h'⟩
    rw [semit] at hok ⊢
    obtain ⟨op, t, hop, htx, hl, hr⟩ := emitBin_ok hok
    cases hop
    rw [(emitBin_eq hl htx).1]
    have r1 := ih1 hfl ht.1 nd hl
    have r2 := ih2 hfr ht.2 nd hr
    have hlr : isLogic r = false := by
      have := hsh.not_logic (by simp)
      cases r <;> first | rfl | exact absurd rfl (this _ _ _)
    obtain ⟨hs2, it⟩ := r2.one hlr
    have hg : glue (split r) = (split r).2 := by
      have h3 : split r = (none, (split r).2) := by rw [← hs2]
      rw [h3]; rfl
    refine ⟨nofun, nofun, nofun, fun k => ?_⟩
    obtain ⟨us', e', g1', g2', g3', g4'⟩ := it (k + (pargs (pcs (semit E nd l))).length)
    rcases ho with rfl | rfl
    · cases htx
      obtain ⟨us, g1, g2⟩ := r1.chain k
      have hgr := g1.mid (c := ' ') (by decide) (p := c!"AND ") (ps := [.word c!"and"]) rfl rfl g1'
      refine ⟨_, hgr, ?_⟩
      have sp : split (.logic l (.op c!"and") r) = ((split l).1, .logic (split l).2 (.op c!"and") (split r).2) := by
        rw [split, if_pos rfl, hg]
      rw [sp]
      rcases g2 with ⟨hn, e, g3, g4⟩ | ⟨p, us1, us2, e1, e2, hp, rfl, g3, g4, g5, g6⟩
      · obtain ⟨x, x1, x2⟩ := g4' us e g3
        refine .inl ⟨hn, x, x1, ?_⟩
        simp only [mean, g4, g3', x2]
        rfl
      · obtain ⟨x, x1, x2⟩ := g4' us2 e2 g4
        refine .inr ⟨p, us1, us2 ++ .word c!"and" :: us', e1, x, hp, by simp, g3, x1, g5, ?_⟩
        simp only [mean, g6, g3', x2]
        rfl
    · cases htx
      obtain ⟨us, e, g1, g2, g3⟩ := r1.all k
      have hgr := g1.mid (c := ' ') (by decide) (p := c!"OR ") (ps := [.word c!"or"]) rfl rfl g1'
      refine ⟨_, hgr, ?_⟩
      have sp : split (.logic l (.op c!"or") r) = (some (regroup l), (split r).2) := by
        rw [split, if_neg (by decide), hg]; rfl
      rw [sp]
      exact .inr ⟨_, us, us', e, e', rfl, rfl, g2, g2', g3, g3'⟩

end


theorem SR.ident {E : SEnv} {d x} (h : lexSql (E.ident d x) = some [.name (E.ident d x)]) (k nd) : SR d k (pcs (semit E nd (.ident x))) [.name (E.ident d x)] :=
  ⟨[.name (E.ident d x)], by simpa [semit, pcs, ptext, Lx] using h, Bd.fixed rfl⟩

/-- The condition written for a range over a column. -/
theorem ebetween {E : SEnv} {d x} (hid : lexSql (E.ident d x) = some [.name (E.ident d x)]) {lo hi} (hlo : LitNode lo) (hhi : LitNode hi) (o : Str) (nd k) :
    (semit E nd (.between (.ident x) (.op o) lo hi)).2 = .ok ∧
    ∃ us, SR d k (pcs (semit E nd (.between (.ident x) (.op o) lo hi))) us ∧
      SG .and us (.and (.cmp (if o = c!"not between" then c!"lt" else c!"gte") (.name (E.ident d x)) (.val (valOf lo)))
        (.cmp (if o = c!"not between" then c!"gt" else c!"lte") (.name (E.ident d x)) (.val (valOf hi)))) := by
  have ok : ∀ {n}, LitNode n → (semit E nd n).2 = .ok := by
    intro n h
    cases n <;> first | exact h.elim | rfl
  rw [semit]
  simp only [operation]
  have i0 : (semit E nd (.ident x)).2 = .ok := rfl
  refine ⟨?_, ?_⟩
  · simp only [seqE, beforeE, i0, ok hlo, ok hhi]
  have h5 : (seqE (semit E nd (.ident x)) (beforeE [wr (if o = c!"not between" then c!" < " else c!" >= ")] (semit E nd lo))).2 = .ok := by
    simp only [seqE, beforeE, i0, ok hlo]
  have h3 : (seqE (seqE (semit E nd (.ident x)) (beforeE [wr (if o = c!"not between" then c!" < " else c!" >= ")] (semit E nd lo)))
      (beforeE [wr c!" AND "] (semit E nd (.ident x)))).2 = .ok := by
    simp only [seqE, beforeE, i0, ok hlo]
  rw [(pcs_seq h3).1, (pcs_seq h5).1, (pcs_seq i0).1, pcs_before, pcs_before, pcs_before]
  generalize hpl : pcs (semit E nd (.ident x)) = pl
  have a : ∀ k, SR d k pl [.name (E.ident d x)] := fun k => hpl ▸ SR.ident hid k nd
  have na : (pargs pl).length = 0 := by rw [← hpl]; rfl
  obtain ⟨u2, b1, b2⟩ := SR.lit (E := E) hlo d (k + (pargs pl).length) nd
  obtain ⟨u4, d1, d2⟩ := SR.lit (E := E) hhi d (k + (pargs (pl ++ .txt (fun _ => if o = c!"not between" then c!" < " else c!" >= ") :: pcs (semit E nd lo))).length + (pargs pl).length) nd
  by_cases hn : o = c!"not between"
  · simp only [hn, if_true] at *
    have g1 := (a k).mid (c := ' ') (p := c!"< ") (by decide) (ps := [.sym c!"<"]) rfl rfl b1
    have g2 := (a _).mid (c := ' ') (p := c!"> ") (by decide) (ps := [.sym c!">"]) rfl rfl d1
    have g := g1.mid (c := ' ') (p := c!"AND ") (by decide) (ps := [.word c!"and"]) rfl rfl g2
    have s1 : SG .not ([.name (E.ident d x)] ++ ([.sym c!"<"] ++ u2)) (.cmp c!"lt" (.name (E.ident d x)) (.val (valOf lo))) :=
      .notUp (.cmp .name (fun r => ⟨by simp [Fol], rfl⟩) b2)
    have s2 : SG .not ([.name (E.ident d x)] ++ ([.sym c!">"] ++ u4)) (.cmp c!"gt" (.name (E.ident d x)) (.val (valOf hi))) :=
      .notUp (.cmp .name (fun r => ⟨by simp [Fol], rfl⟩) d2)
    exact ⟨_, by simpa [List.append_assoc] using g, .and (.andUp s1) s2⟩
  · simp only [if_neg hn] at *
    have g1 := (a k).mid (c := ' ') (p := c!">= ") (by decide) (ps := [.sym c!">="]) rfl rfl b1
    have g2 := (a _).mid (c := ' ') (p := c!"<= ") (by decide) (ps := [.sym c!"<="]) rfl rfl d1
    have g := g1.mid (c := ' ') (p := c!"AND ") (by decide) (ps := [.word c!"and"]) rfl rfl g2
    have s1 : SG .not ([.name (E.ident d x)] ++ ([.sym c!">="] ++ u2)) (.cmp c!"gte" (.name (E.ident d x)) (.val (valOf lo))) :=
      .notUp (.cmp .name (fun r => ⟨by simp [Fol], rfl⟩) b2)
    have s2 : SG .not ([.name (E.ident d x)] ++ ([.sym c!"<="] ++ u4)) (.cmp c!"lte" (.name (E.ident d x)) (.val (valOf hi))) :=
      .notUp (.cmp .name (fun r => ⟨by simp [Fol], rfl⟩) d2)
    exact ⟨_, by simpa [List.append_assoc] using g, .and (.andUp s1) s2⟩

end Verif
