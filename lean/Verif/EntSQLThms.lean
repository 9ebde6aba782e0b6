import Verif.EntSQL
import Verif.Spec.Lang

/-! # Helper lemmas: the ent SQL translator writes pieces that do not depend on what is already written -/

namespace Verif

/-- A piece of output. -/
inductive Piece where
  | txt (f : Str → Str)
  | par (a : SArg)
  | fail (e : SErr)

def Piece.run : Piece → Bld → Bld
  | .txt f, b => b.write (f b.dialect)
  | .par a, b => b.arg a
  | .fail e, b => b.addErr e

/-- Pieces written to the embedded builder (`true`) or through `s` (`false`). -/
abbrev Item := Bool × Piece

def Item.run : Item → MB → MB
  | (true, p), mb => { mb with own := p.run mb.own }
  | (false, p), mb => mb.put p.run

def runAll : List Item → MB → MB
  | [], mb => mb
  | i :: l, mb => runAll l (i.run mb)

def runP : List Piece → Bld → Bld
  | [], b => b
  | p :: l, b => runP l (p.run b)

theorem runAll_append (a b : List Item) (mb : MB) : runAll (a ++ b) mb = runAll b (runAll a mb) := by
  induction a generalizing mb with
  | nil => rfl
  | cons i a ih => exact ih _

theorem runP_append (a b : List Piece) (x : Bld) : runP (a ++ b) x = runP b (runP a x) := by
  induction a generalizing x with
  | nil => rfl
  | cons i a ih => exact ih _

/-- How a visit ends. -/
inductive SEnd where
  | ok
  | err (e : SErr)
  | panic

/-- The sOut of writing the pieces and ending so. -/
def sOut (r : List Item × SEnd) (mb : MB) : SRes :=
  match r.2 with
  | .ok => .ok (runAll r.1 mb)
  | .err e => .err e (runAll r.1 mb)
  | .panic => .panic

def wr (s : Str) : Item := (false, .txt fun _ => s)

/-- One after the other, unless the first fails. -/
def seqE (a b : List Item × SEnd) : List Item × SEnd :=
  match a.2 with
  | .ok => (a.1 ++ b.1, b.2)
  | e => (a.1, e)

/-- Written in any case. -/
def afterE (a : List Item × SEnd) (i : List Item) : List Item × SEnd := (a.1 ++ i, a.2)

def beforeE (i : List Item) (a : List Item × SEnd) : List Item × SEnd := (i ++ a.1, a.2)

def parList : List GoVal → List Item
  | [] => []
  | [v] => [(false, .par (.plain v))]
  | v :: l => (false, .par (.plain v)) :: wr c!", " :: parList l

def emitVal (E : SEnv) (n : Node) : List Item × SEnd :=
  match value n with
  | none => ([], .panic)
  | some (.slice l) => (wr c!"(" :: parList l ++ [wr c!")"], .ok)
  | some v => ([(false, .par (if E.cast then .cast v else .plain v))], .ok)

/-- Pieces of an inner builder; its errors may be lost. -/
def keep (surf : Bool) : List Item → List Piece
  | [] => []
  | (_, .fail e) :: l => if surf then .fail e :: keep surf l else keep surf l
  | (_, .txt f) :: l => .txt f :: keep surf l
  | (_, .par a) :: l => .par a :: keep surf l

/-- Its errors only. -/
def failsOf : List Item → List Piece
  | [] => []
  | (_, .fail e) :: l => .fail e :: failsOf l
  | (_, .txt _) :: l => failsOf l
  | (_, .par _) :: l => failsOf l

def toOwn (l : List Piece) : List Item := l.map (Prod.mk true)

def emitJoin (E : SEnv) (e : SEdge) (r : List Item × SEnd) : List Item × SEnd :=
  match r.2 with
  | .panic => ([], .panic)
  | .ok => (toOwn (.txt e.pre :: keep E.surf r.1 ++ [.txt e.post]), .ok)
  | .err er => (toOwn (.txt e.pre :: .txt e.post :: (if E.surf then failsOf r.1 ++ [.fail er] else [])), .ok)

def emitEdge (E : SEnv) (node : Option Nat) (ps : List Node) (inner : Nat → List Item × SEnd) : List Item × SEnd :=
  match ps with
  | [] => ([], .err .edgeParams)
  | p :: rest =>
    if nodeName p = [] then ([], .err .edgeParams)
    else match node with
      | none => ([], .panic)
      | some t =>
        match (E.edges t).lookup (nodeName p) with
        | none => ([], .err (.noEdge (nodeName p)))
        | some e =>
          match rest with
          | [] => ([(true, .txt e.has)], .ok)
          | [c] => if isExpression c then emitJoin E e (inner e.to) else ([], .err (.edgeCond c))
          | _ => ([], .err .edgeParams)

def emitBin (l : List Item × SEnd) (o : Node) (r : List Item × SEnd) : List Item × SEnd :=
  match l.2 with
  | .panic => ([], .panic)
  | le =>
    match operation o with
    | none => ([], .panic)
    | some op =>
      match binText op with
      | none => (l.1, .err (.unexpectedOp op))
      | some t => seqE (l.1 ++ [wr t], le) r

mutual
def semit (E : SEnv) (node : Option Nat) : Node → List Item × SEnd
  | .nil => ([], .panic)
  | .op o => ([], .err (.opNode o))
  | .int i => emitVal E (.int i)
  | .bool b => emitVal E (.bool b)
  | .str s => emitVal E (.str s)
  | .null => emitVal E .null
  | .arr l => emitVal E (.arr l)
  | .ident x => ([(false, .txt fun d => E.ident d x)], .ok)
  | .ref _ => ([], .err .invalidType)
  | .paren e => afterE (beforeE [wr c!"("] (semit E node e)) [wr c!")"]
  | .not e => beforeE [wr c!"NOT "] (semit E node e)
  | .func f ps =>
    if f = c!"date" then afterE (beforeE [wr c!"DATE("] (semit1 E node ps)) [wr c!")"]
    else if f = c!"has_edge" then emitEdge E node ps (fun t => semit2 E (some t) ps)
    else ([], .err (.unsupported f))
  | .between l o a b =>
    match operation o with
    | none => ([], .panic)
    | some op =>
      let lo := if op = c!"not between" then c!" < " else c!" >= "
      let ro := if op = c!"not between" then c!" > " else c!" <= "
      seqE (seqE (seqE (semit E node l) (beforeE [wr lo] (semit E node a))) (beforeE [wr c!" AND "] (semit E node l))) (beforeE [wr ro] (semit E node b))
  | .pred l o =>
    match operation o with
    | none => ([], .panic)
    | some op =>
      match entsqlOps.lookup op with
      | none => ([], .err (.predOp op))
      | some t => afterE (semit E node l) [wr t]
  | .cmp l o r => emitBin (semit E node l) o (semit E node r)
  | .logic l o r => emitBin (semit E node l) o (semit E node r)
def semit1 (E : SEnv) (node : Option Nat) : List Node → List Item × SEnd
  | [] => ([], .panic)
  | n :: _ => semit E node n
def semit2 (E : SEnv) (node : Option Nat) : List Node → List Item × SEnd
  | [] => ([], .panic)
  | _ :: l => semit1 E node l
end

/-! ## Rendering -/

def holder (d : Str) (k : Nat) : Str := if d = c!"postgres" then '$' :: Nat.toDigits 10 (k + 1) else c!"?"

def argText (d : Str) (k : Nat) : SArg → Str
  | .plain .nil => c!"NULL"
  | .plain _ => holder d k
  | .cast v => formatParam v.type (holder d k) d

def argBinds : SArg → List SArg
  | .plain .nil => []
  | a => [a]

/-- The text of pieces, for a dialect, after `k` parameters. -/
def ptext (d : Str) : Nat → List Piece → Str
  | _, [] => []
  | k, .txt f :: l => f d ++ ptext d k l
  | k, .par a :: l => argText d k a ++ ptext d (k + (argBinds a).length) l
  | k, .fail _ :: l => ptext d k l

def pargs : List Piece → List SArg
  | [] => []
  | .par a :: l => argBinds a ++ pargs l
  | _ :: l => pargs l

def perrs : List Piece → List SErr
  | [] => []
  | .fail e :: l => e :: perrs l
  | _ :: l => perrs l

theorem pargs_append (a b : List Piece) : pargs (a ++ b) = pargs a ++ pargs b := by
  induction a with
  | nil => rfl
  | cons p a ih => cases p <;> simp [pargs, ih]

theorem perrs_append (a b : List Piece) : perrs (a ++ b) = perrs a ++ perrs b := by
  induction a with
  | nil => rfl
  | cons p a ih => cases p <;> simp [perrs, ih]

theorem ptext_append (d : Str) (k : Nat) (a b : List Piece) : ptext d k (a ++ b) = ptext d k a ++ ptext d (k + (pargs a).length) b := by
  induction a generalizing k with
  | nil => rfl
  | cons p a ih => cases p <;> simp [ptext, pargs, ih, Nat.add_assoc]

/-- The builder with this much added. -/
def Bld.add (t : Str) (a : List SArg) (e : List SErr) (b : Bld) : Bld :=
  { b with sql := b.sql ++ t, args := b.args ++ a, total := b.total + a.length, errs := b.errs ++ e }

theorem Bld.add_add (t a e t' a' e') (b : Bld) : (b.add t a e).add t' a' e' = b.add (t ++ t') (a ++ a') (e ++ e') := by
  simp [Bld.add, Nat.add_assoc]

theorem Piece.run_eq (p : Piece) (b : Bld) : p.run b = b.add (ptext b.dialect b.total [p]) (pargs [p]) (perrs [p]) := by
  cases p with
  | txt f => simp [Piece.run, Bld.write, Bld.add, ptext, pargs, perrs]
  | fail e => simp [Piece.run, Bld.addErr, Bld.add, ptext, pargs, perrs]
  | par a =>
    cases a with
    | plain v => cases v <;> simp [Piece.run, Bld.arg, Bld.write, Bld.add, ptext, pargs, perrs, argText, argBinds, Bld.holder, holder]
    | cast v => simp [Piece.run, Bld.arg, Bld.add, ptext, pargs, perrs, argText, argBinds, Bld.holder, holder]

theorem runP_eq (l : List Piece) (b : Bld) : runP l b = b.add (ptext b.dialect b.total l) (pargs l) (perrs l) := by
  induction l generalizing b with
  | nil => simp [runP, Bld.add, ptext, pargs, perrs]
  | cons p l ih =>
    have e : p :: l = [p] ++ l := rfl
    rw [runP, ih, Piece.run_eq, Bld.add_add, e, ptext_append, pargs_append, perrs_append]
    rfl

/-- All pieces of a visit without a second builder go to the embedded one. -/
theorem runAll_own (l : List Item) (b : Bld) : runAll l { own := b } = { own := runP (l.map Prod.snd) b } := by
  induction l generalizing b with
  | nil => rfl
  | cons i l ih => obtain ⟨f, p⟩ := i; cases f <;> exact ih _

theorem runAll_true (l : List Piece) (mb : MB) : runAll (l.map (Prod.mk true)) mb = { mb with own := runP l mb.own } := by
  induction l generalizing mb with
  | nil => rfl
  | cons p l ih => exact ih _

/-! ## Equality -/

theorem put_write (s : Str) (mb : MB) : mb.write s = (wr s).run mb := by
  show mb.put _ = mb.put _; congr

theorem argList_run (l : List GoVal) (mb : MB) : mb.put (Bld.argList l) = runAll (parList l) mb := by
  have h : ∀ l b, Bld.argList l b = runP ((parList l).map Prod.snd) b := by
    intro l
    induction l with
    | nil => intro b; rfl
    | cons v l ih =>
      cases l with
      | nil => intro b; rfl
      | cons w l => intro b; exact ih _
  have hf : ∀ l : List Item, (∀ i ∈ l, i.1 = false) → ∀ mb : MB, runAll l mb = mb.put (runP (l.map Prod.snd)) := by
    intro l
    induction l with
    | nil => intro _ mb; cases mb with | mk o e => cases e <;> rfl
    | cons i l ih =>
      intro hi mb
      obtain ⟨f, p⟩ := i
      have := hi (f, p) (by simp)
      cases this
      rw [runAll, ih (fun i h => hi i (List.mem_cons_of_mem _ h))]
      cases mb with | mk o e => cases e <;> rfl
  have hp : ∀ l : List GoVal, ∀ i ∈ parList l, i.1 = false := by
    intro l
    induction l with
    | nil => simp [parList]
    | cons v l ih =>
      cases l with
      | nil => simp [parList]
      | cons w l =>
        intro i hi
        rw [parList] at hi
        · rcases List.mem_cons.1 hi with rfl | hi
          · rfl
          · rcases List.mem_cons.1 hi with rfl | hi
            · rfl
            · exact ih i hi
        · simp
  rw [hf _ (hp l)]
  congr
  funext b
  exact h l b

theorem sVal_emit (E : SEnv) (n : Node) (mb : MB) : sVal E n mb = sOut (emitVal E n) mb := by
  unfold sVal emitVal
  cases value n with
  | none => rfl
  | some v =>
    cases v with
    | slice l =>
      show SRes.ok _ = SRes.ok _
      rw [put_write, put_write, argList_run]
      simp only [List.cons_append, runAll, runAll_append]
    | nil => rfl
    | int i => rfl
    | bool b => rfl
    | str s => rfl

theorem sOut_seq (a b : List Item × SEnd) (mb : MB) : sOut (seqE a b) mb = (sOut a mb).andThen (sOut b) := by
  obtain ⟨a, e⟩ := a
  cases e with
  | ok => simp [seqE, sOut, SRes.andThen, runAll_append]
  | err e => rfl
  | panic => rfl

theorem sOut_after (a : List Item × SEnd) (s : Str) (mb : MB) : sOut (afterE a [wr s]) mb = (sOut a mb).also (MB.write s) := by
  obtain ⟨a, e⟩ := a
  cases e <;> simp [afterE, sOut, SRes.also, runAll_append, put_write, runAll]

theorem sOut_before (a : List Item × SEnd) (s : Str) (mb : MB) : sOut (beforeE [wr s] a) mb = sOut a (mb.write s) := by
  obtain ⟨a, e⟩ := a
  cases e <;> simp [beforeE, sOut, put_write, runAll]

theorem andThen_congr {r : SRes} {f g : MB → SRes} (h : ∀ mb, f mb = g mb) : r.andThen f = r.andThen g := by cases r <;> simp [SRes.andThen, h]

theorem keep_text (surf : Bool) (l : List Item) : ∀ d k, ptext d k (keep surf l) = ptext d k (l.map Prod.snd) := by
  induction l with
  | nil => intro d k; rfl
  | cons i l ih =>
    intro d k
    obtain ⟨f, p⟩ := i
    cases p <;> cases surf <;> simp [keep, ptext, ih]

theorem keep_args (surf : Bool) (l : List Item) : pargs (keep surf l) = pargs (l.map Prod.snd) := by
  induction l with
  | nil => rfl
  | cons i l ih => obtain ⟨f, p⟩ := i; cases p <;> cases surf <;> simp [keep, pargs, ih]

theorem keep_errs (surf : Bool) (l : List Item) : perrs (keep surf l) = if surf then perrs (l.map Prod.snd) else [] := by
  induction l with
  | nil => cases surf <;> rfl
  | cons i l ih => obtain ⟨f, p⟩ := i; cases p <;> cases surf <;> simp_all [keep, perrs]

theorem failsOf_eq (l : List Item) : (∀ d k, ptext d k (failsOf l) = []) ∧ pargs (failsOf l) = [] ∧ perrs (failsOf l) = perrs (l.map Prod.snd) := by
  induction l with
  | nil => exact ⟨fun _ _ => rfl, rfl, rfl⟩
  | cons i l ih => obtain ⟨f, p⟩ := i; cases p <;> simp_all [failsOf, ptext, pargs, perrs]

theorem joinEdge_emit (E : SEnv) (e : SEdge) (mb : MB) (r : List Item × SEnd) :
    joinEdge E e mb (sOut r { own := { dialect := mb.own.dialect, total := mb.own.total } }) = sOut (emitJoin E e r) mb := by
  obtain ⟨l, en⟩ := r
  cases en with
  | panic => rfl
  | ok =>
    simp only [sOut, emitJoin, joinEdge, toOwn, runAll_true, runAll_own, runP_eq]
    simp [MB.join, Bld.add, ptext, pargs, perrs, ptext_append, pargs_append, perrs_append, keep_text, keep_args, keep_errs]
  | err er =>
    simp only [sOut, emitJoin, joinEdge, toOwn, runAll_true, runAll_own, runP_eq]
    obtain ⟨h1, h2, h3⟩ := failsOf_eq l
    cases E.surf <;> simp [MB.join, Bld.add, Bld.addErr, ptext, pargs, perrs, ptext_append, pargs_append, perrs_append, h1, h2, h3]

theorem sBin_emit (l r : List Item × SEnd) (o : Node) (f : MB → SRes) (hf : ∀ mb, f mb = sOut r mb) (mb : MB) :
    sBin (sOut l mb) o f = sOut (emitBin l o r) mb := by
  obtain ⟨l, e⟩ := l
  have hw : ∀ t, (sOut (l, e) mb).also (MB.write t) = sOut (l ++ [wr t], e) mb := fun t => (sOut_after (l, e) t mb).symm
  cases e with
  | panic => rfl
  | ok =>
    simp only [sBin, emitBin, sOut]
    cases operation o with
    | none => rfl
    | some op =>
      simp only []
      cases binText op with
      | none => rfl
      | some t =>
        simp only []
        have := sOut_seq (l ++ [wr t], .ok) r mb
        simp only [seqE] at this ⊢
        rw [← hw] at this
        rw [andThen_congr hf]
        exact this.symm
  | err er =>
    simp only [sBin, emitBin, sOut]
    cases operation o with
    | none => rfl
    | some op =>
      simp only []
      cases binText op with
      | none => rfl
      | some t =>
        simp only []
        have := sOut_seq (l ++ [wr t], .err er) r mb
        simp only [seqE] at this ⊢
        rw [← hw] at this
        rw [andThen_congr hf]
        exact this.symm.trans (hw t)

mutual
/-- Visiting a tree writes its pieces. -/
theorem svisit_emit (E : SEnv) (node : Option Nat) : ∀ (n : Node) (mb : MB), svisit E node n mb = sOut (semit E node n) mb
  | .nil, _ => rfl
  | .op _, _ => rfl
  | .int _, _ | .bool _, _ | .str _, _ | .null, _ | .arr _, _ => by rw [svisit, semit, sVal_emit]
  | .ident _, _ => rfl
  | .ref _, _ => rfl
  | .paren e, mb => by rw [svisit, semit, sOut_after, sOut_before, svisit_emit E node e]
  | .not e, mb => by rw [svisit, semit, sOut_before, svisit_emit E node e]
  | .func f ps, mb => by
    rw [svisit, semit]
    split
    · rw [sOut_after, sOut_before, svisit1_emit E node ps]
    · split
      · unfold sEdge emitEdge
        cases ps with
        | nil => rfl
        | cons p rest =>
          simp only []
          split
          · rfl
          · cases node with
            | none => rfl
            | some t =>
              simp only []
              cases (E.edges t).lookup (nodeName p) with
              | none => rfl
              | some e =>
                simp only []
                cases rest with
                | nil => simp [sOut, runAll, Item.run, MB.join, Piece.run, Bld.write]
                | cons c rest =>
                  cases rest with
                  | nil =>
                    simp only []
                    split
                    · rw [svisit2_emit E (some e.to) [p, c], joinEdge_emit]
                    · rfl
                  | cons => rfl
      · rfl
  | .between l o a b, mb => by
    rw [svisit, semit]
    cases operation o with
    | none => rfl
    | some op =>
      simp only [sOut_seq]
      rw [svisit_emit E node l]
      refine congr (congrArg _ (congr (congrArg _ (congr (congrArg _ rfl) ?_)) ?_)) ?_ <;> funext mb
      · rw [svisit_emit E node a, sOut_before]
      · rw [svisit_emit E node l, sOut_before]
      · rw [svisit_emit E node b, sOut_before]
  | .pred l o, mb => by
    rw [svisit, semit]
    cases operation o with
    | none => rfl
    | some op =>
      simp only []
      cases entsqlOps.lookup op with
      | none => rfl
      | some t => simp only []; rw [sOut_after, svisit_emit E node l]
  | .cmp l o r, mb => by rw [svisit, semit, svisit_emit E node l]; exact sBin_emit _ _ _ _ (svisit_emit E node r) mb
  | .logic l o r, mb => by rw [svisit, semit, svisit_emit E node l]; exact sBin_emit _ _ _ _ (svisit_emit E node r) mb
theorem svisit1_emit (E : SEnv) (node : Option Nat) : ∀ (l : List Node) (mb : MB), svisit1 E node l mb = sOut (semit1 E node l) mb
  | [], _ => rfl
  | n :: _, mb => by rw [svisit1, semit1, svisit_emit E node n]
theorem svisit2_emit (E : SEnv) (node : Option Nat) : ∀ (l : List Node) (mb : MB), svisit2 E node l mb = sOut (semit2 E node l) mb
  | [], _ => rfl
  | _ :: l, mb => by rw [svisit2, semit2, svisit1_emit E node l]
end

end Verif
