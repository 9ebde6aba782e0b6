import Verif.Mini.Gq
import Verif.Mini.NodeRun

/-! # Running /repo/gormq/miniquery.go: names and operators -/

namespace Verif.Mini
open Verif

variable {Q : Char → Bool} {N n : Nat} {fold : Str → Str → Bool} {qt : Str → Str} {h : Heap} {L : Lib}

/-- What a call does in the package gormq. -/
abbrev gqCall (Q : Char → Bool) (N : Nat) (fold : Str → Str → Bool) (qt : Str → Str) : Nat → Val → List Val → Heap → Vals := call gq (gqLib Q N fold qt)

theorem gg_normalize : call gq L (n + 1) (.glob c!"normalize") [] h = .ok ([.map (.str []) (sqlNormalize.map fun kv => (kv.1, .str kv.2))], h) := rfl
theorem gg_normalizeSQL : call gq L (n + 1) (.glob c!"normalizeSQL") [] h = .ok ([.fn c!"normalizeSQL"], h) := rfl
theorem gg_getDBName : call gq L (n + 1) (.glob c!"getDBName") [] h = .ok ([.fn c!"getDBName"], h) := rfl
theorem gg_EqualFold : call gq L (n + 1) (.glob c!"strings.EqualFold") [] h = .ok ([.lib c!"strings.EqualFold"], h) := rfl
theorem gg_fmtErrorf : call gq L (n + 1) (.glob c!"fmt.Errorf") [] h = .ok ([.lib c!"fmt.Errorf"], h) := rfl
theorem gg_Errorf : call gq L (n + 1) (.glob c!"errors.Errorf") [] h = .ok ([.lib c!"errors.Errorf"], h) := rfl
theorem gg_New : call gq L (n + 1) (.glob c!"errors.New") [] h = .ok ([.lib c!"errors.New"], h) := rfl

theorem gl_fmtErrorf (f args) : gqCall Q N fold qt (n + 1) (.lib c!"fmt.Errorf") (.str f :: args) h = .ok ([errCall c!"fmt.Errorf" f args], h) := rfl
theorem gl_New (f args) : gqCall Q N fold qt (n + 1) (.lib c!"errors.New") (.str f :: args) h = .ok ([errCall c!"errors.New" f args], h) := rfl
theorem gl_EqualFold (a b) : gqCall Q N fold qt (n + 1) (.lib c!"strings.EqualFold") [.str a, .str b] h = yes (fold a b) h := rfl

theorem gp_st : findPkg c!"st" gq.decls = false := rfl
theorem gp_f : findPkg c!"f" gq.decls = false := rfl
theorem gp_strings : findPkg c!"strings" gq.decls = true := rfl
theorem gp_fmt : findPkg c!"fmt" gq.decls = true := rfl
theorem gp_errors : findPkg c!"errors" gq.decls = true := rfl
theorem gp_miniquery : findPkg c!"miniquery" gq.decls = true := rfl

/-- Running `normalizeSQL`. -/
theorem normalizeSQL_run (s : Str) : call gq L (n + 2) (.fn c!"normalizeSQL") [.str s] h = .ok ([.str (normalizeSQL s)], h) := by
  have e : call gq L (n + 2) (.fn c!"normalizeSQL") [.str s] h = runBody gq (call gq L (n + 1)) [c!"s"] [c!"_"] gormnormalizeSQL [] [.str s] h := rfl
  rw [e, runBody_plain rfl (by decide) (by decide)]
  cases e : sqlNormalize.lookup s <;> gorun [gormnormalizeSQL, gg_normalize, fget_table, e, normalizeSQL]

/-! ## getDBName -/

/-- A loop that returns when it has found something. -/
theorem loop_find {α : Type} (val : α → Val) (p : α → Bool) (r : α → List Val) (body : Nat → Val → Locals → Heap → Done) (l0 : Locals) (h : Heap)
    (hb : ∀ i a, body i (val a) l0 h = if p a then .ok (.ret (r a), l0, h) else .ok (.norm, l0, h)) (l : List α) (i : Nat) :
    loop body i (l.map val) l0 h = match l.find? p with | some a => .ok (.ret (r a), l0, h) | none => .ok (.norm, l0, h) := by
  induction l generalizing i with
  | nil => rfl
  | cons a l ih =>
    rw [List.map_cons, loop, hb]
    cases e : p a <;> simp [e, ih]

theorem fget_db (s : Str) (l : List Str) : (fget s (l.map fun k => (k, fieldVal (k, k)))).isSome = l.contains s := by
  induction l with
  | nil => rfl
  | cons k l ih => by_cases e : s = k <;> simp_all [fget]

theorem fget_lookup {α : Type} (f : Str × α → Val) (s : Str) (l : List (Str × α)) :
    fget s (l.map fun kv => (kv.1, f kv)) = (l.lookup s).map fun v => f (s, v) := by
  induction l with
  | nil => rfl
  | cons kv l ih =>
    obtain ⟨k, v⟩ := kv
    by_cases e : s = k
    · subst e; simp [fget]
    · have : (s == k) = false := by simpa using e
      simp [fget, e, List.lookup, this, ih]

/-- A schema with any further fields. -/
def anySchema (t : FTable) (more : List (Str × Val)) : Val := .obj c!"schema.Schema" (tableFields t ++ more)

theorem sel_byDB (t more) : select gq (anySchema t more) c!"FieldsByDBName" h = .ok ([.map .nil (t.db.map fun k => (k, fieldVal (k, k)))], h) := rfl
theorem sel_byName (t more) : select gq (anySchema t more) c!"FieldsByName" h = .ok ([.map .nil (t.named.map fun kv => (kv.1, fieldVal kv))], h) := rfl
theorem sel_fields (t more) : select gq (anySchema t more) c!"Fields" h = .ok ([.slice (t.fields.map fieldVal)], h) := rfl
theorem sel_fieldName (f) : select gq (fieldVal f) c!"Name" h = .ok ([.str f.1], h) := rfl
theorem sel_fieldDB (f) : select gq (fieldVal f) c!"DBName" h = .ok ([.str f.2], h) := rfl

/-- Running `getDBName`. -/
theorem getDBName_run (t : FTable) (more : List (Str × Val)) (s : Str) :
    gqCall Q N fold qt (n + 2) (.fn c!"getDBName") [anySchema t more, .str s] h =
      match getDBName fold t.table s with
      | some d => .ok ([.str d, .bool true], h)
      | none => .ok ([.str s, .bool false], h) := by
  have e : gqCall Q N fold qt (n + 2) (.fn c!"getDBName") [anySchema t more, .str s] h =
    runBody gq (gqCall Q N fold qt (n + 1)) [c!"st", c!"name"] [c!"_", c!"_"] gormgetDBName [] [anySchema t more, .str s] h := rfl
  rw [e, runBody_plain rfl (by decide) (by decide)]
  have hdb := fget_db s t.db
  have hnm := fget_lookup fieldVal s t.named
  have hl := loop_find fieldVal (fun f => fold f.1 s) (fun f => [.str f.2, .bool true])
    (rangeBody [] c!"_" c!"f" (execs gq (gqCall Q N fold qt (n + 1)) [] (loopOf (nth gormgetDBName 2))))
    [(c!"name", .val (.str s)), (c!"st", .val (anySchema t more))] h (by
      intro i a
      cases ep : fold a.1 s <;> gorun [gormgetDBName, nth, loopOf, rangeBody, gg_EqualFold, gl_EqualFold, gp_strings, gp_f, sel_fieldName, sel_fieldDB, ep]) t.fields 0
  simp only [gormgetDBName, nth, loopOf] at hl
  cases e1 : fget s (t.db.map fun k => (k, fieldVal (k, k))) with
  | some v =>
    rw [e1] at hdb
    have : t.table.byDB s = true := hdb.symm
    gorun [gormgetDBName, gp_st, gp_f, sel_byDB, sel_byName, sel_fields, e1, getDBName, this]
  | none =>
    rw [e1] at hdb
    have hd : t.table.byDB s = false := hdb.symm
    cases e2 : t.named.lookup s with
    | some d =>
      have hn : t.table.byName s = some d := e2
      rw [e2] at hnm
      gorun [gormgetDBName, gp_st, gp_f, sel_byDB, sel_byName, sel_fields, e1, hnm, getDBName, hd, hn, sel_fieldDB]
    | none =>
      have hn : t.table.byName s = none := e2
      rw [e2] at hnm
      have hf : t.table.fields = t.fields := rfl
      cases e3 : t.fields.find? fun f => fold f.1 s <;> rw [e3] at hl <;>
      gorun [gormgetDBName, gp_st, gp_f, sel_byDB, sel_byName, sel_fields, e1, hnm, getDBName, hd, hn, hf, e3, hl]

end Verif.Mini
