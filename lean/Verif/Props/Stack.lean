import Verif.StackThms
import Verif.Props.Size
import Verif.Props.Deep
import Verif.Props.Structure
import Verif.Props.Build

/-!
# C78: the stack that printing and translating take

Unlike parsing, printing a tree and translating it need room for the depth of the tree, and a chain of `and` and `or` is as deep as it is long.
-/

namespace Verif

/-- **C78.** `Build` of the tree of an accepted query: with room for as many calls as the tree is deep it returns what it returns on an unlimited stack, with
less it overflows. -/
theorem C78_build {s : Str} {n : Node} (h : parse s = .ok n) (P : Char → Bool) (d : Nat) :
    buildDeep P d n = if d < depth n then none else some (build P n) := by
  have key := buildDeepN_lim (P := P) (root := rootName n) d (parse_fine h).1
  have hp : Printed (build P n) := by
    obtain ⟨t, ht⟩ := C07_printed P s n h
    rw [ht]; rfl
  split
  · rename_i hd; exact key.needed hp hd
  · exact key.enough (by omega)

/-- **C78.** `String` returns the same as on an unlimited stack or overflows; room for the depth of the tree is enough, room for less than the nesting of its
operators, parentheses and negations is not. -/
theorem C78_string {s : Str} {n : Node} (h : parse s = .ok n) (d : Nat) :
    (strDeep d n = none ∨ strDeep d n = some (nodeStr n)) ∧ (depth n ≤ d → strDeep d n = some (nodeStr n)) ∧ (d < spine n → strDeep d n = none) := by
  have key := strDeep_lim d (parse_fine h).1
  exact ⟨key.same, key.enough, key.needed (by obtain ⟨t, ht⟩ := nodeStr_complete (parse_fine h).1.complete; rw [ht]; rfl)⟩

/-- **C78.** The gorm translator returns the same as on an unlimited stack or overflows; room for the depth of the tree is enough, and if the query can be
translated then less is not. -/
theorem C78_gorm {s : Str} {n : Node} (h : parse s = .ok n) (E : GEnv) (st : GSt) (d : Nat) :
    (gormDeep E d n st = none ∨ gormDeep E d n st = some (gvisit E n st)) ∧ (depth n ≤ d → gormDeep E d n st = some (gvisit E n st)) ∧
    ((∃ st', gvisit E n st = .ok st') → d < depth n → gormDeep E d n st = none) := by
  have key := gormDeep_lim (E := E) d (parse_fine h).1 st
  exact ⟨key.same, key.enough, key.needed⟩

/-- **C78.** So does the ent SQL translator; if the query can be translated then room for less than the nesting of its operators is not enough. -/
theorem C78_entsql {s : Str} {n : Node} (h : parse s = .ok n) (E : SEnv) (node : Option Nat) (mb : MB) (d : Nat) :
    (entsqlDeep E d node n mb = none ∨ entsqlDeep E d node n mb = some (svisit E node n mb)) ∧
    (depth n ≤ d → entsqlDeep E d node n mb = some (svisit E node n mb)) ∧
    ((∃ mb', svisit E node n mb = .ok mb') → d < spine n → entsqlDeep E d node n mb = none) := by
  have key := entsqlDeep_lim (E := E) d (parse_fine h).1 node mb
  exact ⟨key.same, key.enough, key.needed⟩

/-- **C78.** So does the entql translator. -/
theorem C78_entql {s : Str} {n : Node} (h : parse s = .ok n) (st : List EExpr) (d : Nat) :
    (entqlDeep d n st = none ∨ entqlDeep d n st = some (evisit n st)) ∧ (depth n ≤ d → entqlDeep d n st = some (evisit n st)) ∧
    ((∃ st', evisit n st = .ok st') → d < spine n → entqlDeep d n st = none) := by
  have key := entqlDeep_lim d (parse_fine h).1 st
  exact ⟨key.same, key.enough, key.needed⟩

/-- **C78.** Room for five calls for each character of the query is enough for all of them. -/
theorem C78_linear {s : Str} {n : Node} (h : parse s = .ok n) (d : Nat) (hd : 5 * s.length ≤ d) :
    (∀ P, buildDeep P d n = some (build P n)) ∧ strDeep d n = some (nodeStr n) ∧ (∀ E st, gormDeep E d n st = some (gvisit E n st)) ∧
    (∀ E node mb, entsqlDeep E d node n mb = some (svisit E node n mb)) ∧ (∀ st, entqlDeep d n st = some (evisit n st)) := by
  have hl := C65_depth h
  exact ⟨fun P => by rw [C78_build h, if_neg (by omega)], (C78_string h d).2.1 (by omega), fun E st => (C78_gorm h E st d).2.1 (by omega),
    fun E node mb => (C78_entsql h E node mb d).2.1 (by omega), fun st => (C78_entql h st d).2.1 (by omega)⟩

theorem spine_chain (ls : List Link) (n : Node) : ls.length + 1 ≤ spine (ls.foldl (fun n l => .logic n (.op l.o) l.n) n) := by
  have key : ∀ (ls : List Link) (n : Node), ls.length + spine n ≤ spine (ls.foldl (fun n l => .logic n (.op l.o) l.n) n) := by
    intro ls
    induction ls with
    | nil => intro n; simp
    | cons l ls ih =>
      intro n
      have := ih (.logic n (.op l.o) l.n)
      simp only [spine] at this
      simp only [List.foldl_cons, List.length_cons]
      omega
  have h1 : 1 ≤ spine n := by cases n <;> simp only [spine] <;> omega
  have := key ls n
  omega

/-- **C78.** A chain of `and` and `or`, with any operands and blanks, needs a call for each operator, although parsing it takes no more stack than a short one
(`C72_flat`): with room for as many calls as it has operators, printing it overflows, and so does translating it, if it can be translated at all. -/
theorem C78_chain {u n0} (hu : Sp .neg u n0) (ls : List Link)
    (h : ∀ l ∈ ls, WS l.w1 ∧ LogicOp l.ob l.o ∧ l.Clear ∧ WS l.w2 ∧ Sp .neg l.q l.n) (d : Nat) (hd : d ≤ ls.length) :
    ∃ n, parse (u ++ linkText ls) = .ok n ∧ (∀ P, buildDeep P d n = none) ∧ strDeep d n = none ∧
      (∀ E st st', gvisit E n st = .ok st' → gormDeep E d n st = none) ∧
      (∀ E node mb mb', svisit E node n mb = .ok mb' → entsqlDeep E d node n mb = none) ∧
      (∀ st st', evisit n st = .ok st' → entqlDeep d n st = none) := by
  have hp := C12_logic_chain hu ls h
  have hs := spine_chain ls n0
  have hl := spine_le_depth _ (parse_fine hp).1
  exact ⟨_, hp, fun P => by rw [C78_build hp, if_pos (by omega)], (C78_string hp d).2.2 (by omega),
    fun E st st' e => (C78_gorm hp E st d).2.2 ⟨st', e⟩ (by omega), fun E node mb mb' e => (C78_entsql hp E node mb d).2.2 ⟨mb', e⟩ (by omega),
    fun st st' e => (C78_entql hp st d).2.2 ⟨st', e⟩ (by omega)⟩

/-- Hypotheses of `C78_chain`: `a or a or … or a` with any number of operators; fifteen calls suffice to parse it. -/
example (k : Nat) : ∃ ls : List Link, ls.length = k ∧ linkText ls = (List.replicate k c!" or a").flatten ∧ Sp .neg c!"a" (.ident c!"a") ∧
    (∀ l ∈ ls, WS l.w1 ∧ LogicOp l.ob l.o ∧ l.Clear ∧ WS l.w2 ∧ Sp .neg l.q l.n) ∧ parseDeep 15 (c!"a" ++ linkText ls) = parse (c!"a" ++ linkText ls) := by
  have e : linkText (List.replicate k ⟨c!" ", c!"or", c!"or", c!" ", c!"a", .ident c!"a"⟩) = (List.replicate k c!" or a").flatten := by
    induction k with
    | zero => rfl
    | succ k ih => rw [List.replicate_succ, List.replicate_succ, List.flatten_cons, linkText, ih]; rfl
  refine ⟨List.replicate k ⟨c!" ", c!"or", c!"or", c!" ", c!"a", .ident c!"a"⟩, by simp, e, .negUp sp_a, ?_, ?_⟩
  · intro l hl
    rw [(List.mem_replicate.mp hl).2]
    exact ⟨ws_space, .word (by decide) (CI.refl _), .inl (by decide), ws_space, .negUp sp_a⟩
  · rw [e]
    have hc : ∀ c ∈ c!"a" ++ (List.replicate k c!" or a").flatten, c ∈ c!"a or" := by
      intro c hc
      rw [List.mem_append] at hc
      rcases hc with hc | hc
      · revert c; decide
      · obtain ⟨l, hl, hc'⟩ := List.mem_flatten.mp hc
        rw [(List.mem_replicate.mp hl).2] at hc'
        clear hc
        revert c; decide
    exact C72_flat _ (fun hm => absurd (hc _ hm) (by decide)) (fun hm => absurd (hc _ hm) (by decide))

/-- The bounds are met: a chain of three, and what the translators make of it with room for five calls and for four. -/
example :
    let n : Node := .logic (.logic (.cmp (.ident c!"a") (.op c!"eq") (.int 1)) (.op c!"or") (.cmp (.ident c!"b") (.op c!"eq") (.int 2))) (.op c!"and")
      (.paren (.cmp (.ident c!"c") (.op c!"eq") (.int 3)))
    let E : SEnv := ⟨fun _ x => x, fun _ => [], true, true⟩
    parse c!"a = 1 or b = 2 and (c = 3)" = .ok n ∧ depth n = 4 ∧ spine n = 4 ∧
    buildDeep asciiPrint 4 n = some (some c!"a == 1 || b == 2 && (c == 3)") ∧ buildDeep asciiPrint 3 n = none ∧
    strDeep 4 n = some (nodeStr n) ∧ strDeep 3 n = none ∧
    (entqlDeep 4 n []).isSome = true ∧ entqlDeep 3 n [] = none ∧
    (entsqlDeep E 4 none n { own := { dialect := c!"mysql" } }).isSome = true ∧ entsqlDeep E 3 none n { own := { dialect := c!"mysql" } } = none := by
  decide +kernel

/-- A translator that stops at an error needs less room. -/
example :
    let n : Node := .logic (.ident c!"x") (.op c!"and") (.not (.not (.ident c!"a")))
    let E : GEnv := ⟨⟨⟨fun x => x == c!"a", fun _ => none, []⟩, fun _ => none⟩, id, fun a b => a == b⟩
    depth n = 4 ∧ gormDeep E 2 n {} = some (.err (.fieldNotFound c!"x") {}) ∧ gvisit E n {} = .err (.fieldNotFound c!"x") {} := by decide +kernel

end Verif
