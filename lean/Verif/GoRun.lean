import Verif.GoCode

/-!
# Running the text of the generated recogniser

A function body is laid out as a list of instructions (`flat`): blocks leave no trace, a `switch` becomes a jump table followed by its bodies, each of which
ends in a jump behind the `switch`.  `Runs` is the meaning of the instructions as a relation between a point of a function, the values of its
variables and of the variables shared by all functions, and what the function returns.
-/

namespace Verif.Go

/-- Instructions: the simple statements, the jump table of a `switch`, and the jump behind a `switch`. -/
inductive Ins where
  | op (i : Op)
  | table (t : List (List Char × Nat)) (d : Nat)
  | jump (a : Nat)
  deriving DecidableEq, Repr

/-- Does a statement list end in `break`? -/
def endsBrk : Code → Bool
  | .op .brk .done => true
  | .op _ k => endsBrk k
  | .block _ k => endsBrk k
  | .switch _ k => endsBrk k
  | _ => false

/-- The number of instructions of a statement list. -/
def size : Code → Nat
  | .done => 0
  | .op _ k => 1 + size k
  | .block b k => size b + size k
  | .switch a k => 1 + size a + size k
  | .case _ b r => size b + (if endsBrk b then 0 else 1) + size r
  | .dflt b => size b + if endsBrk b then 0 else 1

/-- Where the bodies of the cases begin, if the first one begins at `pc`. -/
def starts : Code → Nat → List (List Char × Nat)
  | .case cs b r, pc => (cs, pc) :: starts r (pc + (size b + if endsBrk b then 0 else 1))
  | _, _ => []

/-- Where the body of `default` begins; a `switch` without `default` goes on at its end `e`. -/
def startDflt : Code → Nat → Nat → Nat
  | .case _ b r, pc, e => startDflt r (pc + (size b + if endsBrk b then 0 else 1)) e
  | .dflt _, pc, _ => pc
  | _, _, e => e

/-- The instructions of a statement list that is placed at `pc` inside of a `switch` that ends at `e`. -/
def flat : Code → Nat → Nat → List Ins
  | .done, _, _ => []
  | .op i k, pc, e => (if i = .brk then .jump e else .op i) :: flat k (pc + 1) e
  | .block b k, pc, e => flat b pc e ++ flat k (pc + size b) e
  | .switch a k, pc, e =>
    .table (starts a (pc + 1)) (startDflt a (pc + 1) (pc + 1 + size a)) ::
      (flat a (pc + 1) (pc + 1 + size a) ++ flat k (pc + 1 + size a) e)
  | .case _ b r, pc, e =>
    flat b pc e ++ ((if endsBrk b then [] else [.jump e]) ++ flat r (pc + (size b + if endsBrk b then 0 else 1)) e)
  | .dflt b, pc, e => flat b pc e ++ if endsBrk b then [] else [.jump e]

/-- The instructions of a function. -/
def layout (c : Code) : List Ins := flat c 0 0

/-- The position of a label. -/
def find (P : List Ins) (l : Nat) : Option Nat := P.findIdx? (· = .op (.label l))

/-- The function `_rules[r]`; index 0 is `ruleUnknown`. -/
def func (r : TokKind) : Option (List Ins) :=
  match ruleOrder.idxOf? r with
  | none => none
  | some i => (rulesTable[i + 1]?.join).map layout

/-- The values of `positionN` and `tokenIndexN`. -/
abbrev Vars := Nat → Nat × Nat

/-- Assignment. -/
def Vars.put (v : Vars) (n : Nat) (x : Nat × Nat) : Vars := fun m => if m = n then x else v m

/-- The body that a jump table selects. -/
def pick : List (List Char × Nat) → Nat → Nat → Nat
  | [], d, _ => d
  | (cs, a) :: t, d, x => if x ∈ cs.map Char.toNat then a else pick t d x

/-- `Runs buf P pc v st o`: from instruction `pc` of the function `P`, with the values `v` of its variables and the shared variables `st`, the function
returns with `o`: `ok` and `fail` with the shared variables at a `return true` and a `return false`, `panic` if the buffer is read out of range.
A call of another rule is one step.  `matchDot` and `add` are /repo/miniquery/miniquery.peg.go:489-503. -/
inductive Runs (buf : List Nat) : List Ins → Nat → Vars → St → Out → Prop where
  | save {P pc v st o n} : P[pc]? = some (.op (.save n)) → Runs buf P (pc + 1) (v.put n (st.pos, st.ti)) st o → Runs buf P pc v st o
  | mark {P pc v st o n} : P[pc]? = some (.op (.mark n)) → Runs buf P (pc + 1) (v.put n (st.pos, (v n).2)) st o → Runs buf P pc v st o
  | restore {P pc v st o n} : P[pc]? = some (.op (.restore n)) →
      Runs buf P (pc + 1) v { st with pos := (v n).1, ti := (v n).2 } o → Runs buf P pc v st o
  | callOk {P pc v st st' o r l Q} : P[pc]? = some (.op (.call r l)) → func r = some Q → Runs buf Q 0 (fun _ => (0, 0)) st (.ok st') →
      Runs buf P (pc + 1) v st' o → Runs buf P pc v st o
  | callFail {P pc v st st' o r l Q k} : P[pc]? = some (.op (.call r l)) → func r = some Q → Runs buf Q 0 (fun _ => (0, 0)) st (.fail st') →
      find P l = some k → Runs buf P k v st' o → Runs buf P pc v st o
  | callPanic {P pc v st r l Q} : P[pc]? = some (.op (.call r l)) → func r = some Q → Runs buf Q 0 (fun _ => (0, 0)) st .panic →
      Runs buf P pc v st .panic
  | chrOk {P pc v st o c l} : P[pc]? = some (.op (.chr c l)) → buf[st.pos]? = some c.toNat → Runs buf P (pc + 1) v st o → Runs buf P pc v st o
  | chrFail {P pc v st o c l x k} : P[pc]? = some (.op (.chr c l)) → buf[st.pos]? = some x → x ≠ c.toNat →
      find P l = some k → Runs buf P k v st o → Runs buf P pc v st o
  | chrPanic {P pc v st c l} : P[pc]? = some (.op (.chr c l)) → buf[st.pos]? = none → Runs buf P pc v st .panic
  | rngOk {P pc v st o a b l x} : P[pc]? = some (.op (.rng a b l)) → buf[st.pos]? = some x → ¬ (x < a.toNat ∨ x > b.toNat) →
      Runs buf P (pc + 1) v st o → Runs buf P pc v st o
  | rngFail {P pc v st o a b l x k} : P[pc]? = some (.op (.rng a b l)) → buf[st.pos]? = some x → (x < a.toNat ∨ x > b.toNat) →
      find P l = some k → Runs buf P k v st o → Runs buf P pc v st o
  | rngPanic {P pc v st a b l} : P[pc]? = some (.op (.rng a b l)) → buf[st.pos]? = none → Runs buf P pc v st .panic
  | dotOk {P pc v st o l x} : P[pc]? = some (.op (.dot l)) → buf[st.pos]? = some x → x ≠ endSymbol →
      Runs buf P (pc + 1) v { st with pos := st.pos + 1 } o → Runs buf P pc v st o
  | dotFail {P pc v st o l k} : P[pc]? = some (.op (.dot l)) → buf[st.pos]? = some endSymbol →
      find P l = some k → Runs buf P k v st o → Runs buf P pc v st o
  | dotPanic {P pc v st l} : P[pc]? = some (.op (.dot l)) → buf[st.pos]? = none → Runs buf P pc v st .panic
  | inc {P pc v st o} : P[pc]? = some (.op .inc) → Runs buf P (pc + 1) v { st with pos := st.pos + 1 } o → Runs buf P pc v st o
  | goto {P pc v st o l k} : P[pc]? = some (.op (.goto l)) → find P l = some k → Runs buf P k v st o → Runs buf P pc v st o
  | label {P pc v st o l} : P[pc]? = some (.op (.label l)) → Runs buf P (pc + 1) v st o → Runs buf P pc v st o
  | add {P pc v st o r n} : P[pc]? = some (.op (.add r n)) → Runs buf P (pc + 1) v (addTok r (v n).1 st) o → Runs buf P pc v st o
  | addHere {P pc v st o r} : P[pc]? = some (.op (.addHere r)) → Runs buf P (pc + 1) v (addTok r st.pos st) o → Runs buf P pc v st o
  | retTrue {P pc v st} : P[pc]? = some (.op (.ret true)) → Runs buf P pc v st (.ok st)
  | retFalse {P pc v st} : P[pc]? = some (.op (.ret false)) → Runs buf P pc v st (.fail st)
  | table {P pc v st o t d x} : P[pc]? = some (.table t d) → buf[st.pos]? = some x → Runs buf P (pick t d x) v st o → Runs buf P pc v st o
  | tablePanic {P pc v st t d} : P[pc]? = some (.table t d) → buf[st.pos]? = none → Runs buf P pc v st .panic
  | jump {P pc v st o a} : P[pc]? = some (.jump a) → Runs buf P a v st o → Runs buf P pc v st o

/-- The function `_rules[r]`, called with these values of the shared variables, returns with `o`. -/
def Calls (buf : List Nat) (r : TokKind) (st : St) (o : Out) : Prop := ∃ P, func r = some P ∧ Runs buf P 0 (fun _ => (0, 0)) st o

end Verif.Go
