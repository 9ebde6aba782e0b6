import Verif.Visitor
import Verif.Props.Build

/-! # Visitor (C41) -/

namespace Verif

/-- C41 is false: `Init` changes nothing for its caller; a visitor without callbacks still panics afterwards, on every node that is
not a reference (which is an error). -/
theorem C41_init_refuted (bad : Nat → Node → Bool) :
    (∀ v k, visInit v k = v k) ∧ ∀ n, visit bad (visInit fun _ => none) n = .panic ∨ ∃ l, n = .ref l ∧ visit bad (visInit fun _ => none) n = .err := by
  refine ⟨fun v k => rfl, fun n => ?_⟩
  cases n <;> first | exact .inl rfl | exact .inr ⟨_, rfl, rfl⟩

/-- C41 is false: the function callback is never called; even a visitor on which the assignments of `Init` had taken effect panics on
every function call, unless it has its own between callback, which then is called instead. -/
theorem C41_function_refuted (bad : Nat → Node → Bool) (v : Vis) (f : Str) (ps : List Node) :
    (v .between = none → visit bad (initBody v) (.func f ps) = .panic) ∧
    (∀ i, v .between = some (.user i) → bad i (.func f ps) = false → visit bad (initBody v) (.func f ps) = .ok [(i, .func f ps)]) ∧
    (∀ i, v .function = some (.user i) → v .between = none → visit bad (initBody v) (.func f ps) = .panic) := by
  refine ⟨fun h => ?_, fun i h hb => ?_, fun i _ h => ?_⟩
  · simp [visit, callCb, initBody, h]
  · simp [visit, callCb, initBody, h, hb]
  · simp [visit, callCb, initBody, h]

/-- C41: the function callback has no influence at all. -/
theorem C41_function_ignored (bad : Nat → Node → Bool) (v v' : Vis) (h : ∀ k, k ≠ .function → v k = v' k) (n : Node) :
    visit bad v n = visit bad v' n := by
  have h1 : ∀ k, k ≠ .function → ∀ n d, callCb bad v k n d = callCb bad v' k n d := fun k hk n d => by unfold callCb; rw [h k hk]
  exact Node.rec (motive_1 := fun n => visit bad v n = visit bad v' n) (motive_2 := fun l => visitL bad v l = visitL bad v' l)
    rfl
    (fun i => h1 _ (by decide) _ _) (fun b => h1 _ (by decide) _ _) (fun s => h1 _ (by decide) _ _) (h1 _ (by decide) _ _)
    (fun l ih => by simp only [visit]; rw [h1 _ (by decide), ih])
    (fun o => h1 _ (by decide) _ _) (fun x => h1 _ (by decide) _ _) (fun _ => rfl)
    (fun l o h2 h3 => by simp only [visit]; rw [h1 _ (by decide), h2, h3])
    (fun l o r h2 h3 h4 => by simp only [visit]; rw [h1 _ (by decide), h2, h3, h4])
    (fun l o r h2 h3 h4 => by simp only [visit]; rw [h1 _ (by decide), h2, h3, h4])
    (fun e h2 => by simp only [visit]; rw [h1 _ (by decide), h2])
    (fun e h2 => by simp only [visit]; rw [h1 _ (by decide), h2])
    (fun l o a b h2 h3 h4 h5 => by simp only [visit]; rw [h1 _ (by decide), h2, h3, h4, h5])
    (fun f ps _ => by simp only [visit]; rw [h1 _ (by decide)])
    rfl
    (fun n l h2 h3 => by simp only [visitL]; rw [h2, h3])
    n

mutual
/-- The leaves of a tree in reading order: values (arrays as a whole), operators and names. -/
def leaves : Node → List Node
  | .paren e => leaves e
  | .not e => leaves e
  | .cmp l o r => leaves l ++ (leaves o ++ leaves r)
  | .logic l o r => leaves l ++ (leaves o ++ leaves r)
  | .pred l o => leaves l ++ leaves o
  | .between l o a b => leaves l ++ (leaves o ++ (leaves a ++ leaves b))
  | .func _ ps => leavesL ps
  | n => [n]
/-- The same for a list. -/
def leavesL : List Node → List Node
  | [] => []
  | n :: l => leaves n ++ leavesL l
end

/-- The tree contains no function call and no dotted reference. -/
def Simple (n : Node) : Prop := ∀ m, Sub m n → (∀ f ps, m ≠ .func f ps) ∧ ∀ l, m ≠ .ref l

/-- C41, partial: had the assignments of `Init` taken effect, a visitor with user callbacks for values, operators and names only would
visit every leaf of every complete tree without calls and references, in reading order (missing: `Init` itself, calls, references). -/
theorem C41_traversal_partial (bad : Nat → Node → Bool) (hbad : ∀ i n, bad i n = false) (i j k : Nat) (n : Node) (hc : Complete n) (hs : Simple n)
    (v : Vis) (hv : v = fun x => match x with | .value => some (.user i) | .op => some (.user j) | .ident => some (.user k) | _ => none) :
    visit bad (initBody v) n = .ok ((leaves n).map fun m => (match m with | .op _ => j | .ident _ => k | _ => i, m)) := by
  have kid : ∀ {m n}, Simple n → m ∈ kids n → Simple m := fun h hm x hx => h x (.step hm hx)
  subst hv
  induction hc with
  | func _ _ => exact absurd rfl ((hs _ .refl).1 _ _)
  | ref => exact absurd rfl ((hs _ .refl).2 _)
  | pred _ _ h1 h2 =>
    simp only [visit, callCb, initBody, leaves]
    rw [h1 (kid hs (by simp [kids])), h2 (kid hs (by simp [kids]))]
    simp [VRes.andThen]
  | cmp _ _ _ h1 h2 h3 =>
    simp only [visit, callCb, initBody, leaves]
    rw [h1 (kid hs (by simp [kids])), h2 (kid hs (by simp [kids])), h3 (kid hs (by simp [kids]))]
    simp [VRes.andThen]
  | logic _ _ _ h1 h2 h3 =>
    simp only [visit, callCb, initBody, leaves]
    rw [h1 (kid hs (by simp [kids])), h2 (kid hs (by simp [kids])), h3 (kid hs (by simp [kids]))]
    simp [VRes.andThen]
  | paren _ h1 =>
    simp only [visit, callCb, initBody, leaves]
    rw [h1 (kid hs (by simp [kids]))]
    simp
  | not _ h1 =>
    simp only [visit, callCb, initBody, leaves]
    rw [h1 (kid hs (by simp [kids]))]
    simp
  | between _ _ _ _ h1 h2 h3 h4 =>
    simp only [visit, callCb, initBody, leaves]
    rw [h1 (kid hs (by simp [kids])), h2 (kid hs (by simp [kids])), h3 (kid hs (by simp [kids])), h4 (kid hs (by simp [kids]))]
    simp [VRes.andThen]
  | _ => simp [visit, callCb, initBody, leaves, hbad]

example : parse c!"not a between 1 and 2 or b is null" = .ok (.logic (.not (.between (.ident c!"a") (.op c!"between") (.int 1) (.int 2))) (.op c!"or")
    (.pred (.ident c!"b") (.op c!"is null"))) := by decide +kernel
example : leaves (.logic (.not (.between (.ident c!"a") (.op c!"between") (.int 1) (.int 2))) (.op c!"or") (.pred (.ident c!"b") (.op c!"is null"))) =
    [.ident c!"a", .op c!"between", .int 1, .int 2, .op c!"or", .ident c!"b", .op c!"is null"] := by decide +kernel

end Verif
