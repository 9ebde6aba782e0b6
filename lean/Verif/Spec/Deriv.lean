import Verif.Grammar

/-! # Derivations: the tokens that a grammar assigns to a piece of text -/

namespace Verif

/-- `Deriv s e p q ts`: between the positions `p` and `q` the text `s` matches the expression `e` of the grammar, and `ts` lists what was
recognised on the way: a token for every rule, capture and action, parts before the whole, from left to right.  An alternative or a
repetition is left only if the earlier choice does not match (`Big … none`, the meaning of parsing expression grammars). -/
inductive Deriv (s : Str) : PExp → Nat → Nat → List Tok → Prop where
  | eps {p} : Deriv s .eps p p []
  | any {p c} : s[p]? = some c → Deriv s .any p (p + 1) []
  | chr {p c} : s[p]? = some c → Deriv s (.chr c) p (p + 1) []
  | rng {p lo hi c} : s[p]? = some c → lo.toNat ≤ c.toNat → c.toNat ≤ hi.toNat → Deriv s (.rng lo hi) p (p + 1) []
  | seq {a b p q r ts us} : Deriv s a p q ts → Deriv s b q r us → Deriv s (.seq a b) p r (ts ++ us)
  | alt1 {a b p q ts} : Deriv s a p q ts → Deriv s (.alt a b) p q ts
  | alt2 {a b p q ts} : Big G a (s.drop p) none → Deriv s b p q ts → Deriv s (.alt a b) p q ts
  | starNil {a p} : Big G a (s.drop p) none → Deriv s (.star a) p p []
  | starCons {a p q r ts us} : Deriv s a p q ts → Deriv s (.star a) q r us → Deriv s (.star a) p r (ts ++ us)
  | optSome {a p q ts} : Deriv s a p q ts → Deriv s (.opt a) p q ts
  | optNone {a p} : Big G a (s.drop p) none → Deriv s (.opt a) p p []
  | notP {a p} : Big G a (s.drop p) none → Deriv s (.notP a) p p []
  | call {x p q ts} : Deriv s (G x) p q ts → Deriv s (.call x) p q (ts ++ [⟨.rule x, p, q⟩])
  | txt {a p q ts} : Deriv s a p q ts → Deriv s (.txt a) p q (ts ++ [⟨.text, p, q⟩])
  | act {n p} : Deriv s (.act n) p p [⟨.act n, p, p⟩]
  | swIn {cs a b p q c ts} : s[p]? = some c → c ∈ cs → Deriv s a p q ts → Deriv s (.sw cs a b) p q ts
  | swOut {cs a b p q ts} : (∀ c, s[p]? = some c → c ∉ cs) → Deriv s b p q ts → Deriv s (.sw cs a b) p q ts

end Verif
