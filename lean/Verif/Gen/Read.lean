import Verif.Gen.Ast

/-!
# The support code of the generated file: reading its text

`readGo` reads the text as far as the support code needs it: words and signs (with the automatic semicolons at line ends), then declarations, statements and expressions.
-/

namespace Verif.Gen

/-- Words and signs. -/
inductive Tok where
  | id (s : Str)
  | int (n : Nat)
  | str (s : Str)
  | chr (c : Char)
  | op (s : Str)
  deriving DecidableEq, Repr

/-- Letters, digits and underscores. -/
def wordChar (c : Char) : Bool := c.isAlphanum || c = '_'

/-- Digits as a number. -/
def readNat (s : Str) : Nat := s.foldl (fun n c => 10 * n + (c.toNat - 48)) 0

/-- The text up to a quote, with the escapes that occur (`\n`, `\x1B`), and the rest. -/
def upto (q : Char) : Str → Option (Str × Str)
  | [] => none
  | '\\' :: 'n' :: s => (upto q s).map fun (a, r) => ('\n' :: a, r)
  | '\\' :: 'x' :: '1' :: 'B' :: s => (upto q s).map fun (a, r) => (Char.ofNat 27 :: a, r)
  | '\\' :: _ => none
  | c :: s => if c = q then some ([], s) else (upto q s).map fun (a, r) => (c :: a, r)

/-- The text after a comment that ends with `*/`. -/
def afterComment : Str → Str
  | '*' :: '/' :: s => s
  | _ :: s => afterComment s
  | [] => []

/-- Signs of two and three characters. -/
def longOps : List Str := [c!"...", c!":=", c!"==", c!"!=", c!"<=", c!">=", c!"&&", c!"||", c!"++", c!"+="]

/-- Keywords after which a line end is no semicolon. -/
def plainEnd (s : Str) : Bool :=
  s ∈ [c!"const", c!"else", c!"for", c!"func", c!"if", c!"import", c!"map", c!"package", c!"range", c!"struct", c!"type", c!"var"]

/-- Does a line end after this word count as a semicolon? -/
def ends : Tok → Bool
  | .op s => s ∈ [c!")", c!"]", c!"}", c!"++"]
  | .id s => !plainEnd s
  | _ => true

/-- The words and signs of a text; the first argument bounds their number, the second says whether a line end is a semicolon. -/
def lexGo : Nat → Bool → Str → Option (List Tok)
  | 0, _, _ => none
  | _, _, [] => some []
  | n + 1, e, c :: s =>
    if c = '\n' then if e then (lexGo n false s).map (.op c!";" :: ·) else lexGo n false s
    else if c = ' ' || c = '\t' then lexGo n e s
    else if c = '/' then
      match s with
      | '/' :: s => lexGo n e (s.dropWhile (· ≠ '\n'))
      | '*' :: s => lexGo n e (afterComment s)
      | _ => none
    else if c = '"' then (upto c s).bind fun (a, r) => (lexGo n true r).map (.str a :: ·)
    else if c = '\'' then (upto c s).bind fun (a, r) =>
      match a with
      | [x] => (lexGo n true r).map (.chr x :: ·)
      | _ => none
    else if c.isDigit then (lexGo n true (s.dropWhile (·.isDigit))).map (.int (readNat (c :: s.takeWhile (·.isDigit))) :: ·)
    else if wordChar c then
      (lexGo n (ends (.id (c :: s.takeWhile wordChar))) (s.dropWhile wordChar)).map (.id (c :: s.takeWhile wordChar) :: ·)
    else
      match longOps.find? (·.isPrefixOf (c :: s)) with
      | some o => (lexGo n (ends (.op o)) ((c :: s).drop o.length)).map (.op o :: ·)
      | none => (lexGo n (ends (.op [c])) s).map (.op [c] :: ·)

/-- The strength of a binary operator. -/
def prec (s : Str) : Nat :=
  if s = c!"||" then 1 else if s = c!"&&" then 2
  else if s ∈ [c!"==", c!"!=", c!"<", c!"<=", c!">", c!">="] then 3
  else if s ∈ [c!"+", c!"-"] then 4 else if s = c!"*" then 5 else 0

/-- All names of a list of expressions, as the left side of `:=`. -/
def namesOf : Exprs → Option (List Str)
  | .nil => some []
  | .cons (.id x) es => (namesOf es).map (x :: ·)
  | _ => none

/-- A list of expressions. -/
def listOf : List Expr → Exprs
  | [] => .nil
  | e :: es => .cons e (listOf es)

/-- Reads one sign. -/
def sign (s : Str) : List Tok → Option (List Tok)
  | .op t :: ts => if t = s then some ts else none
  | _ => none

/-- May a composite literal begin after this expression? -/
def isType : Expr → Bool
  | .id _ | .arr _ | .fix _ => true
  | _ => false

mutual
/-- A type. -/
def rType : Nat → List Tok → Option (Expr × List Tok)
  | 0, _ => none
  | n + 1, .op s :: ts =>
    if s = c!"*" then (rType n ts).map fun (t, ts) => (.un c!"*" t, ts)
    else if s = c!"[" then
      match ts with
      | .int _ :: ts => (sign c!"]" ts).bind fun ts => (rType n ts).map fun (t, ts) => (.fix t, ts)
      | .op ['.', '.', '.'] :: ts => (sign c!"]" ts).bind fun ts => (rType n ts).map fun (t, ts) => (.fix t, ts)
      | ts => (sign c!"]" ts).bind fun ts => (rType n ts).map fun (t, ts) => (.arr t, ts)
    else none
  | n + 1, .id s :: ts =>
    if s = c!"map" then
      (sign c!"[" ts).bind fun ts => (rType n ts).bind fun (k, ts) => (sign c!"]" ts).bind fun ts => (rType n ts).map fun (v, ts) => (.map k v, ts)
    else if s = c!"func" then (rSig n ts).map fun (_, ts) => (.id s, ts)
    else
      match ts with
      | .op ['.'] :: .id f :: ts => some (.sel (.id s) f, ts)
      | _ => some (.id s, ts)
  | _, _ => none

/-- The parameters up to the closing parenthesis: names, or `_` for a type alone; is the last one `x ...T`? -/
def rParams : Nat → List Tok → Option ((List Str × Bool) × List Tok)
  | 0, _ => none
  | n + 1, ts =>
    match ts with
    | .op [')'] :: ts => some (([], false), ts)
    | .op [','] :: ts => rParams n ts
    | .id x :: .op [','] :: ts => (rParams n ts).map fun ((xs, v), ts) => ((x :: xs, v), ts)
    | .id x :: .op ['.', '.', '.'] :: ts => (rType n ts).bind fun (_, ts) => (sign c!")" ts).map fun ts => (([x], true), ts)
    | .id x :: ts => (rType n ts).bind fun (_, ts) => (rParams n ts).map fun ((xs, v), ts) => ((x :: xs, v), ts)
    | ts => (rType n ts).bind fun (_, ts) => (rParams n ts).map fun ((xs, v), ts) => ((c!"_" :: xs, v), ts)

/-- `(params) result`. -/
def rSig : Nat → List Tok → Option ((List Str × Bool × Exprs) × List Tok)
  | 0, _ => none
  | n + 1, ts =>
    (sign c!"(" ts).bind fun ts => (rParams n ts).bind fun ((ps, v), ts) =>
      match ts with
      | .op ['{'] :: _ | .op [')'] :: _ | .op [','] :: _ | .op [';'] :: _ | .op ['='] :: _ => some ((ps, v, .nil), ts)
      | ts => (rType n ts).map fun (t, ts) => ((ps, v, .cons t .nil), ts)
end

/-- The fields of a struct, up to the closing brace. -/
def rFields : Nat → List Str → List Tok → Option (List (Str × Expr) × List Tok)
  | 0, _, _ => none
  | n + 1, xs, ts =>
    match ts with
    | .op ['}'] :: ts => some ([], ts)
    | .op [';'] :: ts => rFields n xs ts
    | .op ['*'] :: .id x :: ts => (rFields n [] ts).map fun (fs, ts) => ((x, .un c!"*" (.id x)) :: fs, ts)
    | .id x :: .op [';'] :: ts => (rFields n [] ts).map fun (fs, ts) => ((x, .id x) :: fs, ts)
    | .id x :: .op [','] :: ts => rFields n (xs ++ [x]) ts
    | .id x :: ts => (rType n ts).bind fun (t, ts) => (rFields n [] ts).map fun (fs, ts) => ((xs ++ [x]).map (fun y => (y, t)) ++ fs, ts)
    | _ => none

/-- The declarations of `var (…)`, up to the closing parenthesis. -/
def rVars : Nat → List Str → List Tok → Option (List (Str × Expr) × List Tok)
  | 0, _, _ => none
  | n + 1, xs, ts =>
    match ts with
    | .op [')'] :: ts => some ([], ts)
    | .op [';'] :: ts => rVars n xs ts
    | .id x :: .op [','] :: ts => rVars n (xs ++ [x]) ts
    | .id x :: ts => (rType n ts).bind fun (t, ts) => (rVars n [] ts).map fun (fs, ts) => ((xs ++ [x]).map (fun y => (y, t)) ++ fs, ts)
    | _ => none

mutual
/-- An expression of at least the given strength; the flag allows composite literals. -/
def rExpr : Nat → Bool → Nat → List Tok → Option (Expr × List Tok)
  | 0, _, _, _ => none
  | n + 1, c, p, ts => (rUnary n c ts).bind fun (a, ts) => rBin n c p a ts

/-- Binary operators of at least the given strength after an operand. -/
def rBin : Nat → Bool → Nat → Expr → List Tok → Option (Expr × List Tok)
  | 0, _, _, _, _ => none
  | n + 1, c, p, a, ts =>
    match ts with
    | .op o :: ts' =>
      if p ≤ prec o ∧ 0 < prec o then (rExpr n c (prec o + 1) ts').bind fun (b, ts) => rBin n c p (.bin o a b) ts
      else some (a, ts)
    | _ => some (a, ts)

/-- Prefix operators. -/
def rUnary : Nat → Bool → List Tok → Option (Expr × List Tok)
  | 0, _, _ => none
  | n + 1, c, ts =>
    match ts with
    | .op o :: ts' =>
      if o ∈ [c!"&", c!"*", c!"!", c!"-"] then (rUnary n c ts').map fun (a, ts) => (.un o a, ts)
      else if o = c!"(" then (rExpr n true 1 ts').bind fun (a, ts) => (sign c!")" ts).bind fun ts => rSuffix n c a ts
      else if o = c!"[" then (rType n ts).bind fun (t, ts) => rSuffix n c t ts
      else none
    | .int k :: ts => some (.int k, ts)
    | .str s :: ts => some (.str s, ts)
    | .chr x :: ts => some (.chr x, ts)
    | .id x :: ts' =>
      if x = c!"func" then
        (rSig n ts').bind fun (sg, ts) => (sign c!"{" ts).bind fun ts => (rBlock n ts).bind fun (b, ts) => rSuffix n c (.fn sg.1 sg.2.1 sg.2.2 b) ts
      else rSuffix n c (.id x) ts'
    | [] => none

/-- Selectors, calls, indices, literals after an operand. -/
def rSuffix : Nat → Bool → Expr → List Tok → Option (Expr × List Tok)
  | 0, _, _, _ => none
  | n + 1, c, a, ts =>
    match ts with
    | .op ['.'] :: .id f :: ts => rSuffix n c (.sel a f) ts
    | .op ['('] :: ts => (rArgs n ts).bind fun ((es, sp), ts) => rSuffix n c (.call a es sp) ts
    | .op ['['] :: .op [':'] :: ts => (rExpr n true 1 ts).bind fun (hi, ts) => (sign c!"]" ts).bind fun ts => rSuffix n c (.slc a .no hi) ts
    | .op ['['] :: ts =>
      (rExpr n true 1 ts).bind fun (i, ts) =>
        match ts with
        | .op [']'] :: ts => rSuffix n c (.idx a i) ts
        | .op [':'] :: ts => (rExpr n true 1 ts).bind fun (hi, ts) => (sign c!"]" ts).bind fun ts => rSuffix n c (.slc a i hi) ts
        | _ => none
    | .op ['{'] :: ts' => if c ∧ isType a then (rElems n ts').bind fun ((ks, vs), ts) => rSuffix n c (.lit a ks vs) ts else some (a, ts)
    | ts => some (a, ts)

/-- Arguments up to the closing parenthesis. -/
def rArgs : Nat → List Tok → Option ((Exprs × Bool) × List Tok)
  | 0, _ => none
  | n + 1, ts =>
    match ts with
    | .op [')'] :: ts => some ((.nil, false), ts)
    | .op [','] :: ts => rArgs n ts
    | .op ['.', '.', '.'] :: .op [')'] :: ts => some ((.nil, true), ts)
    | ts => (rExpr n true 1 ts).bind fun (e, ts) => (rArgs n ts).map fun ((es, sp), ts) => ((.cons e es, sp), ts)

/-- Elements up to the closing brace. -/
def rElems : Nat → List Tok → Option ((Exprs × Exprs) × List Tok)
  | 0, _ => none
  | n + 1, ts =>
    match ts with
    | .op ['}'] :: ts => some ((.nil, .nil), ts)
    | .op [','] :: ts => rElems n ts
    | ts =>
      (rExpr n true 1 ts).bind fun (e, ts) =>
        match ts with
        | .op [':'] :: ts => (rExpr n true 1 ts).bind fun (v, ts) => (rElems n ts).map fun ((ks, vs), ts) => ((.cons e ks, .cons v vs), ts)
        | ts => (rElems n ts).map fun ((ks, vs), ts) => ((.cons .no ks, .cons e vs), ts)

/-- Expressions separated by commas. -/
def rExprs : Nat → Bool → List Tok → Option (Exprs × List Tok)
  | 0, _, _ => none
  | n + 1, c, ts =>
    (rExpr n c 1 ts).bind fun (e, ts) =>
      match ts with
      | .op [','] :: ts => (rExprs n c ts).map fun (es, ts) => (.cons e es, ts)
      | ts => some (.cons e .nil, ts)

/-- An expression statement, a definition or an assignment. -/
def rSimple : Nat → Bool → List Tok → Option (Stmt × List Tok)
  | 0, _, _ => none
  | n + 1, c, ts =>
    (rExprs n c ts).bind fun (l, ts) =>
      match ts with
      | .op [':', '='] :: ts => (namesOf l).bind fun xs => (rExprs n c ts).map fun (r, ts) => (.define xs r, ts)
      | .op ['='] :: ts => (rExprs n c ts).map fun (r, ts) => (.assign l r, ts)
      | ts =>
        match l with
        | .cons e .nil =>
          match ts with
          | .op ['+', '+'] :: ts => some (.assign l (.cons (.bin c!"+" e (.int 1)) .nil), ts)
          | .op ['+', '='] :: ts => (rExpr n c 1 ts).map fun (r, ts) => (.assign l (.cons (.bin c!"+" e r) .nil), ts)
          | ts => some (.expr e, ts)
        | _ => none

/-- `if …`, after the keyword. -/
def rIf : Nat → List Tok → Option (Stmt × List Tok)
  | 0, _ => none
  | n + 1, ts =>
    (rExpr n false 1 ts).bind fun (c, ts) => (sign c!"{" ts).bind fun ts => (rBlock n ts).bind fun (t, ts) =>
      match ts with
      | .id x :: .op ['{'] :: ts' => if x = c!"else" then (rBlock n ts').map fun (e, ts) => (.ite c t e, ts) else none
      | ts => some (.ite c t .nil, ts)

/-- `for …`, after the keyword. -/
def rFor : Nat → Str → List Tok → Option (Stmt × List Tok)
  | 0, _, _ => none
  | n + 1, lab, ts =>
    match ts with
    | .id k :: .op [','] :: .id v :: .op [':', '='] :: .id _ :: ts =>
      (rExpr n false 1 ts).bind fun (e, ts) => (sign c!"{" ts).bind fun ts => (rBlock n ts).map fun (b, ts) => (.range lab k v e b, ts)
    | ts =>
      (rSimple n false ts).bind fun (s, ts) =>
        match ts with
        | .op [';'] :: ts =>
          (rExpr n false 1 ts).bind fun (c, ts) => (sign c!";" ts).bind fun ts => (rSimple n false ts).bind fun (p, ts) => (sign c!"{" ts).bind fun ts =>
            (rBlock n ts).map fun (b, ts) => (.loop lab (.cons s .nil) c (.cons p .nil) b, ts)
        | ts =>
          match s with
          | .expr c => (sign c!"{" ts).bind fun ts => (rBlock n ts).map fun (b, ts) => (.loop lab .nil c .nil b, ts)
          | _ => none

/-- One statement. -/
def rStmt : Nat → List Tok → Option (Stmt × List Tok)
  | 0, _ => none
  | n + 1, .id x :: ts =>
    if x = c!"if" then rIf n ts
    else if x = c!"return" then
      match ts with
      | .op [';'] :: _ => some (.ret .nil, ts)
      | ts => (rExprs n true ts).map fun (es, ts) => (.ret es, ts)
    else if x = c!"break" ∨ x = c!"continue" then
      match ts with
      | .id y :: ts => some (if x = c!"break" then .brk y else .cont y, ts)
      | ts => some (if x = c!"break" then .brk [] else .cont [], ts)
    else if x = c!"var" then
      match ts with
      | .op ['('] :: ts => (rVars n [] ts).map fun (xs, ts) => (.var (xs.map (·.1)) (listOf (xs.map (·.2))), ts)
      | .id y :: ts => (rType n ts).map fun (t, ts) => (.var [y] (.cons t .nil), ts)
      | _ => none
    else if x = c!"type" then
      match ts with
      | .id y :: .id _ :: .op ['{'] :: ts => (rFields n [] ts).map fun (fs, ts) => (.typ y (fs.map (·.1)) (listOf (fs.map (·.2))), ts)
      | _ => none
    else if x = c!"for" then rFor n [] ts
    else
      match ts with
      | .op [':'] :: .id _ :: ts => rFor n x ts
      | ts => rSimple n true (.id x :: ts)
  | n + 1, ts => rSimple n true ts

/-- Statements up to the closing brace. -/
def rBlock : Nat → List Tok → Option (Stmts × List Tok)
  | 0, _ => none
  | n + 1, ts =>
    match ts with
    | .op ['}'] :: ts => some (.nil, ts)
    | .op [';'] :: ts => rBlock n ts
    | ts => (rStmt n ts).bind fun (s, ts) => (rBlock n ts).map fun (k, ts) => (.cons s k, ts)
end

/-- `x struct { … }`, `x T`, after `type`. -/
def rTypeDecl (n : Nat) : List Tok → Option (Decl × List Tok)
  | .id x :: .id y :: .op ['{'] :: ts => if y = c!"struct" then (rFields n [] ts).map fun (fs, ts) => (.struct x fs, ts) else none
  | .id x :: ts => (rType n ts).map fun (t, ts) => (.alias x t, ts)
  | _ => none

/-- `x = e`, `x T = e`, after `var` or `const`. -/
def rValDecl (n : Nat) : List Tok → Option (Decl × List Tok)
  | .id x :: .op ['='] :: ts => (rExpr n true 1 ts).map fun (e, ts) => (.val x e, ts)
  | .id x :: ts => (rType n ts).bind fun (_, ts) => (sign c!"=" ts).bind fun ts => (rExpr n true 1 ts).map fun (e, ts) => (.val x e, ts)
  | _ => none

/-- Import paths up to the closing parenthesis. -/
def rImports : List Tok → Option (List Decl × List Tok)
  | .op [')'] :: ts => some ([], ts)
  | .op [';'] :: ts => rImports ts
  | .str s :: ts => (rImports ts).map fun (ds, ts) => (.pkg s :: ds, ts)
  | _ => none

/-- `name(params) results { … }` with what is already known of the receiver. -/
def rFunc (n : Nat) (recv : List Str) (pre : Str) : List Tok → Option (Decl × List Tok)
  | .id f :: ts =>
    (rSig n ts).bind fun (sg, ts) => (sign c!"{" ts).bind fun ts => (rBlock n ts).map fun (b, ts) => (.func (pre ++ f) (recv ++ sg.1) sg.2.1 sg.2.2 b, ts)
  | _ => none

/-- The declarations of a file. -/
def rDecls (k : Nat) : Nat → List Tok → Option (List Decl)
  | 0, _ => none
  | n + 1, ts =>
    match ts with
    | [] => some []
    | .op [';'] :: ts => rDecls k n ts
    | .id x :: ts =>
      if x = c!"package" then rDecls k n (ts.drop 1)
      else if x = c!"import" then (sign c!"(" ts).bind fun ts => (rImports ts).bind fun (ds, ts) => (rDecls k n ts).map (ds ++ ·)
      else if x = c!"type" then (rTypeDecl k ts).bind fun (d, ts) => (rDecls k n ts).map (d :: ·)
      else if x = c!"var" ∨ x = c!"const" then (rValDecl k ts).bind fun (d, ts) => (rDecls k n ts).map (d :: ·)
      else if x = c!"func" then
        match ts with
        | .op ['('] :: .id r :: .op ['*'] :: .id t :: .op [')'] :: ts => (rFunc k [r] (t ++ c!".") ts).bind fun (d, ts) => (rDecls k n ts).map (d :: ·)
        | ts => (rFunc k [] [] ts).bind fun (d, ts) => (rDecls k n ts).map (d :: ·)
      else none
    | _ => none

/-- Reads a text. -/
def readGo (s : Str) : Option (List Decl) := (lexGo (s.length + 1) false s).bind fun ts => rDecls (ts.length + 10) (ts.length + 1) ts

end Verif.Gen
