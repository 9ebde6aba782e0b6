import Verif.Mini.Ast

/-!
# Go programs: reading their text

`readGo` reads the text of a Go file as far as the files of the repository need it: words and signs (with the automatic semicolons at line ends), then
declarations, statements and expressions.
-/

namespace Verif.Mini

/-- Words and signs. -/
inductive Tok where
  | id (s : Str)
  | int (n : Nat)
  | str (s : Str)
  | chr (c : Char)
  | op (s : Str)
  deriving DecidableEq, Repr

/-- Letters, digits and underscores. -/
def wordChar (c : Char) : Bool := c.isAlphanum || c = '_'

/-- Digits as a number. -/
def readNat (s : Str) : Nat := s.foldl (fun n c => 10 * n + (c.toNat - 48)) 0

/-- The text up to a quote and the rest.  The files use no escapes in their strings. -/
def upto (q : Char) : Str → Option (Str × Str)
  | [] => none
  | c :: s => if c = q then some ([], s) else (upto q s).map fun (a, r) => (c :: a, r)

/-- The text after a comment that ends with `*/`. -/
def afterComment : Str → Str
  | '*' :: '/' :: s => s
  | _ :: s => afterComment s
  | [] => []

/-- Signs of two and three characters. -/
def longOps : List Str := [c!"...", c!":=", c!"==", c!"!=", c!"<=", c!">=", c!"&&", c!"||", c!"++"]

/-- Keywords after which a line end is no semicolon. -/
def plainEnd (s : Str) : Bool :=
  s ∈ [c!"break", c!"case", c!"const", c!"default", c!"else", c!"for", c!"func", c!"go", c!"if", c!"import", c!"map", c!"package", c!"range",
    c!"struct", c!"switch", c!"type", c!"var", c!"interface"]

/-- Does a line end after this word count as a semicolon? -/
def ends : Tok → Bool
  | .op s => s ∈ [c!")", c!"]", c!"}", c!"++"]
  | .id s => s = c!"break" || !plainEnd s
  | _ => true

/-- The words and signs of a text; the first argument bounds their number, the second says whether a line end is a semicolon. -/
def lexGo : Nat → Bool → Str → Option (List Tok)
  | 0, _, _ => none
  | _, _, [] => some []
  | n + 1, e, c :: s =>
    if c = '\n' then if e then (lexGo n false s).map (.op c!";" :: ·) else lexGo n false s
    else if c = ' ' || c = '\t' then lexGo n e s
    else if c = '/' then
      match s with
      | '/' :: s => lexGo n e (s.dropWhile (· ≠ '\n'))
      | '*' :: s => lexGo n e (afterComment s)
      | _ => none
    else if c = '"' || c = '`' then (upto c s).bind fun (a, r) => (lexGo n true r).map (.str a :: ·)
    else if c = '\'' then (upto c s).bind fun (a, r) =>
      match a with
      | [x] => (lexGo n true r).map (.chr x :: ·)
      | _ => none
    else if c.isDigit then (lexGo n true (s.dropWhile (·.isDigit))).map (.int (readNat (c :: s.takeWhile (·.isDigit))) :: ·)
    else if wordChar c then
      (lexGo n (ends (.id (c :: s.takeWhile wordChar))) (s.dropWhile wordChar)).map (.id (c :: s.takeWhile wordChar) :: ·)
    else
      match longOps.find? (·.isPrefixOf (c :: s)) with
      | some o => (lexGo n (ends (.op o)) ((c :: s).drop o.length)).map (.op o :: ·)
      | none => (lexGo n (ends (.op [c])) s).map (.op [c] :: ·)

/-- The strength of a binary operator. -/
def prec (s : Str) : Nat :=
  if s = c!"||" then 1 else if s = c!"&&" then 2
  else if s ∈ [c!"==", c!"!=", c!"<", c!"<=", c!">", c!">="] then 3
  else if s ∈ [c!"+", c!"-"] then 4 else 0

/-- Skips to the brace that closes the one already read. -/
def skipBraces : Nat → List Tok → Option (List Tok)
  | _, [] => none
  | d, .op s :: ts =>
    if s = c!"{" then skipBraces (d + 1) ts
    else if s = c!"}" then (match d with | 0 => some ts | d + 1 => skipBraces d ts)
    else skipBraces d ts
  | d, _ :: ts => skipBraces d ts

/-- `a` as the left side of `:=`. -/
def nameOf : Expr → Option Str
  | .id x => some x
  | _ => none

/-- A list of expressions as a list. -/
def Exprs.list : Exprs → List Expr
  | .nil => []
  | .cons e es => e :: es.list

/-- All names of a list of expressions. -/
def namesOf : Exprs → Option (List Str)
  | .nil => some []
  | .cons e es => (nameOf e).bind fun x => (namesOf es).map (x :: ·)

/-- Reads one sign. -/
def sign (s : Str) : List Tok → Option (List Tok)
  | .op t :: ts => if t = s then some ts else none
  | _ => none

/-- May a composite literal begin after this expression? -/
def isType : Expr → Bool
  | .id _ | .sel _ _ | .arr _ | .map _ _ => true
  | _ => false

mutual
/-- A type. -/
def rType : Nat → List Tok → Option (Expr × List Tok)
  | 0, _ => none
  | n + 1, .op s :: ts =>
    if s = c!"*" then (rType n ts).map fun (t, ts) => (.un c!"*" t, ts)
    else if s = c!"[" then
      match ts with
      | .int _ :: ts => (sign c!"]" ts).bind fun ts => (rType n ts).map fun (t, ts) => (.arr t, ts)
      | ts => (sign c!"]" ts).bind fun ts => (rType n ts).map fun (t, ts) => (.arr t, ts)
    else if s = c!"..." then (rType n ts).map fun (t, ts) => (.arr t, ts)
    else none
  | n + 1, .id s :: ts =>
    if s = c!"map" then
      (sign c!"[" ts).bind fun ts => (rType n ts).bind fun (k, ts) => (sign c!"]" ts).bind fun ts => (rType n ts).map fun (v, ts) => (.map k v, ts)
    else if s = c!"interface" then (sign c!"{" ts).bind fun ts => (skipBraces 0 ts).map fun ts => (.id s, ts)
    else if s = c!"func" then (rSig n ts).map fun (_, ts) => (.id s, ts)
    else
      match ts with
      | .op ['.'] :: .id f :: ts => some (.sel (.id s) f, ts)
      | _ => some (.id s, ts)
  | _, _ => none

/-- The parameters up to the closing parenthesis: names, or `_` for a type alone. -/
def rParams : Nat → List Tok → Option (List Str × List Tok)
  | 0, _ => none
  | n + 1, ts =>
    match ts with
    | .op [')'] :: ts => some ([], ts)
    | .op [','] :: ts => rParams n ts
    | .id x :: .op [','] :: ts => (rParams n ts).map fun (xs, ts) => (x :: xs, ts)
    | .id x :: .op [')'] :: ts => some ([x], ts)
    | .id x :: .op ['.'] :: .id _ :: ts => if x = c!"func" then none else (rParams n ts).map fun (xs, ts) => (c!"_" :: xs, ts)
    | .id x :: ts =>
      if x ∈ [c!"interface", c!"map", c!"func"] then (rType n (.id x :: ts)).bind fun (_, ts) => (rParams n ts).map fun (xs, ts) => (c!"_" :: xs, ts)
      else (rType n ts).bind fun (_, ts) => (rParams n ts).map fun (xs, ts) => (x :: xs, ts)
    | ts => (rType n ts).bind fun (_, ts) => (rParams n ts).map fun (xs, ts) => (c!"_" :: xs, ts)

/-- `(params) results`. -/
def rSig : Nat → List Tok → Option ((List Str × List Str) × List Tok)
  | 0, _ => none
  | n + 1, ts =>
    (sign c!"(" ts).bind fun ts => (rParams n ts).bind fun (ps, ts) =>
      match ts with
      | .op ['('] :: ts => (rParams n ts).map fun (rs, ts) => ((ps, rs), ts)
      | .op ['{'] :: _ | .op [')'] :: _ | .op [','] :: _ | .op [';'] :: _ | .op ['='] :: _ => some ((ps, []), ts)
      | ts => (rType n ts).map fun (_, ts) => ((ps, [c!"_"]), ts)
end

/-- Declarations of the form `(string, error)` list types: such names are types. -/
def baseTypes : List Str := [c!"string", c!"error", c!"bool", c!"int"]

/-- Results that are only types get the name `_`. -/
def resultNames (rs : List Str) : List Str := if rs.any (· ∈ baseTypes) then rs.map fun _ => c!"_" else rs

mutual
/-- An expression of at least the given strength; the flag allows composite literals. -/
def rExpr : Nat → Bool → Nat → List Tok → Option (Expr × List Tok)
  | 0, _, _, _ => none
  | n + 1, c, p, ts => (rUnary n c ts).bind fun (a, ts) => rBin n c p a ts

/-- Binary operators of at least the given strength after an operand. -/
def rBin : Nat → Bool → Nat → Expr → List Tok → Option (Expr × List Tok)
  | 0, _, _, _, _ => none
  | n + 1, c, p, a, ts =>
    match ts with
    | .op o :: ts' =>
      if p ≤ prec o ∧ 0 < prec o then (rExpr n c (prec o + 1) ts').bind fun (b, ts) => rBin n c p (.bin o a b) ts
      else some (a, ts)
    | _ => some (a, ts)

/-- Prefix operators. -/
def rUnary : Nat → Bool → List Tok → Option (Expr × List Tok)
  | 0, _, _ => none
  | n + 1, c, ts =>
    match ts with
    | .op o :: ts' =>
      if o ∈ [c!"&", c!"*", c!"!", c!"-"] then (rUnary n c ts').map fun (a, ts) => (.un o a, ts)
      else if o = c!"(" then (rExpr n true 1 ts').bind fun (a, ts) => (sign c!")" ts).bind fun ts => rSuffix n c a ts
      else if o = c!"[" then (rType n ts).bind fun (t, ts) => rSuffix n c t ts
      else none
    | .int k :: ts => some (.int k, ts)
    | .str s :: ts => some (.str s, ts)
    | .chr x :: ts => some (.chr x, ts)
    | .id x :: ts' =>
      if x = c!"func" then
        (rSig n ts').bind fun (sg, ts) => (sign c!"{" ts).bind fun ts => (rBlock n ts).bind fun (b, ts) =>
          rSuffix n c (.fn sg.1 (resultNames sg.2) b) ts
      else if x = c!"map" ∨ x = c!"interface" then (rType n ts).bind fun (t, ts) => rSuffix n c t ts
      else rSuffix n c (.id x) ts'
    | [] => none

/-- Selectors, calls, indices, literals after an operand. -/
def rSuffix : Nat → Bool → Expr → List Tok → Option (Expr × List Tok)
  | 0, _, _, _ => none
  | n + 1, c, a, ts =>
    match ts with
    | .op ['.'] :: .op ['('] :: .id x :: .op [')'] :: ts' =>
      if x = c!"type" then some (a, ts) else rSuffix n c (.cast a (.id x)) ts'
    | .op ['.'] :: .op ['('] :: ts => (rType n ts).bind fun (t, ts) => (sign c!")" ts).bind fun ts => rSuffix n c (.cast a t) ts
    | .op ['.'] :: .id f :: ts => rSuffix n c (.sel a f) ts
    | .op ['('] :: ts => (rArgs n ts).bind fun ((es, sp), ts) => rSuffix n c (.call a es sp) ts
    | .op ['['] :: .op [':'] :: ts => (rExpr n true 1 ts).bind fun (hi, ts) => (sign c!"]" ts).bind fun ts => rSuffix n c (.slc a .no hi) ts
    | .op ['['] :: ts =>
      (rExpr n true 1 ts).bind fun (i, ts) =>
        match ts with
        | .op [']'] :: ts => rSuffix n c (.idx a i) ts
        | .op [':'] :: .op [']'] :: ts => rSuffix n c (.slc a i .no) ts
        | .op [':'] :: ts => (rExpr n true 1 ts).bind fun (hi, ts) => (sign c!"]" ts).bind fun ts => rSuffix n c (.slc a i hi) ts
        | _ => none
    | .op ['{'] :: ts' => if c ∧ isType a then (rElems n ts').bind fun ((ks, vs), ts) => rSuffix n c (.lit a ks vs) ts else some (a, ts)
    | ts => some (a, ts)

/-- Arguments up to the closing parenthesis. -/
def rArgs : Nat → List Tok → Option ((Exprs × Bool) × List Tok)
  | 0, _ => none
  | n + 1, ts =>
    match ts with
    | .op [')'] :: ts => some ((.nil, false), ts)
    | .op [','] :: ts => rArgs n ts
    | .op ['.', '.', '.'] :: .op [')'] :: ts => some ((.nil, true), ts)
    | ts => (rExpr n true 1 ts).bind fun (e, ts) => (rArgs n ts).map fun ((es, sp), ts) => ((.cons e es, sp), ts)

/-- Elements up to the closing brace. -/
def rElems : Nat → List Tok → Option ((Exprs × Exprs) × List Tok)
  | 0, _ => none
  | n + 1, ts =>
    match ts with
    | .op ['}'] :: ts => some ((.nil, .nil), ts)
    | .op [','] :: ts => rElems n ts
    | ts =>
      (rExpr n true 1 ts).bind fun (e, ts) =>
        match ts with
        | .op [':'] :: ts => (rExpr n true 1 ts).bind fun (v, ts) => (rElems n ts).map fun ((ks, vs), ts) => ((.cons e ks, .cons v vs), ts)
        | ts => (rElems n ts).map fun ((ks, vs), ts) => ((.cons .no ks, .cons e vs), ts)

/-- Expressions separated by commas. -/
def rExprs : Nat → Bool → List Tok → Option (Exprs × List Tok)
  | 0, _, _ => none
  | n + 1, c, ts =>
    (rExpr n c 1 ts).bind fun (e, ts) =>
      match ts with
      | .op [','] :: ts => (rExprs n c ts).map fun (es, ts) => (.cons e es, ts)
      | ts => some (.cons e .nil, ts)

/-- An expression statement, a definition or an assignment. -/
def rSimple : Nat → Bool → List Tok → Option (Stmt × List Tok)
  | 0, _, _ => none
  | n + 1, c, ts =>
    (rExprs n c ts).bind fun (l, ts) =>
      match ts with
      | .op [':', '='] :: ts => (namesOf l).bind fun xs => (rExprs n c ts).map fun (r, ts) => (.define xs r, ts)
      | .op ['='] :: ts => (rExprs n c ts).map fun (r, ts) => (.assign l r, ts)
      | ts =>
        match l with
        | .cons e .nil => some (.expr e, ts)
        | _ => none

/-- `if …`, after the keyword. -/
def rIf : Nat → List Tok → Option (Stmt × List Tok)
  | 0, _ => none
  | n + 1, ts =>
    (rSimple n false ts).bind fun (s, ts) =>
      match ts with
      | .op [';'] :: ts => (rExpr n false 1 ts).bind fun (c, ts) => (sign c!"{" ts).bind fun ts => rThen n (.cons s .nil) c ts
      | ts =>
        match s with
        | .expr c => (sign c!"{" ts).bind fun ts => rThen n .nil c ts
        | _ => none

/-- The branches of an `if`. -/
def rThen : Nat → Stmts → Expr → List Tok → Option (Stmt × List Tok)
  | 0, _, _, _ => none
  | n + 1, i, c, ts =>
    (rBlock n ts).bind fun (t, ts) =>
      match ts with
      | .id x :: .op ['{'] :: ts' =>
        if x = c!"else" then (rBlock n ts').map fun (e, ts) => (.ite i c t e, ts) else none
      | ts => some (.ite i c t .nil, ts)

/-- One statement. -/
def rStmt : Nat → List Tok → Option (Stmt × List Tok)
  | 0, _ => none
  | n + 1, .id x :: ts =>
    if x = c!"if" then rIf n ts
    else if x = c!"return" then
      match ts with
      | .op [';'] :: _ => some (.ret .nil, ts)
      | ts => (rExprs n true ts).map fun (es, ts) => (.ret es, ts)
    else if x = c!"fallthrough" then some (.fall, ts)
    else if x = c!"break" then some (.brk, ts)
    else if x = c!"continue" then some (.cont, ts)
    else if x = c!"var" then
      match ts with
      | .id y :: ts => (rType n ts).map fun (t, ts) => (.var y t, ts)
      | _ => none
    else if x = c!"for" then
      match ts with
      | .id k :: .op [','] :: .id v :: .op [':', '='] :: .id _ :: ts =>
        (rExpr n false 1 ts).bind fun (e, ts) => (sign c!"{" ts).bind fun ts => (rBlock n ts).map fun (b, ts) => (.range k v e b, ts)
      | _ => none
    else if x = c!"switch" then
      (rExpr n false 1 ts).bind fun (e, ts) =>
        match ts with
        | .op ['{'] :: ts => (rCases n ts).map fun (cs, ts) => (.switch e cs, ts)
        | .op ['.'] :: .op ['('] :: .id _ :: .op [')'] :: .op ['{'] :: ts => (rCases n ts).map fun (cs, ts) => (.types e cs, ts)
        | _ => none
    else rSimple n true (.id x :: ts)
  | n + 1, ts => rSimple n true ts

/-- Statements up to the closing brace. -/
def rBlock : Nat → List Tok → Option (Stmts × List Tok)
  | 0, _ => none
  | n + 1, ts =>
    match ts with
    | .op ['}'] :: ts => some (.nil, ts)
    | .op [';'] :: ts => rBlock n ts
    | ts => (rStmt n ts).bind fun (s, ts) => (rBlock n ts).map fun (k, ts) => (.cons s k, ts)

/-- Statements of a clause, up to the next clause or the closing brace. -/
def rClause : Nat → List Tok → Option (Stmts × List Tok)
  | 0, _ => none
  | n + 1, ts =>
    match ts with
    | .op ['}'] :: _ => some (.nil, ts)
    | .op [';'] :: ts => rClause n ts
    | .id x :: ts' =>
      if x = c!"case" ∨ x = c!"default" then some (.nil, ts)
      else (rStmt n (.id x :: ts')).bind fun (s, ts) => (rClause n ts).map fun (k, ts) => (.cons s k, ts)
    | ts => (rStmt n ts).bind fun (s, ts) => (rClause n ts).map fun (k, ts) => (.cons s k, ts)

/-- The clauses of a switch. -/
def rCases : Nat → List Tok → Option (Cases × List Tok)
  | 0, _ => none
  | n + 1, ts =>
    match ts with
    | .op ['}'] :: ts => some (.nil, ts)
    | .op [';'] :: ts => rCases n ts
    | .id x :: ts =>
      if x = c!"case" then
        (rExprs n true ts).bind fun (es, ts) => (sign c!":" ts).bind fun ts => (rClause n ts).bind fun (b, ts) =>
          (rCases n ts).map fun (cs, ts) => (.case es b cs, ts)
      else if x = c!"default" then
        (sign c!":" ts).bind fun ts => (rClause n ts).bind fun (b, ts) => (rCases n ts).map fun (cs, ts) => (.dflt b cs, ts)
      else none
    | _ => none
end

/-- The fields of a struct, up to the closing brace. -/
def rFields : Nat → List Tok → Option (List (Str × Expr) × List Tok)
  | 0, _ => none
  | n + 1, ts =>
    match ts with
    | .op ['}'] :: ts => some ([], ts)
    | .op [';'] :: ts => rFields n ts
    | .op ['*'] :: .id x :: ts => (rFields n ts).map fun (fs, ts) => ((x, .un c!"*" (.id x)) :: fs, ts)
    | .id x :: .op [';'] :: ts => (rFields n ts).map fun (fs, ts) => ((x, .id x) :: fs, ts)
    | .id p :: .op ['.'] :: .id x :: ts => (rFields n ts).map fun (fs, ts) => ((x, .sel (.id p) x) :: fs, ts)
    | .id x :: ts => (rType n ts).bind fun (t, ts) => (rFields n ts).map fun (fs, ts) => ((x, t) :: fs, ts)
    | _ => none

/-- `x struct { … }`, `x T`, `x = T`, after `type`. -/
def rTypeDecl (n : Nat) : List Tok → Option (Decl × List Tok)
  | .id x :: .op ['='] :: ts => (rType n ts).map fun (t, ts) => (.alias x t, ts)
  | .id x :: .id y :: .op ['{'] :: ts => if y = c!"struct" then (rFields n ts).map fun (fs, ts) => (.struct x fs, ts) else none
  | .id x :: ts => (rType n ts).map fun (t, ts) => (.alias x t, ts)
  | _ => none

/-- `x = e`, `x T = e`, after `var` or `const`. -/
def rValDecl (n : Nat) : List Tok → Option (Decl × List Tok)
  | .id x :: .op ['='] :: ts => (rExpr n true 1 ts).map fun (e, ts) => (.val x e, ts)
  | .id x :: ts => (rType n ts).bind fun (_, ts) => (sign c!"=" ts).bind fun ts => (rExpr n true 1 ts).map fun (e, ts) => (.val x e, ts)
  | _ => none

/-- The last part of an import path. -/
def lastPart (s : Str) : Str := (s.reverse.takeWhile (· ≠ '/')).reverse

/-- An import path. -/
def rImport : List Tok → Option (Decl × List Tok)
  | .str s :: ts => some (.pkg (lastPart s), ts)
  | _ => none

/-- Declarations in parentheses. -/
def rGroup (f : List Tok → Option (Decl × List Tok)) : Nat → List Tok → Option (List Decl × List Tok)
  | 0, _ => none
  | n + 1, ts =>
    match ts with
    | .op [')'] :: ts => some ([], ts)
    | .op [';'] :: ts => rGroup f n ts
    | ts => (f ts).bind fun (d, ts) => (rGroup f n ts).map fun (ds, ts) => (d :: ds, ts)

/-- One declaration or a group of them. -/
def rOneOrGroup (f : List Tok → Option (Decl × List Tok)) (n : Nat) : List Tok → Option (List Decl × List Tok)
  | .op ['('] :: ts => rGroup f n ts
  | ts => (f ts).map fun (d, ts) => ([d], ts)

/-- `name(params) results { … }` with what is already known of the receiver. -/
def rFunc (n : Nat) (recv : List Str) (pre : Str) (ptr : Bool) : List Tok → Option (Decl × List Tok)
  | .id f :: ts =>
    (rSig n ts).bind fun (sg, ts) => (sign c!"{" ts).bind fun ts => (rBlock n ts).map fun (b, ts) =>
      (.func (pre ++ f) ptr (recv ++ sg.1) (resultNames sg.2) b, ts)
  | _ => none

/-- The declarations of a file. -/
def rDecls (k : Nat) : Nat → List Tok → Option (List Decl)
  | 0, _ => none
  | n + 1, ts =>
    match ts with
    | [] => some []
    | .op [';'] :: ts => rDecls k n ts
    | .id x :: ts =>
      if x = c!"package" then rDecls k n (ts.drop 1)
      else if x = c!"import" then (rOneOrGroup rImport k ts).bind fun (ds, ts) => (rDecls k n ts).map (ds ++ ·)
      else if x = c!"type" then (rOneOrGroup (rTypeDecl k) k ts).bind fun (ds, ts) => (rDecls k n ts).map (ds ++ ·)
      else if x = c!"var" ∨ x = c!"const" then (rOneOrGroup (rValDecl k) k ts).bind fun (ds, ts) => (rDecls k n ts).map (ds ++ ·)
      else if x = c!"func" then
        match ts with
        | .op ['('] :: .id r :: .op ['*'] :: .id t :: .op [')'] :: ts =>
          (rFunc k [r] (t ++ c!".") true ts).bind fun (d, ts) => (rDecls k n ts).map (d :: ·)
        | .op ['('] :: .id r :: .id t :: .op [')'] :: ts =>
          (rFunc k [r] (t ++ c!".") false ts).bind fun (d, ts) => (rDecls k n ts).map (d :: ·)
        | ts => (rFunc k [] [] false ts).bind fun (d, ts) => (rDecls k n ts).map (d :: ·)
      else none
    | _ => none

/-- Reads the text of a file. -/
def readGo (s : Str) : Option (List Decl) :=
  (lexGo (s.length + 1) false s).bind fun ts => rDecls (ts.length + 10) (ts.length + 1) ts

end Verif.Mini
