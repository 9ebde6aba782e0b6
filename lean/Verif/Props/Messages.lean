import Verif.MsgThms
import Verif.Trace
import Verif.Props.Tokens

/-! # Printed messages, syntax trees and token lists (C44, C50, C57) -/

namespace Verif

/-! ## C44: the reported token -/

/-- C44: the token reported by a syntax error, whatever the history of the parser object: among all tokens added during the parse — also those that
were dropped by backtracking — the first one that reaches farthest, empty ones not counted.  If there is none, no rule recognised any text, and the
start of the query is reported. -/
theorem C44_reported (s : Str) (tree0 : List Tok) (m : Tok) (tr : List Tok) (h : pegParse s tree0 = .err m tr) :
    (m.b = 0 ∧ m.e = 0 ∧ ∀ t ∈ parseTrace s, t.b = t.e) ∨ FirstFarthest (parseTrace s) m := by
  obtain ⟨a, hp⟩ : ∃ a, pegParse s [] = .err m a := by
    rcases C50_tokens s tree0 [] with ⟨us, a, b, h0, h1⟩ | ⟨m', a, b, h0, h1⟩
    · rw [h0] at h; cases h
    · rw [h0] at h; cases h; exact ⟨_, h1⟩
  have hl := execN_logged (mkBuf s) G (depthBound s.length) .Grammar initSt
  have hx : ({ initSt with tree := [] } : St) = initSt := rfl
  rw [pegParse, hx] at hp
  cases ho : execN (mkBuf s) G (depthBound s.length) .Grammar initSt with
  | div => rw [ho] at hp; cases hp
  | panic => rw [ho] at hp; cases hp
  | ok st => rw [ho] at hp; simp only at hp; split at hp <;> cases hp
  | fail st =>
    rw [ho] at hp hl
    cases hp
    have hl' : st.max = (parseTrace s).foldl maxStep initSt.max := hl
    rcases foldl_maxStep (parseTrace s) initSt.max with ⟨he, hz⟩ | ⟨hf, _⟩
    · refine .inl ⟨by rw [hl', he]; rfl, by rw [hl', he]; rfl, ?_⟩
      intro t ht
      have ho := traceN_ordered (mkBuf s) G (depthBound s.length) .Grammar initSt t ht
      by_cases hne : t.b = t.e
      · exact hne
      · have := hz t ht hne
        have h0 : initSt.max.e = 0 := rfl
        omega
    · rw [hl']; exact .inr hf

/-- A parser error as a value, for examples. -/
def pegError (s : Str) : Option Tok := match pegParse s [] with | .err m _ => some m | _ => none

-- Nothing recognised at all; the word after the condition; the blank before the stray character (the first of many tokens that end there).
example : pegError c!"(" = some ⟨.rule .Grammar, 0, 0⟩ := by decide +kernel
example : pegError c!"a = 1 and" = some ⟨.text, 6, 9⟩ := by decide +kernel
example : pegError c!"a = 12 x" = some ⟨.rule .Space, 6, 7⟩ := by decide +kernel
example : (parseTrace c!"a = 12 x").filter (fun t => t.b ≠ t.e ∧ t.e = 7) ≠ [] := by decide +kernel

/-! ## C44: the message -/

/-- The reported token lies inside the query, whatever the history of the parser object. -/
theorem reported_inside {s : Str} {tree0 : List Tok} {m : Tok} {tr : List Tok} (h : pegParse s tree0 = .err m tr) :
    m.b ≤ m.e ∧ m.e ≤ s.length ∧ parse s = .err (.syntax m.b m.e) := by
  obtain ⟨a, hp⟩ : ∃ a, pegParse s [] = .err m a := by
    rcases C50_tokens s tree0 [] with ⟨us, a, b, h0, h1⟩ | ⟨m', a, b, h0, h1⟩
    · rw [h0] at h; cases h
    · rw [h0] at h; cases h; exact ⟨_, h1⟩
  have h1 : parse s = .err (.syntax m.b m.e) := by
    rw [parse_peg, Peg.query, show ({} : Peg).toks = [] from rfl, hp]
  exact ⟨(C44_error_report s _ _ h1).1, (C44_error_report s _ _ h1).2.1, h1⟩

theorem ofNat_toNat_map (s : Str) : (s.map Char.toNat).map Char.ofNat = s := by
  induction s with
  | nil => rfl
  | cons c s ih => simp only [List.map_cons, Char.ofNat_toNat, ih]

/-- C44: the message of a syntax error never panics (on the object that parsed the query) and is exactly this text: the name of the reported rule, the
true line and symbol numbers of both ends, and the quoted text between them. -/
theorem C44_message (P : Char → Bool) (pretty : Bool) (s : Str) (tree0 : List Tok) (m : Tok) (tr : List Tok) (h : pegParse s tree0 = .err m tr) :
    errorText P pretty s m = some
      (c!"\nparse error near " ++ coloured pretty c!"34" (maxName m) ++ c!" (line " ++ natText (lineOf (mkBuf s) m.b) ++ c!" symbol " ++
        natText (symbolOf (mkBuf s) m.b) ++ c!" - line " ++ natText (lineOf (mkBuf s) m.e) ++ c!" symbol " ++ natText (symbolOf (mkBuf s) m.e) ++
        c!"):\n" ++ quote P ((s.drop m.b).take (m.e - m.b)) ++ c!"\n") := by
  have hr := (C44_error_report s _ _ (reported_inside h).2.2).2.2
  rw [errorText, hr, Option.map_some]
  simp only [ofNat_toNat_map]

/-- Printable ASCII, for examples; the true `strconv.IsPrint` agrees on ASCII. -/
def ascii (c : Char) : Bool := 32 ≤ c.toNat && c.toNat < 127

example : (pegError c!"a = 1 and\n\tb = )").bind (errorText ascii false c!"a = 1 and\n\tb = )") =
    some c!"\nparse error near Space (line 2 symbol 5 - line 2 symbol 6):\n\" \"\n" := by decide +kernel
example : (pegError c!"a = 1 \n b").bind (errorText ascii true c!"a = 1 \n b") =
    some (c!"\nparse error near " ++ esc :: (c!"[34mSpace" ++ esc :: c!"[m (line 2 symbol 1 - line 2 symbol 2):\n\" \"\n")) := by decide +kernel
-- A text that tries to add a line to the message.
example : (pegError c!"a='x\nok'y").bind (errorText ascii false c!"a='x\nok'y") =
    some c!"\nparse error near String (line 1 symbol 3 - line 2 symbol 4):\n\"'x\\nok'\"\n" := by decide +kernel

theorem natText_not {c : Char} (hc : c.isDigit = false) (n : Nat) : c ∉ natText n := by
  intro hm; rw [natText_digit hm] at hc; cases hc

theorem maxName_chars (m : Tok) : ∀ c ∈ maxName m, (c.isAlphanum || c == '_') = true := by
  unfold maxName
  split
  · decide
  · exact kindName_chars m.kind

/-- C44: whatever the query contains, its error message has exactly three line ends, and without colours every other character of it is printable: a
query can not add lines or control characters to the log. -/
theorem C44_message_lines (P : Char → Bool) (hn : P '\n' = false) (hP : ∀ c, ascii c = true → P c = true) (s : Str) (tree0 : List Tok) (m : Tok)
    (tr : List Tok) (h : pegParse s tree0 = .err m tr) (pretty : Bool) (t : Str) (ht : errorText P pretty s m = some t) :
    t.count '\n' = 3 ∧ (pretty = false → ∀ c ∈ t, c = '\n' ∨ P c = true) := by
  rw [C44_message P pretty s tree0 m tr h] at ht
  injection ht with ht
  have hq : '\n' ∉ quote P ((s.drop m.b).take (m.e - m.b)) := quote_noCtl hn (by decide) (by decide) (by decide) _
  have hd : ∀ n, '\n' ∉ natText n := natText_not (by decide)
  have hm : '\n' ∉ maxName m := fun hm => absurd (maxName_chars m _ hm) (by decide)
  have hc : (coloured pretty c!"34" (maxName m)).count '\n' = 0 := by
    rw [List.count_eq_zero]
    cases pretty with
    | false => exact hm
    | true => simp [coloured, esc, hm]
  refine ⟨?_, ?_⟩
  · rw [← ht]
    simp only [List.count_append, List.count_eq_zero.mpr hq, List.count_eq_zero.mpr (hd _), hc]
    decide
  · intro hp c hc'
    subst hp
    rw [← ht] at hc'
    have fixed : ∀ w : Str, (w.all fun c => c == '\n' || ascii c) = true → c ∈ w → c = '\n' ∨ P c = true := by
      intro w hw hcw
      have := List.all_eq_true.mp hw c hcw
      simp only [Bool.or_eq_true, beq_iff_eq] at this
      rcases this with h | h
      · exact .inl h
      · exact .inr (hP c h)
    have al : ∀ c : Char, (c.isAlphanum || c == '_') = true → ascii c = true := by
      intro c hc
      simp only [ascii, Char.isAlphanum, Char.isAlpha, Char.isUpper, Char.isLower, Char.isDigit, Bool.or_eq_true, Bool.and_eq_true, decide_eq_true_eq,
        beq_iff_eq] at hc ⊢
      have e : c.toNat = c.val.toNat := rfl
      simp only [ge_iff_le, UInt32.le_iff_toNat_le] at hc
      rcases hc with ((⟨h1, h2⟩ | ⟨h1, h2⟩) | ⟨h1, h2⟩) | h
      · rw [e]; constructor <;> simp at h1 h2 <;> omega
      · rw [e]; constructor <;> simp at h1 h2 <;> omega
      · rw [e]; constructor <;> simp at h1 h2 <;> omega
      · rw [h]; decide
    have num : ∀ n, c ∈ natText n → c = '\n' ∨ P c = true := by
      intro n hc
      have := natText_digit hc
      exact .inr (hP c (al c (by simp [Char.isAlphanum, this])))
    simp only [List.mem_append] at hc'
    rcases hc' with ((((((((((((hc' | hc') | hc') | hc') | hc') | hc') | hc') | hc') | hc') | hc') | hc') | hc') | hc')
    · exact fixed _ (by decide) hc'
    · exact .inr (hP c (al c (maxName_chars m c hc')))
    · exact fixed _ (by decide) hc'
    · exact num _ hc'
    · exact fixed _ (by decide) hc'
    · exact num _ hc'
    · exact fixed _ (by decide) hc'
    · exact num _ hc'
    · exact fixed _ (by decide) hc'
    · exact num _ hc'
    · exact fixed _ (by decide) hc'
    · rcases List.mem_cons.mp hc' with rfl | hc'
      · exact .inr (hP _ (by decide))
      · rcases List.mem_append.mp hc' with hc' | hc'
        · obtain ⟨d, _, hx⟩ := List.mem_flatMap.mp hc'
          rcases quoteRune_mem hx with ⟨rfl, h | rfl | rfl⟩ | rfl | h
          · exact .inr h
          · exact .inr (hP _ (by decide))
          · exact .inr (hP _ (by decide))
          · exact .inr (hP _ (by decide))
          · exact .inr (hP c (al c (by simp [h])))
        · exact fixed _ (by decide) hc'
    · exact fixed _ (by decide) hc'

/-- C44: the message can be read back.  Two syntax errors with the same message are at the same lines and symbols, name the same rule and quote the
same text. -/
theorem C44_message_faithful (P : Char → Bool) (pretty : Bool) (s s' : Str) (tree0 tree0' : List Tok) (m m' : Tok) (tr tr' : List Tok)
    (h : pegParse s tree0 = .err m tr) (h' : pegParse s' tree0' = .err m' tr') (he : errorText P pretty s m = errorText P pretty s' m') :
    maxName m = maxName m' ∧ lineOf (mkBuf s) m.b = lineOf (mkBuf s') m'.b ∧ symbolOf (mkBuf s) m.b = symbolOf (mkBuf s') m'.b ∧
    lineOf (mkBuf s) m.e = lineOf (mkBuf s') m'.e ∧ symbolOf (mkBuf s) m.e = symbolOf (mkBuf s') m'.e ∧
    (s.drop m.b).take (m.e - m.b) = (s'.drop m'.b).take (m'.e - m'.b) := by
  rw [C44_message P pretty s tree0 m tr h, C44_message P pretty s' tree0' m' tr' h'] at he
  injection he with he
  simp only [List.append_assoc] at he
  have he := List.append_cancel_left he
  simp only [List.cons_append, List.nil_append] at he
  obtain ⟨h1, he⟩ := coloured_inj (maxName_chars m) (maxName_chars m') he
  simp only [List.cons.injEq, true_and] at he
  have hd : ∀ {c : Char}, c.isDigit = false → ∀ n, c ∉ natText n := fun hc n => natText_not hc n
  obtain ⟨h2, he⟩ := mark_inj (hd (by decide) _) (hd (by decide) _) he
  simp only [List.cons.injEq, true_and] at he
  obtain ⟨h3, he⟩ := mark_inj (hd (by decide) _) (hd (by decide) _) he
  simp only [List.cons.injEq, true_and] at he
  obtain ⟨h4, he⟩ := mark_inj (hd (by decide) _) (hd (by decide) _) he
  simp only [List.cons.injEq, true_and] at he
  obtain ⟨h5, he⟩ := mark_inj (hd (by decide) _) (hd (by decide) _) he
  simp only [List.cons.injEq, true_and] at he
  exact ⟨h1, natText_inj h2, natText_inj h3, natText_inj h4, natText_inj h5, (quote_inj P _ _ _ _ he).1⟩

/-! ## C50: errors kept beyond the next query -/

/-- The message that an error kept from query `s` gives after its parser object was given the query `s'`: `parseError` keeps the object, not the
buffer (/repo/miniquery/miniquery.peg.go:313-316, 325, 336). -/
def staleText (P : Char → Bool) (pretty : Bool) (s' : Str) (m : Tok) : Option Str := errorText P pretty s' m

/-- C50 in full is false for errors too: an error kept until its parser object has parsed a shorter query panics when it is printed, even if that
query is accepted. -/
theorem C50_error_kept_refuted (P : Char → Bool) (pretty : Bool) :
    ∃ m tr, pegParse c!"a = 1 and b = )" [] = .err m tr ∧ (∃ ts tr', pegParse c!"a" tr = .ok ts tr') ∧ staleText P pretty c!"a" m = none := by
  have h : (match pegParse c!"a = 1 and b = )" [] with
    | .err m tr => (match pegParse c!"a" tr with | .ok _ _ => true | _ => false) && (errorReport c!"a" m.b m.e == none)
    | _ => false) = true := by decide +kernel
  cases hp : pegParse c!"a = 1 and b = )" [] with
  | err m tr =>
    rw [hp] at h
    simp only [Bool.and_eq_true, beq_iff_eq] at h
    cases hq : pegParse c!"a" tr with
    | ok ts tr' =>
      refine ⟨m, tr, rfl, ⟨ts, tr', hq⟩, ?_⟩
      rw [staleText, errorText, h.2]; rfl
    | _ => rw [hq] at h; exact absurd h.1 (by simp)
  | _ => rw [hp] at h; cases h

/-! ## C57: printed trees and token lists -/

/-- A syntax tree as a reader sees it: each node has a rule and a piece of the query. -/
inductive LTree where
  | mk (kind : TokKind) (text : Str) (up : List LTree)

mutual
/-- The tree of a node, with the pieces of the query instead of positions. -/
def N32.label (s : Str) : N32 → LTree
  | .mk t up => .mk t.kind ((s.drop t.b).take (t.e - t.b)) (labels s up)
def labels (s : Str) : List N32 → List LTree
  | [] => []
  | n :: ns => n.label s :: labels s ns
end

mutual
/-- The lines of a tree: each node one line, children one step deeper. -/
def LTree.lines : Nat → LTree → List Line
  | d, .mk k x up => (d, k, x) :: treesLines (d + 1) up
def treesLines : Nat → List LTree → List Line
  | _, [] => []
  | d, t :: ts => t.lines d ++ treesLines d ts
end

mutual
theorem printN_lines (s : Str) : ∀ (d : Nat) (n : N32) (ls : List Line), printN s d n = some ls → ls = (n.label s).lines d
  | d, .mk t up, ls, h => by
    rw [printN] at h
    split at h
    · cases hl : printL s (d + 1) up with
      | none => rw [hl] at h; cases h
      | some l =>
        rw [hl] at h
        injection h with h
        rw [← h, N32.label, LTree.lines, printL_lines s (d + 1) up l hl]
    · cases h
theorem printL_lines (s : Str) : ∀ (d : Nat) (ns : List N32) (ls : List Line), printL s d ns = some ls → ls = treesLines d (labels s ns)
  | d, [], ls, h => by rw [printL] at h; injection h with h; rw [← h]; rfl
  | d, n :: ns, ls, h => by
    rw [printL] at h
    cases h1 : printN s d n with
    | none => rw [h1] at h; cases h
    | some a =>
      cases h2 : printL s d ns with
      | none => rw [h1, h2] at h; cases h
      | some b =>
        rw [h1, h2] at h
        injection h with h
        rw [← h, labels, treesLines, ← printN_lines s d n a h1, ← printL_lines s d ns b h2]
end

/-- What follows the lines of a subtree is not deeper than it. -/
def Below (d : Nat) (u : List Line) : Prop := ∀ l, u.head? = some l → l.1 < d

theorem lines_head (d : Nat) : ∀ t : LTree, ∃ k x u, t.lines d = (d, k, x) :: u
  | .mk k x up => ⟨k, x, treesLines (d + 1) up, by rw [LTree.lines]⟩

mutual
theorem lines_inj : ∀ (t t' : LTree) (d : Nat) (u v : List Line), Below (d + 1) u → Below (d + 1) v → t.lines d ++ u = t'.lines d ++ v → t = t' ∧ u = v
  | .mk k x up, .mk k' x' up', d, u, v, hu, hv, h => by
    rw [LTree.lines, LTree.lines] at h
    simp only [List.cons_append, List.cons.injEq, Prod.mk.injEq, true_and] at h
    obtain ⟨h1, h2⟩ := treesLines_inj up up' (d + 1) u v hu hv h.2
    exact ⟨by rw [h.1.1, h.1.2, h1], h2⟩
theorem treesLines_inj : ∀ (ts ts' : List LTree) (d : Nat) (u v : List Line), Below d u → Below d v → treesLines d ts ++ u = treesLines d ts' ++ v → ts = ts' ∧ u = v
  | [], [], d, u, v, _, _, h => ⟨rfl, by simpa [treesLines] using h⟩
  | [], t' :: ts', d, u, v, hu, _, h => by
    obtain ⟨k, x, w, e⟩ := lines_head d t'
    rw [treesLines, treesLines, e] at h
    simp only [List.nil_append, List.cons_append] at h
    exact absurd (hu _ (by rw [h]; rfl)) (by simp)
  | t :: ts, [], d, u, v, _, hv, h => by
    obtain ⟨k, x, w, e⟩ := lines_head d t
    rw [treesLines, treesLines, e] at h
    simp only [List.nil_append, List.cons_append] at h
    exact absurd (hv _ (by rw [← h]; rfl)) (by simp)
  | t :: ts, t' :: ts', d, u, v, hu, hv, h => by
    have key : ∀ (ts : List LTree) (u : List Line), Below d u → Below (d + 1) (treesLines d ts ++ u) := by
      intro ts u hu l hl
      cases ts with
      | nil => rw [treesLines, List.nil_append] at hl; have := hu l hl; omega
      | cons t ts =>
        obtain ⟨k, x, w, e⟩ := lines_head d t
        rw [treesLines, e] at hl
        simp only [List.cons_append, List.head?_cons, Option.some.injEq] at hl
        rw [← hl]; simp
    rw [treesLines, treesLines, List.append_assoc, List.append_assoc] at h
    obtain ⟨h1, h2⟩ := lines_inj t t' d _ _ (key ts u hu) (key ts' v hv) h
    obtain ⟨h3, h4⟩ := treesLines_inj ts ts' d u v hu hv h2
    exact ⟨by rw [h1, h3], h4⟩
end

/-- C57: a printed syntax tree can be read back.  If two token lists over two queries print the same text — with colours or without — they have the
same tree: the same rules, the same pieces of text, the same nesting.  In particular quotes, line ends and rule names inside the texts are never
mistaken for structure. -/
theorem C57_tree (P : Char → Bool) (pretty : Bool) (s s' : Str) (ts ts' : List Tok) (t : Str) (h : treeText P pretty s ts = some t)
    (h' : treeText P pretty s' ts' = some t) : (ast ts).map (N32.label s) = (ast ts').map (N32.label s') := by
  obtain ⟨ls, h1, h2⟩ := Option.map_eq_some_iff.mp h
  obtain ⟨ls', h1', h2'⟩ := Option.map_eq_some_iff.mp h'
  have he : ls = ls' := linesText_inj P pretty (h2.trans h2'.symm)
  subst he
  have nope : ∀ (s : Str) (n : N32), printN s 0 n ≠ some [] := by
    intro s n hn
    have := printN_lines s 0 n [] hn
    obtain ⟨k, x, u, e⟩ := lines_head 0 (n.label s)
    rw [e] at this; cases this
  unfold printTree at h1 h1'
  cases ha : ast ts with
  | none =>
    rw [ha] at h1
    injection h1 with h1
    cases ha' : ast ts' with
    | none => rfl
    | some n' => rw [ha'] at h1'; rw [← h1] at h1'; exact absurd h1' (nope _ _)
  | some n =>
    rw [ha] at h1
    cases ha' : ast ts' with
    | none =>
      rw [ha'] at h1'
      injection h1' with h1'
      rw [← h1'] at h1; exact absurd h1 (nope _ _)
    | some n' =>
      rw [ha'] at h1'
      have e1 := printN_lines s 0 n ls h1
      have e2 := printN_lines s' 0 n' ls h1'
      have hb : Below 1 ([] : List Line) := fun l hl => nomatch hl
      rw [Option.map_some, Option.map_some, (lines_inj (n.label s) (n'.label s') 0 [] [] hb hb (by rw [← e1, ← e2])).1]

/-- C57: the printed tree of an accepted query starts with the whole query, so two accepted queries with the same printed tree are the same query. -/
theorem C57_query (P : Char → Bool) (pretty : Bool) (s s' : Str) (tree0 tree0' ts ts' tr tr' : List Tok) (h : pegParse s tree0 = .ok ts tr)
    (h' : pegParse s' tree0' = .ok ts' tr') :
    ∃ t t', treeText P pretty s ts = some t ∧ treeText P pretty s' ts' = some t' ∧ (t = t' → s = s') := by
  obtain ⟨ls, h1, _⟩ := C49_print s tree0 ts tr h
  obtain ⟨ls', h1', _⟩ := C49_print s' tree0' ts' tr' h'
  refine ⟨_, _, by rw [treeText, h1]; rfl, by rw [treeText, h1']; rfl, ?_⟩
  intro he
  have := linesText_inj P pretty he
  injection this with this
  injection this with _ this
  injection this

/-- Removes colours: an escape character and all that follows up to the next `m`. -/
def stripColour : Bool → Str → Str
  | _, [] => []
  | false, c :: u => if c = esc then stripColour true u else c :: stripColour false u
  | true, c :: u => if c = 'm' then stripColour false u else stripColour true u

theorem strip_plain {a : Str} (h : esc ∉ a) (u : Str) : stripColour false (a ++ u) = a ++ stripColour false u := by
  induction a with
  | nil => rfl
  | cons c a ih =>
    simp only [List.mem_cons, not_or] at h
    rw [List.cons_append, stripColour, if_neg (fun e => h.1 e.symm), ih h.2]; rfl

theorem strip_coloured {w : Str} (hw : esc ∉ w) {k : Str} (hk : 'm' ∉ k) (u : Str) : stripColour false (coloured true k w ++ u) = w ++ stripColour false u := by
  have run : ∀ (k : Str), 'm' ∉ k → ∀ v, stripColour true (k ++ 'm' :: v) = stripColour false v := by
    intro k
    induction k with
    | nil => intro _ v; rw [List.nil_append, stripColour, if_pos rfl]
    | cons c k ih =>
      intro h v
      simp only [List.mem_cons, not_or] at h
      rw [List.cons_append, stripColour, if_neg (fun e => h.1 e.symm), ih h.2]
  simp only [coloured, if_pos, List.cons_append, List.append_assoc, List.nil_append]
  rw [stripColour, if_pos rfl]
  have := run ('[' :: k) (by simpa using hk) (w ++ esc :: '[' :: 'm' :: u)
  rw [List.cons_append] at this
  rw [this, strip_plain hw, stripColour, if_pos rfl]
  have := run ['['] (by decide) u
  simp only [List.cons_append, List.nil_append] at this
  rw [this]

/-- C57: colours are only decoration: the coloured tree without its escape sequences is the plain tree, whatever the query contains. -/
theorem C57_colour (P : Char → Bool) (hP : P esc = false) (s : Str) (ts : List Tok) :
    treeText P false s ts = (treeText P true s ts).map (stripColour false) := by
  unfold treeText
  rw [Option.map_map]
  congr 1
  funext ls
  have hline : ∀ (l : Line) (u : Str), stripColour false (lineText P true l ++ u) = lineText P false l ++ stripColour false u := by
    intro l u
    unfold lineText
    rw [List.append_assoc, strip_plain (fun h => absurd (List.eq_of_mem_replicate h) (by decide)), List.append_assoc,
      strip_coloured (kindName_not (by decide)) (by decide), strip_plain]
    · simp [coloured]
    · have := quote_noCtl hP (by decide) (by decide) (by decide) l.2.2
      simp [esc] at this ⊢
      exact this
  induction ls with
  | nil => rfl
  | cons l ls ih =>
    simp only [Function.comp_apply, List.flatMap_cons] at ih ⊢
    rw [hline, ← ih]

/-- C57: the printed list of tokens can be read back. -/
theorem C57_tokens (ts ts' : List Tok) (h : tokensText ts = tokensText ts') : ts = ts' := tokensText_inj h

/-- The tree that `SprintSyntaxTree` prints after an accepted query, for examples. -/
def sprint (pretty : Bool) (s : Str) : Option Str := match pegParse s [] with | .ok ts _ => treeText ascii pretty s ts | _ => none

-- The string holds what looks like another line of the tree; it stays inside its quotes.
example : sprint false c!"'\n a \"'" = some
    (c!"Grammar \"'\\n a \\\"'\"\n Expression \"'\\n a \\\"'\"\n  LogicExpression \"'\\n a \\\"'\"\n   NotExpression \"'\\n a \\\"'\"\n" ++
     c!"    CompareExpression \"'\\n a \\\"'\"\n     CompareInExpression \"'\\n a \\\"'\"\n      PredicateExpression \"'\\n a \\\"'\"\n" ++
     c!"       BetweenExpression \"'\\n a \\\"'\"\n        PrimaryExpression \"'\\n a \\\"'\"\n         Value \"'\\n a \\\"'\"\n" ++
     c!"          Literal \"'\\n a \\\"'\"\n           String \"'\\n a \\\"'\"\n            PegText \"\\n a \\\"\"\n") := by decide +kernel
example : (sprint true c!"a").map (fun t => t.take 24) = some (esc :: (c!"[36mGrammar" ++ esc :: c!"[m \"a\"\n ") ++ esc :: c!"[3") := by decide +kernel
example : (sprint true c!"a").map (stripColour false) = sprint false c!"a" ∧ (sprint false c!"a").isSome = true := by decide +kernel
example : tokensText [⟨.rule .sp, 0, 0⟩, ⟨.act 14, 1, 1⟩] = esc :: (c!"[34m_" ++ esc :: c!"[m 0 0\n") ++ esc :: (c!"[34mAction14" ++ esc :: c!"[m 1 1\n") := by
  decide

end Verif
