import Verif.Sat
import Verif.Lex
import Verif.Eff
import Verif.Digits
import Verif.ParseThms

/-! # Soundness of the recogniser and its actions with respect to the language specification -/

namespace Verif

/-- Blanks: no events. -/
def PostWS (s : Str) (ev : List Ev) (r : Str) : Prop := ev = [] ∧ ∃ u, s = u ++ r ∧ WS u
/-- At least one blank. -/
def PostWS1 (s : Str) (ev : List Ev) (r : Str) : Prop := ev = [] ∧ ∃ u, s = u ++ r ∧ WS u ∧ u ≠ []
/-- An operator with the blanks around it. -/
def PostOp (L : Str → Prop) (O : Str → Str → Prop) (s : Str) (ev : List Ev) (r : Str) : Prop :=
  ∃ w1 ob w2 o, s = w1 ++ (ob ++ (w2 ++ r)) ∧ L w1 ∧ O ob o ∧ WS w2 ∧ Closed ob false ∧ Eff ev [.op o] []
/-- The last node is not a bare operator. -/
def Topped (ns : List Node) : Prop := ∃ p n, ns = p ++ [n] ∧ NotOp n
/-- A value. -/
def PostV (C : Node → Prop) (L : Str → Node → Prop) (s : Str) (ev : List Ev) (r : Str) : Prop :=
  ∃ u n es, s = u ++ r ∧ Closed u false ∧ Eff ev [n] es ∧ C n ∧ (es = [] → L u n)
/-- An expression: one node that reads the text, unless `->` or a number out of range occurs. -/
def PostE (l : Lvl) (s : Str) (ev : List Ev) (r : Str) : Prop :=
  ∃ u a ns es, s = u ++ r ∧ Closed u a ∧ Eff ev ns es ∧ Topped ns ∧ (∀ n ∈ ns, Fine n) ∧
    (a = false → es = [] → ∃ n, ns = [n] ∧ Rd l u n)

/-- A column name. -/
def PostN (s : Str) (ev : List Ev) (r : Str) : Prop :=
  ∃ u a ns, s = u ++ r ∧ Closed u a ∧ Eff ev ns [] ∧ Topped ns ∧ (∀ n ∈ ns, Fine n) ∧
    (a = false → ∃ n, ns = [n] ∧ Name u n)

/-- What a successful derivation of each rule means. -/
def Post : Rule → Str → List Ev → Str → Prop
  | .EndOfLine, s, ev, r => ev = [] ∧ (s = c!"\r\n" ++ r ∨ s = '\n' :: r ∨ s = '\r' :: r)
  | .EndOfFile, s, ev, r => ev = [] ∧ s = [] ∧ r = []
  | .Comment, s, ev, r => PostWS1 s ev r
  | .Space, s, ev, r => PostWS1 s ev r
  | .SpaceComment, s, ev, r => PostWS1 s ev r
  | .sp, s, ev, r => PostWS s ev r
  | .sp1, s, ev, r => PostWS1 s ev r
  | .Compare, s, ev, r => PostOp WS CmpOp s ev r
  | .Logic, s, ev, r => PostOp WS LogicOp s ev r
  | .Match, s, ev, r => PostOp (fun w => WS w ∧ w ≠ []) MatchOp s ev r
  | .Integer, s, ev, r => PostV LitNode Lit s ev r
  | .Boolean, s, ev, r => PostV LitNode Lit s ev r
  | .Null, s, ev, r => PostV LitNode Lit s ev r
  | .String, s, ev, r => PostV LitNode Lit s ev r
  | .Literal, s, ev, r => PostV LitNode Lit s ev r
  | .Array, s, ev, r => PostV ValNode (fun u n => LitArr u n) s ev r
  | .Value, s, ev, r => PostV ValNode Val s ev r
  | .Identifier, s, ev, r => ∃ u, s = u ++ r ∧ IdText u ∧ Eff ev [.ident u] []
  | .IdentifierReference, s, ev, r => PostN s ev r
  | .JsonReference, s, ev, r => ∃ u ns, s = u ++ r ∧ Closed u true ∧ Eff ev ns [] ∧ Topped ns ∧ ∀ n ∈ ns, Fine n
  | .Reference, s, ev, r => PostN s ev r
  | .ArgumentList, s, ev, r => ∃ u a ns es, s = '(' :: (u ++ ')' :: r) ∧ Closed u a ∧ Eff ev [.arr ns] es ∧
      (∀ n ∈ ns, Fine n) ∧ (a = false → es = [] → Rd .args u (.arr ns))
  | .Argument, s, ev, r => PostE .logic s ev r
  | .PrimaryExpression, s, ev, r => PostE .prim s ev r
  | .BetweenExpression, s, ev, r => PostE .btw s ev r
  | .PredicateExpression, s, ev, r => PostE .prd s ev r
  | .CompareInExpression, s, ev, r => PostE .cin s ev r
  | .CompareExpression, s, ev, r => PostE .cmp s ev r
  | .NotExpression, s, ev, r => PostE .neg s ev r
  | .LogicExpression, s, ev, r => PostE .logic s ev r
  | .Expression, s, ev, r => PostE .logic s ev r
  | .Grammar, s, ev, r => ∃ w1 u w2, s = w1 ++ (u ++ w2) ∧ WS w1 ∧ WS w2 ∧ r = [] ∧ PostE .logic u ev []

/-- Shorthand. -/
abbrev SatG := Sat G Post

theorem txt_eq {u r : Str} : (u ++ r).take ((u ++ r).length - r.length) = u := by simp

/-! ## Blanks -/

theorem post_EndOfLine {s ev r} (h : SatG gEndOfLine s ev r) : Post .EndOfLine s ev r := by
  rcases h with h | ⟨_, h | ⟨_, h⟩⟩
  · have := sat_lit h; exact ⟨this.1, .inl this.2⟩
  · exact ⟨h.1, .inr (.inl h.2)⟩
  · exact ⟨h.1, .inr (.inr h.2)⟩

theorem eol_none {s : Str} (h : Big G (.call .EndOfLine) s none) : (∀ t, s ≠ '\n' :: t) ∧ (∀ t, s ≠ '\r' :: t) := by
  cases h with | call h => ?_
  cases h with | alt2 h1 h => ?_
  cases h with | alt2 h2 h => ?_
  constructor
  · rintro t rfl; cases h2 with | chrFail h => exact h rfl
  · rintro t rfl; cases h with | chrFail h => exact h rfl

theorem comment_body {s ev r} (h : Iter (SatG (.seq (.notP (.call .EndOfLine)) .any)) s ev r) :
    ev = [] ∧ ∃ b, s = b ++ r ∧ ∀ c ∈ b, c ≠ '\n' ∧ c ≠ '\r' := by
  induction h with
  | nil => exact ⟨rfl, [], rfl, by simp⟩
  | cons h _ ih =>
    obtain ⟨e5, r5, e6, ⟨hn, rfl, rfl⟩, ⟨rfl, c, rfl⟩, rfl⟩ := h
    obtain ⟨rfl, b, rfl, hb⟩ := ih
    have := eol_none hn
    refine ⟨rfl, c :: b, rfl, ?_⟩
    intro d hd
    rcases List.mem_cons.mp hd with rfl | hd
    · exact ⟨by rintro rfl; exact this.1 _ rfl, by rintro rfl; exact this.2 _ rfl⟩
    · exact hb d hd

theorem post_Comment {s ev r} (h : SatG gComment s ev r) : Post .Comment s ev r := by
  obtain ⟨e1, r1, e2, h1, ⟨e3, r3, e4, ⟨h3, _⟩, h4, rfl⟩, rfl⟩ := h
  have h1' : e1 = [] ∧ (s = c!"--" ++ r1 ∨ s = c!"//" ++ r1) := by
    rcases h1 with h | ⟨_, h⟩
    · exact ⟨(sat_lit h).1, .inl (sat_lit h).2⟩
    · exact ⟨(sat_lit h).1, .inr (sat_lit h).2⟩
  obtain ⟨rfl, hs⟩ := h1'
  have hb := comment_body h3
  obtain ⟨rfl, b, rfl, hb⟩ := hb
  obtain ⟨rfl, hr⟩ : Post .EndOfLine r3 e4 r := h4
  refine ⟨rfl, ?_⟩
  have mk : ∀ o e u, (o = c!"--" ∨ o = c!"//") → (e = '\n' ∨ e = '\r') → WS u → s = o ++ (b ++ (e :: (u ++ r))) →
      ∃ u, s = u ++ r ∧ WS u ∧ u ≠ [] := by
    intro o e u ho he hu hs
    refine ⟨o ++ (b ++ e :: u), by simp [hs], .comment ho hb he hu, ?_⟩
    rcases ho with rfl | rfl <;> simp
  rcases hs with rfl | rfl <;> rcases hr with rfl | rfl | rfl
  · exact mk c!"--" '\r' c!"\n" (.inl rfl) (.inr rfl) (.blank (by decide) .nil) rfl
  · exact mk c!"--" '\n' [] (.inl rfl) (.inl rfl) .nil rfl
  · exact mk c!"--" '\r' [] (.inl rfl) (.inr rfl) .nil rfl
  · exact mk c!"//" '\r' c!"\n" (.inr rfl) (.inr rfl) (.blank (by decide) .nil) rfl
  · exact mk c!"//" '\n' [] (.inr rfl) (.inl rfl) .nil rfl
  · exact mk c!"//" '\r' [] (.inr rfl) (.inr rfl) .nil rfl

theorem ws1_blank {c : Char} {r : Str} (h : c ∈ blanks) : PostWS1 (c :: r) [] r :=
  ⟨rfl, [c], rfl, .blank h .nil, by simp⟩

theorem post_Space {s ev r} (h : SatG gSpace s ev r) : Post .Space s ev r := by
  rcases h with ⟨_, rfl, rfl⟩ | ⟨_, ⟨_, rfl, rfl⟩ | ⟨_, h⟩⟩
  · exact ws1_blank (by decide)
  · exact ws1_blank (by decide)
  · obtain ⟨rfl, rfl | rfl | rfl⟩ : Post .EndOfLine s ev r := h
    · exact ⟨rfl, c!"\r\n", rfl, .blank (by decide) (.blank (by decide) .nil), by simp⟩
    · exact ws1_blank (by decide)
    · exact ws1_blank (by decide)

theorem post_SpaceComment {s ev r} (h : SatG gSpaceComment s ev r) : Post .SpaceComment s ev r := by
  rcases h with h | ⟨_, h⟩ <;> exact h

theorem iter_ws {s ev r} (h : Iter (SatG (.call .SpaceComment)) s ev r) : PostWS s ev r := by
  induction h with
  | nil => exact ⟨rfl, [], rfl, .nil⟩
  | cons h _ ih =>
    obtain ⟨rfl, u, rfl, hu, _⟩ : PostWS1 _ _ _ := h
    obtain ⟨rfl, v, rfl, hv⟩ := ih
    exact ⟨rfl, u ++ v, by simp, hu.append hv⟩

theorem post_sp {s ev r} (h : SatG gSp s ev r) : Post .sp s ev r := iter_ws h.1

theorem post_sp1 {s ev r} (h : SatG gSp1 s ev r) : Post .sp1 s ev r := by
  obtain ⟨e1, r1, e2, h1, ⟨h2, _⟩, rfl⟩ := h
  obtain ⟨rfl, u, rfl, hu, hne⟩ : PostWS1 _ _ _ := h1
  obtain ⟨rfl, v, rfl, hv⟩ := iter_ws h2
  exact ⟨rfl, u ++ v, by simp, hu.append hv, by simp [hne]⟩

theorem post_EndOfFile {s ev r} (h : SatG gEndOfFile s ev r) : Post .EndOfFile s ev r := by
  obtain ⟨hn, rfl, rfl⟩ := h
  cases hn
  exact ⟨rfl, rfl, rfl⟩

/-! ## Operators -/

/-- `_ <op> _ action`. -/
theorem sat_op {L : Rule} {LW : Str → Prop} {e : PExp} {O : Str → Str → Prop} {k : Nat} {s ev r}
    (hL : ∀ s ev r, Post L s ev r → ev = [] ∧ ∃ u, s = u ++ r ∧ LW u)
    (hk : k ∈ [3, 6, 15, 16, 17, 18, 19, 20])
    (he : ∀ s ev r, SatG e s ev r → ev = [] ∧ ∃ u, s = u ++ r ∧ O u (normOp u) ∧ Closed u false)
    (h : SatG (PExp.seqs [.call L, .txt e, .call .sp, .act k]) s ev r) : PostOp LW O s ev r := by
  obtain ⟨e1, r1, e2, h1, ⟨e3, r3, e4, ⟨e5, h3, rfl⟩, ⟨e6, r6, e7, h6, ⟨rfl, rfl⟩, rfl⟩, rfl⟩, rfl⟩ := h
  obtain ⟨rfl, w1, rfl, hw1⟩ := hL _ _ _ h1
  obtain ⟨rfl, u, rfl, hu, hc⟩ := he _ _ _ h3
  obtain ⟨rfl, w2, rfl, hw2⟩ : PostWS _ _ _ := h6
  refine ⟨w1, u, w2, _, rfl, hw1, hu, hw2, hc, ?_⟩
  simp only [txt_eq, List.nil_append, List.cons_append]
  exact eff_op hk rfl

theorem lookup_none_n {m : Str} (h : m ≠ c!"otnull") : normTable.lookup ('n' :: m) = none := by
  simp only [normTable, List.lookup, List.cons_beq_cons]
  simp [beq_eq_false_iff_ne.mpr h]

theorem lookup_none_i {m : Str} (h : m ≠ c!"snull") : normTable.lookup ('i' :: m) = none := by
  simp only [normTable, List.lookup, List.cons_beq_cons]
  simp [beq_eq_false_iff_ne.mpr h]

theorem notSep_append {w sep} (b : Str) (hw : Closed w false) (hs : WS sep) (hb : Closed b false) : Closed (w ++ (sep ++ b)) false := by
  have := hw.append (hs.closed.append hb)
  simpa using this

theorem sat_sym {w o : Str} (h : (w, o) ∈ [(c!">=", c!"gte"), (c!"<=", c!"lte"), (c!"==", c!"eq"), (c!"<", c!"lt"), (c!"=", c!"eq"),
      (c!">", c!"gt"), (c!"!=", c!"neq"), (c!"<>", c!"neq")]) : CmpOp w (normOp w) ∧ Closed w false := by
  have h' : normOp w = o ∧ (∀ c ∈ w, Plain c) := by
    simp at h
    rcases h with ⟨rfl, rfl⟩ | ⟨rfl, rfl⟩ | ⟨rfl, rfl⟩ | ⟨rfl, rfl⟩ | ⟨rfl, rfl⟩ | ⟨rfl, rfl⟩ | ⟨rfl, rfl⟩ | ⟨rfl, rfl⟩ <;>
      exact ⟨by decide, by decide⟩
  exact ⟨h'.1 ▸ .sym h, .plain h'.2⟩

theorem sat_gCmpSym {s ev r} (h : SatG gCmpSym s ev r) :
    ev = [] ∧ ∃ u, s = u ++ r ∧ CmpOp u (normOp u) ∧ Closed u false := by
  have lit : ∀ w : Str, SatG (.lit w) s ev r →
      (∃ o, (w, o) ∈ [(c!">=", c!"gte"), (c!"<=", c!"lte"), (c!"==", c!"eq"), (c!"<", c!"lt"), (c!"=", c!"eq"),
      (c!">", c!"gt"), (c!"!=", c!"neq"), (c!"<>", c!"neq")]) → ev = [] ∧ ∃ u, s = u ++ r ∧ CmpOp u (normOp u) ∧ Closed u false := by
    rintro w hw ⟨o, ho⟩
    obtain ⟨rfl, rfl⟩ := sat_lit hw
    exact ⟨rfl, w, rfl, sat_sym ho⟩
  rcases h with h | ⟨_, h | ⟨_, h | ⟨_, h | ⟨_, ⟨_, h⟩ | ⟨_, ⟨_, h⟩ | ⟨_, ⟨_, h⟩ | ⟨_, h⟩⟩⟩⟩⟩⟩⟩
  · exact lit _ h ⟨_, by simp; rfl⟩
  · exact lit _ h ⟨_, by simp; rfl⟩
  · exact lit _ h ⟨_, by simp; rfl⟩
  · exact lit c!"<" h ⟨_, by simp; rfl⟩
  · exact lit c!"=" h ⟨_, by simp; rfl⟩
  · exact lit _ h ⟨_, by simp; rfl⟩
  · exact lit c!">" h ⟨_, by simp; rfl⟩
  · exact lit _ h ⟨_, by simp; rfl⟩

theorem sat_word {O : Str → Str → Prop} {w : Str} {s ev r} (hw : LowerWord w) (hl : normTable.lookup w = none)
    (hO : ∀ u, CI w u → O u w) (h : SatG (.ciLit w) s ev r) :
    ev = [] ∧ ∃ u, s = u ++ r ∧ O u (normOp u) ∧ Closed u false := by
  obtain ⟨rfl, u, rfl, hu⟩ := sat_ciLit h
  exact ⟨rfl, u, rfl, normOp_word hw hu hl ▸ hO u hu, .ci hw hu⟩

theorem sat_gCmpWord {s ev r} (h : SatG gCmpWord s ev r) :
    ev = [] ∧ ∃ u, s = u ++ r ∧ CmpOp u (normOp u) ∧ Closed u false := by
  rcases h with h | ⟨_, h | ⟨_, ⟨_, h⟩ | ⟨_, ⟨_, h⟩ | ⟨_, ⟨_, h⟩ | ⟨_, h⟩⟩⟩⟩⟩ <;>
    exact sat_word (by decide) (by decide) (fun u hu => .word (by simp) hu) h

/-- `not __ word`. -/
theorem sat_notWord {O : Str → Str → Prop} {w : Str} {s ev r} (hw : LowerWord w) (hn : w ≠ [])
    (hl : ∀ m : Str, m ≠ [] → normTable.lookup (c!"not" ++ (m ++ w)) = none)
    (hO : ∀ a s m b, CI c!"not" a → Sep s m → CI w b → O (a ++ (s ++ b)) (c!"not" ++ (m ++ w)))
    (h : SatG (PExp.seqs [.ciLit c!"not", .call .sp1, .ciLit w]) s ev r) :
    ev = [] ∧ ∃ u, s = u ++ r ∧ O u (normOp u) ∧ Closed u false := by
  obtain ⟨e1, r1, e2, h1, ⟨e3, r3, e4, h3, h4, rfl⟩, rfl⟩ := h
  obtain ⟨rfl, a, rfl, ha⟩ := sat_ciLit h1
  obtain ⟨rfl, sep, rfl, hs, hne⟩ : PostWS1 _ _ _ := h3
  obtain ⟨rfl, b, rfl, hb⟩ := sat_ciLit h4
  refine ⟨rfl, a ++ (sep ++ b), by simp, ?_, notSep_append _ (.ci (by decide) ha) hs (.ci hw hb)⟩
  rw [normOp_two (w1 := c!"not") (by decide) hw ha hb (by simp) hn hl hne]
  exact hO _ _ _ _ ha (.of_ws hs hne) hb

theorem append_ne_of_last {m w v : Str} {c d : Char} (hc : c ≠ d) : m ++ (w ++ [c]) ≠ v ++ [d] := by
  intro h
  have := congrArg List.getLast? h
  simp [← List.append_assoc] at this
  exact hc this

theorem sat_gCmpLike {s ev r} (h : SatG gCmpLike s ev r) :
    ev = [] ∧ ∃ u, s = u ++ r ∧ CmpOp u (normOp u) ∧ Closed u false := by
  rcases h with h | ⟨_, h⟩
  · exact sat_word (by decide) (by decide) (fun u hu => .word (by simp) hu) h
  · refine sat_notWord (by decide) (by simp) (fun m hm => ?_) (fun a s m b ha hs hb => .notLike ha hs hb) h
    apply lookup_none_n
    have := @append_ne_of_last m c!"lik" c!"nul" 'e' 'l' (by decide)
    simpa using this

theorem post_Compare {s ev r} (h : SatG gCompare s ev r) : Post .Compare s ev r := by
  rcases h with h | ⟨_, h | ⟨_, h⟩⟩
  · exact sat_op (L := .sp) (fun _ _ _ h => h) (by decide) (fun _ _ _ => sat_gCmpSym) h
  · exact sat_op (L := .sp) (fun _ _ _ h => h) (by decide) (fun _ _ _ => sat_gCmpWord) h
  · exact sat_op (L := .sp) (fun _ _ _ h => h) (by decide) (fun _ _ _ => sat_gCmpLike) h

theorem sat_gLogicWord {s ev r} (h : SatG gLogicWord s ev r) :
    ev = [] ∧ ∃ u, s = u ++ r ∧ LogicOp u (normOp u) ∧ Closed u false := by
  rcases h with h | ⟨_, h⟩
  · exact sat_word (by decide) (by decide) (fun u hu => .word (by simp) hu) h
  · exact sat_word (by decide) (by decide) (fun u hu => .word (by simp) hu) h

theorem sat_gLogicSym {s ev r} (h : SatG gLogicSym s ev r) :
    ev = [] ∧ ∃ u, s = u ++ r ∧ LogicOp u (normOp u) ∧ Closed u false := by
  rcases h with h | ⟨_, h⟩
  · obtain ⟨rfl, rfl⟩ := sat_lit h
    exact ⟨rfl, _, rfl, .amp, .plain (by decide)⟩
  · obtain ⟨rfl, rfl⟩ := sat_lit h
    exact ⟨rfl, _, rfl, .bar, .plain (by decide)⟩

theorem post_Logic {s ev r} (h : SatG gLogic s ev r) : Post .Logic s ev r := by
  rcases h with h | ⟨_, h⟩
  · exact sat_op (L := .sp) (fun _ _ _ h => h) (by decide) (fun _ _ _ => sat_gLogicWord) h
  · exact sat_op (L := .sp) (fun _ _ _ h => h) (by decide) (fun _ _ _ => sat_gLogicSym) h

theorem sat_gTfn {s ev r} (h : SatG gTfn s ev r) :
    ev = [] ∧ ∃ w, s = w ++ r ∧ w ∈ [c!"null", c!"true", c!"false"] ∧ LowerWord w ∧ w ≠ [] ∧ Closed w false ∧ 4 ≤ w.length := by
  rcases h with ⟨_, h⟩ | ⟨_, ⟨_, h⟩ | ⟨_, h⟩⟩ <;> obtain ⟨rfl, rfl⟩ := sat_lit h
  · exact ⟨rfl, _, rfl, by simp, by decide, by simp, .plain (by decide), by decide⟩
  · exact ⟨rfl, _, rfl, by simp, by decide, by simp, .plain (by decide), by decide⟩
  · exact ⟨rfl, _, rfl, by simp, by decide, by simp, .plain (by decide), by decide⟩

theorem normOp_three {s1 s2 w : Str} (hw : LowerWord w) (nw : w ≠ []) (n1 : s1 ≠ []) (_n2 : s2 ≠ []) (hlen : 4 ≤ w.length) :
    normOp (c!"is" ++ (s1 ++ (c!"not" ++ (s2 ++ w)))) =
      c!"is" ++ (squeeze false (goLower s1) ++ (c!"not" ++ (squeeze false (goLower s2) ++ w))) := by
  refine normOp_eq ?_ ?_ ?_ ?_
  · rintro c t ⟨⟩; decide
  · intro c t e
    obtain ⟨u2', d, rfl⟩ : ∃ l d, w = l ++ [d] := ⟨_, _, (List.dropLast_concat_getLast nw).symm⟩
    have e' : (c!"is" ++ (s1 ++ (c!"not" ++ (s2 ++ u2')))) ++ [d] = t ++ [c] := by rw [← e]; simp
    have : d = c := by simpa using (List.append_inj' e' rfl).2
    subst this
    exact ((CI.refl _).noSpace hw _ (by simp)).2
  · simp only [goLower_append]
    rw [(CI.refl w).lower hw]
    rw [show goLower c!"is" = c!"is" from rfl, show goLower c!"not" = c!"not" from rfl]
    rw [squeeze_pre (by decide) (by simp)]
    congr 1
    have hne : squeeze false (goLower s1) ≠ [] := squeeze_ne_nil (by simpa [goLower] using n1)
    rw [squeeze_mid (by decide) (by simp)]
    congr 2
    exact squeeze_suf (fun c hc => ((CI.refl w).noSpace hw c hc).1) _
  · apply lookup_none_i
    intro h
    have := congrArg List.length h
    simp at this
    omega

theorem sat_gMatchOp {s ev r} (h : SatG gMatchOp s ev r) :
    ev = [] ∧ ∃ u, s = u ++ r ∧ MatchOp u (normOp u) ∧ Closed u false := by
  rcases h with h | ⟨_, h | ⟨_, h | ⟨_, h⟩⟩⟩
  · obtain ⟨rfl, rfl⟩ := sat_lit h
    exact ⟨rfl, _, rfl, .isnull, .plain (by decide)⟩
  · obtain ⟨rfl, rfl⟩ := sat_lit h
    exact ⟨rfl, _, rfl, .notnull, .plain (by decide)⟩
  · obtain ⟨e1, r1, e2, ⟨rfl, rfl⟩, ⟨e3, r3, e4, ⟨rfl, rfl⟩, ⟨e5, r5, e6, h5, h6, rfl⟩, rfl⟩, rfl⟩ := h
    obtain ⟨rfl, sep, rfl, hs, hne⟩ : PostWS1 _ _ _ := h5
    obtain ⟨rfl, w, rfl, hw, hlw, hwn, hwc, hlen⟩ := sat_gTfn h6
    refine ⟨rfl, c!"is" ++ (sep ++ w), by simp, ?_, notSep_append _ (.plain (by decide)) hs hwc⟩
    rw [normOp_two (w1 := c!"is") (by decide) hlw (CI.refl _) (CI.refl _) (by simp) hwn ?_ hne]
    · exact .is (.of_ws hs hne) hw
    · intro m hm
      apply lookup_none_i
      intro h
      have := congrArg List.length h
      have hm' : 0 < m.length := List.length_pos_iff.mpr hm
      simp at this
      omega
  · obtain ⟨e1, r1, e2, ⟨rfl, rfl⟩, ⟨e3, r3, e4, ⟨rfl, rfl⟩, ⟨e5, r5, e6, h5, ⟨e7, r7, e8, ⟨rfl, rfl⟩, ⟨e9, r9, e10, ⟨rfl, rfl⟩,
      ⟨e11, r11, e12, ⟨rfl, rfl⟩, ⟨e13, r13, e14, h13, h14, rfl⟩, rfl⟩, rfl⟩, rfl⟩, rfl⟩, rfl⟩, rfl⟩ := h
    obtain ⟨rfl, sep, rfl, hs, hne⟩ : PostWS1 _ _ _ := h5
    obtain ⟨rfl, sep', rfl, hs', hne'⟩ : PostWS1 _ _ _ := h13
    obtain ⟨rfl, w, rfl, hw, hlw, hwn, hwc, hlen⟩ := sat_gTfn h14
    refine ⟨rfl, c!"is" ++ (sep ++ (c!"not" ++ (sep' ++ w))), by simp, ?_, notSep_append _ (.plain (by decide)) hs
      (notSep_append _ (.plain (by decide)) hs' hwc)⟩
    rw [normOp_three hlw hwn hne hne' hlen]
    exact .isNot (.of_ws hs hne) (.of_ws hs' hne') hw

theorem post_Match {s ev r} (h : SatG gMatch s ev r) : Post .Match s ev r :=
  sat_op (L := .sp1) (LW := fun w => WS w ∧ w ≠ []) (fun _ _ _ h => h) (by decide) (fun _ _ _ => sat_gMatchOp) h

end Verif
