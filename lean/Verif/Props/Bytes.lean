import Verif.Utf8
import Verif.Pieces
import Verif.Props.Lexical

/-! # Queries as bytes (C58) -/

namespace Verif

/-- `Parse` on a Go string: the buffer is `[]rune(p.Buffer)`, /repo/miniquery/parse.go:3-16, /repo/miniquery/miniquery.peg.go:465; a text taken from the
buffer becomes the Go string `encode x` (:367). -/
def parseBytes (b : Bytes) : ParseRes := parse (decode b)

theorem decodeF_enough : ∀ (n m : Nat) (b : Bytes), b.length ≤ n → b.length ≤ m → decodeF n b = decodeF m b
  | 0, m, b, h, _ => by
    have : b = [] := List.eq_nil_of_length_eq_zero (by omega)
    subst this; cases m <;> rfl
  | n + 1, 0, b, _, h => by
    have : b = [] := List.eq_nil_of_length_eq_zero (by omega)
    subst this; rfl
  | n + 1, m + 1, [], _, _ => rfl
  | n + 1, m + 1, a :: u, h1, h2 => by
    have hl : (decodeRune a u).2.length ≤ u.length := by
      rcases decodeRune_ascii a u with ⟨_, e⟩ | ⟨_, _, w, e, _⟩
      · rw [e]; exact Nat.le_refl _
      · have := congrArg List.length e; rw [List.length_append] at this; omega
    rw [decodeF, decodeF, decodeF_enough n m _ (by simp at h1; omega) (by simp at h2; omega)]

theorem decode_cons (a : Nat) (u : Bytes) : decode (a :: u) = Char.ofNat (decodeRune a u).1 :: decode (decodeRune a u).2 := by
  have hl : (decodeRune a u).2.length ≤ u.length := by
    rcases decodeRune_ascii a u with ⟨_, e⟩ | ⟨_, _, w, e, _⟩
    · rw [e]; exact Nat.le_refl _
    · have := congrArg List.length e; rw [List.length_append] at this; omega
  rw [decode, List.length_cons, decodeF, decode, decodeF_enough u.length _ _ hl (Nat.le_refl _)]

/-- An ASCII byte ends whatever sequence precedes it. -/
theorem decodeRune_boundary (x : Nat) (u : Bytes) {a : Nat} (ha : a < 128) (v : Bytes) :
    decodeRune x (u ++ a :: v) = ((decodeRune x u).1, (decodeRune x u).2 ++ a :: v) := by
  have hc : isCont a = false := by simp [isCont]; omega
  unfold decodeRune
  split
  · rfl
  · split
    · cases u with
      | nil => simp [hc]
      | cons b u => simp only [List.cons_append]; split <;> rfl
    · split
      · cases u with
        | nil => cases v <;> simp [hc]
        | cons b u =>
          cases u with
          | nil => simp [hc]
          | cons c u => simp only [List.cons_append]; split <;> rfl
      · split
        · cases u with
          | nil =>
            cases v with
            | nil => rfl
            | cons c v => cases v <;> simp [hc]
          | cons b u =>
            cases u with
            | nil => cases v <;> simp [hc]
            | cons c u =>
              cases u with
              | nil => simp [hc]
              | cons d u => simp only [List.cons_append]; split <;> rfl
        · rfl

theorem decode_boundary (u : Bytes) {a : Nat} (ha : a < 128) (v : Bytes) : decode (u ++ a :: v) = decode u ++ decode (a :: v) := by
  induction h : u.length using Nat.strongRecOn generalizing u with
  | _ n ih =>
    cases u with
    | nil => rfl
    | cons x u =>
      have hl : (decodeRune x u).2.length ≤ u.length := by
        rcases decodeRune_ascii x u with ⟨_, e⟩ | ⟨_, _, w, e, _⟩
        · rw [e]; exact Nat.le_refl _
        · have := congrArg List.length e; rw [List.length_append] at this; omega
      rw [List.cons_append, decode_cons, decodeRune_boundary x u ha v, decode_cons x u, List.cons_append]
      rw [ih (decodeRune x u).2.length (by simp at h; omega) _ rfl]

theorem decode_ascii {a : Nat} (ha : a < 128) (v : Bytes) : decode (a :: v) = Char.ofNat a :: decode v := by
  rw [decode_cons]
  have : decodeRune a v = (a, v) := by unfold decodeRune; exact if_pos ha
  rw [this]

theorem mem_decode {c : Char} (hc : c.toNat < 128) {b : Bytes} : c ∈ decode b ↔ c.toNat ∈ b := by
  have h := (decodeF_ascii b.length b (Nat.le_refl _)).1
  constructor
  · intro hm
    have : c.toNat ∈ ((decodeF b.length b).map Char.toNat).filter (· < 128) := by
      rw [List.mem_filter]; exact ⟨List.mem_map_of_mem hm, by simpa using hc⟩
    rw [h] at this
    exact (List.mem_filter.mp this).1
  · intro hm
    have : c.toNat ∈ b.filter (· < 128) := by rw [List.mem_filter]; exact ⟨hm, by simpa using hc⟩
    rw [← h] at this
    obtain ⟨d, hd, e⟩ := List.mem_map.mp (List.mem_filter.mp this).1
    have : d = c := by rw [← Char.ofNat_toNat d, e, Char.ofNat_toNat]
    rw [← this]; exact hd

/-! ## C58 -/

/-- C58: a string literal between single quotes is stored as the decoding of its bytes, whatever the bytes are, and has the same bytes exactly if they
are well-formed UTF-8. -/
theorem C58_single_quoted (b : Bytes) (h : 0x27 ∉ b) :
    ∃ x, parseBytes (0x27 :: (b ++ [0x27])) = .ok (.str x) ∧ (encode x = b ↔ Utf8 b) := by
  refine ⟨decode b, ?_, encode_decode_iff b⟩
  rw [parseBytes, decode_ascii (by decide), decode_boundary b (by decide), decode_ascii (by decide)]
  exact C09_single_quoted (decode b) (fun hm => h ((mem_decode (c := '\'') (by decide)).mp hm))

/-- C58: the same for double quotes. -/
theorem C58_double_quoted (b : Bytes) (h : 0x22 ∉ b) :
    ∃ x, parseBytes (0x22 :: (b ++ [0x22])) = .ok (.str x) ∧ (encode x = b ↔ Utf8 b) := by
  refine ⟨decode b, ?_, encode_decode_iff b⟩
  rw [parseBytes, decode_ascii (by decide), decode_boundary b (by decide), decode_ascii (by decide)]
  exact C09_double_quoted (decode b) (fun hm => h ((mem_decode (c := '"') (by decide)).mp hm))

-- `é`, `€`, a character beyond the basic plane.
example : Utf8 ([0xC3, 0xA9] ++ ([0xE2, 0x82, 0xAC] ++ ([0xF0, 0x9F, 0x98, 0x80] ++ []))) :=
  .cons (.two (by decide) (by decide) rfl) (.cons (.threeLow (by decide) (by decide) rfl rfl) (.cons (.fourF0 (by decide) (by decide) rfl rfl) .nil))
example : parseBytes [0x27, 0xC3, 0xA9, 0xE2, 0x82, 0xAC, 0xF0, 0x9F, 0x98, 0x80, 0x27] = .ok (.str [Char.ofNat 0xE9, Char.ofNat 0x20AC, Char.ofNat 0x1F600]) := by
  decide +kernel

/-- The names and strings of a tree as Go strings. -/
def nodeBytes : Node → List Bytes
  | .str x => [encode x]
  | .ident x => [encode x]
  | .func x _ => [encode x]
  | .ref xs => xs.map encode
  | _ => []

/-- C58, for well-formed UTF-8: every name and every string of the returned tree, at any depth, is a piece of the query, byte for byte.  Missing:
queries that are not well-formed (see below). -/
theorem C58_pieces_partial (b : Bytes) (hb : Utf8 b) (n m : Node) (h : parseBytes b = .ok n) (hm : Sub m n) : ∀ x ∈ nodeBytes m, x <:+: b := by
  have key : ∀ x : Str, x <:+: decode b → encode x <:+: b := by
    intro x hx
    obtain ⟨u, v, e⟩ := hx
    have := (encode_decode_iff b).mpr hb
    rw [← e, encode_append, encode_append] at this
    exact ⟨encode u, encode v, this⟩
  have ht := parse_from h m hm
  intro x hx
  cases m <;> simp only [nodeBytes, List.mem_singleton, List.not_mem_nil, List.mem_map] at hx
  · rw [hx]; exact key _ ht
  · rw [hx]; exact key _ ht
  · obtain ⟨y, hy, rfl⟩ := hx; exact key _ (ht y hy)
  · rw [hx]; exact key _ ht

/-- C58: every operator, integer and boolean of a returned tree is the reading of a piece of the query too (for every query, well-formed or not, in
terms of runes). -/
theorem C58_provenance (b : Bytes) (n m : Node) (h : parseBytes b = .ok n) (hm : Sub m n) : TextOk (fun x => x <:+: decode b) m := parse_from h m hm

example : parseBytes (encode c!"date(a.b) >= 'x' and c between 1 and 20") =
    .ok (.logic (.cmp (.func c!"date" [.ref [c!"a", c!"b"]]) (.op c!"gte") (.str c!"x")) (.op c!"and")
      (.between (.ident c!"c") (.op c!"between") (.int 1) (.int 20))) := by decide +kernel

/-- C58: no sequence of other bytes — overlong, truncated, or ill-formed in any other way — is ever read as a quote, an operator, a letter or any
other ASCII character: the ASCII characters that `Parse` sees are the ASCII bytes of the query, in order.  And there are never more runes than
bytes. -/
theorem C58_ascii (b : Bytes) : ((decode b).map Char.toNat).filter (· < 128) = b.filter (· < 128) ∧ (decode b).length ≤ b.length :=
  decodeF_ascii b.length b (Nat.le_refl _)

-- An overlong quote and a surrogate are five errors, not a quote.
example : decode [0xC0, 0xA7, 0xED, 0xA0, 0x80] = List.replicate 5 (Char.ofNat 0xFFFD) := by decide +kernel

/-- C58 in full is false: in a query that is not well-formed UTF-8 the stored string differs from the bytes written, and different queries give the
same tree. -/
theorem C58_invalid_refuted :
    parseBytes [0x27, 0xFF, 0x27] = .ok (.str [Char.ofNat 0xFFFD]) ∧ parseBytes [0x27, 0xFE, 0x27] = .ok (.str [Char.ofNat 0xFFFD]) ∧
    encode [Char.ofNat 0xFFFD] = [0xEF, 0xBF, 0xBD] := by decide +kernel

/-- C58, for well-formed UTF-8: different queries are different to the parser. -/
theorem C58_distinct_partial (b c : Bytes) (hb : Utf8 b) (hc : Utf8 c) (h : decode b = decode c) : b = c := by
  rw [← (encode_decode_iff b).mpr hb, h, (encode_decode_iff c).mpr hc]

end Verif
