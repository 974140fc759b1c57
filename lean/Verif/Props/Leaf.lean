import Verif.Proof.Atoi
import Verif.Proof.JsonNum
import Verif.Proof.Unescape
/-!
# Properties of the leaf functions: integers, the number scanner, unescaping

`parseInt is64 k s` is the integer parser the decoder uses for the integer kind `k` (value, overflow flag; `none` is a
panic). The statements at the level of `Decode` that use them are in `Props/Scalars.lean`.
-/
namespace Verif.Props
open Verif.Spec Verif.Model
open Verif.Model.JsonNum (readNumber RC)
open Verif.Model.Unescape (valid)

/-! ## C01: unsigned integers -/

/-- **C01** (parser level): for every literal and every unsigned kind the exact value is returned if it fits, and overflow otherwise. -/
theorem C01_unsigned_parse (is64 : Bool) (k : IKind) (hk : k.signed = false) (s : Bytes) (h : IsNatLit s) :
    (digitsVal s < 2 ^ k.bits is64 → parseInt is64 k s = some ((digitsVal s : Int), false)) ∧
    (2 ^ k.bits is64 ≤ digitsVal s → ∃ x, parseInt is64 k s = some (x, true)) := by
  rw [Proof.Atoi.parseInt_unsigned is64 k hk h]
  constructor
  · intro hv; rw [if_pos hv]
  · intro hv; rw [if_neg (by omega)]; exact ⟨0, rfl⟩

example : IsNatLit b!"255" ∧ digitsVal b!"255" < 2 ^ IKind.u8.bits true ∧
    parseInt true .u8 b!"255" = some (255, false) :=
  ⟨.cons (by decide) (by decide) (by decide), by decide, by decide⟩
example : IsNatLit b!"18446744073709551616" ∧ (parseInt true .uint b!"18446744073709551616").map Prod.snd = some true :=
  ⟨.cons (by decide) (by decide) (by decide), by decide⟩

/-! ## C02: 64-bit signed integers -/

/-- **C02** (parser level): 64-bit signed kinds yield the exact value when it is in range and overflow otherwise. -/
theorem C02_signed64_parse (is64 : Bool) (k : IKind) (hk : k = .i64 ∨ (k = .int ∧ is64 = true))
    (s : Bytes) (v : Int) (h : IsIntLit s v) :
    (-2 ^ 63 ≤ v ∧ v < 2 ^ 63 → parseInt is64 k s = some (v, false)) ∧
    (v < -2 ^ 63 ∨ 2 ^ 63 ≤ v → ∃ x, parseInt is64 k s = some (x, true)) := by
  have hs : k.signed = true := by rcases hk with rfl | ⟨rfl, -⟩ <;> rfl
  have hb : k.bits is64 = 64 := by rcases hk with rfl | ⟨rfl, rfl⟩ <;> rfl
  rw [Proof.Atoi.parseInt_signed is64 k hs h, hb, Proof.Atoi.wrapRes_64]
  constructor
  · intro hv; rw [if_pos hv]
  · intro hv; rw [if_neg (by omega)]; exact ⟨0, rfl⟩

example : IsIntLit b!"-9223372036854775808" (-9223372036854775808) :=
  .neg (.cons (by decide) (by decide) (by decide))
example : parseInt true .i64 b!"-9223372036854775808" = some (-9223372036854775808, false) := by decide
example : (parseInt true .int b!"9223372036854775808").map Prod.snd = some true := by decide

/-! ## C03: narrow signed integers -/

/-- The full statement of C03, for one platform word size. -/
def NarrowSignedExact (is64 : Bool) : Prop :=
  ∀ (k : IKind), k.signed = true → ∀ (s : Bytes) (v : Int), IsIntLit s v →
    (-2 ^ (k.bits is64 - 1) ≤ v ∧ v < 2 ^ (k.bits is64 - 1) → parseInt is64 k s = some (v, false)) ∧
    (v < -2 ^ (k.bits is64 - 1) ∨ 2 ^ (k.bits is64 - 1) ≤ v → ∃ x, parseInt is64 k s = some (x, true))

/-- **C03 is false of the code**: `300` decodes into an `int8` as `44`, without an error. -/
theorem C03_refuted (is64 : Bool) : ¬ NarrowSignedExact is64 := by
  intro h
  obtain ⟨x, hx⟩ := (h .i8 rfl b!"300" 300 (.pos (.cons (by decide) (by decide) (by decide)))).2 (.inr (by simp [IKind.bits]))
  have : parseInt is64 .i8 b!"300" = some (44, false) := by cases is64 <;> decide
  rw [this] at hx; simp at hx

/-- The same failure for `int16`, `int32` and for a negative literal. -/
theorem C03_refuted_other : parseInt true .i16 b!"70000" = some (4464, false) ∧
    parseInt true .i32 b!"5000000000" = some (705032704, false) ∧
    parseInt true .i8 b!"-257" = some (-1, false) ∧ parseInt true .i8 b!"256" = some (0, false) := by decide

/-- **C03, partial**: what the narrow signed parsers guarantee. In-range literals are exact. An out-of-range literal is
reported as overflow if it is out of the type's range by less than the type's span (`|v| < 2^b`) and whenever it has more
digits than the type's extreme values; otherwise the result is either overflow or the
value reduced modulo `2^b` into the type. Missing: overflow for all out-of-range literals (false, see `C03_refuted`). -/
theorem C03_signed_parse_partial (is64 : Bool) (k : IKind) (hk : k.signed = true) (s : Bytes) (v : Int)
    (h : IsIntLit s v) :
    (-2 ^ (k.bits is64 - 1) ≤ v ∧ v < 2 ^ (k.bits is64 - 1) → parseInt is64 k s = some (v, false)) ∧
    (2 ^ (k.bits is64 - 1) ≤ v ∧ v < 2 ^ k.bits is64 → ∃ x, parseInt is64 k s = some (x, true)) ∧
    (-2 ^ k.bits is64 < v ∧ v < -2 ^ (k.bits is64 - 1) → ∃ x, parseInt is64 k s = some (x, true)) ∧
    ((10 : Int) ^ (if k.bits is64 = 8 then 3 else if k.bits is64 = 16 then 5 else if k.bits is64 = 32 then 10 else 19) ≤ v.natAbs →
      ∃ x, parseInt is64 k s = some (x, true)) ∧
    ((∃ x, parseInt is64 k s = some (x, true)) ∨ parseInt is64 k s = some (v.bmod (2 ^ k.bits is64), false)) := by
  rw [Proof.Atoi.parseInt_signed is64 k hk h]
  have hb : k.bits is64 = 8 ∨ k.bits is64 = 16 ∨ k.bits is64 = 32 ∨ k.bits is64 = 64 := by
    cases k <;> cases is64 <;> simp [IKind.bits]
  generalize k.bits is64 = b at *
  refine ⟨fun hv => by rw [Proof.Atoi.wrapRes_inRange b hb v hv.1 hv.2], ?_, ?_, ?_, ?_⟩
  · intro hv
    have e : v.bmod (2 ^ b) = v - 2 ^ b := by
      rw [← Int.sub_bmod_right]
      rcases hb with rfl | rfl | rfl | rfl <;> simp at hv ⊢ <;> exact Int.bmod_eq_of_le (by omega) (by omega)
    unfold Proof.Atoi.wrapRes
    split
    · exact ⟨0, rfl⟩
    · have h0 : 0 ≤ v := Int.le_trans (by rcases hb with rfl | rfl | rfl | rfl <;> decide) hv.1
      rw [if_pos ⟨h0, by rw [e]; omega⟩]; exact ⟨0, rfl⟩
  · intro hv
    have e : v.bmod (2 ^ b) = v + 2 ^ b := by
      rw [← Int.add_bmod_right]
      rcases hb with rfl | rfl | rfl | rfl <;> simp at hv ⊢ <;> exact Int.bmod_eq_of_le (by omega) (by omega)
    unfold Proof.Atoi.wrapRes
    have h0 : v < 0 := Int.lt_of_lt_of_le hv.2 (by rcases hb with rfl | rfl | rfl | rfl <;> decide)
    split
    · exact ⟨0, rfl⟩
    · rw [if_neg (by omega), if_pos ⟨by omega, by rw [e]; omega⟩]; exact ⟨0, rfl⟩
  · intro hv
    unfold Proof.Atoi.wrapRes
    rw [if_pos]
    · exact ⟨0, rfl⟩
    · rcases hb with rfl | rfl | rfl | rfl <;> simp [Proof.Atoi.sDigits] at hv ⊢ <;> omega
  · unfold Proof.Atoi.wrapRes
    split
    · exact .inl ⟨0, rfl⟩
    split
    · exact .inl ⟨0, rfl⟩
    split
    · exact .inl ⟨0, rfl⟩
    · exact .inr rfl

example : IsIntLit b!"-129" (-129) ∧ (parseInt true .i8 b!"-129").map Prod.snd = some true ∧
    parseInt true .i8 b!"-128" = some (-128, false) ∧ (parseInt true .i8 b!"255").map Prod.snd = some true :=
  ⟨.neg (.cons (by decide) (by decide) (by decide)), by decide, by decide, by decide⟩

/-! ## C05, C06: the number scanner -/

/-- **C05**: for every non-empty text the scanner stops after the longest prefix `q` that can be completed to a JSON number; it reports
an error exactly if `q` itself is no number, `integer` exactly if `q` is a number without fraction and exponent, and
otherwise returns the rest of the text after `q`. -/
theorem C05_scan (s : Bytes) (hs : s ≠ []) :
    ∃ q t rest rc, readNumber s = some (rest, rc) ∧ s = q ++ t ∧ LongestViable q s ∧
      (rc = .err ↔ ¬ IsNumber q) ∧ (rc = .integer ↔ IsInteger q) ∧ (IsNumber q → rest = t) := by
  obtain ⟨q, t, rc, r, h⟩ := Proof.JsonNum.readNumber_longest s hs
  exact ⟨q, t, r, rc, h⟩

/-- **C05**, on number literals: a text that is a JSON number is consumed completely and classified. -/
theorem C05_scan_number (s : Bytes) (h : IsNumber s) :
    ∃ rc, readNumber s = some ([], rc) ∧ rc ≠ .err ∧ (rc = .integer ↔ IsInteger s) := by
  have hs : s ≠ [] := by
    rintro rfl
    obtain ⟨sg, i, f, e, h, -, hi, -⟩ := h
    simp at h
    exact Proof.Atoi.natLit_ne_nil hi h.2.1
  obtain ⟨q, t, rc, r, h1, h2, h3, h4, h5, h6⟩ := Proof.JsonNum.readNumber_longest s hs
  have hq : q = s := by
    refine Proof.JsonNum.longest_unique h3 ⟨⟨[], by simp⟩, Proof.JsonNum.number_viable h, fun q' hq' _ => hq'.length_le⟩
  subst hq
  have ht : t = [] := by simpa using h2
  subst ht
  exact ⟨rc, by rw [h1, h6 h], fun he => (h4.1 he) h, h5⟩

example : IsNumber b!"-12.5e+3" :=
  ⟨b!"-", b!"12", b!".5", b!"e+3", rfl, .inr rfl, .cons (by decide) (by decide) (by decide),
    .inr ⟨b!"5", rfl, by decide, by decide⟩, .inr ⟨101, b!"+", b!"3", rfl, .inl rfl, .inr (.inr rfl), by decide, by decide⟩⟩
example : readNumber b!"-12.5e+3,7" = some (b!",7", .number) := by decide
example : readNumber b!"-x" = some (b!"x", .err) := by decide

/-- The scanner's part of C06: it panics exactly on the empty text. -/
theorem C06_scan_panics_iff (s : Bytes) : readNumber s = none ↔ s = [] := by
  constructor
  · intro h
    apply Classical.byContradiction
    intro hs
    obtain ⟨q, t, rc, r, h1, -⟩ := Proof.JsonNum.readNumber_longest s hs
    rw [h] at h1; cases h1
  · rintro rfl; rfl

example : readNumber [] = none := by decide

/-! ## C09–C13: unescaping -/

/-- **C09**: on every valid JSON string content unescaping yields the bytes it denotes. -/
theorem C09_unescape (raw out : Bytes) (h : Denotes raw out) : valid raw = some out := Proof.Unescape.valid_eq h

/-- **C09**: a content without backslash is returned unchanged. -/
theorem C09_plain (raw : Bytes) (h : ∀ c ∈ raw, c ≠ 92) : valid raw = some raw :=
  Proof.Unescape.valid_eq (Proof.Unescape.denotes_plain raw h)

/-- The specification is unambiguous: a content denotes at most one byte string. -/
theorem C09_denotes_unique (raw o o' : Bytes) (h : Denotes raw o) (h' : Denotes raw o') : o = o' :=
  Proof.Unescape.denotes_fun h h'

example : Denotes b!"a\\n\\u00e9" [97, 10, 0xC3, 0xA9] :=
  (.plain (by decide) (.esc (by decide) (.uni (w := 0) (x := 0) (y := 14) (z := 9) (by decide) (by decide) (by decide) (by decide) .nil)))
example : valid b!"abcdefgh\\tij\\u20AC!" = some [97, 98, 99, 100, 101, 102, 103, 104, 9, 105, 106, 0xE2, 0x82, 0xAC, 33] := by decide

/-- **C10**: unescaping a valid content never panics and never yields more bytes than it reads. -/
theorem C10_no_growth (raw out : Bytes) (h : Denotes raw out) :
    ∃ o, valid raw = some o ∧ o.length ≤ raw.length :=
  ⟨out, Proof.Unescape.valid_eq h, Proof.Unescape.denotes_length h⟩

example : Denotes b!"\\u0041" b!"A" :=
  .uni (w := 0) (x := 0) (y := 4) (z := 1) (by decide) (by decide) (by decide) (by decide) .nil

/-- The UTF-8 text of a surrogate pair per RFC 8259 section 7. -/
def pairText (hi lo : Nat) : Bytes := String.utf8EncodeChar (Char.ofNat (0x10000 + (hi - 0xD800) * 0x400 + (lo - 0xDC00)))

/-- The full statement of C11 (a pair alone in a string). -/
def SurrogatePairsDecode : Prop :=
  ∀ (a b c d a' b' c' d' : UInt8) (hi lo w x y z w' x' y' z' : Nat),
    hexVal a = some w → hexVal b = some x → hexVal c = some y → hexVal d = some z →
    hexVal a' = some w' → hexVal b' = some x' → hexVal c' = some y' → hexVal d' = some z' →
    hi = 4096 * w + 256 * x + 16 * y + z → lo = 4096 * w' + 256 * x' + 16 * y' + z' →
    0xD800 ≤ hi → hi ≤ 0xDBFF → 0xDC00 ≤ lo → lo ≤ 0xDFFF →
    valid [92, 117, a, b, c, d, 92, 117, a', b', c', d'] = some (pairText hi lo)

/-- **C11 is false of the code**: the escape pair for U+1F600 decodes to two replacement characters. -/
theorem C11_refuted : ¬ SurrogatePairsDecode := by
  intro h
  have h := h 100 56 51 100 100 101 48 48 0xD83D 0xDE00 13 8 3 13 13 14 0 0
    (by decide) (by decide) (by decide) (by decide) (by decide) (by decide) (by decide) (by decide)
    (by decide) (by decide) (by decide) (by decide) (by decide) (by decide)
  have e : valid [92, 117, 100, 56, 51, 100, 92, 117, 100, 101, 48, 48] = some [0xEF, 0xBF, 0xBD, 0xEF, 0xBF, 0xBD] := by decide
  rw [e] at h
  revert h
  decide

/-- **C11, partial**: what the code does with every surrogate pair: two replacement characters, valid UTF-8. Missing: the one
code point that the pair denotes (false, see `C11_refuted`). -/
theorem C11_surrogates_partial (a b c d a' b' c' d' : UInt8) (w x y z w' x' y' z' : Nat)
    (h1 : hexVal a = some w) (h2 : hexVal b = some x) (h3 : hexVal c = some y) (h4 : hexVal d = some z)
    (h1' : hexVal a' = some w') (h2' : hexVal b' = some x') (h3' : hexVal c' = some y') (h4' : hexVal d' = some z')
    (hhi : 0xD800 ≤ 4096 * w + 256 * x + 16 * y + z ∧ 4096 * w + 256 * x + 16 * y + z ≤ 0xDFFF)
    (hlo : 0xD800 ≤ 4096 * w' + 256 * x' + 16 * y' + z' ∧ 4096 * w' + 256 * x' + 16 * y' + z' ≤ 0xDFFF) :
    valid [92, 117, a, b, c, d, 92, 117, a', b', c', d'] =
      some (String.utf8EncodeChar (Char.ofNat 0xFFFD) ++ String.utf8EncodeChar (Char.ofNat 0xFFFD)) := by
  have h := Proof.Unescape.valid_eq (.uni h1 h2 h3 h4 (.uni h1' h2' h3' h4' .nil))
  rw [h]
  simp only [unitText]
  rw [if_pos hhi, if_pos hlo, List.append_nil]

example : 0xD800 ≤ 4096 * 13 + 256 * 8 + 16 * 3 + 13 ∧ 4096 * 13 + 256 * 8 + 16 * 3 + 13 ≤ 0xDFFF := by decide

/-- **C12**: unescaping well-formed UTF-8 yields well-formed UTF-8. -/
theorem C12_utf8 (raw out : Bytes) (h : Denotes raw out) (hu : ValidUTF8 raw) :
    ∃ o, valid raw = some o ∧ ValidUTF8 o :=
  ⟨out, Proof.Unescape.valid_eq h, Proof.Unescape.denotes_utf8 raw.length raw out (Nat.le_refl _) h hu⟩

example : ValidUTF8 b!"é\\n" := ⟨['é', '\\', 'n'], by decide⟩

/-- **C13**: unescaping inverts escaping, for every byte string. -/
theorem C13_roundtrip (s : Bytes) : valid (escape s) = some s := Proof.Unescape.valid_eq (Proof.Unescape.denotes_escape s)

example : escape b!"a\"\\\n" = b!"a\\\"\\\\\\u000a" := by decide

/-! ## C44: the integer fast path of float decoding -/

/-- **C44** (bounds): an integer literal of fewer than 8 characters denotes an integer of magnitude below `10^7 < 2^24`, one of fewer than 16
characters an integer of magnitude below `10^15 < 2^53`. -/
theorem C44_short_literals_exact (s : Bytes) (v : Int) (h : IsIntLit s v) :
    (s.length < 8 → v.natAbs < 2 ^ 24) ∧ (s.length < 16 → v.natAbs < 2 ^ 53) := by
  have key : ∀ n, s.length ≤ n → v.natAbs < 10 ^ n := by
    intro n hn
    cases h with
    | pos hs => simpa using Proof.Atoi.natLit_small hs n hn
    | @neg s hs =>
      have : s.length ≤ n := by simp at hn; omega
      simpa using Proof.Atoi.natLit_small hs n this
  refine ⟨fun hl => ?_, fun hl => ?_⟩
  · exact Nat.lt_of_lt_of_le (key 7 (by omega)) (by decide)
  · exact Nat.lt_of_lt_of_le (key 15 (by omega)) (by decide)

example : IsIntLit b!"-999999" (-999999) := .neg (.cons (by decide) (by decide) (by decide))

end Verif.Props
