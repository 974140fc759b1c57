import Verif.Model.Unescape
import Verif.Spec.JsonString
/-!
# The unescaper implements the JSON escape grammar
-/
namespace Verif.Proof.Unescape
open Verif Verif.Spec Verif.Model.Unescape

theorem lut_hex : ∀ c : UInt8, ∀ v, hexVal c = some v → lut c = v ∧ v < 16 := by
  intro c v h
  simp only [hexVal] at h
  simp only [lut, UInt8.le_iff_toNat_le, UInt8.reduceToNat]
  split at h
  · next hc => cases h; rw [if_pos hc]; omega
  · next h1 =>
    split at h
    · next hc => cases h; rw [if_neg h1, if_pos hc]; omega
    · next h2 =>
      split at h
      · next hc => cases h; rw [if_neg h1, if_neg h2, if_pos hc]; omega
      · cases h

theorem replace_esc : ∀ c : UInt8, ∀ r, escChar c = some r → lutReplace c = r ∧ c ≠ 117 := by
  have key : ∀ n : Fin 256, ∀ r, escChar (UInt8.ofFin n) = some r →
      lutReplace (UInt8.ofFin n) = r ∧ (UInt8.ofFin n) ≠ 117 := by
    intro n
    have : ∀ n : Fin 256, (escChar (UInt8.ofFin n)).all
        fun r => decide (lutReplace (UInt8.ofFin n) = r ∧ (UInt8.ofFin n) ≠ 117) := by decide +kernel
    intro r hr
    have := this n
    rw [hr] at this
    exact of_decide_eq_true this
  intro c r h
  exact key c.toFin r h

theorem or_c0 : ∀ x : Nat, x < 32 → (0xC0 : UInt8) ||| UInt8.ofNat x = UInt8.ofNat (x + 0xC0) := by
  have : ∀ x : Fin 32, (0xC0 : UInt8) ||| UInt8.ofNat x.val = UInt8.ofNat (x.val + 0xC0) := by decide +kernel
  intro x hx; exact this ⟨x, hx⟩

theorem or_e0 : ∀ x : Nat, x < 16 → (0xE0 : UInt8) ||| UInt8.ofNat x = UInt8.ofNat (x + 0xE0) := by
  have : ∀ x : Fin 16, (0xE0 : UInt8) ||| UInt8.ofNat x.val = UInt8.ofNat (x.val + 0xE0) := by decide +kernel
  intro x hx; exact this ⟨x, hx⟩

theorem or_80 (x : Nat) : (0x80 : UInt8) ||| (UInt8.ofNat x &&& 0x3F) = UInt8.ofNat (x % 64 + 0x80) := by
  have h : ∀ x : Fin 256, (0x80 : UInt8) ||| (UInt8.ofNat x.val &&& 0x3F) = UInt8.ofNat (x.val % 64 + 0x80) := by
    decide +kernel
  have e : UInt8.ofNat x = UInt8.ofNat (x % 256) := by
    apply UInt8.toNat_inj.mp; simp
  rw [e, h ⟨x % 256, Nat.mod_lt _ (by decide)⟩]
  apply congrArg; dsimp only; omega

theorem charVal (v : Nat) (h : v < 0xD800 ∨ (0xDFFF < v ∧ v < 0x110000)) : (Char.ofNat v).val.toNat = v := by
  have hv : v.isValidChar := by
    rcases h with h | h
    · exact Or.inl h
    · exact Or.inr h
  unfold Char.ofNat
  rw [dif_pos hv]
  rfl

theorem encodeUnit_eq {a b c d : UInt8} {w x y z : Nat} (ha : hexVal a = some w) (hb : hexVal b = some x)
    (hc : hexVal c = some y) (hd : hexVal d = some z) :
    encodeUnit a b c d = unitText (4096 * w + 256 * x + 16 * y + z) := by
  obtain ⟨e1, l1⟩ := lut_hex a w ha
  obtain ⟨e2, l2⟩ := lut_hex b x hb
  obtain ⟨e3, l3⟩ := lut_hex c y hc
  obtain ⟨e4, l4⟩ := lut_hex d z hd
  have e : (w <<< 12) + (x <<< 8) + (y <<< 4) + z = 4096 * w + 256 * x + 16 * y + z := by
    simp only [Nat.shiftLeft_eq]; omega
  have hv : 4096 * w + 256 * x + 16 * y + z < 65536 := by omega
  unfold encodeUnit
  rw [e1, e2, e3, e4, e]
  generalize 4096 * w + 256 * x + 16 * y + z = v at hv
  clear e e1 e2 e3 e4 l1 l2 l3 l4 ha hb hc hd a b c d w x y z
  have hn : (UInt32.ofNat v).toNat = v := by simp; omega
  have h8 : (UInt32.ofNat v).toUInt8 = UInt8.ofNat v := by
    apply UInt8.toNat_inj.mp
    rw [UInt32.toNat_toUInt8, hn]; simp
  have h86 : (UInt32.ofNat v >>> 6).toUInt8 = UInt8.ofNat (v / 64) := by
    apply UInt8.toNat_inj.mp
    rw [UInt32.toNat_toUInt8, UInt32.toNat_shiftRight, hn]
    simp [Nat.shiftRight_eq_div_pow]
  have h812 : (UInt32.ofNat v >>> 12).toUInt8 = UInt8.ofNat (v / 4096) := by
    apply UInt8.toNat_inj.mp
    rw [UInt32.toNat_toUInt8, UInt32.toNat_shiftRight, hn]
    simp [Nat.shiftRight_eq_div_pow]
  simp only [UInt32.le_iff_toNat_le, gt_iff_lt, UInt32.lt_iff_toNat_lt, hn, h8, h86, h812, or_80]
  simp only [UInt32.reduceToNat]
  unfold unitText
  by_cases h1 : v ≤ 127
  · rw [if_pos h1, if_neg (by omega)]
    unfold String.utf8EncodeChar
    rw [charVal v (by omega)]
    simp only [h1, if_true]
  · rw [if_neg h1]
    by_cases h2 : v ≤ 2047
    · rw [if_pos h2, if_neg (by omega), or_c0 _ (by omega)]
      unfold String.utf8EncodeChar
      rw [charVal v (by omega)]
      simp only [h1, h2, if_true, if_false]
      rw [Nat.mod_eq_of_lt (a := v / 64) (by omega)]
    · rw [if_neg h2]
      by_cases h3 : 55296 ≤ v ∧ v ≤ 57343
      · rw [if_pos (Or.inr h3), if_pos h3]; rfl
      · rw [if_neg (by omega), if_neg h3, or_e0 _ (by omega)]
        unfold String.utf8EncodeChar
        rw [charVal v (by omega)]
        simp only [h1, h2, if_false]
        rw [if_pos (by omega), Nat.mod_eq_of_lt (a := v / 4096) (by omega)]

/-- Splitting a denotation at the first backslash. -/
theorem denotes_split {s o : Bytes} (h : Denotes s o) :
    ∃ o', o = s.take (scanShort s) ++ o' ∧ Denotes (s.drop (scanShort s)) o' := by
  induction h with
  | nil => exact ⟨[], rfl, .nil⟩
  | @plain c s o hc _ ih =>
    obtain ⟨o', e, h⟩ := ih
    refine ⟨o', ?_, ?_⟩
    · simp [scanShort, hc, ← e]
    · simpa [scanShort, hc] using h
  | esc h1 h2 _ => exact ⟨_, rfl, .esc h1 h2⟩
  | uni h1 h2 h3 h4 h5 _ => exact ⟨_, rfl, .uni h1 h2 h3 h4 h5⟩

theorem scanShort_le (s : Bytes) : scanShort s ≤ s.length := by
  induction s with
  | nil => simp [scanShort]
  | cons c cs ih => simp only [scanShort]; split <;> simp; omega

theorem scan_head (s : Bytes) : s.drop (scanShort s) = [] ∨ ∃ t, s.drop (scanShort s) = 92 :: t := by
  induction s with
  | nil => left; rfl
  | cons c cs ih =>
    simp only [scanShort]
    split
    · next h => right; exact ⟨cs, by rw [h]; rfl⟩
    · simpa using ih

theorem index_none {s : Bytes} (h : indexBackslash s = none) : scanShort s = s.length := by
  induction s with
  | nil => rfl
  | cons c cs ih =>
    simp only [indexBackslash] at h
    split at h
    · cases h
    · next hc => simp only [Option.map_eq_none_iff] at h; simp [scanShort, hc, ih h]

theorem index_some {s : Bytes} {i : Nat} (h : indexBackslash s = some i) : scanShort s = i := by
  induction s generalizing i with
  | nil => cases h
  | cons c cs ih =>
    simp only [indexBackslash] at h
    split at h
    · next hc => cases h; simp [scanShort, hc]
    · next hc =>
      obtain ⟨j, hj, rfl⟩ := Option.map_eq_some_iff.mp h
      simp [scanShort, hc, ih hj]

theorem denotes_no_escape {s o : Bytes} (h : Denotes s o) (hs : scanShort s = s.length) : o = s := by
  obtain ⟨o', e, h'⟩ := denotes_split h
  rw [hs, List.drop_length] at h'
  cases h'
  rw [e, hs]; simp

theorem escapeSequence_eq (fuel : Nat) : ∀ (buf s o : Bytes), Denotes (92 :: s) o → s.length < fuel →
    escapeSequence fuel buf (92 :: s) = some (buf ++ o) := by
  induction fuel with
  | zero => intro _ s o _ h; omega
  | succ fuel ih =>
    intro buf s o hd hl
    -- one escape consumed
    have hone : ∃ buf' s' o', o = buf' ++ o' ∧ Denotes s' o' ∧ s'.length < s.length ∧
        oneEscape buf (92 :: s) = some (buf ++ buf', s') := by
      cases hd with
      | plain h _ => exact absurd rfl h
      | @esc c r s o h1 h2 =>
        obtain ⟨e, hne⟩ := replace_esc c r h1
        exact ⟨[r], s, o, rfl, h2, by simp, by simp [oneEscape, hne, e]⟩
      | @uni a b c d w x y z s o h1 h2 h3 h4 h5 =>
        refine ⟨_, s, o, rfl, h5, by simp only [List.length_cons]; omega, ?_⟩
        simp [oneEscape, encodeUnit_eq h1 h2 h3 h4]
    obtain ⟨buf', s', o', rfl, hd', hl', hr⟩ := hone
    have hnext : ∀ i, i = scanShort s' →
        (let b := (buf ++ buf') ++ s'.take i
         let t := s'.drop i
         if t.length < 1 then some b else escapeSequence fuel b t) = some (buf ++ (buf' ++ o')) := by
      rintro i rfl
      obtain ⟨o'', e, h''⟩ := denotes_split hd'
      dsimp only
      rcases scan_head s' with ht | ⟨t, ht⟩
      · rw [ht] at h''
        cases h''
        simp only [ht, List.length_nil, Nat.lt_add_one, if_true]
        rw [e]; simp
      · rw [ht] at h''
        have hlen : t.length + 1 ≤ s'.length := by
          have := congrArg List.length ht
          simp at this; omega
        simp only [ht, List.length_cons, if_false,
          show ¬ (t.length + 1 < 1) by omega]
        rw [ih _ t o'' h'' (by omega), e]
        simp
    rw [escapeSequence, hr]
    dsimp only
    split
    · next b0 b1 b2 b3 b4 b5 b6 b7 rest =>
      by_cases h0 : b0 = 92
      · rw [if_pos h0]
        have e := hnext 0 (by simp [scanShort, h0])
        rw [List.take_zero, List.drop_zero, List.append_nil] at e
        dsimp only at e
        rw [if_neg (fun h => by rw [List.length_cons] at h; omega)] at e
        exact e
      rw [if_neg h0]
      by_cases h1 : b1 = 92
      · rw [if_pos h1]; exact hnext 1 (by simp [scanShort, h0, h1])
      rw [if_neg h1]
      by_cases h2 : b2 = 92
      · rw [if_pos h2]; exact hnext 2 (by simp [scanShort, h0, h1, h2])
      rw [if_neg h2]
      by_cases h3 : b3 = 92
      · rw [if_pos h3]; exact hnext 3 (by simp [scanShort, h0, h1, h2, h3])
      rw [if_neg h3]
      by_cases h4 : b4 = 92
      · rw [if_pos h4]; exact hnext 4 (by simp [scanShort, h0, h1, h2, h3, h4])
      rw [if_neg h4]
      by_cases h5 : b5 = 92
      · rw [if_pos h5]; exact hnext 5 (by simp [scanShort, h0, h1, h2, h3, h4, h5])
      rw [if_neg h5]
      by_cases h6 : b6 = 92
      · rw [if_pos h6]; exact hnext 6 (by simp [scanShort, h0, h1, h2, h3, h4, h5, h6])
      rw [if_neg h6]
      by_cases h7 : b7 = 92
      · rw [if_pos h7]; exact hnext 7 (by simp [scanShort, h0, h1, h2, h3, h4, h5, h6, h7])
      rw [if_neg h7]
      cases hn : indexBackslash rest with
      | none =>
        have hs : scanShort (b0 :: b1 :: b2 :: b3 :: b4 :: b5 :: b6 :: b7 :: rest) =
            (b0 :: b1 :: b2 :: b3 :: b4 :: b5 :: b6 :: b7 :: rest).length := by
          simp [scanShort, h0, h1, h2, h3, h4, h5, h6, h7, index_none hn]
        rw [denotes_no_escape hd' hs]; simp
      | some i =>
        exact hnext (i + 8) (by simp [scanShort, h0, h1, h2, h3, h4, h5, h6, h7, index_some hn])
    · exact hnext _ rfl

/-- The unescaper computes the denotation of every valid content. -/
theorem valid_eq {s o : Bytes} (h : Denotes s o) : valid s = some o := by
  unfold valid
  split
  · next hl =>
    have : s = [] := by cases s <;> simp at hl ⊢
    subst this; cases h; rfl
  · split
    · next hn => rw [denotes_no_escape h (index_none hn)]
    · next i hi =>
      have hi' := index_some hi
      obtain ⟨o', e, h'⟩ := denotes_split h
      rw [hi'] at e h'
      have hh := scan_head s
      rw [hi'] at hh
      rcases hh with ht | ⟨t, ht⟩
      · rw [ht] at h'
        cases h'
        simp only [ht, List.length_nil, Nat.lt_add_one, if_true]
        rw [e]; simp
      · rw [ht] at h'
        simp only [ht, List.length_cons, show ¬ (t.length + 1 < 1) by omega, if_false]
        rw [escapeSequence_eq _ _ t o' h' (by omega), e]

theorem denotes_fun {s o o' : Bytes} (h : Denotes s o) (h' : Denotes s o') : o = o' := by
  have := (valid_eq h).symm.trans (valid_eq h')
  exact Option.some.inj this

theorem denotes_plain (s : Bytes) (h : ∀ c ∈ s, c ≠ 92) : Denotes s s := by
  induction s with
  | nil => exact .nil
  | cons c cs ih => exact .plain (h c (by simp)) (ih fun c hc => h c (by simp [hc]))

theorem unitText_length (v : Nat) (hv : v < 65536) : (unitText v).length ≤ 3 := by
  unfold unitText
  split
  · decide
  · unfold String.utf8EncodeChar
    rw [charVal v (by omega)]
    simp only
    split
    · simp
    · split
      · simp
      · split
        · simp
        · omega

theorem denotes_length {s o : Bytes} (h : Denotes s o) : o.length ≤ s.length := by
  induction h with
  | nil => simp
  | plain _ _ ih => simpa using ih
  | esc _ _ ih => simp only [List.length_cons]; omega
  | @uni a b c d w x y z s o h1 h2 h3 h4 _ ih =>
    have l1 := (lut_hex _ _ h1).2
    have l2 := (lut_hex _ _ h2).2
    have l3 := (lut_hex _ _ h3).2
    have l4 := (lut_hex _ _ h4).2
    have := unitText_length (4096 * w + 256 * x + 16 * y + z) (by omega)
    simp only [List.length_append, List.length_cons]
    omega

/-! ## UTF-8 validity -/

/-- First byte of an encoded character: ASCII characters are their own encoding, all bytes of other
characters are at least 0x80. -/
theorem encode_ascii (c : Char) : (c.val.toNat ≤ 127 ∧ String.utf8EncodeChar c = [UInt8.ofNat c.val.toNat]) ∨
    (127 < c.val.toNat ∧ String.utf8EncodeChar c ≠ [] ∧ ∀ b ∈ String.utf8EncodeChar c, 128 ≤ b.toNat) := by
  by_cases h : c.val.toNat ≤ 127
  · left; refine ⟨h, ?_⟩
    unfold String.utf8EncodeChar
    simp only [h, if_true]
  · right; refine ⟨by omega, ?_⟩
    simp only [String.utf8EncodeChar, h, if_false]
    split
    · refine ⟨by simp, ?_⟩
      intro b hb
      simp only [List.mem_cons, List.not_mem_nil, or_false] at hb
      rcases hb with rfl | rfl <;> simp <;> omega
    · split
      · refine ⟨by simp, ?_⟩
        intro b hb
        simp only [List.mem_cons, List.not_mem_nil, or_false] at hb
        rcases hb with rfl | rfl | rfl <;> simp <;> omega
      · refine ⟨by simp, ?_⟩
        intro b hb
        simp only [List.mem_cons, List.not_mem_nil, or_false] at hb
        rcases hb with rfl | rfl | rfl | rfl <;> simp <;> omega

theorem utf8_nil : ValidUTF8 [] := ⟨[], rfl⟩
theorem utf8_append {a b : Bytes} (ha : ValidUTF8 a) (hb : ValidUTF8 b) : ValidUTF8 (a ++ b) := by
  obtain ⟨x, rfl⟩ := ha
  obtain ⟨y, rfl⟩ := hb
  exact ⟨x ++ y, by simp⟩
theorem utf8_char (c : Char) : ValidUTF8 (String.utf8EncodeChar c) := ⟨[c], by simp⟩
theorem utf8_byte (c : UInt8) (h : c.toNat ≤ 127) : ValidUTF8 [c] := by
  refine ⟨[Char.ofNat c.toNat], ?_⟩
  have e := charVal c.toNat (by omega)
  simp only [List.flatMap_cons, List.flatMap_nil, List.append_nil]
  rcases encode_ascii (Char.ofNat c.toNat) with ⟨_, h2⟩ | ⟨h1, _⟩
  · rw [h2, e]; simp
  · omega
theorem utf8_unit (v : Nat) : ValidUTF8 (unitText v) := by
  unfold unitText; split <;> exact utf8_char _

/-- Dropping a leading ASCII byte of valid UTF-8 leaves valid UTF-8. -/
theorem utf8_tail {c : UInt8} {s : Bytes} (h : ValidUTF8 (c :: s)) (hc : c.toNat ≤ 127) : ValidUTF8 s := by
  obtain ⟨cs, e⟩ := h
  cases cs with
  | nil => cases e
  | cons x xs =>
    simp only [List.flatMap_cons] at e
    rcases encode_ascii x with ⟨_, h2⟩ | ⟨_, h3, h4⟩
    · rw [h2] at e
      simp only [List.cons_append, List.nil_append, List.cons.injEq] at e
      exact ⟨xs, e.2⟩
    · obtain ⟨y, ys, hy⟩ := List.exists_cons_of_ne_nil h3
      rw [hy] at e h4
      simp only [List.cons_append, List.cons.injEq] at e
      have := h4 y (by simp)
      rw [← e.1] at this
      omega

theorem hex_ascii {c : UInt8} {v : Nat} (h : hexVal c = some v) : c.toNat ≤ 127 := by
  simp only [hexVal] at h
  split at h
  · omega
  · split at h
    · omega
    · split at h
      · omega
      · cases h

theorem esc_ascii : ∀ c r : UInt8, escChar c = some r → c.toNat ≤ 127 ∧ r.toNat ≤ 127 := by
  have : ∀ n : Fin 256, (escChar (UInt8.ofFin n)).all
        fun r => decide ((UInt8.ofFin n).toNat ≤ 127 ∧ r.toNat ≤ 127) := by decide +kernel
  intro c r h
  have := this c.toFin
  rw [show UInt8.ofFin c.toFin = c from rfl, h] at this
  exact of_decide_eq_true this

/-- A run of non-backslash bytes is copied. -/
theorem denotes_plain_prefix {p s o : Bytes} (hp : ∀ c ∈ p, c ≠ 92) (h : Denotes (p ++ s) o) :
    ∃ o', o = p ++ o' ∧ Denotes s o' := by
  induction p generalizing o with
  | nil => exact ⟨o, rfl, h⟩
  | cons c cs ih =>
    rw [List.cons_append] at h
    generalize hs : c :: (cs ++ s) = t at h
    cases h with
    | nil => cases hs
    | plain _ h2 =>
      cases hs
      obtain ⟨o', e, h'⟩ := ih (fun c hc => hp c (by simp [hc])) h2
      exact ⟨o', by rw [e]; rfl, h'⟩
    | esc _ _ =>
      rw [List.cons.injEq] at hs
      exact absurd hs.1 (hp c (by simp))
    | uni _ _ _ _ _ =>
      rw [List.cons.injEq] at hs
      exact absurd hs.1 (hp c (by simp))

theorem denotes_utf8 (n : Nat) : ∀ s o : Bytes, s.length ≤ n → Denotes s o → ValidUTF8 s → ValidUTF8 o := by
  induction n with
  | zero =>
    intro s o hl h _
    have : s = [] := by cases s <;> simp at hl ⊢
    subst this; cases h; exact utf8_nil
  | succ n ih =>
    intro s o hl h hv
    obtain ⟨cs, e⟩ := hv
    cases cs with
    | nil => simp only [List.flatMap_nil] at e; subst e; cases h; exact utf8_nil
    | cons x xs =>
      simp only [List.flatMap_cons] at e
      have hv' : ValidUTF8 s := ⟨x :: xs, by simpa using e⟩
      have hxs : ValidUTF8 (xs.flatMap String.utf8EncodeChar) := ⟨xs, rfl⟩
      generalize hr : xs.flatMap String.utf8EncodeChar = rest at e hxs
      rcases encode_ascii x with ⟨h1, h2⟩ | ⟨_, h3, h4⟩
      · cases h with
        | nil => exact utf8_nil
        | @plain c s o hc h =>
          rw [h2] at e
          simp only [List.cons_append, List.nil_append, List.cons.injEq] at e
          have hb : c.toNat ≤ 127 := by rw [e.1, UInt8.toNat_ofNat']; omega
          have := ih s o (by simp at hl; omega) h (utf8_tail hv' hb)
          exact utf8_append (utf8_byte c hb) this
        | @esc c r s o hc h =>
          obtain ⟨a1, a2⟩ := esc_ascii c r hc
          have hs := utf8_tail (utf8_tail hv' (by decide)) a1
          have := ih s o (by simp at hl; omega) h hs
          exact utf8_append (utf8_byte r a2) this
        | @uni a b c d w y z u s o g1 g2 g3 g4 h =>
          have hs := utf8_tail (utf8_tail (utf8_tail (utf8_tail (utf8_tail (utf8_tail hv' (by decide))
            (by decide)) (hex_ascii g1)) (hex_ascii g2)) (hex_ascii g3)) (hex_ascii g4)
          have := ih s o (by simp at hl; omega) h hs
          exact utf8_append (utf8_unit _) this
      · subst e
        obtain ⟨o', rfl, h'⟩ := denotes_plain_prefix (p := String.utf8EncodeChar x)
          (fun c hc e => by have := h4 c hc; subst e; simp at this) h
        have hlen : 0 < (String.utf8EncodeChar x).length := List.length_pos_iff.mpr h3
        have := ih rest o' (by rw [List.length_append] at hl; omega) h' hxs
        exact utf8_append (utf8_char x) this

/-! ## Escaping -/

theorem hexDigit_val (n : Nat) (h : n < 16) : hexVal (hexDigit n) = some n := by
  have : ∀ n : Fin 16, hexVal (hexDigit n.val) = some n.val := by decide +kernel
  exact this ⟨n, h⟩

theorem denotes_escape (s : Bytes) : Denotes (escape s) s := by
  induction s with
  | nil => exact .nil
  | cons c cs ih =>
    show Denotes (escapeByte c ++ escape cs) (c :: cs)
    unfold escapeByte
    split
    · next h => subst h; exact .esc (by decide) ih
    · split
      · next h => subst h; exact .esc (by decide) ih
      · split
        · next h3 h4 h =>
          have hlt : c.toNat < 32 := by simpa [UInt8.lt_iff_toNat_lt] using h
          have := Denotes.uni (a := 48) (b := 48) (w := 0) (x := 0) (by decide) (by decide)
            (hexDigit_val (c.toNat / 16) (by omega)) (hexDigit_val (c.toNat % 16) (by omega)) ih
          have e : unitText (4096 * 0 + 256 * 0 + 16 * (c.toNat / 16) + c.toNat % 16) = [c] := by
            rw [show 4096 * 0 + 256 * 0 + 16 * (c.toNat / 16) + c.toNat % 16 = c.toNat by omega]
            unfold unitText
            rw [if_neg (by omega)]
            rcases encode_ascii (Char.ofNat c.toNat) with ⟨_, h2⟩ | ⟨h1, _⟩
            · rw [h2, charVal _ (by omega)]; simp
            · rw [charVal _ (by omega)] at h1; omega
          rw [e] at this
          exact this
        · next h => exact .plain (by assumption) ih

end Verif.Proof.Unescape
