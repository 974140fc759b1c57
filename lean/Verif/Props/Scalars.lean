import Verif.Proof.Outcome
/-!
# Numbers, strings and bools at the level of `Decode`: C01-C04, C07, C08, C42-C44

`Wf src (.num true i e)`: the document is the number token at `[i, e)` of the text; `text src i e` are its bytes, `inner src i e` the bytes between the quotes of a string token.
-/
namespace Verif.Props
open Verif.Model Verif.Spec Verif.Big Verif.Proof Verif.Proof.Outcome Verif.Proof.Demo

/-! ## Integers: C01-C04 -/

theorem int_leaf {x : Ext} {src : Bytes} {o : Option Options} {k : IKind} {i e : Nat} (hw : Wf src (.num true i e)) (V : Val) :
    decTopV x src o (.scalar (.int k)) (.num true i e) V =
      actV i (.int 0) none V (onInteger x (.scalar (.int k)) (text src i e)) := by
  simp only [decTopV, decV, leafV, leaf, Ty.etype, Doc.slice_text hw.1 hw.2.1, JVal.index, zeroV, zeroS]

/-- **C01**: a non-negative integer literal into an unsigned integer destination: the exact value if it fits; otherwise ErrIntegerOverflow at the literal and the destination keeps its value. -/
theorem C01_unsigned {x : Ext} {k : IKind} (hk : k.signed = false) {d : Decoder} (hd : DecoderFor x (.scalar (.int k)) d) {src : Bytes} {i e : Nat} (hw : Wf src (.num true i e))
    (hl : IsNatLit (text src i e)) {mem : Block} {V : Val} (hm : Dest x (.scalar (.int k)) mem V) (o : Option Options) :
    (digitsVal (text src i e) < 2 ^ k.bits x.is64 → Returns x (.scalar (.int k)) (decode x d src (.ok (.num true i e)) (some mem) o) (-1) none (.int (digitsVal (text src i e)))) ∧
    (2 ^ k.bits x.is64 ≤ digitsVal (text src i e) → Returns x (.scalar (.int k)) (decode x d src (.ok (.num true i e)) (some mem) o) i (some .integerOverflow) V) := by
  have hp := C01_unsigned_parse x.is64 k hk _ hl
  have hne : ∃ c cs, text src i e = c :: cs ∧ c ≠ 45 := by
    revert hl
    intro hl
    generalize text src i e = s at hl
    cases hl with
    | zero => exact ⟨_, _, rfl, by decide⟩
    | cons h1 _ _ => exact ⟨_, _, rfl, by rintro rfl; revert h1; decide⟩
  obtain ⟨c, cs, hc, hne⟩ := hne
  have hon : onInteger x (.scalar (.int k)) (text src i e) = storeInt x k (text src i e) .integerOverflow := by
    rw [hc]; simp [onInteger, hk, hne]
  constructor
  · intro hv
    refine returns_ok hd hm trivial ?_
    rw [int_leaf hw, hon, storeInt, hp.1 hv]; rfl
  · intro hv
    obtain ⟨y, hy⟩ := hp.2 hv
    refine returns_err hd hm trivial ?_
    rw [int_leaf hw, hon, storeInt, hy]; rfl

/-- `255` and `256` into a `uint8`. -/
example : Returns demoX (.scalar (.int .u8)) (decode demoX (demoDec 30) b!"255" (.ok (.num true 0 3)) (some (zeros 1)) none) (-1) none (.int 255) ∧
    Returns demoX (.scalar (.int .u8)) (decode demoX (demoDec 30) b!"256" (.ok (.num true 0 3)) (some (zeros 1)) none) 0 (some .integerOverflow) (.int 0) :=
  have hd : DecoderFor demoX (.scalar (.int .u8)) (demoDec 30) := demo_for' (t := 30) (by decide)
  ⟨(C01_unsigned rfl hd (src := b!"255") (i := 0) (e := 3) (by decide) (.cons (by decide) (by decide) (by decide)) (zero_dest hd) none).1 (by decide),
   (C01_unsigned rfl hd (src := b!"256") (i := 0) (e := 3) (by decide) (.cons (by decide) (by decide) (by decide)) (zero_dest hd) none).2 (by decide)⟩

/-- **C02**: an integer literal into an `int64`, or into an `int` on 64-bit platforms. -/
theorem C02_signed64 {x : Ext} {k : IKind} (hk : k = .i64 ∨ (k = .int ∧ x.is64 = true)) {d : Decoder} (hd : DecoderFor x (.scalar (.int k)) d) {src : Bytes} {i e : Nat}
    (hw : Wf src (.num true i e)) {v : Int} (hl : IsIntLit (text src i e) v) {mem : Block} {V : Val} (hm : Dest x (.scalar (.int k)) mem V) (o : Option Options) :
    (-2 ^ 63 ≤ v ∧ v < 2 ^ 63 → Returns x (.scalar (.int k)) (decode x d src (.ok (.num true i e)) (some mem) o) (-1) none (.int v)) ∧
    (v < -2 ^ 63 ∨ 2 ^ 63 ≤ v → Returns x (.scalar (.int k)) (decode x d src (.ok (.num true i e)) (some mem) o) i (some .integerOverflow) V) := by
  have hp := C02_signed64_parse x.is64 k hk _ v hl
  have hs : k.signed = true := by rcases hk with rfl | ⟨rfl, -⟩ <;> rfl
  have hon : onInteger x (.scalar (.int k)) (text src i e) = storeInt x k (text src i e) .integerOverflow := by simp [onInteger, hs]
  constructor
  · intro hv
    refine returns_ok hd hm trivial ?_
    rw [int_leaf hw, hon, storeInt, hp.1 hv]; rfl
  · intro hv
    obtain ⟨y, hy⟩ := hp.2 hv
    refine returns_err hd hm trivial ?_
    rw [int_leaf hw, hon, storeInt, hy]; rfl

/-- The smallest `int64` and the first integer beyond the largest. -/
example : Returns demoX (.scalar (.int .i64)) (decode demoX (demoDec 46) b!"-9223372036854775808" (.ok (.num true 0 20)) (some (zeros 8)) none) (-1) none (.int (-9223372036854775808)) ∧
    Returns demoX (.scalar (.int .i64)) (decode demoX (demoDec 46) b!"9223372036854775808" (.ok (.num true 0 19)) (some (zeros 8)) none) 0 (some .integerOverflow) (.int 0) :=
  have hd : DecoderFor demoX (.scalar (.int .i64)) (demoDec 46) := demo_for' (t := 46) (by decide)
  ⟨(C02_signed64 (.inl rfl) hd (src := b!"-9223372036854775808") (i := 0) (e := 20) (by decide) (.neg (.cons (by decide) (by decide) (by decide))) (zero_dest hd) none).1 (by decide),
   (C02_signed64 (.inl rfl) hd (src := b!"9223372036854775808") (i := 0) (e := 19) (by decide) (.pos (.cons (by decide) (by decide) (by decide))) (zero_dest hd) none).2 (.inr (by decide))⟩

/-- The full statement of C03 for `Decode`. -/
def NarrowSignedDecode (x : Ext) : Prop :=
  ∀ (k : IKind), k.signed = true → ∀ (d : Decoder), DecoderFor x (.scalar (.int k)) d → ∀ (src : Bytes) (i e : Nat) (v : Int), Wf src (.num true i e) → IsIntLit (text src i e) v →
    ∀ (mem : Block) (V : Val), Dest x (.scalar (.int k)) mem V → ¬ (-2 ^ (k.bits x.is64 - 1) ≤ v ∧ v < 2 ^ (k.bits x.is64 - 1)) →
      Returns x (.scalar (.int k)) (decode x d src (.ok (.num true i e)) (some mem) (some defaultOptions)) i (some .integerOverflow) V

/-- **C03 is false of the code**: `300` into an `int8` succeeds. -/
theorem C03_decode_refuted : ¬ NarrowSignedDecode demoX := by
  intro h
  have hd : DecoderFor demoX (.scalar (.int .i8)) (demoDec 24) := demo_for' (t := 24) (by decide)
  obtain ⟨r, m, h1, h2, -⟩ := h .i8 rfl _ hd b!"300" 0 3 300 (by decide) (.pos (.cons (by decide) (by decide) (by decide))) _ _ (zero_dest hd) (by decide)
  have : ((decode demoX (demoDec 24) b!"300" (.ok (.num true 0 3)) (some (zeros 1)) (some defaultOptions)).map (·.errIndex)) = some (-1) := by decide +kernel
  change decode demoX (demoDec 24) b!"300" (.ok (.num true 0 3)) (some (zeros 1)) (some defaultOptions) = some r at h1
  rw [h1] at this
  simp only [Option.map_some, Option.some.injEq] at this
  rw [h2] at this; cases this

/-- **C03, partial**: every signed kind. In-range literals are stored exactly. Out-of-range literals are rejected with ErrIntegerOverflow, or the stored value is the literal modulo `2^b`; they are always rejected if
they are out of range by less than the span of the type, or have more digits than the type's extreme values. Missing: rejection of all out-of-range literals. -/
theorem C03_decode_partial {x : Ext} {k : IKind} (hk : k.signed = true) {d : Decoder} (hd : DecoderFor x (.scalar (.int k)) d) {src : Bytes} {i e : Nat}
    (hw : Wf src (.num true i e)) {v : Int} (hl : IsIntLit (text src i e) v) {mem : Block} {V : Val} (hm : Dest x (.scalar (.int k)) mem V) (o : Option Options) :
    (-2 ^ (k.bits x.is64 - 1) ≤ v ∧ v < 2 ^ (k.bits x.is64 - 1) → Returns x (.scalar (.int k)) (decode x d src (.ok (.num true i e)) (some mem) o) (-1) none (.int v)) ∧
    ((2 ^ (k.bits x.is64 - 1) ≤ v ∧ v < 2 ^ k.bits x.is64) ∨ (-2 ^ k.bits x.is64 < v ∧ v < -2 ^ (k.bits x.is64 - 1)) ∨
        (10 : Int) ^ (if k.bits x.is64 = 8 then 3 else if k.bits x.is64 = 16 then 5 else if k.bits x.is64 = 32 then 10 else 19) ≤ v.natAbs →
      Returns x (.scalar (.int k)) (decode x d src (.ok (.num true i e)) (some mem) o) i (some .integerOverflow) V) ∧
    (Returns x (.scalar (.int k)) (decode x d src (.ok (.num true i e)) (some mem) o) i (some .integerOverflow) V ∨
      Returns x (.scalar (.int k)) (decode x d src (.ok (.num true i e)) (some mem) o) (-1) none (.int (v.bmod (2 ^ k.bits x.is64)))) := by
  obtain ⟨p1, p2, p3, p4, p5⟩ := C03_signed_parse_partial x.is64 k hk _ v hl
  have hon : onInteger x (.scalar (.int k)) (text src i e) = storeInt x k (text src i e) .integerOverflow := by simp [onInteger, hk]
  have good : ∀ w, parseInt x.is64 k (text src i e) = some (w, false) → Returns x (.scalar (.int k)) (decode x d src (.ok (.num true i e)) (some mem) o) (-1) none (.int w) := by
    intro w hv
    refine returns_ok hd hm trivial ?_
    rw [int_leaf hw, hon, storeInt, hv]; rfl
  have bad : (∃ w, parseInt x.is64 k (text src i e) = some (w, true)) → Returns x (.scalar (.int k)) (decode x d src (.ok (.num true i e)) (some mem) o) i (some .integerOverflow) V := by
    rintro ⟨w, hv⟩
    refine returns_err hd hm trivial ?_
    rw [int_leaf hw, hon, storeInt, hv]; rfl
  refine ⟨fun h => good _ (p1 h), ?_, ?_⟩
  · rintro (h | h | h)
    · exact bad (p2 h)
    · exact bad (p3 h)
    · exact bad (p4 h)
  · rcases p5 with h | h
    · exact .inl (bad h)
    · exact .inr (good _ h)

example : Returns demoX (.scalar (.int .i8)) (decode demoX (demoDec 24) b!"-129" (.ok (.num true 0 4)) (some (zeros 1)) none) 0 (some .integerOverflow) (.int 0) :=
  have hd : DecoderFor demoX (.scalar (.int .i8)) (demoDec 24) := demo_for' (t := 24) (by decide)
  (C03_decode_partial rfl hd (src := b!"-129") (i := 0) (e := 4) (by decide) (.neg (.cons (by decide) (by decide) (by decide))) (zero_dest hd) none).2.1 (.inr (.inl (by decide)))

/-- **C04**: a literal that begins with a minus sign into an unsigned destination. -/
theorem C04_negative {x : Ext} {k : IKind} (hk : k.signed = false) {d : Decoder} (hd : DecoderFor x (.scalar (.int k)) d) {src : Bytes} {i e : Nat} (hw : Wf src (.num true i e))
    {ds : Bytes} (hl : text src i e = 45 :: ds) {mem : Block} {V : Val} (hm : Dest x (.scalar (.int k)) mem V) (o : Option Options) :
    Returns x (.scalar (.int k)) (decode x d src (.ok (.num true i e)) (some mem) o) i (some .unexpectedValue) V := by
  refine returns_err hd hm trivial ?_
  rw [int_leaf hw, hl]
  simp [onInteger, hk, actV]

/-- `-0` into a `uint8`. -/
example : Returns demoX (.scalar (.int .u8)) (decode demoX (demoDec 30) b!"-0" (.ok (.num true 0 2)) (some (zeros 1)) none) 0 (some .unexpectedValue) (.int 0) :=
  have hd : DecoderFor demoX (.scalar (.int .u8)) (demoDec 30) := demo_for' (t := 30) (by decide)
  C04_negative rfl hd (src := b!"-0") (i := 0) (e := 2) (by decide) (ds := [48]) rfl (zero_dest hd) none

/-- Numbers with a fraction or exponent never enter integer destinations. -/
theorem C04_fraction {x : Ext} {k : IKind} {d : Decoder} (hd : DecoderFor x (.scalar (.int k)) d) {src : Bytes} {i e : Nat} (hw : Wf src (.num false i e))
    {mem : Block} {V : Val} (hm : Dest x (.scalar (.int k)) mem V) (o : Option Options) :
    Returns x (.scalar (.int k)) (decode x d src (.ok (.num false i e)) (some mem) o) i (some .unexpectedValue) V := by
  refine returns_err hd hm trivial ?_
  simp [decTopV, decV, leafV, leaf, Ty.etype, Doc.slice_text hw.1 hw.2.1, JVal.index, onNumber, actV]

/-! ## Quoted integers: C07 -/

theorem intLit_integer {s : Bytes} {v : Int} (h : IsIntLit s v) : IsInteger s := by
  cases h with
  | pos h => exact ⟨[], _, rfl, .inl rfl, h⟩
  | neg h => exact ⟨[45], _, rfl, .inr rfl, h⟩

theorem quotedInt_good {x : Ext} {k : IKind} {s : Bytes} {v : Int} (h : QuotedOK x.is64 k s v) : quotedInt x k s = some (some v) := by
  obtain ⟨h1, h2, h3⟩ := h
  obtain ⟨rc, hr, -, hrc⟩ := C05_scan_number s (Doc.integer_number (intLit_integer h1))
  have hrc : rc = .integer := hrc.2 (intLit_integer h1)
  have hp : parseInt x.is64 k s = some (v, false) := by
    unfold InRange at h2
    cases hk : k.signed with
    | true =>
      rw [hk, if_pos rfl] at h2
      exact (C03_signed_parse_partial x.is64 k hk s v h1).1 h2
    | false =>
      rw [hk, if_neg (by decide)] at h2
      cases h1 with
      | pos h =>
        refine (C01_unsigned_parse x.is64 k hk s h).1 ?_
        have := h2.2
        exact_mod_cast this
      | neg h => exact absurd rfl (h3 hk)
  have hs : ¬ (k.signed = false ∧ s.head? = some 45) := fun ⟨a, b⟩ => h3 a b
  simp [quotedInt, hr, hrc, hp, hs]

/-- Unacceptable integer literals are rejected, except that narrow signed kinds may wrap (C03). -/
theorem quotedInt_bad {x : Ext} {k : IKind} {s : Bytes} {v : Int} (h1 : IsIntLit s v) (hn : k.signed = false ∨ k.bits x.is64 = 64)
    (h : ¬ QuotedOK x.is64 k s v) : quotedInt x k s = some none := by
  obtain ⟨rc, hr, -, hrc⟩ := C05_scan_number s (Doc.integer_number (intLit_integer h1))
  have hrc : rc = .integer := hrc.2 (intLit_integer h1)
  by_cases hs : k.signed = false ∧ s.head? = some 45
  · simp [quotedInt, hr, hrc, hs]
  · have hp : ∃ y, parseInt x.is64 k s = some (y, true) := by
      have hr : ¬ InRange x.is64 k v := fun hr => h ⟨h1, hr, fun a b => hs ⟨a, b⟩⟩
      unfold InRange at hr
      cases hk : k.signed with
      | true =>
        rw [hk, if_pos rfl] at hr
        have hb : k.bits x.is64 = 64 := by rcases hn with hn | hn; (rw [hk] at hn; cases hn); exact hn
        rw [hb] at hr
        refine (C02_signed64_parse x.is64 k ?_ s v h1).2 (by simp at hr ⊢; omega)
        revert hk hb
        cases k <;> simp [IKind.signed, IKind.bits]
      | false =>
        rw [hk, if_neg (by decide)] at hr
        cases h1 with
        | pos hnat =>
          refine (C01_unsigned_parse x.is64 k hk s hnat).2 ?_
          have hh : ¬ ((digitsVal s : Int) < 2 ^ k.bits x.is64) := fun hc => hr ⟨Int.natCast_nonneg _, hc⟩
          have : ¬ (digitsVal s < 2 ^ k.bits x.is64) := fun hc => hh (by exact_mod_cast hc)
          omega
        | neg h => exact absurd ⟨hk, rfl⟩ hs
    obtain ⟨y, hp⟩ := hp
    simp [quotedInt, hr, hrc, hp, hs]

/-- A text without an integer at its beginning is rejected. -/
theorem quotedInt_noint {x : Ext} {k : IKind} {s q : Bytes} (hs : s ≠ []) (hq : LongestViable q s) (h : ¬ IsInteger q) : quotedInt x k s = some none := by
  obtain ⟨q', t, rest, rc, h1, -, h3, -, h5, -⟩ := C05_scan s hs
  have := JsonNum.longest_unique h3 hq
  subst this
  have : rc ≠ .integer := fun hc => h (h5.1 hc)
  simp [quotedInt, h1, this]

/-- The full statement of C07 for fields with the `string` option: an object with one member that selects the field. -/
def QuotedIntExact (x : Ext) : Prop :=
  ∀ (n : Nat) (fs : List (Bytes × Nat × Ty)) (d : Decoder) (src : Bytes) (o : Options) (a z i e : Nat) (key : Nat × Nat) (mem : Block) (Ws : List Val) (j : Nat) (name : Bytes) (off : Nat) (k : IKind),
    DecoderFor x (.struct n fs) d → Wf src (.obj a [(key, .str i e)] z) → Dest x (.struct n fs) mem (.struct Ws) → KeySelects x src o (fs.map (·.1)) key j → fs[j]? = some (name, off, .quoted (.int k)) →
    (∀ v, QuotedOK x.is64 k (inner src i e) v → Returns x (.struct n fs) (decode x d src (.ok (.obj a [(key, .str i e)] z)) (some mem) (some o)) (-1) none (.struct (Ws.set j (.int v)))) ∧
    ((∀ v, ¬ QuotedOK x.is64 k (inner src i e) v) →
      Returns x (.struct n fs) (decode x d src (.ok (.obj a [(key, .str i e)] z)) (some mem) (some o)) i (some .unexpectedValue) (.struct Ws))

theorem holdsF_length {x : Ext} {b : Block} {off : Nat} : ∀ {fs : List (Bytes × Nat × Ty)} {Ws : List Val}, HoldsF x fs b off Ws → Ws.length = fs.length
  | [], Ws, h => by simp only [HoldsF] at h; simp [h]
  | (_, _, _) :: fs, Ws, h => by
    simp only [HoldsF] at h
    obtain ⟨W, Ws', rfl, -, h⟩ := h
    simp [holdsF_length h]

theorem dest_field {x : Ext} {n : Nat} {fs : List (Bytes × Nat × Ty)} {mem : Block} {Ws : List Val} (hm : Dest x (.struct n fs) mem (.struct Ws)) {j : Nat} {f : Bytes × Nat × Ty}
    (hf : fs[j]? = some f) : ∃ W, Ws[j]? = some W := by
  obtain ⟨-, -, Ws', h1, h2⟩ := hm
  cases h1
  have hl := holdsF_length h2
  have := (List.getElem?_eq_some_iff.1 hf).1
  exact ⟨Ws[j]'(by omega), by simp⟩

theorem one_tame {x : Ext} {src : Bytes} {o : Options} {n : Nat} {fs : List (Bytes × Nat × Ty)} {a z : Nat} {k : Nat × Nat} {v : JVal} {j : Nat} {f : Bytes × Nat × Ty}
    (hw : WfStr src k.1 k.2) (hs : KeySelects x src o (fs.map (·.1)) k j) (hf : fs[j]? = some f) (ht : Tame x src (some o) f.2.2 v) :
    TameDoc x src (some o) (.struct n fs) (.obj a [(k, v)] z) := by
  obtain ⟨name, h1, h2⟩ := key_selects hw hs
  simp only [TameDoc, Tame]
  intro m hm o' ho raw name' hraw hname
  simp only [List.mem_singleton] at hm
  subst hm
  cases ho
  rw [hraw, Option.bind_some, hname] at h1
  cases h1
  rw [h2]
  simp only []
  intro T hT
  have : ∀ (fs : List (Bytes × Nat × Ty)) (j : Nat), (TameF x src (some o) fs)[j]? = (fs[j]?).map fun f => Tame x src (some o) f.2.2 := by
    intro fs
    induction fs with
    | nil => intro j; simp [TameF]
    | cons f fs ih => intro j; cases j <;> simp [TameF, ih]
  rw [this, hf] at hT
  cases hT
  exact ht

/-- What an object with one member does to a struct whose field `j` it selects, in terms of the reading of the member's value for the field. -/
theorem one_member {x : Ext} {n : Nat} {fs : List (Bytes × Nat × Ty)} {d : Decoder} {src : Bytes} {o : Options} {a z : Nat} {key : Nat × Nat} {v : JVal} {mem : Block} {Ws : List Val}
    {j : Nat} {f : Bytes × Nat × Ty} (hd : DecoderFor x (.struct n fs) d) (hw : WfStr src key.1 key.2) (hm : Dest x (.struct n fs) mem (.struct Ws))
    (hs : KeySelects x src o (fs.map (·.1)) key j) (hf : fs[j]? = some f) (ht : Tame x src (some o) f.2.2 v) {W : Val} (hW : Ws[j]? = some W) :
    (∀ W', decV x src (some o) f.2.2 v W = .ok W' → Returns x (.struct n fs) (decode x d src (.ok (.obj a [(key, v)] z)) (some mem) (some o)) (-1) none (.struct (Ws.set j W'))) ∧
    (∀ i e W', decV x src (some o) f.2.2 v W = .err i e W' →
      Returns x (.struct n fs) (decode x d src (.ok (.obj a [(key, v)] z)) (some mem) (some o)) i (some e) (.struct (Ws.set j W'))) := by
  have h := one_ok (n := n) (a := a) (z := z) (v := v) hw hs hf hW
  constructor
  · intro W' hW'
    rw [hW'] at h
    exact returns_ok hd hm (one_tame hw hs hf ht) h
  · intro i e W' hW'
    rw [hW'] at h
    exact returns_err hd hm (one_tame hw hs hf ht) h

theorem set_self {Ws : List Val} {j : Nat} {W : Val} (h : Ws[j]? = some W) : Ws.set j W = Ws := by
  apply List.ext_getElem?
  intro i
  rw [List.getElem?_set]
  split
  · rename_i hi; subst hi
    split
    · rw [h]
    · rename_i hl; rw [List.getElem?_eq_none (by omega)]
  · rfl

theorem quotedInt_leaf {x : Ext} {src : Bytes} {o : Option Options} {k : IKind} {i e : Nat} (hw : WfStr src i e) (W : Val) :
    decV x src o (.quoted (.int k)) (.str i e) W = match quotedInt x k (inner src i e) with
      | none => .crash
      | some none => .err i .unexpectedValue W
      | some (some v) => .ok (.int v) := by
  simp only [decV, leafV, leaf, Ty.etype, Doc.slice_inner hw, JVal.index, onString]
  cases quotedInt x k (inner src i e) with
  | none => rfl
  | some r => cases r <;> rfl

/-- **C07, partial**: a field with the `string` option of an integer type. Acceptable texts yield their value. Rejected with ErrUnexpectedValue at the string, without effect: integer literals that are not acceptable (64-bit signed
and all unsigned kinds), and non-empty texts that do not begin with an integer. Missing: texts that begin with an integer but go on (accepted by the code, `C07_refuted`), out-of-range literals of narrow signed kinds (C03), and the
empty text, which panics (C06). -/
theorem C07_quoted_partial {x : Ext} {n : Nat} {fs : List (Bytes × Nat × Ty)} {d : Decoder} {src : Bytes} {o : Options} {a z i e : Nat} {key : Nat × Nat} {mem : Block} {Ws : List Val} {j : Nat}
    {name : Bytes} {off : Nat} {k : IKind} (hd : DecoderFor x (.struct n fs) d) (hw : Wf src (.obj a [(key, .str i e)] z)) (hm : Dest x (.struct n fs) mem (.struct Ws))
    (hs : KeySelects x src o (fs.map (·.1)) key j) (hf : fs[j]? = some (name, off, .quoted (.int k))) :
    (∀ v, QuotedOK x.is64 k (inner src i e) v → Returns x (.struct n fs) (decode x d src (.ok (.obj a [(key, .str i e)] z)) (some mem) (some o)) (-1) none (.struct (Ws.set j (.int v)))) ∧
    (∀ v, IsIntLit (inner src i e) v → (k.signed = false ∨ k.bits x.is64 = 64) → ¬ QuotedOK x.is64 k (inner src i e) v →
      Returns x (.struct n fs) (decode x d src (.ok (.obj a [(key, .str i e)] z)) (some mem) (some o)) i (some .unexpectedValue) (.struct Ws)) ∧
    (∀ q, inner src i e ≠ [] → LongestViable q (inner src i e) → ¬ IsInteger q →
      Returns x (.struct n fs) (decode x d src (.ok (.obj a [(key, .str i e)] z)) (some mem) (some o)) i (some .unexpectedValue) (.struct Ws)) := by
  obtain ⟨W, hW⟩ := dest_field hm hf
  have hwm := (Safe.wfM_mem hw.2.2.2.2 _ (List.mem_singleton.2 rfl))
  obtain ⟨h1, h2⟩ := one_member (a := a) (z := z) (v := .str i e) hd hwm.1 hm hs hf trivial hW
  refine ⟨fun v hv => h1 _ ?_, fun v hl hn hv => ?_, fun q hne hq hi => ?_⟩
  · rw [quotedInt_leaf hwm.2, quotedInt_good hv]
  · have := h2 i .unexpectedValue W (by rw [quotedInt_leaf hwm.2, quotedInt_bad hl hn hv])
    rwa [set_self hW] at this
  · have := h2 i .unexpectedValue W (by rw [quotedInt_leaf hwm.2, quotedInt_noint hne hq hi])
    rwa [set_self hW] at this

theorem demo25_case {src : Bytes} (h : WfB.docB src = true) : DecoderFor demoX (.struct 8 [(b!"n", 0, .quoted (.int .int))]) (demoDec 25) ∧ Wf src (demoDoc src) ∧
    Dest demoX (.struct 8 [(b!"n", 0, .quoted (.int .int))]) (zeros 8) (.struct [.int 0]) :=
  have hd : DecoderFor demoX (.struct 8 [(b!"n", 0, .quoted (.int .int))]) (demoDec 25) := demo_for' (t := 25) (by decide)
  ⟨hd, (demo_doc h).2, zero_dest hd⟩

theorem demo25_key {src : Bytes} {key : Nat × Nat} (h : inner src key.1 key.2 = b!"n") : KeySelects demoX src defaultOptions [b!"n"] key 0 :=
  ⟨b!"n", by simp only [KeyIs, h]; exact .plain (by decide) .nil, by simp only [SelectsField]; exact .exact (.here rfl)⟩

/-- `{"n":"-12"}` into ``struct{N int `json:"n,string"`}``. -/
example : Returns demoX (.struct 8 [(b!"n", 0, .quoted (.int .int))])
    (decode demoX (demoDec 25) b!"{\"n\":\"-12\"}" (.ok (.obj 0 [((1, 4), .str 5 10)] 10)) (some (zeros 8)) (some defaultOptions)) (-1) none (.struct [.int (-12)]) := by
  obtain ⟨hd, hw, hm⟩ := demo25_case (src := b!"{\"n\":\"-12\"}") (by decide)
  exact (C07_quoted_partial hd hw hm (demo25_key (key := (1, 4)) rfl) rfl).1 (-12)
    ⟨.neg (.cons (by decide) (by decide) (by decide)), by simp only [InRange, IKind.signed, IKind.bits]; decide, by decide⟩

/-- **C07 is false of the code**: `{"n":"1x"}` is accepted and stores 82. -/
theorem C07_refuted : ¬ QuotedIntExact demoX := by
  intro h
  obtain ⟨hd, hw, hm⟩ := demo25_case (src := b!"{\"n\":\"1x\"}") (by decide)
  obtain ⟨r, m, h1, h2, -⟩ := (h 8 _ _ _ defaultOptions 0 9 5 9 (1, 4) _ _ 0 _ _ _ hd hw hm (demo25_key (key := (1, 4)) rfl) rfl).2 (by
    rintro v ⟨hv, -⟩
    have hi := (Doc.isIntegerB_iff _).2 (intLit_integer hv)
    revert hi
    decide)
  have : ((decode demoX (demoDec 25) b!"{\"n\":\"1x\"}" (.ok (.obj 0 [((1, 4), .str 5 9)] 9)) (some (zeros 8)) (some defaultOptions)).map (·.errIndex)) = some (-1) := by decide +kernel
  rw [h1] at this
  simp only [Option.map_some, Option.some.injEq] at this
  rw [h2] at this; cases this

/-- The value stored for `"1x"` is 82; a leading zero is accepted as well. -/
theorem C07_refuted_value : demoUnmarshal 25 b!"{\"n\":\"1x\"}" (zeros 8) = .ret none (some (seg 8 (.int 82))) ∧ demoUnmarshal 25 b!"{\"n\":\"01\"}" (zeros 8) = .ret none (some (seg 8 (.int 1))) := ⟨rfl, rfl⟩

/-! ## Number: C08 -/

/-- The full statement of C08 for strings: a string is accepted exactly if its text is a JSON number. -/
def NumberStringExact (x : Ext) : Prop :=
  ∀ (d : Decoder) (src : Bytes) (i e : Nat) (mem : Block) (V : Val) (o : Option Options), DecoderFor x .number d → Wf src (.str i e) → Dest x .number mem V → ¬ IsNumber (inner src i e) →
    Returns x .number (decode x d src (.ok (.str i e)) (some mem) o) i (some .unexpectedValue) V

/-- **C08**, number tokens: a `Number` gets exactly the bytes of the literal. -/
theorem C08_number {x : Ext} {d : Decoder} (hd : DecoderFor x .number d) {src : Bytes} {b : Bool} {i e : Nat} (hw : Wf src (.num b i e)) {mem : Block} {V : Val} (hm : Dest x .number mem V)
    (o : Option Options) : ∃ s, Returns x .number (decode x d src (.ok (.num b i e)) (some mem) o) (-1) none (.str s) ∧ s.bytes = text src i e := by
  refine ⟨x.mkStr (text src i e), returns_ok hd hm trivial ?_, rfl⟩
  cases b <;> simp [decTopV, decV, leafV, leaf, Ty.etype, Doc.slice_text hw.1 hw.2.1, onInteger, onNumber, actV, cellV]

/-- **C08, partial**, strings: if the text between the quotes is a number literal the `Number` gets exactly that text; if no beginning of a non-empty text is a number literal it is rejected. In any case a success stores exactly the text between
the quotes. Missing: rejection of texts that begin with a number but go on (accepted by the code, `C08_refuted`), and the empty text, which panics (C06). -/
theorem C08_string_partial {x : Ext} {d : Decoder} (hd : DecoderFor x .number d) {src : Bytes} {i e : Nat} (hw : Wf src (.str i e)) {mem : Block} {V : Val} (hm : Dest x .number mem V)
    (o : Option Options) :
    (IsNumber (inner src i e) → ∃ s, Returns x .number (decode x d src (.ok (.str i e)) (some mem) o) (-1) none (.str s) ∧ s.bytes = inner src i e) ∧
    (∀ q, inner src i e ≠ [] → LongestViable q (inner src i e) → ¬ IsNumber q → Returns x .number (decode x d src (.ok (.str i e)) (some mem) o) i (some .unexpectedValue) V) ∧
    (∀ r, decode x d src (.ok (.str i e)) (some mem) o = some r → r.err = none → ∃ mem' s, r.mem = some mem' ∧ Dest x .number mem' (.str s) ∧ s.bytes = inner src i e) := by
  have hlf : decTopV x src o .number (.str i e) V = actV i (.str ⟨[], false⟩) none V (onString x .number (inner src i e)) := by
    simp only [decTopV, decV, leafV, leaf, Ty.etype, Doc.slice_inner hw, JVal.index, zeroV]
  refine ⟨fun hn => ?_, fun q hne hq hn => ?_, fun r hr he => ?_⟩
  · obtain ⟨rc, h1, h2, -⟩ := C05_scan_number _ hn
    refine ⟨x.mkStr (inner src i e), returns_ok hd hm trivial ?_, rfl⟩
    simp [hlf, onString, h1, h2, actV, cellV]
  · obtain ⟨q', t, rest, rc, h1, -, h3, h4, -, -⟩ := C05_scan _ hne
    have := JsonNum.longest_unique h3 hq
    subst this
    refine returns_err hd hm trivial ?_
    simp [hlf, onString, h1, h4.2 hn, actV]
  · obtain ⟨V', m, h1, -, h3, h4⟩ := ok_inv hd hm (by exact trivial) hr he
    rw [hlf] at h1
    simp only [onString] at h1
    split at h1
    · simp [actV] at h1
    · split at h1
      · simp [actV] at h1
      · simp only [actV, cellV, R.ok.injEq] at h1
        subst h1
        exact ⟨m, _, h3, h4, rfl⟩

example : ∃ s, Returns demoX .number (decode demoX (demoDec 32) b!"\"-1.5e3\"" (.ok (.str 0 8)) (some (zeros 16)) none) (-1) none (.str s) ∧ s.bytes = b!"-1.5e3" := by
  have hd : DecoderFor demoX .number (demoDec 32) := demo_for' (t := 32) (by decide)
  exact (C08_string_partial hd (src := b!"\"-1.5e3\"") (i := 0) (e := 8) (demo_doc (src := b!"\"-1.5e3\"") (by decide)).2 (zero_dest hd) none).1 ((Doc.isNumberB_iff _).1 (by decide))

/-- **C08, what the code does with every string**: let `q` be the longest beginning of the text that can be completed to a JSON number (it exists and is unique). If `q` is a number, the whole text is accepted and stored, also when
bytes follow `q`; if not, the string is rejected and the destination is unchanged. The empty text panics. -/
theorem C08_string_exact {x : Ext} {d : Decoder} (hd : DecoderFor x .number d) {src : Bytes} {i e : Nat} (hw : Wf src (.str i e)) {mem : Block} {V : Val} (hm : Dest x .number mem V)
    (o : Option Options) :
    (inner src i e = [] → decode x d src (.ok (.str i e)) (some mem) o = none) ∧
    (inner src i e ≠ [] → ∃ q, LongestViable q (inner src i e) ∧
      (IsNumber q → ∃ s, Returns x .number (decode x d src (.ok (.str i e)) (some mem) o) (-1) none (.str s) ∧ s.bytes = inner src i e) ∧
      (¬ IsNumber q → Returns x .number (decode x d src (.ok (.str i e)) (some mem) o) i (some .unexpectedValue) V)) := by
  have hlf : decTopV x src o .number (.str i e) V = actV i (.str ⟨[], false⟩) none V (onString x .number (inner src i e)) := by
    simp only [decTopV, decV, leafV, leaf, Ty.etype, Doc.slice_inner hw, JVal.index, zeroV]
  refine ⟨fun h => ?_, fun hne => ?_⟩
  · have := C25_reading_partial hd hm (src := src) (v := .str i e) (o := o) trivial
    rw [hlf, h] at this
    exact this
  · obtain ⟨q, t, rest, rc, h1, -, h3, h4, -, -⟩ := C05_scan _ hne
    refine ⟨q, h3, fun hn => ?_, fun hn => ?_⟩
    · have h5 : rc ≠ .err := fun h => h4.1 h hn
      refine ⟨x.mkStr (inner src i e), returns_ok hd hm trivial ?_, rfl⟩
      simp [hlf, onString, h1, h5, actV, cellV]
    · refine returns_err hd hm trivial ?_
      simp [hlf, onString, h1, h4.2 hn, actV]

example : ∃ s, Returns demoX .number (decode demoX (demoDec 32) b!"\"1.5x\"" (.ok (.str 0 6)) (some (zeros 16)) none) (-1) none (.str s) ∧ s.bytes = b!"1.5x" := by
  have hd : DecoderFor demoX .number (demoDec 32) := demo_for' (t := 32) (by decide)
  obtain ⟨q, h1, h2, -⟩ := (C08_string_exact hd (src := b!"\"1.5x\"") (i := 0) (e := 6) (demo_doc (src := b!"\"1.5x\"") (by decide)).2 (zero_dest hd) none).2 (by decide)
  refine h2 ?_
  have h3 : LongestViable b!"1.5" (inner b!"\"1.5x\"" 0 6) := by
    obtain ⟨q, t, rest, rc, e1, e2, e3, e4, -, e6⟩ := C05_scan (inner b!"\"1.5x\"" 0 6) (by decide)
    have e5 : JsonNum.readNumber (inner b!"\"1.5x\"" 0 6) = some (b!"x", JsonNum.RC.number) := rfl
    rw [e5] at e1; cases e1
    have hq : IsNumber q := Decidable.byContradiction fun h => by cases e4.2 h
    obtain rfl : b!"x" = t := e6 hq
    have : q = b!"1.5" := List.append_cancel_right (bs := b!"x") e2.symm
    rwa [this] at e3
  rw [JsonNum.longest_unique h1 h3]
  exact (Doc.isNumberB_iff _).1 (by decide)

/-- **C08 is false of the code**: `"1x"` is accepted as a `Number`. -/
theorem C08_refuted : ¬ NumberStringExact demoX := by
  intro h
  have hd : DecoderFor demoX .number (demoDec 32) := demo_for' (t := 32) (by decide)
  obtain ⟨r, m, h1, h2, -⟩ := h _ b!"\"1x\"" 0 4 _ _ none hd (demo_doc (src := b!"\"1x\"") (by decide)).2 (zero_dest hd) (by
    intro hc
    have := (Doc.isNumberB_iff _).2 hc
    revert this
    decide)
  have : ((decode demoX (demoDec 32) b!"\"1x\"" (.ok (.str 0 4)) (some (zeros 16)) none).map (·.errIndex)) = some (-1) := by decide +kernel
  change decode demoX (demoDec 32) b!"\"1x\"" (.ok (.str 0 4)) (some (zeros 16)) none = some r at h1
  rw [h1] at this
  simp only [Option.map_some, Option.some.injEq] at this
  rw [h2] at this; cases this

/-! ## Strings and bools -/

/-- A JSON string into a Go string: the bytes it denotes (used by C09-C13, C46). -/
theorem string_decode {x : Ext} {d : Decoder} (hd : DecoderFor x (.scalar .str) d) {src : Bytes} {i e : Nat} (hw : Wf src (.str i e)) {out : Bytes} (hden : Denotes (inner src i e) out)
    {mem : Block} {V : Val} (hm : Dest x (.scalar .str) mem V) (o : Option Options) :
    ∃ s, Returns x (.scalar .str) (decode x d src (.ok (.str i e)) (some mem) o) (-1) none (.str s) ∧ s.bytes = out := by
  obtain ⟨s, hs⟩ := Safe.unescStr_some x hden
  have hb : s.bytes = out := by
    simp only [Ext.unescStr, C09_unescape _ _ hden, Option.map_some, Option.some.injEq] at hs
    rw [← hs]
  refine ⟨s, returns_ok hd hm trivial ?_, hb⟩
  simp only [decTopV, decV, leafV, leaf, Ty.etype, Doc.slice_inner hw, onString, hs, actV, cellV]

/-- A JSON string escaped in the standard way decodes to the original bytes (C13 at the level of `Decode`). -/
theorem C13_decode {x : Ext} {d : Decoder} (hd : DecoderFor x (.scalar .str) d) (s : Bytes) {mem : Block} {V : Val} (hm : Dest x (.scalar .str) mem V) (o : Option Options) :
    ∃ t, Returns x (.scalar .str) (decode x d (34 :: (escape s ++ [34])) (.ok (.str 0 ((escape s).length + 2))) (some mem) o) (-1) none (.str t) ∧ t.bytes = s := by
  have hi : inner (34 :: (escape s ++ [34])) 0 ((escape s).length + 2) = escape s := by
    simp [inner, text]
  have hden : Denotes (escape s) s := Unescape.denotes_escape s
  refine string_decode hd (src := 34 :: (escape s ++ [34])) ⟨by omega, by simp, s, by rw [hi]; exact hden⟩ (by rw [hi]; exact hden) hm o

theorem noBackslash (s : Bytes) : Model.Unescape.indexBackslash s = none ↔ (92 : UInt8) ∉ s := by
  induction s with
  | nil => simp [Model.Unescape.indexBackslash]
  | cons c cs ih =>
    simp only [Model.Unescape.indexBackslash, List.mem_cons, not_or]
    split
    · rename_i h; subst h; simp
    · rename_i h
      simp only [Option.map_eq_none_iff, ih]
      exact ⟨fun hh => ⟨fun hc => h hc.symm, hh⟩, fun hh => hh.2⟩

/-- **C43**: a bool field with the `string` option accepts exactly the quoted texts `true` and `false`. -/
theorem C43_bool {x : Ext} {n : Nat} {fs : List (Bytes × Nat × Ty)} {d : Decoder} {src : Bytes} {o : Options} {a z i e : Nat} {key : Nat × Nat} {mem : Block} {Ws : List Val} {j : Nat}
    {name : Bytes} {off : Nat} (hd : DecoderFor x (.struct n fs) d) (hw : Wf src (.obj a [(key, .str i e)] z)) (hm : Dest x (.struct n fs) mem (.struct Ws))
    (hs : KeySelects x src o (fs.map (·.1)) key j) (hf : fs[j]? = some (name, off, .quoted .bool)) :
    (∀ b : Bool, inner src i e = (if b then b!"true" else b!"false") →
      Returns x (.struct n fs) (decode x d src (.ok (.obj a [(key, .str i e)] z)) (some mem) (some o)) (-1) none (.struct (Ws.set j (.bool b)))) ∧
    (inner src i e ≠ b!"true" → inner src i e ≠ b!"false" →
      Returns x (.struct n fs) (decode x d src (.ok (.obj a [(key, .str i e)] z)) (some mem) (some o)) i (some .unexpectedValue) (.struct Ws)) := by
  obtain ⟨W, hW⟩ := dest_field hm hf
  have hwm := (Safe.wfM_mem hw.2.2.2.2 _ (List.mem_singleton.2 rfl))
  obtain ⟨h1, h2⟩ := one_member (a := a) (z := z) (v := .str i e) hd hwm.1 hm hs hf trivial hW
  have hlf : decV x src (some o) (.quoted .bool) (.str i e) W = actV i (.bool false) none W (onString x (.quoted .bool) (inner src i e)) := by
    simp only [decV, leafV, leaf, Ty.etype, Doc.slice_inner hwm.2, JVal.index, zeroV, zeroS]
  refine ⟨fun b hb => h1 _ ?_, fun ht hff => ?_⟩
  · rw [hlf, hb]; cases b <;> rfl
  · have := h2 i .unexpectedValue W (by rw [hlf]; simp [onString, ht, hff, actV])
    rwa [set_self hW] at this

/-- **C43**: a string field with the `string` option accepts exactly the texts `\"…\"` whose inner part has no backslash, and stores the inner part. -/
theorem C43_string {x : Ext} {n : Nat} {fs : List (Bytes × Nat × Ty)} {d : Decoder} {src : Bytes} {o : Options} {a z i e : Nat} {key : Nat × Nat} {mem : Block} {Ws : List Val} {j : Nat}
    {name : Bytes} {off : Nat} (hd : DecoderFor x (.struct n fs) d) (hw : Wf src (.obj a [(key, .str i e)] z)) (hm : Dest x (.struct n fs) mem (.struct Ws))
    (hs : KeySelects x src o (fs.map (·.1)) key j) (hf : fs[j]? = some (name, off, .quoted .str)) :
    (∀ t, inner src i e = [92, 34] ++ t ++ [92, 34] → (92 : UInt8) ∉ t →
      ∃ s, s.bytes = t ∧ Returns x (.struct n fs) (decode x d src (.ok (.obj a [(key, .str i e)] z)) (some mem) (some o)) (-1) none (.struct (Ws.set j (.str s)))) ∧
    ((¬ ∃ t, inner src i e = [92, 34] ++ t ++ [92, 34] ∧ (92 : UInt8) ∉ t) →
      Returns x (.struct n fs) (decode x d src (.ok (.obj a [(key, .str i e)] z)) (some mem) (some o)) i (some .unexpectedValue) (.struct Ws)) := by
  obtain ⟨W, hW⟩ := dest_field hm hf
  have hwm := (Safe.wfM_mem hw.2.2.2.2 _ (List.mem_singleton.2 rfl))
  obtain ⟨h1, h2⟩ := one_member (a := a) (z := z) (v := .str i e) hd hwm.1 hm hs hf trivial hW
  have hlf : decV x src (some o) (.quoted .str) (.str i e) W = actV i (.str ⟨[], false⟩) none W (onString x (.quoted .str) (inner src i e)) := by
    simp only [decV, leafV, leaf, Ty.etype, Doc.slice_inner hwm.2, JVal.index, zeroV, zeroS]
  refine ⟨fun t ht hb => ⟨x.mkStr t, rfl, h1 _ ?_⟩, fun hno => ?_⟩
  · rw [hlf, ht]
    have e1 : ¬ (([92, 34] ++ t ++ [92, 34] : Bytes).length < 4 ∨ ([92, 34] ++ t ++ [92, 34] : Bytes).take 2 ≠ [92, 34] ∨
        ([92, 34] ++ t ++ [92, 34] : Bytes).drop (([92, 34] ++ t ++ [92, 34] : Bytes).length - 2) ≠ [92, 34]) := by
      simp
    have e2 : (([92, 34] ++ t ++ [92, 34] : Bytes).drop 2).take (([92, 34] ++ t ++ [92, 34] : Bytes).length - 4) = t := by simp
    simp only [onString, if_neg e1, e2]
    rw [(noBackslash t).2 hb]
    rfl
  · have hact : onString x (.quoted .str) (inner src i e) = .err .unexpectedValue := by
      simp only [onString]
      split
      · rfl
      · rename_i hc
        simp only [not_or, Nat.not_lt, ne_eq, Decidable.not_not] at hc
        obtain ⟨c1, c2, c3⟩ := hc
        split
        · rfl
        · rename_i hb
          refine absurd ⟨((inner src i e).drop 2).take ((inner src i e).length - 4), ?_, (noBackslash _).1 (by simpa using hb)⟩ hno
          generalize inner src i e = s at c1 c2 c3
          calc s = s.take 2 ++ s.drop 2 := by simp
            _ = [92, 34] ++ s.drop 2 := by rw [c2]
            _ = [92, 34] ++ ((s.drop 2).take (s.length - 4) ++ (s.drop 2).drop (s.length - 4)) := by rw [List.take_append_drop]
            _ = _ := by rw [List.drop_drop, show 2 + (s.length - 4) = s.length - 2 by omega, c3, List.append_assoc]
    have := h2 i .unexpectedValue W (by rw [hlf, hact]; rfl)
    rwa [set_self hW] at this

/-- A document for type 54 of the program: one quoted bool, one quoted string. -/
example : Returns demoX (demoTree 54) (decode demoX (demoDec 54) b!"{\"B\":\"true\"}" (.ok (.obj 0 [((1, 4), .str 5 11)] 11)) (some (zeros 24)) (some defaultOptions)) (-1) none
      (.struct [.bool true, .str ⟨[], false⟩]) ∧
    ∃ s, s.bytes = b!"hi" ∧ Returns demoX (demoTree 54) (decode demoX (demoDec 54) b!"{\"S\":\"\\\"hi\\\"\"}" (.ok (.obj 0 [((1, 4), .str 5 13)] 13)) (some (zeros 24)) (some defaultOptions)) (-1) none
      (.struct [.bool false, .str s]) := by
  have hd : DecoderFor demoX (demoTree 54) (demoDec 54) := demo_for' (t := 54) (by decide)
  refine ⟨(C43_bool (j := 0) hd (demo_doc (src := b!"{\"B\":\"true\"}") (by decide)).2 (zero_dest hd) ?_ rfl).1 true rfl,
    (C43_string (j := 1) hd (demo_doc (src := b!"{\"S\":\"\\\"hi\\\"\"}") (by decide)).2 (zero_dest hd) ?_ rfl).1 b!"hi" rfl (by decide)⟩
  · exact ⟨b!"B", by simp only [KeyIs]; exact .plain (by decide) .nil, by simp only [SelectsField]; exact .exact (.here rfl)⟩
  · exact ⟨b!"S", by simp only [KeyIs]; exact .plain (by decide) .nil, by simp only [SelectsField]; exact .exact (.there (by decide) (.here rfl))⟩

/-! ## Unmarshalers: C41, C42 -/

/-- **C41, partial** (missing: methods of pointer and interface types, which panic: `C41_refuted`; positions inside other types are `C41_inside`): `UnmarshalJSON` is called with exactly the text of the value, from its first to its last byte.
The destination holds what the method made of it; its error becomes the error of `Decode`, at the index of the value. -/
theorem C41_unmarshalJSON_partial {x : Ext} {rt : TypeId} {n : Nat} {d : Decoder} (hd : DecoderFor x (.jsonU rt n true) d) {src : Bytes} {v : JVal} (hw : Wf src v) {mem : Block} {old : Block}
    (hm : Dest x (.jsonU rt n true) mem (.user old)) (o : Option Options) :
    ∀ new e, x.unmarshalJSON rt old (text src v.index v.stop) = (new, e) →
      Returns x (.jsonU rt n true) (decode x d src (.ok v) (some mem) o) (match e with | none => -1 | some _ => (v.index : Int)) (e.map .user) (.user (fit n new)) := by
  intro new e he
  have : decTopV x src o (.jsonU rt n true) v (.user old) = match e with
      | none => .ok (.user (fit n new))
      | some c => .err v.index (.user c) (.user (fit n new)) := by
    simp only [decTopV, decV, jsonV, Safe.slice_extent hw, Safe.innerOK_wf hw, he]
    cases e <;> rfl
  cases e with
  | none => exact returns_ok hd hm trivial this
  | some c => exact returns_err hd hm trivial this

/-- **C41** at any position inside a supported type: the reading of a value of an unmarshaler type is the method call on its text. -/
theorem C41_inside {x : Ext} {rt : TypeId} {n : Nat} {src : Bytes} {v : JVal} (hw : Wf src v) (old : Block) (o : Option Options) :
    decV x src o (.jsonU rt n true) v (.user old) = match x.unmarshalJSON rt old (text src v.index v.stop) with
      | (new, none) => .ok (.user (fit n new))
      | (new, some c) => .err v.index (.user c) (.user (fit n new)) := by
  simp only [decV, jsonV, Safe.slice_extent hw, Safe.innerOK_wf hw]
  obtain ⟨new, e⟩ := x.unmarshalJSON rt old (text src v.index v.stop)
  cases e <;> rfl

/-- The method gets the text `[1, {}]`; it fails on `"bad"`. -/
example : Returns demoX (demoTree 22) (decode demoX (demoDec 22) b!" [1, {}] " (.ok (demoDoc b!" [1, {}] ")) (some (zeros 8)) none) (-1) none (.user (fit 8 [.user b!"[1, {}]"])) ∧
    Returns demoX (demoTree 22) (decode demoX (demoDec 22) b!" \"bad\"" (.ok (demoDoc b!" \"bad\"")) (some (zeros 8)) none) 1 (some (.user 7)) (.user (fit 8 (zeros 8))) := by
  have hd : DecoderFor demoX (demoTree 22) (demoDec 22) := demo_for' (t := 22) (by decide)
  exact ⟨C41_unmarshalJSON_partial hd (demo_doc (src := b!" [1, {}] ") (by decide)).2 (zero_dest hd) none _ none rfl,
    C41_unmarshalJSON_partial hd (demo_doc (src := b!" \"bad\"") (by decide)).2 (zero_dest hd) none _ (some 7) rfl⟩

/-- The full statement of C41 has pointer types with the method, too. -/
def PointerUnmarshalers (x : Ext) : Prop :=
  ∀ (rt : TypeId) (n : Nat) (impl : Bool) (d : Decoder) (src : Bytes) (v : JVal) (mem : Block) (V : Val) (o : Option Options), DecoderFor x (.jsonU rt n impl) d → Wf src v → Dest x (.jsonU rt n impl) mem V →
    decode x d src (.ok v) (some mem) o ≠ none

/-- **C41 is false of the code** for destinations of pointer type: `Decode` panics for `*J` where `*J` has the method. -/
theorem C41_refuted : ¬ PointerUnmarshalers demoX := by
  intro h
  have hd : DecoderFor demoX (.jsonU 23 8 false) (demoDec 23) := demo_for' (t := 23) (by decide)
  exact h 23 8 false _ b!"1" _ _ _ none hd (demo_doc (src := b!"1") (by decide)).2 (zero_dest hd) rfl

/-- **C42**: `UnmarshalText` is called with the unescaped text of a JSON string; null has no effect; every other value is rejected with ErrUnexpectedValue at its index, without effect. -/
theorem C42_unmarshalText {x : Ext} {rt : TypeId} {n : Nat} {d : Decoder} (hd : DecoderFor x (.textU rt n true) d) {src : Bytes} {v : JVal} (hw : Wf src v) {mem : Block} {old : Block}
    (hm : Dest x (.textU rt n true) mem (.user old)) (o : Option Options) :
    (∀ i e out new er, v = .str i e → Denotes (inner src i e) out → x.unmarshalText rt old out = (new, er) →
      Returns x (.textU rt n true) (decode x d src (.ok v) (some mem) o) (match er with | none => -1 | some _ => (i : Int)) (er.map .user) (.user (fit n new))) ∧
    (∀ i e, v = .null i e → Returns x (.textU rt n true) (decode x d src (.ok v) (some mem) o) (-1) none (.user old)) ∧
    ((∀ i e, v ≠ .str i e) → (∀ i e, v ≠ .null i e) → Returns x (.textU rt n true) (decode x d src (.ok v) (some mem) o) v.index (some .unexpectedValue) (.user old)) := by
  refine ⟨?_, ?_, ?_⟩
  · rintro i e out new er rfl hden he
    have : decTopV x src o (.textU rt n true) (.str i e) (.user old) = match er with
        | none => .ok (.user (fit n new))
        | some c => .err i (.user c) (.user (fit n new)) := by
      simp only [decTopV, decV, leaf, Doc.slice_inner hw, onString, C09_unescape _ _ hden, actV, textCall, he, JVal.index]
      cases er <;> rfl
    cases er with
    | none => exact returns_ok hd hm trivial this
    | some c => exact returns_err hd hm trivial this
  · rintro i e rfl
    exact returns_ok hd hm trivial (by simp [decTopV, decV, leaf, onNull, actV])
  · intro h1 h2
    refine returns_err hd hm trivial ?_
    cases v with
    | str i e => exact absurd rfl (h1 i e)
    | null i e => exact absurd rfl (h2 i e)
    | bool b i e => simp [decTopV, decV, leaf, onBool, actV]
    | num b i e => cases b <;> simp [decTopV, decV, leaf, Doc.slice_text hw.1 hw.2.1, onInteger, onNumber, actV]
    | arr i es k => simp [decTopV, decV, leaf, actV]
    | obj i es k => simp [decTopV, decV, leaf, actV]

example : Returns demoX (demoTree 33) (decode demoX (demoDec 33) b!"\"a\\n\"" (.ok (demoDoc b!"\"a\\n\"")) (some (zeros 8)) none) (-1) none (.user (fit 8 [.user [97, 10]])) ∧
    Returns demoX (demoTree 33) (decode demoX (demoDec 33) b!"{}" (.ok (demoDoc b!"{}")) (some (zeros 8)) none) 0 (some .unexpectedValue) (.user (zeros 8)) := by
  have hd : DecoderFor demoX (demoTree 33) (demoDec 33) := demo_for' (t := 33) (by decide)
  exact ⟨(C42_unmarshalText hd (demo_doc (src := b!"\"a\\n\"") (by decide)).2 (zero_dest hd) none).1 0 5 [97, 10] _ none rfl (.plain (by decide) (.esc (by decide) .nil)) rfl,
    (C42_unmarshalText hd (demo_doc (src := b!"{}") (by decide)).2 (zero_dest hd) none).2.2 (fun _ _ h => by cases h) (fun _ _ h => by cases h)⟩

/-! ## Floats: C44, C50 -/

/-- What Go guarantees about integer parsing, conversion of integers to floats and float parsing: small integers are exactly representable, so parsing and converting agree. `-0` is left out: it parses as negative zero, which no integer converts to. -/
structure FloatContract (x : Ext) : Prop where
  tok32 : ∀ s v, IsIntLit s v → -2 ^ 31 ≤ v → v < 2 ^ 31 → x.tokInt32 s = .ok v
  tok64 : ∀ s v, IsIntLit s v → -2 ^ 63 ≤ v → v < 2 ^ 63 → x.tokInt64 s = .ok v
  exact32 : ∀ s v, IsIntLit s v → v.natAbs < 2 ^ 24 → s ≠ b!"-0" → x.parseFloat32 s = .ok (x.f32OfInt v)
  exact64 : ∀ s v, IsIntLit s v → v.natAbs < 2 ^ 53 → s ≠ b!"-0" → x.parseFloat64 s = .ok (x.f64OfInt v)

/-- The float parser of a kind: `strconv.ParseFloat` with its bit size. -/
def floatParser (x : Ext) : FKind → Bytes → Except Nat Flt
  | .f32 => x.parseFloat32
  | .f64 => x.parseFloat64

theorem integer_intLit {s : Bytes} (h : IsInteger s) : ∃ v, IsIntLit s v := by
  obtain ⟨sg, i, rfl, h1, h2⟩ := h
  rcases h1 with rfl | rfl
  · exact ⟨_, .pos h2⟩
  · exact ⟨_, .neg h2⟩

theorem intFlt_eq {x : Ext} (hx : FloatContract x) (k : FKind) {s : Bytes} {v : Int} (h : IsIntLit s v) (hz : s ≠ b!"-0") : intFlt x k s = floatParser x k s := by
  obtain ⟨b1, b2⟩ := C44_short_literals_exact s v h
  cases k with
  | f32 =>
    simp only [intFlt, floatParser]
    split
    · rename_i hl
      have := b1 hl
      rw [hx.tok32 s v h (by omega) (by omega), hx.exact32 s v h this hz]; rfl
    · rfl
  | f64 =>
    simp only [intFlt, floatParser]
    split
    · rename_i hl
      have := b2 hl
      rw [hx.tok64 s v h (by omega) (by omega), hx.exact64 s v h this hz]; rfl
    · rfl

/-- **C44**: a number token other than `-0` into a float destination gives exactly what `strconv.ParseFloat` gives on the text of the token, although short integers take a fast path. -/
theorem C44_float {x : Ext} (hx : FloatContract x) {k : FKind} {d : Decoder} (hd : DecoderFor x (.scalar (.flt k)) d) {src : Bytes} {b : Bool} {i e : Nat} (hw : Wf src (.num b i e))
    (hz : text src i e ≠ b!"-0") {mem : Block} {V : Val} (hm : Dest x (.scalar (.flt k)) mem V) (o : Option Options) :
    (∀ f, floatParser x k (text src i e) = .ok f → Returns x (.scalar (.flt k)) (decode x d src (.ok (.num b i e)) (some mem) o) (-1) none (.flt f)) ∧
    (∀ c, floatParser x k (text src i e) = .error c → Returns x (.scalar (.flt k)) (decode x d src (.ok (.num b i e)) (some mem) o) i (some (.parse c)) V) := by
  have hlf : decTopV x src o (.scalar (.flt k)) (.num b i e) V = actV i (.flt 0) none V (storeFlt ((SKind.flt k).bytes x) (floatParser x k (text src i e))) := by
    have hp : parseFlt x k = floatParser x k := by cases k <;> rfl
    cases b with
    | false => simp only [decTopV, decV, leafV, leaf, Ty.etype, Doc.slice_text hw.1 hw.2.1, JVal.index, zeroV, zeroS, onNumber, hp]
    | true =>
      obtain ⟨v, hv⟩ := integer_intLit (hw.2.2.2.1 rfl)
      simp only [decTopV, decV, leafV, leaf, Ty.etype, Doc.slice_text hw.1 hw.2.1, JVal.index, zeroV, zeroS, onInteger, intFlt_eq hx k hv hz]
  constructor
  · intro f hf
    exact returns_ok hd hm trivial (by rw [hlf, hf]; rfl)
  · intro c hc
    exact returns_err hd hm trivial (by rw [hlf, hc]; rfl)

theorem digits_all {s : Bytes} (h : IsNatLit s) : s.all (fun c => decide (IsDigit c)) = true := by
  cases h with
  | zero => decide
  | cons h1 _ h3 => simp only [List.all_cons, Bool.and_eq_true, decide_eq_true_eq, List.all_eq_true]; exact ⟨h1, h3⟩

theorem demoInt_lit {s : Bytes} {v : Int} (h : IsIntLit s v) : demoInt s = .ok v := by
  cases h with
  | pos hn =>
    have := digits_all hn
    unfold demoInt
    split
    · rename_i t
      simp only [List.all_cons, Bool.and_eq_true, decide_eq_true_eq] at this
      exact absurd this.1 (by decide)
    · rw [if_pos this]
  | neg hn => simp only [demoInt, if_pos (digits_all hn)]

/-- The stand-ins of the example program satisfy the contract. -/
theorem demo_floats : FloatContract demoX := by
  have key : ∀ s v, IsIntLit s v → demoFloat s = .ok v.natAbs := by
    intro s v h
    have : s ≠ b!"1e999" := by
      rintro rfl
      have := (Doc.isIntegerB_iff _).2 (intLit_integer h)
      revert this
      decide
    simp only [demoFloat, if_neg this, demoInt_lit h, Except.map]
  exact ⟨fun s v h _ _ => demoInt_lit h, fun s v h _ _ => demoInt_lit h, fun s v h _ _ => key s v h, fun s v h _ _ => key s v h⟩

example : Returns demoX (.scalar (.flt .f64)) (decode demoX (demoDec 29) b!"-15" (.ok (.num true 0 3)) (some (zeros 8)) none) (-1) none (.flt 15) ∧
    Returns demoX (.scalar (.flt .f64)) (decode demoX (demoDec 29) b!"1e999" (.ok (.num false 0 5)) (some (zeros 8)) none) 0 (some (.parse 2)) (.flt 0) := by
  have hd : DecoderFor demoX (.scalar (.flt .f64)) (demoDec 29) := demo_for' (t := 29) (by decide)
  exact ⟨(C44_float demo_floats hd (src := b!"-15") (demo_doc (src := b!"-15") (by decide)).2 (by decide) (zero_dest hd) none).1 15 rfl,
    (C44_float demo_floats hd (src := b!"1e999") (demo_doc (src := b!"1e999") (by decide)).2 (by decide) (zero_dest hd) none).2 2 rfl⟩

/-- The full statement of C50: `-0` into a float keeps its sign, that is, it gives what `strconv.ParseFloat` gives. -/
def NegativeZero (x : Ext) : Prop :=
  ∀ (d : Decoder) (src : Bytes) (i e : Nat) (mem : Block) (V : Val) (f : Flt), DecoderFor x (.scalar (.flt .f64)) d → Wf src (.num true i e) → text src i e = b!"-0" → Dest x (.scalar (.flt .f64)) mem V →
    x.parseFloat64 b!"-0" = .ok f → Returns x (.scalar (.flt .f64)) (decode x d src (.ok (.num true i e)) (some mem) none) (-1) none (.flt f)

/-- Conversion of an integer to a float of a kind. -/
def floatOfInt (x : Ext) : FKind → Int → Flt
  | .f32 => x.f32OfInt
  | .f64 => x.f64OfInt

/-- What the code does instead: `-0` becomes the conversion of the integer 0, positive zero. -/
theorem C50_negative_zero {x : Ext} (hx : FloatContract x) {k : FKind} {d : Decoder} (hd : DecoderFor x (.scalar (.flt k)) d) {src : Bytes} {i e : Nat} (hw : Wf src (.num true i e))
    (hz : text src i e = b!"-0") {mem : Block} {V : Val} (hm : Dest x (.scalar (.flt k)) mem V) (o : Option Options) :
    Returns x (.scalar (.flt k)) (decode x d src (.ok (.num true i e)) (some mem) o) (-1) none (.flt (floatOfInt x k 0)) := by
  have hl : IsIntLit b!"-0" 0 := .neg .zero
  refine returns_ok hd hm trivial ?_
  simp only [decTopV, decV, leafV, leaf, Ty.etype, Doc.slice_text hw.1 hw.2.1, hz, onInteger, intFlt]
  cases k with
  | f32 => rw [if_pos (by decide), hx.tok32 _ 0 hl (by decide) (by decide)]; rfl
  | f64 => rw [if_pos (by decide), hx.tok64 _ 0 hl (by decide) (by decide)]; rfl

/-- **C50 is false of the code** in every program in which parsing `-0` differs from converting 0, as in Go, where the first is negative zero. -/
theorem C50_refuted {x : Ext} (hx : FloatContract x) {d : Decoder} (hd : DecoderFor x (.scalar (.flt .f64)) d) {f : Flt} (hf : x.parseFloat64 b!"-0" = .ok f) (hne : f ≠ x.f64OfInt 0) : ¬ NegativeZero x := by
  intro h
  have hw : Wf b!"-0" (.num true 0 2) := (demo_doc (src := b!"-0") (by decide)).2
  obtain ⟨r, m, h1, -, -, h4, h5⟩ := h d b!"-0" 0 2 (zeros 8) (.flt 0) f hd hw rfl (zero_dest hd) hf
  obtain ⟨r', m', h1', -, -, h4', h5'⟩ := C50_negative_zero hx hd hw rfl (zero_dest hd) none
  change decode x d b!"-0" (.ok (.num true 0 2)) (some (zeros 8)) none = some r' at h1'
  rw [h1, Option.some.injEq] at h1'
  subst h1'
  rw [h4, Option.some.injEq] at h4'
  subst h4'
  have e1 := h5.2
  have e2 := h5'.2
  simp only [Holds, HoldsS] at e1 e2
  rcases e1.2 with ⟨a1, b1⟩ | ⟨g, a1, b1⟩ <;> rcases e2.2 with ⟨a2, b2⟩ | ⟨g', a2, b2⟩ <;> rw [a1] at a2 <;> simp only [Option.some.injEq, Cell.flt.injEq, reduceCtorEq] at a2
  · exact hne (by simpa [floatOfInt] using b1.trans b2.symm)
  · exact hne (by rw [← a2] at b2; simpa [floatOfInt] using b1.trans b2.symm)

/-- The example program with a float parser that keeps the sign of zero. -/
def demoZ : Ext := { demoX with parseFloat64 := fun s => if s = b!"-0" then .ok (2 ^ 63) else demoFloat s }

example : ¬ NegativeZero demoZ := by
  have hl : Layout demoEnv demoZ := demo_layout
  have ho : true = true → ∃ o, some defaultInitOptions = some o ∧ o.disallowStringTagOptOnUnsupportedTypes = false := fun _ => ⟨_, rfl, rfl⟩
  have ht : typeTree demoEnv true 20 [] 29 = some (.scalar (.flt .f64), []) := rfl
  obtain ⟨d, hd, -⟩ := Reads.newDecoder_ready hl ho ht
  refine C50_refuted (x := demoZ) ⟨demo_floats.tok32, demo_floats.tok64, demo_floats.exact32, ?_⟩ (d := d) ⟨demoEnv, some defaultInitOptions, 20, some 29, d, ⟨hl, true, _, ho, ht⟩, hd, .new⟩ (f := 2 ^ 63) rfl (by decide)
  intro s v h hv hz
  have := demo_floats.exact64 s v h hv hz
  show (if s = b!"-0" then _ else _) = _
  rw [if_neg hz]; exact this

end Verif.Props
