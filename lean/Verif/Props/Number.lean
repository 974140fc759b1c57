import Verif.Model.Number
import Verif.Proof.Number
import Verif.Props.Scalars
import Verif.Proof.Unique
/-!
# C59: the methods of `Number`
-/
namespace Verif.Props
open Verif Verif.Model Verif.Spec Verif.Big Verif.Proof Verif.Proof.Outcome Verif.Proof.Unique Verif.Proof.Demo

/-- `Number.Int64` answers `v` for the integer literals that fit, the nearest `int64` and a range error for those that do not. -/
def Int64Is (n : Str) (v : Int) : Prop :=
  (-2 ^ 63 ≤ v ∧ v < 2 ^ 63 → numberInt64 n = (v, none)) ∧
  (v < -2 ^ 63 → numberInt64 n = (-2 ^ 63, some .range)) ∧
  (2 ^ 63 ≤ v → numberInt64 n = (2 ^ 63 - 1, some .range))

theorem int64_lit {n : Str} {v : Int} (h : IsIntLit n.bytes v) : Int64Is n v := by
  obtain ⟨s, b⟩ := n
  simp only at h
  cases h with
  | pos h =>
    refine ⟨fun hv => ?_, fun hv => ?_, fun hv => ?_⟩ <;> simp only [numberInt64, Number.int_pos h]
    · rw [if_pos (by omega)]
    · omega
    · rw [if_neg (by omega)]
  | @neg s h =>
    refine ⟨fun hv => ?_, fun hv => ?_, fun hv => ?_⟩ <;> simp only [numberInt64, Number.int_neg h]
    · rw [if_pos (by omega)]
    · rw [if_neg (by omega)]
    · omega

/-- **C59**: a number literal decoded into a `Number`: `String` returns the literal; `Int64` returns its value exactly if it is an integer literal within `int64`, the nearest `int64` and a range error if it is an integer out of
range, and an error if it has a fraction or an exponent; `Float64` is `strconv.ParseFloat` of the literal. -/
theorem C59_methods {x : Ext} {d : Decoder} (hd : DecoderFor x .number d) {src : Bytes} {b : Bool} {i e : Nat} (hw : Wf src (.num b i e)) {mem : Block} {V : Val} (hm : Dest x .number mem V)
    (o : Option Options) : ∃ n, Returns x .number (decode x d src (.ok (.num b i e)) (some mem) o) (-1) none (.str n) ∧
      (numberString n).bytes = text src i e ∧
      (∀ v, IsIntLit (text src i e) v → Int64Is n v) ∧
      (¬ IsInteger (text src i e) → ∃ w err, numberInt64 n = (w, some err)) ∧
      numberFloat64 x n = x.parseFloat64 (text src i e) := by
  obtain ⟨n, h1, h2⟩ := C08_number hd hw hm o
  refine ⟨n, h1, h2, fun v hv => ?_, fun hi => ?_, by rw [numberFloat64, h2]⟩
  · rw [← h2] at hv
    exact int64_lit hv
  · rw [numberInt64, h2]
    exact Number.int_other hw.2.2.1 hi

/-- **C59**, agreement with decoding directly: `Int64` of the `Number` succeeds with `v` exactly if the same literal decoded into an `int64` gives `v`. -/
theorem C59_int64 {x : Ext} {d di : Decoder} (hd : DecoderFor x .number d) (hdi : DecoderFor x (.scalar (.int .i64)) di) {src : Bytes} {b : Bool} {i e : Nat} (hw : Wf src (.num b i e)) {mem memi : Block} {V Vi : Val}
    (hm : Dest x .number mem V) (hmi : Dest x (.scalar (.int .i64)) memi Vi) (o : Option Options) :
    ∃ n, Returns x .number (decode x d src (.ok (.num b i e)) (some mem) o) (-1) none (.str n) ∧
      ∀ v, numberInt64 n = (v, none) ↔ Returns x (.scalar (.int .i64)) (decode x di src (.ok (.num b i e)) (some memi) o) (-1) none (.int v) := by
  obtain ⟨n, h1, h2, h3, h4, -⟩ := C59_methods hd hw hm o
  refine ⟨n, h1, fun v => ?_⟩
  cases b with
  | false =>
    obtain ⟨w, err, he⟩ := h4 (fun hi => by have := hw.2.2.2.2 hi; cases this)
    have hr := C04_fraction hdi hw hmi o
    constructor
    · intro h; rw [he] at h; cases h
    · intro h; have := (returns_unique h hr).2.1; cases this
  | true =>
    obtain ⟨w, hl⟩ := integer_intLit (hw.2.2.2.1 rfl)
    obtain ⟨g1, g2, g3⟩ := h3 w hl
    obtain ⟨r1, r2⟩ := C02_signed64 (.inl rfl) hdi hw hl hmi o
    by_cases hr : -2 ^ 63 ≤ w ∧ w < 2 ^ 63
    · rw [g1 hr]
      constructor
      · intro h; cases h; exact r1 hr
      · intro h; have := (returns_unique h (r1 hr)).2.2; cases this; rfl
    · have hne := r2 (by omega)
      constructor
      · intro h
        rcases Int.lt_or_le w (-2 ^ 63) with hlo | hhi
        · rw [g2 hlo] at h; cases h
        · rw [g3 (by omega)] at h; cases h
      · intro h; have := (returns_unique h hne).2.1; cases this

/-- **C59**, agreement with decoding directly: `Float64` of the `Number` is what decoding the literal into a `float64` gives, errors included (`-0` left out, see C50). -/
theorem C59_float64 {x : Ext} (hx : FloatContract x) {d df : Decoder} (hd : DecoderFor x .number d) (hdf : DecoderFor x (.scalar (.flt .f64)) df) {src : Bytes} {b : Bool} {i e : Nat} (hw : Wf src (.num b i e))
    (hz : text src i e ≠ b!"-0") {mem memf : Block} {V Vf : Val} (hm : Dest x .number mem V) (hmf : Dest x (.scalar (.flt .f64)) memf Vf) (o : Option Options) :
    ∃ n, Returns x .number (decode x d src (.ok (.num b i e)) (some mem) o) (-1) none (.str n) ∧
      (∀ f, numberFloat64 x n = .ok f → Returns x (.scalar (.flt .f64)) (decode x df src (.ok (.num b i e)) (some memf) o) (-1) none (.flt f)) ∧
      (∀ c, numberFloat64 x n = .error c → Returns x (.scalar (.flt .f64)) (decode x df src (.ok (.num b i e)) (some memf) o) i (some (.parse c)) Vf) := by
  obtain ⟨n, h1, h2⟩ := C08_number hd hw hm o
  obtain ⟨g1, g2⟩ := C44_float hx hdf hw hz hmf o
  exact ⟨n, h1, fun f hf => g1 f (by rw [numberFloat64, h2] at hf; exact hf), fun c hc => g2 c (by rw [numberFloat64, h2] at hc; exact hc)⟩

/-- `9223372036854775807`, `-9223372036854775809` and `1.5` decoded into a `Number`, and `Int64` of them. -/
example : (∃ n, Returns demoX .number (decode demoX (demoDec 32) b!"9223372036854775807" (.ok (.num true 0 19)) (some (zeros 16)) none) (-1) none (.str n) ∧ numberInt64 n = (9223372036854775807, none)) ∧
    (∃ n, Returns demoX .number (decode demoX (demoDec 32) b!"-9223372036854775809" (.ok (.num true 0 20)) (some (zeros 16)) none) (-1) none (.str n) ∧ numberInt64 n = (-9223372036854775808, some .range)) ∧
    ∃ n w err, Returns demoX .number (decode demoX (demoDec 32) b!"1.5" (.ok (.num false 0 3)) (some (zeros 16)) none) (-1) none (.str n) ∧ numberInt64 n = (w, some err) := by
  have hd : DecoderFor demoX .number (demoDec 32) := demo_for' (t := 32) (by decide)
  refine ⟨?_, ?_, ?_⟩
  · obtain ⟨n, h1, -, h3, -⟩ := C59_methods hd (demo_doc (src := b!"9223372036854775807") (by decide)).2 (zero_dest hd) none
    exact ⟨n, h1, (h3 9223372036854775807 (.pos (.cons (by decide) (by decide) (by decide)))).1 (by decide)⟩
  · obtain ⟨n, h1, -, h3, -⟩ := C59_methods hd (demo_doc (src := b!"-9223372036854775809") (by decide)).2 (zero_dest hd) none
    exact ⟨n, h1, (h3 (-9223372036854775809) (.neg (.cons (by decide) (by decide) (by decide)))).2.1 (by decide)⟩
  · have hw : Wf b!"1.5" (.num false 0 3) := (demo_doc (src := b!"1.5") (by decide)).2
    obtain ⟨n, h1, -, -, h4, -⟩ := C59_methods hd hw (zero_dest hd) none
    obtain ⟨w, err, h5⟩ := h4 (fun hi => by have := hw.2.2.2.2 hi; cases this)
    exact ⟨n, w, err, h1, h5⟩

end Verif.Props
