import Verif.Props.Decode
import Verif.Proof.Safe
/-!
# `Decode` does not panic: C24, C06

`decode = none` stands for a panic or an access to memory outside the destination and the memory the decoder allocated.
-/
namespace Verif.Props
open Verif.Model Verif.Spec Verif.Big Verif.Proof Verif.Proof.Reads Verif.Proof.Demo

/-- The full statement of C24: a new decoder for any type never panics on a well-formed document, decoding into a zero value. -/
def NeverPanics (x : Ext) : Prop :=
  ∀ (env : TypeEnv) (opts : Option InitOptions) (depth : Nat) (t : TypeId) (d : Decoder), Layout env x → newDecoder env x.W opts depth (some t) = .ok d →
    ∀ (src : Bytes) (v : JVal) (o : Options), tokenize src = .ok v → Wf src v → decode x d src (.ok v) (some (zeros (env t).size)) (some o) ≠ none

/-- **C24, partial**: on a well-formed document `Decode` returns and leaves the destination with a value of its type, provided that the document does not reach one of the spots where the code leaves the document (`TameDoc`),
unmarshaler methods are callable, options are given, and no empty string or key is read as a number. Missing: recursive types (`Props/RecMore`), and what the conditions exclude, where it is false
(`C24_refuted`, `C24_refuted_empty`, `C24_refuted_pointer`). -/
theorem C24_safe_partial {x : Ext} {ty : Ty} {d : Decoder} (hd : DecoderFor x ty d) {src : Bytes} {v : JVal} (hw : Wf src v) {mem : Block} {V : Val} (hm : Dest x ty mem V)
    {o : Options} (ht : TameDoc x src (some o) ty v) (hc : ty.callable = true) (hq : ty.noQuotedNum = true ∨ noEmptyStr v = true) :
    ∃ i e V', Returns x ty (decode x d src (.ok v) (some mem) (some o)) i e V' := by
  have h := C25_reading_partial hd hm ht
  have hs := Safe.decTopV_safe (x := x) (o := o) ty (Safe.holds_typed ty hm.2) hw hc hq
  cases hr : decTopV x src (some o) ty v V <;> rw [hr] at h hs
  · exact ⟨_, _, _, h⟩
  · exact ⟨_, _, _, h⟩
  · exact hs.elim
  · exact h.elim

/-- **C24** for types without inner pointers, `struct{}` and unsupported map keys, with DisallowUnknownFields: every well-formed document. -/
theorem C24_safe_strict {x : Ext} {ty : Ty} (hp : ty.plain = true) {d : Decoder} (hd : DecoderFor x ty d) {src : Bytes} {v : JVal} (hw : Wf src v) {mem : Block} {V : Val}
    (hm : Dest x ty mem V) {o : Options} (ho : o.disallowUnknownFields = true) (hc : ty.callable = true) (hq : ty.noQuotedNum = true) :
    ∃ i e V', Returns x ty (decode x d src (.ok v) (some mem) (some o)) i e V' := by
  refine C24_safe_partial hd hw hm ?_ hc (.inl hq)
  have : Tame x src (some o) ty v := Fragment.tame_strict (fun o' h => by cases h; exact ho) ty hp v
  cases ty <;> first | exact this | simp [Ty.plain] at hp

/-- The document `everything` meets all hypotheses. -/
example : ∃ i e V', Returns demoX (demoTree 45) (decode demoX (demoDec 45) everything (.ok (demoDoc everything)) (some (zeros 120)) (some defaultOptions)) i e V' := by
  obtain ⟨hd, hm, h1, h2, ht⟩ := demo_case (t := 45) (src := everything) (o := defaultOptions) (by decide) (by decide) (by decide)
  exact C24_safe_partial hd h2 hm ht (by decide) (.inl (by decide))

/-- **C24 is false of the code**: `struct{Foo int}` and the document `{"unknown":[{}]}`, default options. -/
theorem C24_refuted : ¬ NeverPanics demoX := by
  intro h
  have hdoc := demo_doc (src := b!"{\"unknown\":[{}]}") (by decide)
  refine h demoEnv (some defaultInitOptions) 20 6 (demoDec 6) demo_layout rfl b!"{\"unknown\":[{}]}" _ defaultOptions hdoc.1 hdoc.2 ?_
  exact rfl

/-- The same failure without an unknown key: an empty string for a `Number`. -/
theorem C24_refuted_empty : ¬ NeverPanics demoX := by
  intro h
  have hdoc := demo_doc (src := b!"\"\"") (by decide)
  exact h demoEnv (some defaultInitOptions) 20 32 (demoDec 32) demo_layout rfl b!"\"\"" _ defaultOptions hdoc.1 hdoc.2 rfl

/-- And for a type `*J` where `*J` implements json.Unmarshaler: every value panics. -/
theorem C24_refuted_pointer : ¬ NeverPanics demoX := by
  intro h
  have hdoc := demo_doc (src := b!"1") (by decide)
  exact h demoEnv (some defaultInitOptions) 20 23 (demoDec 23) demo_layout rfl b!"1" _ defaultOptions hdoc.1 hdoc.2 rfl

/-! ## C06 -/

/-- The full statement of C06: a JSON string decoded into a `Number`, into a number field with the `string` option, or used as integer map key never makes `Decode` panic. -/
def QuotedNumbersSafe (x : Ext) : Prop :=
  ∀ (ty : Ty) (d : Decoder) (src : Bytes) (v : JVal) (mem : Block) (V : Val) (o : Options), DecoderFor x ty d → Wf src v → Dest x ty mem V → ty.plain = true → ty.callable = true → o.disallowUnknownFields = true →
    decode x d src (.ok v) (some mem) (some o) ≠ none

/-- **C06, partial** (missing: empty strings and keys, where it is false): types that read quoted numbers anywhere. -/
theorem C06_quoted_partial {x : Ext} {ty : Ty} (hp : ty.plain = true) {d : Decoder} (hd : DecoderFor x ty d) {src : Bytes} {v : JVal} (hw : Wf src v) {mem : Block} {V : Val}
    (hm : Dest x ty mem V) {o : Options} (ho : o.disallowUnknownFields = true) (hc : ty.callable = true) (he : noEmptyStr v = true) :
    decode x d src (.ok v) (some mem) (some o) ≠ none := by
  have ht : Tame x src (some o) ty v := Fragment.tame_strict (fun o' h => by cases h; exact ho) ty hp v
  obtain ⟨i, e, V', r, m, h, -⟩ := C24_safe_partial hd hw hm (by cases ty <;> first | exact ht | simp [Ty.plain] at hp) hc (.inr he)
  rw [h]; exact Option.some_ne_none _

/-- **C06 is false of the code**: `""` into a `Number`. -/
theorem C06_refuted : ¬ QuotedNumbersSafe demoX := by
  intro h
  have hd := demo_for' (t := 32) (by decide)
  exact h (demoTree 32) _ b!"\"\"" _ _ _ ⟨true, false, false⟩ hd (demo_doc (src := b!"\"\"") (by decide)).2 (zero_dest hd) (by decide) (by decide) rfl rfl

/-- Likewise `{"n":""}` into ``struct{N int `json:"n,string"`}`` and `{"":{}}` into a `map[int]…`. -/
theorem C06_refuted_other : demoDecode (demoDec 25) b!"{\"n\":\"\"}" (zeros 8) = none ∧ demoDecode (demoDec 31) b!"{\"\":{}}" (zeros 8) = none := ⟨rfl, rfl⟩

end Verif.Props
