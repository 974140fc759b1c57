import Verif.Proof.UnknownRight
import Verif.Props.Right
import Verif.Proof.StrictRun
import Verif.Proof.Demo
import Verif.Proof.Unique
/-!
# DisallowUnknownFields: C32

The theorems with suffix `_partial` are about non-recursive types away from the spots outside `Right`; `C32_always` is about all types and documents. Recursive types: `Props/RecMore`.
-/
namespace Verif.Props
open Verif.Model Verif.Spec Verif.Big Verif.Proof Verif.Proof.Demo Verif.Proof.Outcome Verif.Proof.Unique Verif.Proof.Unknown

/-- The call panics iff the reading does. -/
theorem none_iff {x : Ext} {ty : Ty} {d : Decoder} (hd : DecoderFor x ty d) {src : Bytes} {v : JVal} {mem : Block} {V : Val} (hm : Dest x ty mem V)
    {o : Option Options} (ht : TameDoc x src o ty v) : decode x d src (.ok v) (some mem) o = none ↔ decTopV x src o ty v V = .crash := by
  have h := C25_reading_partial hd hm ht
  cases hv : decTopV x src o ty v V with
  | ok V' =>
    rw [hv] at h
    obtain ⟨r, m, h1, -⟩ := h
    simp [h1]
  | err i e V' =>
    rw [hv] at h
    obtain ⟨r, m, h1, -⟩ := h
    simp [h1]
  | crash => rw [hv] at h; simp [h]
  | unsup => rw [hv] at h; exact h.elim

theorem returns_iff {x : Ext} {ty : Ty} {d : Decoder} (hd : DecoderFor x ty d) {src : Bytes} {v : JVal} {mem : Block} {V : Val} (hm : Dest x ty mem V)
    {o : Option Options} (ht : TameDoc x src o ty v) {i : Int} {e : Option Err} {V' : Val} : Returns x ty (decode x d src (.ok v) (some mem) o) i e V' ↔
    (i = -1 ∧ e = none ∧ decTopV x src o ty v V = .ok V') ∨ ∃ (n : Nat) (er : Err), i = n ∧ e = some er ∧ decTopV x src o ty v V = .err n er V' := by
  constructor
  · intro h
    obtain ⟨r, m, h1, h2, h3, h4, h5⟩ := id h
    cases e with
    | none =>
      obtain ⟨V'', m', g1, g2, g3, g4⟩ := ok_inv hd hm ht h1 h3
      rw [h4] at g3; cases g3
      have := holds_unique _ h5.2 g4.2
      subst this
      exact .inl ⟨h2 ▸ g2, rfl, g1⟩
    | some e =>
      obtain ⟨i', V'', m', g1, g2, g3, g4⟩ := err_inv hd hm ht h1 h3
      rw [h4] at g3; cases g3
      have := holds_unique _ h5.2 g4.2
      subst this
      exact .inr ⟨i', e, h2 ▸ g2, rfl, g1⟩
  · rintro (⟨rfl, rfl, h⟩ | ⟨n, er, rfl, rfl, h⟩)
    · exact returns_ok hd hm ht h
    · exact returns_err hd hm ht h

/-- The same on `RightDoc`. -/
theorem right_none_iff {x : Ext} {ty : Ty} {d : Decoder} (hd : DecoderFor x ty d) {src : Bytes} {v : JVal} (hw : Wf src v) {mem : Block} {V : Val} (hm : Dest x ty mem V)
    {o : Option Options} (ht : RightDoc x src o ty v) : decode x d src (.ok v) (some mem) o = none ↔ decPV x src o ty v V = .crash := by
  have h := C35_reading_partial hd hw hm ht
  cases hv : decPV x src o ty v V with
  | ok V' =>
    rw [hv] at h
    obtain ⟨r, m, h1, -⟩ := h
    simp [h1]
  | err i e V' =>
    rw [hv] at h
    obtain ⟨r, m, h1, -⟩ := h
    simp [h1]
  | crash => rw [hv] at h; simp [h]
  | unsup => rw [hv] at h; exact h.elim

theorem right_returns_iff {x : Ext} {ty : Ty} {d : Decoder} (hd : DecoderFor x ty d) {src : Bytes} {v : JVal} (hw : Wf src v) {mem : Block} {V : Val} (hm : Dest x ty mem V)
    {o : Option Options} (ht : RightDoc x src o ty v) {i : Int} {e : Option Err} {V' : Val} : Returns x ty (decode x d src (.ok v) (some mem) o) i e V' ↔
    (i = -1 ∧ e = none ∧ decPV x src o ty v V = .ok V') ∨ ∃ (n : Nat) (er : Err), i = n ∧ e = some er ∧ decPV x src o ty v V = .err n er V' := by
  have h := C35_reading_partial hd hw hm ht
  cases hv : decPV x src o ty v V with
  | ok W =>
    rw [hv] at h
    constructor
    · intro h'
      obtain ⟨rfl, rfl, rfl⟩ := returns_unique h h'
      exact .inl ⟨rfl, rfl, rfl⟩
    · rintro (⟨rfl, rfl, h'⟩ | ⟨n, er, rfl, rfl, h'⟩) <;> cases h'
      exact h
  | err j er W =>
    rw [hv] at h
    constructor
    · intro h'
      obtain ⟨rfl, rfl, rfl⟩ := returns_unique h h'
      exact .inr ⟨_, _, rfl, rfl, rfl⟩
    · rintro (⟨rfl, rfl, h'⟩ | ⟨n, er, rfl, rfl, h'⟩) <;> cases h'
      exact h
  | crash =>
    rw [hv] at h
    constructor
    · rintro ⟨r, m, h1, -⟩; rw [h] at h1; cases h1
    · rintro (⟨rfl, rfl, h'⟩ | ⟨n, er, rfl, rfl, h'⟩) <;> cases h'
  | unsup => rw [hv] at h; exact h.elim

/-- **C32**, no unknown key: `Decode` does the same with and without DisallowUnknownFields. -/
theorem C32_known_partial {x : Ext} {ty : Ty} {d d' : Decoder} (hd : DecoderFor x ty d) (hd' : DecoderFor x ty d') {src : Bytes} {v : JVal} (hw : Wf src v) {mem : Block} {V : Val} (hm : Dest x ty mem V)
    {o : Options} (hL : UnknownKeys x src o ty v []) (ht : RightDoc x src (some (strict o)) ty v) :
    (∀ i e V', Returns x ty (decode x d src (.ok v) (some mem) (some (strict o))) i e V' ↔ Returns x ty (decode x d' src (.ok v) (some mem) (some (lenient o))) i e V') ∧
    (decode x d src (.ok v) (some mem) (some (strict o)) = none ↔ decode x d' src (.ok v) (some mem) (some (lenient o)) = none) := by
  have ht' := right_to_lenient ty hw hL ht
  have h : decPV x src (some (strict o)) ty v V = decPV x src (some (lenient o)) ty v V := decP_lax ty (Safe.holds_typed ty hm.2) hw hL
  constructor
  · intro i e V'
    rw [right_returns_iff hd hw hm ht, right_returns_iff hd' hw hm ht', h]
  · rw [right_none_iff hd hw hm ht, right_none_iff hd' hw hm ht', h]

/-- **C32**, some unknown key: `Decode` returns ErrUnknownField at the first of them, unless it fails or panics before that, exactly as without DisallowUnknownFields. -/
theorem C32_unknown_partial {x : Ext} {ty : Ty} {d d' : Decoder} (hd : DecoderFor x ty d) (hd' : DecoderFor x ty d') {src : Bytes} {v : JVal} (hw : Wf src v) {mem : Block} {V : Val} (hm : Dest x ty mem V)
    {o : Options} {k : Nat} {L : List Nat} (hL : UnknownKeys x src o ty v (k :: L)) (ht : RightDoc x src (some (lenient o)) ty v) :
    (∃ V', Returns x ty (decode x d src (.ok v) (some mem) (some (strict o))) k (some .unknownField) V') ∨
    (∃ (i : Int) (e : Err) (V' : Val), e ≠ .unknownField ∧ Returns x ty (decode x d src (.ok v) (some mem) (some (strict o))) i (some e) V' ∧
      Returns x ty (decode x d' src (.ok v) (some mem) (some (lenient o))) i (some e) V') ∨
    (decode x d src (.ok v) (some mem) (some (strict o)) = none ∧ decode x d' src (.ok v) (some mem) (some (lenient o)) = none) := by
  have ht' := right_to_strict ty ht
  have h : Lax (k :: L) (decPV x src (some (lenient o)) ty v V) (decPV x src (some (strict o)) ty v V) := decP_lax ty (Safe.holds_typed ty hm.2) hw hL
  rcases h with ⟨V', h⟩ | ⟨h, hn⟩
  · exact .inl ⟨V', (right_returns_iff hd hw hm ht').2 (.inr ⟨_, _, rfl, rfl, h⟩)⟩
  · have hu := decPV_nu (x := x) (src := src) (o := lenient o) rfl ty (v := v) (V := V)
    cases hr : decPV x src (some (lenient o)) ty v V with
    | ok a => exact (hn a hr).elim
    | err i e a =>
      rw [hr] at h hu
      exact .inr (.inl ⟨i, e, a, hu, (right_returns_iff hd hw hm ht').2 (.inr ⟨_, _, rfl, rfl, h⟩), (right_returns_iff hd' hw hm ht).2 (.inr ⟨_, _, rfl, rfl, hr⟩)⟩)
    | crash =>
      rw [hr] at h
      exact .inr (.inr ⟨(right_none_iff hd hw hm ht').2 h, (right_none_iff hd' hw hm ht).2 hr⟩)
    | unsup => have h := C35_reading_partial hd' hw hm ht; rw [hr] at h; exact h.elim

/-- **C32**: in strict mode the index that comes with ErrUnknownField is that of the first unknown key, even if the document leaves the fragment behind that key. -/
theorem C32_index_partial {x : Ext} {ty : Ty} {d : Decoder} (hd : DecoderFor x ty d) {src : Bytes} {v : JVal} (hw : Wf src v) {mem : Block} {V : Val} (hm : Dest x ty mem V)
    {o : Options} {L : List Nat} (hL : UnknownKeys x src o ty v L) (ht : RightDoc x src (some (strict o)) ty v) {i : Int} {V' : Val}
    (h : Returns x ty (decode x d src (.ok v) (some mem) (some (strict o))) i (some .unknownField) V') : ∃ k L', L = k :: L' ∧ i = k := by
  rw [right_returns_iff hd hw hm ht] at h
  rcases h with ⟨-, h, -⟩ | ⟨n, er, rfl, h, h'⟩
  · cases h
  cases h
  have hu := decPV_nu (x := x) (src := src) (o := lenient o) rfl ty (v := v) (V := V)
  have hl : Lax L (decPV x src (some (lenient o)) ty v V) (decPV x src (some (strict o)) ty v V) := decP_lax ty (Safe.holds_typed ty hm.2) hw hL
  cases L with
  | nil =>
    have hl : decPV x src (some (strict o)) ty v V = decPV x src (some (lenient o)) ty v V := hl
    rw [← hl, h'] at hu
    exact (hu rfl).elim
  | cons k L =>
    rcases hl with ⟨a, hl⟩ | ⟨hl, -⟩
    · rw [hl] at h'; cases h'; exact ⟨_, L, rfl, rfl⟩
    · rw [← hl, h'] at hu
      exact (hu rfl).elim

/-- **C32**: if `Decode` succeeds without DisallowUnknownFields, it returns ErrUnknownField at the first unknown key with it. -/
theorem C32_success_partial {x : Ext} {ty : Ty} {d d' : Decoder} (hd : DecoderFor x ty d) (hd' : DecoderFor x ty d') {src : Bytes} {v : JVal} (hw : Wf src v) {mem : Block} {V : Val} (hm : Dest x ty mem V)
    {o : Options} {k : Nat} {L : List Nat} (hL : UnknownKeys x src o ty v (k :: L)) (ht : RightDoc x src (some (lenient o)) ty v) {V' : Val}
    (h : Returns x ty (decode x d' src (.ok v) (some mem) (some (lenient o))) (-1) none V') :
    ∃ V'', Returns x ty (decode x d src (.ok v) (some mem) (some (strict o))) k (some .unknownField) V'' := by
  rcases C32_unknown_partial hd hd' hw hm hL ht with h' | ⟨i, e, W, -, -, h'⟩ | ⟨-, h'⟩
  · exact h'
  · obtain ⟨-, h2, -⟩ := returns_unique h h'; cases h2
  · obtain ⟨r, m, h1, -⟩ := h; rw [h'] at h1; cases h1

/-- Every well-formed document has its list of unknown keys. -/
theorem C32_list {x : Ext} {src : Bytes} {o : Options} (ty : Ty) {v : JVal} (hw : Wf src v) : ∃ L, UnknownKeys x src o ty v L := unknown_exists ty hw

/-- **C32**, for every type (recursive ones included), every history of the decoder, every document and destination: DisallowUnknownFields changes nothing, or `Decode` returns ErrUnknownField at a key. -/
theorem C32_always (x : Ext) (d : Decoder) (src : Bytes) (doc : Except (Nat × Nat) JVal) (t : Option Block) (o : Options) :
    decode x d src doc t (some (strict o)) = decode x d src doc t (some (lenient o)) ∨
    ∃ v r, doc = .ok v ∧ decode x d src doc t (some (strict o)) = some r ∧ r.err = some .unknownField ∧ ∃ i ∈ keyStarts v, r.errIndex = (i : Nat) := by
  unfold decode
  cases t with
  | none => exact .inl rfl
  | some mem =>
    cases doc with
    | error e => exact .inl rfl
    | ok v =>
      cases hf : d.frames with
      | nil => exact .inl rfl
      | cons f0 fs =>
        rcases StrictRun.run_strict (pr := { x := x, src := src, toks := flatten 0 v, frames := f0 :: fs, options := none, epoch := d.calls }) (o := o)
          (fuelFor { x := x, src := src, toks := flatten 0 v, frames := f0 :: fs, options := none, epoch := d.calls }) (initSt d.dyn mem) with h | ⟨t', h1, s', h2, h3⟩
        · left
          simp only [StrictRun.withO, fuelFor] at h
          simp only [fuelFor, h]
        · right
          simp only [StrictRun.withO, fuelFor] at h3
          simp only [fuelFor, h3]
          exact ⟨v, _, rfl, rfl, rfl, t'.index, StrictRun.key_tokens v 0 t' h1 h2, rfl⟩

theorem selects_of {x : Ext} {src : Bytes} {o : Options} {names : List Bytes} {k : Nat × Nat} {j : Nat} {name : Bytes} (hw : WfStr src k.1 k.2) (h : (Model.slice src (k.1 + 1) (k.2 - 1)).bind (keyName o) = some name)
    (hf : findField x o names.zipIdx name = some j) : KeySelects x src o names k j := by
  obtain ⟨n, h1, h2⟩ := is_keyName (o := o) hw
  rw [Doc.slice_inner hw] at h
  have h : keyName o (inner src k.1 k.2) = some name := h
  rw [h2] at h; cases h
  exact ⟨_, h1, selects_iff.1 hf⟩

theorem unknown_of {x : Ext} {src : Bytes} {o : Options} {names : List Bytes} {k : Nat × Nat} {name : Bytes} (hw : WfStr src k.1 k.2) (h : (Model.slice src (k.1 + 1) (k.2 - 1)).bind (keyName o) = some name)
    (hf : findField x o names.zipIdx name = none) : KeyUnknown x src o names k := by
  obtain ⟨n, h1, h2⟩ := is_keyName (o := o) hw
  rw [Doc.slice_inner hw] at h
  have h : keyName o (inner src k.1 k.2) = some name := h
  rw [h2] at h; cases h
  exact ⟨_, h1, unknown_iff.1 hf⟩

/-- `{"X":1,"Z":2,"Y":"a","z":3}` into a `struct{X int; Y string}`: two unknown keys, at 7 and 21. -/
example : UnknownKeys demoX b!"{\"X\":1,\"Z\":2,\"Y\":\"a\",\"z\":3}" defaultOptions (demoTree 4) (demoDoc b!"{\"X\":1,\"Z\":2,\"Y\":\"a\",\"z\":3}") [7, 21] ∧
    ∃ V'', Returns demoX (demoTree 4) (decode demoX (demoDec 4) b!"{\"X\":1,\"Z\":2,\"Y\":\"a\",\"z\":3}" (.ok (demoDoc b!"{\"X\":1,\"Z\":2,\"Y\":\"a\",\"z\":3}")) (some (zeros 24)) (some (strict defaultOptions)))
      7 (some .unknownField) V'' := by
  obtain ⟨hd, hm, -, hw, ht⟩ := demo_case (t := 4) (src := b!"{\"X\":1,\"Z\":2,\"Y\":\"a\",\"z\":3}") (o := defaultOptions) (by decide) (by decide +kernel) (by decide +kernel)
  have hr := returns_ok (V' := .struct [.int 1, .str ⟨b!"a", true⟩]) hd hm ht rfl
  have hL : UnknownKeys demoX b!"{\"X\":1,\"Z\":2,\"Y\":\"a\",\"z\":3}" defaultOptions (demoTree 4) (demoDoc b!"{\"X\":1,\"Z\":2,\"Y\":\"a\",\"z\":3}") [7, 21] := by
    have hs := hw.2.2.2.2
    obtain ⟨h1, -, h2, -, h3, -, h4, -⟩ := hs
    exact ⟨[], [7, 21], rfl, .inr ⟨0, _, selects_of (k := (1, 4)) (name := b!"X") h1 rfl rfl, rfl, rfl⟩, [7], [21], rfl, .inl ⟨unknown_of (k := (7, 10)) (name := b!"Z") h2 rfl rfl, rfl⟩,
      [], [21], rfl, .inr ⟨1, _, selects_of (k := (13, 16)) (name := b!"Y") h3 rfl rfl, rfl, rfl⟩, [21], [], rfl, .inl ⟨unknown_of (k := (21, 24)) (name := b!"z") h4 rfl rfl, rfl⟩, rfl⟩
  exact ⟨hL, C32_success_partial (o := defaultOptions) hd hd hw hm hL (C35_contains ht) hr⟩

/-- With a pointer: `{"Z":1,"A":5}` into a `struct{A *int; B int}`. -/
example : ∃ V'', Returns demoX (demoTree 8) (decode demoX (demoDec 8) b!"{\"Z\":1,\"A\":5}" (.ok (demoDoc b!"{\"Z\":1,\"A\":5}")) (some (zeros 16)) (some (strict defaultOptions))) 1 (some .unknownField) V'' := by
  obtain ⟨hd, hw, hR⟩ := Right.demo_right (t := 8) (src := b!"{\"Z\":1,\"A\":5}") (o := defaultOptions) (by decide) (by decide) (by decide)
  have hr := right_returns (V' := .struct [.ptr (.int 5), .int 0]) hd hw (zero_dest hd) hR rfl
  have hL : UnknownKeys demoX b!"{\"Z\":1,\"A\":5}" defaultOptions (demoTree 8) (demoDoc b!"{\"Z\":1,\"A\":5}") [1] := by
    obtain ⟨h1, -, h2, -⟩ := hw.2.2.2.2
    exact ⟨[1], [], rfl, .inl ⟨unknown_of (k := (1, 4)) (name := b!"Z") h1 rfl rfl, rfl⟩, [], [], rfl, .inr ⟨0, _, selects_of (k := (7, 10)) (name := b!"A") h2 rfl rfl, rfl, rfl⟩, rfl⟩
  exact C32_success_partial (o := defaultOptions) hd hd hw (zero_dest hd) hL hR hr

end Verif.Props
