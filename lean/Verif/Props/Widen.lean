import Verif.Proof.Widen
import Verif.Props.Right
import Verif.Props.Sure
import Verif.Proof.Unique
/-!
# C74: wider integer types

`WTy` (`Spec/Widen.lean`) is a type before and after integer types inside it, at any depth, were replaced by others.
-/
namespace Verif.Props
open Verif.Model Verif.Spec Verif.Big Verif.Proof Verif.Proof.Reads Verif.Proof.Demo Verif.Proof.Outcome Verif.Proof.Unique

/-- The full statement of C74: what decodes without an error into the type before, with the given value in the destination, decodes without an error and to the same value into the type after. -/
def WidenSafe (x : Ext) (e : WTy) (P : Bytes → Options → JVal → Prop) : Prop :=
  ∀ d d', DecoderFor x e.old d → DecoderFor x e.new d' → ∀ src v (o : Options), Wf src v → P src o v → ∀ mem mem' V, Dest x e.old mem V → Dest x e.new mem' V →
    ∀ V', Returns x e.old (decode x d src (.ok v) (some mem) (some o)) (-1) none V' → Returns x e.new (decode x d' src (.ok v) (some mem') (some o)) (-1) none V'

/-- **C74**, outcomes: with wider integer types `Decode` does exactly what it did before (index, error, value, panic), or before it returned an error that was `ErrIntegerOverflow` or, if signed types replace unsigned ones (`mixed`), `ErrUnexpectedValue`.
All types with a tree, all old values, pointers included. Missing: narrow signed types (false, `C74_refuted`), integers with the `string` option (false, `C74_refuted_quoted`), documents outside `RightDoc`. -/
theorem C74_outcome_partial {x : Ext} {e : WTy} {mixed : Bool} (hok : e.Ok (Fit x.is64 mixed) Eq) {d d' : Decoder} (hd : DecoderFor x e.old d) (hd' : DecoderFor x e.new d') {src : Bytes} {v : JVal} {o : Options} (hw : Wf src v)
    (ht : RightDoc x src (some o) e.old v) {mem mem' : Block} {V : Val} (hm : Dest x e.old mem V) (hm' : Dest x e.new mem' V) :
    (∃ i er V', Returns x e.old (decode x d src (.ok v) (some mem) (some o)) i er V' ∧ Returns x e.new (decode x d' src (.ok v) (some mem') (some o)) i er V') ∨
    (decode x d src (.ok v) (some mem) (some o) = none ∧ decode x d' src (.ok v) (some mem') (some o) = none) ∨
    ∃ i er V', Returns x e.old (decode x d src (.ok v) (some mem) (some o)) i (some er) V' ∧ 0 ≤ i ∧ (er = .integerOverflow ∨ (mixed = true ∧ er = .unexpectedValue)) := by
  have r := C35_reading_partial hd hw hm ht
  have r' := C35_reading_partial hd' hw hm' (Widen.right_w e .final v hok ht)
  have hr := Widen.dec_w (o := o) e v V hok hw
  revert r r'
  revert hr
  generalize decPV x src (some o) e.old v V = a
  generalize decPV x src (some o) e.new v V = b
  intro hr r r'
  rcases hr with rfl | ⟨i, er, V', rfl, h⟩
  · cases b with
    | ok V' => exact .inl ⟨_, _, _, r, r'⟩
    | err i er V' => exact .inl ⟨_, _, _, r, r'⟩
    | crash => exact .inr (.inl ⟨r, r'⟩)
    | unsup => exact r.elim
  · exact .inr (.inr ⟨i, er, V', r, Int.natCast_nonneg i, h⟩)

/-- **C74**: success and values are kept. -/
theorem C74_widen_partial (x : Ext) (e : WTy) (hok : e.Ok (Fit x.is64 true) Eq) : WidenSafe x e (fun src o v => RightDoc x src (some o) e.old v) := by
  intro d d' hd hd' src v o hw ht mem mem' V hm hm' V' h
  rcases C74_outcome_partial hok hd hd' hw ht hm hm' with ⟨i, er, W, h1, h2⟩ | ⟨h1, -⟩ | ⟨i, er, W, h1, h2, -⟩
  · obtain ⟨rfl, rfl, rfl⟩ := returns_unique h h1
    exact h2
  · obtain ⟨_, _, h2, -⟩ := h
    rw [h1] at h2; cases h2
  · obtain ⟨h3, -, -⟩ := returns_unique h h1
    omega

/-- **C74**, failures: a document refused by the type after is refused by the type before. -/
theorem C74_refuses_partial {x : Ext} {e : WTy} (hok : e.Ok (Fit x.is64 true) Eq) {d d' : Decoder} (hd : DecoderFor x e.old d) (hd' : DecoderFor x e.new d') {src : Bytes} {v : JVal} {o : Options} (hw : Wf src v)
    (ht : RightDoc x src (some o) e.old v) {mem mem' : Block} {V : Val} (hm : Dest x e.old mem V) (hm' : Dest x e.new mem' V) {i : Int} {er : Err} {W : Val}
    (h : Returns x e.new (decode x d' src (.ok v) (some mem') (some o)) i (some er) W) : ∃ j er' W', Returns x e.old (decode x d src (.ok v) (some mem) (some o)) j (some er') W' := by
  rcases C74_outcome_partial hok hd hd' hw ht hm hm' with ⟨i, er, W, h1, h2⟩ | ⟨-, h1⟩ | ⟨j, er', W', h1, -⟩
  · obtain ⟨rfl, rfl, rfl⟩ := returns_unique h h2
    exact ⟨_, _, _, h1⟩
  · obtain ⟨_, _, h2, -⟩ := h
    rw [h1] at h2; cases h2
  · exact ⟨_, _, _, h1⟩

/-- **C74**, with unsigned types replaced by unsigned and signed by signed ones: every failure other than an overflow stays, with its index and the values stored before it. -/
theorem C74_other_errors_partial {x : Ext} {e : WTy} (hok : e.Ok (Fit x.is64 false) Eq) {d d' : Decoder} (hd : DecoderFor x e.old d) (hd' : DecoderFor x e.new d') {src : Bytes} {v : JVal} {o : Options} (hw : Wf src v)
    (ht : RightDoc x src (some o) e.old v) {mem mem' : Block} {V : Val} (hm : Dest x e.old mem V) (hm' : Dest x e.new mem' V) {i : Int} {er : Err} {W : Val}
    (h : Returns x e.old (decode x d src (.ok v) (some mem) (some o)) i (some er) W) (hne : er ≠ .integerOverflow) : Returns x e.new (decode x d' src (.ok v) (some mem') (some o)) i (some er) W := by
  rcases C74_outcome_partial hok hd hd' hw ht hm hm' with ⟨i, er, W, h1, h2⟩ | ⟨h1, -⟩ | ⟨j, er', W', h1, -, h3⟩
  · obtain ⟨rfl, rfl, rfl⟩ := returns_unique h h1
    exact h2
  · obtain ⟨_, _, h2, -⟩ := h
    rw [h1] at h2; cases h2
  · obtain ⟨-, h4, -⟩ := returns_unique h h1
    cases h4
    rcases h3 with h3 | ⟨h3, -⟩
    · exact absurd h3 hne
    · cases h3

/-- **C74**, for types without pointers and `struct{}`, decoded strictly (or without structs): every document. -/
theorem C74_sure_partial (x : Ext) (e : WTy) (hok : e.Ok (Fit x.is64 true) Eq) : WidenSafe x e (fun _ o _ => e.old.sure o = true) := by
  intro d d' hd hd' src v o hw hs
  exact C74_widen_partial x e hok d d' hd hd' src v o hw (sure_right hs src v)

/-- `struct{A uint8; L []uint8}` and `struct{A int; L []int}`. -/
def widened : WTy := .struct 32 32 [(b!"A", 0, 0, .int .u8 .int), (b!"L", 8, 8, .ints .u8 .int)]

theorem widened_ok : widened.Ok (Fit true true) Eq :=
  ⟨by decide, ⟨⟨by decide, by decide⟩, .inl rfl, .inl rfl⟩, ⟨⟨by decide, by decide⟩, .inl rfl, .inl rfl⟩, trivial⟩

/-- `{"a":200,"L":[0,255]}` into both. -/
example : ∃ V, Returns demoX widened.old (decode demoX (demoDec 107) b!"{\"a\":200,\"L\":[0,255]}" (.ok (demoDoc b!"{\"a\":200,\"L\":[0,255]}")) (some (zeros 32)) (some defaultOptions)) (-1) none V ∧
    Returns demoX widened.new (decode demoX (demoDec 108) b!"{\"a\":200,\"L\":[0,255]}" (.ok (demoDoc b!"{\"a\":200,\"L\":[0,255]}")) (some (zeros 32)) (some defaultOptions)) (-1) none V ∧ V = .struct [.int 200, .slice [.int 0, .int 255] []] := by
  obtain ⟨hd, hw, hR⟩ := Right.demo_right (t := 107) (src := b!"{\"a\":200,\"L\":[0,255]}") (o := defaultOptions) (by decide) (by decide) (by decide +kernel)
  have hd' : DecoderFor demoX widened.new (demoDec 108) := demo_for' (t := 108) (by decide)
  have h1 := right_returns hd hw (zero_dest hd) hR (V' := .struct [.int 200, .slice [.int 0, .int 255] []]) rfl
  exact ⟨_, h1, C74_widen_partial demoX widened widened_ok _ _ hd hd' _ _ _ hw hR _ _ _ (zero_dest hd) (zero_dest hd') _ h1, rfl⟩

/-- Strictly decoded, every document. -/
example : widened.old.sure ⟨true, false, false⟩ = true ∧ (WTy.ints .u8 .int).old.sure defaultOptions = true := ⟨rfl, rfl⟩

/-- **C74**, every integer type (narrow signed ones, integers with the `string` option, integer keys of maps): outcomes, on documents whose integers are literals that the type before takes for what they are. -/
theorem C74_literals_outcome_partial {x : Ext} {e : WTy} (hok : e.Ok (Wider x.is64) (Wider x.is64)) {d d' : Decoder} (hd : DecoderFor x e.old d) (hd' : DecoderFor x e.new d') {src : Bytes} {v : JVal} {o : Options} (hw : Wf src v)
    (ht : RightDoc x src (some o) e.old v) (hl : e.Literals x src o v) {mem mem' : Block} {V : Val} (hm : Dest x e.old mem V) (hm' : Dest x e.new mem' V) :
    (∃ i er V', Returns x e.old (decode x d src (.ok v) (some mem) (some o)) i er V' ∧ Returns x e.new (decode x d' src (.ok v) (some mem') (some o)) i er V') ∨
    (decode x d src (.ok v) (some mem) (some o) = none ∧ decode x d' src (.ok v) (some mem') (some o) = none) ∨
    ∃ i er V', Returns x e.old (decode x d src (.ok v) (some mem) (some o)) i (some er) V' ∧ 0 ≤ i ∧ (er = .integerOverflow ∨ er = .unexpectedValue) := by
  have r := C35_reading_partial hd hw hm ht
  have r' := C35_reading_partial hd' hw hm' (Widen.right_w e .final v hok ht)
  have hr := Widen.dec_l (o := o) e v V hok hw hl
  revert r r'
  revert hr
  generalize decPV x src (some o) e.old v V = a
  generalize decPV x src (some o) e.new v V = b
  intro hr r r'
  rcases hr with rfl | ⟨i, er, V', rfl, h⟩
  · cases b with
    | ok V' => exact .inl ⟨_, _, _, r, r'⟩
    | err i er V' => exact .inl ⟨_, _, _, r, r'⟩
    | crash => exact .inr (.inl ⟨r, r'⟩)
    | unsup => exact r.elim
  · exact .inr (.inr ⟨i, er, V', r, Int.natCast_nonneg i, h.imp id fun h => h.2⟩)

/-- **C74**, every integer type: success and values are kept on such documents. -/
theorem C74_literals_partial (x : Ext) (e : WTy) (hok : e.Ok (Wider x.is64) (Wider x.is64)) : WidenSafe x e (fun src o v => RightDoc x src (some o) e.old v ∧ e.Literals x src o v) := by
  intro d d' hd hd' src v o hw ht mem mem' V hm hm' V' h
  rcases C74_literals_outcome_partial hok hd hd' hw ht.1 ht.2 hm hm' with ⟨i, er, W, h1, h2⟩ | ⟨h1, -⟩ | ⟨i, er, W, h1, h2, -⟩
  · obtain ⟨rfl, rfl, rfl⟩ := returns_unique h h1
    exact h2
  · obtain ⟨_, _, h2, -⟩ := h
    rw [h1] at h2; cases h2
  · obtain ⟨h3, -, -⟩ := returns_unique h h1
    omega

/-- `struct{N int8 "n,string"; M map[int8]uint8; A int8}` and `struct{N int "n,string"; M map[int]int; A int}`. -/
def widenedMore : WTy := .struct 24 24 [(b!"n", 0, 0, .quoted .i8 .int), (b!"M", 8, 8, .keys .i8 .int (.int .u8 .int)), (b!"A", 16, 16, .int .i8 .int)]

theorem widenedMore_ok : widenedMore.Ok (Wider true) (Wider true) :=
  ⟨by decide, ⟨by decide, by decide⟩, ⟨⟨by decide, by decide⟩, ⟨by decide, by decide⟩⟩, ⟨by decide, by decide⟩, trivial⟩

/-- The integers of `{"n":"-100","M":{"-128":255,"7":0},"A":127}` are literals in range. -/
theorem widenedMore_literals : widenedMore.Literals demoX b!"{\"n\":\"-100\",\"M\":{\"-128\":255,\"7\":0},\"A\":127}" defaultOptions
    (.obj 0 [((1, 4), .str 5 11), ((12, 15), .obj 16 [((17, 23), .num true 24 27), ((28, 31), .num true 32 33)] 33), ((35, 38), .num true 39 42)] 42) := by
  have tN : TakenRight true .i8 b!"-100" := ⟨_, .neg (.cons (by decide) (by decide) (by decide)), .inr (by simp only [InRange, IKind.signed, IKind.bits]; decide)⟩
  have tK : TakenRight true .i8 b!"-128" := ⟨_, .neg (.cons (by decide) (by decide) (by decide)), .inr (by simp only [InRange, IKind.signed, IKind.bits]; decide)⟩
  have tL : TakenRight true .i8 b!"7" := ⟨_, .pos (.cons (by decide) (by decide) (by simp)), .inr (by simp only [InRange, IKind.signed, IKind.bits]; decide)⟩
  have tV : TakenRight true .u8 b!"255" := ⟨_, .pos (.cons (by decide) (by decide) (by decide)), .inl (.inl rfl)⟩
  have tZ : TakenRight true .u8 b!"0" := ⟨_, .pos .zero, .inl (.inl rfl)⟩
  have tA : TakenRight true .i8 b!"127" := ⟨_, .pos (.cons (by decide) (by decide) (by decide)), .inr (by simp only [InRange, IKind.signed, IKind.bits]; decide)⟩
  intro m hm j L _ hL
  simp only [List.mem_cons, List.not_mem_nil, or_false] at hm
  rcases j with _ | _ | _ | j
  · cases hL
    rcases hm with rfl | rfl | rfl
    · exact .inr tN
    · trivial
    · trivial
  · cases hL
    rcases hm with rfl | rfl | rfl
    · trivial
    · intro m hm
      simp only [List.mem_cons, List.not_mem_nil, or_false] at hm
      rcases hm with rfl | rfl
      · exact ⟨.inr tK, tV⟩
      · exact ⟨.inr tL, tZ⟩
    · trivial
  · cases hL
    rcases hm with rfl | rfl | rfl
    · trivial
    · trivial
    · exact tA
  · cases hL

example : ∃ V, Returns demoX widenedMore.old (decode demoX (demoDec 112) b!"{\"n\":\"-100\",\"M\":{\"-128\":255,\"7\":0},\"A\":127}" (.ok (demoDoc b!"{\"n\":\"-100\",\"M\":{\"-128\":255,\"7\":0},\"A\":127}")) (some (zeros 24)) (some defaultOptions)) (-1) none V ∧
    Returns demoX widenedMore.new (decode demoX (demoDec 113) b!"{\"n\":\"-100\",\"M\":{\"-128\":255,\"7\":0},\"A\":127}" (.ok (demoDoc b!"{\"n\":\"-100\",\"M\":{\"-128\":255,\"7\":0},\"A\":127}")) (some (zeros 24)) (some defaultOptions)) (-1) none V ∧
    V = .struct [.int (-100), .map [(.int (-128), .int 255), (.int 7, .int 0)], .int 127] := by
  obtain ⟨hd, hw, hR⟩ := Right.demo_right (t := 112) (src := b!"{\"n\":\"-100\",\"M\":{\"-128\":255,\"7\":0},\"A\":127}") (o := defaultOptions) (by decide) (by decide) (by decide +kernel)
  have hd' : DecoderFor demoX widenedMore.new (demoDec 113) := demo_for' (t := 113) (by decide)
  have h1 := right_returns hd hw (zero_dest hd) hR (V' := .struct [.int (-100), .map [(.int (-128), .int 255), (.int 7, .int 0)], .int 127]) rfl
  exact ⟨_, h1, C74_literals_partial demoX widenedMore widenedMore_ok _ _ hd hd' _ _ _ hw ⟨hR, widenedMore_literals⟩ _ _ _ (zero_dest hd) (zero_dest hd') _ h1, rfl⟩

/-- **C74 is false of the code** for narrow signed types: `300` is stored in an `int8` as 44, without an error, and in an `int` as 300. -/
theorem C74_refuted : ¬ ∀ e : WTy, e.Ok (Wider true) Eq → WidenSafe demoX e (fun src o v => RightDoc demoX src (some o) e.old v) := by
  intro h
  have hd' : DecoderFor demoX (WTy.int .i8 .int).new (demoDec 1) := demo_for' (t := 1) (by decide)
  obtain ⟨hd, hw, hR⟩ := Right.demo_right (t := 24) (src := b!"300") (o := defaultOptions) (by decide) (by decide) (by decide +kernel)
  obtain ⟨-, -, hR'⟩ := Right.demo_right (t := 1) (src := b!"300") (o := defaultOptions) (by decide) (by decide) (by decide +kernel)
  have h1 := right_returns hd hw (zero_dest hd) hR (V' := .int 44) rfl
  have h2 := h (.int .i8 .int) ⟨by decide, by decide⟩ _ _ hd hd' _ _ defaultOptions hw hR _ _ _ (zero_dest hd) (zero_dest hd') _ h1
  have h3 := right_returns hd' hw (zero_dest hd') hR' (V' := .int 300) rfl
  obtain ⟨-, -, h4⟩ := returns_unique h2 h3
  cases h4

/-- **C74 is false of the code** for fields with the `string` option: `{"n":"12 "}` is stored in a `uint8` as 104, without an error, and in an `int` as 360 (the byte after the digits is taken for a digit). -/
theorem C74_refuted_quoted : ¬ ∀ e : WTy, e.Ok (Fit true true) (Fit true true) → WidenSafe demoX e (fun src o v => RightDoc demoX src (some o) e.old v) := by
  intro h
  have hd' : DecoderFor demoX (WTy.struct 1 8 [(b!"n", 0, 0, .quoted .u8 .int)]).new (demoDec 25) := demo_for' (t := 25) (by decide)
  obtain ⟨hd, hw, hR⟩ := Right.demo_right (t := 106) (src := b!"{\"n\":\"12 \"}") (o := defaultOptions) (by decide) (by decide) (by decide +kernel)
  obtain ⟨-, -, hR'⟩ := Right.demo_right (t := 25) (src := b!"{\"n\":\"12 \"}") (o := defaultOptions) (by decide) (by decide) (by decide +kernel)
  have h1 := right_returns hd hw (zero_dest hd) hR (V' := .struct [.int 104]) rfl
  have h2 := h (.struct 1 8 [(b!"n", 0, 0, .quoted .u8 .int)]) ⟨by decide, ⟨⟨by decide, by decide⟩, .inl rfl, .inl rfl⟩, trivial⟩ _ _ hd hd' _ _ defaultOptions hw hR _ _ _ (zero_dest hd) (zero_dest hd') _ h1
  have h3 := right_returns hd' hw (zero_dest hd') hR' (V' := .struct [.int 360]) rfl
  obtain ⟨-, -, h4⟩ := returns_unique h2 h3
  cases h4

end Verif.Props
