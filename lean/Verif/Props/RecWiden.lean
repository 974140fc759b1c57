import Verif.Proof.WidenRec
import Verif.Props.RecTypes
import Verif.Props.Widen
/-!
# C74 for recursive struct types
-/
namespace Verif.Props
open Verif.Model Verif.Spec Verif.Big Verif.Proof Verif.Proof.Reads Verif.Proof.Demo Verif.Proof.Outcome Verif.Proof.Unique

/-- From the readings to the calls. -/
theorem recWiden_core {x : Ext} {s s' : Nat} {fs : WRFields} {E : Err → Prop} {d d' : Decoder} (hd : RecDecoder x s (oldR fs) d) (hd' : RecDecoder x s' (newR fs) d') {src : Bytes} {v : JVal} {o : Options} {n : Nat}
    (ht : TameR x src (some o) (oldR fs) n true true v) {mem mem' : Block} {V : Val} (hm : Dest x (unroll s (oldR fs) (n + 1)) mem V) (hm' : Dest x (unroll s' (newR fs) (n + 1)) mem' V)
    (hr : Widen.RW E (decV x src (some o) (unroll s (oldR fs) (n + 1)) v V) (decV x src (some o) (unroll s' (newR fs) (n + 1)) v V)) :
    (∃ i er V1 V2, Returns x (unroll s (oldR fs) (n + 1)) (decode x d src (.ok v) (some mem) (some o)) i er V1 ∧ Returns x (unroll s' (newR fs) (n + 1)) (decode x d' src (.ok v) (some mem') (some o)) i er V2 ∧
      (er = none → V1 = V2)) ∨
    (decode x d src (.ok v) (some mem) (some o) = none ∧ decode x d' src (.ok v) (some mem') (some o) = none) ∨
    ∃ i er V', Returns x (unroll s (oldR fs) (n + 1)) (decode x d src (.ok v) (some mem) (some o)) i (some er) V' ∧ 0 ≤ i ∧ E er := by
  have r := RecIdeal.outcome hd hm ht
  have r' := RecIdeal.outcome hd' hm' (Widen.tameR_w n true true v ht)
  revert hr r r'
  generalize decV x src (some o) (unroll s (oldR fs) (n + 1)) v V = a
  generalize decV x src (some o) (unroll s' (newR fs) (n + 1)) v V = b
  intro hr r r'
  rcases hr with rfl | ⟨i, er, V', rfl, h⟩
  · cases b with
    | ok V' => exact .inl ⟨_, _, _, _, r, r', fun _ => rfl⟩
    | err i er V' => obtain ⟨V1, r⟩ := r; obtain ⟨V2, r'⟩ := r'; exact .inl ⟨_, _, _, _, r, r', fun h => by cases h⟩
    | crash => exact .inr (.inl ⟨r, r'⟩)
    | unsup => exact r.elim
  · obtain ⟨V1, r⟩ := r
    exact .inr (.inr ⟨i, er, V1, r, Int.natCast_nonneg i, h⟩)

/-- **C74** for recursive struct types, outcomes: with wider integer types `Decode` returns what it returned before (index and error, and after success the same value) and panics where it did, or before it returned an error that was
`ErrIntegerOverflow` or, if signed types replace unsigned ones (`mixed`), `ErrUnexpectedValue`. -/
theorem C74_recursive_outcome_partial {x : Ext} {s s' : Nat} {fs : WRFields} {mixed : Bool} (hs : s' = 0 → s = 0) (hok : ∀ f ∈ fs, f.2.2.2.Ok (Fit x.is64 mixed) Eq)
    {d d' : Decoder} (hd : RecDecoder x s (oldR fs) d) (hd' : RecDecoder x s' (newR fs) d') {src : Bytes} {v : JVal} {o : Options} (hw : Wf src v) {n : Nat}
    (ht : TameR x src (some o) (oldR fs) n true true v) {mem mem' : Block} {V : Val} (hm : Dest x (unroll s (oldR fs) (n + 1)) mem V) (hm' : Dest x (unroll s' (newR fs) (n + 1)) mem' V) :
    (∃ i er V1 V2, Returns x (unroll s (oldR fs) (n + 1)) (decode x d src (.ok v) (some mem) (some o)) i er V1 ∧ Returns x (unroll s' (newR fs) (n + 1)) (decode x d' src (.ok v) (some mem') (some o)) i er V2 ∧
      (er = none → V1 = V2)) ∨
    (decode x d src (.ok v) (some mem) (some o) = none ∧ decode x d' src (.ok v) (some mem') (some o) = none) ∨
    ∃ i er V', Returns x (unroll s (oldR fs) (n + 1)) (decode x d src (.ok v) (some mem) (some o)) i (some er) V' ∧ 0 ≤ i ∧ (er = .integerOverflow ∨ (mixed = true ∧ er = .unexpectedValue)) := by
  refine recWiden_core (E := Widen.Avoids mixed) hd hd' ht hm hm' ?_
  have h := Widen.dec_vw (x := x) (src := src) (o := o) (unrollW s s' fs (n + 1)) v V (Widen.unrollW_ok hs hok (n + 1)) hw
  rwa [Widen.unrollW_old, Widen.unrollW_new] at h

/-- **C74** for recursive struct types: success and values are kept. -/
theorem C74_recursive_partial {x : Ext} {s s' : Nat} {fs : WRFields} (hs : s' = 0 → s = 0) (hok : ∀ f ∈ fs, f.2.2.2.Ok (Fit x.is64 true) Eq)
    {d d' : Decoder} (hd : RecDecoder x s (oldR fs) d) (hd' : RecDecoder x s' (newR fs) d') {src : Bytes} {v : JVal} {o : Options} (hw : Wf src v) {n : Nat}
    (ht : TameR x src (some o) (oldR fs) n true true v) {mem mem' : Block} {V V' : Val} (hm : Dest x (unroll s (oldR fs) (n + 1)) mem V) (hm' : Dest x (unroll s' (newR fs) (n + 1)) mem' V)
    (h : Returns x (unroll s (oldR fs) (n + 1)) (decode x d src (.ok v) (some mem) (some o)) (-1) none V') : Returns x (unroll s' (newR fs) (n + 1)) (decode x d' src (.ok v) (some mem') (some o)) (-1) none V' := by
  rcases C74_recursive_outcome_partial hs hok hd hd' hw ht hm hm' with ⟨i, er, W, W', h1, h2, h3⟩ | ⟨h1, -⟩ | ⟨i, er, W, h1, h2, -⟩
  · obtain ⟨rfl, rfl, rfl⟩ := returns_unique h h1
    exact h3 rfl ▸ h2
  · obtain ⟨_, _, h2, -⟩ := h
    rw [h1] at h2; cases h2
  · obtain ⟨h3, -, -⟩ := returns_unique h h1
    omega

/-- **C74** for recursive struct types with any integer types (narrow signed ones, the `string` option, keys of maps), on documents whose literals the types before take for what they are: success and values are kept. -/
theorem C74_recursive_literals_partial {x : Ext} {s s' : Nat} {fs : WRFields} (hs : s' = 0 → s = 0) (hok : ∀ f ∈ fs, f.2.2.2.Ok (Wider x.is64) (Wider x.is64))
    {d d' : Decoder} (hd : RecDecoder x s (oldR fs) d) (hd' : RecDecoder x s' (newR fs) d') {src : Bytes} {v : JVal} {o : Options} (hw : Wf src v) {n : Nat}
    (hl : (unrollW s s' fs (n + 1)).Literals x src o v)
    (ht : TameR x src (some o) (oldR fs) n true true v) {mem mem' : Block} {V V' : Val} (hm : Dest x (unroll s (oldR fs) (n + 1)) mem V) (hm' : Dest x (unroll s' (newR fs) (n + 1)) mem' V)
    (h : Returns x (unroll s (oldR fs) (n + 1)) (decode x d src (.ok v) (some mem) (some o)) (-1) none V') : Returns x (unroll s' (newR fs) (n + 1)) (decode x d' src (.ok v) (some mem') (some o)) (-1) none V' := by
  have hr := Widen.dec_vl (x := x) (src := src) (o := o) (unrollW s s' fs (n + 1)) v V (Widen.unrollW_ok hs hok (n + 1)) hw hl
  rw [Widen.unrollW_old, Widen.unrollW_new] at hr
  rcases recWiden_core hd hd' ht hm hm' hr with ⟨i, er, W, W', h1, h2, h3⟩ | ⟨h1, -⟩ | ⟨i, er, W, h1, h2, -⟩
  · obtain ⟨rfl, rfl, rfl⟩ := returns_unique h h1
    exact h3 rfl ▸ h2
  · obtain ⟨_, _, h2, -⟩ := h
    rw [h1] at h2; cases h2
  · obtain ⟨h3, -, -⟩ := returns_unique h h1
    omega

/-! ## Examples -/

/-- `C = struct{Next *C; V uint8}` and `P = struct{Next *P; V int}`. -/
def widenedList : WRFields := [(b!"Next", 0, 0, .ptr), (b!"V", 8, 8, .plain (.int .u8 .int))]

theorem widenedList_old : oldR widenedList = demoFields 119 := rfl
theorem widenedList_new : newR widenedList = demoFields 40 := rfl

theorem widenedList_ok : ∀ f ∈ widenedList, f.2.2.2.Ok (Fit true true) Eq := by
  intro f hf
  simp only [widenedList, List.mem_cons, List.not_mem_nil, or_false] at hf
  rcases hf with rfl | rfl
  · trivial
  · exact ⟨⟨by decide, by decide⟩, .inl rfl, .inl rfl⟩

set_option maxHeartbeats 1000000 in
/-- The list 1, 2, 3 decodes into both types. -/
example : ∃ V, Returns demoX (unroll 16 (oldR widenedList) 4) (decode demoX (demoDec 119) chain (.ok (demoDoc chain)) (some (zeros 16)) (some defaultOptions)) (-1) none V ∧
    Returns demoX (unroll 16 (newR widenedList) 4) (decode demoX (demoDec 40) chain (.ok (demoDoc chain)) (some (zeros 16)) (some defaultOptions)) (-1) none V ∧
    V = .struct [.ptr (.struct [.ptr (.struct [.nil, .int 3]), .int 2]), .int 1] := by
  obtain ⟨-, hd⟩ := demo_rec (t := 119) (by decide)
  obtain ⟨-, hd'⟩ := demo_rec (t := 40) (by decide)
  have hw := (demo_doc (src := chain) (by decide)).2
  have ht : TameR demoX chain (some defaultOptions) (demoFields 119) 3 true true (demoDoc chain) := tameRB_sound 3 true true _ (by decide)
  have hm : Dest demoX (unroll 16 (demoFields 119) 4) (zeros 16) (zeroV demoX (unroll 16 (demoFields 119) 4)) :=
    ⟨rfl, Val.holds_zeros _ (Val.unroll_ok (recDecoder_ready hd).ok _) (by simp [unroll, Ty.size])⟩
  have hm' : Dest demoX (unroll 16 (demoFields 40) 4) (zeros 16) (zeroV demoX (unroll 16 (demoFields 40) 4)) :=
    ⟨rfl, Val.holds_zeros _ (Val.unroll_ok (recDecoder_ready hd').ok _) (by simp [unroll, Ty.size])⟩
  have h1 : Returns demoX (unroll 16 (demoFields 119) 4) (decode demoX (demoDec 119) chain (.ok (demoDoc chain)) (some (zeros 16)) (some defaultOptions)) (-1) none
    (.struct [.ptr (.struct [.ptr (.struct [.nil, .int 3]), .int 2]), .int 1]) := C37_reading_partial hd hm ht
  exact ⟨_, h1, C74_recursive_partial (s := 16) (s' := 16) (fs := widenedList) (by decide) widenedList_ok hd hd' hw (n := 3) ht hm hm' h1, rfl⟩

/-- `{"Next":{"V":256}}` overflows in the first type only: the third case of the theorem. -/
example : ∃ i V', Returns demoX (unroll 16 (oldR widenedList) 3) (decode demoX (demoDec 119) b!"{\"Next\":{\"V\":256}}" (.ok (demoDoc b!"{\"Next\":{\"V\":256}}")) (some (zeros 16)) (some defaultOptions)) i (some .integerOverflow) V' := by
  obtain ⟨-, hd⟩ := demo_rec (t := 119) (by decide)
  have ht : TameR demoX b!"{\"Next\":{\"V\":256}}" (some defaultOptions) (demoFields 119) 2 true true (demoDoc b!"{\"Next\":{\"V\":256}}") := tameRB_sound 2 true true _ (by decide)
  have hm : Dest demoX (unroll 16 (demoFields 119) 3) (zeros 16) (zeroV demoX (unroll 16 (demoFields 119) 3)) :=
    ⟨rfl, Val.holds_zeros _ (Val.unroll_ok (recDecoder_ready hd).ok _) (by simp [unroll, Ty.size])⟩
  have h1 : Returns demoX (unroll 16 (demoFields 119) 3) (decode demoX (demoDec 119) b!"{\"Next\":{\"V\":256}}" (.ok (demoDoc b!"{\"Next\":{\"V\":256}}")) (some (zeros 16)) (some defaultOptions)) (13 : Nat) (some .integerOverflow)
    (.struct [.ptr (.struct [.nil, .int 0]), .int 0]) := C37_reading_partial hd hm ht
  exact ⟨_, _, h1⟩

/-- `W = struct{N uint8; Q int8 "q,string"; Kids []W}` and the same with `int`. -/
def widenedTree : WRFields := [(b!"N", 0, 0, .plain (.int .u8 .int)), (b!"q", 1, 8, .plain (.quoted .i8 .int)), (b!"Kids", 8, 16, .slice)]

theorem widenedTree_old : oldR widenedTree = demoFields 115 := rfl
theorem widenedTree_new : newR widenedTree = demoFields 117 := rfl

/-- A tree with quoted integers. -/
def litter : Bytes := b!"{\"N\":255,\"q\":\"-7\",\"Kids\":[{\"N\":1},{\"q\":\"9\"}]}"

theorem litter_doc : demoDoc litter = .obj 0 [((1, 4), .num true 5 8), ((9, 12), .str 13 17), ((18, 24), .arr 25 [.obj 26 [((27, 30), .num true 31 32)] 32, .obj 34 [((35, 38), .str 39 42)] 42] 43)] 44 := rfl

theorem litter_literals : (unrollW 32 40 widenedTree 3).Literals demoX litter defaultOptions (demoDoc litter) := by
  have t255 : TakenRight true .u8 b!"255" := ⟨_, .pos (.cons (by decide) (by decide) (by decide)), .inl (.inl rfl)⟩
  have t1 : TakenRight true .u8 b!"1" := ⟨_, .pos (.cons (by decide) (by decide) (by simp)), .inl (.inl rfl)⟩
  have t7 : TakenRight true .i8 b!"-7" := ⟨_, .neg (.cons (by decide) (by decide) (by simp)), .inr (by simp only [InRange, IKind.signed, IKind.bits]; decide)⟩
  have t9 : TakenRight true .i8 b!"9" := ⟨_, .pos (.cons (by decide) (by decide) (by simp)), .inr (by simp only [InRange, IKind.signed, IKind.bits]; decide)⟩
  rw [litter_doc]
  intro m hm j L hs hL
  simp only [List.mem_cons, List.not_mem_nil, or_false] at hm
  rcases j with _ | _ | _ | j
  · cases hL
    rcases hm with rfl | rfl | rfl
    · exact t255
    · trivial
    · trivial
  · cases hL
    rcases hm with rfl | rfl | rfl
    · trivial
    · exact .inr t7
    · trivial
  · cases hL
    rcases hm with rfl | rfl | rfl
    · trivial
    · trivial
    · intro w hw
      simp only [List.mem_cons, List.not_mem_nil, or_false] at hw
      rcases hw with rfl | rfl
      · intro m hm j L hs hL
        simp only [List.mem_cons, List.not_mem_nil, or_false] at hm
        subst hm
        rcases j with _ | _ | _ | j
        · cases hL; exact t1
        · cases hL; trivial
        · cases hL; trivial
        · cases hL
      · intro m hm j L hs hL
        simp only [List.mem_cons, List.not_mem_nil, or_false] at hm
        subst hm
        rcases j with _ | _ | _ | j
        · cases hL; trivial
        · cases hL; exact .inr t9
        · cases hL; trivial
        · cases hL
  · cases hL

/-- The tree decodes into both types, to the same value. -/
example : ∃ V, Returns demoX (unroll 32 (oldR widenedTree) 3) (decode demoX (demoDec 115) litter (.ok (demoDoc litter)) (some (zeros 32)) (some defaultOptions)) (-1) none V ∧
    Returns demoX (unroll 40 (newR widenedTree) 3) (decode demoX (demoDec 117) litter (.ok (demoDoc litter)) (some (zeros 40)) (some defaultOptions)) (-1) none V ∧
    V = .struct [.int 255, .int (-7), .slice [.struct [.int 1, .int 0, .nil], .struct [.int 0, .int 9, .nil]] []] := by
  obtain ⟨-, hd⟩ := demo_rec (t := 115) (by decide)
  obtain ⟨-, hd'⟩ := demo_rec (t := 117) (by decide)
  have hw := (demo_doc (src := litter) (by decide)).2
  have ht : TameR demoX litter (some defaultOptions) (demoFields 115) 2 true true (demoDoc litter) := tameRB_sound 2 true true _ (by decide)
  have hm : Dest demoX (unroll 32 (demoFields 115) 3) (zeros 32) (zeroV demoX (unroll 32 (demoFields 115) 3)) :=
    ⟨rfl, Val.holds_zeros _ (Val.unroll_ok (recDecoder_ready hd).ok _) (by simp [unroll, Ty.size])⟩
  have hm' : Dest demoX (unroll 40 (demoFields 117) 3) (zeros 40) (zeroV demoX (unroll 40 (demoFields 117) 3)) :=
    ⟨rfl, Val.holds_zeros _ (Val.unroll_ok (recDecoder_ready hd').ok _) (by simp [unroll, Ty.size])⟩
  have h1 : Returns demoX (unroll 32 (demoFields 115) 3) (decode demoX (demoDec 115) litter (.ok (demoDoc litter)) (some (zeros 32)) (some defaultOptions)) (-1) none
    (.struct [.int 255, .int (-7), .slice [.struct [.int 1, .int 0, .nil], .struct [.int 0, .int 9, .nil]] []]) := C37_reading_partial hd hm ht
  refine ⟨_, h1, C74_recursive_literals_partial (s := 32) (s' := 40) (fs := widenedTree) (by decide) ?_ hd hd' hw (n := 2) litter_literals ht hm hm' h1, rfl⟩
  intro f hf
  simp only [widenedTree, List.mem_cons, List.not_mem_nil, or_false] at hf
  rcases hf with rfl | rfl | rfl
  · exact ⟨by decide, by decide⟩
  · exact ⟨by decide, by decide⟩
  · trivial

end Verif.Props
