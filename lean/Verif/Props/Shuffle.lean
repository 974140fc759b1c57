import Verif.Proof.Shuffle
import Verif.Props.Right
import Verif.Proof.Unique
/-!
# C70: the order in which the fields of a struct are declared does not matter

`FTy` (`Spec/Shuffle.lean`) is a type before and after the fields of struct types inside it, at any depth, were put into another order (their offsets change).
-/
namespace Verif.Props
open Verif.Model Verif.Spec Verif.Big Verif.Proof Verif.Proof.Reads Verif.Proof.Demo Verif.Proof.Outcome Verif.Proof.Unique

/-- The full statement of C70: decoding a document into the other version of the type gives the same error at the same index, if any, and the same values in all fields; and it panics if and only if the first one panics. -/
def OrderFree (x : Ext) (e : FTy) (P : Bytes → Options → JVal → Prop) : Prop :=
  ∀ d d', DecoderFor x e.old d → DecoderFor x e.new d' → ∀ src v (o : Options), Wf src v → P src o v → ∀ mem mem' V W, Dest x e.old mem V → Dest x e.new mem' W → Moved e V W →
    (∀ i er V', Returns x e.old (decode x d src (.ok v) (some mem) (some o)) i er V' → ∃ W', Returns x e.new (decode x d' src (.ok v) (some mem') (some o)) i er W' ∧ Moved e V' W') ∧
    (∀ i er W', Returns x e.new (decode x d' src (.ok v) (some mem') (some o)) i er W' → ∃ V', Returns x e.old (decode x d src (.ok v) (some mem) (some o)) i er V' ∧ Moved e V' W') ∧
    (decode x d src (.ok v) (some mem) (some o)).map (fun r => (r.errIndex, r.err)) = (decode x d' src (.ok v) (some mem') (some o)).map (fun r => (r.errIndex, r.err))

/-- Two results, one for each type. -/
private theorem both {x : Ext} {e : FTy} {a b : Option DecodeRes} {i : Int} {er : Option Err} {V W : Val} (r : Returns x e.old a i er V) (r' : Returns x e.new b i er W) (hp : Moved e V W) :
    (∀ i er V', Returns x e.old a i er V' → ∃ W', Returns x e.new b i er W' ∧ Moved e V' W') ∧ (∀ i er W', Returns x e.new b i er W' → ∃ V', Returns x e.old a i er V' ∧ Moved e V' W') ∧
      a.map (fun r => (r.errIndex, r.err)) = b.map (fun r => (r.errIndex, r.err)) :=
  ⟨fun i er V' h => by obtain ⟨rfl, rfl, rfl⟩ := returns_unique r h; exact ⟨_, r', hp⟩, fun i er W' h => by obtain ⟨rfl, rfl, rfl⟩ := returns_unique r' h; exact ⟨_, r, hp⟩, by
    obtain ⟨_, _, h1, h3, h4, -⟩ := r
    obtain ⟨_, _, h2, h5, h6, -⟩ := r'
    rw [h1, h2]; simp [h3, h4, h5, h6]⟩

/-- **C70**, for all types with a tree, all orders and all old values, pointers included. Missing: documents outside `RightDoc` of the type before. Nothing is assumed about the spots reached with the type after. -/
theorem C70_order_partial (x : Ext) (e : FTy) (hok : e.Ok x) : OrderFree x e (fun src o v => RightDoc x src (some o) e.old v) := by
  intro d d' hd hd' src v o hw ht mem mem' V W hm hm' hs
  have r := C35_reading_partial hd hw hm ht
  have r' := C35_reading_partial hd' hw hm' (Shuffle.right_sh e .final v hok ht)
  have hr := Shuffle.dec_sh (o := o) e v V W hok hw hs
  revert r r'
  revert hr
  generalize decPV x src (some o) e.old v V = a
  generalize decPV x src (some o) e.new v W = b
  intro hr r r'
  cases hr with
  | ok hp => exact both r r' hp
  | err hp => exact both r r' hp
  | crash =>
    refine ⟨fun i er V' h => ?_, fun i er W' h => ?_, by rw [r, r']⟩
    · obtain ⟨_, _, h1, -⟩ := h; rw [r] at h1; cases h1
    · obtain ⟨_, _, h1, -⟩ := h; rw [r'] at h1; cases h1
  | unsup => exact r.elim

/-- Decoding into zero values of both types. -/
theorem C70_zero_partial (x : Ext) (e : FTy) (hok : e.Ok x) {d d' : Decoder} (hd : DecoderFor x e.old d) (hd' : DecoderFor x e.new d') {src : Bytes} {v : JVal} {o : Options} (hw : Wf src v) (ht : RightDoc x src (some o) e.old v)
    {i : Int} {er : Option Err} {V' : Val} (h : Returns x e.old (decode x d src (.ok v) (some (zeros (e.old.size x))) (some o)) i er V') :
    ∃ W', Returns x e.new (decode x d' src (.ok v) (some (zeros (e.new.size x))) (some o)) i er W' ∧ Moved e V' W' :=
  (C70_order_partial x e hok d d' hd hd' src v o hw ht _ _ _ _ (zero_dest hd) (zero_dest hd') (Shuffle.zero_moved e hok)).1 _ _ _ h

/-- `struct{A *int; B **int}` and `struct{B **int; A *int}`. -/
def swapped : FTy := .struct 16 16 [(b!"A", 0, 8, .same (.ptr (.scalar (.int .int)))), (b!"B", 8, 0, .same (.ptr (.ptr (.scalar (.int .int)))))] [1, 0]

/-- No key is both of two names that differ up to case. -/
private theorem fold_apart {a b key : Bytes} (h : (a.map lower == b.map lower) = false) : ¬ ((a.length = key.length ∧ demoX.equalFold a key = true) ∧ (b.length = key.length ∧ demoX.equalFold b key = true)) := by
  rintro ⟨⟨-, h1⟩, -, h2⟩
  have h1' : a.map lower = key.map lower := eq_of_beq h1
  have h2' : b.map lower = key.map lower := eq_of_beq h2
  rw [h1', h2'] at h
  simp at h

theorem swapped_ok : swapped.Ok demoX := by
  refine ⟨by decide, ?_, by decide, trivial, trivial, trivial⟩
  intro i j a b hi hj hne
  match i, hi, j, hj with
  | 0, hi, 0, _ => exact absurd rfl hne
  | 1, hi, 1, _ => exact absurd rfl hne
  | 0, hi, 1, hj => cases hi; cases hj; exact ⟨by decide, fun key => fold_apart (by decide)⟩
  | 1, hi, 0, hj => cases hi; cases hj; exact ⟨by decide, fun key => fold_apart (by decide)⟩

/-- `{"a":null,"B":7}` into both versions: `B` is set, `A` is nil. -/
example : ∃ V W, Returns demoX swapped.old (decode demoX (demoDec 100) b!"{\"a\":null,\"B\":7}" (.ok (demoDoc b!"{\"a\":null,\"B\":7}")) (some (zeros 16)) (some defaultOptions)) (-1) none V ∧
    Returns demoX swapped.new (decode demoX (demoDec 103) b!"{\"a\":null,\"B\":7}" (.ok (demoDoc b!"{\"a\":null,\"B\":7}")) (some (zeros 16)) (some defaultOptions)) (-1) none W ∧
    V = .struct [.nil, .ptr (.ptr (.int 7))] ∧ Moved swapped V W := by
  obtain ⟨hd, hw, hR⟩ := Right.demo_right (t := 100) (src := b!"{\"a\":null,\"B\":7}") (o := defaultOptions) (by decide) (by decide) (by decide +kernel)
  have hd' : DecoderFor demoX swapped.new (demoDec 103) := demo_for' (t := 103) (by decide)
  have h1 := right_returns hd hw (zero_dest hd) hR (V' := .struct [.nil, .ptr (.ptr (.int 7))]) rfl
  obtain ⟨W, h2, h3⟩ := C70_zero_partial demoX swapped swapped_ok hd hd' hw hR h1
  exact ⟨_, W, h1, h2, rfl, h3⟩

/-- **C70 is false of the code**: `[][]struct{A *int; B **int}` and `[][]struct{B **int; A *int}` with `[[{"B":5}],7]`. After the double pointer `B` the end of the inner array is taken for the end of something one frame up: with `B` declared second that is
the frame of `A`, and the `7` is stored in `A` of the first element, without an error; with `B` declared first, the `7` is an error. -/
theorem C70_refuted : ¬ ∀ e : FTy, e.Ok demoX → OrderFree demoX e (fun _ _ _ => True) := by
  intro h
  have hd : DecoderFor demoX (FTy.slice (.slice swapped)).old (demoDec 102) := demo_for' (t := 102) (by decide)
  have hd' : DecoderFor demoX (FTy.slice (.slice swapped)).new (demoDec 105) := demo_for' (t := 105) (by decide)
  obtain ⟨-, hw⟩ := demo_doc (src := b!"[[{\"B\":5}],7]") (by decide)
  have h1 := (h (.slice (.slice swapped)) swapped_ok _ _ hd hd' _ _ defaultOptions hw trivial _ _ _ _ (zero_dest hd) (zero_dest hd') (Shuffle.zero_moved _ swapped_ok)).2.2
  have h2 : (decode demoX (demoDec 102) b!"[[{\"B\":5}],7]" (.ok (demoDoc b!"[[{\"B\":5}],7]")) (some (zeros 24)) (some defaultOptions)).map (fun r => r.errIndex) = some (-1) := by decide +kernel
  have h3 : (decode demoX (demoDec 105) b!"[[{\"B\":5}],7]" (.ok (demoDoc b!"[[{\"B\":5}],7]")) (some (zeros 24)) (some defaultOptions)).map (fun r => r.errIndex) = some 11 := by decide +kernel
  have h4 := congrArg (Option.map Prod.fst) h1
  rw [Option.map_map, Option.map_map] at h4
  have h5 := h2.symm.trans (h4.trans h3)
  simp at h5

end Verif.Props
