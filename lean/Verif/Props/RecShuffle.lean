import Verif.Proof.ShuffleRec
import Verif.Props.Shuffle
import Verif.Props.RecTypes
/-!
# C70 for recursive struct types
-/
namespace Verif.Props
open Verif.Model Verif.Spec Verif.Big Verif.Proof Verif.Proof.Reads Verif.Proof.Demo Verif.Proof.Outcome Verif.Proof.Unique

/-- **C70** for recursive struct types: with the fields of the struct, and of the structs in its fields, declared in another order, `Decode` returns the same error at the same index, leaves the same values in the fields after success, and panics
only if it panics with the other type. The values left by errors are not compared. -/
theorem C70_recursive_partial {x : Ext} {s s' : Nat} {fs : FRFields} {order : List Nat} (hok : OkFR x s s' fs order) {d d' : Decoder} (hd : RecDecoder x s (oldFR fs) d) (hd' : RecDecoder x s' (newFR fs order) d') {src : Bytes} {v : JVal} {o : Options} (hw : Wf src v) {n : Nat}
    (ht : TameR x src (some o) (oldFR fs) n true true v) {mem mem' : Block} {V W : Val}
    (hm : Dest x (unroll s (oldFR fs) (n + 1)) mem V) (hm' : Dest x (unroll s' (newFR fs order) (n + 1)) mem' W) (hs : Moved (unrollO s s' fs order (n + 1)) V W) :
    (∀ i er V', Returns x (unroll s (oldFR fs) (n + 1)) (decode x d src (.ok v) (some mem) (some o)) i er V' →
      ∃ W', Returns x (unroll s' (newFR fs order) (n + 1)) (decode x d' src (.ok v) (some mem') (some o)) i er W' ∧ (er = none → Moved (unrollO s s' fs order (n + 1)) V' W')) ∧
    (∀ i er W', Returns x (unroll s' (newFR fs order) (n + 1)) (decode x d' src (.ok v) (some mem') (some o)) i er W' →
      ∃ V', Returns x (unroll s (oldFR fs) (n + 1)) (decode x d src (.ok v) (some mem) (some o)) i er V' ∧ (er = none → Moved (unrollO s s' fs order (n + 1)) V' W')) ∧
    (decode x d src (.ok v) (some mem) (some o) = none ↔ decode x d' src (.ok v) (some mem') (some o) = none) := by
  have r := RecIdeal.outcome hd hm ht
  have r' := RecIdeal.outcome hd' hm' (Shuffle.tameR_sh hok n true true v ht)
  have hr := Shuffle.dec_vsh (src := src) (o := o) (unrollO s s' fs order (n + 1)) v V W (Shuffle.unrollO_ok hok (n + 1)) hw hs
  rw [Shuffle.unrollO_old, Shuffle.unrollO_new] at hr
  revert r r'
  revert hr
  generalize decV x src (some o) (unroll s (oldFR fs) (n + 1)) v V = a
  generalize decV x src (some o) (unroll s' (newFR fs order) (n + 1)) v W = b
  intro hr r r'
  cases hr with
  | ok hp =>
    refine ⟨fun i er V' h => ?_, fun i er W' h => ?_, ?_⟩
    · obtain ⟨rfl, rfl, rfl⟩ := returns_unique r h; exact ⟨_, r', fun _ => hp⟩
    · obtain ⟨rfl, rfl, rfl⟩ := returns_unique r' h; exact ⟨_, r, fun _ => hp⟩
    · obtain ⟨_, _, h1, -⟩ := r; obtain ⟨_, _, h2, -⟩ := r'; rw [h1, h2]; simp
  | err hp =>
    obtain ⟨V1, r⟩ := r
    obtain ⟨V2, r'⟩ := r'
    refine ⟨fun i er V' h => ?_, fun i er W' h => ?_, ?_⟩
    · obtain ⟨rfl, rfl, rfl⟩ := returns_unique r h; exact ⟨_, r', fun h => by cases h⟩
    · obtain ⟨rfl, rfl, rfl⟩ := returns_unique r' h; exact ⟨_, r, fun h => by cases h⟩
    · obtain ⟨_, _, h1, -⟩ := r; obtain ⟨_, _, h2, -⟩ := r'; rw [h1, h2]; simp
  | crash =>
    refine ⟨fun i er V' h => ?_, fun i er W' h => ?_, ⟨fun _ => r', fun _ => r⟩⟩
    · obtain ⟨_, _, h1, -⟩ := h; rw [r] at h1; cases h1
    · obtain ⟨_, _, h1, -⟩ := h; rw [r'] at h1; cases h1
  | unsup => exact r.elim

/-! ## Examples -/

/-- `P = struct{Next *P; V int}` and `Q = struct{V int; Next *Q}`. -/
def turned : FRFields := [(b!"Next", 0, 8, .ptr), (b!"V", 8, 0, .plain (.same (.scalar (.int .int))))]

theorem turned_old : oldFR turned = demoFields 40 := rfl
theorem turned_new : newFR turned [1, 0] = demoFields 124 := rfl

private theorem fold_apart {a b key : Bytes} (h : (a.map lower == b.map lower) = false) : ¬ ((a.length = key.length ∧ demoX.equalFold a key = true) ∧ (b.length = key.length ∧ demoX.equalFold b key = true)) := by
  rintro ⟨⟨-, h1⟩, -, h2⟩
  have h1' : a.map lower = key.map lower := eq_of_beq h1
  have h2' : b.map lower = key.map lower := eq_of_beq h2
  rw [h1', h2'] at h
  simp at h

theorem turned_ok : OkFR demoX 16 16 turned [1, 0] := by
  refine ⟨by decide, ?_, by decide, ?_⟩
  · intro i j a b hi hj hne
    match i, hi, j, hj with
    | 0, hi, 0, _ => exact absurd rfl hne
    | 1, hi, 1, _ => exact absurd rfl hne
    | 0, hi, 1, hj => cases hi; cases hj; exact ⟨by decide, fun key => fold_apart (by decide)⟩
    | 1, hi, 0, hj => cases hi; cases hj; exact ⟨by decide, fun key => fold_apart (by decide)⟩
    | i + 2, hi, _, _ => cases hi
    | _, _, j + 2, hj => cases hj
  · intro f hf
    simp only [turned, List.mem_cons, List.not_mem_nil, or_false] at hf
    rcases hf with rfl | rfl <;> trivial

/-- The list 1, 2, 3 decodes into both. -/
example : ∃ W', Returns demoX (unroll 16 (newFR turned [1, 0]) 4) (decode demoX (demoDec 124) chain (.ok (demoDoc chain)) (some (zeros 16)) (some defaultOptions)) (-1) none W' ∧
    Moved (unrollO 16 16 turned [1, 0] 4) (.struct [.ptr (.struct [.ptr (.struct [.nil, .int 3]), .int 2]), .int 1]) W' := by
  obtain ⟨-, hd⟩ := demo_rec (t := 40) (by decide)
  obtain ⟨-, hd'⟩ := demo_rec (t := 124) (by decide)
  have hw := (demo_doc (src := chain) (by decide)).2
  have ht : TameR demoX chain (some defaultOptions) (demoFields 40) 3 true true (demoDoc chain) := tameRB_sound 3 true true _ (by decide)
  have hm : Dest demoX (unroll 16 (demoFields 40) 4) (zeros 16) (zeroV demoX (unroll 16 (demoFields 40) 4)) :=
    ⟨rfl, Val.holds_zeros _ (Val.unroll_ok (recDecoder_ready hd).ok _) (by simp [unroll, Ty.size])⟩
  have hm' : Dest demoX (unroll 16 (demoFields 124) 4) (zeros 16) (zeroV demoX (unroll 16 (demoFields 124) 4)) :=
    ⟨rfl, Val.holds_zeros _ (Val.unroll_ok (recDecoder_ready hd').ok _) (by simp [unroll, Ty.size])⟩
  have hz := Shuffle.zero_moved (x := demoX) (unrollO 16 16 turned [1, 0] 4) (Shuffle.unrollO_ok turned_ok 4)
  rw [Shuffle.unrollO_old, Shuffle.unrollO_new] at hz
  have h1 : Returns demoX (unroll 16 (oldFR turned) 4) (decode demoX (demoDec 40) chain (.ok (demoDoc chain)) (some (zeros 16)) (some defaultOptions)) (-1) none
    (.struct [.ptr (.struct [.ptr (.struct [.nil, .int 3]), .int 2]), .int 1]) := C37_reading_partial hd hm ht
  obtain ⟨W', h2, h3⟩ := (C70_recursive_partial turned_ok hd hd' hw ht hm hm' hz).1 _ _ _ h1
  exact ⟨W', h2, h3 rfl⟩

end Verif.Props
