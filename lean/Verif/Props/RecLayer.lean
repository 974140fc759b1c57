import Verif.Props.Layer
import Verif.Props.RecTypes
/-!
# C67 for recursive struct types
-/
namespace Verif.Props
open Verif.Model Verif.Spec Verif.Big Verif.Proof Verif.Proof.Reads Verif.Proof.Demo

theorem layer_tameR {x : Ext} {src : Bytes} {o : Option Options} {fs : RFields} {n a z : Nat} {ms1 ms2 : List ((Nat × Nat) × JVal)} (h : TameR x src o fs n true true (.obj a (ms1 ++ ms2) z)) :
    TameR x src o fs n true true (.obj a ms1 z) ∧ TameR x src o fs n true true (.obj a ms2 z) := by
  cases n with
  | zero => exact h.elim
  | succ n =>
    refine ⟨fun i ms k he j m hm o' ho' raw name h1 h2 => ?_, fun i ms k he j m hm o' ho' raw name h1 h2 => ?_⟩
    · cases he
      have := h _ _ _ rfl j m (by rw [List.getElem?_append_left (List.getElem?_eq_some_iff.1 hm).1]; exact hm) o' ho' raw name h1 h2
      revert this
      split
      · exact fun h f hf => ⟨(h f hf).1, fun hc => by (cases hc)⟩
      · exact id
    · cases he
      have := h _ _ _ rfl (ms1.length + j) m (by rw [List.getElem?_append_right (by omega)]; simpa using hm) o' ho' raw name h1 h2
      revert this
      split
      · exact fun h f hf => ⟨(h f hf).1, fun hc => by (cases hc)⟩
      · exact id

theorem layer_readsR {x : Ext} {src : Bytes} {o : Options} {size : Nat} {fs : RFields} {n a z : Nat} {ms1 ms2 : List ((Nat × Nat) × JVal)} {V : Val} (hV : Safe.HasTy (unroll size fs (n + 1)) V)
    (ht : TameR x src (some o) fs n true true (.obj a (ms1 ++ ms2) z)) :
    decRV x src (some o) size fs n (.obj a (ms1 ++ ms2) z) V = thenV (decRV x src (some o) size fs n (.obj a ms1 z) V) (decRV x src (some o) size fs n (.obj a ms2 z)) := by
  cases n with
  | zero => exact ht.elim
  | succ n =>
    obtain ⟨Ws, rfl, -⟩ := hV
    simp only [decRV]
    by_cases h1 : ms1 = []
    · subst h1; simp [thenV]
    · rw [if_neg (by simp [h1]), if_neg h1, structV_append]
      cases structV x src o _ ms1 Ws with
      | ok Ws1 =>
        simp only [thenV, R.map]
        by_cases h2 : ms2 = []
        · subst h2; simp [structV, R.map]
        · rw [if_neg h2]
      | err i e W => rfl
      | crash => rfl
      | unsup => rfl

/-- **C67, partial**: recursive struct types, documents of any depth within `TameR`. -/
theorem C67_recursive_partial (x : Ext) (size : Nat) (fs : RFields) (n : Nat) : LayersOf x (unroll size fs (n + 1)) (RecDecoder x size fs) (fun src o v => TameR x src (some o) fs n true true v) :=
  layers_core (fun src o => decRV x src (some o) size fs n) (fun _ _ _ _ hd _ ht _ _ hm => C37_reading_partial hd hm ht) (fun _ _ _ _ _ _ => layer_tameR) fun _ _ _ _ _ _ _ hV ht => layer_readsR hV ht

/-- `{"Next":{"V":2}}` and then `{"V":1}` into a `struct{V int; Next *T}` leave what `{"Next":{"V":2},"V":1}` leaves: the list 1, 2. -/
example : ∃ mem1 V1 V2,
    Returns demoX (unroll 16 (demoFields 40) 4) (decode demoX (demoDec 40) b!"{\"Next\":{\"V\":2}}" (.ok (demoDoc b!"{\"Next\":{\"V\":2}}")) (some (zeros 16)) (some defaultOptions)) (-1) none V1 ∧
    Dest demoX (unroll 16 (demoFields 40) 4) mem1 V1 ∧
    Returns demoX (unroll 16 (demoFields 40) 4) (decode demoX (demoDec 40) b!"{\"V\":1}" (.ok (demoDoc b!"{\"V\":1}")) (some mem1) (some defaultOptions)) (-1) none V2 ∧
    Returns demoX (unroll 16 (demoFields 40) 4) (decode demoX (demoDec 40) b!"{\"Next\":{\"V\":2},\"V\":1}" (.ok (demoDoc b!"{\"Next\":{\"V\":2},\"V\":1}")) (some (zeros 16)) (some defaultOptions)) (-1) none V2 ∧
    V2 = .struct [.ptr (.struct [.nil, .int 2]), .int 1] := by
  obtain ⟨-, hd⟩ := demo_rec (t := 40) (by decide)
  have hw1 := (demo_doc (src := b!"{\"Next\":{\"V\":2}}") (by decide)).2
  have hw2 := (demo_doc (src := b!"{\"V\":1}") (by decide)).2
  have hw3 := (demo_doc (src := b!"{\"Next\":{\"V\":2},\"V\":1}") (by decide)).2
  have ht1 : TameR demoX b!"{\"Next\":{\"V\":2}}" (some defaultOptions) (demoFields 40) 3 true true (demoDoc b!"{\"Next\":{\"V\":2}}") := tameRB_sound 3 true true _ (by decide)
  have ht2 : TameR demoX b!"{\"V\":1}" (some defaultOptions) (demoFields 40) 3 true true (demoDoc b!"{\"V\":1}") := tameRB_sound 3 true true _ (by decide)
  have ht3 : TameR demoX b!"{\"Next\":{\"V\":2},\"V\":1}" (some defaultOptions) (demoFields 40) 3 true true (demoDoc b!"{\"Next\":{\"V\":2},\"V\":1}") := tameRB_sound 3 true true _ (by decide)
  have hm : Dest demoX (unroll 16 (demoFields 40) 4) (zeros 16) (zeroV demoX (unroll 16 (demoFields 40) 4)) :=
    ⟨rfl, Val.holds_zeros _ (Val.unroll_ok (recDecoder_ready hd).ok _) (by simp [unroll, Ty.size])⟩
  have r1 : Returns demoX (unroll 16 (demoFields 40) 4) _ (-1) none (.struct [.ptr (.struct [.nil, .int 2]), .int 0]) := C37_reading_partial hd hm ht1
  obtain ⟨-, mem1, -, -, -, -, hm1⟩ := id r1
  have r2 : Returns demoX (unroll 16 (demoFields 40) 4) _ (-1) none (.struct [.ptr (.struct [.nil, .int 2]), .int 1]) := C37_reading_partial hd hm1 ht2
  obtain ⟨i', q, h⟩ := C67_recursive_partial demoX 16 (demoFields 40) 3 _ _ _ hd hd hd _ _ b!"{\"Next\":{\"V\":2},\"V\":1}" 0 [((1, 7), .obj 8 [((9, 12), .num true 13 14)] 14)] 15 0 [((1, 4), .num true 5 6)] 6
    0 [((1, 7), .obj 8 [((9, 12), .num true 13 14)] 14)] [((16, 19), .num true 20 21)] 21 hw1 hw2 hw3 (by simp only [SameDoc, SameDocM]; decide) (by simp only [SameDoc, SameDocM]; decide)
    (layer_json (by decide)) (layer_json (by decide)) defaultOptions ht3 _ _ _ _ _ hm r1 _ hm _ _ _ _ hm1 r2
  rcases h with ⟨-, rfl⟩ | ⟨k, a, a', -, -, h, -⟩
  · exact ⟨_, _, _, r1, hm1, r2, q, rfl⟩
  · exact absurd h (by omega)

end Verif.Props
