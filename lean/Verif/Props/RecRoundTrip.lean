import Verif.Proof.RecEncode
import Verif.Props.RecMore
import Verif.Props.RoundTrip
/-!
# C54 for recursive struct types: decoding the encoding of a value gives the value back
-/
namespace Verif.Props
open Verif.Model Verif.Spec Verif.Big Verif.Proof Verif.Proof.Reads Verif.Proof.Demo Verif.Proof.Means

theorem rec_nonempty {x : Ext} {size : Nat} {fs : RFields} {d : Decoder} (hd : RecDecoder x size fs d) : fs ≠ [] := by
  induction hd with
  | new h _ =>
    obtain ⟨-, -, -, -, -, -, -, h⟩ := h
    rintro rfl; cases h
  | refused _ _ _ ih => exact ih
  | call _ _ _ _ _ ih => exact ih

/-- **C54** for recursive struct types without `[]T`, or in which the only field that refers to `T` is the last one: a value of any depth (a list, a tree) is written as a JSON document that is read back. Missing: other
recursive types (the order of members in which fields are written leads into C37), empty maps for `map[K]T`. -/
theorem C54_recursive_partial {x : Ext} (hx : FloatContract x) (hf : x.tokFloat64 = x.parseFloat64) {fmt : FKind → Flt → Bytes} {size : Nat} {fs : RFields} (hr : RoundR fs) {d : Decoder} (hd : RecDecoder x size fs d)
    {n : Nat} {V : Val} (h : CanEncodeR x fmt size fs n V) (hm : MapsFull fs V) {o : Options} (hn : NamesOKR o fs) :
    ∃ v, IsDoc (encode fmt (unroll size fs (n + 1)) V) v ∧
      ∃ V', Returns x (unroll size fs (n + 1)) (decode x d (encode fmt (unroll size fs (n + 1)) V) (.ok v) (some (zeros size)) (some o)) (-1) none V' ∧ SameVal V V' := by
  obtain ⟨v, h1, h2, h3, h4⟩ := Encode.rec_doc (rec_nonempty hd) hr hn h hm
  obtain ⟨V', g1, g2⟩ := C37_decodes_partial hx hf hd (json_wf h1) h3 h4 h2
  exact ⟨v, h1, V', g1, means_unique h2 g2⟩

/-- The list of the given numbers, as a value of `struct{Next *T; V int}`, first number in front. -/
def listOf : List Int → Val
  | [] => .struct [.nil, .int 0]
  | i :: is => .struct [.ptr (listOf is), .int i]

/-- Every list of numbers in the range of `int`, of any length. -/
example (is : List Int) (hi : ∀ i ∈ is, InRange true .int i) : ∃ v, IsDoc (encode (fun _ _ => []) (unroll 16 (demoFields 40) (is.length + 2)) (listOf is)) v ∧
    ∃ V', Returns demoX (unroll 16 (demoFields 40) (is.length + 2)) (decode demoX (demoDec 40) (encode (fun _ _ => []) (unroll 16 (demoFields 40) (is.length + 2)) (listOf is)) (.ok v) (some (zeros 16))
      (some defaultOptions)) (-1) none V' ∧ SameVal (listOf is) V' := by
  obtain ⟨-, hd⟩ := demo_rec (t := 40) (by decide)
  have hfs : demoFields 40 = [(b!"Next", 0, .ptr), (b!"V", 8, .plain (.scalar (.int .int)))] := rfl
  have hnull : ∀ m is, encode (fun _ _ => []) (unroll 16 (demoFields 40) (m + 1)) (listOf is) ≠ b!"null" := by
    intro m is
    cases is with
    | nil => show 123 :: _ ≠ _; simp
    | cons => show 123 :: _ ≠ _; simp
  have hc : ∀ (is : List Int), (∀ i ∈ is, InRange true .int i) → ∀ m, is.length + 1 ≤ m → CanEncode demoX (fun _ _ => []) (unroll 16 (demoFields 40) m) (listOf is) := by
    intro is
    induction is with
    | nil =>
      intro _ m hm
      obtain ⟨m, rfl⟩ : ∃ k, m = k + 1 := ⟨m - 1, by simp at hm; omega⟩
      exact ⟨_, rfl, _, _, rfl, .inl rfl, _, _, rfl, ⟨0, rfl, by show InRange true .int 0; simp [InRange, IKind.signed, IKind.bits]⟩, rfl⟩
    | cons i is ih =>
      intro hi m hm
      obtain ⟨m, rfl⟩ : ∃ k, m = k + 2 := ⟨m - 2, by simp at hm; omega⟩
      refine ⟨_, rfl, _, _, rfl, .inr ⟨_, rfl, hnull m is, ih (fun j hj => hi j (List.mem_cons_of_mem _ hj)) (m + 1) (by simp at hm ⊢; omega)⟩, _, _, rfl, ⟨i, rfl, hi i List.mem_cons_self⟩, rfl⟩
  have hround : RoundR (demoFields 40) := by
    rw [hfs]
    refine ⟨?_, .inl ?_⟩
    · intro f hf t ht
      simp only [List.mem_cons, List.not_mem_nil, or_false] at hf
      rcases hf with rfl | rfl
      · cases ht
      · cases ht; rfl
    · intro f hf
      simp only [List.mem_cons, List.not_mem_nil, or_false] at hf
      rcases hf with rfl | rfl <;> simp
  have hnames : NamesOKR defaultOptions (demoFields 40) := by
    rw [hfs]
    refine ⟨by decide, fun f hf => ⟨(fun h => by cases h), fun t ht => ?_⟩⟩
    simp only [List.mem_cons, List.not_mem_nil, or_false] at hf
    rcases hf with rfl | rfl
    · cases ht
    · cases ht; trivial
  have hmaps : MapsFull (demoFields 40) (listOf is) := by
    rw [hfs]
    refine .inl fun f hf k => ?_
    simp only [List.mem_cons, List.not_mem_nil, or_false] at hf
    rcases hf with rfl | rfl <;> simp
  exact C54_recursive_partial demo_floats rfl hround hd (n := is.length + 1) (fun m hm => hc is hi m hm) hmaps hnames

end Verif.Props
