import Verif.Props.Right
import Verif.Props.Bounds
/-!
# C38 and C72 on `RightDoc` documents
-/
namespace Verif.Props
open Verif.Model Verif.Spec Verif.Big Verif.Proof Verif.Proof.Demo Verif.Proof.Outcome Verif.Proof.Reads

/-- **C38, partial** (missing: documents outside `RightDoc` for types with arrays, `C38_refuted_success`): with non-null pointers at the right ends too, what was decoded before makes no difference. -/
theorem C38_right_partial {x : Ext} {ty : Ty} {d d' : Decoder} (hd : DecoderFor x ty d) (hd' : DecoderFor x ty d') {src : Bytes} {v : JVal} (hw : Wf src v) {mem : Block} {V : Val}
    (hm : Dest x ty mem V) {o : Option Options} (hR : RightDoc x src o ty v) :
    observe (decode x d src (.ok v) (some mem) o) = observe (decode x d' src (.ok v) (some mem) o) := by
  have h1 := Right.decode_right (decoderFor_ready hd) (src := src) (v := v) (o := o) hm.1 hm.2 hw hR
  have h2 := Right.decode_right (decoderFor_ready hd') (src := src) (v := v) (o := o) hm.1 hm.2 hw hR
  have hne := Right.decP_ne (x := x) (src := src) (o := o) ty .final v mem 0 hR
  cases hr : decP x src o ty v mem 0 with
  | ok b =>
    rw [hr] at h1 h2
    obtain ⟨a, ha⟩ := h1
    obtain ⟨b, hb⟩ := h2
    rw [ha, hb]; rfl
  | err i e b =>
    rw [hr] at h1 h2
    obtain ⟨a, ha⟩ := h1
    obtain ⟨b, hb⟩ := h2
    rw [ha, hb]; rfl
  | crash =>
    rw [hr] at h1 h2
    rw [h1, h2]
  | unsup => exact absurd hr hne

/-- **C72, partial**: every type with a tree, slices of structs and pointers included, on `RightDoc` documents: nothing is addressed out of bounds. -/
theorem C72_right_partial {x : Ext} {ty : Ty} {d : Decoder} (hd : DecoderFor x ty d) {src : Bytes} {v : JVal} (hw : Wf src v) {mem : Block} {V : Val} (hm : Dest x ty mem V) {o : Options}
    (hR : RightDoc x src (some o) ty v) (hc : ty.callable = true) (hq : ty.noQuotedNum = true ∨ noEmptyStr v = true) {s : St} (hs : During (callOf x d src v (some o)) (initSt d.dyn mem) s) :
    step (callOf x d src v (some o)) s ≠ .crash := by
  obtain ⟨i, e, V', r, mem', hr, -⟩ := C24_right_partial hd hw hm hR hc hq
  exact C72_returns hr hs

/-- A case for both: `[null,7]` into a nil `[]*int`. -/
example : (∀ d', DecoderFor demoX (demoTree 9) d' → observe (decode demoX (demoDec 9) b!"[null,7]" (.ok (demoDoc b!"[null,7]")) (some (zeros 24)) (some defaultOptions)) =
      observe (decode demoX d' b!"[null,7]" (.ok (demoDoc b!"[null,7]")) (some (zeros 24)) (some defaultOptions))) ∧
    ∀ s, During (callOf demoX (demoDec 9) b!"[null,7]" (demoDoc b!"[null,7]") (some defaultOptions)) (initSt (demoDec 9).dyn (zeros 24)) s →
      step (callOf demoX (demoDec 9) b!"[null,7]" (demoDoc b!"[null,7]") (some defaultOptions)) s ≠ .crash := by
  obtain ⟨hd, hw, hR⟩ := Right.demo_right (t := 9) (src := b!"[null,7]") (o := defaultOptions) (by decide) (by decide) (by decide)
  exact ⟨fun d' hd' => C38_right_partial hd hd' hw (zero_dest hd) hR, fun s hs => C72_right_partial hd hw (zero_dest hd) hR (by decide) (.inl (by decide)) hs⟩

end Verif.Props
