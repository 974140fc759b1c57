import Verif.Props.Grow
import Verif.Props.Right
/-!
# C58 is false of the code for slices of pointers
-/
namespace Verif.Props
open Verif Verif.Model Verif.Spec Verif.Big Verif.Proof Verif.Proof.Outcome Verif.Proof.Unique Verif.Proof.Comp Verif.Proof.Demo

/-- The first half of C58 in full, for slices of type `ty` with elements of type `e`. -/
def DecodesInto (x : Ext) (ty e : Ty) : Prop :=
  ∀ d, DecoderFor x ty d → ∀ src i vs z, Wf src (.arr i vs z) → ∀ mem V, Dest x ty mem V → ∀ (o : Options) V', Returns x ty (decode x d src (.ok (.arr i vs z)) (some mem) (some o)) (-1) none V' →
    ∀ (j : Nat) (v : JVal) (W : Val), vs[j]? = some v → (elements V)[j]? = some W →
      ∃ W', (elements V')[j]? = some W' ∧
        ∀ de memj, DecoderFor x e de → Dest x e memj W → Returns x e (decode x de src (.ok v) (some memj) (some o)) (-1) none W'

/-- A `[]*int` with two nil elements. -/
theorem demo_nils : Dest demoX (demoTree 9) (seg 24 (.slice 2 2 (zeros 16))) (.slice [.nil, .nil] []) := by
  refine ⟨rfl, by decide, .inr ⟨_, [_, _], [], rfl, rfl, rfl, fun j W hW => ?_⟩⟩
  match j, hW with
  | 0, hW => cases hW; exact ⟨by decide, .inl ⟨rfl, rfl⟩⟩
  | 1, hW => cases hW; exact ⟨by decide, .inl ⟨rfl, rfl⟩⟩

/-- A `[]*int` with the elements `&2` and nil. -/
theorem demo_two_nil : Dest demoX (demoTree 9) (seg 24 (.slice 2 2 (seg 8 (.ptr (seg 8 (.int 2))) ++ zeros 8))) (.slice [.ptr (.int 2), .nil] []) := by
  refine ⟨rfl, by decide, .inr ⟨_, [_, _], [], rfl, rfl, rfl, fun j W hW => ?_⟩⟩
  match j, hW with
  | 0, hW => cases hW; exact ⟨by decide, .inr ⟨_, _, rfl, rfl, by decide, by decide, .inr ⟨2, rfl, rfl⟩⟩⟩
  | 1, hW => cases hW; exact ⟨by decide, .inl ⟨rfl, rfl⟩⟩

/-- **C58 is false of the code** for slices of pointers (see C35): `[1,2]` decoded into a `[]*int` of length 2 succeeds and leaves `&2` in the first element. -/
theorem C58_refuted : SliceOf (demoTree 9) (demoTree 7) ∧ ¬ DecodesInto demoX (demoTree 9) (demoTree 7) := by
  refine ⟨.gen (demoTree 7), fun h => ?_⟩
  have hd : DecoderFor demoX (demoTree 9) (demoDec 9) := demo_for' (t := 9) (by decide)
  have hw := (demo_doc (src := b!"[1,2]") (by decide)).2
  have hr : (decode demoX (demoDec 9) b!"[1,2]" (.ok (.arr 0 [.num true 1 2, .num true 3 4] 4)) (some (seg 24 (.slice 2 2 (zeros 16)))) (some defaultOptions)).map (fun r => (r.errIndex, r.err, r.mem)) =
      some (-1, none, some (seg 24 (.slice 2 2 (seg 8 (.ptr (seg 8 (.int 2))) ++ zeros 8)))) := by
    set_option maxRecDepth 20000 in
    rfl
  have r : Returns demoX (demoTree 9) (decode demoX (demoDec 9) b!"[1,2]" (.ok (.arr 0 [.num true 1 2, .num true 3 4] 4)) (some (seg 24 (.slice 2 2 (zeros 16)))) (some defaultOptions)) (-1) none
      (.slice [.ptr (.int 2), .nil] []) := by
    obtain ⟨r, h1, h2⟩ := Option.map_eq_some_iff.1 hr
    simp only [Prod.mk.injEq] at h2
    exact ⟨r, _, h1, h2.1, h2.2.1, h2.2.2, demo_two_nil⟩
  obtain ⟨W', h1, h2⟩ := h _ hd b!"[1,2]" 0 [.num true 1 2, .num true 3 4] 4 hw _ _ demo_nils _ _ r 0 _ _ rfl rfl
  cases h1
  have hde : DecoderFor demoX (demoTree 7) (demoDec 7) := demo_for' (t := 7) (by decide)
  have g := h2 _ _ hde (zero_dest hde)
  have g' : Returns demoX (demoTree 7) (decode demoX (demoDec 7) b!"[1,2]" (.ok (.num true 1 2)) (some (zeros 8)) (some defaultOptions)) (-1) none (.ptr (.int 1)) :=
    returns_ok hde (zero_dest hde) (tameDocB_sound _ (by decide +kernel)) rfl
  have := (returns_unique g g').2.2
  simp at this

end Verif.Props
