import Verif.Proof.DropRight
import Verif.Props.Right
import Verif.Props.Unknown
import Verif.Props.Place
/-!
# C31: unknown members have no effect
-/
namespace Verif.Props
open Verif.Model Verif.Spec Verif.Big Verif.Proof Verif.Proof.Demo Verif.Proof.Outcome Verif.Proof.Unique

/-- Two calls of `Decode` have the same effect: both panic, or both return the same error and leave the same value; the index is -1 in both or that of the token with the same number of `v` and `v'`. -/
def SameReturn (x : Ext) (ty : Ty) (v v' : JVal) (r r' : Option DecodeRes) : Prop :=
  (r = none ∧ r' = none) ∨ ∃ i i' e V, Returns x ty r i e V ∧ Returns x ty r' i' e V ∧ ((i = -1 ∧ i' = -1) ∨ SameToken v v' i i')

/-- **C31**, in full, for a type: `w` is the document `v` without some unknown members at any depth, and `src'` is a text of `w`. Without DisallowUnknownFields `Decode` does the same with both texts. -/
def SkipsUnknown (x : Ext) (ty : Ty) (P : Bytes → Options → JVal → Prop) : Prop :=
  ∀ d, DecoderFor x ty d → ∀ src src' v w v' (o : Options) mem V, Wf src v → Wf src' v' → o.disallowUnknownFields = false → P src o v → Without x src o ty v w → SameDoc src src' w v' →
    (∀ rt, CallsJSON d rt → IgnoresSpace x src src' rt) → Dest x ty mem V →
    SameReturn x ty w v' (decode x d src (.ok v) (some mem) (some o)) (decode x d src' (.ok v') (some mem) (some o))

/-- **C31** does not hold: `{"unknown":[{}]}` into a `struct{Foo int}` panics, `{}` does not. -/
theorem C31_refuted : ¬ SkipsUnknown demoX (demoTree 6) (fun _ _ _ => True) := by
  intro h
  have h1 := demo_doc (src := b!"{\"unknown\":[{}]}") (by decide)
  have h2 := demo_doc (src := b!"{}") (by decide)
  have hd := demo_for' (t := 6) (by decide)
  have := h (demoDec 6) hd _ _ (demoDoc b!"{\"unknown\":[{}]}") (.obj 0 [] 15) (demoDoc b!"{}") defaultOptions (zeros 8) _ h1.2 h2.2 rfl trivial
    (.inr ⟨0, _, [], 15, rfl, rfl, .inl ⟨unknown_of (k := (1, 10)) (name := b!"unknown") h1.2.2.2.2.2.1 rfl rfl, rfl⟩⟩) trivial
    (by
      rintro rt ⟨f, hf, h, -⟩
      have : ∀ f ∈ (demoDec 6).frames, ¬ f.type = .jsonUnmarshaler := by decide
      exact absurd h (this f hf)) (zero_dest hd)
  have hn : (decode demoX (demoDec 6) b!"{\"unknown\":[{}]}" (.ok (demoDoc b!"{\"unknown\":[{}]}")) (some (zeros 8)) (some defaultOptions)).isNone = true := by decide +kernel
  have hs : (decode demoX (demoDec 6) b!"{}" (.ok (demoDoc b!"{}")) (some (zeros 8)) (some defaultOptions)).isNone = false := by decide +kernel
  rcases this with ⟨-, h⟩ | ⟨i, i', e, V, ⟨r, m, h, -⟩, -⟩
  · rw [h] at hs; cases hs
  · rw [h] at hn; cases hn

/-- **C31** for types with a tree and documents in which no unknown key has a value that contains an object (and which do not reach the other spots outside `Right`). -/
theorem C31_removed_partial (x : Ext) (ty : Ty) : SkipsUnknown x ty (fun src o v => RightDoc x src (some o) ty v) := by
  intro d hd src src' v w v' o mem V hw hw' ho ht h hs hj hm
  have hww := Drop.without_wf ty hw h
  have ht' := Drop.without_right ty hw ht h
  have he := Drop.decP_eq ho ty hw ⟨_, ht⟩ h V (Safe.holds_typed ty hm.2)
  have hp := C53_position hww hw' hs hj mem (some o)
  have h1 := C35_reading_partial hd hw hm ht
  have h2 := C35_reading_partial hd hww hm ht'
  rw [← he] at h2
  cases hr : decPV x src (some o) ty v V with
  | crash =>
    rw [hr] at h1 h2
    rw [h2] at hp
    refine .inl ⟨h1, ?_⟩
    cases hq : decode x d src' (.ok v') (some mem) (some o) with
    | none => rfl
    | some r => rw [hq] at hp; exact hp.elim
  | unsup => rw [hr] at h1; exact h1.elim
  | ok V' =>
    rw [hr] at h1 h2
    obtain ⟨r, m, g1, g2, g3, g4, g5⟩ := h2
    rw [g1] at hp
    cases hq : decode x d src' (.ok v') (some mem) (some o) with
    | none => rw [hq] at hp; exact hp.elim
    | some r' =>
      rw [hq] at hp
      obtain ⟨p1, p2, -, p3⟩ := hp
      exact .inr ⟨-1, r'.errIndex, none, V', h1, ⟨r', m, rfl, rfl, p1 ▸ g3, p2 ▸ g4, g5⟩, g2 ▸ p3⟩
  | err i e V' =>
    rw [hr] at h1 h2
    obtain ⟨r, m, g1, g2, g3, g4, g5⟩ := h2
    rw [g1] at hp
    cases hq : decode x d src' (.ok v') (some mem) (some o) with
    | none => rw [hq] at hp; exact hp.elim
    | some r' =>
      rw [hq] at hp
      obtain ⟨p1, p2, -, p3⟩ := hp
      exact .inr ⟨i, r'.errIndex, some e, V', h1, ⟨r', m, rfl, rfl, p1 ▸ g3, p2 ▸ g4, g5⟩, g2 ▸ p3⟩

/-- `[{"X":1,"Z":[2]},{"z":0,"Y":3}]` and `[{"X":1},{"Y":3}]` into a `[]struct{X int; Y string}`. -/
example : SameReturn demoX (demoTree 5) (.arr 0 [.obj 1 [((2, 5), .num true 6 7)] 15, .obj 17 [((24, 27), .num true 28 29)] 29] 30) (demoDoc b!"[{\"X\":1},{\"Y\":3}]")
    (decode demoX (demoDec 5) b!"[{\"X\":1,\"Z\":[2]},{\"z\":0,\"Y\":3}]" (.ok (demoDoc b!"[{\"X\":1,\"Z\":[2]},{\"z\":0,\"Y\":3}]")) (some (zeros 24)) (some defaultOptions))
    (decode demoX (demoDec 5) b!"[{\"X\":1},{\"Y\":3}]" (.ok (demoDoc b!"[{\"X\":1},{\"Y\":3}]")) (some (zeros 24)) (some defaultOptions)) := by
  obtain ⟨hd, hm, -, hw, ht⟩ := demo_case (t := 5) (src := b!"[{\"X\":1,\"Z\":[2]},{\"z\":0,\"Y\":3}]") (o := defaultOptions) (by decide) (by decide +kernel) (by decide +kernel)
  have h2 := demo_doc (src := b!"[{\"X\":1},{\"Y\":3}]") (by decide +kernel)
  obtain ⟨⟨-, -, -, -, w1, -, w2, -⟩, ⟨-, -, -, -, w3, -, w4, -⟩, -⟩ := hw.2.2.2.2
  refine C31_removed_partial demoX (demoTree 5) (demoDec 5) hd _ _ _ _ _ defaultOptions _ _ hw h2.2 rfl (C35_contains ht) ?_ ?_ ?_ hm
  · exact .inr ⟨0, _, _, 30, rfl, rfl, _, _, rfl,
      .inr ⟨1, _, _, 15, rfl, rfl, .inr ⟨_, _, rfl, .inl rfl, .inl ⟨unknown_of (k := (8, 11)) (name := b!"Z") w2 rfl rfl, rfl⟩⟩⟩, _, _, rfl,
      .inr ⟨17, _, _, 29, rfl, rfl, .inl ⟨unknown_of (k := (18, 21)) (name := b!"z") w3 rfl rfl, .inr ⟨_, _, rfl, .inl rfl, rfl⟩⟩⟩, rfl⟩
  · change SameDoc _ _ (.arr _ [.obj _ [(_, .num _ _ _)] _, .obj _ [(_, .num _ _ _)] _] _) (.arr _ [.obj _ [(_, .num _ _ _)] _, .obj _ [(_, .num _ _ _)] _] _)
    simp only [SameDoc, SameDocL, SameDocM]
    decide
  · rintro rt ⟨f, hf, h, -⟩
    have : ∀ f ∈ (demoDec 5).frames, ¬ f.type = .jsonUnmarshaler := by decide
    exact absurd h (this f hf)

/-- With a pointer: `{"Z":1,"A":5}` and `{"A":5}` into a `struct{A *int; B int}`. -/
example : SameReturn demoX (demoTree 8) (.obj 0 [((7, 10), .num true 11 12)] 12) (demoDoc b!"{\"A\":5}")
    (decode demoX (demoDec 8) b!"{\"Z\":1,\"A\":5}" (.ok (demoDoc b!"{\"Z\":1,\"A\":5}")) (some (zeros 16)) (some defaultOptions))
    (decode demoX (demoDec 8) b!"{\"A\":5}" (.ok (demoDoc b!"{\"A\":5}")) (some (zeros 16)) (some defaultOptions)) := by
  obtain ⟨hd, hw, hR⟩ := Right.demo_right (t := 8) (src := b!"{\"Z\":1,\"A\":5}") (o := defaultOptions) (by decide) (by decide) (by decide)
  have h2 := demo_doc (src := b!"{\"A\":5}") (by decide)
  refine C31_removed_partial demoX (demoTree 8) (demoDec 8) hd _ _ _ _ _ defaultOptions _ _ hw h2.2 rfl hR ?_ ?_ ?_ (zero_dest hd)
  · exact .inr ⟨0, _, _, 12, rfl, rfl, .inl ⟨unknown_of (k := (1, 4)) (name := b!"Z") hw.2.2.2.2.1 rfl rfl, .inr ⟨_, _, rfl, .inl rfl, rfl⟩⟩⟩
  · change SameDoc _ _ (.obj _ [(_, .num _ _ _)] _) (.obj _ [(_, .num _ _ _)] _)
    simp only [SameDoc, SameDocM]
    decide
  · rintro rt ⟨f, hf, h, -⟩
    have : ∀ f ∈ (demoDec 8).frames, ¬ f.type = .jsonUnmarshaler := by decide
    exact absurd h (this f hf)

end Verif.Props
