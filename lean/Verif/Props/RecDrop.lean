import Verif.Proof.RecDrop
import Verif.Props.RecMore
import Verif.Props.Drop
/-!
# C31 for recursive struct types: unknown members have no effect
-/
namespace Verif.Props
open Verif.Model Verif.Spec Verif.Big Verif.Proof Verif.Proof.Reads Verif.Proof.Demo Verif.Proof.Means

/-- As `SameReturn`, without the value left by an error. -/
def SameResult (x : Ext) (ty : Ty) (v v' : JVal) (r r' : Option DecodeRes) : Prop :=
  (r = none ∧ r' = none) ∨
  (∃ V, Returns x ty r (-1) none V ∧ Returns x ty r' (-1) none V) ∨
  ∃ i i' e V V', Returns x ty r i (some e) V ∧ Returns x ty r' i' (some e) V' ∧ ((i = -1 ∧ i' = -1) ∨ SameToken v v' i i')

/-- **C31** for recursive struct types: `w` is the document `v` without some unknown members at any depth, and `src'` is a text of `w`. Without DisallowUnknownFields `Decode` gives the same result for both texts. Missing:
that an error leaves the same value. Nothing is assumed about the spots the document `w` reaches. -/
theorem C31_recursive_partial {x : Ext} {size : Nat} {fs : RFields} {d : Decoder} (hd : RecDecoder x size fs d) {src src' : Bytes} {v w v' : JVal} {n : Nat} {o : Options} (hw : Wf src v) (hw' : Wf src' v')
    (ho : o.disallowUnknownFields = false) (ht : TameR x src (some o) fs n true true v) (h : Without x src o (unroll size fs (n + 1)) v w) (hs : SameDoc src src' w v')
    (hj : ∀ rt, CallsJSON d rt → IgnoresSpace x src src' rt) {mem : Block} {V : Val} (hm : Dest x (unroll size fs (n + 1)) mem V) :
    SameResult x (unroll size fs (n + 1)) w v' (decode x d src (.ok v) (some mem) (some o)) (decode x d src' (.ok v') (some mem) (some o)) := by
  have ht' := Drop.without_tameR n true true v w hw ht h
  have h1 := RecIdeal.outcome hd hm ht
  have h2 := RecIdeal.outcome hd hm ht'
  have hp := C53_position (Drop.without_wf _ hw h) hw' hs hj mem (some o)
  rcases Drop.dec_un ho _ hw h V (Safe.holds_typed _ hm.2) with he | he
  · rw [he] at h1; exact h1.elim
  rw [he] at h1
  cases hr : decV x src (some o) (unroll size fs (n + 1)) w V with
  | crash =>
    rw [hr] at h1 h2
    simp only [] at h1 h2
    rw [h2] at hp
    refine .inl ⟨h1, ?_⟩
    cases hq : decode x d src' (.ok v') (some mem) (some o) with
    | none => rfl
    | some r => rw [hq] at hp; exact hp.elim
  | unsup => rw [hr] at h1; exact h1.elim
  | ok V' =>
    rw [hr] at h1 h2
    obtain ⟨r, m, g1, g2, g3, g4, g5⟩ := h2
    rw [g1] at hp
    cases hq : decode x d src' (.ok v') (some mem) (some o) with
    | none => rw [hq] at hp; exact hp.elim
    | some r' =>
      rw [hq] at hp
      obtain ⟨p1, p2, -, p3⟩ := hp
      refine .inr (.inl ⟨V', h1, ⟨r', m, rfl, ?_, p1 ▸ g3, p2 ▸ g4, g5⟩⟩)
      rcases p3 with ⟨-, p3⟩ | p3
      · exact p3
      · obtain ⟨k, a, a', -, -, q1, -⟩ := p3
        rw [g2] at q1; omega
  | err i e V' =>
    rw [hr] at h1 h2
    obtain ⟨V1, h1⟩ := h1
    obtain ⟨V2, r, m, g1, g2, g3, g4, g5⟩ := h2
    rw [g1] at hp
    cases hq : decode x d src' (.ok v') (some mem) (some o) with
    | none => rw [hq] at hp; exact hp.elim
    | some r' =>
      rw [hq] at hp
      obtain ⟨p1, p2, -, p3⟩ := hp
      exact .inr (.inr ⟨i, r'.errIndex, e, V1, V2, h1, ⟨r', m, rfl, rfl, p1 ▸ g3, p2 ▸ g4, g5⟩, g2 ▸ p3⟩)

/-- A tree with unknown members in two nodes, and the same tree without them. -/
example : SameResult demoX (unroll 40 (demoFields 12) 4) (.obj 0 [((1, 7), .arr 8 [.obj 9 [((10, 16), .str 17 20)] 28, .obj 30 [((37, 43), .arr 44 [.obj 45 [] 46] 47)] 48] 49)] 50) (demoDoc b!"{\"Kids\":[{\"Name\":\"a\"},{\"Kids\":[{}]}]}")
    (decode demoX (demoDec 12) b!"{\"Kids\":[{\"Name\":\"a\",\"x\":[0]},{\"x\":1,\"Kids\":[{}]}]}" (.ok (demoDoc b!"{\"Kids\":[{\"Name\":\"a\",\"x\":[0]},{\"x\":1,\"Kids\":[{}]}]}")) (some (zeros 40)) (some defaultOptions))
    (decode demoX (demoDec 12) b!"{\"Kids\":[{\"Name\":\"a\"},{\"Kids\":[{}]}]}" (.ok (demoDoc b!"{\"Kids\":[{\"Name\":\"a\"},{\"Kids\":[{}]}]}")) (some (zeros 40)) (some defaultOptions)) := by
  obtain ⟨-, hd⟩ := demo_rec (t := 12) (by decide)
  have h1 := demo_doc (src := b!"{\"Kids\":[{\"Name\":\"a\",\"x\":[0]},{\"x\":1,\"Kids\":[{}]}]}") (by decide)
  have h2 := demo_doc (src := b!"{\"Kids\":[{\"Name\":\"a\"},{\"Kids\":[{}]}]}") (by decide)
  have ht : TameR demoX b!"{\"Kids\":[{\"Name\":\"a\",\"x\":[0]},{\"x\":1,\"Kids\":[{}]}]}" (some defaultOptions) (demoFields 12) 3 true true (demoDoc b!"{\"Kids\":[{\"Name\":\"a\",\"x\":[0]},{\"x\":1,\"Kids\":[{}]}]}") :=
    tameRB_sound 3 true true _ (by decide)
  obtain ⟨w0, ⟨-, -, -, -, ⟨-, -, -, -, w1, -, w2, -⟩, ⟨-, -, -, -, w3, -, w4, -⟩, -⟩, -⟩ := h1.2.2.2.2.2
  refine C31_recursive_partial (w := (.obj 0 [((1, 7), .arr 8 [.obj 9 [((10, 16), .str 17 20)] 28, .obj 30 [((37, 43), .arr 44 [.obj 45 [] 46] 47)] 48] 49)] 50)) hd h1.2 h2.2 rfl ht ?_ ?_ ?_ (rec_zero hd 3)
  · refine .inr ⟨0, _, _, 50, rfl, rfl, .inr ⟨_, _, rfl, .inr ⟨0, _, selects_of (k := (1, 7)) (name := b!"Kids") w0 rfl rfl, rfl, .inr ⟨8, _, _, 49, rfl, rfl, _, _, rfl, ?_, _, _, rfl, ?_, rfl⟩⟩, rfl⟩⟩
    · exact .inr ⟨9, _, _, 28, rfl, rfl, .inr ⟨_, _, rfl, .inl rfl, .inl ⟨unknown_of (k := (21, 24)) (name := b!"x") w2 rfl rfl, rfl⟩⟩⟩
    · exact .inr ⟨30, _, _, 48, rfl, rfl, .inl ⟨unknown_of (k := (31, 34)) (name := b!"x") w3 rfl rfl, .inr ⟨_, _, rfl, .inl rfl, rfl⟩⟩⟩
  · change SameDoc _ _ (.obj _ [(_, .arr _ [.obj _ [(_, .str _ _)] _, .obj _ [(_, .arr _ [.obj _ [] _] _)] _] _)] _) (.obj _ [(_, .arr _ [.obj _ [(_, .str _ _)] _, .obj _ [(_, .arr _ [.obj _ [] _] _)] _] _)] _)
    simp only [SameDoc, SameDocL, SameDocM]
    decide
  · rintro rt ⟨f, hf, h, -⟩
    have : ∀ f ∈ (demoDec 12).frames, ¬ f.type = .jsonUnmarshaler := by decide
    exact absurd h (this f hf)

end Verif.Props
