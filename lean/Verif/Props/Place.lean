import Verif.Spec.Place
import Verif.Proof.PlaceRun
import Verif.Proof.Demo
/-!
# C53: white space does not matter
-/
namespace Verif.Props
open Verif.Model Verif.Spec Verif.Proof Verif.Proof.Demo

/-- **C53**: for every decoder, in any state, every destination memory and options: two texts with the same tokens have the same outcome. `UnmarshalJSON` methods, which get the text of their value
with the white space inside, must ignore it. -/
theorem C53_position {x : Ext} {d : Decoder} {src src' : Bytes} {v v' : JVal} (hw : Wf src v) (hw' : Wf src' v') (h : SameDoc src src' v v')
    (hj : ∀ rt, CallsJSON d rt → IgnoresSpace x src src' rt) (mem : Block) (o : Option Options) :
    SameOutcome v v' (decode x d src (.ok v) (some mem) o) (decode x d src' (.ok v') (some mem) o) :=
  Place.decode_same hw hw' h hj mem o

/-- A recursive type: `{"Kids":[{}],"Name":1}` with and without white space, into a zero `struct{Kids []T; Name string}`; the error is reported at the token `1` of each. -/
example : SameOutcome (demoDoc b!"{\"Kids\":[{}],\"Name\":1}") (demoDoc b!" { \"Kids\" : [ { } ] , \"Name\" : 1 } ")
    (decode demoX (demoDec 12) b!"{\"Kids\":[{}],\"Name\":1}" (.ok (demoDoc b!"{\"Kids\":[{}],\"Name\":1}")) (some (zeros 40)) (some defaultOptions))
    (decode demoX (demoDec 12) b!" { \"Kids\" : [ { } ] , \"Name\" : 1 } " (.ok (demoDoc b!" { \"Kids\" : [ { } ] , \"Name\" : 1 } ")) (some (zeros 40)) (some defaultOptions)) := by
  refine C53_position (demo_doc (by decide)).2 (demo_doc (by decide)).2 ?_ ?_ _ _
  · change SameDoc _ _ (.obj _ [(_, .arr _ [.obj _ [] _] _), (_, .num _ _ _)] _) (.obj _ [(_, .arr _ [.obj _ [] _] _), (_, .num _ _ _)] _)
    simp only [SameDoc, SameDocL, SameDocM]
    decide
  · rintro rt ⟨f, hf, h, -⟩
    have : ∀ f ∈ (demoDec 12).frames, ¬ f.type = .jsonUnmarshaler := by decide
    exact absurd h (this f hf)

/-- The outcome of the example: ErrUnexpectedValue, at byte 20 of the first text and byte 31 of the second. -/
example : (decode demoX (demoDec 12) b!"{\"Kids\":[{}],\"Name\":1}" (.ok (demoDoc b!"{\"Kids\":[{}],\"Name\":1}")) (some (zeros 40)) (some defaultOptions)).map (fun r => (r.errIndex, r.err)) =
      some (20, some .unexpectedValue) ∧
    (decode demoX (demoDec 12) b!" { \"Kids\" : [ { } ] , \"Name\" : 1 } " (.ok (demoDoc b!" { \"Kids\" : [ { } ] , \"Name\" : 1 } ")) (some (zeros 40)) (some defaultOptions)).map (fun r => (r.errIndex, r.err)) =
      some (31, some .unexpectedValue) := by decide +kernel

end Verif.Props
