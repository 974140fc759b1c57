import Verif.Model.Api
/-!
# Specification: calls of `Decode` and their verdicts
-/
namespace Verif.Spec
open Verif.Model

/-- Whether the unmarshaler methods called by the decoder fail, and with which error, depends only on their argument, not on the old value of the receiver. -/
def MethodsJudge (x : Ext) (d : Decoder) : Prop :=
  ∀ f ∈ d.frames, ∀ rt, f.rtype = some rt →
    (f.type = .jsonUnmarshaler → ∀ old old' b, (x.unmarshalJSON rt old b).2 = (x.unmarshalJSON rt old' b).2) ∧
    (f.type = .textUnmarshaler → ∀ old old' b, (x.unmarshalText rt old b).2 = (x.unmarshalText rt old' b).2)

/-- The arguments of a call of `Decode` other than the destination: the text, what the tokenizer says about it, and the options. -/
structure Call where
  src : Bytes
  doc : Except (Nat × Nat) JVal
  options : Option Options

/-- The returned error index and error of each call of a sequence of calls of one decoder, with one destination for each; `none` if one of them panics. -/
def verdicts (x : Ext) : Decoder → List Call → List Block → Option (List (Int × Option Err))
  | d, c :: cs, m :: ms =>
    match decode x d c.src c.doc (some m) c.options with
    | none => none
    | some r => (verdicts x r.dec cs ms).map ((r.errIndex, r.err) :: ·)
  | _, _, _ => some []

end Verif.Spec
