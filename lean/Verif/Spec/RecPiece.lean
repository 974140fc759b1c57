import Verif.Spec.Piece
import Verif.Spec.Recursive
/-!
# Specification: parts of a document for a recursive struct type, decoded separately
-/
namespace Verif.Spec
open Verif.Model Verif.Big

/-- The text is a JSON document, and it is what the caller passes to `Decode`, of any decoder for the recursive struct type, with any variable that holds `W`: `Decode` returns `(i, e)` and leaves `W'`. Values nested at most
`n + 1` deep. -/
def SeparateR (x : Ext) (t : Bytes) (o : Option Options) (size : Nat) (fs : RFields) (n : Nat) (W : Val) (i : Int) (e : Option Err) (W' : Val) : Prop :=
  ∃ v, IsDoc t v ∧ ∀ d mem, RecDecoder x size fs d → Dest x (unroll size fs (n + 1)) mem W →
    Returns x (unroll size fs (n + 1)) (decode x d t (.ok v) (some mem) o) i e W'

/-- The text is a JSON document, and it is what the caller passes to `Decode`, of any decoder for the recursive struct type, with any variable that holds `W`: `Decode` returns the error `e` at `i`. -/
def RefusedR (x : Ext) (t : Bytes) (o : Option Options) (size : Nat) (fs : RFields) (n : Nat) (W : Val) (i : Int) (e : Err) : Prop :=
  ∃ v, IsDoc t v ∧ ∀ d mem, RecDecoder x size fs d → Dest x (unroll size fs (n + 1)) mem W →
    ∃ W', Returns x (unroll size fs (n + 1)) (decode x d t (.ok v) (some mem) o) i (some e) W'

end Verif.Spec
