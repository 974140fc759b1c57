import Verif.Spec.Place
import Verif.Spec.Json
import Verif.Spec.Session
/-!
# Specification: parts of a document as documents
-/
namespace Verif.Spec
open Verif Verif.Model Verif.Big

/-- The value `w` is a part of the value `v`: the value itself, or a part of an element or of a member. -/
inductive Inside (w : JVal) : JVal → Prop
  | self : Inside w w
  | elem {i k : Nat} {vs : List JVal} {u : JVal} : u ∈ vs → Inside w u → Inside w (.arr i vs k)
  | member {i k : Nat} {ms : List ((Nat × Nat) × JVal)} {m : (Nat × Nat) × JVal} : m ∈ ms → Inside w m.2 → Inside w (.obj i ms k)

/-- The text of a value, from its first byte to its last. -/
def textOf (src : Bytes) (w : JVal) : Bytes := text src w.index w.stop

/-- Two calls of `Decode` have the same effect, the second on a text that starts `k` bytes later: both panic, or both return the same error and leave the same memory and the same decoder; the error index is -1 in both or
that of the first call is `k` more. -/
def ShiftedBy (k : Nat) : Option DecodeRes → Option DecodeRes → Prop
  | none, none => True
  | some r, some r' => r.err = r'.err ∧ r.mem = r'.mem ∧ r.dec = r'.dec ∧ ((r.errIndex = -1 ∧ r'.errIndex = -1) ∨ ∃ p : Nat, r'.errIndex = p ∧ r.errIndex = k + p)
  | _, _ => False

/-- The text is a JSON document, and it is what the caller passes to `Decode`, of any decoder for the type, with any variable that holds `W`: `Decode` returns `(i, e)` and leaves `W'`. -/
def Separate (x : Ext) (t : Bytes) (o : Option Options) (ty : Ty) (W : Val) (i : Int) (e : Option Err) (W' : Val) : Prop :=
  ∃ v, IsDoc t v ∧ ∀ d mem, DecoderFor x ty d → Dest x ty mem W → Returns x ty (decode x d t (.ok v) (some mem) o) i e W'

end Verif.Spec
