import Verif.Spec.Session
import Verif.Spec.NoSlices
/-!
# Specification: the memory a call of `Decode` works on
-/
namespace Verif.Spec
open Verif.Model Verif.Big

/-- The call of `Decode` with a well-formed document, as a program of the machine. -/
def callOf (x : Ext) (d : Decoder) (src : Bytes) (v : JVal) (o : Option Options) : Prog :=
  { x := x, src := src, toks := flatten 0 v, frames := d.frames, options := o, epoch := d.calls }

/-- The states the call passes through, from the first one on. -/
inductive During (pr : Prog) (s₀ : St) : St → Prop
  | start : During pr s₀ s₀
  | next {s s' : St} : During pr s₀ s → step pr s = .run s' → During pr s₀ s'

/-- The decoder is about to work on a value of the size given by the current frame, at the pointer of that frame; if this is a pointer into a block of memory, the value lies inside that block. -/
def InBounds (pr : Prog) (s : St) : Prop :=
  ∀ f a blk, pr.frames[s.si]? = some f → s.p = .at a → getBlock s.mem a.path = some blk → a.off + f.size ≤ blk.length

end Verif.Spec
