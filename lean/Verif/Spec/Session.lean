import Verif.Spec.Types
import Verif.Model.Api
/-!
# Specification: decoders as their users see them
-/
namespace Verif.Spec
open Verif.Model Verif.Big

/-- The Go type (`none`: an interface type) has the given tree. With `allow = true` the `string` tag option is ignored on types that do not support it, which the init options must permit. -/
def HasTree (env : TypeEnv) (x : Ext) (opts : Option InitOptions) (depth : Nat) : Option TypeId → Ty → Prop
  | none, ty => ty = .any
  | some t, ty => Layout env x ∧ ∃ allow seen, (allow = true → ∃ o, opts = some o ∧ o.disallowStringTagOptOnUnsupportedTypes = false) ∧
      typeTree env allow depth [] t = some (ty, seen)

/-- The decoder `d` after some calls of `Decode`, with any inputs, destinations and options, successful or not, beginning with `d₀`. -/
inductive Served (x : Ext) (d₀ : Decoder) : Decoder → Prop
  | new : Served x d₀ d₀
  | call {d : Decoder} {src : Bytes} {doc : Except (Nat × Nat) JVal} {t : Option Block} {o : Option Options} {r : DecodeRes} :
      Served x d₀ d → decode x d src doc t o = some r → Served x d₀ r.dec

/-- `d` was made by `NewDecoder` for a type with tree `ty` and has been used since in any way. -/
def DecoderFor (x : Ext) (ty : Ty) (d : Decoder) : Prop :=
  ∃ env opts depth t d₀, HasTree env x opts depth t ty ∧ newDecoder env x.W opts depth t = .ok d₀ ∧ Served x d₀ d

/-- The memory of the destination `*t` holds the value `V`. -/
def Dest (x : Ext) (ty : Ty) (mem : Block) (V : Val) : Prop := mem.length = ty.size x ∧ Holds x ty mem 0 V

/-- `Decode` returns `(i, e)` and the destination then holds `V`. -/
def Returns (x : Ext) (ty : Ty) (res : Option DecodeRes) (i : Int) (e : Option Err) (V : Val) : Prop :=
  ∃ r mem, res = some r ∧ r.errIndex = i ∧ r.err = e ∧ r.mem = some mem ∧ Dest x ty mem V

/-- What a caller of `Decode` observes: `errIndex`, `err` and the destination. `none`: a panic. -/
def observe (res : Option DecodeRes) : Option (Int × Option Err × Option Block) := res.map fun r => (r.errIndex, r.err, r.mem)

mutual
/-- Byte indices at which a token of the value starts: values, keys, closing brackets. -/
def starts : JVal → List Nat
  | .null i _ | .bool _ i _ | .num _ i _ | .str i _ => [i]
  | .arr i es k => i :: (startsL es ++ [k])
  | .obj i ms k => i :: (startsM ms ++ [k])
def startsL : List JVal → List Nat
  | [] => []
  | v :: vs => starts v ++ startsL vs
def startsM : List ((Nat × Nat) × JVal) → List Nat
  | [] => []
  | m :: ms => m.1.1 :: (starts m.2 ++ startsM ms)
end

end Verif.Spec
