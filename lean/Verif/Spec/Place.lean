import Verif.Spec.Session
import Verif.Spec.Doc
import Verif.Spec.Alias
/-!
# Specification: the same document written differently

Two texts may contain the same JSON document with different white space, and so at different byte positions.
-/
namespace Verif.Spec
open Verif.Model

mutual
/-- The value `v` of the text `src` and the value `v'` of the text `src'` are the same up to white space: the same tokens in the same order. -/
def SameDoc (src src' : Bytes) : JVal → JVal → Prop
  | .null _ _, .null _ _ => True
  | .bool b _ _, .bool b' _ _ => b = b'
  | .num b i e, .num b' i' e' => b = b' ∧ text src i e = text src' i' e'
  | .str i e, .str i' e' => text src i e = text src' i' e'
  | .arr _ vs _, .arr _ vs' _ => SameDocL src src' vs vs'
  | .obj _ ms _, .obj _ ms' _ => SameDocM src src' ms ms'
  | _, _ => False
/-- Element by element. -/
def SameDocL (src src' : Bytes) : List JVal → List JVal → Prop
  | [], [] => True
  | v :: vs, v' :: vs' => SameDoc src src' v v' ∧ SameDocL src src' vs vs'
  | _, _ => False
/-- Member by member. -/
def SameDocM (src src' : Bytes) : List ((Nat × Nat) × JVal) → List ((Nat × Nat) × JVal) → Prop
  | [], [] => True
  | m :: ms, m' :: ms' => text src m.1.1 m.1.2 = text src' m'.1.1 m'.1.2 ∧ SameDoc src src' m.2 m'.2 ∧ SameDocM src src' ms ms'
  | _, _ => False
end

mutual
/-- The value `v` of the text `src` and the value `v'` of the text `src'` are the same up to white space and the spelling of strings and keys: contents of string values may differ as `S` says, contents of keys as `K` says. -/
def Respelled (K S : Bytes → Bytes → Prop) (src src' : Bytes) : JVal → JVal → Prop
  | .null _ _, .null _ _ => True
  | .bool b _ _, .bool b' _ _ => b = b'
  | .num b i e, .num b' i' e' => b = b' ∧ text src i e = text src' i' e'
  | .str i e, .str i' e' => text src i e = text src' i' e' ∨ S (inner src i e) (inner src' i' e')
  | .arr _ vs _, .arr _ vs' _ => RespelledL K S src src' vs vs'
  | .obj _ ms _, .obj _ ms' _ => RespelledM K S src src' ms ms'
  | _, _ => False
/-- Element by element. -/
def RespelledL (K S : Bytes → Bytes → Prop) (src src' : Bytes) : List JVal → List JVal → Prop
  | [], [] => True
  | v :: vs, v' :: vs' => Respelled K S src src' v v' ∧ RespelledL K S src src' vs vs'
  | _, _ => False
/-- Member by member. -/
def RespelledM (K S : Bytes → Bytes → Prop) (src src' : Bytes) : List ((Nat × Nat) × JVal) → List ((Nat × Nat) × JVal) → Prop
  | [], [] => True
  | m :: ms, m' :: ms' => (text src m.1.1 m.1.2 = text src' m'.1.1 m'.1.2 ∨ K (inner src m.1.1 m.1.2) (inner src' m'.1.1 m'.1.2)) ∧ Respelled K S src src' m.2 m'.2 ∧ RespelledM K S src src' ms ms'
  | _, _ => False
end

/-- Two indices are the first bytes of the tokens with the same number. -/
def SameToken (v v' : JVal) (i i' : Int) : Prop := ∃ (k : Nat) (a a' : Nat), (starts v)[k]? = some a ∧ (starts v')[k]? = some a' ∧ i = a ∧ i' = a'

/-- Two calls of `Decode` have the same effect: both panic, or both return the same error, leave the same destination and the same decoder; the error index is -1 in both or it is that of the token with the same number. -/
def SameOutcome (v v' : JVal) : Option DecodeRes → Option DecodeRes → Prop
  | none, none => True
  | some r, some r' => r.err = r'.err ∧ r.mem = r'.mem ∧ r.dec = r'.dec ∧ ((r.errIndex = -1 ∧ r'.errIndex = -1) ∨ SameToken v v' r.errIndex r'.errIndex)
  | _, _ => False

/-- The decoder calls `UnmarshalJSON` of the type. -/
def CallsJSON (d : Decoder) (rt : TypeId) : Prop := ∃ f ∈ d.frames, f.type = .jsonUnmarshaler ∧ f.rtype = some rt

/-- `UnmarshalJSON` of the type does not see white space. -/
def IgnoresSpace (x : Ext) (src src' : Bytes) (rt : TypeId) : Prop :=
  ∀ old v v', Wf src v → Wf src' v' → SameDoc src src' v v' → x.unmarshalJSON rt old (text src v.index v.stop) = x.unmarshalJSON rt old (text src' v'.index v'.stop)

/-- `UnmarshalJSON` of the type sees neither white space nor the spelling of strings and keys. -/
def IgnoresSpelling (x : Ext) (K S : Bytes → Bytes → Prop) (src src' : Bytes) (rt : TypeId) : Prop :=
  ∀ old v v', Wf src v → Wf src' v' → Respelled K S src src' v v' → x.unmarshalJSON rt old (text src v.index v.stop) = x.unmarshalJSON rt old (text src' v'.index v'.stop)

/-- Two string contents denote the same string. -/
def SameString (a b : Bytes) : Prop := ∃ out, Denotes a out ∧ Denotes b out

/-- The decoder has a `Number` or a field with the `string` option inside: these read the text of strings as it is. -/
def ReadsRaw (d : Decoder) : Prop := ∃ f ∈ d.frames, f.type = .number ∨ ∃ k, f.type = .quoted k

/-- The decoder has a map with integer keys inside: these read the text of keys as it is. -/
def IntKeys (d : Decoder) : Prop := ∃ i f fk k, d.frames[i]? = some f ∧ (f.type = .map ∨ f.type = .mapRecur) ∧ d.frames[i + 1]? = some fk ∧ fk.type = .scalar (.int k)

/-- Two documents are the same for the decoder: the same tokens up to the spelling of strings, where it does not read their text as it is. -/
def SameSpelling (d : Decoder) (src src' : Bytes) (v v' : JVal) : Prop :=
  Respelled (fun a b => ¬ IntKeys d ∧ SameString a b) (fun a b => ¬ ReadsRaw d ∧ SameString a b) src src' v v'

/-- Two calls of `Decode` have the same effect for a caller who cannot see where the bytes of strings live: both panic, or both return the same error and leave the same value; the error index is -1 in
both or it is that of the token with the same number. -/
def LooksAlike (v v' : JVal) : Option DecodeRes → Option DecodeRes → Prop
  | none, none => True
  | some r, some r' => r.err = r'.err ∧ SameMem r.mem r'.mem ∧ ((r.errIndex = -1 ∧ r'.errIndex = -1) ∨ SameToken v v' r.errIndex r'.errIndex)
  | _, _ => False

end Verif.Spec
