import Verif.Model.Api
/-!
# Specification: strings that share memory with the input

A string of the destination either has its own memory or is a piece of the input text. `forget` takes the difference away; `Own` says that nothing is a piece of the input.
-/
namespace Verif.Spec
open Verif.Model

/-- A copy of the string. -/
def copyStr (s : Str) : Str := ⟨s.bytes, false⟩

/-- A copy of the map key. -/
def copyKey : Key → Key
  | .str s => .str (copyStr s)
  | k => k

mutual
/-- A deep copy of the contents of an `any`. -/
def copyAny : AnyVal → AnyVal
  | .null => .null
  | .bool b => .bool b
  | .num f => .num f
  | .str s => .str (copyStr s)
  | .arr es => .arr (copyAnyL es)
  | .obj ms => .obj (copyAnyM ms)
  | .other id => .other id
def copyAnyL : List AnyVal → List AnyVal
  | [] => []
  | v :: vs => copyAny v :: copyAnyL vs
def copyAnyM : List (Str × AnyVal) → List (Str × AnyVal)
  | [] => []
  | m :: ms => (copyStr m.1, copyAny m.2) :: copyAnyM ms
end

mutual
/-- The same value with strings of its own. -/
def forgetC : Cell → Cell
  | .zero => .zero
  | .pad => .pad
  | .bool b => .bool b
  | .int i => .int i
  | .flt f => .flt f
  | .str s => .str (copyStr s)
  | .any v => .any (copyAny v)
  | .user b => .user b
  | .ptr b => .ptr (forget b)
  | .slice l c a => .slice l c (forget a)
  | .map es => .map (forgetM es)
/-- The same memory with strings of its own. -/
def forget : List Cell → List Cell
  | [] => []
  | c :: cs => forgetC c :: forget cs
def forgetM : List (Key × List Cell) → List (Key × List Cell)
  | [] => []
  | e :: es => (copyKey e.1, forget e.2) :: forgetM es
end

/-- The key is not a piece of the input. -/
def OwnKey : Key → Prop
  | .str s => s.shared = false
  | _ => True

mutual
/-- No string in the value is a piece of the input. -/
def OwnAny : AnyVal → Prop
  | .str s => s.shared = false
  | .arr es => OwnAnyL es
  | .obj ms => OwnAnyM ms
  | _ => True
def OwnAnyL : List AnyVal → Prop
  | [] => True
  | v :: vs => OwnAny v ∧ OwnAnyL vs
def OwnAnyM : List (Str × AnyVal) → Prop
  | [] => True
  | m :: ms => m.1.shared = false ∧ OwnAny m.2 ∧ OwnAnyM ms
end

mutual
/-- No string in the cell, or in memory it owns, is a piece of the input. -/
def OwnC : Cell → Prop
  | .str s => s.shared = false
  | .any v => OwnAny v
  | .ptr b => Own b
  | .slice _ _ a => Own a
  | .map es => OwnM es
  | _ => True
/-- No string reachable from the memory is a piece of the input. -/
def Own : List Cell → Prop
  | [] => True
  | c :: cs => OwnC c ∧ Own cs
def OwnM : List (Key × List Cell) → Prop
  | [] => True
  | e :: es => OwnKey e.1 ∧ Own e.2 ∧ OwnM es
end

/-- What a string may become when the input buffer is overwritten: anything of the same length if it is a piece of the input. -/
def StrAfter (s s' : Str) : Prop := s = s' ∨ (s.shared = true ∧ s'.shared = true ∧ s.bytes.length = s'.bytes.length)

/-- Map keys. -/
def KeyAfter : Key → Key → Prop
  | .str s, .str s' => StrAfter s s'
  | k, k' => k = k'

mutual
def AnyAfter : AnyVal → AnyVal → Prop
  | .str s, .str s' => StrAfter s s'
  | .arr es, .arr es' => AnyAfterL es es'
  | .obj ms, .obj ms' => AnyAfterM ms ms'
  | v, v' => v = v'
def AnyAfterL : List AnyVal → List AnyVal → Prop
  | [], [] => True
  | v :: vs, v' :: vs' => AnyAfter v v' ∧ AnyAfterL vs vs'
  | _, _ => False
def AnyAfterM : List (Str × AnyVal) → List (Str × AnyVal) → Prop
  | [], [] => True
  | m :: ms, m' :: ms' => StrAfter m.1 m'.1 ∧ AnyAfter m.2 m'.2 ∧ AnyAfterM ms ms'
  | _, _ => False
end

mutual
def CellAfter : Cell → Cell → Prop
  | .str s, .str s' => StrAfter s s'
  | .any v, .any v' => AnyAfter v v'
  | .ptr b, .ptr b' => After b b'
  | .slice l c a, .slice l' c' a' => l = l' ∧ c = c' ∧ After a a'
  | .map es, .map es' => AfterM es es'
  | c, c' => c = c'
/-- `m'` is what a reader may find in place of `m` after the input buffer has been overwritten in some way. -/
def After : List Cell → List Cell → Prop
  | [], [] => True
  | c :: cs, c' :: cs' => CellAfter c c' ∧ After cs cs'
  | _, _ => False
def AfterM : List (Key × List Cell) → List (Key × List Cell) → Prop
  | [], [] => True
  | e :: es, e' :: es' => KeyAfter e.1 e'.1 ∧ After e.2 e'.2 ∧ AfterM es es'
  | _, _ => False
end

/-- The same platform and methods with `S = []byte`. -/
def bytesInput (x : Ext) : Ext := { x with strInput := false }

/-- The same platform and methods with `S = string`. -/
def stringInput (x : Ext) : Ext := { x with strInput := true }

/-- A method does not see where the bytes of the strings in its receiver live, and keeps no piece of its argument. -/
def Copies (m : Block → Bytes → Block × Option Nat) : Prop := ∀ old b, m (forget old) b = (forget (m old b).1, (m old b).2)

/-- The methods the decoder calls do so. -/
def MethodsCopy (x : Ext) (d : Decoder) : Prop :=
  ∀ f ∈ d.frames, ∀ rt, f.rtype = some rt → (f.type = .jsonUnmarshaler → Copies (x.unmarshalJSON rt)) ∧ (f.type = .textUnmarshaler → Copies (x.unmarshalText rt))

/-- Two destinations (none: a nil pointer) hold the same up to the place of the strings. -/
def SameMem : Option Block → Option Block → Prop
  | none, none => True
  | some m, some m' => forget m = forget m'
  | _, _ => False

/-- Two calls of `Decode` look the same to a caller who cannot see where the strings live: both panic, or both return the same index and error and leave the same value. -/
def LooksSame : Option DecodeRes → Option DecodeRes → Prop
  | none, none => True
  | some r, some r' => r.errIndex = r'.errIndex ∧ r.err = r'.err ∧ SameMem r.mem r'.mem
  | _, _ => False

/-- The same for `Unmarshal`. -/
def LooksSameU : UnmarshalRes → UnmarshalRes → Prop
  | .ret e m, .ret e' m' => e = e' ∧ SameMem m m'
  | .panic, .panic => True
  | .diverges, .diverges => True
  | _, _ => False

/-- A decoder for strings and one for byte slices, made by the same call of `NewDecoder`, after the same calls of `Decode` on inputs with the same bytes and destinations with the same values. -/
inductive Twins (x : Ext) (d₀ : Decoder) : Decoder → Decoder → Prop
  | new : Twins x d₀ d₀ d₀
  | call {d d' : Decoder} {src : Bytes} {doc : Except (Nat × Nat) JVal} {t t' : Option Block} {o : Option Options} {r r' : DecodeRes} :
      Twins x d₀ d d' → SameMem t t' → decode (stringInput x) d src doc t o = some r → decode (bytesInput x) d' src doc t' o = some r' → Twins x d₀ r.dec r'.dec

end Verif.Spec
