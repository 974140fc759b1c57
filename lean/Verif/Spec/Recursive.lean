import Verif.Big.Rec
import Verif.Spec.Fragment
import Verif.Spec.Means
import Verif.Spec.Session
/-!
# Specification: recursive struct types

A recursive struct type is a struct type `T` some of whose fields have the type `*T`, `[]T` or `map[K]T`. `unroll n` is the same type with the recursion cut off at depth `n`: values and documents nested at most
`n` deep mean the same for both.
-/
namespace Verif.Spec
open Verif.Model Verif.Big

/-- An object into a pointer `*T`: into the value pointed to, or into a new zero value `z`; `null` makes the pointer nil. -/
def ptrV (x : Ext) (src : Bytes) (g : JVal → Val → R Val) (z : Val) (v : JVal) (V : Val) : R Val :=
  match v with
  | .obj _ _ _ => (g v (pointee z V)).map .ptr
  | v => actV v.index .nil none V (leaf x src .ptrRecur v)

/-- The decoder of a field; `g` decodes into `T`, whose zero value is `z`. -/
def fieldV (x : Ext) (src : Bytes) (o : Option Options) (g : JVal → Val → R Val) (z : Val) : RField → JVal → Val → R Val
  | .plain t => decV x src o t
  | .ptr => ptrV x src g z
  | .slice => fun v V =>
    match v with
    | .arr _ vs _ => sliceV g z true vs V
    | v => leafV x src (.slice .emptyStruct) v V
  | .map k => fun v V =>
    match v with
    | .obj _ ms _ => (mapV x src g k z true ms (mapParts V)).map .map
    | v => leafV x src (.map k .emptyStruct) v V

/-- Decoding a JSON value nested at most `n` deep into a value of the recursive struct type. -/
def decRV (x : Ext) (src : Bytes) (o : Option Options) (size : Nat) (fs : RFields) : Nat → JVal → Val → R Val
  | 0 => fun _ _ => .unsup
  | n + 1 => fun v V =>
    match v, V with
    | .obj _ ms _, .struct Ws =>
      if ms = [] then .ok (.struct Ws)
      else match o with
        | none => .crash
        | some o' => (structV x src o' (fs.map fun f => (f.1, fieldV x src o (decRV x src o size fs n) (zeroV x (unroll size fs (n + 1))) f.2.2)) ms Ws).map .struct
    | v, V => leafV x src (.struct size []) v V

/-- The value of a field makes the decoder enter the recursion. -/
def enters : RField → JVal → Prop
  | .ptr, .obj _ _ _ => True
  | .slice, .arr _ vs _ => vs ≠ []
  | .map _, .obj _ _ _ => True
  | _, _ => False

/-- The values of a field that are decoded as the document says. `here`: the struct is not itself an element, other than the first, of a `[]T`. `top`: nor is it reached through pointers from such an element. -/
def TameField (x : Ext) (src : Bytes) (o : Option Options) (sub : Bool → Bool → JVal → Prop) (here top : Bool) : RField → JVal → Prop
  | .plain t, v => Tame x src o t v
  | .ptr, v => ∀ i ms k, v = .obj i ms k → sub true top v
  | .slice, v => ∀ i vs k, v = .arr i vs k → ∀ (j : Nat) w, vs[j]? = some w → ¬ IsNull w ∧ sub (j == 0) (j == 0) w
  | .map k, v => ∀ i ms e, v = .obj i ms e → here = true ∧ top = true ∧ k ≠ .other ∧ ms ≠ [] ∧ ∀ m ∈ ms, ¬ IsNull m.2 ∧ sub true true m.2

/-- Documents, nested at most `n` deep, on which `Decode` is specified for the recursive struct type. What makes the decoder go wrong is excluded: an object element, other than the first, of a `[]T` in which a further
member follows one that enters the recursion; `null` as element of a `[]T` or entry of a `map[K]T`; an empty object for a `map[K]T`, or any object for a `map[K]T` in an element, other than the first, of a
`[]T`; and what `Tame` excludes. -/
def TameR (x : Ext) (src : Bytes) (o : Option Options) (fs : RFields) : Nat → Bool → Bool → JVal → Prop
  | 0, _, _, _ => False
  | n + 1, here, top, v => ∀ i ms k, v = .obj i ms k → ∀ (a : Nat) m, ms[a]? = some m →
      ∀ o', o = some o' → ∀ raw name, Model.slice src (m.1.1 + 1) (m.1.2 - 1) = some raw → keyName o' raw = some name →
        match findField x o' ((fs.map (·.1)).zipIdx) name with
        | some j => ∀ f, fs[j]? = some f → TameField x src o (TameR x src o fs n) here top f.2.2 m.2 ∧
            (here = false → enters f.2.2 m.2 → a + 1 = ms.length)
        | none => o'.disallowUnknownFields = true ∨ hasObj m.2 = false

/-- A field type of the recursive struct type `t₀`, with the types that occurred before: `*T`, `[]T`, `map[K]T` for `T = t₀`, or a type without recursion.
`none`: the type has an unsupported kind or key type or is nested deeper than `depth`. -/
def recField (env : TypeEnv) (allow : Bool) (depth : Nat) (t₀ : TypeId) (seen : List TypeId) (t : TypeId) : Option (RField × List TypeId) :=
  let i := env t
  let plain := (typeTree env allow depth seen t).map fun r => (RField.plain r.1, r.2)
  if depth < 2 then none
  else if i.implJSON = false ∧ i.implText = false ∧ i.elem = t₀ then
    match i.kind with
    | .pointer => some (.ptr, seen)
    | .slice => some (.slice, seen)
    | .map => (keyTree env i.key).map fun k => (.map k.1, k.2 ++ seen)
    | _ => plain
  else plain

/-- A field type with or without the `string` option, as `withString`. -/
def withStringR (allow : Bool) (opt : Bool) : RField → Option RField
  | .plain t => (withString allow opt t).map .plain
  | f => if opt = true ∧ allow = false then none else some f

/-- The fields of the recursive struct type `t₀`: JSON name, offset and type of each field that is not ignored. -/
def recFields (env : TypeEnv) (allow : Bool) (depth : Nat) (t₀ : TypeId) : List TypeId → List FieldInfo → Option (RFields × List TypeId)
  | seen, [] => some ([], seen)
  | seen, f :: fs =>
    match parseTag f.name f.tag with
    | none => recFields env allow depth t₀ seen fs
    | some (name, optionString) =>
      match recField env allow depth t₀ seen f.type with
      | none => none
      | some (ty, seen) =>
        match withStringR allow optionString ty with
        | none => none
        | some ty => (recFields env allow depth t₀ seen fs).map fun r => ((name, f.offset, ty) :: r.1, r.2)

/-- The field refers to the struct type. -/
def RField.recursive : RField → Bool
  | .plain _ => false
  | _ => true

/-- The Go type `t` is a recursive struct type with the given size and fields: some field has the type `*t`, `[]t` or `map[K]t`. -/
def RecType (env : TypeEnv) (x : Ext) (opts : Option InitOptions) (depth : Nat) (t : TypeId) (size : Nat) (fs : RFields) : Prop :=
  Layout env x ∧ (env t).implJSON = false ∧ (env t).implText = false ∧ (env t).kind = .struct ∧ (env t).size = size ∧ 0 < size ∧
  (∃ allow seen, (allow = true → ∃ o, opts = some o ∧ o.disallowStringTagOptOnUnsupportedTypes = false) ∧
    recFields env allow depth t [t] (env t).fields = some (fs, seen)) ∧ fs.any (fun f => RField.recursive f.2.2) = true

mutual
/-- Nesting depth of a JSON value: 0 for a scalar. -/
def nesting : JVal → Nat
  | .arr _ vs _ => nestingL vs + 1
  | .obj _ ms _ => nestingM ms + 1
  | _ => 0
def nestingL : List JVal → Nat
  | [] => 0
  | v :: vs => max (nesting v) (nestingL vs)
def nestingM : List ((Nat × Nat) × JVal) → Nat
  | [] => 0
  | m :: ms => max (nesting m.2) (nestingM ms)
end

/-- `d` was made by `NewDecoder` for a recursive struct type; since then it has been used for calls that failed because the destination was nil or the input no valid JSON, and for calls within `TameR` that succeeded. -/
inductive RecDecoder (x : Ext) (size : Nat) (fs : RFields) : Decoder → Prop
  | new {env : TypeEnv} {opts : Option InitOptions} {depth : Nat} {t : TypeId} {d : Decoder} :
      RecType env x opts depth t size fs → newDecoder env x.W opts (depth + 1) (some t) = .ok d → RecDecoder x size fs d
  | refused {d : Decoder} {src : Bytes} {doc : Except (Nat × Nat) JVal} {t : Option Block} {o : Option Options} {r : DecodeRes} :
      RecDecoder x size fs d → (t = none ∨ ∃ i c, doc = .error (i, c)) → decode x d src doc t o = some r → RecDecoder x size fs r.dec
  | call {d : Decoder} {src : Bytes} {v : JVal} {mem : Block} {o : Option Options} {r : DecodeRes} {n : Nat} {V : Val} :
      RecDecoder x size fs d → TameR x src o fs n true true v → Dest x (unroll size fs (n + 1)) mem V → decode x d src (.ok v) (some mem) o = some r → r.err = none →
      RecDecoder x size fs r.dec

end Verif.Spec
