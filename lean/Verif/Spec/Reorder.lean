import Verif.Spec.Same
import Verif.Spec.Twice
import Verif.Spec.Session
/-!
# Specification: the order of object members

JSON objects are unordered. `Reordered` relates two documents that differ in white space and the order of the members of objects only; `GoEq` is equality of Go values, in which the entries of maps have no order either.
-/
namespace Verif.Spec
open Verif.Model Verif.Big

mutual
/-- The value `v'` of the text `src'` is the value `v` of the text `src` with the members of objects, at any depth, in another order. -/
def Reordered (src src' : Bytes) : JVal → JVal → Prop
  | .null _ _, v' => ∃ i e, v' = .null i e
  | .bool b _ _, v' => ∃ i e, v' = .bool b i e
  | .num b i e, v' => ∃ i' e', v' = .num b i' e' ∧ text src i e = text src' i' e'
  | .str i e, v' => ∃ i' e', v' = .str i' e' ∧ inner src i e = inner src' i' e'
  | .arr _ vs _, v' => ∃ i vs' k, v' = .arr i vs' k ∧ ReorderedL src src' vs vs'
  | .obj _ ms _, v' => ∃ i ms' k, v' = .obj i ms' k ∧ ReorderedM src src' ms ms'
/-- Element by element. -/
def ReorderedL (src src' : Bytes) : List JVal → List JVal → Prop
  | [], vs' => vs' = []
  | v :: vs, vs' => ∃ w ws, vs' = w :: ws ∧ Reordered src src' v w ∧ ReorderedL src src' vs ws
/-- The same members in some order: the first one is somewhere in the second list, the rest of the first list is the rest of the second. -/
def ReorderedM (src src' : Bytes) : List ((Nat × Nat) × JVal) → List ((Nat × Nat) × JVal) → Prop
  | [], ms' => ms' = []
  | m :: ms, ms' => ∃ l k w r, ms' = l ++ (k, w) :: r ∧ inner src m.1.1 m.1.2 = inner src' k.1 k.2 ∧ Reordered src src' m.2 w ∧ ReorderedM src src' ms (l ++ r)
end

mutual
/-- No object of the document has two members with the same key. -/
def NoRepeats (src : Bytes) : JVal → Prop
  | .arr _ vs _ => NoRepeatsL src vs
  | .obj _ ms _ => (∀ (a b : Nat) m m' s, ms[a]? = some m → ms[b]? = some m' → Denotes (inner src m.1.1 m.1.2) s → Denotes (inner src m'.1.1 m'.1.2) s → a = b) ∧ NoRepeatsM src ms
  | _ => True
def NoRepeatsL (src : Bytes) : List JVal → Prop
  | [] => True
  | v :: vs => NoRepeats src v ∧ NoRepeatsL src vs
def NoRepeatsM (src : Bytes) : List ((Nat × Nat) × JVal) → Prop
  | [] => True
  | m :: ms => NoRepeats src m.2 ∧ NoRepeatsM src ms
end

/-- No two members of an object of the document stand for the same key (of a JSON object decoded into an `any`, of a map) or field of a struct, and all map keys are well-formed. -/
def NoDuplicates (x : Ext) (src : Bytes) (o : Options) (ty : Ty) (v : JVal) : Prop := NoRepeats src v ∧ Once x src o ty v ∧ Keyed x src o ty v

mutual
/-- `rt` is the type, or the type of an element, field or map value in it, and has an `UnmarshalJSON` method. -/
def JsonIn (rt : TypeId) : Ty → Prop
  | .jsonU t _ _ => t = rt
  | .array _ e | .slice e | .map _ e | .ptr e => JsonIn rt e
  | .struct _ fs => JsonInF rt fs
  | _ => False
/-- Of the fields of a struct. -/
def JsonInF (rt : TypeId) : List (Bytes × Nat × Ty) → Prop
  | [] => False
  | (_, _, t) :: fs => JsonIn rt t ∨ JsonInF rt fs
end

/-- The `UnmarshalJSON` method of the type does not see the order of members in its argument. -/
def Unordered (x : Ext) (src src' : Bytes) (rt : TypeId) : Prop :=
  ∀ old v v', Wf src v → Wf src' v' → Reordered src src' v v' → x.unmarshalJSON rt old (text src v.index v.stop) = x.unmarshalJSON rt old (text src' v'.index v'.stop)

/-- Equality of Go values: strings by their bytes, maps by their entries in any order. -/
inductive GoEq : Val → Val → Prop
  | bool {b : Bool} : GoEq (.bool b) (.bool b)
  | int {i : Int} : GoEq (.int i) (.int i)
  | flt {f : Flt} : GoEq (.flt f) (.flt f)
  | str {s t : Str} : s.bytes = t.bytes → GoEq (.str s) (.str t)
  | any {a b : AnyVal} : SameAny a b → GoEq (.any a) (.any b)
  | user {b : Block} : GoEq (.user b) (.user b)
  | nil : GoEq .nil .nil
  | ptr {V W : Val} : GoEq V W → GoEq (.ptr V) (.ptr W)
  | arr {Vs Ws : List Val} : Vs.length = Ws.length → (∀ (j : Nat) V W, Vs[j]? = some V → Ws[j]? = some W → GoEq V W) → GoEq (.arr Vs) (.arr Ws)
  | slice {Vs Ws sp sq : List Val} : Vs.length = Ws.length → (∀ (j : Nat) V W, Vs[j]? = some V → Ws[j]? = some W → GoEq V W) →
      sp.length = sq.length → (∀ (j : Nat) V W, sp[j]? = some V → sq[j]? = some W → GoEq V W) → GoEq (.slice Vs sp) (.slice Ws sq)
  | map {es es' : List (Key × Val)} : (∀ K, (lookupV K es).isSome = (lookupV K es').isSome) → (∀ K V W, lookupV K es = some V → lookupV K es' = some W → GoEq V W) → GoEq (.map es) (.map es')
  | struct {Vs Ws : List Val} : Vs.length = Ws.length → (∀ (j : Nat) V W, Vs[j]? = some V → Ws[j]? = some W → GoEq V W) → GoEq (.struct Vs) (.struct Ws)

end Verif.Spec
