import Verif.Model.Any
/-!
# `any` values of a syntax tree
-/
namespace Verif.Big
open Verif.Model

mutual
/-- The value of a tree as an `any`; `none` is a crash, `error` the first number that cannot be parsed. -/
def anyOf (x : Ext) (src : Bytes) : JVal → Option (Except Nat AnyVal)
  | .null _ _ => some (.ok .null)
  | .bool b _ _ => some (.ok (.bool b))
  | .num _ i e => (slice src i e).map fun tv => (x.tokFloat64 tv).map .num
  | .str i e => ((slice src (i + 1) (e - 1)).bind x.unescStr).map fun s => .ok (.str s)
  | .arr _ es _ => (anyOfL x src es).map fun r => r.map .arr
  | .obj _ ms _ => (anyOfM x src [] ms).map fun r => r.map .obj
/-- The elements of an array. -/
def anyOfL (x : Ext) (src : Bytes) : List JVal → Option (Except Nat (List AnyVal))
  | [] => some (.ok [])
  | v :: vs =>
    match anyOf x src v with
    | none => none
    | some (.error e) => some (.error e)
    | some (.ok a) => (anyOfL x src vs).map fun r => r.map (a :: ·)
/-- The members of an object, added to a map. -/
def anyOfM (x : Ext) (src : Bytes) (m : List (Str × AnyVal)) : List ((Nat × Nat) × JVal) → Option (Except Nat (List (Str × AnyVal)))
  | [] => some (.ok m)
  | ((i, e), v) :: ms =>
    match slice src (i + 1) (e - 1) with
    | none => none
    | some key =>
      match anyOf x src v with
      | none => none
      | some (.error e) => some (.error e)
      | some (.ok a) =>
        match x.unescStr key with
        | none => none
        | some k => anyOfM x src (assocSet k a m) ms
end

end Verif.Big
