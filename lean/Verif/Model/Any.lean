import Verif.Model.Ext
/-!
# `decodeAny`
-/
namespace Verif.Model

/-- `m[k] = v` on a `map[string]any`. -/
def assocSet (k : Str) (v : AnyVal) : List (Str × AnyVal) → List (Str × AnyVal)
  | [] => [(k, v)]
  | e :: es => if e.1.bytes == k.bytes then (e.1, v) :: es else e :: assocSet k v es

/-- Result of `decodeAny`: value and remaining tokens, or an error, or a panic. -/
inductive AnyRes
  | ok (v : AnyVal) (tail : List Token)
  | err (e : Nat)
  | crash

mutual
/-- `decodeAny`: jscandec.go:2799-2847. `fuel` bounds the number of calls; running out of it is a
crash (excluded by the theorems). -/
def decodeAny (x : Ext) (src : Bytes) : Nat → List Token → AnyRes
  | 0, _ => .crash
  | _ + 1, [] => .crash -- tokens[0]: index out of range
  | fuel + 1, t :: ts =>
    match t.type with
    | .null => .ok .null ts
    | .number | .integer =>
      match slice src t.index t.end_ with
      | none => .crash
      | some tv =>
        match x.tokFloat64 tv with
        | .error e => .err e
        | .ok f => .ok (.num f) ts
    | .true_ => .ok (.bool true) ts
    | .false_ => .ok (.bool false) ts
    | .string =>
      match (slice src (t.index + 1) (t.end_ - 1)).bind x.unescStr with
      | none => .crash
      | some s => .ok (.str s) ts
    | .array => decodeAnyElems x src fuel [] ts
    | .object =>
      if t.elements = 0 then
        match ts with
        | [] => .crash -- tokens[2:]: out of range
        | _ :: ts => .ok (.obj []) ts
      else decodeAnyMembers x src fuel [] ts
    | _ => .crash -- panic("unreachable")
/-- Loop over the elements of an array: jscandec.go:2819-2829. `l` is the list so far. -/
def decodeAnyElems (x : Ext) (src : Bytes) : Nat → List AnyVal → List Token → AnyRes
  | 0, _, _ => .crash
  | _ + 1, _, [] => .crash
  | fuel + 1, l, t :: ts =>
    if t.type = .arrayEnd then .ok (.arr l) ts
    else match decodeAny x src fuel (t :: ts) with
      | .ok v tail => decodeAnyElems x src fuel (l ++ [v]) tail
      | r => r
/-- Loop over the members of an object: jscandec.go:2830-2844. -/
def decodeAnyMembers (x : Ext) (src : Bytes) : Nat → List (Str × AnyVal) → List Token → AnyRes
  | 0, _, _ => .crash
  | _ + 1, _, [] => .crash
  | fuel + 1, m, t :: ts =>
    if t.type = .objectEnd then .ok (.obj m) ts
    else match slice src (t.index + 1) (t.end_ - 1) with
      | none => .crash
      | some key =>
        match decodeAny x src fuel ts with
        | .ok v tail =>
          match x.unescStr key with
          | none => .crash
          | some k => decodeAnyMembers x src fuel (assocSet k v m) tail
        | r => r
end

end Verif.Model
