import Verif.Model.Api
import Verif.Spec.Demo
/-!
# Conformance of the model with the tests of the repository

Not a proof of any property: a check that the model computes what the code computes, on the inputs of jscandec_test.go. A destination is read as the Go value of its type
and compared with the value the test expects.
-/
namespace Verif.Conform
open Verif.Model Verif.Spec

/-- A Go value, as the tests compare them (`require.Equal`). -/
inductive GoVal
  | nil
  | b (v : Bool)
  | i (v : Int)
  | f (v : Nat)
  | s (v : List UInt8)
  | l (v : List GoVal)
  | p (v : GoVal)
  | m (v : List (GoVal × GoVal))

/-- Pointwise on lists of equal length. -/
def zipAll (f : α → α → Bool) : List α → List α → Bool
  | [], [] => true
  | x :: xs, y :: ys => f x y && zipAll f xs ys
  | _, _ => false

/-- Equality up to a depth; the order of map entries does not matter. -/
def GoVal.eq : Nat → GoVal → GoVal → Bool
  | 0, _, _ => false
  | _ + 1, .nil, .nil => true
  | _ + 1, .b x, .b y => x == y
  | _ + 1, .i x, .i y => decide (x = y)
  | _ + 1, .f x, .f y => decide (x = y)
  | _ + 1, .s x, .s y => decide (x = y)
  | n + 1, .p x, .p y => GoVal.eq n x y
  | n + 1, .l x, .l y => zipAll (GoVal.eq n) x y
  | n + 1, .m x, .m y => decide (x.length = y.length) && x.all fun e => y.any fun e' => GoVal.eq n e.1 e'.1 && GoVal.eq n e.2 e'.2
  | _, _, _ => false

mutual
/-- The value of an `any`. -/
def anyV : AnyVal → GoVal
  | .null => .nil
  | .bool x => .b x
  | .num x => .f x
  | .str x => .s x.bytes
  | .arr es => .l (anyL es)
  | .obj ms => .m (anyM ms)
  | .other _ => .s [0]
/-- The values of a list. -/
def anyL : List AnyVal → List GoVal
  | [] => []
  | e :: es => anyV e :: anyL es
/-- The entries of a map. -/
def anyM : List (Str × AnyVal) → List (GoVal × GoVal)
  | [] => []
  | (k, v) :: es => (.s k.bytes, anyV v) :: anyM es
end

/-- `f` on every element, if it is defined on all. -/
def mapO (f : α → Option β) : List α → Option (List β)
  | [] => some []
  | x :: xs => (f x).bind fun y => (mapO f xs).map (y :: ·)

/-- The value of a map key. -/
def keyV : Key → GoVal
  | .str s => .s s.bytes
  | .int i => .i i
  | .opaque b => .s b

/-- The Go value of a type at the start of a block, up to a depth. -/
def view (env : TypeEnv) : Nat → TypeId → Block → Option GoVal
  | 0, _, _ => none
  | n + 1, t, b =>
    let ti := env t
    let c := b.headD .zero
    if ti.implJSON || ti.implText then match c with | .zero => some (.s []) | .user x => some (.s x) | _ => none
    else match ti.kind with
    | .bool => match c with | .zero => some (.b false) | .bool x => some (.b x) | _ => none
    | .int _ => match c with | .zero => some (.i 0) | .int x => some (.i x) | _ => none
    | .float _ => match c with | .zero => some (.f 0) | .flt x => some (.f x) | _ => none
    | .string => match c with | .zero => some (.s []) | .str x => some (.s x.bytes) | _ => none
    | .interface => match c with | .zero => some .nil | .any x => some (anyV x) | _ => none
    | .pointer => match c with | .zero => some .nil | .ptr x => (view env n ti.elem x).map .p | _ => none
    | .map => match c with
      | .zero => some .nil
      | .map es => (mapO (fun (e : Key × Block) => (view env n ti.elem e.2).map fun (v : GoVal) => (keyV e.1, v)) es).map .m
      | _ => none
    | .slice => match c with
      | .zero => some .nil
      | .slice m _ a => (mapO (fun i => view env n ti.elem (a.drop (i * (env ti.elem).size))) (List.range m)).map .l
      | _ => none
    | .array => (mapO (fun i => view env n ti.elem (b.drop (i * (env ti.elem).size))) (List.range ti.len)).map .l
    | .struct => (mapO (fun f => view env n f.type (b.drop f.offset)) ti.fields).map .l
    | _ => none

/-- What a test expects: a value, an error with its index, or an error at any index. -/
inductive Expect
  | ok (v : GoVal)
  | err (i : Int) (e : Err)
  | errAny (e : Err)

/-- A test: input, the destination before the call, expectation. -/
structure Test where
  src : Bytes
  init : Block
  want : Expect

/-- The bits of a number; 2 is a range error. -/
def numOf (tbl : List (Bytes × Option Nat × Option Nat)) (s : Bytes) (g : (Option Nat × Option Nat) → Option Nat) : Except Nat Nat :=
  match tbl.find? (fun e => decide (e.1 = s)) with
  | none => .error 99
  | some e => match g e.2 with
    | none => .error 2
    | some v => .ok v

/-- The bits of an integer. -/
def numOfInt (tbl : List (Bytes × Option Nat × Option Nat)) (i : Int) (g : (Option Nat × Option Nat) → Option Nat) : Nat :=
  match tbl.find? (fun e => match demoInt e.1 with | .ok j => decide (i = j) | .error _ => false) with
  | none => 0
  | some e => (g e.2).getD 0

/-- One test: does it pass, and the decoder for the next one. -/
def check (env : TypeEnv) (x : Ext) (T : TypeId) (o : Options) (d : Decoder) (t : Test) : Bool × Decoder :=
  match decode x d t.src (tokenize t.src) (some t.init) (some o) with
  | none => (false, d)
  | some r =>
    let good := match t.want, r.err with
      | .ok v, none => match r.mem.bind (view env 12 T) with
        | some w => GoVal.eq 12 v w
        | none => false
      | .err i e, some e' => decide (r.errIndex = i) && decide (e = e')
      | .errAny e, some e' => decide (e = e')
      | _, _ => false
    (good, r.dec)

/-- All tests of a setup, on one decoder. -/
def checkAll (env : TypeEnv) (x : Ext) (T : TypeId) (o : Options) (d : Decoder) : List Test → Bool
  | [] => true
  | t :: ts => let r := check env x T o d t; r.1 && checkAll env x T o r.2 ts

end Verif.Conform
