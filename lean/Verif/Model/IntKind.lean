import Verif.Model.Atoi
/-!
# Integer kinds and the choice of the parser for each kind
-/
namespace Verif.Model

/-- The ten integer kinds of Go handled by the decoder (`ExpectTypeInt` … `ExpectTypeUint64`,
jscandec.go:161-189). -/
inductive IKind
  | int | i8 | i16 | i32 | i64 | uint | u8 | u16 | u32 | u64
  deriving DecidableEq, Repr

/-- Signed kinds. -/
def IKind.signed : IKind → Bool
  | .int | .i8 | .i16 | .i32 | .i64 => true
  | _ => false

/-- Width in bits; `is64` is the platform's `strconv.IntSize == 64`. -/
def IKind.bits (is64 : Bool) : IKind → Nat
  | .int | .uint => if is64 then 64 else 32
  | .i8 | .u8 => 8
  | .i16 | .u16 => 16
  | .i32 | .u32 => 32
  | .i64 | .u64 => 64

/-- The integer parser used for a kind: `atoi.I8` … `atoi.U64` in the token loop (jscandec.go:781-889, 1086-1215, 1545-1963, 2381-2509), and
for `int`/`uint` the functions chosen by `init` (jscandec.go:539-571). The machine integer is
reported by its mathematical value; `none` is a panic. -/
def parseInt (is64 : Bool) (k : IKind) (s : Bytes) : Option (Int × Bool) :=
  match k with
  | .i8 => (Atoi.I8 s).map fun r => (r.1.toInt, r.2)
  | .i16 => (Atoi.I16 s).map fun r => (r.1.toInt, r.2)
  | .i32 => (Atoi.I32 s).map fun r => (r.1.toInt, r.2)
  | .i64 => (Atoi.I64 s).map fun r => (r.1.toInt, r.2)
  | .int => if is64 then (Atoi.I64 s).map fun r => (r.1.toInt, r.2)
            else (Atoi.I32 s).map fun r => (r.1.toInt, r.2)
  | .u8 => some ((Atoi.U8 s).1.toNat, (Atoi.U8 s).2)
  | .u16 => some ((Atoi.U16 s).1.toNat, (Atoi.U16 s).2)
  | .u32 => some ((Atoi.U32 s).1.toNat, (Atoi.U32 s).2)
  | .u64 => some ((Atoi.U64 s).1.toNat, (Atoi.U64 s).2)
  | .uint => if is64 then some ((Atoi.U64 s).1.toNat, (Atoi.U64 s).2)
             else some ((Atoi.U32 s).1.toNat, (Atoi.U32 s).2)

end Verif.Model
