import Verif.Big.Rep
/-!
# The type-directed reading of a whole document
-/
namespace Verif.Big
open Verif.Model

/-- The text of the first token can be taken (`s[i:e]` does not panic). -/
def tokOK (src : Bytes) : JVal → Bool
  | .str i e => (Model.slice src (i + 1) (e - 1)).isSome
  | .num _ i e => (Model.slice src i e).isSome
  | _ => true

/-- A document into the root destination: as `dec`, except that a pointer gets a new zero value which is decoded into, and that `struct{}` accepts an object. -/
def decTop (x : Ext) (src : Bytes) (o : Option Options) : Ty → JVal → Block → Nat → Res
  | .ptr e => fun v b off =>
    match v with
    | .null _ _ => execB x none 0 false b off v.index (leaf x src .ptr v)
    | v =>
      if tokOK src v = false then .crash
      else if e.size x = 0 then .unsup
      else match blit b off (seg x.W (.ptr (zeros (e.size x)))) with
        | none => .crash
        | some b => (decTop x src o e v (zeros (e.size x)) 0).bindB (putIn b off .deref)
  | .emptyStruct => fun v b off =>
    match v with
    | .obj _ _ _ => .ok b
    | v => dec x src o .emptyStruct v b off
  | ty => fun v b off => dec x src o ty v b off

end Verif.Big
