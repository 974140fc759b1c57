import Verif.Big.Dec
/-!
# Frame tables of type trees
-/
namespace Verif.Big
open Verif.Model

mutual
/-- Number of frames of a type. -/
def Ty.width : Ty → Nat
  | .array _ e | .slice e | .ptr e => 1 + e.width
  | .map _ e => 2 + e.width
  | .struct _ fs => 1 + widthF fs
  | _ => 1
/-- Number of frames of the fields. -/
def widthF : List (Bytes × Nat × Ty) → Nat
  | [] => 0
  | (_, _, t) :: fs => t.width + widthF fs
end

/-- Frame types that start no array, slice or recursive value. -/
def plainType : EType → Bool
  | .array | .slice | .sliceRecur | .mapRecur | .ptrRecur | .structRecur => false
  | _ => true

/-- The frame of a map key type. -/
def KeyTy.Rep (f : Frame) : KeyTy → Prop
  | .str => f.type = .scalar .str
  | .int k => f.type = .scalar (.int k)
  | .text rt impl => f.type = .textUnmarshaler ∧ f.rtype = some rt ∧ f.ptrImpl = impl
  | .other => plainType f.type = true ∧ f.type ≠ .struct ∧ f.type ≠ .map

/-- Frame `i` is linked to its parent `b`. -/
def Linked (fr : List Frame) (b i : Nat) (P : Frame → Prop) : Prop := ∃ c, fr[i]? = some c ∧ c.parent = some b ∧ P c

mutual
/-- The frames from `b` on describe the type. -/
def Rep (x : Ext) (fr : List Frame) : Ty → Nat → Prop
  | .jsonU rt size impl, b => ∃ f, fr[b]? = some f ∧ f.type = .jsonUnmarshaler ∧ f.size = size ∧ f.rtype = some rt ∧ f.ptrImpl = impl
  | .textU rt size impl, b => ∃ f, fr[b]? = some f ∧ f.type = .textUnmarshaler ∧ f.size = size ∧ f.rtype = some rt ∧ f.ptrImpl = impl
  | .array n e, b => (∃ f, fr[b]? = some f ∧ f.type = .array ∧ f.size = n * e.size x) ∧ 0 < n ∧
      Linked fr b (b + 1) (fun c => c.cap = n) ∧ Rep x fr e (b + 1)
  | .slice e, b => (∃ f, fr[b]? = some f ∧ f.type = .slice ∧ f.size = 3 * x.W) ∧ Linked fr b (b + 1) (fun _ => True) ∧ Rep x fr e (b + 1)
  | .map k e, b => (∃ f, fr[b]? = some f ∧ f.type = .map ∧ f.size = x.W ∧ f.mapValueSize = e.size x ∧ (f.faststr = true → f.mapValueSize ≤ 128)) ∧
      Linked fr b (b + 1) k.Rep ∧ Linked fr b (b + 2) (fun c => c.offset = 0) ∧ Rep x fr e (b + 2)
  | .struct size fs, b => ∃ f, fr[b]? = some f ∧ f.type = .struct ∧ f.size = size ∧ RepFields x fr b fs (b + 1) f.fields
  | .ptr e, b => (∃ f, fr[b]? = some f ∧ f.type = .ptr ∧ f.size = x.W) ∧ Linked fr b (b + 1) (fun c => c.offset = 0) ∧ Rep x fr e (b + 1)
  | .any, b => ∃ f, fr[b]? = some f ∧ f.type = .any ∧ f.size = 2 * x.W
  | .number, b => ∃ f, fr[b]? = some f ∧ f.type = .number ∧ f.size = 2 * x.W
  | .scalar k, b => ∃ f, fr[b]? = some f ∧ f.type = .scalar k ∧ f.size = k.bytes x
  | .quoted k, b => ∃ f, fr[b]? = some f ∧ f.type = .quoted k ∧ f.size = k.bytes x
  | .array0, b => ∃ f, fr[b]? = some f ∧ f.type = .arrayLen0 ∧ f.size = 0
  | .sliceOf k, b => ∃ f, fr[b]? = some f ∧ f.type = .sliceOf k ∧ f.size = 3 * x.W
  | .sliceES, b => ∃ f, fr[b]? = some f ∧ f.type = .sliceEmptyStruct ∧ f.size = 3 * x.W
  | .mapSS, b => ∃ f, fr[b]? = some f ∧ f.type = .mapStringString ∧ f.size = x.W
  | .emptyStruct, b => ∃ f, fr[b]? = some f ∧ f.type = .emptyStruct ∧ f.size = 0
/-- The frames from `pos` on describe the fields of the struct at `b`, whose field table is the last argument. -/
def RepFields (x : Ext) (fr : List Frame) (b : Nat) : List (Bytes × Nat × Ty) → Nat → List (Bytes × Nat) → Prop
  | [], _, tbl => tbl = []
  | (n, o, t) :: fs, pos, tbl => ∃ tbl', tbl = (n, pos) :: tbl' ∧ Linked fr b pos (fun c => c.offset = o) ∧ Rep x fr t pos ∧
      RepFields x fr b fs (pos + t.width) tbl'
end

theorem Rep.frame {x : Ext} {fr : List Frame} {ty : Ty} {b : Nat} (h : Rep x fr ty b) :
    ∃ f, fr[b]? = some f ∧ f.type = ty.etype ∧ f.size = ty.size x := by
  cases ty <;> simp only [Rep] at h <;> simp only [Ty.etype, Ty.size]
  case array => exact h.1
  case slice => exact h.1
  case ptr => exact h.1
  case map => obtain ⟨⟨f, h1, h2, h3, -⟩, -⟩ := h; exact ⟨f, h1, h2, h3⟩
  case jsonU => obtain ⟨f, h1, h2, h3, -⟩ := h; exact ⟨f, h1, h2, h3⟩
  case textU => obtain ⟨f, h1, h2, h3, -⟩ := h; exact ⟨f, h1, h2, h3⟩
  case struct => obtain ⟨f, h1, h2, h3, -⟩ := h; exact ⟨f, h1, h2, h3⟩
  all_goals exact h

end Verif.Big
