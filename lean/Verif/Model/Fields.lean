import Verif.Model.Ext
/-!
# Field lookup

`fields` is the list of (`Name`, `FrameIndex`) of a struct frame (`fieldStackFrame`, jscandec.go:385-393); `none` is `noParentFrame`.
-/
namespace Verif.Model

/-- The search with a match predicate `eq`, four fields at a time and then one by one: the shape of the
loops at jscandec.go:2284-2307, 2754-2772 and 2777-2795. -/
def searchBy4 (eq : Bytes → Bool) : List (Bytes × Nat) → Option Nat
  | f0 :: f1 :: f2 :: f3 :: rest =>
    if eq f0.1 then some f0.2
    else if eq f1.1 then some f1.2
    else if eq f2.1 then some f2.2
    else if eq f3.1 then some f3.2
    else searchBy4 eq rest
  | fs => searchTail fs
where
  /-- `for i := range f { ... }` over the remaining fields. -/
  searchTail : List (Bytes × Nat) → Option Nat
    | [] => none
    | f :: fs => if eq f.1 then some f.2 else searchTail fs

/-- The exact search: jscandec.go:2281-2308 (in `Decode`) and 2752-2773 (in `fieldFrameIndexByName`). -/
def exactSearch (fields : List (Bytes × Nat)) (name : Bytes) : Option Nat :=
  searchBy4 (fun n => n == name) fields

/-- `fieldFrameIndexByName`: jscandec.go:2751-2797. -/
def fieldFrameIndexByName (x : Ext) (fields : List (Bytes × Nat)) (name : Bytes) : Option Nat :=
  match exactSearch fields name with
  | some i => some i
  | none => searchBy4 (fun n => n.length == name.length && x.equalFold n name) fields

/-- The name that is looked up for a key with raw text `raw`: jscandec.go:2275-2278; `none` is a panic. -/
def keyName (o : Options) (raw : Bytes) : Option Bytes :=
  if o.disableFieldNameUnescaping then some raw else Unescape.valid raw

/-- The field selected by an object key name: jscandec.go:2279-2312. -/
def findField (x : Ext) (o : Options) (fields : List (Bytes × Nat)) (name : Bytes) : Option Nat :=
  if o.disableCaseInsensitiveMatching then exactSearch fields name
  else fieldFrameIndexByName x fields name

end Verif.Model
