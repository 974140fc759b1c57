import Verif.Model.IntKind
/-!
# Memory: cells, blocks, addresses

The decoder works with raw pointers (`unsafe.Pointer(uintptr(Dest) + Offset)`). The model is an ownership tree: a block of memory is a list of cells indexed by byte
offset; a value of `n` bytes at offset `o` is its cell at index `o` followed by `n - 1` cells `pad`;
zeroed memory consists of cells `zero`, which read as the zero value of every type. Pointers, slice headers and maps own the
memory they refer to, so an address is the path of owning cells plus an offset in the last block.
Every access is bounds-checked; an access outside a block, through nil or through a cell of another kind is a crash (`none`).
Not represented: sharing of one block by two pointers of the user, and orphaned blocks.
-/
namespace Verif.Model

/-- A floating-point value, as its IEEE-754 bits; floating-point arithmetic is never done by the model. -/
abbrev Flt := Nat

/-- A Go string: its bytes, and whether it shares memory with the input text (`Decode` with `S = string` does not copy). -/
structure Str where
  bytes : Bytes
  shared : Bool
  deriving DecidableEq, Repr

/-- Map keys. `opaque` is a key produced by `UnmarshalText`. -/
inductive Key
  | str (s : Str)
  | int (i : Int)
  | opaque (b : Bytes)
  deriving DecidableEq, Repr

/-- Go's `==` on map keys: where the bytes of a string live does not matter. -/
def Key.same : Key → Key → Bool
  | .str a, .str b => a.bytes == b.bytes
  | .int a, .int b => a == b
  | .opaque a, .opaque b => a == b
  | _, _ => false

/-- Contents of an `any` produced by the decoder (`decodeAny`, jscandec.go:2799-2847); `other` is any value the user put there. -/
inductive AnyVal
  | null
  | bool (b : Bool)
  | num (f : Flt)
  | str (s : Str)
  | arr (es : List AnyVal)
  | obj (ms : List (Str × AnyVal))
  | other (id : Nat)

/-- One cell of memory. `slice len cap arr`: a slice header with its backing array (`cap` elements); `map` holds the entries in order of
insertion. -/
inductive Cell
  | zero
  | pad
  | bool (b : Bool)
  | int (i : Int)
  | flt (f : Flt)
  | str (s : Str)
  | any (v : AnyVal)
  | user (b : Bytes)
  | ptr (blk : List Cell)
  | slice (len cap : Nat) (arr : List Cell)
  | map (entries : List (Key × List Cell))

/-- A block of memory, indexed by byte offset. -/
abbrev Block := List Cell

/-- `n` bytes of zeroed memory. -/
def zeros (n : Nat) : Block := List.replicate n .zero

/-- The `n`-byte image of a value. -/
def seg (n : Nat) (c : Cell) : Block :=
  match n with
  | 0 => []
  | n + 1 => c :: List.replicate n .pad

/-- Overwrite the bytes from `off` on with `s`; fails outside the block. -/
def blit (b : Block) (off : Nat) (s : Block) : Option Block :=
  if off + s.length ≤ b.length then some (b.take off ++ s ++ b.drop (off + s.length)) else none

/-- Entry of a map. -/
def lookupKey (k : Key) : List (Key × Block) → Option Block
  | [] => none
  | e :: es => if e.1.same k then some e.2 else lookupKey k es

/-- Replace the contents of an existing entry. -/
def putKey (k : Key) (b : Block) : List (Key × Block) → List (Key × Block)
  | [] => []
  | e :: es => if e.1.same k then (e.1, b) :: es else e :: putKey k b es

/-- Which memory owned by a cell is meant. -/
inductive Sel
  | deref           -- the pointee of a pointer
  | arr             -- the backing array of a slice
  | entry (k : Key) -- the value cell of a map entry
  deriving DecidableEq, Repr

/-- The block a cell owns. -/
def ownedBlock : Cell → Sel → Option Block
  | .ptr b, .deref => some b
  | .slice _ _ a, .arr => some a
  | .map es, .entry k => lookupKey k es
  | _, _ => none

/-- The cell with the block it owns replaced. -/
def setOwned : Cell → Sel → Block → Cell
  | .ptr _, .deref, b => .ptr b
  | .slice l c _, .arr, b => .slice l c b
  | .map es, .entry k, b => .map (putKey k b es)
  | c, _, _ => c

/-- One step of an address: the offset of the owning cell in its block and the selector. -/
structure Step where
  off : Nat
  sel : Sel
  deriving DecidableEq, Repr

/-- The block at the end of a path. -/
def getBlock : Block → List Step → Option Block
  | b, [] => some b
  | b, s :: p =>
    match b[s.off]? with
    | none => none
    | some c =>
      match ownedBlock c s.sel with
      | none => none
      | some b' => getBlock b' p

/-- Replace the block at the end of a path. -/
def putBlock : Block → List Step → Block → Option Block
  | _, [], n => some n
  | b, s :: p, n =>
    match b[s.off]? with
    | none => none
    | some c =>
      match ownedBlock c s.sel with
      | none => none
      | some b' =>
        match putBlock b' p n with
        | none => none
        | some b'' => some (b.set s.off (setOwned c s.sel b''))

/-- An address: a path of owning cells and an offset in the last block. -/
structure Addr where
  path : List Step
  off : Nat
  deriving DecidableEq, Repr

/-- The value of an `unsafe.Pointer` of the decoder. `stale` is a pointer into the destination of an earlier `Decode` call
(the recursion stack can hold such pointers). -/
inductive Ptr
  | nil
  | stale
  | at (a : Addr)
  deriving DecidableEq, Repr

/-- `unsafe.Pointer(uintptr(p) + off)`. -/
def Ptr.add : Ptr → Nat → Ptr
  | .at a, n => .at { a with off := a.off + n }
  | p, _ => p

/-- Go's pointer conversion of a slice/pointer/map datum: the memory owned by the cell at `a`. -/
def Addr.into (a : Addr) (s : Sel) : Addr := { path := a.path ++ [⟨a.off, s⟩], off := 0 }

/-- The cell at a pointer. -/
def readCell (m : Block) : Ptr → Option Cell
  | .at a => (getBlock m a.path).bind fun b => b[a.off]?
  | _ => none

/-- `n` bytes at a pointer. -/
def readSeg (m : Block) (p : Ptr) (n : Nat) : Option Block :=
  match p with
  | .at a => (getBlock m a.path).bind fun b => if a.off + n ≤ b.length then some ((b.drop a.off).take n) else none
  | _ => none

/-- Store bytes at a pointer. -/
def writeSeg (m : Block) (p : Ptr) (s : Block) : Option Block :=
  match p with
  | .at a => (getBlock m a.path).bind fun b => (blit b a.off s).bind fun b' => putBlock m a.path b'
  | _ => none

end Verif.Model
