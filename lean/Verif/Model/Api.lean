import Verif.Model.Decode
/-!
# `NewDecoder`, `Decode`, `Unmarshal`

The result of the tokenizer on the input is a parameter: `Except.ok doc` with the syntax tree of a valid document, or
`Except.error (index, code)`.
-/
namespace Verif.Model

/-- `Decoder`: jscandec.go:505-513: the frames and their mutable part; `calls` counts the runs of the token loop. -/
structure Decoder where
  frames : List Frame
  dyn : Nat → Dyn
  calls : Nat

/-- State of the frames right after `appendTypeToStack`. -/
def freshDyn (frames : List Frame) : Nat → Dyn := fun i =>
  match frames[i]? with
  | some f => { offset := f.offset }
  | none => {}

/-- `NewDecoder` result. -/
inductive NewRes
  | ok (d : Decoder)
  | err (e : Err)
  | panic
  | diverges

/-- `NewDecoder`: jscandec.go:519-537; `t` is `reflect.TypeOf(z)` for the zero value `z` of `T` (nil for interface types). `depth` bounds the recursion depth of
`appendTypeToStack`. -/
def newDecoder (env : TypeEnv) (W : Nat) (options : Option InitOptions) (depth : Nat) (t : Option TypeId) : NewRes :=
  match appendType env W options depth [] t with
  | .ok frames => .ok ⟨frames, freshDyn frames, 0⟩
  | .err e => .err e
  | .panic => .panic
  | .fuel => .diverges

/-- A bound on the number of steps of the machine (theorem C45 shows that it is never reached). -/
def fuelFor (pr : Prog) : Nat := (pr.toks.length + 1) * (2 * pr.frames.length + 3)

/-- The initial state: `si = 0`, `ti = 0`, `stackExp[0].Dest = t`. -/
def initSt (dyn : Nat → Dyn) (mem : Block) : St :=
  { ti := 0, si := 0, pc := .loop, dyn := upd dyn 0 fun y => { y with dest := .at ⟨[], 0⟩ }, mem := mem }

/-- The deferred function: jscandec.go:718-722. -/
def resetDests (d : Nat → Dyn) : Nat → Dyn := fun i => { d i with dest := .nil }

/-- Result of `Decode`: `(errIndex, err)`, the destination memory, and the decoder for the next call. -/
structure DecodeRes where
  errIndex : Int
  err : Option Err
  mem : Option Block
  dec : Decoder

/-- `Decode`: jscandec.go:715-2724. `t` is the memory of `*t`, `none` for a nil pointer; `none` as a result is a panic. -/
def decode (x : Ext) (d : Decoder) (src : Bytes) (doc : Except (Nat × Nat) JVal) (t : Option Block) (options : Option Options) :
    Option DecodeRes :=
  match t with
  | none => some ⟨0, some .nilDest, none, { d with dyn := resetDests d.dyn }⟩
  | some mem =>
    match doc with
    | .error (i, c) =>
      if d.frames = [] then none
      else some ⟨i, some (.syntax c), some mem, { d with dyn := resetDests (initSt d.dyn mem).dyn }⟩
    | .ok v =>
      let pr : Prog := { x := x, src := src, toks := flatten 0 v, frames := d.frames, options := options, epoch := d.calls }
      match d.frames with
      | [] => none
      | f0 :: _ =>
        match run pr (fuelFor pr) (initSt d.dyn mem) with
        | .err i e s => some ⟨i, some e, some s.mem, { d with dyn := resetDests s.dyn, calls := d.calls + 1 }⟩
        | .done s =>
          -- *t = *(*T)(d.stackExp[0].Dest)
          match (readSeg s.mem (s.dyn 0).dest f0.size).bind fun b => blit s.mem 0 b with
          | none => none
          | some m => some ⟨-1, none, some m, { d with dyn := resetDests s.dyn, calls := d.calls + 1 }⟩
        | _ => none

/-- Result of `Unmarshal`. -/
inductive UnmarshalRes
  | ret (err : Option Err) (mem : Option Block)
  | panic
  | diverges

/-- `Unmarshal`: jscandec.go:483-503. `t` is `reflect.TypeOf(*t)`, which for an interface type `T` is the dynamic type of the current value. -/
def unmarshal (x : Ext) (env : TypeEnv) (depth : Nat) (ty : Option TypeId) (src : Bytes) (doc : Except (Nat × Nat) JVal) (t : Option Block) :
    UnmarshalRes :=
  match t with
  | none => .ret (some .nilDest) none
  | some mem =>
    match newDecoder env x.W (some defaultInitOptions) depth ty with
    | .diverges => .diverges
    | .panic => .panic
    | .err e => .ret (some e) (some mem)
    | .ok d =>
      match decode x d src doc (some mem) (some defaultOptions) with
      | none => .panic
      | some r => if r.err = some .stringTag then .ret none r.mem else .ret r.err r.mem

end Verif.Model
