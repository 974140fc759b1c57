import Verif.Model.Ext
/-!
# Types, stack frames and `appendTypeToStack`

A Go type is a node of a graph `TypeEnv` (recursive types are cycles), holding what the code asks `reflect` for.
-/
namespace Verif.Model

/-- Float kinds. -/
inductive FKind
  | f32 | f64
  deriving DecidableEq, Repr

/-- Scalar kinds with their own `ExpectType…`, `ExpectTypeSlice…` and `ExpectType…String` constants (jscandec.go:98-231). -/
inductive SKind
  | bool
  | str
  | int (k : IKind)
  | flt (k : FKind)
  deriving DecidableEq, Repr

/-- `ExpectType`: jscandec.go:49-232, with the constants for scalar kinds grouped:
`sliceOf k` is `ExpectTypeSlice<k>`, `scalar k` is `ExpectType<k>`, `quoted k` is `ExpectType<k>String`. -/
inductive EType
  | number | jsonUnmarshaler | textUnmarshaler | ptr | ptrRecur | any
  | map | mapStringString | mapRecur | array | arrayLen0
  | slice | sliceRecur | sliceEmptyStruct | sliceOf (k : SKind)
  | struct | structRecur | emptyStruct
  | scalar (k : SKind) | quoted (k : SKind)
  deriving DecidableEq, Repr

/-- `isElemComposite`: jscandec.go:360-383. -/
def EType.isElemComposite : EType → Bool
  | .ptr | .arrayLen0 | .emptyStruct | .scalar _ => false
  | _ => true

/-- `reflect.Kind`; `other` are the kinds without a case (chan, func, complex, uintptr, unsafe pointer). -/
inductive Kind
  | bool | string | int (k : IKind) | float (k : FKind)
  | interface | array | slice | map | struct | pointer | other
  deriving DecidableEq, Repr

/-- `reflect.StructField`; `tag` is `Tag.Get("json")`. -/
structure FieldInfo where
  name : Bytes
  tag : Bytes
  type : TypeId
  offset : Nat
  deriving DecidableEq, Repr

/-- What the code asks a `reflect.Type` for. -/
structure TypeInfo where
  kind : Kind
  size : Nat := 0
  elem : TypeId := 0
  key : TypeId := 0
  len : Nat := 0
  numMethod : Nat := 0
  fields : List FieldInfo := []
  /-- `determineJSONUnmarshalerSupport(t) != interfaceSupportNone`: jscandec.go:629-637 -/
  implJSON : Bool := false
  /-- `determineTextUnmarshalerSupport(t) != interfaceSupportNone`: jscandec.go:644-652 -/
  implText : Bool := false
  /-- `t == tpNumber`: jscandec.go:47 -/
  isNumber : Bool := false
  deriving Repr

/-- The types of a program. -/
abbrev TypeEnv := TypeId → TypeInfo

/-- `canUseAssignFaststr`: jscandec.go:2895-2897. -/
def canUseAssignFaststr (env : TypeEnv) (mapType : TypeId) : Bool :=
  decide ((env (env mapType).elem).size ≤ 128) && decide ((env (env mapType).key).kind = .string)

/-- `stackFrame`, the part that `Decode` does not change: jscandec.go:406-461. `mapValueTyp` is `MapValueType` and `mapValueSize` its size; `offset` is the initial
`Offset`; `parent = none` is `noParentFrame`. `typ` is `Typ` (a nil pointer for a nil `reflect.Type`). `faststr` is `MapCanUseAssignFaststr`. `ptrImpl` is whether `*RType` has the unmarshaler method (a fact about `RType`, used by the type assertions at jscandec.go:1001-1003, 2363-2364, 2706). -/
structure Frame where
  type : EType
  size : Nat
  fields : List (Bytes × Nat) := []
  rtype : Option TypeId := none
  ptrImpl : Bool := false
  mapValueSize : Nat := 0
  faststr : Bool := false
  cap : Nat := 0
  recurFrame : Nat := 0
  offset : Nat := 0
  parent : Option Nat := none
  typ : Option TypeId := none
  mapValueTyp : Option TypeId := none
  deriving DecidableEq, Repr

/-- Outcome of `appendTypeToStack`. `fuel`: the recursion is deeper than the fuel. -/
inductive AppendRes
  | ok (stack : List Frame)
  | err (e : Err)
  | panic
  | fuel
  deriving DecidableEq, Repr

/-- Index of the first frame with `RType == elem`: the loop `for i := range stack` at append_type_stack.go:90-104, 229-256, 510-524. -/
def findRType (elem : TypeId) : List Frame → Option Nat
  | [] => none
  | f :: fs => if f.rtype = some elem then some 0 else (findRType elem fs).map (· + 1)

/-- `stack[i].Type = ExpectTypeStructRecur` (the `RecursionStack` starts empty anyway). -/
def markRecur (stack : List Frame) (i : Nat) : List Frame :=
  stack.modify i fun f => { f with type := .structRecur }

/-- Comma position: `strings.IndexByte(jsonTag, ',')`. -/
def indexComma : Bytes → Option Nat
  | [] => none
  | c :: cs => if c = 44 then some 0 else (indexComma cs).map (· + 1)

/-- Name and `string` option of a field, `none` if it is ignored: append_type_stack.go:318-336. -/
def parseTag (goName tag : Bytes) : Option (Bytes × Bool) :=
  if tag = [] then some (goName, false)
  else
    let (name, optionString) :=
      match indexComma tag with
      | none => (tag, false)
      | some i => (tag.take i, decide (tag.drop (i + 1) = b!"string"))
    if name = [] then some (goName, optionString)
    else if name = b!"-" then none
    else some (name, optionString)

/-- The frame type of a field with the `string` option, `none` if the type does not support it: append_type_stack.go:358-394. -/
def retagString : EType → Option EType
  | .scalar k => some (.quoted k)
  | _ => none

/-- The fields loop of the struct case: append_type_stack.go:317-395. `rec` is the recursive call. -/
def appendFields (rec : List Frame → TypeId → AppendRes) (options : Option InitOptions) (parentIndex : Nat) :
    List FieldInfo → List Frame → AppendRes
  | [], stack => .ok stack
  | f :: fs, stack =>
    match parseTag f.name f.tag with
    | none => appendFields rec options parentIndex fs stack
    | some (name, optionString) =>
      let newAtIndex := stack.length
      match rec stack f.type with
      | .ok stack =>
        let stack := stack.modify parentIndex fun p => { p with fields := p.fields ++ [(name, newAtIndex)] }
        let stack := stack.modify newAtIndex fun g => { g with offset := f.offset, parent := some parentIndex }
        if optionString then
          match stack[newAtIndex]? with
          | none => .panic
          | some g =>
            match retagString g.type with
            | some t => appendFields rec options parentIndex fs (stack.modify newAtIndex fun g => { g with type := t })
            | none =>
              match options with
              | none => .panic -- nil pointer dereference
              | some o =>
                if o.disallowStringTagOptOnUnsupportedTypes then .err .stringTag
                else appendFields rec options parentIndex fs stack
        else appendFields rec options parentIndex fs stack
      | r => r

/-- `stack[i].ParentFrameIndex = parentIndex` after the recursive call that created frame `i`. -/
def linkParent (parentIndex i : Nat) : AppendRes → AppendRes
  | .ok stack => .ok (stack.modify i fun f => { f with parent := some parentIndex })
  | r => r

/-- Scalar kind of a `reflect.Kind`. -/
def Kind.scalar? : Kind → Option SKind
  | .bool => some .bool
  | .string => some .str
  | .int k => some (.int k)
  | .float k => some (.flt k)
  | _ => none

/-- `appendTypeToStack`: append_type_stack.go:12-545. `t = none` is a nil `reflect.Type`; `W` is the word size. -/
def appendType (env : TypeEnv) (W : Nat) (options : Option InitOptions) : Nat → List Frame → Option TypeId → AppendRes
  | 0, _, _ => .fuel
  | fuel + 1, stack, t =>
    match t with
    | none => .ok (stack ++ [{ type := .any, size := 2 * W }])
    | some t =>
      let i := env t
      let rec' : List Frame → TypeId → AppendRes := fun s t => appendType env W options fuel s (some t)
      let impl := decide (i.kind ≠ .pointer ∧ i.kind ≠ .interface)
      if i.implJSON then .ok (stack ++ [{ type := .jsonUnmarshaler, rtype := some t, ptrImpl := impl, size := i.size, typ := some t }])
      else if i.implText then .ok (stack ++ [{ type := .textUnmarshaler, rtype := some t, ptrImpl := impl, size := i.size, typ := some t }])
      else match i.kind with
      | .interface => -- lines 39-49
        if i.numMethod ≠ 0 then .panic
        else .ok (stack ++ [{ type := .any, size := 2 * W, typ := some t }])
      | .array => -- lines 50-77
        if i.len = 0 then .ok (stack ++ [{ type := .arrayLen0, size := 0, typ := some t }])
        else
          let parentIndex := stack.length
          match rec' (stack ++ [{ type := .array, size := i.size, typ := some t }]) i.elem with
          | .ok stack => .ok (stack.modify (parentIndex + 1) fun f => { f with parent := some parentIndex, cap := i.len })
          | r => r
      | .slice => -- lines 79-213
        let e := env i.elem
        let plain : AppendRes :=
          let parentIndex := stack.length
          linkParent parentIndex (parentIndex + 1) (rec' (stack ++ [{ type := .slice, size := i.size, typ := some t }]) i.elem)
        match e.kind with
        | .struct =>
          if e.size < 1 then .ok (stack ++ [{ type := .sliceEmptyStruct, size := i.size, typ := some t }])
          else match findRType i.elem stack with
            | some j => .ok (markRecur stack j ++ [{ type := .sliceRecur, size := i.size, recurFrame := j, typ := some t }])
            | none => plain
        | .string => if e.isNumber then plain else .ok (stack ++ [{ type := .sliceOf .str, size := i.size, typ := some t }])
        | .bool => .ok (stack ++ [{ type := .sliceOf .bool, size := i.size, typ := some t }])
        | .int k => .ok (stack ++ [{ type := .sliceOf (.int k), size := i.size, typ := some t }])
        | .float k => .ok (stack ++ [{ type := .sliceOf (.flt k), size := i.size, typ := some t }])
        | _ => plain
      | .map => -- lines 215-290
        let parentIndex := stack.length
        let e := env i.elem
        match (if e.kind = .struct ∧ 0 < e.size then findRType i.elem stack else none) with
        | some j =>
          linkParent parentIndex (parentIndex + 1)
            (rec' (markRecur stack j ++ [{ type := .mapRecur, size := i.size, mapValueSize := e.size, mapValueTyp := some i.elem, faststr := canUseAssignFaststr env t, recurFrame := j, typ := some t }]) i.key)
        | none =>
          if (env i.key).kind = .string ∧ e.kind = .string then
            .ok (stack ++ [{ type := .mapStringString, rtype := some t, size := i.size, typ := some t }])
          else
            match linkParent parentIndex (parentIndex + 1)
                (rec' (stack ++ [{ type := .map, rtype := some t, size := i.size, mapValueSize := e.size, mapValueTyp := some i.elem, faststr := canUseAssignFaststr env t, typ := some t }]) i.key) with
            | .ok stack => linkParent parentIndex stack.length (rec' stack i.elem)
            | r => r
      | .struct => -- lines 292-404
        let parentIndex := stack.length
        if i.fields = [] then .ok (stack ++ [{ type := .emptyStruct, size := i.size, typ := some t }])
        else appendFields rec' options parentIndex i.fields (stack ++ [{ type := .struct, rtype := some t, size := i.size, typ := some t }])
      | .bool => .ok (stack ++ [{ type := .scalar .bool, size := i.size, typ := some t }]) -- lines 406-489
      | .string =>
        if i.isNumber then .ok (stack ++ [{ type := .number, size := i.size, typ := some t }])
        else .ok (stack ++ [{ type := .scalar .str, size := i.size, typ := some t }])
      | .int k => .ok (stack ++ [{ type := .scalar (.int k), size := i.size, typ := some t }])
      | .float k => .ok (stack ++ [{ type := .scalar (.flt k), size := i.size, typ := some t }])
      | .pointer => -- lines 490-527
        let parentIndex := stack.length
        let e := env i.elem
        match (if e.kind = .struct ∧ 0 < e.size then findRType i.elem stack else none) with
        | some j => .ok (markRecur stack j ++ [{ type := .ptrRecur, size := i.size, recurFrame := j, typ := some t }])
        | none => linkParent parentIndex (parentIndex + 1) (rec' (stack ++ [{ type := .ptr, size := i.size, typ := some t }]) i.elem)
      | .other => .err (.unsupportedType t) -- line 529

end Verif.Model
